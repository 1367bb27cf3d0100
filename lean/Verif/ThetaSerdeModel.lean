import Verif.Writer
import Verif.ThetaModel
import Verif.BitStreamProps

/-!
# Model of theta/encoder.go, theta/decoder.go, theta/wrapped_compact_sketch.go and the size
computations of theta/compact_sketch.go

The writer `enc.w` is assumed to accept all bytes; `Encode` returns the bytes handed to it.
`ComputeSeedHash(seed)` (a murmur hash, error when it is 0) is the parameter `seedHash`.
-/

namespace Verif.Theta

open BitPack

/-- `64 - bits.LeadingZeros64(x)` (and the 32-bit variant): number of significant bits -/
def bitLen (x : Nat) : Nat := if x = 0 then 0 else Nat.log2 x + 1

/-- `IsEstimationMode` compact_sketch.go l.177-179 -/
def Compact.isEstimation (c : Compact) : Bool := decide (c.theta < maxTheta) && !c.isEmpty

/-- `preambleLongs` compact_sketch.go l.256-271 -/
def Compact.preLongs (c : Compact) (compressed : Bool) : Nat :=
  if compressed then if c.isEstimation then 2 else 1
  else if c.isEstimation then 3
  else if c.isEmpty || c.entries.length == 1 then 1
  else 2

/-- uint64 differences to the previous entry, encoder.go l.116-119, l.132-133,
compact_sketch.go l.307-311 -/
def deltas : Nat → List Nat → List Nat
  | _, [] => []
  | prev, e :: l => (e + (2 ^ 64 - prev % 2 ^ 64)) % 2 ^ 64 :: deltas e l

/-- `isSuitableForCompression` compact_sketch.go l.293-300 -/
def Compact.suitable (c : Compact) : Bool :=
  !(!c.isOrdered || c.entries.length == 0 || (c.entries.length == 1 && !c.isEstimation))

/-- `computeEntryBits` compact_sketch.go l.302-314 -/
def Compact.entryBits (c : Compact) : Nat := bitLen ((deltas 0 c.entries).foldl (· ||| ·) 0)

/-- `wholeBytesToHoldBits` compact_sketch.go l.330-336 -/
def wholeBytes (bits : Nat) : Nat := bits / 8 + (if bits % 8 > 0 then 1 else 0)

/-- `numEntriesBytes` compact_sketch.go l.316-323 -/
def Compact.numEntriesBytes (c : Compact) : Nat :=
  if c.entries.length % 2 ^ 32 = 0 then 1 else wholeBytes (bitLen (c.entries.length % 2 ^ 32))

/-- `compressedSerializedSizeBytes` compact_sketch.go l.325-328 -/
def Compact.compressedSize (c : Compact) (entryBits numEntriesBytes : Nat) : Nat :=
  c.preLongs true * 8 + numEntriesBytes + wholeBytes (entryBits * c.entries.length)

/-- `SerializedSizeBytes` compact_sketch.go l.284-291 -/
def Compact.serializedSize (c : Compact) (compressed : Bool) : Nat :=
  if compressed && c.suitable then c.compressedSize c.entryBits c.numEntriesBytes
  else c.preLongs false * 8 + c.entries.length * 8

/-! ## Encoder -/

/-- optional theta field (encoder.go l.98-101, l.197-200) -/
def wrTheta (c : Compact) (k : Cursor) : Outcome Cursor :=
  if c.isEstimation then wr (toLE 8 c.theta) k else .ok k

/-- the entries loop encoder.go l.202-205 -/
def wrEntries : List Nat → Cursor → Outcome Cursor
  | [], k => .ok k
  | e :: l, k => do
    let k ← wr (toLE 8 e) k
    wrEntries l k

/-- number of entries field encoder.go l.189-195 -/
def wrNum (c : Compact) (preLongs : Nat) (k : Cursor) : Outcome Cursor :=
  if preLongs > 1 then do
    let k ← wr (toLE 4 c.entries.length) k
    skip 4 k
  else .ok k

/-- flags encoder.go l.172-180: compact (bit 3), read-only (bit 1), empty (bit 2), ordered (bit 4) -/
def flagsV3 (c : Compact) : Nat :=
  8 + 2 + (if c.isEmpty then 4 else 0) + (if c.isOrdered then 16 else 0)

/-- `encodeWithoutCompression` encoder.go l.141-157 with `encodeSketch` l.159-206 -/
def encodeV3 (c : Compact) : Outcome (List Nat) := do
  let pre := c.preLongs false
  let k : Cursor := (List.replicate (c.serializedSize false) 0, 0)
  let k ← wr [pre] k
  let k ← wr [3] k
  let k ← wr [3] k
  let k ← skip 2 k
  let k ← wr [flagsV3 c] k
  let k ← wr (toLE 2 c.seedHash) k
  let k ← wrNum c pre k
  let k ← wrTheta c k
  let k ← wrEntries c.entries k
  pure k.1

/-- the last loop of `encodeVersion4` l.129-136, on the slice `bytes[offset:]` -/
def wrRest (n : Nat) (ds : List Nat) (k : Cursor) : Outcome (List Nat) :=
  match packSeq n ds (k.1.drop k.2) 0 0 with
  | none => .panic
  | some (out, _, _) => .ok (k.1.take k.2 ++ out)

/-- packing one block on the slice `bytes[offset:]`, l.120-124 -/
def wrBlock (n : Nat) (ds : List Nat) (k : Cursor) : Outcome Cursor :=
  match packBlock8 ds (k.1.drop k.2) n with
  | none => .panic
  | some none => .err "wrong number of bits in packBitsBlock8"
  | some (some out) => .ok (k.1.take k.2 ++ out, k.2 + n)

/-- the two loops of `encodeVersion4` l.110-136 -/
def wrPacked (n : Nat) : Nat → List Nat → Cursor → Outcome (List Nat)
  | prev, e0 :: e1 :: e2 :: e3 :: e4 :: e5 :: e6 :: e7 :: l, k => do
    let k ← wrBlock n (deltas prev [e0, e1, e2, e3, e4, e5, e6, e7]) k
    wrPacked n e7 l k
  | prev, l, k => wrRest n (deltas prev l) k

/-- `encodeWithCompression` l.46-70 (suitable case) with `encodeVersion4` l.72-139; the flag byte is
compact | read-only | ordered -/
def encodeV4 (c : Compact) : Outcome (List Nat) := do
  let eb := c.entryBits
  let nb := c.numEntriesBytes
  let k : Cursor := (List.replicate (c.compressedSize eb nb) 0, 0)
  let k ← wr [c.preLongs true] k
  let k ← wr [4] k
  let k ← wr [3] k
  let k ← wr [eb] k
  let k ← wr [nb] k
  let k ← wr [26] k
  let k ← wr (toLE 2 c.seedHash) k
  let k ← wrTheta c k
  let k ← wr (toLE nb (c.entries.length % 2 ^ 32)) k
  wrPacked eb 0 c.entries k

/-- `Encode` encoder.go l.39-70 -/
def encode (c : Compact) (compressed : Bool) : Outcome (List Nat) :=
  if compressed && c.suitable then encodeV4 c else encodeV3 c

/-! ## Decoder -/

/-- `compactSketchData` decoder.go l.112-121 -/
structure Data where
  theta : Nat
  start : Nat
  num : Nat
  seedHash : Nat
  entryBits : Nat
  isEmpty : Bool
  isOrdered : Bool
  deriving DecidableEq, Repr

/-- `validateMemorySize` decoder.go l.410-416 -/
def validateSize (bytes : List Nat) (n : Nat) : Outcome Unit :=
  if bytes.length < n then .err "at least bytes expected" else .ok ()

/-- `CheckSeedHashEqual` utils.go l.47-49 -/
def checkSeed (a b : Nat) : Outcome Unit := if a = b then .ok () else .err "seed hash mismatch"

/-- optional theta field -/
def readTheta (has : Bool) (bytes : List Nat) (size off : Nat) : Outcome Nat :=
  if has then do
    let _ ← validateSize bytes size
    getLE bytes off 8
  else .ok maxTheta

/-- the loop decoder.go l.182-184 (`i << 3` is a uint8 shift) -/
def readNum (bytes : List Nat) (off : Nat) : Nat → Nat → Nat → Outcome Nat
  | 0, _, acc => .ok acc
  | c + 1, i, acc => do
    let b ← getLE bytes (off + i) 1
    readNum bytes off c (i + 1) (acc ||| ((b <<< (i * 8 % 256)) % 2 ^ 32))

/-- `decodeVersion4` decoder.go l.148-205 -/
def decodeV4 (seedHash : Outcome Nat) (bytes : List Nat) : Outcome Data := do
  let sh ← getLE bytes 6 2
  let expected ← seedHash
  let _ ← checkSeed sh expected
  let pre ← getLE bytes 0 1
  let hasTheta := decide (pre > 1)
  let theta ← readTheta hasTheta bytes 16 8
  let nb ← getLE bytes 4 1
  let off := if hasTheta then 16 else 8
  let _ ← validateSize bytes (off + nb)
  let num ← readNum bytes off nb 0 0
  let eb ← getLE bytes 3 1
  let _ ← validateSize bytes (off + nb + wholeBytes (eb * num))
  pure ⟨theta, off + nb, num, sh, eb, false, true⟩

/-- the non-empty part of `decodeVersion3` l.231-280 -/
def decodeV3Rest (bytes : List Nat) (sh flags : Nat) : Outcome Data := do
  let pre ← getLE bytes 0 1
  let hasTheta := decide (pre > 2)
  let theta ← readTheta hasTheta bytes 24 16
  if pre = 1 then do
    let _ ← validateSize bytes 16
    pure ⟨theta, 8, 1, sh, 64, false, true⟩
  else do
    let num ← getLE bytes 8 4
    let st := if hasTheta then 3 else 2
    let _ ← validateSize bytes ((st + num) * 8)
    pure ⟨theta, st * 8, num, sh, 64, false, flags.testBit 4⟩

/-- `decodeVersion3` decoder.go l.207-280 -/
def decodeV3 (seedHash : Outcome Nat) (bytes : List Nat) : Outcome Data := do
  let sh ← getLE bytes 6 2
  let flags ← getLE bytes 5 1
  if flags.testBit 2 then pure ⟨maxTheta, 0, 0, sh, 64, true, true⟩
  else do
    let expected ← seedHash
    let _ ← checkSeed sh expected
    decodeV3Rest bytes sh flags

/-- case 3 of `decodeVersion2` l.334-365 and the whole of `decodeVersion1` l.377-407 -/
def decodeOld (bytes : List Nat) (sh : Nat) : Outcome Data := do
  let num ← getLE bytes 8 4
  let theta ← getLE bytes 16 8
  if num = 0 ∧ theta = maxTheta then pure ⟨theta, 0, 0, sh, 64, true, true⟩
  else do
    let _ ← validateSize bytes ((3 + num) * 8)
    pure ⟨theta, 24, num, sh, 64, false, true⟩

/-- case 2 of `decodeVersion2` l.305-333 -/
def decodeV2Exact (bytes : List Nat) (sh : Nat) : Outcome Data := do
  let num ← getLE bytes 8 4
  if num = 0 then pure ⟨maxTheta, 0, 0, sh, 64, true, true⟩
  else do
    let _ ← validateSize bytes ((2 + num) * 8)
    pure ⟨maxTheta, 16, num, sh, 64, false, true⟩

/-- `decodeVersion2` decoder.go l.282-369 -/
def decodeV2 (seedHash : Outcome Nat) (bytes : List Nat) : Outcome Data := do
  let pre ← getLE bytes 0 1
  let sh ← getLE bytes 6 2
  let expected ← seedHash
  let _ ← checkSeed sh expected
  if pre = 1 then pure ⟨maxTheta, 0, 0, sh, 64, true, true⟩
  else if pre = 2 then decodeV2Exact bytes sh
  else if pre = 3 then decodeOld bytes sh
  else .err "invalid preamble size"

/-- `decodeVersion1` decoder.go l.371-408 -/
def decodeV1 (seedHash : Outcome Nat) (bytes : List Nat) : Outcome Data := do
  let sh ← seedHash
  decodeOld bytes sh

/-- `decodeCompactSketch` decoder.go l.123-146 -/
def decodeData (seedHash : Outcome Nat) (bytes : List Nat) : Outcome Data := do
  let _ ← validateSize bytes 8
  let ty ← getLE bytes 2 1
  if ty ≠ 3 then .err "invalid sketch type"
  else do
    let ver ← getLE bytes 1 1
    if ver = 4 then decodeV4 seedHash bytes
    else if ver = 3 then decodeV3 seedHash bytes
    else if ver = 2 then decodeV2 seedHash bytes
    else if ver = 1 then decodeV1 seedHash bytes
    else .err "unsupported serial version"

/-- the loop decoder.go l.60-63 -/
def readEntries (bytes : List Nat) (start : Nat) : Nat → Nat → Outcome (List Nat)
  | 0, _ => .ok []
  | c + 1, i => do
    let e ← getLE bytes (start + i * 8) 8
    let l ← readEntries bytes start c (i + 1)
    pure (e :: l)

/-- the tail loop decoder.go l.89-94 -/
def readTail (n : Nat) (ptr : List Nat) (c : Nat) : Outcome (List Nat) :=
  match unpackSeq n ptr c 0 0 with
  | none => .panic
  | some (vs, _, _) => .ok vs

/-- one block decoder.go l.81-84: the destination `entries[i:i+8]` still holds zeros -/
def readBlock (n : Nat) (ptr : List Nat) : Outcome (List Nat × List Nat) :=
  match unpackBlock8 (List.replicate 8 0) ptr n with
  | none => .panic
  | some none => .err "wrong number of bits in unpackBitsBlock8"
  | some (some vs) => if n ≤ ptr.length then .ok (vs, ptr.drop n) else .panic

/-- the two unpacking loops of `Decode` l.75-94; `c` is the number of entries still to read.  The
uint32 wrap of `i+7` (more than 2^32-8 entries) is not modelled. -/
def readPacked (n : Nat) (ptr : List Nat) (c : Nat) : Outcome (List Nat) :=
  if c ≥ 8 then do
    let (vs, ptr') ← readBlock n ptr
    let l ← readPacked n ptr' (c - 8)
    pure (vs ++ l)
  else readTail n ptr c
termination_by c

/-- undoing the deltas decoder.go l.97-101 (uint64 addition) -/
def undelta : Nat → List Nat → List Nat
  | _, [] => []
  | prev, d :: l => (d + prev) % 2 ^ 64 :: undelta ((d + prev) % 2 ^ 64) l

/-- the entries part of `Decode` -/
def decodeEntries (d : Data) (bytes : List Nat) : Outcome (List Nat) :=
  if d.entryBits = 64 then readEntries bytes d.start d.num 0
  else if d.start ≤ bytes.length then do
    let ds ← readPacked d.entryBits (bytes.drop d.start) d.num
    pure (undelta 0 ds)
  else .panic

/-- `Decode` decoder.go l.51-110 -/
def decode (seedHash : Outcome Nat) (bytes : List Nat) : Outcome Compact := do
  let d ← decodeData seedHash bytes
  let es ← decodeEntries d bytes
  pure (compactFromEntries d.isEmpty d.isOrdered d.seedHash d.theta es)

/-! ## Wrapped sketch -/

/-- the tail loop of `WrappedCompactSketch.All` wrapped_compact_sketch.go l.157-166 -/
def wrapTail (n : Nat) (bytes : List Nat) : Nat → Nat → Nat → Nat → Outcome (List Nat)
  | 0, _, _, _ => .ok []
  | c + 1, idx, off, prev =>
    match unpackBits n bytes idx off with
    | none => .panic
    | some (d, idx, off) => do
      let l ← wrapTail n bytes c idx off ((d + prev) % 2 ^ 64)
      pure ((d + prev) % 2 ^ 64 :: l)

/-- one block of `All` l.141-152: `buffer` is reused, `bytes[bytesIdx:]` panics past the end -/
def wrapBlock (n : Nat) (bytes buffer : List Nat) (idx : Nat) : Outcome (List Nat) :=
  if idx ≤ bytes.length then
    match unpackBlock8 buffer (bytes.drop idx) n with
    | some (some vs) => .ok vs
    | _ => .panic
  else .panic

/-- the loops of `All` l.130-166, iterated to the end -/
def wrapPacked (n : Nat) (bytes : List Nat) (c : Nat) (buffer : List Nat) (idx prev : Nat) :
    Outcome (List Nat) :=
  if c ≥ 8 then do
    let vs ← wrapBlock n bytes buffer idx
    let es := undelta prev vs
    let l ← wrapPacked n bytes (c - 8) es (idx + n) (es.getLastD prev)
    pure (es ++ l)
  else wrapTail n bytes c idx 0 prev
termination_by c

/-- `All` wrapped_compact_sketch.go l.110-168: the values yielded by a full iteration -/
def wrapAll (d : Data) (bytes : List Nat) : Outcome (List Nat) :=
  if d.entryBits = 64 then readEntries bytes d.start d.num 0
  else if d.start ≤ bytes.length then
    wrapPacked d.entryBits (bytes.drop d.start) d.num (List.replicate 8 0) 0 0
  else .panic

end Verif.Theta
