import Verif.Bytes

/-!
# Model of `filters/bloom_filter.go`, `filters/bit_array.go`, `filters/bloom_filter_builder.go`,
`filters/preamble_utils.go`

uint64 words and hash values are `BitVec 64` (wrap-around is built in).  `numHashes` is a uint16,
`capacityBits`, `numBitsSet` are naturals (the code keeps them below 2^37 resp. below the capacity;
`numBitsSet++` inside an update is always followed by setting the dirty flag).
-/

namespace Verif.Bloom

abbrev Word := BitVec 64

/-! ## bit_array.go -/

/-- `getBit` bit_array.go l.23-27 -/
def getBit (arr : List Word) (idx : Nat) : Outcome Bool := do
  let w ← Outcome.ofOption arr[idx >>> 6]?
  pure ((w &&& (1#64 <<< (idx &&& 0x3F))) != 0#64)

/-- `setBit` bit_array.go l.30-34 -/
def setBit (arr : List Word) (idx : Nat) : Outcome (List Word) := do
  let w ← Outcome.ofOption arr[idx >>> 6]?
  pure (arr.set (idx >>> 6) (w ||| (1#64 <<< (idx &&& 0x3F))))

/-- `getAndSetBit` bit_array.go l.54-61 -/
def getAndSetBit (arr : List Word) (idx : Nat) : Outcome (List Word × Bool) := do
  let w ← Outcome.ofOption arr[idx >>> 6]?
  let mask := 1#64 <<< (idx &&& 0x3F)
  pure (arr.set (idx >>> 6) (w ||| mask), (w &&& mask) != 0#64)

/-- `bits.OnesCount64` (standard library): number of one bits. -/
def onesCount (w : Word) : Nat := (List.range 64).countP (fun i => w.getLsbD i)

/-- `countBitsSet` bit_array.go l.64-70 -/
def countBitsSet (arr : List Word) : Nat := arr.foldl (fun c w => c + onesCount w) 0

/-- loop shared by `unionWith` l.74-81 and `intersect` l.85-92 (`for i := range target`):
`source[i]` out of range panics. -/
def combineWith (op : Word → Word → Word) : List Word → List Word → Outcome (List Word × Nat)
  | [], _ => .ok ([], 0)
  | _ :: _, [] => .panic
  | t :: ts, s :: ss => do
    let (r, c) ← combineWith op ts ss
    pure (op t s :: r, onesCount (op t s) + c)

/-- `unionWith` bit_array.go l.74-81 -/
def unionWith (t s : List Word) := combineWith (fun a b => a ||| b) t s

/-- `intersect` bit_array.go l.85-92 -/
def intersectWith (t s : List Word) := combineWith (fun a b => a &&& b) t s

/-- `invert` bit_array.go l.96-103 -/
def invertAll (arr : List Word) : List Word × Nat :=
  (arr.map (fun w => ~~~ w), (arr.map (fun w => onesCount (~~~ w))).foldl (· + ·) 0)

/-! ## bloom_filter.go -/

/-- `bloomFilterImpl` bloom_filter.go l.86-93 -/
structure Filter where
  seed : Word
  numHashes : Nat
  isDirty : Bool
  capacityBits : Nat
  numBitsSet : Nat
  bitArray : List Word
  deriving DecidableEq, Repr

/-- `BitsUsed` bloom_filter.go l.102-108: result and updated receiver. -/
def Filter.bitsUsed (f : Filter) : Filter × Nat :=
  if f.isDirty then
    let n := countBitsSet f.bitArray
    ({ f with numBitsSet := n, isDirty := false }, n)
  else (f, f.numBitsSet)

/-- `IsEmpty` bloom_filter.go l.96-98 -/
def Filter.isEmpty (f : Filter) : Filter × Bool :=
  let (f', n) := f.bitsUsed
  (f', n == 0)

/-- `Reset` bloom_filter.go l.126-133 -/
def Filter.reset (f : Filter) : Filter :=
  { f with bitArray := f.bitArray.map (fun _ => 0#64), numBitsSet := 0, isDirty := false }

/-- `getHashIndex` bloom_filter.go l.199-201; integer division by zero panics. -/
def Filter.hashIndex (f : Filter) (h0 h1 : Word) (i : Nat) : Outcome Nat :=
  if f.capacityBits = 0 then .panic
  else .ok (((h0 + BitVec.ofNat 64 i * h1) >>> 1).toNat % f.capacityBits)

/-- Loop of `internalUpdate` bloom_filter.go l.205-211.  `i` is a uint16 loop variable, so it wraps
from 65535 to 0; fuel exhaustion is the `panic` outcome. -/
def updateLoop (h0 h1 : Word) : Nat → Nat → Filter → Outcome Filter
  | 0, _, _ => .panic
  | fuel + 1, i, f =>
    if i ≤ f.numHashes then do
      let idx ← f.hashIndex h0 h1 i
      let b ← getBit f.bitArray idx
      if b then updateLoop h0 h1 fuel ((i + 1) % 65536) f
      else do
        let arr ← setBit f.bitArray idx
        updateLoop h0 h1 fuel ((i + 1) % 65536)
          { f with bitArray := arr, numBitsSet := f.numBitsSet + 1 }
    else .ok f

/-- fuel that covers every terminating run of a uint16 counted loop -/
def loopFuel : Nat := 65537

/-- `internalUpdate` bloom_filter.go l.204-213 -/
def Filter.update (f : Filter) (h : Word × Word) : Outcome Filter := do
  let f' ← updateLoop h.1 h.2 loopFuel 1 f
  pure { f' with isDirty := true }

/-- Loop of `internalQuery` bloom_filter.go l.220-226 -/
def queryLoop (h0 h1 : Word) (f : Filter) : Nat → Nat → Outcome Bool
  | 0, _ => .panic
  | fuel + 1, i =>
    if i ≤ f.numHashes then do
      let idx ← f.hashIndex h0 h1 i
      let b ← getBit f.bitArray idx
      if b then queryLoop h0 h1 f fuel ((i + 1) % 65536) else pure false
    else .ok true

/-- `internalQuery` bloom_filter.go l.216-227 (the receiver is updated by `IsEmpty`). -/
def Filter.query (f : Filter) (h : Word × Word) : Outcome (Filter × Bool) :=
  let (f', e) := f.isEmpty
  if e then .ok (f', false)
  else do
    let r ← queryLoop h.1 h.2 f' loopFuel 1
    pure (f', r)

/-- Loop of `internalQueryAndUpdate` bloom_filter.go l.234-241: state, newBitsSet, valueExists. -/
def qauLoop (h0 h1 : Word) : Nat → Nat → Filter → Nat → Bool → Outcome (Filter × Nat × Bool)
  | 0, _, _, _, _ => .panic
  | fuel + 1, i, f, n, ex =>
    if i ≤ f.numHashes then do
      let idx ← f.hashIndex h0 h1 i
      let (arr, wasSet) ← getAndSetBit f.bitArray idx
      qauLoop h0 h1 fuel ((i + 1) % 65536) { f with bitArray := arr }
        (if wasSet then n else n + 1) (ex && wasSet)
    else .ok (f, n, ex)

/-- `internalQueryAndUpdate` bloom_filter.go l.231-245 -/
def Filter.queryAndUpdate (f : Filter) (h : Word × Word) : Outcome (Filter × Bool) := do
  let (f', n, ex) ← qauLoop h.1 h.2 loopFuel 1 f 0 true
  pure ({ f' with numBitsSet := f'.numBitsSet + n, isDirty := true }, ex)

/-- `IsCompatible` bloom_filter.go l.137-141 -/
def Filter.isCompatible (f g : Filter) : Bool :=
  f.seed == g.seed && f.numHashes == g.numHashes && f.capacityBits == g.capacityBits

/-- `Union` bloom_filter.go l.523-534 -/
def Filter.union (f g : Filter) : Outcome Filter :=
  if f.isCompatible g then do
    let (arr, n) ← unionWith f.bitArray g.bitArray
    pure { f with bitArray := arr, numBitsSet := n, isDirty := false }
  else .err "cannot union incompatible bloom filters"

/-- `Intersect` bloom_filter.go l.538-549 -/
def Filter.intersect (f g : Filter) : Outcome Filter :=
  if f.isCompatible g then do
    let (arr, n) ← intersectWith f.bitArray g.bitArray
    pure { f with bitArray := arr, numBitsSet := n, isDirty := false }
  else .err "cannot intersect incompatible bloom filters"

/-- `Invert` bloom_filter.go l.553-557 -/
def Filter.invert (f : Filter) : Filter :=
  let (arr, n) := invertAll f.bitArray
  { f with bitArray := arr, numBitsSet := n, isDirty := false }

/-! ## items (bloom_filter.go l.143-519) -/

/-- The two hash primitives: `hashLongOptimized` (l.160-187) and xxhash of a byte slice
(l.144-156), both keyed by a seed.  They are parameters of the model. -/
structure Hasher where
  long : Word → Word → Word
  bytes : List Nat → Word → Word

/-- The kinds of values accepted by the `Update*`/`Query*`/`QueryAndUpdate*` methods.  Integers and
floats are given by their 64 bit patterns. -/
inductive Datum where
  | long (v : Word)               -- UpdateUInt64, UpdateInt64
  | str (bs : List Nat)           -- UpdateString
  | slice (bs : List Nat)         -- UpdateSlice
  | float (bits : Word)           -- UpdateFloat64
  | longArray (vs : List Word)    -- UpdateInt64Array
  | floatArray (vs : List Word)   -- UpdateFloat64Array

/-- Canonical bits of a float64, bloom_filter.go l.280-295 (same text in l.334-349, l.388-403):
zero of either sign gives 0, NaN the Java NaN, infinities and the rest their own bits. -/
def canonFloat (b : Word) : Word :=
  let exp := (b >>> 52) &&& 0x7ff#64
  let man := b &&& 0xfffffffffffff#64
  if b = 0 ∨ b = 0x8000000000000000#64 then 0
  else if exp = 0x7ff#64 ∧ man ≠ 0 then 0x7ff8000000000000#64
  else b

def longBytes (vs : List Word) : List Nat := vs.flatMap (fun v => toLE 8 v.toNat)

/-- The hash pair of a datum, or `none` when the methods ignore the datum
(empty strings l.264, l.320; empty arrays l.416, l.454). -/
def hashes (H : Hasher) (seed : Word) : Datum → Option (Word × Word)
  | .long v => let h0 := H.long v seed; some (h0, H.long v h0)
  | .str [] => none
  | .str bs => let h0 := H.bytes bs seed; some (h0, H.bytes bs h0)
  | .slice bs => let h0 := H.bytes bs seed; some (h0, H.bytes bs h0)
  | .float b =>
    let bs := toLE 8 (canonFloat b).toNat
    let h0 := H.bytes bs seed; some (h0, H.bytes bs h0)
  | .longArray [] => none
  | .longArray vs => let bs := longBytes vs; let h0 := H.bytes bs seed; some (h0, H.bytes bs h0)
  | .floatArray [] => none
  | .floatArray vs => let bs := longBytes vs; let h0 := H.bytes bs seed; some (h0, H.bytes bs h0)

/-- `Update*` methods, bloom_filter.go l.248-303, l.415-449 -/
def Filter.updateDatum (H : Hasher) (f : Filter) (d : Datum) : Outcome Filter :=
  match hashes H f.seed d with
  | none => .ok f
  | some h => f.update h

/-- `Query*` methods, bloom_filter.go l.306-356, l.453-484 -/
def Filter.queryDatum (H : Hasher) (f : Filter) (d : Datum) : Outcome (Filter × Bool) :=
  match hashes H f.seed d with
  | none => .ok (f, false)
  | some h => f.query h

/-- `QueryAndUpdate*` methods, bloom_filter.go l.360-410, l.488-519 -/
def Filter.queryAndUpdateDatum (H : Hasher) (f : Filter) (d : Datum) : Outcome (Filter × Bool) :=
  match hashes H f.seed d with
  | none => .ok (f, false)
  | some h => f.queryAndUpdate h

/-! ## construction and serialization -/

/-- `roundCapacity` bloom_filter_builder.go l.273-275: `(numBits + 63) & ^63` -/
def roundCapacity (numBits : Nat) : Nat := (numBits + 63) / 64 * 64

/-- `maxBits` bloom_filter_builder.go l.32, BloomFilter.MaxPreLongs = 4 (internal/family.go) -/
def maxBits : Nat := (2147483647 - 4) * 64

/-- `NewBloomFilterBySize` bloom_filter_builder.go l.57-90 (`numHashes` is a uint16) -/
def newBySize (numBits numHashes : Nat) (seed : Word) : Outcome Filter :=
  if numBits = 0 then .err "numBits must be positive"
  else if numHashes = 0 then .err "numHashes must be positive"
  else if numBits > maxBits then .err "numBits exceeds maximum allowed size"
  else
    let cap := roundCapacity numBits
    .ok { seed := seed, numHashes := numHashes, isDirty := false, capacityBits := cap,
          numBitsSet := 0, bitArray := List.replicate (cap / 64) 0#64 }

/-- loop writing the bit array, bloom_filter.go l.594-596 -/
def writeWords : List Word → Nat → List Nat → Outcome (List Nat)
  | [], _, buf => .ok buf
  | w :: ws, off, buf => do
    let buf ← putLE buf off 8 w.toNat
    writeWords ws (off + 8) buf

/-- `ToCompactSlice` bloom_filter.go l.560-600; preamble_utils.go insert* functions. -/
def Filter.toCompactSlice (f0 : Filter) : Outcome (Filter × List Nat) := do
  let (f, isEmpty) := f0.isEmpty
  let size := if isEmpty then 24 else 32 + f.bitArray.length * 8
  let buf := List.replicate size 0
  let buf ← putLE buf 0 1 (if isEmpty then 3 else 4)
  let buf ← putLE buf 1 1 1
  let buf ← putLE buf 2 1 21
  let buf ← putLE buf 3 1 (if isEmpty then 4 else 0)
  let buf ← putLE buf 4 2 f.numHashes
  let buf ← putLE buf 8 8 f.seed.toNat
  let buf ← putLE buf 16 4 f.bitArray.length
  if isEmpty then pure (f, buf)
  else do
    let (f, n) := f.bitsUsed
    let buf ← putLE buf 24 8 n
    let buf ← writeWords f.bitArray 32 buf
    pure (f, buf)

/-- loop reading the bit array, bloom_filter_builder.go l.258-261 -/
def readWords (buf : List Nat) : Nat → Nat → Outcome (List Word)
  | 0, _ => .ok []
  | n + 1, off => do
    let w ← getLE buf off 8
    let ws ← readWords buf n (off + 8)
    pure (BitVec.ofNat 64 w :: ws)

/-- `NewBloomFilterFromSlice` bloom_filter_builder.go l.181-270 -/
def fromSlice (buf : List Nat) : Outcome Filter := do
  if buf.length < 24 then .err "insufficient data"
  else
    let pLongs ← getLE buf 0 1
    let sVer ← getLE buf 1 1
    let fID ← getLE buf 2 1
    let flags ← getLE buf 3 1
    let numHashes ← getLE buf 4 2
    let seed ← getLE buf 8 8
    let len ← getLE buf 16 4
    if sVer ≠ 1 then .err "unsupported serialization version"
    else if fID ≠ 21 then .err "invalid family ID"
    else
      let isEmpty := (flags &&& 4) != 0
      let expected := if isEmpty then 3 else 4
      if pLongs ≠ expected then .err "invalid preamble longs"
      else if numHashes = 0 then .err "numHashes must be positive"
      else
        let f : Filter := ⟨BitVec.ofNat 64 seed, numHashes, false, len * 64, 0,
          List.replicate len 0#64⟩
        if isEmpty then
          if buf.length ≠ 24 then .err "empty filter size mismatch" else .ok f
        else if buf.length ≠ 32 + len * 8 then .err "non-empty filter size mismatch"
        else
          let n ← getLE buf 24 8
          let ws ← readWords buf len 32
          if n = 0xFFFFFFFFFFFFFFFF then
            .ok { f with bitArray := ws, numBitsSet := countBitsSet ws }
          else .ok { f with bitArray := ws, numBitsSet := n }

end Verif.Bloom
