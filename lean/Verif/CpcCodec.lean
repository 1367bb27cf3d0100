import Verif.CpcModel
import Verif.CpcCodeTables
import Verif.Bytes
import Mathlib.Data.List.Sort

/-!
# Model of the CPC compression and serialization

`cpc/cpc_compressed_state.go`, the serialization part of `cpc/utils.go`, `cpc/compression_data.go`
l.20-92 and the sorting part of `cpc/pair_table.go`.

Conventions.

* A 32-bit word of a compressed stream (an `int` in the code) is a `Nat`; the bit buffer (`uint64`) is
  a `Nat`, cut to 64 bits after each shift to the left.
* The code writes the words of a stream into an array allocated beforehand, from left to right, and
  remembers how many are in use.  Here a stream is the list of the words in use, and `cap` is the
  length of the array: a write beyond it panics.
* `kxp` and `hipEstAccum` are rational numbers in the model of the sketch; their 64-bit images are
  given by two parameters `fbits` (`math.Float64bits`) and `fval` (`math.Float64frombits`).
* The seed hash is a parameter `sh`.
-/

namespace Verif.Cpc

open Outcome

/-! ## Writing bits -/

/-- The local variables of the compressing loops: capacity of the array, words written
(`nextWordIndex` is their number), `bitBuf`, `bufBits` -/
structure BW where
  cap : Nat
  out : List Nat
  buf : Nat
  bits : Nat
  deriving DecidableEq, Repr

/-- cpc/cpc_compressed_state.go l.820-825 (and l.845-850, l.1017-1021, l.1027-1032, l.1176-1181):
write out a full word -/
def BW.flush (s : BW) : Outcome BW :=
  if 32 ≤ s.bits then
    if s.out.length < s.cap then
      .ok { s with out := s.out ++ [s.buf % 2 ^ 32], buf := s.buf >>> 32, bits := s.bits - 32 }
    else .panic
  else .ok s

/-- l.817-825, l.843-850, l.1172-1181: append `len` bits -/
def BW.put (s : BW) (v len : Nat) : Outcome BW :=
  BW.flush { s with buf := (s.buf ||| (v <<< s.bits)) % 2 ^ 64, bits := s.bits + len }

/-- l.1013-1022: groups of 16 zeros -/
def BW.zeros16 : Nat → BW → Outcome BW
  | 0, s => .ok s
  | n + 1, s => do
    let s ← BW.flush { s with bits := s.bits + 16 }
    BW.zeros16 n s

/-- cpc/cpc_compressed_state.go l.1005-1036 `writeUnary` -/
def BW.putUnary (s : BW) (n : Nat) : Outcome BW := do
  let s ← BW.zeros16 (n / 16) s
  s.put (1 <<< (n % 16)) (1 + n % 16)

/-- l.853-870 and l.1184-1198: padding, last word -/
def BW.finish (s : BW) (pad : Nat) : Outcome (List Nat) := do
  let s ← BW.flush { s with bits := s.bits + pad }
  if s.bits > 0 then
    if s.out.length < s.cap then .ok (s.out ++ [s.buf % 2 ^ 32]) else .panic
  else .ok s.out

/-! ## Compressing pairs -/

/-- One turn of the loop l.788-851; the state is the writer, `predictedRowIndex` and
`predictedColIndex`. -/
def putPair (nbb : Nat) (st : BW × Nat × Nat) (rc : Nat) : Outcome (BW × Nat × Nat) :=
  let row := rc >>> 6
  let col := rc &&& 63
  let pcol := if row ≠ st.2.1 then 0 else st.2.2
  if row < st.2.1 ∨ col < pcol then .err "lowLevelCompressPairs: assertion failed" else
  match unaryTable[col - pcol]? with
  | none => .panic
  | some e => do
    let y := row - st.2.1
    let s ← st.1.put (e &&& 0xFFF) (e >>> 12)
    let s ← s.putUnary (y >>> nbb)
    let s ← s.put (y &&& (2 ^ nbb - 1)) nbb
    .ok (s, row, col + 1)

/-- cpc/cpc_compressed_state.go l.774-871 `lowLevelCompressPairs` (all calls encode the whole
array) -/
def compressPairs (pairs : List Nat) (nbb cap : Nat) : Outcome (List Nat) := do
  let st ← pairs.foldlM (putPair nbb) (⟨cap, [], 0, 0⟩, 0, 0)
  st.1.finish (10 - nbb)

/-- cpc/cpc_compressed_state.go l.729-742 `golombChooseNumberOfBaseBits`, `floorLog2` -/
def golombBits (k count : Nat) : Outcome Nat :=
  if k < 1 ∨ count < 1 then .err "golombChooseNumberOfBaseBits" else
  let q := (k - count) / count
  if q = 0 then .ok 0 else .ok (Nat.log2 q)

/-- cpc/cpc_compressed_state.go l.766-772 -/
def divBy32RoundingUp (x : Nat) : Nat :=
  let t := x >>> 5
  if t <<< 5 = x then t else t + 1

/-- cpc/cpc_compressed_state.go l.744-764 `safeLengthForCompressedPairBuf` -/
def pairBufLen (k numPairs nbb : Nat) : Outcome Nat :=
  if numPairs = 0 then .err "safeLengthForCompressedPairBuf" else
  let ybits := numPairs * (1 + nbb) + k >>> nbb
  let words := divBy32RoundingUp (12 * numPairs + ybits + (10 - nbb))
  if words ≥ 2 ^ 31 then .err "words too large" else .ok words

/-! ## Compressing bytes -/

/-- One turn of the loop l.1163-1182 -/
def putByte (enc : List Nat) (s : BW) (b : BitVec 8) : Outcome BW :=
  match enc[b.toNat]? with
  | none => .panic
  | some e => s.put (e &&& 0xFFF) (e >>> 12)

/-- cpc/cpc_compressed_state.go l.1158-1199 `lowLevelCompressBytes` -/
def compressBytes (w : List (BitVec 8)) (k : Nat) (enc : List Nat) (cap : Nat) :
    Outcome (List Nat) :=
  if w.length < k then .panic else do
  let s ← (w.take k).foldlM (putByte enc) ⟨cap, [], 0, 0⟩
  s.finish 11

/-- cpc/cpc_compressed_state.go l.1117-1122 `safeLengthForCompressedWindowBuf` -/
def windowBufLen (k : Nat) : Nat := divBy32RoundingUp (12 * k + 11)

/-- cpc/cpc_compressed_state.go l.1124-1156 `determinePseudoPhase` -/
def pseudoPhase (lgK c : Nat) : Outcome Nat :=
  let k := 2 ^ lgK
  if 1000 * c < 2375 * k then
    if 4 * c < 3 * k then .ok 16
    else if 10 * c < 11 * k then .ok 17
    else if 100 * c < 132 * k then .ok 18
    else if 3 * c < 5 * k then .ok 19
    else if 1000 * c < 1965 * k then .ok 20
    else if 1000 * c < 2275 * k then .ok 21
    else .ok 6
  else if lgK < 4 then .err "determinePseudoPhase: lgK must be at least 4"
  else .ok ((c >>> (lgK - 4)) &&& 15)

/-! ## Reading bits -/

/-- The local variables of the uncompressing loops: `compressedWords`, `nextWordIndex`, `bitBuf`,
`bufBits` -/
structure BR where
  ws : List Nat
  next : Nat
  buf : Nat
  bits : Nat
  deriving DecidableEq, Repr

/-- l.890-897, l.923-930, l.969-976, l.1221-1229: fetch a word if fewer than `n` bits are left -/
def BR.refill (s : BR) (n : Nat) : Outcome BR :=
  if s.bits < n then
    match s.ws[s.next]? with
    | none => .err "insufficient compressedWords data"
    | some w =>
      .ok { s with buf := (s.buf ||| ((w &&& 0xFFFFFFFF) <<< s.bits)) % 2 ^ 64,
                   next := s.next + 1, bits := s.bits + 32 }
  else .ok s

/-- consume `n` bits -/
def BR.drop (s : BR) (n : Nat) : BR := { s with buf := s.buf >>> n, bits := s.bits - n }

/-- `bits.TrailingZeros8` -/
def ctz8 (x : Nat) : Nat := ((List.range 8).find? (fun i => x.testBit i)).getD 8

/-- cpc/cpc_compressed_state.go l.958-1003 `readUnary`, the loop; the last argument is
`subTotal`.  Each turn but the last uses up 8 bits, so the fuel of `BR.readUnary` is enough. -/
def BR.readUnaryLoop : Nat → BR → Nat → Outcome (BR × Nat)
  | 0, _, _ => .panic
  | fuel + 1, s, sub => do
    let s ← s.refill 8
    let tz := ctz8 (s.buf &&& 0xFF)
    if tz = 8 then BR.readUnaryLoop fuel (s.drop 8) (sub + 8)
    else .ok (s.drop (1 + tz), sub + tz)

def BR.readUnary (s : BR) : Outcome (BR × Nat) := BR.readUnaryLoop (4 * s.ws.length + 9) s 0

/-- cpc/compression_data.go l.48-65 `makeDecodingTable`: the entries written for one byte value -/
def decodingEntries (t : List Nat) (entry byteValue : Nat) : List Nat :=
  let code := entry &&& 0xFFF
  let len := entry >>> 12
  (List.range (1 <<< (12 - len))).foldl
    (fun t g => t.set ((code ||| (g <<< len)) &&& 0xFFF) ((len <<< 8) ||| byteValue)) t

/-- cpc/compression_data.go l.48-65 `makeDecodingTable` (all calls go through the whole encoding
table) -/
def makeDecodingTable (enc : List Nat) : List Nat :=
  (List.range enc.length).foldl (fun t b => decodingEntries t (enc.getD b 0) b)
    (List.replicate 4096 0)

/-- One turn of the loop l.888-950 of `lowLevelUncompressPairs`: the reader, `predictedRowIndex`,
`predictedColIndex`; the pair is the last component of the result -/
def getPair (dec : List Nat) (nbb : Nat) (st : BR × Nat × Nat) : Outcome ((BR × Nat × Nat) × Nat) := do
  let s ← st.1.refill 12
  match dec[s.buf &&& 0xFFF]? with
  | none => .panic
  | some lookup => do
    let s := s.drop (lookup >>> 8)
    let (s, hi) ← s.readUnary
    let s ← s.refill nbb
    let lo := s.buf &&& (2 ^ nbb - 1)
    let s := s.drop nbb
    let y := (hi <<< nbb) ||| lo
    let pcol := if y > 0 then 0 else st.2.2
    let row := st.2.1 + y
    let col := pcol + (lookup &&& 0xFF)
    .ok ((s, row, col + 1), (row <<< 6) ||| col)

/-- the loop l.888-950 -/
def getPairs (dec : List Nat) (nbb : Nat) : Nat → BR × Nat × Nat → Outcome (BR × List Nat)
  | 0, st => .ok (st.1, [])
  | n + 1, st => do
    let (st, p) ← getPair dec nbb st
    let (s, ps) ← getPairs dec nbb n st
    .ok (s, p :: ps)

/-- cpc/cpc_compressed_state.go l.873-956 `lowLevelUncompressPairs` -/
def uncompressPairs (n nbb : Nat) (ws : List Nat) (numWords : Nat) : Outcome (List Nat) := do
  let (s, ps) ← getPairs (makeDecodingTable unaryTable) nbb n (⟨ws, 0, 0, 0⟩, 0, 0)
  if s.next > numWords then .err "nextWordIndex exceeds numCompressedWords" else .ok ps

/-- One turn of the loop l.1219-1242 -/
def getByte (dec : List Nat) (s : BR) : Outcome (BR × BitVec 8) := do
  let s ← s.refill 12
  match dec[s.buf &&& 0xFFF]? with
  | none => .panic
  | some lookup => .ok (s.drop (lookup >>> 8), BitVec.ofNat 8 (lookup &&& 0xFF))

/-- the loop l.1219-1242 -/
def getBytes (dec : List Nat) : Nat → BR → Outcome (BR × List (BitVec 8))
  | 0, s => .ok (s, [])
  | n + 1, s => do
    let (s, b) ← getByte dec s
    let (s, bs) ← getBytes dec n s
    .ok (s, b :: bs)

/-- cpc/cpc_compressed_state.go l.1201-1249 `lowLevelUncompressBytes` -/
def uncompressBytes (k : Nat) (dec : List Nat) (ws : List Nat) (numWords : Nat) :
    Outcome (List (BitVec 8)) := do
  let (s, bs) ← getBytes dec k ⟨ws, 0, 0, 0⟩
  if s.next > numWords then .err "nextWordIndex exceeds expected" else .ok bs

/-! ## Pair arrays -/

/-- cpc/pair_table.go l.284-295: the items up to the first free slot; the items that wrapped around
the end of the table (high bit set) go to the right end of the result.  State: next slot, items from
the left, items from the right. -/
def unwrapHead (hiBit : Nat) : List (Option Nat) → List Nat → List Nat → List (Option Nat) × List Nat × List Nat
  | some item :: slots, l, r =>
    if item &&& hiBit ≠ 0 then unwrapHead hiBit slots l (item :: r)
    else unwrapHead hiBit slots (l ++ [item]) r
  | slots, l, r => (slots, l, r)

/-- cpc/pair_table.go l.271-313 `unwrap`: `l` counts from the left, `r` from the right, the two must
meet (an index out of range would come before the check of l.308; both are failures). -/
def PT.unwrap (p : PT) : Outcome (List Nat) :=
  if p.num < 1 then .ok [] else
  if p.vb = 0 then .panic else
  let (slots, l, r) := unwrapHead (1 <<< (p.vb - 1)) (p.slots.take (2 ^ p.lg)) [] []
  let all := l ++ slots.filterMap id ++ r
  if all.length > p.num then .panic
  else if all.length < p.num then .err "unwrap: inconsistent indices"
  else .ok all

/-- The inner loop l.205-209 of `introspectiveInsertionSort`: `v` moves to the left past the greater
ones.  The list is `a[i-1], a[i-2], …`; the result also tells how far `v` moved. -/
def insertLeft (v : Nat) : List Nat → List Nat × Nat
  | [] => ([v], 0)
  | x :: xs => if v < x then ((x :: (insertLeft v xs).1), (insertLeft v xs).2 + 1) else (v :: x :: xs, 0)

/-- The outer loop l.202-222: `done` is `a[i-1], …, a[0]`.  When the cost gets too high the part of
the array from `j` on is sorted by the library (`slices.Sort`, here `insertionSort`). -/
def sortLoop (limit : Nat) : List Nat → List Nat → Nat → List Nat
  | done, [], _ => done.reverse
  | done, v :: rest, cost =>
    let ins := insertLeft v done
    if cost + ins.2 > limit then
      let a := ins.1.reverse ++ rest
      let j := done.length - ins.2
      a.take j ++ (a.drop j).insertionSort (· ≤ ·)
    else sortLoop limit ins.1 rest (cost + ins.2)

/-- cpc/pair_table.go l.198-223 `introspectiveInsertionSort` on a whole array (the only use); the
masks `& 0xFFFF_FFFF` do nothing, the items being below `2^32`. -/
def introSort : List Nat → List Nat
  | [] => []
  | v :: rest => sortLoop (8 * (rest.length + 1)) [v] rest 0

/-- The bits of a byte from the lowest, l.1046-1054 -/
def bitsOfByte (row : Nat) (b : BitVec 8) : List Nat :=
  ((List.range 8).filter (fun c => b.getLsbD c)).map (fun c => (row <<< 6) ||| c)

/-- l.1043-1055: the pairs of the window, row by row -/
def windowPairs : Nat → List (BitVec 8) → List Nat
  | _, [] => []
  | row, b :: bs => bitsOfByte row b ++ windowPairs (row + 1) bs

/-- cpc/cpc_compressed_state.go l.1038-1062 `trickyGetPairsFromWindow`: `emptySpace` zeros, then the
pairs.  More pairs than expected run over the end of the array. -/
def trickyPairs (w : List (BitVec 8)) (k numPairs emptySpace : Nat) : Outcome (List Nat) :=
  if w.length < k then .panic else
  let ps := windowPairs 0 (w.take k)
  if ps.length > numPairs then .panic
  else if ps.length < numPairs then .err "trickyGetPairsFromWindow"
  else .ok (List.replicate emptySpace 0 ++ ps)

/-- cpc/pair_table.go l.225-253 `mergePairs(arrA, 0, lengthA, arr, lengthA, lengthB, arr, 0)`: the
second input lies at the end of the array the result is written into.  `n` turns are left. -/
def mergeLoop (arrA : List Nat) (limA limB : Nat) : Nat → Nat → Nat → Nat → List Nat → Outcome (List Nat)
  | 0, _, _, _, arr => .ok arr
  | n + 1, a, b, c, arr =>
    if b ≥ limB then
      match arrA[a]? with
      | none => .panic
      | some x => mergeLoop arrA limA limB n (a + 1) b (c + 1) (arr.set c x)
    else if a ≥ limA then
      match arr[b]? with
      | none => .panic
      | some y => mergeLoop arrA limA limB n a (b + 1) (c + 1) (arr.set c y)
    else
      match arrA[a]?, arr[b]? with
      | some x, some y =>
        if x < y then mergeLoop arrA limA limB n (a + 1) b (c + 1) (arr.set c x)
        else mergeLoop arrA limA limB n a (b + 1) (c + 1) (arr.set c y)
      | _, _ => .panic

/-- cpc/pair_table.go l.317-337: how many slots -/
def slotsFor (numPairs : Nat) : Nat → Nat → Nat
  | 0, lg => lg
  | fuel + 1, lg => if 4 * numPairs > 3 * 2 ^ lg then slotsFor numPairs fuel (lg + 1) else lg

/-- cpc/pair_table.go l.315-337 `newInstanceFromPairsArray` (the fuel is plenty: the number of pairs
is below `2^32`) -/
def ptOfPairs (pairs : List Nat) (lgK : Nat) : Outcome PT := do
  let t ← newPT (slotsFor pairs.length 64 2) (6 + lgK)
  let t ← pairs.foldlM mustInsert t
  .ok { t with num := pairs.length }

/-! ## The compressed state -/

/-- cpc/cpc_compressed_state.go l.35-52, without `CsvIsValid` and `WindowIsValid`, which are never
read -/
structure CS where
  lgK : Nat
  seedHash : BitVec 16
  fiCol : Nat
  merged : Bool
  num : Nat
  kxp : ℚ
  hip : ℚ
  numCsv : Nat
  csv : Option (List Nat)
  csvLen : Nat
  cw : Option (List Nat)
  cwLen : Nat
  deriving DecidableEq, Repr

/-- cpc/cpc_compressed_state.go l.54-60 `NewCpcCompressedState` -/
def newCS (lgK : Nat) (seedHash : BitVec 16) : CS :=
  ⟨lgK, seedHash, 0, false, 0, 2 ^ lgK, 0, 0, none, 0, none, 0⟩

/-- cpc/cpc_compressed_state.go l.679-708 `compressTheSurprisingValues` -/
def compressSV (c : CS) (src : Sk) (pairs : List Nat) : Outcome CS :=
  if pairs.length = 0 then .err "numPairs must be > 0" else do
  let nbb ← golombBits (2 ^ src.lgK + pairs.length) pairs.length
  let cap ← pairBufLen (2 ^ src.lgK) pairs.length nbb
  let ws ← compressPairs pairs nbb cap
  .ok { c with numCsv := pairs.length, csv := some ws, csvLen := ws.length }

/-- cpc/cpc_compressed_state.go l.710-727 `uncompressTheSurprisingValues` -/
def uncompressSV (c : CS) : Outcome (List Nat) :=
  if c.numCsv = 0 then .err "numPairs must be > 0" else do
  let nbb ← golombBits (2 ^ c.lgK + c.numCsv) c.numCsv
  uncompressPairs c.numCsv nbb (c.csv.getD []) c.csvLen

/-- cpc/cpc_compressed_state.go l.1064-1084 `compressTheWindow` -/
def compressWindow (c : CS) (src : Sk) : Outcome CS := do
  let ph ← pseudoPhase src.lgK src.num
  match byteTables[ph]? with
  | none => .panic
  | some enc => do
    let ws ← compressBytes (src.win.getD []) (2 ^ src.lgK) enc (windowBufLen (2 ^ src.lgK))
    .ok { c with cw := some ws, cwLen := ws.length }

/-- cpc/cpc_compressed_state.go l.1086-1113 `uncompressTheWindow`; the callers have checked that
there is a stream -/
def uncompressWindow (c : CS) (ws : List Nat) : Outcome (List (BitVec 8)) := do
  let ph ← pseudoPhase c.lgK c.num
  match byteTables[ph]? with
  | none => .panic
  | some enc => uncompressBytes (2 ^ c.lgK) (makeDecodingTable enc) ws c.cwLen

/-- cpc/cpc_compressed_state.go l.206-220 `compressSparseFlavor` -/
def compressSparse (c : CS) (src : Sk) : Outcome CS :=
  if src.win.isSome then .err "expected slidingWindow to be nil" else do
  let t ← ptOf src
  let pairs ← t.unwrap
  compressSV c src (introSort pairs)

/-- cpc/cpc_compressed_state.go l.243-281 `compressHybridFlavor` -/
def compressHybrid (c : CS) (src : Sk) : Outcome CS := do
  let t ← ptOf src
  let pairs ← t.unwrap
  match src.win with
  | none => .err "slidingWindow is nil"
  | some w => do
    if src.off ≠ 0 then .err "windowOffset must be 0" else
    if src.num < t.num ∨ src.num - t.num ≥ 2 ^ 31 - 1 then .err "exceeds maximum int value" else
    let all ← trickyPairs w (2 ^ src.lgK) (src.num - t.num) t.num
    let all ← mergeLoop (introSort pairs) t.num (t.num + (src.num - t.num)) src.num 0 t.num 0 all
    compressSV c src all

/-- cpc/cpc_compressed_state.go l.358-364 -/
def minus8 (p : Nat) : Outcome Nat :=
  if p &&& 63 < 8 then .err "column index less than 8" else .ok (p - 8)

/-- cpc/cpc_compressed_state.go l.345-369 `compressPinnedFlavor` -/
def compressPinned (c : CS) (src : Sk) : Outcome CS := do
  let c ← compressWindow c src
  let t ← ptOf src
  if t.num > 0 then do
    let pairs ← t.unwrap
    let pairs ← pairs.mapM minus8
    compressSV c src (introSort pairs)
  else .ok c

/-- cpc/cpc_compressed_state.go l.449-463: rotate and permute the column -/
def rotate (perm : List Nat) (off p : Nat) : Outcome Nat :=
  let col := ((p &&& 63) + 56 - off) &&& 63
  if col ≥ 56 then .err "transformed column out of range" else
  match perm[col]? with
  | none => .panic
  | some col => .ok (((p >>> 6) <<< 6) ||| col)

/-- cpc/cpc_compressed_state.go l.419-469 `compressSlidingFlavor` -/
def compressSliding (c : CS) (src : Sk) : Outcome CS := do
  let c ← compressWindow c src
  let t ← ptOf src
  if t.num > 0 then do
    let pairs ← t.unwrap
    let ph ← pseudoPhase src.lgK src.num
    if ph ≥ 16 then .err "pseudoPhase >= 16" else
    match columnPerms[ph]? with
    | none => .panic
    | some perm => do
      if src.off = 0 ∨ src.off > 56 then .err "invalid windowOffset" else
      let pairs ← pairs.mapM (rotate perm src.off)
      compressSV c src (introSort pairs)
  else .ok c

/-- cpc/cpc_compressed_state.go l.103-139 `compress` (the checks for nil streams after a success
cannot fail) -/
def compress (c : CS) (src : Sk) : Outcome CS :=
  match flavor src.lgK src.num with
  | .empty => .ok c
  | .sparse => compressSparse c src
  | .hybrid => compressHybrid c src
  | .pinned => compressPinned c src
  | .sliding => compressSliding c src

/-- cpc/cpc_compressed_state.go l.62-78 `NewCpcCompressedStateFromSketch` -/
def csOf (sh : Nat → Outcome (BitVec 16)) (s : Sk) : Outcome CS := do
  let h ← sh s.seed
  compress { newCS s.lgK h with
    fiCol := s.fiCol, merged := s.merged, num := s.num, kxp := s.kxp, hip := s.hip } s

/-- cpc/cpc_compressed_state.go l.222-241 `uncompressSparseFlavor` -/
def uncompressSparse (c : CS) (s : Sk) : Outcome Sk :=
  if c.cw.isSome then .err "expected cwStream to be nil" else
  if c.csv.isNone then .err "csvStream is nil" else do
  let pairs ← uncompressSV c
  let t ← ptOfPairs pairs c.lgK
  .ok { s with pt := some t }

/-- One turn of the loop l.309-323: pairs in the window, true pairs -/
def splitPair (st : List (BitVec 8) × List Nat) (rc : Nat) : Outcome (List (BitVec 8) × List Nat) :=
  if rc &&& 63 < 8 then
    match st.1[rc >>> 6]? with
    | none => .panic
    | some b => .ok (st.1.set (rc >>> 6) (b ||| (1#8 <<< (rc &&& 63))), st.2)
  else .ok (st.1, st.2 ++ [rc])

/-- cpc/cpc_compressed_state.go l.283-343 `uncompressHybridFlavor` -/
def uncompressHybrid (c : CS) (s : Sk) : Outcome Sk :=
  if c.cw.isSome then .err "expected CwStream to be nil" else
  if c.csv.isNone then .err "CsvStream is nil" else do
  let pairs ← uncompressSV c
  let (w, pairs) ← pairs.foldlM splitPair (List.replicate (2 ^ c.lgK) 0#8, [])
  if correctOffset c.lgK c.num ≠ 0 then .err "expected windowOffset to be 0" else
  let t ← ptOfPairs pairs c.lgK
  .ok { s with off := 0, pt := some t, win := some w }

/-- cpc/cpc_compressed_state.go l.403-408 -/
def plus8 (p : Nat) : Outcome Nat :=
  if p &&& 63 ≥ 56 then .err "invalid pair value" else .ok (p + 8)

/-- cpc/cpc_compressed_state.go l.371-417 `uncompressPinnedFlavor` -/
def uncompressPinned (c : CS) (s : Sk) : Outcome Sk :=
  match c.cw with
  | none => .err "expected cwStream to be non-nil"
  | some ws => do
    let w ← uncompressWindow c ws
    if c.numCsv = 0 then do
      let t ← newPT 2 (6 + c.lgK)
      .ok { s with win := some w, pt := some t }
    else if c.csv.isNone then .err "expected csvStream to be non-nil"
    else do
      let pairs ← uncompressSV c
      let pairs ← pairs.mapM plus8
      let t ← ptOfPairs pairs c.lgK
      .ok { s with win := some w, pt := some t }

/-- cpc/compression_data.go l.28-43 `makeInversePermutation`: the entry for `v` (the last `i` with
`enc[i] = v`, as the loop overwrites) -/
def invPerm (perm : List Nat) : List Nat :=
  (List.range perm.length).foldl (fun inv i => inv.set (perm.getD i 0) i)
    (List.replicate perm.length 0)

/-- cpc/cpc_compressed_state.go l.518-527: undo the permutation and the rotation -/
def unrotate (inv : List Nat) (off p : Nat) : Outcome Nat :=
  match inv[p &&& 63]? with
  | none => .panic
  | some col => .ok (((p >>> 6) <<< 6) ||| ((col + (off + 8)) &&& 63))

/-- cpc/cpc_compressed_state.go l.471-537 `uncompressSlidingFlavor` -/
def uncompressSliding (c : CS) (s : Sk) : Outcome Sk :=
  match c.cw with
  | none => .err "expected cwStream to be non-nil"
  | some ws => do
    let w ← uncompressWindow c ws
    if c.numCsv = 0 then do
      let t ← newPT 2 (6 + c.lgK)
      .ok { s with win := some w, pt := some t }
    else if c.csv.isNone then .err "expected csvStream to be non-nil"
    else do
      let pairs ← uncompressSV c
      let ph ← pseudoPhase c.lgK c.num
      if ph ≥ 16 then .err "pseudoPhase out of range" else
      match columnPerms[ph]? with
      | none => .panic
      | some perm => do
        let off := correctOffset c.lgK c.num
        if off = 0 ∨ off > 56 then .err "invalid window offset" else
        let pairs ← pairs.mapM (unrotate (invPerm perm) off)
        let t ← ptOfPairs pairs c.lgK
        .ok { s with win := some w, pt := some t }

/-- cpc/cpc_compressed_state.go l.141-165 `uncompress` -/
def uncompress (c : CS) (s : Sk) : Outcome Sk :=
  match flavor s.lgK s.num with
  | .empty => .ok s
  | .sparse => uncompressSparse c s
  | .hybrid => uncompressHybrid c s
  | .pinned => uncompressPinned c s
  | .sliding => uncompressSliding c s

/-! ## Bytes -/

/-- cpc/utils.go l.84-93 `hiFieldOffset`; columns: number of coupons, number of surprising values,
`kxp`, hip accumulator, length of the value stream, length of the window stream, the streams -/
def hiFieldOffset : List (List Nat) :=
  [[0, 0, 0, 0, 0, 0, 0, 0],
   [0, 0, 0, 0, 0, 0, 0, 0],
   [8, 0, 0, 0, 12, 0, 16, 0],
   [8, 0, 16, 24, 12, 0, 32, 0],
   [8, 0, 0, 0, 0, 12, 0, 16],
   [8, 0, 16, 24, 0, 12, 0, 32],
   [8, 12, 0, 0, 16, 20, 24, 24],
   [8, 12, 16, 24, 32, 36, 40, 40]]

/-- cpc/utils.go l.463-469 `getHiFieldOffset`, without the error for 0: the writers ask only for
fields that exist, the readers ignore the error -/
def hiOff (fmt field : Nat) : Nat := (hiFieldOffset.getD fmt []).getD field 0

def fNum := 0
def fNumSV := 1
def fKxp := 2
def fHip := 3
def fSVLen := 4
def fWLen := 5

/-- cpc/utils.go l.113-116 `preIntsDefs` -/
def preInts (fmt : Nat) : Nat := [2, 2, 4, 8, 4, 8, 6, 10].getD fmt 0

/-- cpc/cpc_compressed_state.go l.89-101 `getFormat` -/
def CS.format (c : CS) : Nat :=
  (if c.cwLen > 0 then 4 else 0) ||| (if c.numCsv > 0 then 2 else 0) ||| (if c.merged then 0 else 1)

/-- cpc/cpc_compressed_state.go l.80-83 `getRequiredSerializedBytes` -/
def CS.size (c : CS) : Nat := 4 * (preInts c.format + c.csvLen + c.cwLen)

/-- A field to write: offset, number of bytes, value -/
abbrev Field := Nat × Nat × Nat

/-- successive writes into the buffer -/
def putAll (mem : List Nat) (fs : List Field) : Outcome (List Nat) :=
  fs.foldlM (fun m f => putLE m f.1 f.2.1 f.2.2) mem

/-- cpc/utils.go l.824-846 `putFirst8`: serial version 1, family 16 -/
def first8 (fmt lgK fiCol : Nat) (h : BitVec 16) : List Field :=
  [(0, 1, preInts fmt), (1, 1, 1), (2, 1, 16), (3, 1, lgK), (4, 1, fiCol),
   (5, 1, (fmt <<< 2) ||| 2), (6, 2, h.toNat)]

/-- the writes of a stream, for instance l.540-542 -/
def streamFields : Nat → List Nat → List Field
  | _, [] => []
  | o, w :: ws => (o, 4, w) :: streamFields (o + 4) ws

/-- the hi fields that all formats but the empty ones have, in the order of the code -/
def u32 (fmt field v : Nat) : Field := (hiOff fmt field, 4, v)

def f64 (fmt field : Nat) (v : BitVec 64) : Field := (hiOff fmt field, 8, v.toNat)

/-- cpc/utils.go l.382-403 `getWStreamOffset` and l.416-451 `getSvStreamOffset`: the streams may not
be empty (the lengths just written are read back in the code) -/
def wOffset (fmt wLen : Nat) : Outcome Nat :=
  if wLen = 0 then .err "wLengthInts cannot be zero" else .ok (preInts fmt <<< 2)

def svOffset (fmt svLen wLen : Nat) : Outcome Nat :=
  if svLen = 0 then .err "svLengthInts cannot be zero"
  else if fmt ≥ 4 ∧ wLen = 0 then .err "wLengthInts cannot be zero"
  else .ok ((preInts fmt + wLen) <<< 2)

/-- cpc/utils.go l.481-846, the eight `put…` functions: the writes, in order.  (The checks of the
capacity cannot fail: the buffer has the required size.) -/
def CS.fields (fbits : ℚ → BitVec 64) (c : CS) : Outcome (List Field) :=
  let csv := c.csv.getD []
  let cw := c.cw.getD []
  match c.format with
  | 0 => .ok (first8 0 c.lgK 0 c.seedHash)
  | 1 => .ok (first8 1 c.lgK 0 c.seedHash)
  | 2 => do
    let o ← svOffset 2 c.csvLen 0
    .ok (first8 2 c.lgK 0 c.seedHash ++ [u32 2 fNum c.num, u32 2 fSVLen c.csvLen] ++
      streamFields o csv)
  | 3 => do
    let o ← svOffset 3 c.csvLen 0
    .ok (first8 3 c.lgK 0 c.seedHash ++ [u32 3 fNum c.num, u32 3 fSVLen c.csvLen,
      f64 3 fKxp (fbits c.kxp), f64 3 fHip (fbits c.hip)] ++ streamFields o csv)
  | 4 => do
    let o ← wOffset 4 c.cwLen
    .ok (first8 4 c.lgK c.fiCol c.seedHash ++ [u32 4 fNum c.num, u32 4 fWLen c.cwLen] ++
      streamFields o cw)
  | 5 => do
    let o ← wOffset 5 c.cwLen
    .ok (first8 5 c.lgK c.fiCol c.seedHash ++ [u32 5 fNum c.num, u32 5 fWLen c.cwLen,
      f64 5 fKxp (fbits c.kxp), f64 5 fHip (fbits c.hip)] ++ streamFields o cw)
  | 6 => do
    let os ← svOffset 6 c.csvLen c.cwLen
    let ow ← wOffset 6 c.cwLen
    .ok (first8 6 c.lgK c.fiCol c.seedHash ++ [u32 6 fNum c.num, u32 6 fNumSV c.numCsv,
      u32 6 fSVLen c.csvLen, u32 6 fWLen c.cwLen] ++ streamFields os csv ++ streamFields ow cw)
  | 7 => do
    let os ← svOffset 7 c.csvLen c.cwLen
    let ow ← wOffset 7 c.cwLen
    .ok (first8 7 c.lgK c.fiCol c.seedHash ++ [u32 7 fNum c.num, u32 7 fNumSV c.numCsv,
      f64 7 fKxp (fbits c.kxp), f64 7 fHip (fbits c.hip),
      u32 7 fSVLen c.csvLen, u32 7 fWLen c.cwLen] ++ streamFields os csv ++ streamFields ow cw)
  | _ => .err "format not implemented"

/-- cpc/cpc_compressed_state.go l.626-677 `exportToMemory` -/
def CS.toBytes (fbits : ℚ → BitVec 64) (c : CS) : Outcome (List Nat) := do
  let fs ← c.fields fbits
  putAll (List.replicate c.size 0) fs

/-- cpc/cpc_sketch.go l.545-553 `ToCompactSlice` -/
def toBytes (sh : Nat → Outcome (BitVec 16)) (fbits : ℚ → BitVec 64) (s : Sk) : Outcome (List Nat) := do
  let c ← csOf sh s
  c.toBytes fbits

/-- cpc/utils.go l.347-350 `getFormatOrdinal` -/
def formatOf (mem : List Nat) : Outcome Nat := do
  let f ← getLE mem 5 1
  .ok ((f >>> 2) &&& 7)

/-- cpc/utils.go l.275-300 `checkLoPreamble` -/
def checkLo (mem : List Nat) : Outcome Unit :=
  if mem.length < 8 then .err "bounds Violation" else do
  let ver ← getLE mem 1 1
  if ver ≠ 1 then .err "SerVer" else
  let fmt ← formatOf mem
  let pre ← getLE mem 0 1
  if pre ≠ preInts fmt then .err "preIntsDef" else
  let fam ← getLE mem 2 1
  if fam ≠ 16 then .err "family" else
  let lgK ← getLE mem 3 1
  if lgK < 4 ∨ lgK > 26 then .err "lgK" else
  let fi ← getLE mem 4 1
  if fi > 63 then .err "fiCol" else .ok ()

/-- a stream: cpc/utils.go l.371-380 `getWStream`, l.405-414 `getSvStream` -/
def getStream (mem : List Nat) : Nat → Nat → Outcome (List Nat)
  | 0, _ => .ok []
  | n + 1, o => do
    let w ← getLE mem o 4
    let ws ← getStream mem n (o + 4)
    .ok (w :: ws)

/-- `getWStream`: when the length is 0 nothing is read -/
def getW (mem : List Nat) (fmt : Nat) : Outcome (List Nat) := do
  let n ← getLE mem (hiOff fmt fWLen) 4
  let pre ← getLE mem 0 1
  getStream mem n (if n = 0 then 0 else pre <<< 2)

/-- `getSvStream`; an error of `getSvStreamOffset` is ignored and the offset is then 0 -/
def getSV (mem : List Nat) (fmt : Nat) : Outcome (List Nat) := do
  let n ← getLE mem (hiOff fmt fSVLen) 4
  let pre ← getLE mem 0 1
  if fmt ≥ 4 then do
    let wn ← getLE mem (hiOff fmt fWLen) 4
    getStream mem n (if n = 0 ∨ wn = 0 then 0 else (pre + wn) <<< 2)
  else getStream mem n (if n = 0 then 0 else pre <<< 2)

/-- `checkCapacity` after the lengths are known -/
def CS.checkSize (c : CS) (mem : List Nat) : Outcome Unit :=
  if mem.length < c.size then .err "insufficient Image Bytes" else .ok ()

/-- `kxp` and the hip accumulator -/
def getHip (fval : BitVec 64 → ℚ) (mem : List Nat) (fmt : Nat) (c : CS) : Outcome CS := do
  let k ← getLE mem (hiOff fmt fKxp) 8
  let h ← getLE mem (hiOff fmt fHip) 8
  .ok { c with kxp := fval (BitVec.ofNat 64 k), hip := fval (BitVec.ofNat 64 h) }

/-- formats 2 and 3, cpc/cpc_compressed_state.go l.560-577 -/
def getSparse (mem : List Nat) (fmt : Nat) (hip : CS → Outcome CS) (c : CS) : Outcome CS := do
  let num ← getLE mem (hiOff fmt fNum) 4
  let svLen ← getLE mem (hiOff fmt fSVLen) 4
  let c ← hip { c with num := num, numCsv := num, csvLen := svLen }
  c.checkSize mem
  let csv ← getSV mem fmt
  .ok { c with csv := some csv }

/-- formats 4 and 5, l.578-595 -/
def getNoSV (mem : List Nat) (fmt : Nat) (hip : CS → Outcome CS) (c : CS) : Outcome CS := do
  let fi ← getLE mem 4 1
  let num ← getLE mem (hiOff fmt fNum) 4
  let wLen ← getLE mem (hiOff fmt fWLen) 4
  let c ← hip { c with fiCol := fi, num := num, cwLen := wLen }
  c.checkSize mem
  let cw ← getW mem fmt
  .ok { c with cw := some cw }

/-- formats 6 and 7, l.596-619 -/
def getFull (mem : List Nat) (fmt : Nat) (hip : CS → Outcome CS) (c : CS) : Outcome CS := do
  let fi ← getLE mem 4 1
  let num ← getLE mem (hiOff fmt fNum) 4
  let numSV ← getLE mem (hiOff fmt fNumSV) 4
  let svLen ← getLE mem (hiOff fmt fSVLen) 4
  let wLen ← getLE mem (hiOff fmt fWLen) 4
  let c ← hip { c with fiCol := fi, num := num, numCsv := numSV, csvLen := svLen, cwLen := wLen }
  c.checkSize mem
  let cw ← getW mem fmt
  let csv ← getSV mem fmt
  .ok { c with cw := some cw, csv := some csv }

/-- cpc/cpc_compressed_state.go l.539-624 `importFromMemory` -/
def importCS (fval : BitVec 64 → ℚ) (mem : List Nat) : Outcome CS := do
  checkLo mem
  let flags ← getLE mem 5 1
  if flags &&& 2 = 0 then .err "not compressed" else
  let lgK ← getLE mem 3 1
  let h ← getLE mem 6 2
  let fmt ← formatOf mem
  let c := { newCS lgK (BitVec.ofNat 16 h) with merged := fmt &&& 1 = 0 }
  match fmt with
  | 0 | 1 => .ok c
  | 2 => getSparse mem 2 .ok c
  | 3 => getSparse mem 3 (getHip fval mem 3) c
  | 4 => getNoSV mem 4 .ok c
  | 5 => getNoSV mem 5 (getHip fval mem 5) c
  | 6 => getFull mem 6 .ok c
  | 7 => getFull mem 7 (getHip fval mem 7) c
  | _ => .err "unknown format"

/-- cpc/cpc_sketch.go l.94-115 `NewCpcSketchFromSlice` -/
def fromBytes (fval : BitVec 64 → ℚ) (mem : List Nat) (seed : Nat) : Outcome Sk := do
  let c ← importCS fval mem
  let s ← newSk c.lgK seed
  uncompress c { s with num := c.num, off := correctOffset c.lgK c.num, fiCol := c.fiCol,
                        merged := c.merged, kxp := c.kxp, hip := c.hip, win := none, pt := none }

/-- cpc/cpc_compressed_state.go l.169-204 `uncompressSketch` -/
def uncompressSketch (sh : Nat → Outcome (BitVec 16)) (c : CS) (seed : Nat) : Outcome Sk := do
  let h ← sh seed
  if h ≠ c.seedHash then .err "seed hash mismatch" else
  let s ← newSk c.lgK seed
  uncompress c { s with num := c.num, off := correctOffset c.lgK c.num, fiCol := c.fiCol,
                        merged := c.merged, kxp := c.kxp, hip := c.hip, win := none, pt := none }

/-! ## The wrapper of a serialized sketch -/

/-- The estimators of cpc/icon_estimator.go and cpc/confidence.go, which are not modelled: functions
of `lgK`, the number of coupons, the hip accumulator and `kappa`. -/
structure Est where
  icon : Nat → Nat → ℚ
  iconLB : Nat → Nat → Nat → ℚ
  iconUB : Nat → Nat → Nat → ℚ
  hipLB : Nat → Nat → ℚ → Nat → ℚ
  hipUB : Nat → Nat → ℚ → Nat → ℚ

/-- cpc/cpc_sketch.go l.121-126 `GetEstimate` -/
def estimate (E : Est) (s : Sk) : ℚ := if s.merged then E.icon s.lgK s.num else s.hip

/-- cpc/cpc_sketch.go l.128-133 `GetLowerBound` -/
def lowerBound (E : Est) (kappa : Nat) (s : Sk) : ℚ :=
  if s.merged then E.iconLB s.lgK s.num kappa else E.hipLB s.lgK s.num s.hip kappa

/-- cpc/cpc_sketch.go l.135-140 `GetUpperBound` -/
def upperBound (E : Est) (kappa : Nat) (s : Sk) : ℚ :=
  if s.merged then E.iconUB s.lgK s.num kappa else E.hipUB s.lgK s.num s.hip kappa

/-- cpc/cpc_wrapper.go l.34-42 `NewCpcWrapperFromBytes`: the wrapper is the bytes -/
def wrap (mem : List Nat) : Outcome (List Nat) := do
  checkLo mem
  let flags ← getLE mem 5 1
  if flags &&& 2 = 0 then .err "not compressed" else .ok mem

/-- cpc/utils.go l.356-359 `getNumCoupons`: the error of `getHiFieldOffset` is dropped, the offset is
then 0 -/
def wNum (mem : List Nat) : Outcome Nat := do
  let fmt ← formatOf mem
  getLE mem (hiOff fmt fNum) 4

/-- cpc/utils.go l.333-336 `getHipAccum` -/
def wHip (fval : BitVec 64 → ℚ) (mem : List Nat) : Outcome ℚ := do
  let fmt ← formatOf mem
  let h ← getLE mem (hiOff fmt fHip) 8
  .ok (fval (BitVec.ofNat 64 h))

/-- cpc/utils.go l.133-135 `hasHip` -/
def wHasHip (mem : List Nat) : Outcome Bool := do
  let flags ← getLE mem 5 1
  .ok (flags &&& 4 > 0)

/-- cpc/cpc_wrapper.go l.55-57 `GetLgK` -/
def wLgK (mem : List Nat) : Outcome Nat := getLE mem 3 1

/-- cpc/cpc_wrapper.go l.47-52 `GetEstimate` -/
def wEstimate (E : Est) (fval : BitVec 64 → ℚ) (mem : List Nat) : Outcome ℚ := do
  let b ← wHasHip mem
  if b then wHip fval mem else do
    let l ← wLgK mem
    let n ← wNum mem
    .ok (E.icon l n)

/-- cpc/cpc_wrapper.go l.61-66 `GetLowerBound` -/
def wLowerBound (E : Est) (kappa : Nat) (fval : BitVec 64 → ℚ) (mem : List Nat) : Outcome ℚ := do
  let b ← wHasHip mem
  let l ← wLgK mem
  let n ← wNum mem
  if b then do
    let h ← wHip fval mem
    .ok (E.hipLB l n h kappa)
  else .ok (E.iconLB l n kappa)

/-- cpc/cpc_wrapper.go l.70-75 `GetUpperBound` -/
def wUpperBound (E : Est) (kappa : Nat) (fval : BitVec 64 → ℚ) (mem : List Nat) : Outcome ℚ := do
  let b ← wHasHip mem
  let l ← wLgK mem
  let n ← wNum mem
  if b then do
    let h ← wHip fval mem
    .ok (E.hipUB l n h kappa)
  else .ok (E.iconUB l n kappa)

end Verif.Cpc
