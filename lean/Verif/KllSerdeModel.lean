import Verif.KllModel
import Verif.ItemSerdeModel

/-!
# KLL items sketch: serialization

`kll/items_sketch.go` (ToSlice, NewKllItemsSketchFromSlice, GetSerializedSizeBytes),
`kll/items_sketch_validate.go`, `kll/preamble_utils.go`, `kll/sketch_structure.go`.

Offsets that the code computes in `uint8` (`_DATA_START_ADR + i*4`) are reduced modulo 256; the
difference of level boundaries is computed in `uint32`.  A byte slice has capacity equal to its
length (the decoder compares `cap(srcMem)` with 8).  The arguments `serde` and `compareFn` are not
nil.  Allocation never fails.
-/

namespace Verif.Kll

open Verif
open Verif.Items

variable {α : Type}

/-- kll/items_sketch.go:668-673 -/
def getSingleItem (s : Sketch α) : Outcome α :=
  if s.n ≠ 1 then .err "sketch must have exactly one item"
  else do
    let p ← sub s.k 1
    rd s.items p

/-- kll/items_sketch.go:687-693 -/
def retainedSize (sd : Serde α) (s : Sketch α) : Outcome Nat := do
  let a ← rd s.levels 0
  let b ← rd s.levels s.numLevels
  (List.range (b - a)).foldlM (fun sz i => do
    let x ← rd s.items (a + i)
    .ok (sz + sd.sizeOf x)) 0

/-- kll/items_sketch.go:573-617, 629-641 -/
def serializedSize (sd : Serde α) (s : Sketch α) : Outcome Nat :=
  if s.n = 0 then .ok 8
  else if s.n = 1 then do
    let x ← getSingleItem s
    .ok (8 + sd.sizeOf x)
  else do
    let lv ← sub s.levels.length 1
    let r ← retainedSize sd s
    .ok (20 + lv * 4 + (sd.sizeOf s.minItem + sd.sizeOf s.maxItem) + r)

/-- kll/items_sketch.go:643-650 -/
def minMaxBytes (sd : Serde α) (s : Sketch α) : List Nat := sd.one s.minItem ++ sd.one s.maxItem

/-- kll/items_sketch.go:675-680: `copy` into a slice of `GetNumRetained` zero items.  Fewer items in
the source (the rest would stay zero) is treated as a panic. -/
def retainedItems (s : Sketch α) : Outcome (List α) := do
  let r ← getNumRetained s
  let a ← rd s.levels 0
  if s.items.length < a then .panic
  else if (s.items.drop a).length < r then .panic
  else .ok ((s.items.drop a).take r)

/-- kll/items_sketch.go:512-526 -/
def flagsByte (s : Sketch α) : Nat :=
  (if s.n = 0 then 1 else 0) + (if s.isLevelZeroSorted then 2 else 0) + (if s.n = 1 then 4 else 0)

/-- kll/items_sketch.go:508-535: the first eight bytes -/
def putHead (s : Sketch α) (b : List Nat) : Outcome (List Nat) := do
  let b ← put b 0 (toLE 1 (if s.n = 0 ∨ s.n = 1 then 2 else 5))
  let b ← put b 1 (toLE 1 (if s.n = 1 then 2 else 1))
  let b ← put b 2 (toLE 1 15)
  let b ← put b 3 (toLE 1 (flagsByte s))
  let b ← put b 4 (toLE 2 s.k)
  put b 6 (toLE 1 s.m)

/-- kll/items_sketch.go:563-565 -/
def putLevels (s : Sketch α) (b : List Nat) : Outcome (List Nat) :=
  (List.range s.numLevels).foldlM (fun b i => do
    let v ← rd s.levels i
    put b ((20 + i * 4) % 256) (toLE 4 v)) b

/-- kll/items_sketch.go:548-568 -/
def putFull (sd : Serde α) (s : Sketch α) (b : List Nat) : Outcome (List Nat) := do
  let items ← retainedItems s
  let b ← put b 8 (toLE 8 s.n)
  let b ← put b 16 (toLE 2 s.minK)
  let b ← put b 18 (toLE 1 s.numLevels)
  let b ← putLevels s b
  let b ← copyAt b ((20 + s.numLevels * 4) % 256) (minMaxBytes sd s)
  copyAt b (20 + s.numLevels * 4 % 256 + (minMaxBytes sd s).length) (sd.many items)

/-- kll/items_sketch.go:495-570 -/
def toSlice (sd : Serde α) (s : Sketch α) : Outcome (List Nat) := do
  let total ← serializedSize sd s
  let b ← putHead s (List.replicate total 0)
  if s.n = 0 then .ok b
  else if s.n = 1 then do
    let x ← getSingleItem s
    copyAt b 8 (sd.one x)
  else putFull sd s b

/-! ## Reading -/

/-- kll/sketch_structure.go:22-27 -/
inductive Structure where
  | empty
  | single
  | full
  | updatable
deriving DecidableEq

/-- kll/sketch_structure.go:36-51 -/
def getSketchStructure (preInts serVer : Nat) : Outcome Structure :=
  if preInts = 2 ∧ serVer = 1 then .ok .empty
  else if preInts = 2 ∧ serVer = 2 then .ok .single
  else if preInts = 5 ∧ serVer = 1 then .ok .full
  else if preInts = 5 ∧ serVer = 3 then .ok .updatable
  else .panic

/-- The fields of `itemsSketchMemoryValidate` that are used afterwards,
kll/items_sketch_validate.go:27-57 -/
structure MemVal where
  st : Structure
  k : Nat
  m : Nat
  zs : Bool
  n : Nat
  minK : Nat
  numLevels : Nat
  levels : List Nat

/-- kll/utils.go:46-58 -/
def checkKM (k m : Nat) : Outcome Unit :=
  if m < 2 ∨ 8 < m ∨ m % 2 = 1 then .err "M must be >= 2, <= 8 and even"
  else if k < m ∨ 65535 < k then .err "K"
  else .ok ()

/-- kll/items_sketch_validate.go:115-118 -/
def readLevels (mem : List Nat) (numLevels : Nat) : Outcome (List Nat) :=
  (List.range numLevels).foldlM (fun lv i => do
    let b ← slice mem ((20 + i * 4) % 256) ((20 + i * 4 + 4) % 256)
    let v ← getLE b 0 4
    wr lv i v) (List.replicate ((numLevels + 1) % 256) 0)

/-- `a - b` in `uint32` -/
def sub32 (a b : Nat) : Nat := (a + 4294967296 - b) % 4294967296

/-- kll/items_sketch_validate.go:105-127, 154-174 (`typeBytes` is 0) -/
def validateFull (sd : Serde α) (mem : List Nat) (k m flags : Nat) : Outcome MemVal :=
  if flags % 2 = 1 then .err "Empty flag and compact full"
  else do
    let n ← getLE mem 8 8
    let minK ← getLE mem 16 2
    let numLevels ← getLE mem 18 1
    let lv ← readLevels mem numLevels
    let total ← computeTotalItemCapacity k m numLevels
    let lv ← wr lv numLevels total
    let a ← rd lv 0
    let _ ← sd.sizeOfMany mem (20 + numLevels * 4) (sub32 total a + 2)
    .ok ⟨.full, k, m, flags / 2 % 2 == 1, n, minK, numLevels, lv⟩

/-- kll/items_sketch_validate.go:104-152 -/
def validate (sd : Serde α) (mem : List Nat) (st : Structure) (k m flags : Nat) : Outcome MemVal :=
  match st with
  | .full => validateFull sd mem k m flags
  | .empty =>
    if flags % 2 = 0 then .err "Empty flag and compact empty"
    else .ok ⟨.empty, k, m, flags / 2 % 2 == 1, 0, k, 1, [k, k]⟩
  | .single =>
    if flags % 2 = 1 then .err "Empty flag and compact single"
    else do
      let _ ← sd.sizeOfMany mem 8 1
      .ok ⟨.single, k, m, flags / 2 % 2 == 1, 1, k, 1, [k - 1, k]⟩
  | .updatable => .err "Invalid preamble ints and serial version combo"

/-- kll/items_sketch_validate.go:59-102 -/
def newMemVal (sd : Serde α) (mem : List Nat) : Outcome MemVal :=
  if mem.length < 8 then .err "Memory too small"
  else do
    let preInts ← getLE mem 0 1
    let serVer ← getLE mem 1 1
    let st ← getSketchStructure preInts serVer
    let family ← getLE mem 2 1
    if family ≠ 15 then .err "Source not KLL"
    else do
      let flags ← getLE mem 3 1
      let k ← getLE mem 4 2
      let m ← getLE mem 6 1
      let _ ← checkKM k m
      validate sd mem st k m flags

/-- kll/items_sketch.go:157-180 -/
def readFull (sd : Serde α) (env : Env α) (mem : List Nat) (v : MemVal) : Outcome (Sketch α) := do
  let top ← rd v.levels v.numLevels
  let low ← rd v.levels 0
  let off := (20 + v.numLevels * 4) % 256
  let mins ← sd.deser mem off 1
  let mn ← rd mins 0
  let maxs ← sd.deser mem (off + sd.sizeOf mn) 1
  let mx ← rd maxs 0
  let ret ← sd.deser mem (off + sd.sizeOf mn + sd.sizeOf mx) (sub32 top low)
  let items ← (List.range (sub32 top low)).foldlM (fun it i => do
    let x ← rd ret i
    wr it ((i + low) % 4294967296) x) (List.replicate top env.zero)
  .ok ⟨v.k, v.m, v.minK, v.numLevels, v.zs, v.n, v.levels, items, mn, mx, true, []⟩

/-- kll/items_sketch.go:115-197; the ghost `log` is empty -/
def fromSlice (sd : Serde α) (env : Env α) (mem : List Nat) : Outcome (Sketch α) := do
  let v ← newMemVal sd mem
  match v.st with
  | .empty =>
    .ok ⟨v.k, v.m, v.minK, v.numLevels, v.zs, v.n, v.levels, List.replicate v.k env.zero,
      env.zero, env.zero, false, []⟩
  | .single => do
    let xs ← sd.deser mem 8 1
    let x ← rd xs 0
    let p ← sub v.k 1
    let items ← wr (List.replicate v.k env.zero) p x
    .ok ⟨v.k, v.m, v.minK, v.numLevels, v.zs, v.n, v.levels, items, x, x, true, []⟩
  | _ => readFull sd env mem v

end Verif.Kll
