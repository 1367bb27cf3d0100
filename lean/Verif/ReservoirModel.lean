import Verif.Rand

/-!
# Model of the reservoir sketch and its union

Models `sampling/reservoir_items_sketch.go`, `sampling/reservoir_items_union.go` and the two
allocation helpers of `sampling/utils.go`.

Simplifications.
* `n` (an `int64`) and `k` (an `int`) are natural numbers: in every sketch made by the constructor
  and `Update` they are never negative, and `Update` refuses to go beyond `maxItemsSeen = 2^48 - 1`.
* `float64` quantities of the union (implicit weights, totals) are rationals.
* The capacity of the backing array is tracked, because `Update` returns an error when it does not
  suffice.  What capacity `slices.Grow` picks is left open: parameter `grow`, of which only
  `m ≤ grow m` is known (`Env.Ok`).
* `internal.IsNil` is the parameter `isNil`.
* A slice is a list: sketches never share their slice (`Copy`, `Samples` copy; see
  `UpdateFromRaw` in `ReservoirRaw.lean` for the documented exception).
-/

namespace Verif.Reservoir

variable {T : Type}

/-- What the model leaves open: which items are nil, and the capacity `slices.Grow` allocates. -/
structure Env (T : Type) where
  isNil : T → Bool
  grow : Nat → Nat

/-- Documented behaviour of `slices.Grow`. -/
def Env.Ok (E : Env T) : Prop := ∀ m, m ≤ E.grow m

/-- `ReservoirItemsSketch`, sampling/reservoir_items_sketch.go l.53-58 -/
structure Sk (T : Type) where
  k : Nat
  n : Nat
  rf : Nat
  data : List T
  cap : Nat
  deriving DecidableEq, Repr

/-- sampling/reservoir_items_sketch.go l.41 -/
def maxItemsSeen : Nat := 0xFFFFFFFFFFFF

/-- `common.CeilingPowerOf2`, common/utils.go l.68-78 -/
def ceilPow2 (n : Nat) : Nat :=
  if n ≤ 1 then 1 else if n ≥ 2 ^ 30 then 2 ^ 30 else 2 ^ (Nat.log2 ((n - 1) * 2))

/-- `startingSubMultiple`, sampling/utils.go l.31-39 -/
def startingSubMultiple (lgTarget lgRf lgMin : Nat) : Nat :=
  if lgTarget ≤ lgMin then lgMin
  else if lgRf = 0 then lgTarget
  else (lgTarget - lgMin) % lgRf + lgMin

/-- `adjustedSamplingAllocationSize`, sampling/utils.go l.44-51 -/
def adjustedSize (maxSize resizeTarget : Nat) : Nat :=
  if maxSize < resizeTarget * 2 then maxSize else resizeTarget

/-- Initial capacity, reservoir_items_sketch.go l.86-89 and l.94 -/
def initialCap (k rf : Nat) : Nat :=
  adjustedSize k (2 ^ startingSubMultiple (Nat.log2 (ceilPow2 k)) rf 4)

/-- `NewReservoirItemsSketch`, reservoir_items_sketch.go l.72-96 -/
def new (k rf : Nat) : Outcome (Sk T) :=
  if k < 2 then .err "k must be at least 2"
  else .ok { k := k, n := 0, rf := rf, data := [], cap := initialCap k rf }

/-- `slices.Grow(data, n)` seen through the capacity. -/
def growSlice (E : Env T) (len cap n : Nat) : Nat := if cap - len < n then E.grow (len + n) else cap

/-- `growReservoir`, reservoir_items_sketch.go l.133-136 -/
def growReservoir (E : Env T) (s : Sk T) : Sk T :=
  { s with cap := growSlice E s.data.length s.cap (adjustedSize s.k (s.cap * 2 ^ s.rf)) }

/-- `Update`, reservoir_items_sketch.go l.103-131.  `s.data[j] = item` panics when `j` is out of
range. -/
def update (E : Env T) (s : Sk T) (item : T) : Rand (Sk T) :=
  if s.n = maxItemsSeen then .err "sketch exceeds max capacity"
  else if E.isNil item then .ret s
  else if s.n < s.k then
    let s1 := if s.n ≥ s.cap then growReservoir E s else s
    if s.n ≥ s1.cap then .err "sketch exceeds max capacity"
    else .ret { s1 with data := s1.data ++ [item], n := s1.n + 1 }
  else do
    let j ← Rand.draw (s.n + 1)
    if j < s.k then
      if j < s.data.length then .ret { s with data := s.data.set j item, n := s.n + 1 }
      else .panic
    else .ret { s with n := s.n + 1 }

/-- A caller that presents the items of a list one after the other. -/
def updates (E : Env T) (s : Sk T) (items : List T) : Rand (Sk T) := items.foldlM (update E) s

/-- `NumSamples`, reservoir_items_sketch.go l.150-152 -/
def Sk.numSamples (s : Sk T) : Nat := s.data.length

/-- `Reset`, reservoir_items_sketch.go l.166-174 -/
def reset (s : Sk T) : Sk T := { s with n := 0, data := [], cap := initialCap s.k s.rf }

/-- `implicitSampleWeight`, reservoir_items_sketch.go l.176-181 -/
def implicitSampleWeight (s : Sk T) : ℚ := if s.n < s.k then 1 else (s.n : ℚ) / s.k

/-- The fields `Estimate` and `TotalSketchWeight` of `EstimateSubsetSum`,
reservoir_items_sketch.go l.202-241 (with the bounds: `Verif.SubsetBoundsModel`). -/
def estimateSubsetSum (s : Sk T) (p : T → Bool) : ℚ × ℚ :=
  if s.n = 0 then (0, 0)
  else
    let trueCount := s.data.countP p
    if s.n ≤ s.k then (trueCount, s.numSamples)
    else (s.n * (trueCount / s.numSamples), s.n)

/-- `forceIncrementItemsSeen`, reservoir_items_sketch.go l.300-307 -/
def forceIncrement (s : Sk T) (delta : Nat) : Outcome (Sk T) :=
  if s.n + delta > maxItemsSeen then .err "n exceeds maxItemsSeen"
  else .ok { s with n := s.n + delta }

/-- `valueAtPosition`, reservoir_items_sketch.go l.274-286 -/
def valueAt (s : Sk T) (pos : Nat) : Outcome T :=
  if s.n = 0 then .err "sketch is empty"
  else match s.data[pos]? with
    | none => .err "position out of range"
    | some v => .ok v

/-- `downsampledCopy`, reservoir_items_sketch.go l.251-271 -/
def downsampledCopy (E : Env T) (s : Sk T) (newK : Nat) : Rand (Sk T) := do
  let r ← Rand.ofOutcome (new newK s.rf)
  let r ← updates E r s.data
  if r.n < s.n then Rand.ofOutcome (forceIncrement r (s.n - r.n)) else .ret r

/-! ## Union -/

/-- `ReservoirItemsUnion`, reservoir_items_union.go l.46-49 -/
structure Un (T : Type) where
  maxK : Nat
  gadget : Option (Sk T)
  deriving DecidableEq, Repr

/-- `NewReservoirItemsUnion`, reservoir_items_union.go l.52-57 -/
def newUnion (maxK : Nat) : Un T := { maxK := maxK, gadget := none }

/-- The gadget of `Update`, reservoir_items_union.go l.69-71.  The error of the constructor is
dropped, so the gadget stays nil for `maxK < 2` and the next call dereferences nil. -/
def Un.gadgetOrNew (u : Un T) : Rand (Sk T) :=
  match u.gadget with
  | some g => .ret g
  | none => match new u.maxK 3 with
    | .ok g => .ret g
    | _ => .panic

/-- `Update`, reservoir_items_union.go l.64-77. -/
def Un.update (E : Env T) (u : Un T) (item : T) : Rand (Un T) :=
  if E.isNil item then .ret u
  else do
    let g ← u.gadgetOrNew
    let g ← Reservoir.update E g item
    .ret { u with gadget := some g }

/-- One round of the loop of `twoWayMergeInternalStandard`, reservoir_items_union.go l.209-218 -/
def standardStep (E : Env T) (src : Sk T) (g : Sk T) (i : Nat) : Rand (Sk T) := do
  let v ← Rand.ofOutcome (valueAt src i)
  update E g v

/-- `twoWayMergeInternalStandard`, reservoir_items_union.go l.208-220 -/
def mergeStandard (E : Env T) (g src : Sk T) : Rand (Sk T) :=
  (List.range src.numSamples).foldlM (standardStep E src) g

/-- One round of the loop of `twoWayMergeInternalWeighted`, reservoir_items_union.go l.230-244.
`insertValueAtPosition` returns an error, which is ignored, when the slot is out of range: then
`List.set` does nothing either. -/
def weightedStep (src : Sk T) (w rescaledProb : ℚ) (tgtK : Nat) (st : List T × ℚ) (i : Nat) :
    Rand (List T × ℚ) := do
  let total := st.2 + w
  let u ← Rand.float
  if total * u < rescaledProb then do
    let slot ← Rand.draw tgtK
    let v ← Rand.ofOutcome (valueAt src i)
    .ret (st.1.set slot v, total)
  else .ret (st.1, total)

/-- `twoWayMergeInternalWeighted`, reservoir_items_union.go l.223-251 -/
def mergeWeighted (g src : Sk T) : Rand (Sk T) := do
  let w : ℚ := (src.n : ℚ) / src.k
  let st ← (List.range src.k).foldlM (weightedStep src w (g.k * w) g.k) (g.data, (g.n : ℚ))
  Rand.ofOutcome (forceIncrement { g with data := st.1 } src.n)

/-- `twoWayMergeInternal`, reservoir_items_union.go l.171-204 -/
def twoWayMerge (E : Env T) (g src : Sk T) : Rand (Sk T) :=
  if src.n ≤ src.k then mergeStandard E g src
  else if g.n < g.k then mergeStandard E src g
  else if implicitSampleWeight src < (g.n : ℚ) / (g.k - 1) then mergeWeighted g src
  else mergeWeighted src g

/-- `createNewGadget`, reservoir_items_union.go l.147-167 -/
def createNewGadget (E : Env T) (maxK : Nat) (src : Sk T) : Rand (Sk T) :=
  if src.k < maxK ∧ src.n ≤ src.k then do
    let g ← Rand.ofOutcome (new maxK 3)
    twoWayMerge E g src
  else .ret src

/-- The downsampling of a too large input, reservoir_items_union.go l.90-101 -/
def Un.prepare (E : Env T) (u : Un T) (s : Sk T) : Rand (Sk T) :=
  if s.k > u.maxK then downsampledCopy E s u.maxK else .ret s

/-- reservoir_items_union.go l.103-113 -/
def Un.absorb (E : Env T) (u : Un T) (ris : Sk T) : Rand (Sk T) :=
  match u.gadget with
  | none => createNewGadget E u.maxK ris
  | some g => twoWayMerge E g ris

/-- `UpdateSketch`, reservoir_items_union.go l.84-114 (a nil sketch leaves the union as it is) -/
def Un.updateSketch (E : Env T) (u : Un T) (sketch : Option (Sk T)) : Rand (Un T) :=
  match sketch with
  | none => .ret u
  | some s => do
    let ris ← u.prepare E s
    let g ← u.absorb E ris
    .ret { u with gadget := some g }

/-- `Result`, reservoir_items_union.go l.254-259 -/
def Un.result (u : Un T) : Option (Sk T) := u.gadget

/-- `Reset`, reservoir_items_union.go l.267-269: dereferences the gadget without a check. -/
def Un.reset (u : Un T) : Outcome (Un T) :=
  match u.gadget with
  | none => .panic
  | some g => .ok { u with gadget := some (Reservoir.reset g) }

end Verif.Reservoir
