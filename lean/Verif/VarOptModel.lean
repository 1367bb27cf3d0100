import Verif.Rand

/-!
# Model of the VarOpt sketch

Models `sampling/varopt_items_sketch.go`.

Simplifications.
* Weights and totals (`float64`) are rationals, so NaN, infinities and rounding are outside.
* The parallel slices `data`, `weights`, `marks` (always of one length) are one list of slots; that
  `marks` is nil (a plain sketch, not the gadget of a union) is the flag `gadget = false`.
* Capacities are not tracked: `append` grows the slices anyway, so `growArrays` (l.672-687) has no
  observable effect.
* The loops of the heap have fuel; running out of it is `Outcome.panic`, so that theorems about
  normal returns include termination.
* A method that changes the sketch and then returns an error is modelled by the error alone.
-/

namespace Verif.VarOpt

variable {T : Type}

/-- One index of the parallel slices, varopt_items_sketch.go l.48-55 -/
structure Slot (T : Type) where
  item : T
  weight : ℚ
  mark : Bool
  deriving DecidableEq, Repr

/-- `VarOptItemsSketch`, varopt_items_sketch.go l.47-71 -/
structure Sk (T : Type) where
  slots : List (Slot T)
  gadget : Bool
  k : Nat
  n : Nat
  h : Nat
  m : Nat
  r : Nat
  totalWeightR : ℚ
  numMarksInH : Nat
  deriving DecidableEq, Repr

/-- `NewVarOptItemsSketch` (l.94-125, `gadget = false`) and `newVarOptItemsSketchFromState`
(l.127-161) -/
def new (k : Nat) (gadget : Bool) : Outcome (Sk T) :=
  if k < 1 ∨ k > 2 ^ 31 - 2 then .err "k must be at least 1 and less than 2^31 - 1"
  else .ok { slots := [], gadget := gadget, k := k, n := 0, h := 0, m := 0, r := 0,
             totalWeightR := 0, numMarksInH := 0 }

/-- `Reset`, l.178-198 -/
def reset (s : Sk T) : Sk T :=
  { s with slots := [], n := 0, h := 0, m := 0, r := 0, totalWeightR := 0, numMarksInH := 0 }

/-- `NumSamples`, l.170-172 -/
def Sk.numSamples (s : Sk T) : Nat := min s.k (s.h + s.r)

/-- `tau`, l.645-650 (`none` is NaN) -/
def Sk.tau (s : Sk T) : Option ℚ := if s.r = 0 then none else some (s.totalWeightR / s.r)

/-- A read of `s.weights[i]`. -/
def wAt (l : List (Slot T)) (i : Nat) : Outcome ℚ :=
  match l[i]? with
  | some s => .ok s.weight
  | none => .panic

/-- A read of a slot. -/
def slotAt (l : List (Slot T)) (i : Nat) : Outcome (Slot T) := Outcome.ofOption l[i]?

/-- A write of a slot. -/
def put (l : List (Slot T)) (i : Nat) (s : Slot T) : Outcome (List (Slot T)) :=
  if i < l.length then .ok (l.set i s) else .panic

/-- `swap`, l.663-670 -/
def swap (l : List (Slot T)) (i j : Nat) : Outcome (List (Slot T)) :=
  match l[i]?, l[j]? with
  | some a, some b => .ok ((l.set i b).set j a)
  | _, _ => .panic

/-- The smaller child, l.628-631 -/
def pickChild (l : List (Slot T)) (lastSlot child : Nat) : Outcome Nat :=
  if child + 1 ≤ lastSlot then do
    let w2 ← wAt l (child + 1)
    let w1 ← wAt l child
    pure (if w2 < w1 then child + 1 else child)
  else .ok child

/-- The loop of `restoreTowardsLeaves`, l.627-640 -/
def leavesLoop : Nat → List (Slot T) → Nat → Nat → Nat → Outcome (List (Slot T))
  | 0, _, _, _, _ => .panic
  | fuel + 1, l, lastSlot, slot, child =>
    if child ≤ lastSlot then do
      let c ← pickChild l lastSlot child
      let ws ← wAt l slot
      let wc ← wAt l c
      if ws ≤ wc then .ok l
      else do
        let l' ← swap l slot c
        leavesLoop fuel l' lastSlot c (2 * c + 1)
    else .ok l

/-- `restoreTowardsLeaves`, l.618-643 -/
def restoreTowardsLeaves (l : List (Slot T)) (h slotIn : Nat) : Outcome (List (Slot T)) :=
  if h = 0 ∨ slotIn > h - 1 then .err "invalid heap state"
  else leavesLoop (h + 1) l (h - 1) slotIn (2 * slotIn + 1)

/-- `restoreTowardsRoot`, l.652-661 -/
def restoreTowardsRoot : Nat → List (Slot T) → Nat → Outcome (List (Slot T))
  | 0, _, _ => .panic
  | fuel + 1, l, slot =>
    if slot > 0 then do
      let p := (slot + 1) / 2 - 1
      let ws ← wAt l slot
      let wp ← wAt l p
      if ws < wp then do
        let l' ← swap l slot p
        restoreTowardsRoot fuel l' p
      else .ok l
    else .ok l

/-- `heapify`, l.601-615: `j` counts down from the last non-leaf; `heapifyFrom h (j+1)` handles the
slots `j, ..., 0`. -/
def heapifyFrom (h : Nat) : Nat → List (Slot T) → Outcome (List (Slot T))
  | 0, l => .ok l
  | j + 1, l => do
    let l' ← restoreTowardsLeaves l h j
    heapifyFrom h j l'

/-- `heapify`, l.601-615 (last non-leaf `((h-1)+1)/2 - 1`) -/
def heapify (l : List (Slot T)) (h : Nat) : Outcome (List (Slot T)) :=
  if h < 2 then .ok l else heapifyFrom h (h / 2) l

/-- `push`, l.413-425 -/
def push (s : Sk T) (x : Slot T) : Outcome (Sk T) := do
  let l ← put s.slots s.h x
  let l' ← restoreTowardsRoot (s.h + 1) l s.h
  pure { s with slots := l', h := s.h + 1,
                numMarksInH := if s.gadget ∧ x.mark then s.numMarksInH + 1 else s.numMarksInH }

/-- The slots after `popMinToMRegion`, l.433-445 -/
def popSlots (l : List (Slot T)) (h : Nat) : Outcome (List (Slot T)) :=
  if h = 1 then .ok l
  else do
    let l1 ← swap l 0 (h - 1)
    restoreTowardsLeaves l1 (h - 1) 0

/-- `popMinToMRegion`, l.428-451 (`isMarked` l.453-455) -/
def popMin (s : Sk T) : Outcome (Sk T) :=
  if s.h = 0 ∨ s.h + s.m + s.r ≠ s.k + 1 then .err "invalid heap state popping min to M region"
  else do
    let l ← popSlots s.slots s.h
    let top ← slotAt l (s.h - 1)
    pure { s with slots := l, m := s.m + 1, h := s.h - 1,
                  numMarksInH := if s.gadget ∧ top.mark then s.numMarksInH - 1 else s.numMarksInH }

/-- `pickRandomSlotInR`, l.578-588 -/
def pickRandomSlotInR (s : Sk T) : Rand Nat :=
  if s.r = 0 then .err "r == 0 when picking slot in R region"
  else if s.r = 1 then .ret (s.h + s.m)
  else do
    let i ← Rand.draw s.r
    .ret (s.h + s.m + i)

/-- The loop of `chooseWeightedDeleteSlot`, l.564-574: `cnt` rounds left, at index `i`. -/
def weightedLoop (l : List (Slot T)) (wtCands : ℚ) (numToKeep : Nat) :
    Nat → Nat → ℚ → ℚ → Outcome Nat
  | 0, i, _, _ => .ok i
  | cnt + 1, i, left, right => do
    let w ← wAt l i
    let left' := left + numToKeep * w
    let right' := right + wtCands
    if left' < right' then .ok i
    else weightedLoop l wtCands numToKeep cnt (i + 1) left' right'

/-- The general case of `chooseDeleteSlot`, l.544-551 and l.556-575 -/
def chooseGeneral (s : Sk T) (wtCands : ℚ) (numCands : Nat) : Rand Nat := do
  let u ← Rand.floatNonZero
  let slot ← Rand.ofOutcome
    (weightedLoop s.slots wtCands (numCands - 1) s.m s.h 0 (-wtCands * u))
  if slot = s.h + s.m then pickRandomSlotInR s else .ret slot

/-- The case of one candidate in M, l.536-543 -/
def chooseOne (s : Sk T) (wtCands : ℚ) (numCands : Nat) : Rand Nat := do
  let wM ← Rand.ofOutcome (wAt s.slots s.h)
  let u ← Rand.floatNonZero
  if wtCands * u < ((numCands - 1 : Nat) : ℚ) * wM then pickRandomSlotInR s else .ret s.h

/-- `chooseDeleteSlot`, l.527-553 -/
def chooseDeleteSlot (s : Sk T) (wtCands : ℚ) (numCands : Nat) : Rand Nat :=
  if s.r = 0 then .err "choosing delete slot while in exact mode"
  else if s.m = 0 then pickRandomSlotInR s
  else if s.m = 1 then chooseOne s wtCands numCands
  else chooseGeneral s wtCands numCands

/-- Overwriting the weights of M, l.512-515 -/
def clearM (l : List (Slot T)) (h m : Nat) : List (Slot T) :=
  l.mapIdx fun j s => if h ≤ j ∧ j < h + m then { s with weight := -1 } else s

/-- `s.data[deleteSlot] = s.data[leftmostCandSlot]`, l.518 -/
def moveItem (l : List (Slot T)) (dst src : Nat) : Outcome (List (Slot T)) :=
  match l[src]?, l[dst]? with
  | some a, some b => .ok (l.set dst { b with item := a.item })
  | _, _ => .panic

/-- The end of `downsampleCandidateSet`, l.504-523 -/
def finishDownsample (s : Sk T) (wtCands : ℚ) (numCands deleteSlot : Nat) : Outcome (Sk T) :=
  if deleteSlot < s.h ∨ deleteSlot > s.k then .err "invalid delete slot index when downsampling"
  else do
    let l ← moveItem (clearM s.slots s.h s.m) deleteSlot s.h
    pure { s with slots := l, m := 0, r := numCands - 1, totalWeightR := wtCands }

/-- `downsampleCandidateSet`, l.493-524 -/
def downsample (s : Sk T) (wtCands : ℚ) (numCands : Nat) : Rand (Sk T) :=
  if numCands < 2 ∨ s.h + numCands ≠ s.k + 1 then .err "invalid numCands when downsampling"
  else do
    let d ← chooseDeleteSlot s wtCands numCands
    Rand.ofOutcome (finishDownsample s wtCands numCands d)

/-- The loop of `growCandidateSet`, l.469-487 -/
def growLoop : Nat → Sk T → ℚ → Nat → Outcome (Sk T × ℚ × Nat)
  | 0, _, _, _ => .panic
  | fuel + 1, s, wtCands, numCands =>
    if s.h > 0 then do
      let nextWt ← wAt s.slots 0
      let nextTot := wtCands + nextWt
      if nextWt * numCands < nextTot then do
        let s' ← popMin s
        growLoop fuel s' nextTot (numCands + 1)
      else .ok (s, wtCands, numCands)
    else .ok (s, wtCands, numCands)

/-- `growCandidateSet`, l.464-490 -/
def growCandidateSet (s : Sk T) (wtCands : ℚ) (numCands : Nat) : Rand (Sk T) :=
  if s.h + s.m + s.r ≠ s.k + 1 ∨ numCands < 1 ∨ numCands ≠ s.m + s.r ∨ s.m ≥ 2 then
    .err "invariant violated when growing candidate set"
  else do
    let st ← Rand.ofOutcome (growLoop (s.h + 1) s wtCands numCands)
    downsample st.1 st.2.1 st.2.2

/-- The deterministic part of `transitionFromWarmup`, l.326-347, with the weight of the M item
(l.351) -/
def transitionPrep (s : Sk T) : Outcome (Sk T × ℚ) := do
  let l ← heapify s.slots s.h
  let s1 ← popMin { s with slots := l }
  let s2 ← popMin s1
  if s2.m = 0 then .panic
  else if s2.h ≠ s2.k - 1 ∨ s2.m - 1 ≠ 1 ∨ s2.r + 1 ≠ 1 then
    .err "invalid state for transitioning from warmup"
  else do
    let x ← slotAt s2.slots s2.k
    let l' ← put s2.slots s2.k { x with weight := -1 }
    let wM ← wAt l' (s2.k - 1)
    pure ({ s2 with slots := l', m := s2.m - 1, r := s2.r + 1, totalWeightR := x.weight }, wM)

/-- `transitionFromWarmup`, l.323-352 -/
def transitionFromWarmup (s : Sk T) : Rand (Sk T) := do
  let p ← Rand.ofOutcome (transitionPrep s)
  growCandidateSet p.1 (p.2 + p.1.totalWeightR) 2

/-- `updateWarmupPhase`, l.298-320 -/
def updateWarmup (s : Sk T) (x : Slot T) : Rand (Sk T) :=
  let s1 := { s with slots := s.slots ++ [x], h := s.h + 1,
                     numMarksInH := if x.mark then s.numMarksInH + 1 else s.numMarksInH }
  if s1.h > s1.k then transitionFromWarmup s1 else .ret s1

/-- `updateLight`, l.358-373 -/
def updateLight (s : Sk T) (x : Slot T) : Rand (Sk T) :=
  if s.r = 0 ∨ s.r + s.h ≠ s.k then .err "invalid sketch state during light warmup"
  else do
    let l ← Rand.ofOutcome (put s.slots s.h x)
    growCandidateSet { s with slots := l, m := s.m + 1 } (s.totalWeightR + x.weight) (s.r + 1)

/-- `updateHeavyGeneral`, l.383-392 -/
def updateHeavyGeneral (s : Sk T) (x : Slot T) : Rand (Sk T) :=
  if s.r < 2 ∨ s.m ≠ 0 ∨ s.r + s.h ≠ s.k then
    .err "invalid sketch state during heavy general update"
  else do
    let s1 ← Rand.ofOutcome (push s x)
    growCandidateSet s1 s1.totalWeightR s1.r

/-- `updateHeavyREqualsTo1`, l.397-411 -/
def updateHeavyR1 (s : Sk T) (x : Slot T) : Rand (Sk T) :=
  if s.r ≠ 1 ∨ s.m ≠ 0 ∨ s.r + s.h ≠ s.k then
    .err "invalid sketch state during heavy r=1 update"
  else do
    let s1 ← Rand.ofOutcome (push s x)
    let s2 ← Rand.ofOutcome (popMin s1)
    let wM ← Rand.ofOutcome (wAt s2.slots (s2.k - 1))
    growCandidateSet s2 (wM + s2.totalWeightR) 2

/-- The case distinction of `update`, l.279-294, given `minWeight` -/
def updateEst (s : Sk T) (x : Slot T) (minWeight : ℚ) : Rand (Sk T) :=
  let hypotheticalTau := (x.weight + s.totalWeightR) / ((s.r + 1 : ℚ) - 1)
  if (s.h = 0 ∨ x.weight ≤ minWeight) ∧ x.weight < hypotheticalTau then updateLight s x
  else if s.r = 1 then updateHeavyR1 s x
  else updateHeavyGeneral s x

/-- `update` after the check of the weight, l.259-295 (`peekMin` l.237-242) -/
def updateCore (s0 : Sk T) (x : Slot T) : Rand (Sk T) :=
  let s := { s0 with n := s0.n + 1 }
  if s.r = 0 then updateWarmup s x
  else if s.h ≠ 0 then do
    let w ← Rand.ofOutcome (wAt s.slots 0)
    if w < s.totalWeightR / s.r then .err "sketch not in valid estimation mode"
    else updateEst s x w
  else updateEst s x 0

/-- `update`, l.254-295 -/
def update (s : Sk T) (x : Slot T) : Rand (Sk T) :=
  if x.weight ≤ 0 then .err "weight must be strictly positive and finite" else updateCore s x

/-- The samples of the H region, l.218-222 and l.811-825 -/
def Sk.hSlots (s : Sk T) : List (Slot T) := s.slots.take s.h

/-- The samples of the R region: the slots `h+1, ..., NumSamples`, l.227-231 and l.827-836 -/
def Sk.rSlots (s : Sk T) : List (Slot T) := (s.slots.drop (s.h + 1)).take (s.numSamples - s.h)

/-- `All`, l.215-234: items with their adjusted weights. -/
def Sk.samples (s : Sk T) : List (T × ℚ) :=
  s.hSlots.map (fun x => (x.item, x.weight)) ++
    (if s.r > 0 then s.rSlots.map (fun x => (x.item, s.totalWeightR / s.r)) else [])

/-- `All`, l.215-234, with its index checks -/
def Sk.all (s : Sk T) : Outcome (List (T × ℚ)) :=
  if s.h ≤ s.slots.length ∧ (s.r > 0 → s.numSamples ≤ s.h ∨ s.numSamples < s.slots.length) then
    .ok s.samples
  else .panic

/-- The fields `Estimate` and `TotalSketchWeight` of `EstimateSubsetSum`, l.719-782 (with the
bounds: `Verif.SubsetBoundsModel`).  The second loop reads the slots
`h+1, ..., k`. -/
def estimateSubsetSum (s : Sk T) (p : T → Bool) : Outcome (ℚ × ℚ) :=
  if s.n = 0 then .ok (0, 0)
  else if s.h > s.slots.length then .panic
  else
    let hs := s.slots.take s.h
    let weightSumInH := (hs.map fun x => x.weight).sum
    let trueWeightInH := ((hs.filter fun x => p x.item).map fun x => x.weight).sum
    if s.r = 0 then .ok (trueWeightInH, trueWeightInH)
    else
      let rate : ℚ := (s.r : ℚ) / ((s.n : ℚ) - s.h)
      if rate < 0 ∨ rate > 1 then .err "invalid sampling rate outside [0.0, 1.0]"
      else if s.h < s.k ∧ s.slots.length < s.k + 1 then .panic
      else
        let trueRCount := ((s.slots.drop (s.h + 1)).take (s.k - s.h)).countP fun x => p x.item
        .ok (trueWeightInH + s.totalWeightR * ((trueRCount : ℚ) / s.r),
          weightSumInH + s.totalWeightR)

end Verif.VarOpt
