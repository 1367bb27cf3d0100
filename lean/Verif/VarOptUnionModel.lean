import Verif.VarOptModel
import Verif.ReservoirModel

/-!
# Model of the union of VarOpt sketches

Models `sampling/varopt_items_union.go` and `decreaseKBy1` of `sampling/varopt_items_sketch.go`, with
the simplifications of `Verif.VarOptModel`.
-/

namespace Verif.VarOpt

variable {T : Type}

/-! ## Reducing k -/

/-- The slots and the pulled item of the third case of `decreaseKBy1`, l.880-903.
`s.marks[pulledIdx]` panics when the sketch has no marks. -/
def pullFromH (s : Sk T) : Outcome (Sk T × Slot T) :=
  if (s.h + 1 + s.r) - 1 ≠ s.k then .err "invalid state when reducing k"
  else do
    let l ← swap s.slots ((s.h + 1 + s.r) - 1) s.h
    let x ← slotAt l (s.h - 1)
    if s.gadget = false then .panic
    else do
      let l' ← put l (s.h - 1) { x with weight := -1 }
      pure ({ s with slots := l', h := s.h - 1, k := s.k - 1, n := s.n - 1,
                     numMarksInH := if x.mark then s.numMarksInH - 1 else s.numMarksInH }, x)

/-- The fourth case of `decreaseKBy1`, l.912-918, for the drawn index. -/
def ejectR (s : Sk T) (i : Nat) : Outcome (Sk T) := do
  let l ← swap s.slots (1 + i) ((1 + s.r) - 1)
  let x ← slotAt l ((1 + s.r) - 1)
  let l' ← put l ((1 + s.r) - 1) { x with weight := -1 }
  pure { s with slots := l', k := s.k - 1, r := s.r - 1 }

/-- `decreaseKBy1`, l.858-923.  The error of the `update` in l.905 is dropped by the code; the model
returns it (it does not occur in a valid sketch). -/
def decreaseK (s : Sk T) : Rand (Sk T) :=
  if s.k ≤ 1 then .err "cannot decrease k below 1 in union"
  else if s.h = 0 ∧ s.r = 0 then .ret { s with k := s.k - 1 }
  else if s.r = 0 then
    if s.h > s.k - 1 then transitionFromWarmup { s with k := s.k - 1 }
    else .ret { s with k := s.k - 1 }
  else if s.h > 0 then do
    let q ← Rand.ofOutcome (pullFromH s)
    update q.1 q.2
  else if s.r < 2 then .err "cannot reduce k below 1 in union"
  else do
    let i ← Rand.draw s.r
    Rand.ofOutcome (ejectR s i)

/-! ## Union -/

/-- `VarOptItemsUnion`, varopt_items_union.go l.30-36 -/
structure Un (T : Type) where
  gadget : Sk T
  k : Nat
  n : Nat
  outerTauNumer : ℚ
  outerTauDenom : Nat
  deriving DecidableEq, Repr

/-- `NewVarOptItemsUnion`, varopt_items_union.go l.39-54 (for `maxK < 2^63`) -/
def newUnion (maxK : Nat) : Outcome (Un T) := do
  let g ← new maxK true
  pure { gadget := g, k := maxK, n := 0, outerTauNumer := 0, outerTauDenom := 0 }

/-- `outerTau`, varopt_items_union.go l.106-112 -/
def Un.outerTau (u : Un T) : ℚ := if u.outerTauDenom = 0 then 0 else u.outerTauNumer / u.outerTauDenom

/-- The bookkeeping of the outer tau for an input of total `tot` over `r` samples,
varopt_items_union.go l.86-100 and l.156-172 -/
def Un.noteTau (u : Un T) (tot : ℚ) (r : Nat) (tau : ℚ) : Un T :=
  if u.outerTauDenom = 0 then { u with outerTauNumer := tot, outerTauDenom := r }
  else if tau > u.outerTau then { u with outerTauNumer := tot, outerTauDenom := r }
  else if tau = u.outerTau then
    { u with outerTauNumer := u.outerTauNumer + tot, outerTauDenom := u.outerTauDenom + r }
  else u

/-- `weightCorrRRegionSamples`, varopt_items_sketch.go l.838-856: every sample gets `tau`, the last
one what is left of the total. -/
def weightCorr (tau tot : ℚ) : List (Slot T) → ℚ → List (T × ℚ)
  | [], _ => []
  | [x], cum => [(x.item, tot - cum)]
  | x :: y :: l, cum => (x.item, tau) :: weightCorr tau tot (y :: l) (cum + tau)

/-- Inserting samples into the gadget with a given mark. -/
def insertAll (mark : Bool) (g : Sk T) (l : List (T × ℚ)) : Rand (Sk T) :=
  l.foldlM (fun g q => update g { item := q.1, weight := q.2, mark := mark }) g

/-- `Update`, varopt_items_union.go l.56-104; `none` is a nil sketch. -/
def Un.update (u : Un T) (sketch : Option (Sk T)) : Rand (Un T) :=
  match sketch with
  | none => .ret u
  | some s =>
    if s.n = 0 then .ret u
    else if s.h > s.slots.length ∨ ¬ (s.numSamples ≤ s.h ∨ s.numSamples < s.slots.length) then .panic
    else do
      let g ← insertAll false u.gadget (s.hSlots.map fun x => (x.item, x.weight))
      let g ← insertAll true g (weightCorr (s.totalWeightR / s.r) s.totalWeightR s.rSlots 0)
      let u' := { u with gadget := g, n := u.n + s.n }
      .ret (if s.r > 0 then u'.noteTau s.totalWeightR s.r (s.totalWeightR / s.r) else u')

/-- `UpdateReservoirItemsSketch`, varopt_items_union.go l.116-175 -/
def Un.updateReservoir (u : Un T) (sketch : Option (Reservoir.Sk T)) : Rand (Un T) :=
  match sketch with
  | none => .ret u
  | some s =>
    if s.n = 0 then .ret u
    else if s.n ≤ s.k then do
      let g ← insertAll false u.gadget (s.data.map fun x => (x, 1))
      .ret { u with gadget := g, n := u.n + s.n }
    else do
      let tau := Reservoir.implicitSampleWeight s
      let g ← insertAll true u.gadget ((s.data.take (s.k - 1)).map fun x => (x, tau))
      let last ← Rand.ofOutcome (Outcome.ofOption s.data[s.k - 1]?)
      let g ← VarOpt.update g { item := last, weight := (s.n : ℚ) - ((s.k - 1 : Nat) : ℚ) * tau, mark := true }
      .ret ({ u with gadget := g, n := u.n + s.n }.noteTau s.n s.k tau)

/-- `Reset`, varopt_items_union.go l.178-183 -/
def Un.reset (u : Un T) : Un T :=
  { u with gadget := VarOpt.reset u.gadget, n := 0, outerTauNumer := 0, outerTauDenom := 0 }

/-- The check of the lengths in both coercers, varopt_items_union.go l.236 and l.272 -/
def lengthsOk (g : Sk T) : Prop :=
  (g.r = 0 ∧ g.slots.length = g.h) ∨ (g.r > 0 ∧ g.slots.length = g.k + 1)

instance (g : Sk T) : Decidable (lengthsOk g) := by unfold lengthsOk; infer_instance

/-- `simpleGadgetCoercer`, varopt_items_union.go l.235-266 -/
def Un.simple (u : Un T) : Outcome (Sk T) :=
  if ¬ lengthsOk u.gadget then .err "invalid gadget data length"
  else .ok { u.gadget with gadget := false, n := u.n, m := 0, numMarksInH := 0 }

/-- The loop of `migrateMarkedItemsByDecreasingK`, varopt_items_union.go l.343-347 -/
def absorbMarks : Nat → Sk T → Rand (Sk T)
  | 0, _ => .panic
  | fuel + 1, s =>
    if s.numMarksInH > 0 then do
      let s' ← decreaseK s
      absorbMarks fuel s'
    else .ret s

/-- The copy that `migrateMarkedItemsByDecreasingK` works on, varopt_items_union.go l.291-316 -/
def Un.migrateCopy (u : Un T) : Sk T :=
  { u.gadget with
    n := u.n
    m := 0
    k := if u.gadget.r = 0 ∧ u.gadget.h < u.gadget.k then u.gadget.h else u.gadget.k }

/-- The checks after the first reduction and the loop, varopt_items_union.go l.329-353 -/
def finishMigrate (s : Sk T) : Rand (Sk T) :=
  if s.r = 0 then .err "invalid state after decreasing k: expected estimation mode"
  else if s.totalWeightR / s.r = 0 then .err "invalid state after decreasing k: expected positive tau"
  else do
    let s' ← absorbMarks (s.k + 1) s
    .ret { s' with numMarksInH := 0, gadget := false }

/-- `migrateMarkedItemsByDecreasingK`, varopt_items_union.go l.268-354 -/
def Un.migrate (u : Un T) : Rand (Sk T) :=
  if u.gadget.k < 2 then .err "k must be greater than 2"
  else if ¬ lengthsOk u.gadget then .err "invalid gadget data length"
  else if ¬ (u.gadget.r = 0 ∨ u.gadget.k = u.gadget.h + u.gadget.r) then
    .err "full or in pseudo-exact mode"
  else if u.migrateCopy.k < 2 then .err "k must be greater than 2"
  else do
    let s ← decreaseK u.migrateCopy
    finishMigrate s

/-- The arrays of `markMovingGadgetCoercer`, varopt_items_union.go l.368-391 and l.410-412: unmarked
items of H from the front, the gap, and from the back the items of R and the marked items.  (The
writes to disjoint positions of zeroed arrays are a concatenation.) -/
def Un.movedSlots (zero : T) (u : Un T) : List (Slot T) :=
  let g := u.gadget
  (g.hSlots.filter fun x => !x.mark).map (fun x => { x with mark := false }) ++
    { item := zero, weight := -1, mark := false } ::
    ((g.rSlots ++ g.hSlots.filter fun x => x.mark).map
      fun x => { item := x.item, weight := -1, mark := false }).reverse

/-- `markMovingGadgetCoercer`, varopt_items_union.go l.360-427; `zero` is the zero value of the item
type. -/
def Un.markMoving (zero : T) (u : Un T) : Outcome (Sk T) :=
  let g := u.gadget
  let resultK := g.h + g.r
  let marked := g.hSlots.filter fun x => x.mark
  let resultH := (g.hSlots.filter fun x => !x.mark).length
  let resultR := g.rSlots.length + marked.length
  let transferred := (marked.map Slot.weight).sum
  if resultH + resultR ≠ resultK then .err "invalid state after mark moving"
  else if |transferred - u.outerTauNumer| ≥ 1 / 10 ^ 10 then
    .err "invalid state after mark moving: transferred weight"
  else do
    let l ← heapify (u.movedSlots zero) resultH
    pure { slots := l, gadget := false, k := resultK, n := u.n, h := resultH, m := 0, r := resultR,
           totalWeightR := g.totalWeightR + transferred, numMarksInH := 0 }

/-- `w < tau`, false for NaN -/
def ltTau (w : ℚ) : Option ℚ → Bool
  | none => false
  | some t => decide (w < t)

/-- `Result`, varopt_items_union.go l.203-233 -/
def Un.result (zero : T) (u : Un T) : Rand (Sk T) :=
  if u.gadget.numMarksInH = 0 then Rand.ofOutcome u.simple
  else if ¬ (u.gadget.r = 0 ∧ u.gadget.numMarksInH > 0 ∧ u.gadget.numMarksInH = u.outerTauDenom) then
    u.migrate
  else if u.gadget.hSlots.any (fun x => ltTau x.weight u.gadget.tau && !x.mark) then u.migrate
  else Rand.ofOutcome (u.markMoving zero)

end Verif.VarOpt
