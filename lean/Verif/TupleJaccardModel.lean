import Verif.TupleModel
import Verif.ThetaJaccardModel

/-!
# Model of tuple/jaccard_similarity.go

`tuple/bounds_on_ratios_in_*.go` are the files of the theta package with other parameter names; the
ratios only read theta, the number of hashes and the hashes, so the model takes the theta functions on
the hashes of the sketches.  Simplifications as in `ThetaJaccardModel` and `TupleModel`.
-/

noncomputable section

namespace Verif.Tuple

open Theta (maxTheta JResult)

variable {H S V : Type} (K : Kind H S V)

/-- a sketch without its summaries -/
def View.hashes (v : View S) : Theta.View :=
  ⟨v.isEmpty, v.isOrdered, v.theta, v.seedHash, v.numRetained, v.all.map Prod.fst⟩

/-- `computeUnion` l.160-191 -/
def computeUnion (h : H) (sh : Option Nat) (a b : View S) : Outcome (Compact S × H) := do
  let u ← newUnion K (Theta.jaccardLgK a.numRetained b.numRetained) 3 maxTheta
  let (u, h) ← u.update K h sh a
  let (u, h) ← u.update K h sh b
  let c ← u.result K sh false
  pure (c, h)

/-- `identicalSets` l.193-198 -/
def identicalSets (a b u : View S) : Bool :=
  u.numRetained == a.numRetained && u.numRetained == b.numRetained &&
    u.theta == a.theta && u.theta == b.theta

/-- the intersection of both sketches and their union, l.68-83 -/
def jaccardInter (h : H) (sh : Option Nat) (a b u : View S) : Outcome (Compact S × H) := do
  let (s, h) ← (newInter K).update K h sh a
  let (s, h) ← s.update K h sh b
  let (s, h) ← s.update K h sh u
  s.result K h sh false

/-- `Jaccard` l.64-105 after the union was computed -/
def jaccardWith (h : H) (sh : Option Nat) (a b u : View S) : Outcome (JResult × H) :=
  if identicalSets a b u then .ok (⟨1, 1, 1⟩, h)
  else do
    let (i, h) ← jaccardInter K h sh a b u
    let r ← Theta.jaccardRatios u.hashes i.view.hashes
    pure (r, h)

/-- `Jaccard` l.48-105; `same`: both arguments are the same sketch object -/
def jaccard (same : Bool) (h : H) (sh : Option Nat) (a b : View S) : Outcome (JResult × H) :=
  if same then .ok (⟨1, 1, 1⟩, h)
  else if a.isEmpty && b.isEmpty then .ok (⟨1, 1, 1⟩, h)
  else if a.isEmpty || b.isEmpty then .ok (⟨0, 0, 0⟩, h)
  else do
    let (u, h) ← computeUnion K h sh a b
    jaccardWith K h sh a b u.view

/-- `IsExactlyEqual` l.109-126 -/
def isExactlyEqual (same : Bool) (h : H) (sh : Option Nat) (a b : View S) : Outcome (Bool × H) :=
  if same then .ok (true, h)
  else if a.isEmpty && b.isEmpty then .ok (true, h)
  else if a.isEmpty || b.isEmpty then .ok (false, h)
  else do
    let (u, h) ← computeUnion K h sh a b
    pure (identicalSets a b u.view, h)

open Classical in
/-- `IsSimilar` l.136-142 -/
def isSimilar (same : Bool) (h : H) (sh : Option Nat) (actual expected : View S) (threshold : ℝ) :
    Outcome (Bool × H) := do
  let (jc, h) ← jaccard K same h sh actual expected
  pure (decide (jc.lower ≥ threshold), h)

open Classical in
/-- `IsDissimilar` l.152-158 -/
def isDissimilar (same : Bool) (h : H) (sh : Option Nat) (actual expected : View S) (threshold : ℝ) :
    Outcome (Bool × H) := do
  let (jc, h) ← jaccard K same h sh actual expected
  pure (decide (jc.upper ≤ threshold), h)

end Verif.Tuple
