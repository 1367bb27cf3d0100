import Verif.ThetaModel
import Verif.ReservoirModel
import Verif.ProportionModel

/-!
# Model of theta/jaccard_similarity.go and theta/bounds_on_ratios_in_*.go

Simplifications: exact reals instead of float64 (so `Theta() == 1.0` exactly if theta is at its
maximum); a sketch is seen through its interface (`View`); the comparison of the two interface values
(the same sketch object passed twice) is a parameter.  `seedHash = none` models an error of
`ComputeSeedHash`.
-/

noncomputable section

namespace Verif.Theta

/-- `JaccardSimilarityResult` jaccard_similarity.go l.27-31 -/
structure JResult where
  lower : ℝ
  estimate : ℝ
  upper : ℝ

/-- the nominal size of the union, jaccard_similarity.go l.159-169 (the sum is in uint32;
`CeilingPowerOf2` returns at most 2^30, so the conversion to uint32 is exact) -/
def jaccardLgK (countA countB : Nat) : Nat :=
  let lg := Nat.log2 (Reservoir.ceilPow2 ((countA + countB) % 2 ^ 32))
  let lg := if lg < 5 then 5 else lg
  if lg > 26 then 26 else lg

/-- `computeUnion` l.158-187; default resize factor 3 and sampling probability 1 (union.go l.80-85) -/
def computeUnion (sh : Option Nat) (a b : View) : Outcome Compact := do
  let u ← newUnion (jaccardLgK a.numRetained b.numRetained) 3 maxTheta
  let u ← u.update sh a
  let u ← u.update sh b
  u.result sh false

/-- `identicalSets` l.189-194 -/
def identicalSets (a b u : View) : Bool :=
  u.numRetained == a.numRetained && u.numRetained == b.numRetained &&
    u.theta == a.theta && u.theta == b.theta

/-- `Theta()`: the fraction of hashes kept -/
def View.fraction (v : View) : ℝ := (v.theta : ℝ) / (maxTheta : ℝ)

/-- `hackyAdjuster` bounds_on_ratios_in_sampled_sets.go l.77-83 -/
def hackyAdjuster (f : ℝ) : ℝ :=
  let tmp := Real.sqrt (1.0 - f)
  if f ≤ 0.5 then tmp else tmp + (0.01 * (f - 0.5))

/-- `validateInputs` l.85-93 -/
def validateInputs (a b : Nat) (f : ℝ) : Outcome Unit :=
  if a < b then .err "a must be >= b"
  else if f > 1.0 ∨ f ≤ 0.0 then .err "Required: ((f <= 1.0) && (f > 0.0))"
  else .ok ()

/-- `lowerBoundForBOverA` l.35-51 after the validation; `numStdDevs` is 2.0 (l.27) -/
def lowerChecked (a b : Nat) (f : ℝ) : Outcome ℝ :=
  if a = 0 then .ok 0.0
  else if f = 1.0 then .ok ((b : ℝ) / (a : ℝ))
  else Proportion.lowerOnP a b (2.0 * hackyAdjuster f)

/-- `upperBoundForBOverA` l.58-74 after the validation -/
def upperChecked (a b : Nat) (f : ℝ) : Outcome ℝ :=
  if a = 0 then .ok 1.0
  else if f = 1.0 then .ok ((b : ℝ) / (a : ℝ))
  else Proportion.upperOnP a b (2.0 * hackyAdjuster f)

/-- `lowerBoundForBOverA` -/
def lowerBOverA (a b : Nat) (f : ℝ) : Outcome ℝ := do
  validateInputs a b f
  lowerChecked a b f

/-- `upperBoundForBOverA` -/
def upperBOverA (a b : Nat) (f : ℝ) : Outcome ℝ := do
  validateInputs a b f
  upperChecked a b f

/-- `validateThetas` bounds_on_ratios_in_sketched_sets.go l.108-113 -/
def validateThetas (thetaA thetaB : Nat) : Outcome Unit :=
  if thetaB > thetaA then .err "theta_a must be <= theta_b" else .ok ()

/-- `countA` l.35-40 with `countLessThanTheta64` l.115-123 -/
def countOfA (a b : View) : Nat :=
  if a.theta = b.theta then a.numRetained else a.all.countP fun e => decide (e < b.theta)

/-- `lowerBoundForBOverAInSketchedSets` l.26-52 -/
def lowerSketched (a b : View) : Outcome ℝ := do
  validateThetas a.theta b.theta
  if countOfA a b = 0 then .ok 0 else lowerBOverA (countOfA a b) b.numRetained b.fraction

/-- `upperBoundForBOverAInSketchedSets` l.56-82 -/
def upperSketched (a b : View) : Outcome ℝ := do
  validateThetas a.theta b.theta
  if countOfA a b = 0 then .ok 1 else upperBOverA (countOfA a b) b.numRetained b.fraction

/-- `estimateOfBOverAInSketchedSets` l.85-106 -/
def estimateSketched (a b : View) : Outcome ℝ := do
  validateThetas a.theta b.theta
  if countOfA a b = 0 then .ok 0.5 else .ok ((b.numRetained : ℝ) / (countOfA a b : ℝ))

/-- the intersection of both sketches and their union, jaccard_similarity.go l.66-82 -/
def jaccardInter (sh : Option Nat) (a b u : View) : Outcome Compact := do
  let s ← newInter.update sh a
  let s ← s.update sh b
  let s ← s.update sh u
  s.result sh false

/-- the three ratios, l.84-103 -/
def jaccardRatios (u i : View) : Outcome JResult := do
  let lb ← lowerSketched u i
  let est ← estimateSketched u i
  let ub ← upperSketched u i
  pure ⟨lb, est, ub⟩

/-- `Jaccard` l.58-104 after the union was computed -/
def jaccardWith (sh : Option Nat) (a b u : View) : Outcome JResult :=
  if identicalSets a b u then .ok ⟨1, 1, 1⟩
  else do
    let i ← jaccardInter sh a b u
    jaccardRatios u i.view

/-- `Jaccard` l.47-104; `same`: both arguments are the same sketch object -/
def jaccard (same : Bool) (sh : Option Nat) (a b : View) : Outcome JResult :=
  if same then .ok ⟨1, 1, 1⟩
  else if a.isEmpty && b.isEmpty then .ok ⟨1, 1, 1⟩
  else if a.isEmpty || b.isEmpty then .ok ⟨0, 0, 0⟩
  else do
    let u ← computeUnion sh a b
    jaccardWith sh a b u.view

/-- `IsExactlyEqual` l.108-125 -/
def isExactlyEqual (same : Bool) (sh : Option Nat) (a b : View) : Outcome Bool :=
  if same then .ok true
  else if a.isEmpty && b.isEmpty then .ok true
  else if a.isEmpty || b.isEmpty then .ok false
  else do
    let u ← computeUnion sh a b
    pure (identicalSets a b u.view)

open Classical in
/-- `IsSimilar` l.135-141 -/
def isSimilar (same : Bool) (sh : Option Nat) (actual expected : View) (threshold : ℝ) :
    Outcome Bool := do
  let jc ← jaccard same sh actual expected
  pure (decide (jc.lower ≥ threshold))

open Classical in
/-- `IsDissimilar` l.151-157 -/
def isDissimilar (same : Bool) (sh : Option Nat) (actual expected : View) (threshold : ℝ) :
    Outcome Bool := do
  let jc ← jaccard same sh actual expected
  pure (decide (jc.upper ≤ threshold))

end Verif.Theta
