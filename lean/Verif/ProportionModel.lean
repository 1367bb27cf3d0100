import Verif.Outcome
import Mathlib.Analysis.SpecialFunctions.Log.Basic
import Mathlib.Analysis.SpecialFunctions.Pow.Real
import Mathlib.Analysis.SpecialFunctions.Sqrt

/-!
# Model of internal/binomialproportionsbounds/binomialproportionsbounds.go

Simplification throughout: exact reals instead of float64; counts are natural numbers (uint64 in the
code).
-/

noncomputable section

namespace Verif.Proportion

/-- `erfOfNonneg` l.140-175 -/
def erfOfNonneg (x : ℝ) : ℝ :=
  let a1 := 0.0705230784
  let a3 := 0.0092705272
  let a5 := 0.0002765672
  let a2 := 0.0422820123
  let a4 := 0.0001520143
  let a6 := 0.0000430638
  let x2 := x * x
  let x3 := x2 * x
  let x4 := x2 * x2
  let x5 := x2 * x3
  let x6 := x3 * x3
  let sum := 1.0 + (a1 * x) + (a2 * x2) + (a3 * x3) + (a4 * x4) + (a5 * x5) + (a6 * x6)
  let sum2 := sum * sum
  let sum4 := sum2 * sum2
  let sum8 := sum4 * sum4
  let sum16 := sum8 * sum8
  1.0 - (1.0 / sum16)

/-- `Erf` l.118-123 -/
def erf (x : ℝ) : ℝ := if x < 0.0 then -1.0 * erfOfNonneg (-1.0 * x) else erfOfNonneg x

/-- `NormalCDF` l.126-128 -/
def normalCDF (x : ℝ) : ℝ := 0.5 * (1.0 + erf (x / Real.sqrt 2.0))

/-- `deltaOfNumStdevs` l.177-179 -/
def deltaOf (kappa : ℝ) : ℝ := normalCDF (-1.0 * kappa)

/-- `abramowitzStegunFormula26p5p22` l.193-205 -/
def formula (a b yp : ℝ) : ℝ :=
  let b2m1 := (2.0 * b) - 1.0
  let a2m1 := (2.0 * a) - 1.0
  let lambda := ((yp * yp) - 3.0) / 6.0
  let htmp := (1.0 / a2m1) + (1.0 / b2m1)
  let h := 2.0 / htmp
  let term1 := (yp * Real.sqrt (h + lambda)) / h
  let term2 := (1.0 / b2m1) - (1.0 / a2m1)
  let term3 := (lambda + (5.0 / 6.0)) - (2.0 / (3.0 * h))
  let w := term1 - (term2 * term3)
  a / (a + (b * Real.exp (2.0 * w)))

/-- `ApproximateLowerBoundOnP` l.65-81, with the special cases l.213-219 and `validateInputs`
l.131-136 -/
def lowerOnP (n k : ℕ) (numStdDevs : ℝ) : Outcome ℝ :=
  if n < k then .err "K cannot exceed N"
  else if n = 0 then .ok 0.0
  else if k = 0 then .ok 0.0
  else if k = 1 then .ok (1.0 - (1.0 - deltaOf numStdDevs) ^ (1.0 / (n : ℝ)))
  else if k = n then .ok (deltaOf numStdDevs ^ (1.0 / (n : ℝ)))
  else .ok (1.0 - formula (((n - k) + 1 : ℕ) : ℝ) (k : ℝ) (-1.0 * numStdDevs))

/-- `ApproximateUpperBoundOnP` l.98-114, with the special cases l.209-211 and l.221-223 -/
def upperOnP (n k : ℕ) (numStdDevs : ℝ) : Outcome ℝ :=
  if n < k then .err "K cannot exceed N"
  else if n = 0 then .ok 1.0
  else if k = n then .ok 1.0
  else if k = n - 1 then .ok ((1.0 - deltaOf numStdDevs) ^ (1.0 / (n : ℝ)))
  else if k = 0 then .ok (1.0 - deltaOf numStdDevs ^ (1.0 / (n : ℝ)))
  else .ok (1.0 - formula ((n - k : ℕ) : ℝ) ((k + 1 : ℕ) : ℝ) numStdDevs)

end Verif.Proportion
