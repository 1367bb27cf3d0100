import Verif.CpcIconTab
import Verif.CpcModel
import Mathlib.Analysis.SpecialFunctions.Pow.Real
import Mathlib.Analysis.SpecialFunctions.Sqrt

/-!
# Model of the CPC estimators and bounds (`/repo/cpc`)

`float64` is modelled by exact reals; rounding, overflow, infinities and NaN are not modelled.
`lgK` is a natural number, `1 << lgK` does not overflow (sketches have `4 ≤ lgK ≤ 26`).
-/

namespace Verif.Cpc

/-! ## The ICON estimator -/

/-- cpc/icon_estimator.go l.69-72, the loop of `evaluatePolynomial`; `n` is the number of coefficients
left.  The table holds the coefficients in units of `10^-23`. -/
noncomputable def hornerLoop (tab : List Int) (start : Nat) (x : ℝ) : Nat → ℝ → Outcome ℝ
  | 0, total => .ok total
  | n + 1, total => do
    let c ← Outcome.ofOption tab[start + n]?
    hornerLoop tab start x n (total * x + (c : ℝ) / 10 ^ 23)

/-- cpc/icon_estimator.go l.66-74 `evaluatePolynomial`; `num` is at least 1 -/
noncomputable def evaluatePolynomial (tab : List Int) (start num : Nat) (x : ℝ) : Outcome ℝ := do
  let c ← Outcome.ofOption tab[start + num - 1]?
  hornerLoop tab start x (num - 1) ((c : ℝ) / 10 ^ 23)

/-- cpc/icon_estimator.go l.62-64 `iconExponentialApproximation` -/
noncomputable def iconExponential (k c : ℝ) : ℝ := 0.7940236163830469 * k * 2 ^ (c / k)

/-- cpc/icon_estimator.go l.32-38, `thresholdFactor` -/
noncomputable def iconThreshold (lgK : Nat) : ℝ := if lgK < 14 then 5.7 else 5.6

/-- cpc/icon_estimator.go l.50-59, from the value of the polynomial on -/
noncomputable def iconFinish (k c factor : ℝ) : ℝ :=
  if c * factor * (1 + c / k * (c / k) * (c / k) / 66.774757) ≥ c then
    c * factor * (1 + c / k * (c / k) * (c / k) / 66.774757)
  else c

/-- cpc/icon_estimator.go l.42-59, with an index below 0 for `lgK < 4` -/
noncomputable def iconPolynomial (lgK : Nat) (k c : ℝ) : Outcome ℝ :=
  if lgK < 4 then .panic
  else do
    let factor ← evaluatePolynomial iconTab (20 * (lgK - 4)) 20 (c / (2 * k))
    .ok (iconFinish k c factor)

/-- cpc/icon_estimator.go l.22-60 `iconEstimate` -/
noncomputable def iconEstimate (lgK c : Nat) : Outcome ℝ :=
  if c = 0 then .ok 0
  else if c < 2 then .ok 1
  else if (c : ℝ) > iconThreshold lgK * 2 ^ lgK then .ok (iconExponential (2 ^ lgK) c)
  else iconPolynomial lgK (2 ^ lgK) c

/-! ## Bounds -/

/-- cpc/confidence.go l.26-40 `iconHighSideData` -/
def iconHighSide : List Nat := [
  8031, 8559, 9309,
  7084, 7959, 8660,
  7141, 7514, 7876,
  7458, 7430, 7572,
  6892, 7141, 7497,
  6889, 7132, 7290,
  7075, 7118, 7185,
  7040, 7047, 7085,
  6993, 7019, 7053,
  6953, 7001, 6983,
  6944, 6966, 7004]

/-- cpc/confidence.go l.42-56 `hipHighSideData` -/
def hipHighSide : List Nat := [
  5855, 6688, 7391,
  5886, 6444, 6923,
  5885, 6254, 6594,
  5889, 6134, 6326,
  5900, 6072, 6203,
  5875, 6005, 6089,
  5871, 5980, 6040,
  5889, 5941, 6015,
  5871, 5926, 5973,
  5866, 5901, 5915,
  5880, 5914, 5953]

/-- the table of the kind of estimate -/
def highSide (hip : Bool) : List Nat := if hip then hipHighSide else iconHighSide

/-- cpc/confidence.go l.23-24 `iconErrorConstant`, `hipErrorConstant` -/
noncomputable def errConst (hip : Bool) : ℝ :=
  if hip then Real.sqrt (Real.log 2 / 2) else Real.log 2

/-- cpc/confidence.go l.63-66, l.81-84, l.96-99, l.114-117: the factor `x`; the index is an `int` and
may be negative -/
noncomputable def errFactor (hip : Bool) (lgK : Nat) (dev : Int) : Outcome ℝ :=
  if lgK ≤ 14 then
    if 3 * ((lgK : Int) - 4) + (dev - 1) < 0 then .panic
    else do
      let n ← Outcome.ofOption (highSide hip)[(3 * ((lgK : Int) - 4) + (dev - 1)).toNat]?
      .ok ((n : ℝ) / 10000)
  else .ok (errConst hip)

/-- cpc/confidence.go l.67-68 (and l.85-86, l.100-101, l.118-119): `eps` -/
noncomputable def relEps (hip : Bool) (lgK : Nat) (dev : Int) : Outcome ℝ := do
  let x ← errFactor hip lgK dev
  .ok ((dev : ℝ) * (x / Real.sqrt (2 ^ lgK)))

/-- cpc/confidence.go l.70-74, l.103-107 -/
noncomputable def lbOf (num : Nat) (est eps : ℝ) : ℝ :=
  if est / (1 + eps) < num then num else est / (1 + eps)

/-- cpc/confidence.go l.88-89, l.121-122; the quotient by zero (`eps = 1`, infinity in Go) is 0 here -/
noncomputable def ubOf (est eps : ℝ) : ℝ := (⌈est / (1 - eps)⌉ : ℤ)

/-- cpc/confidence.go l.59-75 `iconConfidenceLB` -/
noncomputable def iconLB (lgK num : Nat) (dev : Int) : Outcome ℝ :=
  if num = 0 then .ok 0
  else do
    let eps ← relEps false lgK dev
    let est ← iconEstimate lgK num
    .ok (lbOf num est eps)

/-- cpc/confidence.go l.77-90 `iconConfidenceUB` -/
noncomputable def iconUB (lgK num : Nat) (dev : Int) : Outcome ℝ :=
  if num = 0 then .ok 0
  else do
    let eps ← relEps false lgK dev
    let est ← iconEstimate lgK num
    .ok (ubOf est eps)

/-- cpc/confidence.go l.92-108 `hipConfidenceLB` -/
noncomputable def hipLB (lgK num : Nat) (hip : ℝ) (dev : Int) : Outcome ℝ :=
  if num = 0 then .ok 0
  else do
    let eps ← relEps true lgK dev
    .ok (lbOf num hip eps)

/-- cpc/confidence.go l.110-123 `hipConfidenceUB` -/
noncomputable def hipUB (lgK num : Nat) (hip : ℝ) (dev : Int) : Outcome ℝ :=
  if num = 0 then .ok 0
  else do
    let eps ← relEps true lgK dev
    .ok (ubOf hip eps)

/-- cpc/cpc_sketch.go l.121-126 `GetEstimate` -/
noncomputable def getEstimate (s : Sk) : Outcome ℝ :=
  if s.merged then iconEstimate s.lgK s.num else .ok (s.hip : ℝ)

/-- cpc/cpc_sketch.go l.128-133 `GetLowerBound` -/
noncomputable def getLowerBound (s : Sk) (dev : Int) : Outcome ℝ :=
  if s.merged then iconLB s.lgK s.num dev else hipLB s.lgK s.num s.hip dev

/-- cpc/cpc_sketch.go l.135-140 `GetUpperBound` -/
noncomputable def getUpperBound (s : Sk) (dev : Int) : Outcome ℝ :=
  if s.merged then iconUB s.lgK s.num dev else hipUB s.lgK s.num s.hip dev

end Verif.Cpc
