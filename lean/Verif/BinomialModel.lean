import Verif.Outcome
import Verif.BinomialTables
import Mathlib.Analysis.SpecialFunctions.Log.Basic
import Mathlib.Analysis.SpecialFunctions.Pow.Real
import Mathlib.Analysis.SpecialFunctions.Sqrt

/-!
# Model of internal/binomialbounds/binomialbounds.go

Simplification throughout: exact reals instead of float64, so rounding, overflow and underflow are
not modelled; counts are natural numbers (uint64 in the code).  The two summation loops take a fuel
argument; running out of it is a panic, and C93 shows that some amount always suffices.
-/

noncomputable section

namespace Verif.Binomial

/-- `deltaOfNumStdDevs` l.34-39 -/
def deltas : List ℝ :=
  [0.5000000000000000000, 0.1586553191586026479, 0.0227502618904135701, 0.0013498126861731796]

/-- an entry of one of the tables, as the number written in the source; an index outside is a Go
panic -/
def entry (table : List ℕ) (i : ℕ) : Outcome ℝ := do
  let x ← Outcome.ofOption table[i]?
  .ok ((x : ℝ) / 10 ^ 17)

/-- `contClassicLB` l.322-328 -/
def contClassicLB (numSamples : ℕ) (theta numStdDevs : ℝ) : ℝ :=
  let nHat := ((numSamples : ℝ) - 0.5) / theta
  let b := numStdDevs * Real.sqrt ((1.0 - theta) / theta)
  let d := 0.5 * b * Real.sqrt ((b * b) + (4.0 * nHat))
  let center := nHat + (0.5 * (b * b))
  center - d

/-- `contClassicUB` l.331-337 -/
def contClassicUB (numSamples : ℕ) (theta numStdDevs : ℝ) : ℝ :=
  let nHat := ((numSamples : ℝ) + 0.5) / theta
  let b := numStdDevs * Real.sqrt ((1.0 - theta) / theta)
  let d := 0.5 * b * Real.sqrt ((b * b) + (4.0 * nHat))
  let center := nHat + (0.5 * (b * b))
  center + d

/-- the loop of `specialNStar` l.360-366; the result is `m - 1` -/
def starLoop (numSamples : ℕ) (q delta : ℝ) : ℕ → ℝ → ℝ → ℕ → Outcome ℕ
  | 0, _, _, _ => .panic
  | fuel + 1, curTerm, tot, m =>
    if tot ≤ delta then
      let curTerm' := (curTerm * q * (m : ℝ)) / (((m + 1) - numSamples : ℕ) : ℝ)
      starLoop numSamples q delta fuel curTerm' (tot + curTerm') (m + 1)
    else .ok (m - 1)

/-- `specialNStar` l.348-367 -/
def specialNStar (fuel numSamples : ℕ) (p delta : ℝ) : Outcome ℕ :=
  let q := 1.0 - p
  if 500.0 ≤ (numSamples : ℝ) / p then .err "out of range"
  else
    let curTerm := p ^ numSamples
    if curTerm ≤ 1 / 10 ^ 100 then .err "out of range"
    else starLoop numSamples q delta fuel curTerm curTerm numSamples

/-- the loop of `specialNPrimeB` l.380-385 -/
def primeLoop (numSamples : ℕ) (q oneMinusDelta : ℝ) : ℕ → ℝ → ℝ → ℕ → Outcome ℕ
  | 0, _, _, _ => .panic
  | fuel + 1, curTerm, tot, m =>
    if tot < oneMinusDelta then
      let curTerm' := (curTerm * q * (m : ℝ)) / (((m + 1) - numSamples : ℕ) : ℝ)
      primeLoop numSamples q oneMinusDelta fuel curTerm' (tot + curTerm') (m + 1)
    else .ok m

/-- `specialNPrimeB` l.371-386 -/
def specialNPrimeB (fuel numSamples : ℕ) (p delta : ℝ) : Outcome ℕ :=
  let q := 1.0 - p
  let oneMinusDelta := 1.0 - delta
  let curTerm := p ^ numSamples
  if curTerm ≤ 1 / 10 ^ 100 then .err "out of range"
  else primeLoop numSamples q oneMinusDelta fuel curTerm curTerm numSamples

/-- `specialNPrimeF` l.388-394 -/
def specialNPrimeF (fuel numSamples : ℕ) (p delta : ℝ) : Outcome ℕ :=
  if 500.0 ≤ (numSamples : ℝ) / p then .err "out of range"
  else specialNPrimeB fuel (numSamples + 1) p delta

/-- `computeApproxBinomialLowerBound` l.398-433 -/
def approxLB (fuel numSamples : ℕ) (theta : ℝ) (numStdDevs : ℕ) : Outcome ℝ :=
  if theta = 1 then .ok numSamples
  else if numSamples = 0 then .ok 0
  else if numSamples = 1 then do
    let delta ← Outcome.ofOption deltas[numStdDevs]?
    .ok (⌊Real.log (1 - delta) / Real.log (1 - theta)⌋ : ℝ)
  else if 120 < numSamples then .ok (contClassicLB numSamples theta numStdDevs - 0.5)
  else if 1 - 1 / 10 ^ 5 < theta then .ok numSamples
  else if theta < (numSamples : ℝ) / 360.0 then do
    let x ← entry lbTable (3 * numSamples + (numStdDevs - 1))
    .ok (contClassicLB numSamples theta x - 0.5)
  else do
    let delta ← Outcome.ofOption deltas[numStdDevs]?
    let r ← specialNStar fuel numSamples theta delta
    .ok r

/-- `computeApproxBinomialUpperBound` l.437-469 -/
def approxUB (fuel numSamples : ℕ) (theta : ℝ) (numStdDevs : ℕ) : Outcome ℝ :=
  if theta = 1 then .ok numSamples
  else if numSamples = 0 then do
    let delta ← Outcome.ofOption deltas[numStdDevs]?
    .ok (⌈Real.log delta / Real.log (1 - theta)⌉ : ℝ)
  else if 120 < numSamples then .ok (contClassicUB numSamples theta numStdDevs + 0.5)
  else if 1 - 1 / 10 ^ 5 < theta then .ok ((numSamples + 1 : ℕ) : ℝ)
  else if theta < (numSamples : ℝ) / 360.0 then do
    let x ← entry ubTable (3 * numSamples + (numStdDevs - 1))
    .ok (contClassicUB numSamples theta x + 0.5)
  else do
    let delta ← Outcome.ofOption deltas[numStdDevs]?
    let r ← specialNPrimeF fuel numSamples theta delta
    .ok r

/-- `validateTheta` l.471-476 and `validateNumStdDevs` l.478-483 -/
def validate (theta : ℝ) (numStdDevs : ℕ) : Outcome Unit :=
  if theta ≤ 0 ∨ 1 < theta then .err "theta must be in (0, 1]"
  else if numStdDevs < 1 ∨ 3 < numStdDevs then .err "numStdDevs must be 1, 2 or 3"
  else .ok ()

/-- `LowerBound` l.290-303 -/
def lowerBound (fuel numSamples : ℕ) (theta : ℝ) (numStdDevs : ℕ) : Outcome ℝ := do
  validate theta numStdDevs
  let estimate := (numSamples : ℝ) / theta
  let lb ← approxLB fuel numSamples theta numStdDevs
  .ok (min estimate (max (numSamples : ℝ) lb))

/-- `UpperBound` l.306-319 -/
def upperBound (fuel numSamples : ℕ) (theta : ℝ) (numStdDevs : ℕ) : Outcome ℝ := do
  validate theta numStdDevs
  let estimate := (numSamples : ℝ) / theta
  let ub ← approxUB fuel numSamples theta numStdDevs
  .ok (max estimate ub)

end Verif.Binomial
