import Verif.BloomModel
import Mathlib.Analysis.SpecialFunctions.Log.Basic

/-!
# C105: Bloom filters sized by accuracy

`filters/bloom_filter_builder.go`; float64 as ℝ (`math.Log` the logarithm, `math.Ln2` is `log 2`).
A conversion of a float64 to an unsigned type that does not hold it is not specified by Go; it is a panic here.
-/

namespace Verif.Bloom

open Verif

/-! ## Model -/

/-- `uint64(math.Ceil(x))`, `uint16(math.Ceil(x))` for `x ≥ 0` -/
noncomputable def ceilTo (bits : Nat) (x : ℝ) : Outcome Nat :=
  if ⌈x⌉₊ < 2 ^ bits then .ok ⌈x⌉₊ else .panic

/-- `SuggestNumFilterBits` bloom_filter_builder.go l.129-136 -/
noncomputable def suggestNumFilterBits (n : Nat) (p : ℝ) : Outcome Nat :=
  ceilTo 64 (-(n : ℝ) * Real.log p / (Real.log 2 * Real.log 2))

/-- `SuggestNumHashes` bloom_filter_builder.go l.142-145 -/
noncomputable def suggestNumHashes (p : ℝ) : Outcome Nat :=
  ceilTo 16 (-Real.log p / Real.log 2)

/-- `SuggestNumHashesFromSize` bloom_filter_builder.go l.151-162 -/
noncomputable def suggestNumHashesFromSize (n numBits : Nat) : Outcome Nat :=
  if n = 0 then .ok 1
  else do
    let r ← ceilTo 16 ((numBits : ℝ) / n * Real.log 2)
    .ok (if r = 0 then 1 else r)

/-- `NewBloomFilterByAccuracy` bloom_filter_builder.go l.104-117 -/
noncomputable def newByAccuracy (n : Nat) (p : ℝ) (seed : Word) : Outcome Filter :=
  if n = 0 then .err "maxDistinctItems must be positive"
  else if p ≤ 0 ∨ p ≥ 1 then .err "targetFpp must be between 0 and 1"
  else do
    let m ← suggestNumFilterBits n p
    let k ← suggestNumHashesFromSize n m
    newBySize m k seed

/-- `NewBloomFilterWithDefault` bloom_filter_builder.go l.121-123; `DefaultSeed` l.29 -/
noncomputable def newWithDefault : Outcome Filter := newByAccuracy 10000 0.01 9001#64

end Verif.Bloom
