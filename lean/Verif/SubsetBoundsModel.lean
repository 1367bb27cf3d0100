import Verif.ProportionModel
import Verif.ReservoirModel
import Verif.VarOptModel

/-!
# Model of the subset-sum summaries of the sampling sketches

sampling/utils.go l.53-67, `ReservoirItemsSketch.EstimateSubsetSum` and
`VarOptItemsSketch.EstimateSubsetSum` with their bounds.  Simplification: exact reals instead of
float64 (see also `Verif.ProportionModel`).
-/

noncomputable section

namespace Verif.SubsetBounds

variable {T : Type}

/-- `SampleSubsetSummary`, utils.go l.53-59 -/
structure Summary where
  lower : ℝ
  estimate : ℝ
  upper : ℝ
  total : ℝ

/-- `pseudoHypergeometricUpperBoundOnP`, utils.go l.61-63; `defaultKappa` is 2.0 (l.28) -/
def hyperUpper (n k : ℕ) (samplingRate : ℝ) : Outcome ℝ :=
  Proportion.upperOnP n k (2.0 * Real.sqrt (1 - samplingRate))

/-- `pseudoHypergeometricLowerBoundOnP`, utils.go l.65-67 -/
def hyperLower (n k : ℕ) (samplingRate : ℝ) : Outcome ℝ :=
  Proportion.lowerOnP n k (2.0 * Real.sqrt (1 - samplingRate))

/-- The tail of `EstimateSubsetSum` of the reservoir, reservoir_items_sketch.go l.227-240 -/
def reservoirSampled (n numSamples trueCount : ℕ) (samplingRate : ℝ) : Outcome Summary := do
  let lo ← hyperLower numSamples trueCount samplingRate
  let up ← hyperUpper numSamples trueCount samplingRate
  pure { lower := (n : ℝ) * lo
         estimate := (n : ℝ) * ((1.0 * (trueCount : ℝ)) / (numSamples : ℝ))
         upper := (n : ℝ) * up
         total := (n : ℝ) }

/-- `ReservoirItemsSketch.EstimateSubsetSum`, reservoir_items_sketch.go l.202-241 -/
def reservoir (s : Reservoir.Sk T) (p : T → Bool) : Outcome Summary :=
  if s.n = 0 then .ok ⟨0, 0, 0, 0⟩
  else
    let numSamples := s.numSamples
    let samplingRate : ℝ := (numSamples : ℝ) / (s.n : ℝ)
    let trueCount := s.data.countP p
    if s.n ≤ s.k then
      .ok ⟨(trueCount : ℝ), (trueCount : ℝ), (trueCount : ℝ), (numSamples : ℝ)⟩
    else reservoirSampled s.n numSamples trueCount samplingRate

/-- The tail of `EstimateSubsetSum` of VarOpt, varopt_items_sketch.go l.766-781 -/
def varoptSampled (r trueRCount : ℕ) (rate trueWeightInH weightSumInH totalWeightR : ℝ) :
    Outcome Summary := do
  let lo ← hyperLower r trueRCount rate
  let up ← hyperUpper r trueRCount rate
  pure { lower := trueWeightInH + totalWeightR * lo
         estimate := trueWeightInH + totalWeightR * ((trueRCount : ℝ) / (r : ℝ))
         upper := trueWeightInH + totalWeightR * up
         total := weightSumInH + totalWeightR }

/-- `VarOptItemsSketch.EstimateSubsetSum`, varopt_items_sketch.go l.719-782.  The second loop reads
the slots `h+1, ..., k`. -/
def varopt (s : VarOpt.Sk T) (p : T → Bool) : Outcome Summary :=
  if s.n = 0 then .ok ⟨0, 0, 0, 0⟩
  else if s.h > s.slots.length then .panic
  else
    let hs := s.slots.take s.h
    let weightSumInH : ℚ := (hs.map fun x => x.weight).sum
    let trueWeightInH : ℚ := ((hs.filter fun x => p x.item).map fun x => x.weight).sum
    if s.r = 0 then
      .ok ⟨(trueWeightInH : ℝ), (trueWeightInH : ℝ), (trueWeightInH : ℝ), (trueWeightInH : ℝ)⟩
    else
      let rate : ℝ := (s.r : ℝ) / ((s.n : ℝ) - s.h)
      if rate < 0 ∨ rate > 1 then .err "invalid sampling rate outside [0.0, 1.0]"
      else if s.h < s.k ∧ s.slots.length < s.k + 1 then .panic
      else
        let trueRCount := ((s.slots.drop (s.h + 1)).take (s.k - s.h)).countP fun x => p x.item
        varoptSampled s.r trueRCount rate (trueWeightInH : ℝ) (weightSumInH : ℝ) (s.totalWeightR : ℝ)

end Verif.SubsetBounds
