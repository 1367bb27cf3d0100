import Verif.CpcInverseMain
import Verif.CpcEstProps

/-!
# C103: the ICON estimate answers the question which number of items gives so many coupons
-/

namespace Verif.Cpc

/-- **C103.** A merged CPC sketch with `c` coupons answers an estimate `e` that inverts the expected
number of coupons up to a relative error of `1/64` (`1/32` for `lgK = 5`, `1/16` for `lgK = 4`):
of `(1 + tol) e` distinct random items or more one expects at least `c` coupons, of `(1 - tol) e`
or fewer at most `c`. For all sizes and all counts up to `40 k`. -/
theorem C103_inverse {lgK : Nat} (h4 : 4 ≤ lgK) (h26 : lgK ≤ 26) {c : Nat} (hc : c ≤ 40 * 2 ^ lgK) :
    ∃ e, iconEstimate lgK c = .ok e ∧
      ∀ n : Nat,
        ((1 + 1 / 2 ^ min lgK 6) * e ≤ n → (c : ℝ) ≤ ((meanCells lgK n [] : ℚ) : ℝ)) ∧
        ((n : ℝ) ≤ (1 - 1 / 2 ^ min lgK 6) * e → ((meanCells lgK n [] : ℚ) : ℝ) ≤ c) := by
  refine ⟨_, iconEstimate_val h4 h26 c, ?_⟩
  have hk : (0 : ℝ) < 2 ^ lgK := by positivity
  have ht : (1 : ℝ) / 2 ^ min lgK 6 = tol lgK := rfl
  obtain ⟨t1, t2⟩ := tol_bounds h4
  have hr0 : (0 : ℝ) ≤ (c : ℝ) / 2 ^ lgK := by positivity
  have hr40 : (c : ℝ) / 2 ^ lgK ≤ 40 := by
    rw [div_le_iff₀ hk]
    exact_mod_cast hc
  have hck : (2 : ℝ) ^ lgK * ((c : ℝ) / 2 ^ lgK) = c := by field_simp
  rw [ht]
  intro n
  constructor
  · intro hn
    refine le_trans ?_ (occ_le_mean (by omega) n)
    rw [← hck]
    apply mul_le_mul_of_nonneg_left _ hk.le
    by_cases h2 : c < 2
    · have hv : iconVal lgK c = c := by rw [iconVal, if_pos h2]
      rw [hv] at hn
      have hc1 : (c : ℝ) ≤ 1 := by exact_mod_cast (by omega : c ≤ 1)
      have hs : (c : ℝ) / 2 ^ lgK ≤ 3 * tol lgK := by
        have := one_div_le_tol lgK
        have : (c : ℝ) / 2 ^ lgK ≤ 1 / 2 ^ lgK := by gcongr
        linarith
      refine (occ_small t1 t2 hr0 hs).trans (occ_mono ?_)
      rw [← mul_div_assoc]
      gcongr
    · have hv : iconVal lgK c = 2 ^ lgK * iconR lgK (c / 2 ^ lgK) := by rw [iconVal, if_neg h2]
      rw [hv] at hn
      refine (iconR_up h4 h26 hr0 hr40).trans (occ_mono ?_)
      rw [le_div_iff₀ hk]
      linarith
  · intro hn
    refine (mean_le_occ (by omega) n).trans ?_
    rw [← hck]
    apply mul_le_mul_of_nonneg_left _ hk.le
    have hb := binCorr_ge lgK
    have hl := tol_corr h4
    by_cases h2 : c < 2
    · have hv : iconVal lgK c = c := by rw [iconVal, if_pos h2]
      rw [hv] at hn
      refine (occU_le _).trans ?_
      have h1 : (n : ℝ) / 2 ^ lgK ≤ (1 - tol lgK) * (c / 2 ^ lgK) := by
        rw [← mul_div_assoc]
        gcongr
      have h3 := mul_le_mul_of_nonneg_left h1 (by linarith : 0 ≤ binCorr lgK)
      have h5 := mul_le_mul_of_nonneg_right hl hr0
      linarith
    · have hv : iconVal lgK c = 2 ^ lgK * iconR lgK (c / 2 ^ lgK) := by rw [iconVal, if_neg h2]
      rw [hv] at hn
      refine le_trans (occU_mono ?_) (iconR_lo h4 h26 hr0 hr40)
      have h1 : (n : ℝ) / 2 ^ lgK ≤ (1 - tol lgK) * iconR lgK (c / 2 ^ lgK) := by
        rw [div_le_iff₀ hk]
        linarith
      have h3 := mul_le_mul_of_nonneg_left h1 (by linarith : 0 ≤ binCorr lgK)
      linarith

/-- The same for the result of a union of sketches built from any items. -/
theorem C103_union {lgK seed : Nat} {u u' : Un} {parts : List (Nat × List Hash)} {srcs : List Sk}
    (hu : newUn lgK seed = .ok u) (hb : List.Forall₂ (Built seed) parts srcs)
    (hr : unionAll u srcs = .ok u')
    (hbig : cells (lgOf lgK parts) (allItems parts) ≤ 40 * 2 ^ lgOf lgK parts) {r : Sk}
    (he : u'.result = .ok r) :
    ∃ e, getEstimate r = .ok e ∧
      ∀ n : Nat,
        ((1 + 1 / 2 ^ min (lgOf lgK parts) 6) * e ≤ n →
          (cells (lgOf lgK parts) (allItems parts) : ℝ) ≤ ((meanCells (lgOf lgK parts) n [] : ℚ) : ℝ)) ∧
        ((n : ℝ) ≤ (1 - 1 / 2 ^ min (lgOf lgK parts) 6) * e →
          ((meanCells (lgOf lgK parts) n [] : ℚ) : ℝ) ≤ cells (lgOf lgK parts) (allItems parts)) := by
  have hp : 0 < 2 ^ lgOf lgK parts := by positivity
  obtain ⟨a1, a2, a3, a4, a5⟩ := result_facts hu hb hr (by omega) he
  rw [a3] at a1 a2
  obtain ⟨e, h1, h2⟩ := C103_inverse a1 a2 hbig
  refine ⟨e, ?_, h2⟩
  unfold getEstimate
  rw [if_pos a4, a3, a5, h1]

/-- the hypotheses hold for the default size and a count in the sparse range, and for the largest size -/
example : 4 ≤ 11 ∧ 11 ≤ 26 ∧ 300 ≤ 40 * 2 ^ 11 := by decide
example : 4 ≤ 26 ∧ 26 ≤ 26 ∧ 900000000 ≤ 40 * 2 ^ 26 := by decide

/-- the mean is what it says: one item hits one cell -/
example : meanCells 11 1 [] = 1 := by
  have hc : ∀ p : Hash, cells 11 [p] = 1 := by
    intro p
    simp [cells]
  simp only [meanCells, hc, Nat.cast_one]
  exact mean_const 1

end Verif.Cpc
