import Verif.HllComposite
import Verif.HllHipProps

/-!
# Relative errors and bounds of HLL sketches
-/

namespace Verif.Hll

/-! ## The relative errors -/

/-- the entry of the table, positive -/
def relQ (upper ooo : Bool) (i j : Nat) : ℚ :=
  (if upper then -1 else 1) * (relErrTab upper ooo).getD (i * 3 + j) 0

theorem relTab_ok : ∀ (upper ooo : Bool) (i : Fin 9),
    0 < relQ upper ooo i.val 0 ∧ relQ upper ooo i.val 0 ≤ relQ upper ooo i.val 1 ∧
      relQ upper ooo i.val 1 ≤ relQ upper ooo i.val 2 ∧
      (upper = true → relQ upper ooo i.val 2 < 1) := by
  decide +kernel

theorem relErrTab_length (upper ooo : Bool) : (relErrTab upper ooo).length = 27 := by
  cases upper <;> cases ooo <;> rfl

theorem relErr_table {lgK : Nat} (h4 : 4 ≤ lgK) (h12 : lgK ≤ 12) (upper ooo : Bool) {d : Int}
    (h1 : 1 ≤ d) (h3 : d ≤ 3) :
    relErr upper ooo lgK d = .ok ((relQ upper ooo (lgK - 4) (d - 1).toNat : ℚ) : ℝ) := by
  unfold relErr
  rw [if_pos ⟨h4, by omega⟩, if_neg (by omega),
    ofOption_getD (by rw [relErrTab_length]; omega), Outcome.ok_bind]
  have hk := relTab_ok upper ooo ⟨lgK - 4, by omega⟩
  have hpos : 0 < relQ upper ooo (lgK - 4) (d - 1).toNat := by
    have : (d - 1).toNat = 0 ∨ (d - 1).toNat = 1 ∨ (d - 1).toNat = 2 := by omega
    rcases this with e | e | e <;> rw [e]
    · exact hk.1
    · exact lt_of_lt_of_le hk.1 hk.2.1
    · exact lt_of_lt_of_le hk.1 (le_trans hk.2.1 hk.2.2.1)
  unfold relQ at *
  generalize (relErrTab upper ooo).getD ((lgK - 4) * 3 + (d - 1).toNat) 0 = f at *
  congr 1
  cases upper
  · simp only [Bool.false_eq_true, if_false, one_mul] at *
    exact abs_of_pos (by exact_mod_cast hpos)
  · simp only [if_true, neg_mul, one_mul] at *
    have : (f : ℝ) < 0 := by exact_mod_cast (by linarith : f < 0)
    rw [abs_of_neg this]
    push_cast
    ring

theorem rseFactor_bounds (ooo : Bool) : 0 < rseFactor ooo ∧ rseFactor ooo ≤ 2 := by
  have h1 := Real.log_two_gt_d9
  have h2 := Real.log_two_lt_d9
  unfold rseFactor
  cases ooo
  · simp only [Bool.false_eq_true, if_false]
    refine ⟨Real.sqrt_pos.mpr (by linarith), ?_⟩
    rw [Real.sqrt_le_left (by norm_num)]
    norm_num at h2 ⊢; linarith
  · simp only [if_true]
    refine ⟨Real.sqrt_pos.mpr (by norm_num at h1 ⊢; linarith), ?_⟩
    rw [Real.sqrt_le_left (by norm_num)]
    norm_num at h2 ⊢; linarith

theorem relErr_large {lgK : Nat} (h12 : 12 < lgK) (h21 : lgK ≤ 21) (upper ooo : Bool) (d : Int) :
    relErr upper ooo lgK d = .ok (d * rseFactor ooo / Real.sqrt (2 ^ lgK)) := by
  unfold relErr
  rw [if_pos ⟨by omega, h21⟩, if_pos h12]

theorem sqrt_large {lgK : Nat} (h12 : 12 < lgK) : 64 ≤ Real.sqrt (2 ^ lgK) := by
  apply Real.le_sqrt_of_sq_le
  calc (64 : ℝ) ^ 2 = 2 ^ 12 := by norm_num
    _ ≤ 2 ^ lgK := pow_le_pow_right₀ (by norm_num) (by omega)

theorem relErr_ok {lgK : Nat} (h4 : 4 ≤ lgK) (h21 : lgK ≤ 21) (upper ooo : Bool) {d : Int}
    (h1 : 1 ≤ d) (h3 : d ≤ 3) :
    ∃ re, relErr upper ooo lgK d = .ok re ∧ 0 < re ∧ (upper = true → re < 1) := by
  by_cases h12 : lgK ≤ 12
  · refine ⟨_, relErr_table h4 h12 upper ooo h1 h3, ?_, ?_⟩
    · have hk := relTab_ok upper ooo ⟨lgK - 4, by omega⟩
      have : (d - 1).toNat = 0 ∨ (d - 1).toNat = 1 ∨ (d - 1).toNat = 2 := by omega
      rcases this with e | e | e <;> rw [e] <;> norm_cast
      · exact hk.1
      · exact lt_of_lt_of_le hk.1 hk.2.1
      · exact lt_of_lt_of_le hk.1 (le_trans hk.2.1 hk.2.2.1)
    · intro hu
      have hk := relTab_ok upper ooo ⟨lgK - 4, by omega⟩
      have : (d - 1).toNat = 0 ∨ (d - 1).toNat = 1 ∨ (d - 1).toNat = 2 := by omega
      rcases this with e | e | e <;> rw [e] <;> norm_cast
      · exact lt_of_le_of_lt (le_trans hk.2.1 hk.2.2.1) (hk.2.2.2 hu)
      · exact lt_of_le_of_lt hk.2.2.1 (hk.2.2.2 hu)
      · exact hk.2.2.2 hu
  · refine ⟨_, relErr_large (by omega) h21 upper ooo d, ?_, ?_⟩
    · have := (rseFactor_bounds ooo).1
      have hs := sqrt_large (lgK := lgK) (by omega)
      have hd : (0 : ℝ) < d := by exact_mod_cast (by omega : 0 < d)
      have : 0 < Real.sqrt (2 ^ lgK) := by linarith
      positivity
    · intro _
      have hf := rseFactor_bounds ooo
      have hs := sqrt_large (lgK := lgK) (by omega)
      have hd : (d : ℝ) ≤ 3 := by exact_mod_cast h3
      have hd0 : (0 : ℝ) < d := by exact_mod_cast (by omega : 0 < d)
      rw [div_lt_one (by linarith)]
      nlinarith [hf.1, hf.2]

/-- a wider interval has larger relative errors -/
theorem relErr_mono {lgK : Nat} (h4 : 4 ≤ lgK) (h21 : lgK ≤ 21) (upper ooo : Bool) {d : Int}
    (h1 : 1 ≤ d) (h3 : d + 1 ≤ 3) {x y : ℝ} (hx : relErr upper ooo lgK d = .ok x)
    (hy : relErr upper ooo lgK (d + 1) = .ok y) : x ≤ y := by
  by_cases h12 : lgK ≤ 12
  · rw [relErr_table h4 h12 upper ooo h1 (by omega)] at hx
    rw [relErr_table h4 h12 upper ooo (by omega) h3] at hy
    cases hx
    cases hy
    have hk := relTab_ok upper ooo ⟨lgK - 4, by omega⟩
    norm_cast
    have : ((d - 1).toNat = 0 ∧ (d + 1 - 1).toNat = 1) ∨ ((d - 1).toNat = 1 ∧ (d + 1 - 1).toNat = 2) := by
      omega
    rcases this with ⟨e1, e2⟩ | ⟨e1, e2⟩ <;> rw [e1, e2]
    · exact hk.2.1
    · exact hk.2.2.1
  · rw [relErr_large (by omega) h21] at hx hy
    cases hx
    cases hy
    have hf := rseFactor_bounds ooo
    have hs := sqrt_large (lgK := lgK) (by omega)
    have : 0 < Real.sqrt (2 ^ lgK) := by linarith
    apply div_le_div_of_nonneg_right _ this.le
    apply mul_le_mul_of_nonneg_right _ hf.1.le
    push_cast
    linarith

theorem checkDev_ok {d : Int} (h1 : 1 ≤ d) (h3 : d ≤ 3) : checkDev d = .ok () := by
  unfold checkDev
  rw [if_neg (by omega)]

theorem checkDev_err {d : Int} (h : d < 1 ∨ 3 < d) : ∃ e, checkDev d = .err e := by
  unfold checkDev
  rw [if_pos h]
  exact ⟨_, rfl⟩

/-! ## Register arrays -/

/-- given the estimate, the bounds of an array -/
theorem arr_bounds {a : Arr ℚ} (h4 : 4 ≤ a.lgK) (h21 : a.lgK ≤ 21) {d : Int} (h1 : 1 ≤ d)
    (h3 : d ≤ 3) {e : ℝ} (he : a.getEstimate = .ok e) :
    ∃ rl ru, relErr false a.ooo a.lgK d = .ok rl ∧ relErr true a.ooo a.lgK d = .ok ru ∧ 0 < rl ∧
      0 < ru ∧ ru < 1 ∧ a.lowerBound d = .ok (max (e / (1 + rl)) (a.nonZeros : ℝ)) ∧
      a.upperBound d = .ok (e / (1 - ru)) := by
  obtain ⟨rl, l1, l2, _⟩ := relErr_ok h4 h21 false a.ooo h1 h3
  obtain ⟨ru, u1, u2, u3⟩ := relErr_ok h4 h21 true a.ooo h1 h3
  refine ⟨rl, ru, l1, u1, l2, u2, u3 rfl, ?_, ?_⟩
  · unfold Arr.lowerBound
    rw [checkDev_ok h1 h3, Outcome.ok_bind, he, Outcome.ok_bind, l1, Outcome.ok_bind]
  · unfold Arr.upperBound
    rw [checkDev_ok h1 h3, Outcome.ok_bind, he, Outcome.ok_bind, u1, Outcome.ok_bind]

theorem le_div_one_sub {e r : ℝ} (he : 0 ≤ e) (h0 : 0 < r) (h1 : r < 1) : e ≤ e / (1 - r) := by
  rw [le_div_iff₀ (by linarith)]
  nlinarith

theorem div_one_add_le {e r : ℝ} (he : 0 ≤ e) (h0 : 0 < r) : e / (1 + r) ≤ e := by
  rw [div_le_iff₀ (by linarith)]
  nlinarith

/-! ## Coupons -/

theorem couponRse_small {d : Int} (h1 : 1 ≤ d) (h3 : d ≤ 3) :
    0 < (d : ℚ) * couponRse ∧ (d : ℚ) * couponRse < 1 := by
  have : d = 1 ∨ d = 2 ∨ d = 3 := by omega
  unfold couponRse
  rcases this with rfl | rfl | rfl <;> norm_num

/-- given the interpolated count, estimate and bounds of the coupons -/
theorem coupon_bounds {n : Nat} (hn : n < 10200000) :
    ∃ r : ℚ, couponEst n = .ok (max r n) ∧ ∀ d : Int, 1 ≤ d → d ≤ 3 →
      couponLower n d = .ok (max (r / (1 + d * couponRse)) n) ∧
      couponUpper n d = .ok (max (r / (1 - d * couponRse)) n) := by
  obtain ⟨o, _, _, _, e⟩ := couponRaw_ok hn
  refine ⟨interpVal couponX couponY o n, ?_, ?_⟩
  · unfold couponEst
    rw [e, Outcome.ok_bind]
  · intro d h1 h3
    constructor
    · unfold couponLower
      rw [checkDev_ok h1 h3, Outcome.ok_bind, e, Outcome.ok_bind]
    · unfold couponUpper
      rw [checkDev_ok h1 h3, Outcome.ok_bind, e, Outcome.ok_bind]

theorem scale_down {r c n : ℚ} (h0 : 0 < c) (hn : 0 ≤ n) : max (r / (1 + c)) n ≤ max r n := by
  by_cases hr : 0 ≤ r
  · apply max_le_max_right
    rw [div_le_iff₀ (by linarith)]
    nlinarith
  · apply max_le _ (le_max_right _ _)
    have : r / (1 + c) ≤ 0 := div_nonpos_of_nonpos_of_nonneg (by linarith) (by linarith)
    exact le_trans (le_trans this hn) (le_max_right _ _)

theorem scale_up {r c n : ℚ} (h0 : 0 < c) (h1 : c < 1) (hn : 0 ≤ n) :
    max r n ≤ max (r / (1 - c)) n := by
  by_cases hr : 0 ≤ r
  · apply max_le_max_right
    rw [le_div_iff₀ (by linarith)]
    nlinarith
  · exact max_le (le_trans (by linarith) (le_max_right _ _)) (le_max_right _ _)

theorem scale_wider {r c c' n : ℚ} (h0 : 0 < c) (h : c ≤ c') (hn : 0 ≤ n) :
    max (r / (1 + c')) n ≤ max (r / (1 + c)) n := by
  by_cases hr : 0 ≤ r
  · apply max_le_max_right
    exact div_le_div_of_nonneg_left hr (by linarith) (by linarith)
  · apply max_le _ (le_max_right _ _)
    have : r / (1 + c') ≤ 0 := div_nonpos_of_nonpos_of_nonneg (by linarith) (by linarith)
    exact le_trans (le_trans this hn) (le_max_right _ _)

theorem scale_wider' {r c c' n : ℚ} (h0 : 0 < c) (h : c ≤ c') (h1 : c' < 1) (hn : 0 ≤ n) :
    max (r / (1 - c)) n ≤ max (r / (1 - c')) n := by
  by_cases hr : 0 ≤ r
  · apply max_le_max_right
    exact div_le_div_of_nonneg_left hr (by linarith) (by linarith)
  · apply max_le _ (le_max_right _ _)
    have : r / (1 - c) ≤ 0 := div_nonpos_of_nonpos_of_nonneg (by linarith) (by linarith)
    exact le_trans (le_trans this hn) (le_max_right _ _)

end Verif.Hll
