import Verif.CpcExpected
import Mathlib.Analysis.SpecialFunctions.Exp
import Mathlib.Analysis.SpecialFunctions.Exponential

/-!
# Bounds of the expected number of cells by a sum of exponentials
-/

namespace Verif.Cpc

/-- the cells hit per row by `v` items per row, if their number were Poisson distributed, without the
last column -/
noncomputable def occ (v : ℝ) : ℝ := ∑ j ∈ Finset.range 63, (1 - Real.exp (-(v / 2 ^ (j + 1))))

theorem occ_mono {v w : ℝ} (h : v ≤ w) : occ v ≤ occ w := by
  unfold occ
  apply Finset.sum_le_sum
  intro j _
  have : -(w / 2 ^ (j + 1)) ≤ -(v / 2 ^ (j + 1)) :=
    neg_le_neg (div_le_div_of_nonneg_right h (by positivity))
  have := Real.exp_le_exp.mpr this
  linarith

theorem geomR (n : Nat) : ∑ j ∈ Finset.range n, (1 : ℝ) / 2 ^ (j + 1) = 1 - 1 / 2 ^ n := by
  induction n with
  | zero => simp
  | succ n ih =>
    rw [Finset.sum_range_succ, ih, pow_succ]
    field_simp
    ring

theorem geomR4 (n : Nat) : ∑ j ∈ Finset.range n, ((1 : ℝ) / 2 ^ (j + 1)) ^ 2 = (1 - (1 / 2 ^ n) ^ 2) / 3 := by
  induction n with
  | zero => simp
  | succ n ih =>
    rw [Finset.sum_range_succ, ih, pow_succ]
    field_simp
    ring

/-- at most one cell per item -/
theorem occ_le (v : ℝ) : occ v + v / 2 ^ 63 ≤ v := by
  have h : occ v ≤ ∑ j ∈ Finset.range 63, v * (1 / 2 ^ (j + 1)) := by
    unfold occ
    apply Finset.sum_le_sum
    intro j _
    have := Real.add_one_le_exp (-(v / 2 ^ (j + 1)))
    rw [mul_one_div]
    linarith
  rw [← Finset.mul_sum, geomR] at h
  have e : v * (1 - 1 / 2 ^ 63) = v - v / 2 ^ 63 := by ring
  linarith

theorem exp_neg_le {x : ℝ} (h : 0 ≤ x) : Real.exp (-x) ≤ 1 - x + x ^ 2 / 2 := by
  have h1 := Real.quadratic_le_exp_of_nonneg h
  rw [Real.exp_neg]
  have hp : 0 < 1 + x + x ^ 2 / 2 := by positivity
  refine le_trans (inv_anti₀ hp h1) ?_
  rw [inv_le_iff_one_le_mul₀ hp]
  nlinarith [sq_nonneg (x ^ 2)]

/-- the loss by double hits is at most `v^2 / 6` -/
theorem le_occ {v : ℝ} (h : 0 ≤ v) : v - v ^ 2 / 6 - v / 2 ^ 63 ≤ occ v := by
  have h1 : ∑ j ∈ Finset.range 63, (v * (1 / 2 ^ (j + 1)) - v ^ 2 / 2 * (1 / 2 ^ (j + 1)) ^ 2) ≤ occ v := by
    unfold occ
    apply Finset.sum_le_sum
    intro j _
    have := exp_neg_le (x := v / 2 ^ (j + 1)) (by positivity)
    have e : (v / 2 ^ (j + 1)) ^ 2 / 2 = v ^ 2 / 2 * (1 / 2 ^ (j + 1)) ^ 2 := by
      rw [div_pow, div_pow, one_pow]; ring
    rw [mul_one_div]
    linarith
  rw [Finset.sum_sub_distrib, ← Finset.mul_sum, ← Finset.mul_sum, geomR, geomR4] at h1
  have e : v ^ 2 / 2 * ((1 - (1 / 2 ^ 63) ^ 2) / 3) ≤ v ^ 2 / 6 := by
    have : 0 ≤ v ^ 2 * (1 / 2 ^ 63 : ℝ) ^ 2 := by positivity
    nlinarith
  have e2 : v * (1 - 1 / 2 ^ 63) = v - v / 2 ^ 63 := by ring
  linarith

/-- twice the items, one cell per row more, but for rows without a hit in the first column -/
theorem occ_double (v : ℝ) :
    occ (2 * v) = occ v + 1 - Real.exp (-v) - (1 - Real.exp (-(v / 2 ^ 63))) := by
  unfold occ
  rw [Finset.sum_range_succ' _ 62, Finset.sum_range_succ _ 62]
  have e : ∀ j, 2 * v / 2 ^ (j + 1 + 1) = v / 2 ^ (j + 1) := by
    intro j
    rw [pow_succ]
    field_simp
  simp only [e]
  rw [show 2 * v / 2 ^ (0 + 1) = v by norm_num]
  ring

theorem occ_double_le {v : ℝ} (h : 0 ≤ v) (m : Nat) : occ (2 ^ m * v) ≤ occ v + m := by
  induction m with
  | zero => simp
  | succ m ih =>
    rw [pow_succ', mul_assoc, occ_double]
    have h1 := Real.exp_pos (-(2 ^ m * v))
    have h2 : Real.exp (-(2 ^ m * v / 2 ^ 63)) ≤ 1 := by
      rw [Real.exp_le_one_iff]
      have : 0 ≤ 2 ^ m * v / 2 ^ 63 := by positivity
      linarith
    push_cast
    linarith

theorem exp_two_le {v : ℝ} (h : 1 ≤ v) : Real.exp (-(2 * v)) ≤ Real.exp (-v) / 2 := by
  have h1 : Real.exp (-(2 * v)) = Real.exp (-v) * Real.exp (-v) := by
    rw [← Real.exp_add]; congr 1; ring
  have h2 : Real.exp (-v) ≤ 1 / 2 := by
    have := Real.add_one_le_exp v
    rw [Real.exp_neg, one_div]
    exact inv_anti₀ (by norm_num) (by linarith)
  rw [h1]
  nlinarith [Real.exp_pos (-v)]

theorem exp_pow_le {v : ℝ} (h : 1 ≤ v) (m : Nat) : Real.exp (-(2 ^ m * v)) ≤ Real.exp (-v) / 2 ^ m := by
  induction m with
  | zero => simp
  | succ m ih =>
    rw [pow_succ', mul_assoc]
    have h1 : (1 : ℝ) ≤ 2 ^ m * v := by
      have : (1 : ℝ) ≤ 2 ^ m := one_le_pow₀ (by norm_num)
      nlinarith
    refine le_trans (exp_two_le h1) ?_
    rw [← div_div, div_right_comm]
    exact div_le_div_of_nonneg_right ih (by norm_num)

theorem le_occ_double {v : ℝ} (h : 1 ≤ v) (m : Nat) :
    occ v + m - 2 * Real.exp (-v) * (1 - 1 / 2 ^ m) - 2 ^ m * v / 2 ^ 63 ≤ occ (2 ^ m * v) := by
  induction m with
  | zero =>
    have : 0 ≤ v / 2 ^ 63 := by positivity
    simp
    linarith
  | succ m ih =>
    rw [pow_succ', show (2 : ℝ) * 2 ^ m * v = 2 * (2 ^ m * v) by ring, occ_double]
    have h1 := exp_pow_le h m
    have h2 : 1 - Real.exp (-(2 ^ m * v / 2 ^ 63)) ≤ 2 ^ m * v / 2 ^ 63 := by
      have := Real.add_one_le_exp (-(2 ^ m * v / 2 ^ 63))
      linarith
    have e : (2 : ℝ) * Real.exp (-v) * (1 - 1 / (2 * 2 ^ m)) =
        2 * Real.exp (-v) * (1 - 1 / 2 ^ m) + Real.exp (-v) / 2 ^ m := by
      field_simp
      ring
    have e2 : 2 * (2 ^ m * v) / 2 ^ 63 = 2 ^ m * v / 2 ^ 63 + 2 ^ m * v / 2 ^ 63 := by ring
    rw [e, e2]
    push_cast
    linarith

/-! ## The expected number of cells -/

theorem occ_le_mean {lgK : Nat} (h : lgK ≤ 64) (n : Nat) :
    (2 : ℝ) ^ lgK * occ (n / 2 ^ lgK) ≤ ((meanCells lgK n [] : ℚ) : ℝ) := by
  rw [meanCells_new h]
  push_cast
  apply mul_le_mul_of_nonneg_left _ (by positivity)
  have key : ∀ c : Nat, (1 - (1 : ℝ) / 2 ^ c / 2 ^ lgK) ^ n ≤ Real.exp (-(n / 2 ^ lgK / 2 ^ c)) := by
    intro c
    have hp : (1 : ℝ) / 2 ^ c / 2 ^ lgK ≤ 1 := by
      rw [div_div, div_le_one (by positivity)]
      exact one_le_mul_of_one_le_of_one_le (one_le_pow₀ (by norm_num)) (one_le_pow₀ (by norm_num))
    have h1 : 1 - (1 : ℝ) / 2 ^ c / 2 ^ lgK ≤ Real.exp (-((1 : ℝ) / 2 ^ c / 2 ^ lgK)) := by
      have := Real.add_one_le_exp (-((1 : ℝ) / 2 ^ c / 2 ^ lgK))
      linarith
    refine le_trans (pow_le_pow_left₀ (by linarith) h1 n) ?_
    rw [← Real.exp_nat_mul]
    apply le_of_eq
    congr 1
    field_simp
  have h63 : 0 ≤ 1 - (1 - (1 : ℝ) / 2 ^ 63 / 2 ^ lgK) ^ n := by
    have := key 63
    have h2 : Real.exp (-((n : ℝ) / 2 ^ lgK / 2 ^ 63)) ≤ 1 := by
      rw [Real.exp_le_one_iff]
      have : (0 : ℝ) ≤ n / 2 ^ lgK / 2 ^ 63 := by positivity
      linarith
    linarith
  have : occ (n / 2 ^ lgK) ≤ ∑ c ∈ Finset.range 63, (1 - (1 - (1 : ℝ) / 2 ^ (c + 1) / 2 ^ lgK) ^ n) := by
    unfold occ
    apply Finset.sum_le_sum
    intro c _
    have := key (c + 1)
    linarith
  linarith

/-- the correction for the difference between the binomial and the Poisson distribution -/
noncomputable def binCorr (lgK : Nat) : ℝ := 2 * 2 ^ lgK / (2 * 2 ^ lgK - 1)

theorem binCorr_ge (lgK : Nat) : 1 ≤ binCorr lgK := by
  unfold binCorr
  have : (1 : ℝ) ≤ 2 ^ lgK := one_le_pow₀ (by norm_num)
  rw [le_div_iff₀ (by linarith)]
  linarith

theorem mean_le_occ {lgK : Nat} (h : lgK ≤ 64) (n : Nat) :
    ((meanCells lgK n [] : ℚ) : ℝ) ≤
      2 ^ lgK * (occ (binCorr lgK * (n / 2 ^ lgK)) + binCorr lgK * (n / 2 ^ lgK) / 2 ^ 63) := by
  rw [meanCells_new h]
  push_cast
  apply mul_le_mul_of_nonneg_left _ (by positivity)
  have hk : (1 : ℝ) ≤ 2 ^ lgK := one_le_pow₀ (by norm_num)
  have hpk : (0 : ℝ) < 2 ^ lgK := by positivity
  have key : ∀ c : Nat, Real.exp (-(binCorr lgK * (n / 2 ^ lgK) / 2 ^ (c + 1))) ≤
      (1 - (1 : ℝ) / 2 ^ (c + 1) / 2 ^ lgK) ^ n := by
    intro c
    have h2c : (2 : ℝ) ≤ 2 ^ (c + 1) := by
      rw [pow_succ]
      have : (1 : ℝ) ≤ 2 ^ c := one_le_pow₀ (by norm_num)
      linarith
    have hp : (1 : ℝ) / 2 ^ (c + 1) / 2 ^ lgK ≤ 1 / (2 * 2 ^ lgK) := by
      rw [div_div]
      apply one_div_le_one_div_of_le (by positivity)
      exact mul_le_mul_of_nonneg_right h2c hpk.le
    have hp0 : 0 < (1 : ℝ) / 2 ^ (c + 1) / 2 ^ lgK := by positivity
    have e1 : (n : ℝ) / 2 ^ lgK / 2 ^ (c + 1) = n * (1 / 2 ^ (c + 1) / 2 ^ lgK) := by field_simp
    rw [mul_div_assoc, e1]
    generalize (1 : ℝ) / 2 ^ (c + 1) / 2 ^ lgK = p at *
    have hlt : (1 : ℝ) / (2 * 2 ^ lgK) ≤ 1 / 2 := by
      apply one_div_le_one_div_of_le (by norm_num); linarith
    have hq : 0 < 1 - p := by linarith
    have h1 : Real.exp (-(binCorr lgK * p)) ≤ 1 - p := by
      rw [Real.exp_neg]
      rw [inv_le_comm₀ (Real.exp_pos _) hq]
      refine le_trans ?_ (Real.add_one_le_exp _)
      have hb : (1 - p) * binCorr lgK ≥ 1 := by
        have : 1 - 1 / (2 * 2 ^ lgK) ≤ 1 - p := by linarith
        have h3 : (1 - 1 / (2 * (2 : ℝ) ^ lgK)) * binCorr lgK = 1 := by
          unfold binCorr
          have : (2 : ℝ) * 2 ^ lgK - 1 ≠ 0 := by linarith
          field_simp
        have h4 := mul_le_mul_of_nonneg_right this (by have := binCorr_ge lgK; linarith : 0 ≤ binCorr lgK)
        linarith
      rw [inv_le_iff_one_le_mul₀' hq]
      nlinarith
    have := pow_le_pow_left₀ (Real.exp_pos _).le h1 n
    rw [← Real.exp_nat_mul] at this
    refine le_trans (le_of_eq ?_) this
    congr 1
    ring
  have h63 : 1 - (1 - (1 : ℝ) / 2 ^ 63 / 2 ^ lgK) ^ n ≤ binCorr lgK * (n / 2 ^ lgK) / 2 ^ 63 := by
    have hp : (1 : ℝ) / 2 ^ 63 / 2 ^ lgK ≤ 1 := by
      rw [div_div, div_le_one (by positivity)]
      exact one_le_mul_of_one_le_of_one_le (one_le_pow₀ (by norm_num)) hk
    have hb := one_add_mul_le_pow (a := -((1 : ℝ) / 2 ^ 63 / 2 ^ lgK)) (by linarith) n
    rw [← sub_eq_add_neg] at hb
    have e1 : (n : ℝ) * -((1 : ℝ) / 2 ^ 63 / 2 ^ lgK) = -(n / 2 ^ lgK / 2 ^ 63) := by field_simp
    have h1 := binCorr_ge lgK
    have h2 : (0 : ℝ) ≤ n / 2 ^ lgK / 2 ^ 63 := by positivity
    rw [mul_div_assoc]
    nlinarith
  have : ∑ c ∈ Finset.range 63, (1 - (1 - (1 : ℝ) / 2 ^ (c + 1) / 2 ^ lgK) ^ n) ≤
      occ (binCorr lgK * (n / 2 ^ lgK)) := by
    unfold occ
    apply Finset.sum_le_sum
    intro c _
    have := key c
    linarith
  linarith

end Verif.Cpc
