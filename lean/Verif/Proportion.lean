import Verif.ProportionModel
import Verif.Binomial
import Mathlib.Analysis.SpecialFunctions.Log.Deriv
import Mathlib.Analysis.SpecialFunctions.Exp
import Mathlib.Analysis.Complex.ExponentialBounds

/-!
# The bounds on a proportion bracket the observed proportion
-/

noncomputable section

namespace Verif.Proportion

theorem erfOfNonneg_eq {x : ℝ} (hx : 0 ≤ x) : ∃ S : ℝ, 1 ≤ S ∧ erfOfNonneg x = 1 - 1 / S := by
  have key : ∀ s : ℝ, 1 ≤ s → 1 ≤ s * s * (s * s) * (s * s * (s * s)) * (s * s * (s * s) * (s * s * (s * s))) := by
    intro s hs
    have h2 : 1 ≤ s * s := by nlinarith
    have h4 : 1 ≤ s * s * (s * s) := by nlinarith
    have h8 : 1 ≤ s * s * (s * s) * (s * s * (s * s)) := by nlinarith
    nlinarith
  unfold erfOfNonneg
  simp only
  have e1 : (1.0 : ℝ) = 1 := by norm_num
  rw [e1]
  refine ⟨_, key _ ?_, rfl⟩
  have : 0 ≤ 0.0705230784 * x + 0.0422820123 * (x * x) + 0.0092705272 * (x * x * x) +
      0.0001520143 * (x * x * (x * x)) + 0.0002765672 * (x * x * (x * x * x)) +
      0.0000430638 * (x * x * x * (x * x * x)) := by positivity
  linarith

/-- The tail probability is positive and at most one half. -/
theorem deltaOf_range {κ : ℝ} (hκ : 0 ≤ κ) : 0 < deltaOf κ ∧ deltaOf κ ≤ 1 / 2 := by
  have hs : 0 < Real.sqrt 2.0 := Real.sqrt_pos.mpr (by norm_num)
  unfold deltaOf normalCDF erf
  have h0 : (0.0 : ℝ) = 0 := by norm_num
  have h1 : (1.0 : ℝ) = 1 := by norm_num
  have h5 : (0.5 : ℝ) = 1 / 2 := by norm_num
  rw [h0, h1, h5]
  split
  · have hx : 0 ≤ -1 * (-1 * κ / Real.sqrt 2.0) := by
      have : -1 * (-1 * κ / Real.sqrt 2.0) = κ / Real.sqrt 2.0 := by ring
      rw [this]; positivity
    obtain ⟨S, hS, e⟩ := erfOfNonneg_eq hx
    rw [e]
    have : 0 < 1 / S := by positivity
    have : 1 / S ≤ 1 := by rw [div_le_one (by linarith)]; exact hS
    constructor <;> linarith
  · rename_i hc
    have hk : κ = 0 := by
      by_contra hne
      have : 0 < κ := lt_of_le_of_ne hκ (Ne.symm hne)
      apply hc
      apply div_neg_of_neg_of_pos _ hs
      linarith
    subst hk
    have : -1 * (0 : ℝ) / Real.sqrt 2.0 = 0 := by simp
    rw [this]
    have : erfOfNonneg 0 = 0 := by unfold erfOfNonneg; norm_num
    rw [this]; constructor <;> norm_num

theorem one_sub_inv_pow {n : ℕ} (hn : 1 ≤ n) : (1 - 1 / (n : ℝ)) ^ n ≤ 1 / 2 := by
  have h := Real.one_sub_div_pow_le_exp_neg (n := n) (t := 1) (by exact_mod_cast hn)
  refine h.trans ?_
  have := Real.exp_one_gt_d9
  rw [Real.exp_neg, one_div]
  apply inv_anti₀ (by norm_num)
  linarith

theorem root_ge {n : ℕ} {δ : ℝ} (hn : 1 ≤ n) (h : δ ≤ 1 / 2) :
    1 - 1 / (n : ℝ) ≤ (1 - δ) ^ (1 / (n : ℝ)) := by
  have hn' : (1 : ℝ) ≤ n := by exact_mod_cast hn
  have h1 : 0 ≤ 1 - 1 / (n : ℝ) := by
    have : 1 / (n : ℝ) ≤ 1 := by rw [div_le_one (by linarith)]; exact hn'
    linarith
  have h2 : (1 - 1 / (n : ℝ)) ^ n ≤ 1 - δ := (one_sub_inv_pow hn).trans (by linarith)
  have e : ((1 - 1 / (n : ℝ)) ^ n) ^ (1 / (n : ℝ)) = 1 - 1 / (n : ℝ) := by
    rw [one_div (n : ℝ)]
    rw [one_div] at h1
    exact Real.pow_rpow_inv_natCast h1 (by omega)
  calc 1 - 1 / (n : ℝ) = ((1 - 1 / (n : ℝ)) ^ n) ^ (1 / (n : ℝ)) := e.symm
    _ ≤ (1 - δ) ^ (1 / (n : ℝ)) := Real.rpow_le_rpow (by positivity) h2 (by positivity)

theorem root_range {n : ℕ} {x : ℝ} (h0 : 0 ≤ x) (h1 : x ≤ 1) :
    0 ≤ x ^ (1 / (n : ℝ)) ∧ x ^ (1 / (n : ℝ)) ≤ 1 :=
  ⟨Real.rpow_nonneg h0 _, Real.rpow_le_one h0 h1 (by positivity)⟩

theorem root_pow {n : ℕ} {x : ℝ} (h0 : 0 ≤ x) (hn : 1 ≤ n) : (x ^ (1 / (n : ℝ))) ^ n = x := by
  rw [one_div]
  exact Real.rpow_inv_natCast_pow h0 (by omega)

theorem log_ratio {c : ℝ} (hc : 0 < c) : 2 / (2 * c + 1) ≤ Real.log (1 + c⁻¹) := by
  have h := Real.hasSum_log_one_add_inv hc
  have := le_hasSum h 0 (fun j _ => by positivity)
  refine le_trans (le_of_eq ?_) this
  simp
  ring

/-- the exponent of the formula, bounded on the side of the smaller tail -/
theorem exponent {A B κ : ℝ} (hA : 3 ≤ A) (hB : 3 ≤ B) (h0 : 0 ≤ κ) (h2 : κ ≤ 2) :
    let h := 2 / (1 / A + 1 / B);
    -κ * Real.sqrt (h + (κ ^ 2 - 3) / 6) / h -
      (1 / B - 1 / A) * ((κ ^ 2 - 3) / 6 + 5 / 6 - 2 / (3 * h)) ≤ 1 / A := by
  intro h
  have hA0 : 0 < 1 / A := by positivity
  have hB0 : 0 < 1 / B := by positivity
  have hA3 : 1 / A ≤ 1 / 3 := one_div_le_one_div_of_le (by norm_num) hA
  have hB3 : 1 / B ≤ 1 / 3 := one_div_le_one_div_of_le (by norm_num) hB
  have hh : 0 < h := by positivity
  have e : 2 / (3 * h) = (1 / A + 1 / B) / 3 := by
    simp only [h]; field_simp
  have ht : 0 ≤ (κ ^ 2 - 3) / 6 + 5 / 6 - 2 / (3 * h) := by
    rw [e]; nlinarith
  have ht1 : (κ ^ 2 - 3) / 6 + 5 / 6 - 2 / (3 * h) ≤ 1 := by
    rw [e]; nlinarith
  have hk : -κ * Real.sqrt (h + (κ ^ 2 - 3) / 6) / h ≤ 0 := by
    have : 0 ≤ κ * Real.sqrt (h + (κ ^ 2 - 3) / 6) / h := by positivity
    have e2 : -κ * Real.sqrt (h + (κ ^ 2 - 3) / 6) / h = -(κ * Real.sqrt (h + (κ ^ 2 - 3) / 6) / h) := by ring
    linarith
  generalize (κ ^ 2 - 3) / 6 + 5 / 6 - 2 / (3 * h) = t at *
  nlinarith

theorem formula_eq (a b yp : ℝ) : formula a b yp = a / (a + b * Real.exp (2 *
    (yp * Real.sqrt (2 / (1 / (2 * a - 1) + 1 / (2 * b - 1)) + (yp ^ 2 - 3) / 6) /
        (2 / (1 / (2 * a - 1) + 1 / (2 * b - 1))) -
      (1 / (2 * b - 1) - 1 / (2 * a - 1)) * ((yp ^ 2 - 3) / 6 + 5 / 6 -
        2 / (3 * (2 / (1 / (2 * a - 1) + 1 / (2 * b - 1)))))))) := by
  unfold formula
  simp only
  have h1 : (1.0 : ℝ) = 1 := by norm_num
  have h2 : (2.0 : ℝ) = 2 := by norm_num
  have h3 : (3.0 : ℝ) = 3 := by norm_num
  have h5 : (5.0 : ℝ) = 5 := by norm_num
  have h6 : (6.0 : ℝ) = 6 := by norm_num
  rw [h1, h2, h3, h5, h6, ← pow_two]

theorem formula_range {a b : ℝ} (ha : 0 < a) (hb : 0 < b) (yp : ℝ) :
    0 < formula a b yp ∧ formula a b yp < 1 := by
  rw [formula_eq]
  have := Real.exp_pos (2 *
    (yp * Real.sqrt (2 / (1 / (2 * a - 1) + 1 / (2 * b - 1)) + (yp ^ 2 - 3) / 6) /
        (2 / (1 / (2 * a - 1) + 1 / (2 * b - 1))) -
      (1 / (2 * b - 1) - 1 / (2 * a - 1)) * ((yp ^ 2 - 3) / 6 + 5 / 6 -
        2 / (3 * (2 / (1 / (2 * a - 1) + 1 / (2 * b - 1)))))))
  generalize Real.exp _ = E at *
  have hbE : 0 < b * E := by positivity
  refine ⟨by positivity, ?_⟩
  rw [div_lt_one (by positivity)]
  linarith

theorem exp_le_ratio {a w : ℝ} (ha : 1 < a) (hw : w ≤ 1 / (2 * a - 1)) :
    Real.exp (2 * w) ≤ a / (a - 1) := by
  have hc : 0 < a - 1 := by linarith
  have h := log_ratio hc
  have e1 : 1 + (a - 1)⁻¹ = a / (a - 1) := by field_simp; ring
  have e2 : 2 / (2 * (a - 1) + 1) = 2 * (1 / (2 * a - 1)) := by
    rw [show 2 * (a - 1) + 1 = 2 * a - 1 by ring]; ring
  rw [e1, e2] at h
  rw [← Real.le_log_iff_exp_le (by positivity)]
  linarith

/-- lower side: the formula is at least the observed share of failures -/
theorem formula_lower {a b κ : ℝ} (ha : 2 ≤ a) (hb : 2 ≤ b) (h0 : 0 ≤ κ) (h2 : κ ≤ 2) :
    (a - 1) / (a - 1 + b) ≤ formula a b (-κ) := by
  rw [formula_eq]
  have hw := exponent (A := 2 * a - 1) (B := 2 * b - 1) (by linarith) (by linarith) h0 h2
  simp only at hw
  rw [neg_sq]
  have hE := exp_le_ratio (by linarith) hw
  generalize hx : Real.exp _ = E at hE ⊢
  have hEp : 0 < E := by rw [← hx]; exact Real.exp_pos _
  have hbE : 0 < b * E := by positivity
  have h1 : E * (a - 1) ≤ a := by rwa [le_div_iff₀ (by linarith)] at hE
  rw [div_le_div_iff₀ (by linarith) (by linarith)]
  have : b * (E * (a - 1)) ≤ b * a := mul_le_mul_of_nonneg_left h1 (by linarith)
  nlinarith

/-- upper side: the formula is at most the observed share of failures -/
theorem formula_upper {a b κ : ℝ} (ha : 2 ≤ a) (hb : 2 ≤ b) (h0 : 0 ≤ κ) (h2 : κ ≤ 2) :
    formula a b κ ≤ a / (a + (b - 1)) := by
  rw [formula_eq]
  have hw := exponent (A := 2 * b - 1) (B := 2 * a - 1) (by linarith) (by linarith) h0 h2
  simp only at hw
  have hE := exp_le_ratio (by linarith) hw
  have hcomm : 1 / (2 * b - 1) + 1 / (2 * a - 1) = 1 / (2 * a - 1) + 1 / (2 * b - 1) := add_comm _ _
  rw [hcomm] at hE
  set h := 2 / (1 / (2 * a - 1) + 1 / (2 * b - 1)) with hh
  have eneg : 2 * (-κ * Real.sqrt (h + (κ ^ 2 - 3) / 6) / h -
      (1 / (2 * a - 1) - 1 / (2 * b - 1)) * ((κ ^ 2 - 3) / 6 + 5 / 6 - 2 / (3 * h))) =
      -(2 * (κ * Real.sqrt (h + (κ ^ 2 - 3) / 6) / h -
      (1 / (2 * b - 1) - 1 / (2 * a - 1)) * ((κ ^ 2 - 3) / 6 + 5 / 6 - 2 / (3 * h)))) := by ring
  rw [eneg, Real.exp_neg] at hE
  generalize hx : Real.exp _ = E at hE ⊢
  have hEp : 0 < E := by rw [← hx]; exact Real.exp_pos _
  have hbE : 0 < b * E := by positivity
  have h1 : b - 1 ≤ b * E := by
    rw [le_div_iff₀ (by linarith), inv_mul_le_iff₀ hEp] at hE
    linarith
  exact div_le_div_of_nonneg_left (by linarith) (by linarith) (by linarith)

/-- The two bounds exist, lie in [0, 1] and bracket the observed proportion. -/
theorem bracket {n k : ℕ} {κ : ℝ} (hn : 1 ≤ n) (hk : k ≤ n) (h0 : 0 ≤ κ) (h2 : κ ≤ 2) :
    ∃ lb ub, lowerOnP n k κ = .ok lb ∧ upperOnP n k κ = .ok ub ∧
      0 ≤ lb ∧ lb ≤ (k : ℝ) / n ∧ (k : ℝ) / n ≤ ub ∧ ub ≤ 1 := by
  obtain ⟨hd0, hd1⟩ := deltaOf_range h0
  have hn' : (1 : ℝ) ≤ n := by exact_mod_cast hn
  have hk' : (k : ℝ) ≤ n := by exact_mod_cast hk
  have hk0 : (0 : ℝ) ≤ k := Nat.cast_nonneg k
  have hz : (0.0 : ℝ) = 0 := by norm_num
  have ho : (1.0 : ℝ) = 1 := by norm_num
  have hr := root_ge (n := n) hn hd1
  have hr1 := root_range (n := n) (x := 1 - deltaOf κ) (by linarith) (by linarith)
  have hr2 := root_range (n := n) (x := deltaOf κ) hd0.le (by linarith)
  have hfrac : (k : ℝ) / n ≤ 1 := by rw [div_le_one (by linarith)]; exact hk'
  have hfrac0 : 0 ≤ (k : ℝ) / n := by positivity
  have hlow : ∃ lb, lowerOnP n k κ = .ok lb ∧ 0 ≤ lb ∧ lb ≤ (k : ℝ) / n := by
    unfold lowerOnP
    rw [if_neg (by omega), if_neg (by omega), hz, ho]
    split
    · exact ⟨_, rfl, le_refl _, hfrac0⟩
    split
    · rename_i hk1
      subst hk1
      exact ⟨_, rfl, by linarith, by push_cast; linarith⟩
    split
    · rename_i hkn
      subst hkn
      refine ⟨_, rfl, hr2.1, ?_⟩
      rw [div_self (by linarith)]; exact hr2.2
    · have ha : (2 : ℝ) ≤ ((n - k + 1 : ℕ) : ℝ) := by
        have : 2 ≤ n - k + 1 := by omega
        exact_mod_cast this
      have hb : (2 : ℝ) ≤ k := by
        have : 2 ≤ k := by omega
        exact_mod_cast this
      have hf := formula_lower ha hb h0 h2
      have hfr := formula_range (a := ((n - k + 1 : ℕ) : ℝ)) (b := k) (by linarith) (by linarith) (-κ)
      have e : -1 * κ = -κ := by ring
      rw [e]
      refine ⟨_, rfl, by linarith, ?_⟩
      have e2 : ((n - k + 1 : ℕ) : ℝ) - 1 = n - k := by
        push_cast [Nat.cast_sub hk]; ring
      rw [e2] at hf
      have e3 : ((n : ℝ) - k) / (n - k + k) = 1 - k / n := by
        rw [sub_add_cancel, sub_div, div_self (by linarith)]
      rw [e3] at hf
      linarith
  have hupp : ∃ ub, upperOnP n k κ = .ok ub ∧ (k : ℝ) / n ≤ ub ∧ ub ≤ 1 := by
    unfold upperOnP
    rw [if_neg (by omega), if_neg (by omega), ho]
    split
    · exact ⟨_, rfl, hfrac, le_refl _⟩
    split
    · rename_i hk1
      refine ⟨_, rfl, ?_, hr1.2⟩
      have : (k : ℝ) / n = 1 - 1 / n := by
        rw [hk1, Nat.cast_sub hn]
        field_simp
        ring
      rw [this]; exact hr
    split
    · rename_i hk1
      subst hk1
      refine ⟨_, rfl, ?_, by linarith⟩
      simp only [Nat.cast_zero, zero_div]
      linarith
    · have ha : (2 : ℝ) ≤ ((n - k : ℕ) : ℝ) := by
        have : 2 ≤ n - k := by omega
        exact_mod_cast this
      have hb : (2 : ℝ) ≤ ((k + 1 : ℕ) : ℝ) := by
        have : 2 ≤ k + 1 := by omega
        exact_mod_cast this
      have hf := formula_upper ha hb h0 h2
      have hfr := formula_range (a := ((n - k : ℕ) : ℝ)) (b := ((k + 1 : ℕ) : ℝ)) (by linarith)
        (by linarith) κ
      refine ⟨_, rfl, ?_, by linarith⟩
      have e3 : ((n - k : ℕ) : ℝ) / (((n - k : ℕ) : ℝ) + (((k + 1 : ℕ) : ℝ) - 1)) = 1 - k / n := by
        push_cast [Nat.cast_sub hk]
        rw [show (n : ℝ) - k + (k + 1 - 1) = n by ring, sub_div, div_self (by linarith)]
      rw [e3] at hf
      linarith
  obtain ⟨lb, e1, l0, l1⟩ := hlow
  obtain ⟨ub, e2, u0, u1⟩ := hupp
  exact ⟨lb, ub, e1, e2, l0, l1, u0, u1⟩

end Verif.Proportion
