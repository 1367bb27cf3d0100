import Verif.CpcEstModel
import Verif.PolyCert
import Mathlib.Analysis.Complex.ExponentialBounds

/-!
# The ICON estimate grows with the number of coupons
-/

namespace Verif.Cpc

open PolyCert

/-- the coefficients used for `lgK` -/
def iconRow (lgK : Nat) : List Int := (iconTab.drop (20 * (lgK - 4))).take 20

theorem iconTab_length : iconTab.length = 460 := by decide +kernel

/-! ## The loop computes the polynomial -/

theorem hornerLoop_eq (tab : List Int) (start : Nat) (x : ℝ) : ∀ (n : Nat) (t : ℝ),
    start + n ≤ tab.length →
    hornerLoop tab start x n t =
      .ok (eval ((tab.drop start).take n) x / 10 ^ 23 + x ^ n * t) := by
  intro n
  induction n with
  | zero => intro t _; simp [hornerLoop, eval]
  | succ n ih =>
    intro t hn
    have hlt : n < (tab.drop start).length := by rw [List.length_drop]; omega
    have hget : tab[start + n]? = some ((tab.drop start)[n]) := by
      rw [← List.getElem?_drop, List.getElem?_eq_getElem hlt]
    rw [hornerLoop, hget, Outcome.ofOption_some, Outcome.ok_bind, ih _ (by omega),
      List.take_succ_eq_append_getElem hlt, eval_append, List.length_take]
    rw [min_eq_left hlt.le]
    congr 1
    simp only [eval]
    ring

theorem evaluatePolynomial_eq {lgK : Nat} (h4 : 4 ≤ lgK) (h26 : lgK ≤ 26) (x : ℝ) :
    evaluatePolynomial iconTab (20 * (lgK - 4)) 20 x = .ok (eval (iconRow lgK) x / 10 ^ 23) := by
  have hlt : 19 < (iconTab.drop (20 * (lgK - 4))).length := by
    rw [List.length_drop, iconTab_length]; omega
  have hget : iconTab[20 * (lgK - 4) + 20 - 1]? = some ((iconTab.drop (20 * (lgK - 4)))[19]) := by
    rw [show 20 * (lgK - 4) + 20 - 1 = 20 * (lgK - 4) + 19 by omega, ← List.getElem?_drop,
      List.getElem?_eq_getElem hlt]
  unfold evaluatePolynomial
  rw [hget, Outcome.ofOption_some, Outcome.ok_bind,
    hornerLoop_eq _ _ _ _ _ (by rw [iconTab_length]; omega)]
  unfold iconRow
  rw [List.take_succ_eq_append_getElem hlt, eval_append, List.length_take, min_eq_left hlt.le]
  congr 1
  simp only [eval]
  ring

/-! ## The certificate -/

/-- `x P(x) (66.774757 + 8 x^3)`, in units of `10^-29` -/
def iconG (lgK : Nat) : List Int :=
  add (smul 66774757 (0 :: iconRow lgK)) (0 :: 0 :: 0 :: smul 8000000 (0 :: iconRow lgK))

theorem eval_iconG (lgK : Nat) (x : ℝ) :
    eval (iconG lgK) x = x * eval (iconRow lgK) x * (66774757 + 8000000 * x ^ 3) := by
  unfold iconG
  rw [eval_add, eval_smul]
  simp only [eval]
  rw [eval_smul]
  simp only [eval]
  push_cast
  ring

theorem icon_check : ∀ i : Fin 23, check [9, 18, 19] (rescale 16 (iconG (i.val + 4))) = true := by
  decide +kernel

theorem iconG_lt {lgK : Nat} (h4 : 4 ≤ lgK) (h26 : lgK ≤ 26) {s t : ℝ} (h0 : 0 ≤ s) (hst : s < t)
    (ht : t ≤ 2.875) : eval (iconG lgK) s < eval (iconG lgK) t := by
  have hc := icon_check ⟨lgK - 4, by omega⟩
  simp only [show lgK - 4 + 4 = lgK by omega] at hc
  have h := check_lt [9, 18, 19] hc (s := 16 * s) (t := 16 * t) (by linarith) (by linarith)
    (by norm_num at ht ⊢; linarith)
  have e1 := eval_rescale (m := 16) (by norm_num) (iconG lgK) s
  have e2 := eval_rescale (m := 16) (by norm_num) (iconG lgK) t
  push_cast at e1 e2
  have hp : (0 : ℝ) < 16 ^ (iconG lgK).length := by positivity
  have : (16 : ℝ) ^ (iconG lgK).length * eval (iconG lgK) s <
      16 ^ (iconG lgK).length * eval (iconG lgK) t := by rw [← e1, ← e2]; linarith
  exact lt_of_mul_lt_mul_left this hp.le

/-- the polynomial part in terms of `r = c / k` -/
noncomputable def iconF (lgK : Nat) (r : ℝ) : ℝ := 2 * eval (iconG lgK) (r / 2) / (10 ^ 23 * 66774757)

theorem iconF_lt {lgK : Nat} (h4 : 4 ≤ lgK) (h26 : lgK ≤ 26) {s t : ℝ} (h0 : 0 ≤ s) (hst : s < t)
    (ht : t ≤ 5.75) : iconF lgK s < iconF lgK t := by
  have := iconG_lt h4 h26 (s := s / 2) (t := t / 2) (by linarith) (by linarith)
    (by norm_num at ht ⊢; linarith)
  unfold iconF
  apply div_lt_div_of_pos_right _ (by norm_num)
  linarith

theorem iconFinish_eq {lgK : Nat} {k c : ℝ} (hk : 0 < k) :
    iconFinish k c (eval (iconRow lgK) (c / (2 * k)) / 10 ^ 23) = max c (k * iconF lgK (c / k)) := by
  have e : c * (eval (iconRow lgK) (c / (2 * k)) / 10 ^ 23) *
      (1 + c / k * (c / k) * (c / k) / 66.774757) = k * iconF lgK (c / k) := by
    unfold iconF
    rw [eval_iconG, show c / k / 2 = c / (2 * k) by field_simp]
    generalize eval (iconRow lgK) (c / (2 * k)) = v
    obtain ⟨r, rfl⟩ : ∃ r, c = r * k := ⟨c / k, by field_simp⟩
    rw [show r * k / (2 * k) = r / 2 by field_simp, show r * k / k = r by field_simp]
    norm_num
    ring
  unfold iconFinish
  rw [e]
  split
  · rename_i h; exact (max_eq_right h).symm
  · rename_i h; exact (max_eq_left (le_of_lt (not_le.mp h))).symm

/-! ## The two branches meet in the right order -/

theorem icon_jump_low : ∀ i : Fin 10,
    2 * evalQ (iconG (i.val + 4)) (57 / 20) / (10 ^ 23 * 66774757) <
      7940236163830469 / 10 ^ 16 * (5198410 / 10 ^ 5) := by
  decide +kernel

theorem icon_jump_high : ∀ i : Fin 13,
    2 * evalQ (iconG (i.val + 14)) (14 / 5) / (10 ^ 23 * 66774757) <
      7940236163830469 / 10 ^ 16 * (485029301 / 10 ^ 7) := by
  decide +kernel

theorem two_pow_57 : (5198410 / 10 ^ 5 : ℝ) ≤ 2 ^ (5.7 : ℝ) := by
  have h : ((2 : ℝ) ^ (5.7 : ℝ)) ^ 10 = 2 ^ 57 := by
    rw [← Real.rpow_natCast, ← Real.rpow_mul (by norm_num), ← Real.rpow_natCast]
    norm_num
  apply le_of_pow_le_pow_left₀ (n := 10) (by norm_num) (by positivity)
  rw [h]
  norm_num

theorem two_pow_56 : (485029301 / 10 ^ 7 : ℝ) ≤ 2 ^ (5.6 : ℝ) := by
  have h : ((2 : ℝ) ^ (5.6 : ℝ)) ^ 5 = 2 ^ 28 := by
    rw [← Real.rpow_natCast, ← Real.rpow_mul (by norm_num), ← Real.rpow_natCast]
    norm_num
  apply le_of_pow_le_pow_left₀ (n := 5) (by norm_num) (by positivity)
  rw [h]
  norm_num

theorem iconThreshold_bounds (lgK : Nat) : 5 ≤ iconThreshold lgK ∧ iconThreshold lgK ≤ 5.75 := by
  unfold iconThreshold
  split <;> norm_num

theorem icon_jump {lgK : Nat} (h4 : 4 ≤ lgK) (h26 : lgK ≤ 26) :
    iconF lgK (iconThreshold lgK) < 0.7940236163830469 * 2 ^ iconThreshold lgK := by
  unfold iconThreshold iconF
  split
  · have h := icon_jump_low ⟨lgK - 4, by omega⟩
    simp only [show lgK - 4 + 4 = lgK by omega] at h
    have h' : ((2 * evalQ (iconG lgK) (57 / 20) / (10 ^ 23 * 66774757) : ℚ) : ℝ) <
        ((7940236163830469 / 10 ^ 16 * (5198410 / 10 ^ 5) : ℚ) : ℝ) := by exact_mod_cast h
    push_cast [evalQ_cast] at h'
    rw [show (5.7 : ℝ) / 2 = 57 / 20 by norm_num]
    refine lt_of_lt_of_le h' ?_
    rw [show (0.7940236163830469 : ℝ) = 7940236163830469 / 10 ^ 16 by norm_num]
    exact mul_le_mul_of_nonneg_left two_pow_57 (by norm_num)
  · have h := icon_jump_high ⟨lgK - 14, by omega⟩
    simp only [show lgK - 14 + 14 = lgK by omega] at h
    have h' : ((2 * evalQ (iconG lgK) (14 / 5) / (10 ^ 23 * 66774757) : ℚ) : ℝ) <
        ((7940236163830469 / 10 ^ 16 * (485029301 / 10 ^ 7) : ℚ) : ℝ) := by exact_mod_cast h
    push_cast [evalQ_cast] at h'
    rw [show (5.6 : ℝ) / 2 = 14 / 5 by norm_num]
    refine lt_of_lt_of_le h' ?_
    rw [show (0.7940236163830469 : ℝ) = 7940236163830469 / 10 ^ 16 by norm_num]
    exact mul_le_mul_of_nonneg_left two_pow_56 (by norm_num)

/-! ## The estimate as a function of `r = c / k` -/

theorem two_pow_ge {r : ℝ} (h : 5 ≤ r) : 2 * r ≤ 2 ^ r := by
  have h1 : (2 : ℝ) ^ r = 2 ^ (5 : ℝ) * 2 ^ (r - 5) := by
    rw [← Real.rpow_add (by norm_num)]; congr 1; ring
  have h2 : (2 : ℝ) ^ (5 : ℝ) = 32 := by
    rw [show (5 : ℝ) = ((5 : Nat) : ℝ) by norm_num, Real.rpow_natCast]; norm_num
  have h3 : 1 + (r - 5) * Real.log 2 ≤ (2 : ℝ) ^ (r - 5) := by
    rw [Real.rpow_def_of_pos (by norm_num), mul_comm (Real.log 2)]
    have := Real.add_one_le_exp ((r - 5) * Real.log 2)
    linarith
  have h4 : (1 : ℝ) / 2 ≤ Real.log 2 := by
    have := Real.log_two_gt_d9
    norm_num at this ⊢
    linarith
  have h5 : (r - 5) * (1 / 2) ≤ (r - 5) * Real.log 2 :=
    mul_le_mul_of_nonneg_left h4 (by linarith)
  rw [h1, h2]
  linarith

/-- the estimate, divided by `k` -/
noncomputable def iconR (lgK : Nat) (r : ℝ) : ℝ :=
  if r > iconThreshold lgK then 0.7940236163830469 * 2 ^ r else max r (iconF lgK r)

theorem iconR_ge (lgK : Nat) (r : ℝ) : r ≤ iconR lgK r := by
  unfold iconR
  split
  · rename_i h
    have h5 := (iconThreshold_bounds lgK).1
    have := two_pow_ge (r := r) (by linarith)
    have : 0.7940236163830469 * (2 * r) ≤ 0.7940236163830469 * 2 ^ r :=
      mul_le_mul_of_nonneg_left this (by norm_num)
    norm_num at this ⊢
    linarith
  · exact le_max_left _ _

theorem iconR_lt {lgK : Nat} (h4 : 4 ≤ lgK) (h26 : lgK ≤ 26) {s t : ℝ} (h0 : 0 ≤ s) (hst : s < t) :
    iconR lgK s < iconR lgK t := by
  have hT := iconThreshold_bounds lgK
  have hexp : ∀ {a b : ℝ}, a < b → (0.7940236163830469 : ℝ) * 2 ^ a < 0.7940236163830469 * 2 ^ b := by
    intro a b hab
    exact mul_lt_mul_of_pos_left (Real.rpow_lt_rpow_of_exponent_lt (by norm_num) hab) (by norm_num)
  unfold iconR
  by_cases hs : s > iconThreshold lgK
  · rw [if_pos hs, if_pos (lt_trans hs hst)]
    exact hexp hst
  · rw [if_neg hs]
    rw [gt_iff_lt, not_lt] at hs
    by_cases ht : t > iconThreshold lgK
    · rw [if_pos ht]
      refine lt_trans (lt_of_le_of_lt (b := max (iconThreshold lgK) (iconF lgK (iconThreshold lgK)))
        ?_ ?_) (hexp ht)
      · apply max_le_max hs
        rcases hs.eq_or_lt with e | h
        · rw [e]
        · exact (iconF_lt h4 h26 h0 h hT.2).le
      · apply max_lt _ (icon_jump h4 h26)
        have := two_pow_ge hT.1
        have : 0.7940236163830469 * (2 * iconThreshold lgK) ≤
            0.7940236163830469 * 2 ^ iconThreshold lgK := mul_le_mul_of_nonneg_left this (by norm_num)
        norm_num at this ⊢
        linarith
    · rw [if_neg ht]
      rw [gt_iff_lt, not_lt] at ht
      exact max_lt_max hst (iconF_lt h4 h26 h0 hst (le_trans ht hT.2))

/-! ## The estimate of the code -/

theorem iconEstimate_eq {lgK : Nat} (h4 : 4 ≤ lgK) (h26 : lgK ≤ 26) {c : Nat} (hc : 2 ≤ c) :
    iconEstimate lgK c = .ok (2 ^ lgK * iconR lgK (c / 2 ^ lgK)) := by
  have hk : (0 : ℝ) < 2 ^ lgK := by positivity
  have hiff : (c : ℝ) > iconThreshold lgK * 2 ^ lgK ↔ (c : ℝ) / 2 ^ lgK > iconThreshold lgK := by
    rw [gt_iff_lt, gt_iff_lt, lt_div_iff₀ hk]
  unfold iconEstimate iconR
  rw [if_neg (by omega), if_neg (by omega)]
  by_cases h : (c : ℝ) > iconThreshold lgK * 2 ^ lgK
  · rw [if_pos h, if_pos (hiff.mp h)]
    unfold iconExponential
    congr 1
    ring
  · rw [if_neg h, if_neg (fun h' => h (hiff.mpr h'))]
    unfold iconPolynomial
    rw [if_neg (by omega), evaluatePolynomial_eq h4 h26, Outcome.ok_bind, iconFinish_eq hk,
      mul_max_of_nonneg _ _ hk.le]
    congr 2
    field_simp

/-- the value of the estimate -/
noncomputable def iconVal (lgK c : Nat) : ℝ :=
  if c < 2 then c else 2 ^ lgK * iconR lgK (c / 2 ^ lgK)

theorem iconEstimate_val {lgK : Nat} (h4 : 4 ≤ lgK) (h26 : lgK ≤ 26) (c : Nat) :
    iconEstimate lgK c = .ok (iconVal lgK c) := by
  unfold iconVal
  split
  · rename_i h
    have : c = 0 ∨ c = 1 := by omega
    rcases this with rfl | rfl <;> simp [iconEstimate]
  · exact iconEstimate_eq h4 h26 (by omega)

theorem iconVal_ge (lgK c : Nat) : (c : ℝ) ≤ iconVal lgK c := by
  unfold iconVal
  split
  · exact le_rfl
  · have hk : (0 : ℝ) < 2 ^ lgK := by positivity
    have := mul_le_mul_of_nonneg_left (iconR_ge lgK (c / 2 ^ lgK)) hk.le
    rwa [mul_div_cancel₀ _ hk.ne'] at this

theorem iconVal_lt {lgK : Nat} (h4 : 4 ≤ lgK) (h26 : lgK ≤ 26) {c d : Nat} (h : c < d) :
    iconVal lgK c < iconVal lgK d := by
  have hd := iconVal_ge lgK d
  have hcd : (c : ℝ) < d := by exact_mod_cast h
  by_cases hc : c < 2
  · refine lt_of_lt_of_le ?_ hd
    unfold iconVal
    rwa [if_pos hc]
  · unfold iconVal
    rw [if_neg hc, if_neg (by omega)]
    have hk : (0 : ℝ) < 2 ^ lgK := by positivity
    exact mul_lt_mul_of_pos_left (iconR_lt h4 h26 (by positivity) (div_lt_div_of_pos_right hcd hk)) hk

end Verif.Cpc
