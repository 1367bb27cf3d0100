import Verif.CpcIcon

/-!
# Bounds of CPC sketches: relative errors and order
-/

namespace Verif.Cpc

/-! ## The relative errors -/

theorem highSide_length (hip : Bool) : (highSide hip).length = 33 := by cases hip <;> rfl

theorem highSide_ok : ∀ (hip : Bool) (i : Fin 11),
    0 < (highSide hip).getD (3 * i.val) 0 ∧
    (highSide hip).getD (3 * i.val) 0 < 2 * (highSide hip).getD (3 * i.val + 1) 0 ∧
    2 * (highSide hip).getD (3 * i.val + 1) 0 < 3 * (highSide hip).getD (3 * i.val + 2) 0 ∧
    3 * (highSide hip).getD (3 * i.val + 2) 0 < 40000 := by
  decide +kernel

/-- the factor -/
noncomputable def facOf (hip : Bool) (lgK d : Nat) : ℝ :=
  if lgK ≤ 14 then (((highSide hip).getD (3 * (lgK - 4) + (d - 1)) 0 : Nat) : ℝ) / 10000
  else errConst hip

theorem errFactor_ok (hip : Bool) {lgK d : Nat} (h4 : 4 ≤ lgK) (h1 : 1 ≤ d) (h3 : d ≤ 3) :
    errFactor hip lgK d = .ok (facOf hip lgK d) := by
  unfold errFactor facOf
  split
  · rw [if_neg (by omega),
      show (3 * ((lgK : Int) - 4) + ((d : Int) - 1)).toNat = 3 * (lgK - 4) + (d - 1) by omega]
    have hlt : 3 * (lgK - 4) + (d - 1) < (highSide hip).length := by rw [highSide_length]; omega
    rw [List.getElem?_eq_getElem hlt, Outcome.ofOption_some, Outcome.ok_bind,
      List.getD_eq_getElem?_getD, List.getElem?_eq_getElem hlt, Option.getD_some]
  · rfl

theorem errConst_bounds (hip : Bool) : 0 < errConst hip ∧ errConst hip < 1 := by
  have h1 := Real.log_two_gt_d9
  have h2 := Real.log_two_lt_d9
  norm_num at h1 h2
  unfold errConst
  cases hip
  · rw [if_neg (by simp)]
    exact ⟨by linarith, by linarith⟩
  · rw [if_pos rfl]
    refine ⟨Real.sqrt_pos.mpr (by linarith), ?_⟩
    rw [Real.sqrt_lt' (by norm_num)]
    linarith

/-- `eps` -/
noncomputable def epsOf (hip : Bool) (lgK d : Nat) : ℝ :=
  (d : ℝ) * (facOf hip lgK d / Real.sqrt (2 ^ lgK))

theorem relEps_ok (hip : Bool) {lgK d : Nat} (h4 : 4 ≤ lgK) (h1 : 1 ≤ d) (h3 : d ≤ 3) :
    relEps hip lgK d = .ok (epsOf hip lgK d) := by
  unfold relEps epsOf
  rw [errFactor_ok hip h4 h1 h3, Outcome.ok_bind]
  push_cast
  rfl

theorem sqrt_ge {lgK : Nat} (h4 : 4 ≤ lgK) : 4 ≤ Real.sqrt (2 ^ lgK) := by
  apply Real.le_sqrt_of_sq_le
  calc ((4 : ℝ) ^ 2) = 2 ^ 4 := by norm_num
    _ ≤ 2 ^ lgK := pow_le_pow_right₀ (by norm_num) h4

/-- `d` times the factor: positive, growing, less than 4 -/
theorem fac_chain (hip : Bool) {lgK : Nat} (h4 : 4 ≤ lgK) :
    0 < facOf hip lgK 1 ∧ facOf hip lgK 1 < 2 * facOf hip lgK 2 ∧
      2 * facOf hip lgK 2 < 3 * facOf hip lgK 3 ∧ 3 * facOf hip lgK 3 < 4 := by
  unfold facOf
  by_cases h : lgK ≤ 14
  · simp only [if_pos h]
    obtain ⟨a, b, c, d⟩ := highSide_ok hip ⟨lgK - 4, by omega⟩
    simp only at a b c d
    rw [show 3 * (lgK - 4) + (1 - 1) = 3 * (lgK - 4) by omega]
    generalize (highSide hip).getD (3 * (lgK - 4)) 0 = x at *
    rw [show 3 * (lgK - 4) + (2 - 1) = 3 * (lgK - 4) + 1 by omega,
      show 3 * (lgK - 4) + (3 - 1) = 3 * (lgK - 4) + 2 by omega]
    generalize (highSide hip).getD (3 * (lgK - 4) + 1) 0 = y at *
    generalize (highSide hip).getD (3 * (lgK - 4) + 2) 0 = z at *
    have a' : (0 : ℝ) < x := by exact_mod_cast a
    have b' : (x : ℝ) < 2 * y := by exact_mod_cast b
    have c' : 2 * (y : ℝ) < 3 * z := by exact_mod_cast c
    have d' : 3 * (z : ℝ) < 40000 := by exact_mod_cast d
    refine ⟨by positivity, by linarith, by linarith, by linarith⟩
  · simp only [if_neg h]
    have := errConst_bounds hip
    exact ⟨this.1, by linarith, by linarith, by linarith⟩

theorem epsOf_chain (hip : Bool) {lgK : Nat} (h4 : 4 ≤ lgK) :
    0 < epsOf hip lgK 1 ∧ epsOf hip lgK 1 < epsOf hip lgK 2 ∧ epsOf hip lgK 2 < epsOf hip lgK 3 ∧
      epsOf hip lgK 3 < 1 := by
  obtain ⟨a, b, c, d⟩ := fac_chain hip h4
  have hs := sqrt_ge h4
  have hp : 0 < Real.sqrt (2 ^ lgK) := by linarith
  have e : ∀ i : Nat, epsOf hip lgK i = (i : ℝ) * facOf hip lgK i / Real.sqrt (2 ^ lgK) := by
    intro i; unfold epsOf; ring
  rw [e, e, e]
  push_cast
  refine ⟨by positivity, ?_, ?_, ?_⟩
  · exact div_lt_div_of_pos_right (by linarith) hp
  · exact div_lt_div_of_pos_right c hp
  · rw [div_lt_one hp]; linarith

theorem epsOf_bounds (hip : Bool) {lgK d : Nat} (h4 : 4 ≤ lgK) (h1 : 1 ≤ d) (h3 : d ≤ 3) :
    0 < epsOf hip lgK d ∧ epsOf hip lgK d < 1 := by
  obtain ⟨a, b, c, e⟩ := epsOf_chain hip h4
  have : d = 1 ∨ d = 2 ∨ d = 3 := by omega
  rcases this with rfl | rfl | rfl
  · exact ⟨a, by linarith⟩
  · exact ⟨by linarith, by linarith⟩
  · exact ⟨by linarith, e⟩

theorem epsOf_mono (hip : Bool) {lgK d d' : Nat} (h4 : 4 ≤ lgK) (h1 : 1 ≤ d) (hd : d ≤ d')
    (h3 : d' ≤ 3) : epsOf hip lgK d ≤ epsOf hip lgK d' := by
  obtain ⟨a, b, c, e⟩ := epsOf_chain hip h4
  have : (d = 1 ∨ d = 2 ∨ d = 3) ∧ (d' = 1 ∨ d' = 2 ∨ d' = 3) := by omega
  rcases this with ⟨rfl | rfl | rfl, rfl | rfl | rfl⟩ <;> first | omega | linarith

/-! ## Order of the bounds -/

theorem lbOf_eq (num : Nat) (est eps : ℝ) : lbOf num est eps = max (num : ℝ) (est / (1 + eps)) := by
  unfold lbOf
  split
  · rename_i h; exact (max_eq_left h.le).symm
  · rename_i h; exact (max_eq_right (not_lt.mp h)).symm

theorem bounds_order {num : Nat} {est eps : ℝ} (hn : (num : ℝ) ≤ est) (h0 : 0 < eps) (h1 : eps < 1) :
    (num : ℝ) ≤ lbOf num est eps ∧ lbOf num est eps ≤ est ∧ est ≤ ubOf est eps := by
  have hest : 0 ≤ est := le_trans (Nat.cast_nonneg _) hn
  rw [lbOf_eq]
  refine ⟨le_max_left _ _, max_le hn (div_le_self hest (by linarith)), ?_⟩
  refine le_trans ?_ (Int.le_ceil _)
  rw [le_div_iff₀ (by linarith)]
  nlinarith

theorem bounds_wider {num : Nat} {est eps eps' : ℝ} (hest : 0 ≤ est) (h0 : 0 < eps) (hle : eps ≤ eps')
    (h1 : eps' < 1) : lbOf num est eps' ≤ lbOf num est eps ∧ ubOf est eps ≤ ubOf est eps' := by
  rw [lbOf_eq, lbOf_eq]
  refine ⟨max_le_max le_rfl (div_le_div_of_nonneg_left hest (by linarith) (by linarith)), ?_⟩
  unfold ubOf
  exact_mod_cast Int.ceil_le_ceil (div_le_div_of_nonneg_left hest (by linarith) (by linarith))

end Verif.Cpc
