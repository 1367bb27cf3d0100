import Verif.HllHipStep
import Verif.HllInterp

/-!
# The running estimate is at least the number of slots hit
-/

namespace Verif.Hll

open Finset

theorem est_ge {n : Nat} (h : n < 10200000) : (n : ℚ) ≤ hipFl.est n := by
  obtain ⟨e, h1, h2⟩ := couponEst_ok h
  show (n : ℚ) ≤ (match couponEst n with | .ok e => e | _ => 0)
  rw [h1]
  exact h2

/-- registers that are not zero -/
def hits (R : List Nat) : Nat := R.length - R.count 0

theorem hits_set {R : List Nat} {j v : Nat} : hits (R.set j v) ≤ hits R + 1 := by
  unfold hits
  rw [List.length_set]
  have : R.count 0 ≤ (R.set j v).count 0 + 1 := by
    by_cases hj : j < R.length
    · rw [List.count_set hj]
      split <;> split <;> omega
    · rw [List.set_eq_of_length_le (by omega)]; omega
  have := List.count_le_length (l := R) (a := 0)
  omega

theorem harm_two (R : List Nat) (h : R ≠ []) : (1 : ℝ) ≤ R.length / harm R :=
  (one_le_div (harm_pos h)).mpr (harm_le R)

theorem total_harm {S : Regs ℚ} (ht : S.Total) (h63 : ∀ v ∈ S.R, v ≤ 63) :
    (((((S.kxq0 + S.kxq1 : Int) : ℚ) / 2 ^ 63 : ℚ)) : ℝ) = harm S.R := by
  rw [← cast_sum S.R h63, ← ht]
  push_cast
  rfl

theorem hip_ge_step {S : Regs ℚ} {lgK : Nat} (hlen : S.R.length = 2 ^ lgK) (ht : S.Total)
    (h63 : ∀ v ∈ S.R, v ≤ 63) (h : ((hits S.R : Nat) : ℚ) ≤ S.hip) (j v : Nat) :
    ((hits (S.step hipFl lgK j v).R : Nat) : ℚ) ≤ (S.step hipFl lgK j v).hip := by
  unfold Regs.step
  split
  · show ((hits (S.R.set j v) : Nat) : ℚ) ≤ S.hip + 2 ^ lgK / (((S.kxq0 + S.kxq1 : Int) : ℚ) / 2 ^ 63)
    have h1 : ((hits (S.R.set j v) : Nat) : ℚ) ≤ hits S.R + 1 := by exact_mod_cast hits_set
    have hne : S.R ≠ [] := by
      intro h0
      rw [h0, List.length_nil] at hlen
      have := Nat.two_pow_pos lgK
      omega
    have h2 := harm_two S.R hne
    rw [← total_harm ht h63, hlen] at h2
    have h3 : (1 : ℚ) ≤ 2 ^ lgK / (((S.kxq0 + S.kxq1 : Int) : ℚ) / 2 ^ 63) := by
      have h4 : ((1 : ℚ) : ℝ) ≤ ((2 ^ lgK / (((S.kxq0 + S.kxq1 : Int) : ℚ) / 2 ^ 63) : ℚ) : ℝ) := by
        push_cast at h2 ⊢
        exact h2
      exact_mod_cast h4
    linarith
  · exact h

theorem regsOf_le63 {lgK : Nat} {cs : List Nat} (hv : ∀ c ∈ cs, ValidCoupon c) :
    ∀ v ∈ regsOf lgK cs, v ≤ 63 := by
  intro v hm
  unfold regsOf at hm
  obtain ⟨j, _, rfl⟩ := List.mem_map.mp hm
  rw [regOf_le]
  intro c hc _
  have := (hv c hc).2
  omega

theorem hits_regsOf (lgK : Nat) (cs : List Nat) : hits (regsOf lgK cs) ≤ distinct cs := by
  have := regsOf_zeros lgK cs
  unfold hits
  rw [regsOf_length]
  omega

theorem keeps_small {lgK n : Nat} (h21 : lgK ≤ 21) (h : Keeps lgK n) : n < 200000 := by
  unfold Keeps at h
  have : (2 : Nat) ^ (lgK - 3) ≤ 2 ^ 18 := Nat.pow_le_pow_right (by omega) (by omega)
  omega

/-- The running estimate of a streamed sketch is at least the number of slots hit. -/
theorem absOf_hip {lgK : Nat} (h21 : lgK ≤ 21) (cs : List Nat) (hv : ∀ c ∈ cs, ValidCoupon c)
    {S : Regs ℚ} (h : absOf hipFl lgK cs = .hll S) : ((hits S.R : Nat) : ℚ) ≤ S.hip := by
  induction cs using List.reverseRecOn generalizing S with
  | nil => cases h
  | append_singleton cs x ih =>
    have hvc : ∀ c ∈ cs, ValidCoupon c := fun c hc => hv c (by simp [hc])
    have hof := absOf_of hipFl lgK cs
    have hmode := absOf_mode hipFl lgK cs
    rw [absOf_append] at h
    cases hA : absOf hipFl lgK cs with
    | coup D =>
      rw [hA] at h hof hmode
      have hmode : D.length = distinct cs ∧ Keeps lgK (distinct cs) := hmode
      unfold AbsSk.step at h
      simp only at h
      by_cases hx : x ∈ D
      · rw [if_pos hx] at h; cases h
      · rw [if_neg hx] at h
        by_cases hk : Keeps lgK (D.length + 1)
        · rw [if_pos hk] at h; cases h
        · rw [if_neg hk] at h
          cases h
          have hsm := keeps_small h21 hmode.2
          have h1 := est_ge (n := (D ++ [x]).length) (by simp; omega)
          have h2 : hits (regsOf lgK (D ++ [x])) ≤ (D ++ [x]).length := by
            refine le_trans (hits_regsOf _ _) ?_
            unfold distinct
            exact (List.dedup_sublist _).length_le
          show ((hits (regsOf lgK (D ++ [x])) : Nat) : ℚ) ≤ hipFl.est (D ++ [x]).length
          have h3 : ((hits (regsOf lgK (D ++ [x])) : Nat) : ℚ) ≤ ((D ++ [x]).length : Nat) := by
            exact_mod_cast h2
          linarith
    | hll T =>
      rw [hA] at h hof hmode
      have hmode : ¬ Keeps lgK (distinct cs) ∧ T.Exact := hmode
      have hR : T.R = regsOf lgK cs := hof
      cases h
      exact hip_ge_step (by rw [hR, regsOf_length]) hmode.2.total
        (by rw [hR]; exact regsOf_le63 hvc) (ih hvc hA) _ _

end Verif.Hll
