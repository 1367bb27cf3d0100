import Verif.CpcProps

/-!
# The expected number of cells hit by random items
-/

namespace Verif.Cpc

/-- the mean, over all sequences of `n` further hashes, of the number of cells hit -/
def meanCells (lgK : Nat) : Nat → List Hash → ℚ
  | 0, hs => cells lgK hs
  | n + 1, hs => mean fun p => meanCells lgK n (p :: hs)

/-- the probability of column `c` -/
def colProb (c : Nat) : ℚ := invPow2 (c + 1) + if c = 63 then invPow2 64 else 0

theorem mean_sum {ι : Type} (s : Finset ι) (f : ι → BitVec 64 × BitVec 64 → ℚ) :
    mean (fun p => ∑ i ∈ s, f i p) = ∑ i ∈ s, mean (f i) := by
  classical
  induction s using Finset.induction_on with
  | empty => simpa using mean_const 0
  | insert a s ha ih =>
    rw [Finset.sum_insert ha, ← ih, ← mean_add]
    congr 1
    funext p
    rw [Finset.sum_insert ha]

theorem mean_hit {lgK : Nat} (h : lgK ≤ 64) {r c : Nat} (hr : r < 2 ^ lgK) (hc : c < 64) (a : ℚ) :
    mean (fun p => if coupon lgK p = 64 * r + c then a else 0) = colProb c / 2 ^ lgK * a := by
  rw [mean_coupon h (fun y => if y = 64 * r + c then a else 0)]
  rw [Finset.sum_eq_single r, Finset.sum_eq_single c]
  · rw [if_pos rfl]
    unfold colProb
    ring
  · intro c' hc' hne
    rw [if_neg (show ¬ 64 * r + c' = 64 * r + c by omega), mul_zero]
  · intro h'; exact absurd (Finset.mem_range.mpr hc) h'
  · intro r' _ hne
    apply Finset.sum_eq_zero
    intro c' hc'
    rw [Finset.mem_range] at hc'
    rw [if_neg (show ¬ 64 * r' + c' = 64 * r + c by omega), mul_zero]
  · intro h'; exact absurd (Finset.mem_range.mpr hr) h'

theorem mean_cell {lgK : Nat} (h : lgK ≤ 64) {r c : Nat} (hr : r < 2 ^ lgK) (hc : c < 64)
    (S : Finset Nat) (a : ℚ) :
    mean (fun p => 1 - if 64 * r + c ∈ insert (coupon lgK p) S then 0 else a) =
      1 - if 64 * r + c ∈ S then 0 else (1 - colProb c / 2 ^ lgK) * a := by
  by_cases hx : 64 * r + c ∈ S
  · simp only [Finset.mem_insert, hx, or_true, if_true]
    exact mean_const _
  · have e : (fun p => (1 : ℚ) - if 64 * r + c ∈ insert (coupon lgK p) S then 0 else a) =
        fun p => (1 - a) + if coupon lgK p = 64 * r + c then a else 0 := by
      funext p
      by_cases he : coupon lgK p = 64 * r + c
      · rw [if_pos he, if_pos (by rw [he]; exact Finset.mem_insert_self _ _)]; ring
      · rw [if_neg he, if_neg (by
          rw [Finset.mem_insert, not_or]; exact ⟨fun h' => he h'.symm, hx⟩)]
        ring
    rw [e, mean_add, mean_const, mean_hit h hr hc, if_neg hx]
    ring

theorem card_cells {lgK : Nat} {S : Finset Nat} (hS : ∀ x ∈ S, x < 64 * 2 ^ lgK) :
    (S.card : ℚ) = ∑ r ∈ Finset.range (2 ^ lgK), ∑ c ∈ Finset.range 64,
      (1 - if 64 * r + c ∈ S then 0 else (1 : ℚ)) := by
  classical
  have h1 : (S.card : ℚ) = ∑ x ∈ S, (1 : ℚ) := by simp
  have h2 : ∑ x ∈ S, (1 : ℚ) = ∑ x ∈ Finset.range (2 ^ lgK) ×ˢ Finset.range 64,
      if 64 * x.1 + x.2 ∈ S then (1 : ℚ) else 0 := by
    rw [← Finset.sum_filter]
    symm
    apply Finset.sum_bij (fun x _ => 64 * x.1 + x.2)
    · intro x hx
      exact (Finset.mem_filter.mp hx).2
    · intro x hx y hy he
      have := (Finset.mem_product.mp (Finset.mem_filter.mp hx).1).2
      have := (Finset.mem_product.mp (Finset.mem_filter.mp hy).1).2
      rw [Finset.mem_range] at *
      have he : 64 * x.1 + x.2 = 64 * y.1 + y.2 := he
      exact Prod.ext (by omega) (by omega)
    · intro y hy
      have := hS y hy
      refine ⟨(y / 64, y % 64), ?_, by simp only; omega⟩
      rw [Finset.mem_filter, Finset.mem_product, Finset.mem_range, Finset.mem_range]
      refine ⟨⟨by simp only; omega, by simp only; omega⟩, ?_⟩
      simp only
      rwa [show 64 * (y / 64) + y % 64 = y by omega]
    · intro _ _; rfl
  rw [h1, h2, Finset.sum_product]
  apply Finset.sum_congr rfl
  intro r _
  apply Finset.sum_congr rfl
  intro c _
  split <;> ring

theorem meanCells_eq {lgK : Nat} (h : lgK ≤ 64) : ∀ (n : Nat) (hs : List Hash),
    meanCells lgK n hs = ∑ r ∈ Finset.range (2 ^ lgK), ∑ c ∈ Finset.range 64,
      (1 - if 64 * r + c ∈ coupons lgK hs then 0 else (1 - colProb c / 2 ^ lgK) ^ n) := by
  intro n
  induction n with
  | zero =>
    intro hs
    have hS : ∀ x ∈ coupons lgK hs, x < 64 * 2 ^ lgK := by
      intro x hx
      unfold coupons at hx
      rw [List.mem_toFinset, List.mem_map] at hx
      obtain ⟨p, _, rfl⟩ := hx
      exact coupon_lt lgK p
    rw [meanCells, cells_eq, card_cells hS]
    simp
  | succ n ih =>
    intro hs
    rw [meanCells]
    have e : (fun p => meanCells lgK n (p :: hs)) = fun p =>
        ∑ r ∈ Finset.range (2 ^ lgK), ∑ c ∈ Finset.range 64,
          (1 - if 64 * r + c ∈ insert (coupon lgK p) (coupons lgK hs) then 0
            else (1 - colProb c / 2 ^ lgK) ^ n) := by
      funext p
      rw [ih, coupons_cons]
    rw [e, mean_sum]
    apply Finset.sum_congr rfl
    intro r hr
    rw [mean_sum]
    apply Finset.sum_congr rfl
    intro c hc
    rw [mean_cell h (Finset.mem_range.mp hr) (Finset.mem_range.mp hc), pow_succ']

/-- The mean for a new sketch. -/
theorem meanCells_new {lgK : Nat} (h : lgK ≤ 64) (n : Nat) :
    meanCells lgK n [] = 2 ^ lgK * (∑ c ∈ Finset.range 63, (1 - (1 - 1 / 2 ^ (c + 1) / 2 ^ lgK) ^ n) +
      (1 - (1 - 1 / 2 ^ 63 / 2 ^ lgK) ^ n)) := by
  rw [meanCells_eq h]
  have h0 : coupons lgK [] = ∅ := by simp [coupons]
  simp only [h0, Finset.notMem_empty, if_false]
  rw [Finset.sum_const, Finset.card_range, nsmul_eq_mul]
  push_cast
  congr 1
  rw [Finset.sum_range_succ]
  congr 1
  · apply Finset.sum_congr rfl
    intro c hc
    rw [Finset.mem_range] at hc
    unfold colProb invPow2
    rw [if_neg (by omega), add_zero]
  · unfold colProb invPow2
    rw [if_pos rfl]
    norm_num

end Verif.Cpc
