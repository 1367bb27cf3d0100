import Verif.HllEstModel

/-!
# The running (HIP) estimate of an HLL sketch under a random hash
-/

namespace Verif.Hll

open Finset

/-- the mean of `f` over all pairs of 64-bit words -/
noncomputable def meanHash (f : Nat × Nat → ℝ) : ℝ :=
  (∑ lo ∈ range (2 ^ 64), ∑ hi ∈ range (2 ^ 64), f (lo, hi)) / 2 ^ 128

theorem meanHash_add (f g : Nat × Nat → ℝ) :
    meanHash (fun p => f p + g p) = meanHash f + meanHash g := by
  unfold meanHash
  simp only [sum_add_distrib]
  ring

theorem meanHash_mul (a : ℝ) (f : Nat × Nat → ℝ) :
    meanHash (fun p => a * f p) = a * meanHash f := by
  unfold meanHash
  simp only [← mul_sum]
  ring

theorem meanHash_const (a : ℝ) : meanHash (fun _ => a) = a := by
  unfold meanHash
  rw [sum_const, sum_const, card_range, nsmul_eq_mul, nsmul_eq_mul]
  have h : ((2 ^ 64 : Nat) : ℝ) = 2 ^ 64 := by norm_num
  rw [h, ← mul_assoc, show (2 : ℝ) ^ 64 * 2 ^ 64 = 2 ^ 128 by rw [← pow_add]]
  have h2 : (2 : ℝ) ^ 128 ≠ 0 := by positivity
  generalize (2 : ℝ) ^ 128 = N at *
  field_simp

theorem meanHash_mono {f g : Nat × Nat → ℝ}
    (h : ∀ lo hi, lo < 2 ^ 64 → hi < 2 ^ 64 → f (lo, hi) ≤ g (lo, hi)) : meanHash f ≤ meanHash g := by
  unfold meanHash
  apply div_le_div_of_nonneg_right
  · exact sum_le_sum fun a ha => sum_le_sum fun b hb =>
      h a b (mem_range.mp ha) (mem_range.mp hb)
  · positivity

theorem meanHash_congr {f g : Nat × Nat → ℝ}
    (h : ∀ lo hi, lo < 2 ^ 64 → hi < 2 ^ 64 → f (lo, hi) = g (lo, hi)) : meanHash f = meanHash g := by
  unfold meanHash
  rw [sum_congr rfl fun a ha => sum_congr rfl fun b hb =>
      h a b (mem_range.mp ha) (mem_range.mp hb)]

/-! ## Coupons of random hashes -/

/-- the value in the coupon -/
def vOf (hi : Nat) : Nat := min (lz64 hi) 62 + 1

theorem coupon_eq (lo hi : Nat) : coupon lo hi = vOf hi * 2 ^ 26 + lo % 2 ^ 26 := by
  unfold coupon vOf
  have hm : lo &&& (2 ^ 26 - 1) < 2 ^ 26 := by
    rw [Nat.and_two_pow_sub_one_eq_mod]; exact Nat.mod_lt _ (by omega)
  rw [← Nat.shiftLeft_add_eq_or_of_lt hm, Nat.shiftLeft_eq, Nat.and_two_pow_sub_one_eq_mod]

theorem coupon_val (lo hi : Nat) : coupon lo hi / 2 ^ 26 = vOf hi := by
  rw [coupon_eq]
  have := Nat.mod_lt lo (show 0 < 2 ^ 26 by norm_num)
  omega

theorem coupon_slot {lgK : Nat} (h : lgK ≤ 26) (lo hi : Nat) :
    coupon lo hi % 2 ^ lgK = lo % 2 ^ lgK := by
  rw [coupon_eq]
  have h1 : (2 : Nat) ^ lgK ∣ 2 ^ 26 := pow_dvd_pow 2 h
  obtain ⟨q, hq⟩ := h1
  have h2 : vOf hi * 2 ^ 26 = 2 ^ lgK * (vOf hi * q) := by rw [hq]; ring
  rw [h2, Nat.mul_add_mod, Nat.mod_mod_of_dvd _ ⟨q, hq⟩]

theorem vOf_le (hi : Nat) : vOf hi ≤ 63 := by unfold vOf; omega

theorem lt_vOf {hi r : Nat} (hr : r ≤ 62) : r < vOf hi ↔ hi < 2 ^ (64 - r) ∨ 2 ^ 64 ≤ hi ∧ r = 0 := by
  unfold vOf lz64
  by_cases h0 : hi = 0
  · subst h0
    rw [if_pos rfl]
    have := Nat.two_pow_pos (64 - r)
    constructor
    · intro _; exact Or.inl this
    · intro _; omega
  · rw [if_neg h0]
    have h1 := Nat.log2_lt h0 (k := 64 - r)
    by_cases hlt : hi < 2 ^ (64 - r)
    · have := h1.mpr hlt
      constructor
      · intro _; exact Or.inl hlt
      · intro _; omega
    · have h2 : ¬ hi.log2 < 64 - r := fun h => hlt (h1.mp h)
      constructor
      · intro h
        right
        have : r = 0 := by omega
        subst this
        exact ⟨by simpa using hlt, rfl⟩
      · rintro (h | ⟨_, h⟩)
        · exact absurd h hlt
        · omega

/-- the probability that a coupon has a value above `r` -/
noncomputable def above (r : Nat) : ℝ := if r ≤ 62 then 1 / 2 ^ r else 0

theorem sum_above {r : Nat} (hr : r ≤ 63) (c : ℝ) :
    ∑ hi ∈ range (2 ^ 64), (if vOf hi > r then c else 0) = 2 ^ 64 * above r * c := by
  unfold above
  by_cases h : r ≤ 62
  · rw [if_pos h]
    have h1 : ∀ hi ∈ range (2 ^ 64), (if vOf hi > r then c else 0) =
        if hi < 2 ^ (64 - r) then c else 0 := by
      intro hi hh
      rw [mem_range] at hh
      have := lt_vOf (hi := hi) h
      by_cases h2 : hi < 2 ^ (64 - r)
      · rw [if_pos h2, if_pos (this.mpr (Or.inl h2))]
      · rw [if_neg h2, if_neg]
        intro h3
        rcases this.mp h3 with h4 | h4
        · exact h2 h4
        · exact absurd h4.1 (by omega)
    rw [sum_congr rfl h1, ← sum_filter]
    have h2 : (range (2 ^ 64)).filter (fun hi => hi < 2 ^ (64 - r)) = range (2 ^ (64 - r)) := by
      ext hi
      rw [mem_filter, mem_range, mem_range]
      have : (2 : Nat) ^ (64 - r) ≤ 2 ^ 64 := Nat.pow_le_pow_right (by omega) (by omega)
      constructor
      · exact fun h => h.2
      · exact fun h => ⟨lt_of_lt_of_le h this, h⟩
    rw [h2, sum_const, card_range, nsmul_eq_mul]
    have h3 : (2 : ℝ) ^ 64 = 2 ^ (64 - r) * 2 ^ r := by rw [← pow_add]; congr 1; omega
    rw [h3]
    push_cast
    field_simp
  · rw [if_neg h]
    have h1 : ∀ hi ∈ range (2 ^ 64), (if vOf hi > r then c else 0) = 0 := by
      intro hi _
      rw [if_neg]
      have := vOf_le hi
      omega
    rw [sum_congr rfl h1]
    simp

theorem sum_mod (k : Nat) (g : Nat → ℝ) (q : Nat) :
    ∑ n ∈ range (q * k), g (n % k) = q * ∑ j ∈ range k, g j := by
  induction q with
  | zero => simp
  | succ q ih =>
    rw [Nat.succ_mul, sum_range_add, ih]
    have : ∀ j ∈ range k, g ((q * k + j) % k) = g j := by
      intro j hj
      rw [Nat.mul_comm, Nat.mul_add_mod, Nat.mod_eq_of_lt (mem_range.mp hj)]
    rw [sum_congr rfl this]
    push_cast
    ring

/-- the chance that a random item raises a register -/
theorem mean_raise {lgK : Nat} (h : lgK ≤ 26) (R : Nat → Nat) (hR : ∀ j, R j ≤ 63) (c : ℝ) :
    meanHash (fun p => if vOf p.2 > R (p.1 % 2 ^ lgK) then c else 0) =
      c / 2 ^ lgK * ∑ j ∈ range (2 ^ lgK), above (R j) := by
  unfold meanHash
  have h1 : ∀ lo ∈ range (2 ^ 64), ∑ hi ∈ range (2 ^ 64),
      (if vOf hi > R (lo % 2 ^ lgK) then c else 0) =
      (fun j => 2 ^ 64 * above (R j) * c) (lo % 2 ^ lgK) := by
    intro lo _
    exact sum_above (hR _) c
  have h2 : (2 : Nat) ^ 64 = 2 ^ (64 - lgK) * 2 ^ lgK := by rw [← pow_add]; congr 1; omega
  rw [sum_congr rfl h1]
  have h3 : range (2 ^ 64) = range (2 ^ (64 - lgK) * 2 ^ lgK) := by rw [← h2]
  rw [h3, sum_mod (2 ^ lgK) (fun j => 2 ^ 64 * above (R j) * c), ← sum_mul, ← mul_sum]
  have h4 : (2 : ℝ) ^ 128 = 2 ^ 64 * (2 ^ (64 - lgK) * 2 ^ lgK) := by
    rw [← pow_add, ← pow_add]; congr 1; omega
  rw [h4]
  push_cast
  have h5 : (2 : ℝ) ^ 64 ≠ 0 := by positivity
  have h6 : (2 : ℝ) ^ (64 - lgK) ≠ 0 := by positivity
  have h7 : (2 : ℝ) ^ lgK ≠ 0 := by positivity
  generalize (2 : ℝ) ^ 64 = A at *
  generalize (2 : ℝ) ^ (64 - lgK) = B at *
  generalize (2 : ℝ) ^ lgK = C at *
  field_simp

/-- the chance of a coupon of the largest value -/
theorem mean_top : meanHash (fun p => if vOf p.2 > 62 then 1 else 0) = 1 / 2 ^ 62 := by
  have := mean_raise (lgK := 0) (by omega) (fun _ => 62) (by omega) 1
  rw [this]
  simp [above]

end Verif.Hll
