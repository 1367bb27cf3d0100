import Mathlib.Analysis.SpecialFunctions.Pow.Real
import Mathlib.Analysis.SpecialFunctions.Log.Deriv
import Mathlib.Analysis.Calculus.Deriv.MeanValue
import Mathlib.Analysis.Calculus.Deriv.Inv
import Mathlib.Analysis.Complex.ExponentialBounds
import Mathlib.Analysis.Convex.SpecificFunctions.Basic

/-!
Lemmas for C105: with `k = ⌈t⌉` hash functions at `t / ln 2` bits per item, the textbook false positive rate
is at most 9/8 of `2^(-t)`.
-/

namespace Verif.Bloom

/-- `log` of `(1 - 2^(-u)) * 2^(1/u)` -/
noncomputable def gain (u : ℝ) : ℝ := Real.log (1 - Real.exp (-u * Real.log 2)) + Real.log 2 / u

theorem exp_lt_one {u : ℝ} (hu : 0 < u) : Real.exp (-u * Real.log 2) < 1 := by
  rw [Real.exp_lt_one_iff]
  have := Real.log_pos (by norm_num : (1 : ℝ) < 2)
  nlinarith

theorem gain_deriv {u : ℝ} (hu : 0 < u) :
    HasDerivAt gain ((-(Real.exp (-u * Real.log 2) * (-1 * Real.log 2))) / (1 - Real.exp (-u * Real.log 2))
      + Real.log 2 * (-(u ^ 2)⁻¹)) u := by
  have h1 : HasDerivAt (fun u : ℝ => -u * Real.log 2) (-1 * Real.log 2) u :=
    ((hasDerivAt_id u).neg).mul_const _
  have h2 := (h1.exp.const_sub 1).log (sub_pos.2 (exp_lt_one hu)).ne'
  have h3 := (hasDerivAt_inv hu.ne').const_mul (Real.log 2)
  have h4 := h2.add h3
  refine h4.congr_of_eventuallyEq ?_
  filter_upwards with x
  simp [gain, div_eq_mul_inv]

/-- `2^u ≤ 2u` for `1 ≤ u ≤ 2` -/
theorem two_pow_le {u : ℝ} (h1 : 1 ≤ u) (h2 : u ≤ 2) : Real.exp (u * Real.log 2) ≤ 2 * u := by
  have hc := convexOn_exp.2 (Set.mem_univ (Real.log 2)) (Set.mem_univ (2 * Real.log 2))
    (by linarith : 0 ≤ 2 - u) (by linarith : 0 ≤ u - 1) (by ring)
  simp only [smul_eq_mul] at hc
  have e1 : (2 - u) * Real.log 2 + (u - 1) * (2 * Real.log 2) = u * Real.log 2 := by ring
  have e2 : Real.exp (2 * Real.log 2) = 4 := by
    rw [two_mul, Real.exp_add, Real.exp_log (by norm_num)]; norm_num
  rw [e1, e2, Real.exp_log (by norm_num)] at hc
  linarith

theorem gain_mono : MonotoneOn gain (Set.Icc 1 2) := by
  refine monotoneOn_of_deriv_nonneg (convex_Icc _ _)
    (fun u hu => (gain_deriv (by linarith [hu.1])).continuousAt.continuousWithinAt)
    (fun u hu => ?_) (fun u hu => ?_)
  · rw [interior_Icc] at hu
    exact (gain_deriv (by linarith [hu.1])).differentiableAt.differentiableWithinAt
  · rw [interior_Icc] at hu
    have hu0 : 0 < u := by linarith [hu.1]
    rw [(gain_deriv hu0).deriv]
    have hL := Real.log_pos (by norm_num : (1 : ℝ) < 2)
    have hE := Real.exp_pos (-u * Real.log 2)
    have hE1 := exp_lt_one hu0
    have hp := two_pow_le hu.1.le hu.2.le
    have hm : Real.exp (u * Real.log 2) * Real.exp (-u * Real.log 2) = 1 := by
      rw [← Real.exp_add, show u * Real.log 2 + -u * Real.log 2 = 0 by ring, Real.exp_zero]
    set e := Real.exp (-u * Real.log 2) with he
    have hk : 1 - e ≤ u ^ 2 * e := by
      have : 1 ≤ 2 * u * e := by rw [← hm]; exact mul_le_mul_of_nonneg_right hp hE.le
      nlinarith [mul_nonneg (sq_nonneg (u - 1)) hE.le]
    have hk2 : (u ^ 2)⁻¹ ≤ e / (1 - e) := by
      rw [inv_eq_one_div, div_le_div_iff₀ (by positivity) (by linarith)]
      linarith
    have e1 : (-(e * (-1 * Real.log 2))) / (1 - e) + Real.log 2 * (-(u ^ 2)⁻¹)
        = Real.log 2 * (e / (1 - e) - (u ^ 2)⁻¹) := by ring
    rw [e1]
    exact mul_nonneg hL.le (by linarith)

/-- rate times `2^t` -/
noncomputable def ratio (k : Nat) (t : ℝ) : ℝ :=
  (1 - Real.exp (-(k / t) * Real.log 2)) ^ k * Real.exp (t * Real.log 2)

theorem ratio_eq {k : Nat} {t : ℝ} (hk : 1 ≤ k) (ht : 0 < t) :
    ratio k t = Real.exp (k * gain (k / t)) := by
  have hk0 : (0 : ℝ) < k := by exact_mod_cast hk
  have hp : 0 < 1 - Real.exp (-(k / t) * Real.log 2) := sub_pos.2 (exp_lt_one (by positivity))
  rw [ratio, gain, mul_add, Real.exp_add, Real.exp_nat_mul, show -((k : ℝ) / t) = -(k / t) from rfl, Real.exp_log hp]
  congr 2
  field_simp

theorem ratio_mono {k : Nat} {t s : ℝ} (hk : 1 ≤ k) (hs : (k : ℝ) / 2 ≤ s) (hst : s ≤ t) (ht : t ≤ k) :
    ratio k t ≤ ratio k s := by
  have hk0 : (0 : ℝ) < k := by exact_mod_cast hk
  have hs0 : 0 < s := by linarith
  have ht0 : 0 < t := by linarith
  rw [ratio_eq hk ht0, ratio_eq hk hs0]
  refine Real.exp_le_exp.2 (mul_le_mul_of_nonneg_left (gain_mono ?_ ?_ ?_) hk0.le)
  · exact ⟨by rw [le_div_iff₀ ht0]; linarith, by rw [div_le_iff₀ ht0]; linarith⟩
  · exact ⟨by rw [le_div_iff₀ hs0]; linarith, by rw [div_le_iff₀ hs0]; linarith⟩
  · exact div_le_div_of_nonneg_left hk0.le hs0 hst

theorem exp_nat (n : Nat) : Real.exp (n * Real.log 2) = 2 ^ n := by
  rw [mul_comm, Real.exp_mul, Real.exp_log (by norm_num), Real.rpow_natCast]

/-- a root of a power of two from below -/
theorem exp_ge {x a : ℝ} {i j : Nat} (hj : 0 < j) (hx : x = -(i / j : ℝ))
    (h : a ^ j * 2 ^ i ≤ 1) : a ≤ Real.exp (x * Real.log 2) := by
  refine le_of_pow_le_pow_left₀ hj.ne' (Real.exp_pos _).le ?_
  have hj0 : (j : ℝ) ≠ 0 := by exact_mod_cast hj.ne'
  rw [← Real.exp_nat_mul, hx, show (j : ℝ) * (-(i / j : ℝ) * Real.log 2) = -(i * Real.log 2) by field_simp,
    Real.exp_neg, exp_nat, inv_eq_one_div, le_div_iff₀ (by positivity)]
  exact h

theorem exp_le {x b : ℝ} {i j : Nat} (hj : 0 < j) (hb : 0 ≤ b) (hx : x = (i / j : ℝ))
    (h : 2 ^ i ≤ b ^ j) : Real.exp (x * Real.log 2) ≤ b := by
  refine le_of_pow_le_pow_left₀ hj.ne' hb ?_
  have hj0 : (j : ℝ) ≠ 0 := by exact_mod_cast hj.ne'
  rw [← Real.exp_nat_mul, hx, show (j : ℝ) * ((i / j : ℝ) * Real.log 2) = i * Real.log 2 by field_simp, exp_nat]
  exact h

/-- at `t = k - 1` -/
theorem ratio_end {k : Nat} {a : ℝ} (hk : 2 ≤ k) (h : a ^ (k - 1) * 2 ^ k ≤ 1)
    (hb : (1 - a) ^ k * 2 ^ (k - 1) ≤ 9 / 8) : ratio k ((k - 1 : Nat) : ℝ) ≤ 9 / 8 := by
  have h1 := exp_ge (x := -(k / ((k - 1 : Nat) : ℝ))) (by omega : 0 < k - 1) rfl h
  rw [ratio, exp_nat]
  refine le_trans (mul_le_mul_of_nonneg_right (pow_le_pow_left₀ ?_ (by linarith) _) (by positivity)) hb
  have hk0 : (0 : ℝ) < k := by exact_mod_cast (by omega : 0 < k)
  have hk1 : (0 : ℝ) < ((k - 1 : Nat) : ℝ) := by exact_mod_cast (by omega : 0 < k - 1)
  exact (sub_pos.2 (exp_lt_one (by positivity))).le

theorem ratio_small {k : Nat} {t : ℝ} (hk : 2 ≤ k) (hk6 : k ≤ 6) (h1 : (k : ℝ) - 1 ≤ t) (h2 : t ≤ k) :
    ratio k t ≤ 9 / 8 := by
  have hc : ((k - 1 : Nat) : ℝ) = (k : ℝ) - 1 := by
    rw [Nat.cast_sub (by omega)]; norm_num
  have hk2 : (2 : ℝ) ≤ k := by exact_mod_cast hk
  refine (ratio_mono (s := ((k - 1 : Nat) : ℝ)) (by omega) (by rw [hc]; linarith) (by rw [hc]; exact h1) h2).trans ?_
  have : k = 2 ∨ k = 3 ∨ k = 4 ∨ k = 5 ∨ k = 6 := by omega
  rcases this with rfl | rfl | rfl | rfl | rfl
  · exact ratio_end (a := 1 / 4) (by norm_num) (by norm_num) (by norm_num)
  · exact ratio_end (a := 0.35) (by norm_num) (by norm_num) (by norm_num)
  · exact ratio_end (a := 0.39) (by norm_num) (by norm_num) (by norm_num)
  · exact ratio_end (a := 0.416) (by norm_num) (by norm_num) (by norm_num)
  · exact ratio_end (a := 0.43) (by norm_num) (by norm_num) (by norm_num)

theorem ratio_large {k : Nat} {t : ℝ} (hk : 7 ≤ k) (h1 : (k : ℝ) - 1 ≤ t) (h2 : t ≤ k) : ratio k t ≤ 9 / 8 := by
  have hk0 : (7 : ℝ) ≤ k := by exact_mod_cast hk
  have ht : 0 < t := by linarith
  have hL := Real.log_pos (by norm_num : (1 : ℝ) < 2)
  set L := Real.log 2 with hLd
  -- 1 - 2^(-k/t) ≤ 1/2 * 2^((k-t)/t)
  have a1 : 1 - Real.exp (-(k / t) * L) ≤ Real.exp ((k / t - 2) * L) := by
    have e1 : Real.exp (-(k / t) * L) = 1 / 2 * Real.exp (-((k / t - 1) * L)) := by
      rw [show -(k / t) * L = -L + -((k / t - 1) * L) by ring, Real.exp_add, Real.exp_neg, hLd,
        Real.exp_log (by norm_num)]
      norm_num
    have e2 : Real.exp ((k / t - 2) * L) = 1 / 2 * Real.exp ((k / t - 1) * L) := by
      rw [show (k / t - 2) * L = -L + (k / t - 1) * L by ring, Real.exp_add, Real.exp_neg, hLd,
        Real.exp_log (by norm_num)]
      norm_num
    rw [e1, e2]
    have := Real.add_one_le_exp (-((k / t - 1) * L))
    have := Real.add_one_le_exp ((k / t - 1) * L)
    linarith
  have a0 : 0 ≤ 1 - Real.exp (-(k / t) * L) := (sub_pos.2 (exp_lt_one (by positivity))).le
  have a2 : ratio k t ≤ Real.exp ((k : ℝ) * ((k / t - 2) * L) + t * L) := by
    rw [ratio, Real.exp_add, Real.exp_nat_mul]
    exact mul_le_mul_of_nonneg_right (pow_le_pow_left₀ a0 a1 _) (Real.exp_pos _).le
  have a3 : (k : ℝ) * ((k / t - 2) * L) + t * L ≤ (1 / 6 : ℝ) * L := by
    have : (k : ℝ) * ((k / t - 2) * L) + t * L = ((k - t) ^ 2 / t) * L := by field_simp; ring
    rw [this]
    refine mul_le_mul_of_nonneg_right ?_ hL.le
    rw [div_le_iff₀ ht]
    nlinarith
  refine a2.trans ((Real.exp_le_exp.2 a3).trans ?_)
  exact exp_le (i := 1) (j := 6) (by norm_num) (by norm_num) (by norm_num) (by norm_num)

/-! ## one hash function -/

/-- `(i, b, a)`: `2^((i+1)/128) ≤ b/4096` and `a/4096 ≤ 2^(-128/i)` -/
def oneCert : List (Nat × Nat × Nat) :=
  [(21, 4615, 59), (22, 4640, 72), (23, 4665, 86), (24, 4690, 101), (25, 4716, 117), (26, 4741, 135),
   (27, 4767, 153), (28, 4793, 172), (29, 4819, 192), (30, 4845, 212), (31, 4871, 234), (32, 4898, 256),
   (33, 4925, 278), (34, 4951, 301), (35, 4978, 324), (36, 5005, 348), (37, 5032, 372), (38, 5060, 396),
   (39, 5087, 421), (40, 5115, 445), (41, 5143, 470), (42, 5170, 495), (43, 5199, 520), (44, 5227, 545),
   (45, 5255, 570), (46, 5284, 595), (47, 5312, 620), (48, 5341, 645), (49, 5370, 669), (50, 5399, 694),
   (51, 5429, 719), (52, 5458, 743), (53, 5488, 767), (54, 5518, 792), (55, 5548, 816), (56, 5578, 840),
   (57, 5608, 863), (58, 5638, 887), (59, 5669, 910), (60, 5700, 933), (61, 5731, 956), (62, 5762, 979),
   (63, 5793, 1001)]

def oneCheck (c : Nat × Nat × Nat) : Bool :=
  decide (0 < c.1) && decide (2 ^ (c.1 + 1) * 4096 ^ 128 ≤ c.2.1 ^ 128) &&
    decide (c.2.2 ^ c.1 * 2 ^ 128 ≤ 4096 ^ c.1) && decide (c.2.2 ≤ 4096) &&
    decide (8 * (c.2.1 * (4096 - c.2.2)) ≤ 9 * 4096 ^ 2)

theorem oneCert_ok : oneCert.all oneCheck = true := by decide +kernel

theorem oneCert_all : ∀ i, 21 ≤ i → i < 64 → ∃ b a, (i, b, a) ∈ oneCert := by
  have h : ∀ i ∈ List.range 64, 21 ≤ i → (oneCert.any fun c => c.1 == i) = true := by decide +kernel
  intro i h1 h2
  have := h i (List.mem_range.2 h2) h1
  rw [List.any_eq_true] at this
  obtain ⟨⟨j, b, a⟩, hm, hj⟩ := this
  simp only [beq_iff_eq] at hj
  subst hj
  exact ⟨b, a, hm⟩

theorem ratio_one {t : ℝ} (ht : 0 < t) (h1 : t ≤ 1) : ratio 1 t ≤ 9 / 8 := by
  have hL := Real.log_pos (by norm_num : (1 : ℝ) < 2)
  have hr : ratio 1 t = (1 - Real.exp (-(1 / t) * Real.log 2)) * Real.exp (t * Real.log 2) := by
    simp [ratio]
  have hp : 0 ≤ 1 - Real.exp (-(1 / t) * Real.log 2) := (sub_pos.2 (exp_lt_one (by positivity))).le
  rcases le_or_gt t (1 / 6) with h6 | h6
  · have a1 : Real.exp (t * Real.log 2) ≤ 9 / 8 :=
      (Real.exp_le_exp.2 (mul_le_mul_of_nonneg_right h6 hL.le)).trans
        (exp_le (i := 1) (j := 6) (by norm_num) (by norm_num) (by norm_num) (by norm_num))
    rw [hr]
    have := Real.exp_pos (-(1 / t) * Real.log 2)
    have := Real.exp_pos (t * Real.log 2)
    nlinarith
  rcases le_or_gt (1 / 2) t with h2 | h2
  · refine (ratio_mono (k := 1) (s := 1 / 2) le_rfl (by norm_num) h2 (by simpa using h1)).trans ?_
    have a1 : Real.exp (1 / 2 * Real.log 2) ≤ 3 / 2 :=
      exp_le (i := 1) (j := 2) (by norm_num) (by norm_num) (by norm_num) (by norm_num)
    have a2 : (1 / 4 : ℝ) ≤ Real.exp (-(1 / (1 / 2)) * Real.log 2) :=
      exp_ge (i := 2) (j := 1) (by norm_num) (by norm_num) (by norm_num)
    rw [ratio]
    rw [pow_one, Nat.cast_one]
    have := Real.exp_pos (1 / 2 * Real.log 2)
    nlinarith
  · have hf1 : (⌊t * 128⌋₊ : ℝ) ≤ t * 128 := Nat.floor_le (by positivity)
    have hf2 := Nat.lt_floor_add_one (t * 128)
    have hi1 : 21 ≤ ⌊t * 128⌋₊ := Nat.le_floor (by norm_num; linarith)
    have hi2 : ⌊t * 128⌋₊ < 64 := (Nat.floor_lt (by positivity)).2 (by norm_num; linarith)
    generalize ⌊t * 128⌋₊ = i at hf1 hf2 hi1 hi2
    obtain ⟨b, a, hm⟩ := oneCert_all i hi1 hi2
    have hc := List.all_eq_true.1 oneCert_ok _ hm
    simp only [oneCheck, Bool.and_eq_true, decide_eq_true_eq] at hc
    obtain ⟨⟨⟨⟨c0, c1⟩, c2⟩, c3⟩, c4⟩ := hc
    have hi0 : (0 : ℝ) < i := by exact_mod_cast c0
    have b1 : Real.exp (t * Real.log 2) ≤ (b : ℝ) / 4096 := by
      refine (Real.exp_le_exp.2 (mul_le_mul_of_nonneg_right
        (by push_cast; linarith : t ≤ (((i + 1 : Nat) : ℝ) / ((128 : Nat) : ℝ))) hL.le)).trans ?_
      refine exp_le (by norm_num) (by positivity) rfl ?_
      rw [div_pow, le_div_iff₀ (by positivity)]
      exact_mod_cast c1
    have b2 : (a : ℝ) / 4096 ≤ Real.exp (-(1 / t) * Real.log 2) := by
      refine le_trans (exp_ge (x := -((128 : Nat) / (i : ℝ))) c0 rfl ?_)
        (Real.exp_le_exp.2 (mul_le_mul_of_nonneg_right (neg_le_neg ?_) hL.le))
      · rw [div_pow, div_mul_eq_mul_div, div_le_one (by positivity)]
        exact_mod_cast c2
      · rw [div_le_div_iff₀ ht hi0]
        push_cast
        linarith
    have b3 : (b : ℝ) / 4096 * (1 - (a : ℝ) / 4096) ≤ 9 / 8 := by
      have : (8 : ℝ) * (b * (4096 - a)) ≤ 9 * 4096 ^ 2 := by
        have h := (Nat.cast_le (α := ℝ)).2 c4
        rw [Nat.cast_mul, Nat.cast_mul, Nat.cast_sub c3] at h
        norm_num at h ⊢
        exact h
      have e : (b : ℝ) / 4096 * (1 - (a : ℝ) / 4096) = b * (4096 - a) / 4096 ^ 2 := by ring
      rw [e, div_le_iff₀ (by norm_num)]
      linarith
    rw [hr]
    refine le_trans (mul_le_mul (by linarith : _ ≤ 1 - (a : ℝ) / 4096) b1 (Real.exp_pos _).le ?_) ?_
    · have : (a : ℝ) ≤ 4096 := by exact_mod_cast c3
      rw [sub_nonneg, div_le_one (by norm_num)]
      exact this
    · rw [mul_comm]; exact b3

/-- `k = ⌈t⌉` hash functions at `t / ln 2` bits per item: at most 9/8 of `2^(-t)` -/
theorem ratio_le {t : ℝ} (ht : 0 < t) : ratio ⌈t⌉₊ t ≤ 9 / 8 := by
  have h1 : t ≤ ⌈t⌉₊ := Nat.le_ceil t
  have h2 := Nat.ceil_lt_add_one ht.le
  have h0 : 0 < ⌈t⌉₊ := Nat.ceil_pos.2 ht
  generalize ⌈t⌉₊ = k at h0 h1 h2
  rcases Nat.lt_or_ge k 2 with hk | hk
  · have : k = 1 := by omega
    subst this
    exact ratio_one ht (by simpa using h1)
  rcases Nat.lt_or_ge k 7 with h7 | h7
  · exact ratio_small hk (by omega) (by linarith) h1
  · exact ratio_large h7 (by linarith) h1

end Verif.Bloom
