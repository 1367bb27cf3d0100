import Verif.CpcIconGrid
import Verif.CpcOccupancy
import Verif.CpcIcon

/-!
# The ICON estimate inverts the expected number of cells
-/

namespace Verif.Cpc

open PolyCert

/-! ## Bounds of `occ` by fixed-point numbers -/

/-- sums of lower and upper bounds of `exp (-2x), exp (-4x), ...`, from bounds of `exp (-x)`; the unit
is `2^-128` -/
def fxLoop : Nat → Nat → Nat → Nat → Nat → Nat × Nat
  | 0, _, _, sl, sh => (sl, sh)
  | j + 1, lo, hi, sl, sh =>
    fxLoop j (lo * lo / 2 ^ 128) (hi * hi / 2 ^ 128 + 1) (sl + lo * lo / 2 ^ 128)
      (sh + (hi * hi / 2 ^ 128 + 1))

/-- bounds of the sum of `exp (-x), exp (-2x), ...`, 63 terms, for `x = n / 2^83` -/
def fxSums (n : Nat) : Nat × Nat :=
  fxLoop 62 (2 ^ 128 - n * 2 ^ 45) (2 ^ 128 - n * 2 ^ 45 + n * n / 2 ^ 39 + 1)
    (2 ^ 128 - n * 2 ^ 45) (2 ^ 128 - n * 2 ^ 45 + n * n / 2 ^ 39 + 1)

theorem fxLoop_ok (j : Nat) : ∀ (lo hi sl sh : Nat) (x A B : ℝ),
    (lo : ℝ) ≤ 2 ^ 128 * Real.exp (-x) → 2 ^ 128 * Real.exp (-x) ≤ hi → (sl : ℝ) ≤ A → B ≤ sh →
    ((fxLoop j lo hi sl sh).1 : ℝ) ≤ A + ∑ i ∈ Finset.range j, 2 ^ 128 * Real.exp (-(2 ^ (i + 1) * x)) ∧
    B + ∑ i ∈ Finset.range j, 2 ^ 128 * Real.exp (-(2 ^ (i + 1) * x)) ≤ ((fxLoop j lo hi sl sh).2 : ℝ) := by
  induction j with
  | zero =>
    intro lo hi sl sh x A B h1 h2 h3 h4
    simp only [fxLoop, Finset.range_zero, Finset.sum_empty, add_zero]
    exact ⟨h3, h4⟩
  | succ j ih =>
    intro lo hi sl sh x A B h1 h2 h3 h4
    have hexp : Real.exp (-(2 * x)) = Real.exp (-x) * Real.exp (-x) := by
      rw [← Real.exp_add]; congr 1; ring
    have he := Real.exp_pos (-x)
    have hlo : ((lo * lo / 2 ^ 128 : Nat) : ℝ) ≤ 2 ^ 128 * Real.exp (-(2 * x)) := by
      refine le_trans Nat.cast_div_le ?_
      push_cast
      rw [div_le_iff₀ (by positivity), hexp]
      have := mul_le_mul h1 h1 (Nat.cast_nonneg _) (by positivity)
      nlinarith
    have hhi : 2 ^ 128 * Real.exp (-(2 * x)) ≤ ((hi * hi / 2 ^ 128 + 1 : Nat) : ℝ) := by
      have h5 : ((hi * hi : Nat) : ℝ) ≤ ((2 ^ 128 * (hi * hi / 2 ^ 128 + 1) : Nat) : ℝ) := by
        exact_mod_cast (Nat.lt_mul_div_succ (hi * hi) (by norm_num : 0 < 2 ^ 128)).le
      have h6 := mul_le_mul h2 h2 (by positivity) (Nat.cast_nonneg _)
      rw [hexp]
      have h7 : (2 ^ 128 : ℝ) * (2 ^ 128 * (Real.exp (-x) * Real.exp (-x))) ≤
          2 ^ 128 * ((hi * hi / 2 ^ 128 + 1 : Nat) : ℝ) := by
        have e : ((2 ^ 128 * (hi * hi / 2 ^ 128 + 1) : Nat) : ℝ) =
            2 ^ 128 * ((hi * hi / 2 ^ 128 + 1 : Nat) : ℝ) := by rw [Nat.cast_mul]; norm_num
        rw [e] at h5
        rw [Nat.cast_mul] at h5
        nlinarith
      exact le_of_mul_le_mul_left h7 (by positivity)
    have := ih (lo * lo / 2 ^ 128) (hi * hi / 2 ^ 128 + 1) (sl + lo * lo / 2 ^ 128)
      (sh + (hi * hi / 2 ^ 128 + 1)) (2 * x) (A + 2 ^ 128 * Real.exp (-(2 * x)))
      (B + 2 ^ 128 * Real.exp (-(2 * x))) hlo hhi
      (by rw [Nat.cast_add]; linarith) (by rw [Nat.cast_add]; linarith)
    rw [Finset.sum_range_succ']
    have e : ∀ i, 2 ^ (i + 1) * (2 * x) = 2 ^ (i + 1 + 1) * x := by intro i; ring
    simp only [e] at this
    rw [fxLoop, show (2 : ℝ) ^ (0 + 1) * x = 2 * x by ring]
    constructor
    · linarith [this.1]
    · linarith [this.2]

theorem fxSums_ok {n : Nat} (hn : n < 2 ^ 83) :
    ((fxSums n).1 : ℝ) ≤ 2 ^ 128 * (63 - occ (n / 2 ^ 20)) ∧
    2 ^ 128 * (63 - occ (n / 2 ^ 20)) ≤ ((fxSums n).2 : ℝ) := by
  have hx0 : (0 : ℝ) ≤ n / 2 ^ 83 := by positivity
  have hle : n * 2 ^ 45 ≤ 2 ^ 128 := by omega
  have ebase : ((2 ^ 128 - n * 2 ^ 45 : Nat) : ℝ) = 2 ^ 128 * (1 - n / 2 ^ 83) := by
    rw [Nat.cast_sub hle]
    push_cast
    ring
  have hlo : ((2 ^ 128 - n * 2 ^ 45 : Nat) : ℝ) ≤ 2 ^ 128 * Real.exp (-((n : ℝ) / 2 ^ 83)) := by
    rw [ebase]
    apply mul_le_mul_of_nonneg_left _ (by positivity)
    have := Real.add_one_le_exp (-((n : ℝ) / 2 ^ 83))
    linarith
  have hhi : 2 ^ 128 * Real.exp (-((n : ℝ) / 2 ^ 83)) ≤
      ((2 ^ 128 - n * 2 ^ 45 + n * n / 2 ^ 39 + 1 : Nat) : ℝ) := by
    have h1 := exp_neg_le hx0
    have h2 : ((n * n : Nat) : ℝ) ≤ ((2 ^ 39 * (n * n / 2 ^ 39 + 1) : Nat) : ℝ) := by
      exact_mod_cast (Nat.lt_mul_div_succ (n * n) (by norm_num : 0 < 2 ^ 39)).le
    have e : ((2 ^ 39 * (n * n / 2 ^ 39 + 1) : Nat) : ℝ) = 2 ^ 39 * ((n * n / 2 ^ 39 + 1 : Nat) : ℝ) := by
      rw [Nat.cast_mul]; norm_num
    rw [e, Nat.cast_mul] at h2
    rw [add_assoc, Nat.cast_add (2 ^ 128 - n * 2 ^ 45), ebase]
    generalize ((n * n / 2 ^ 39 + 1 : Nat) : ℝ) = q at *
    have e2 : (2 : ℝ) ^ 128 * (((n : ℝ) / 2 ^ 83) ^ 2 / 2) = n * n / 2 ^ 39 := by
      field_simp
    have h3 : (n : ℝ) * n / 2 ^ 39 ≤ q := by
      rw [div_le_iff₀ (by positivity)]; linarith
    have h4 := mul_le_mul_of_nonneg_left h1 (by positivity : (0 : ℝ) ≤ 2 ^ 128)
    nlinarith
  have := fxLoop_ok 62 _ _ _ _ _ _ _ hlo hhi hlo hhi
  have e : (2 : ℝ) ^ 128 * (63 - occ (n / 2 ^ 20)) = 2 ^ 128 * Real.exp (-((n : ℝ) / 2 ^ 83)) +
      ∑ i ∈ Finset.range 62, 2 ^ 128 * Real.exp (-(2 ^ (i + 1) * ((n : ℝ) / 2 ^ 83))) := by
    have h1 : ∑ i ∈ Finset.range 63, (2 : ℝ) ^ 128 * Real.exp (-(2 ^ i * ((n : ℝ) / 2 ^ 83))) =
        2 ^ 128 * Real.exp (-((n : ℝ) / 2 ^ 83)) +
        ∑ i ∈ Finset.range 62, 2 ^ 128 * Real.exp (-(2 ^ (i + 1) * ((n : ℝ) / 2 ^ 83))) := by
      rw [Finset.sum_range_succ' _ 62, pow_zero, one_mul, add_comm]
    rw [← h1, ← Finset.mul_sum]
    congr 1
    unfold occ
    rw [Finset.sum_sub_distrib, Finset.sum_const, Finset.card_range,
      ← Finset.sum_range_reflect (fun j => Real.exp (-((n : ℝ) / 2 ^ 20 / 2 ^ (j + 1)))) 63]
    have : ∀ i ∈ Finset.range 63, Real.exp (-((n : ℝ) / 2 ^ 20 / 2 ^ (63 - 1 - i + 1))) =
        Real.exp (-(2 ^ i * ((n : ℝ) / 2 ^ 83))) := by
      intro i hi
      rw [Finset.mem_range] at hi
      congr 2
      rw [show 63 - 1 - i + 1 = 63 - i by omega]
      have e3 : (2 : ℝ) ^ 63 = 2 ^ (63 - i) * 2 ^ i := by rw [← pow_add]; congr 1; omega
      have e4 : (2 : ℝ) ^ 83 = 2 ^ 20 * 2 ^ 63 := by norm_num
      rw [e4, e3]
      field_simp
    rw [Finset.sum_congr rfl this]
    norm_num
  rw [e]
  exact this

/-- the point's bounds are right, in units of `1/u`, with a reserve of `e` -/
def fxOK (u e : Nat) (p : Nat × Nat × Nat) : Bool :=
  p.1 < 2 ^ 83 &&
  (p.2.1 * 2 ^ 128 + u * e + u * (fxSums p.1).2 ≤ u * 63 * 2 ^ 128 &&
    u * (63 * 2 ^ 128 + p.1 * 2 ^ 45 + e) ≤ p.2.2 * 2 ^ 128 + u * (fxSums p.1).1)

theorem fxOK_sound {u e : Nat} (hu : 0 < u) {p : Nat × Nat × Nat} (h : fxOK u e p = true) :
    (p.2.1 : ℝ) / u + e / 2 ^ 128 ≤ occ (p.1 / 2 ^ 20) ∧
    occ (p.1 / 2 ^ 20) + (p.1 : ℝ) / 2 ^ 20 / 2 ^ 63 + e / 2 ^ 128 ≤ (p.2.2 : ℝ) / u := by
  unfold fxOK at h
  rw [Bool.and_eq_true, Bool.and_eq_true] at h
  obtain ⟨h1, h2, h3⟩ := h
  obtain ⟨b1, b2⟩ := fxSums_ok (of_decide_eq_true h1)
  have h2' : ((p.2.1 * 2 ^ 128 + u * e + u * (fxSums p.1).2 : Nat) : ℝ) ≤ ((u * 63 * 2 ^ 128 : Nat) : ℝ) := by
    exact_mod_cast of_decide_eq_true h2
  have h3' : ((u * (63 * 2 ^ 128 + p.1 * 2 ^ 45 + e) : Nat) : ℝ) ≤
      ((p.2.2 * 2 ^ 128 + u * (fxSums p.1).1 : Nat) : ℝ) := by
    exact_mod_cast of_decide_eq_true h3
  push_cast at h2' h3'
  have hu' : (0 : ℝ) < u := by exact_mod_cast hu
  generalize ((fxSums p.1).1 : ℝ) = s1 at *
  generalize ((fxSums p.1).2 : ℝ) = s2 at *
  generalize occ (p.1 / 2 ^ 20) = o at *
  have m1 := mul_le_mul_of_nonneg_left b1 hu'.le
  have m2 := mul_le_mul_of_nonneg_left b2 hu'.le
  constructor
  · rw [← sub_nonneg]
    have e1 : o - ((p.2.1 : ℝ) / u + e / 2 ^ 128) =
        (u * 2 ^ 128 * o - p.2.1 * 2 ^ 128 - u * e) / (u * 2 ^ 128) := by
      field_simp
      ring
    rw [e1]
    apply div_nonneg _ (by positivity)
    linarith
  · rw [← sub_nonneg]
    have e1 : (p.2.2 : ℝ) / u - (o + (p.1 : ℝ) / 2 ^ 20 / 2 ^ 63 + e / 2 ^ 128) =
        (p.2.2 * 2 ^ 128 - u * 2 ^ 128 * o - u * p.1 * 2 ^ 45 - u * e) / (u * 2 ^ 128) := by
      field_simp
      ring
    rw [e1]
    apply div_nonneg _ (by positivity)
    linarith

theorem icGrid_ok : icGrid.all (fxOK 65536 0) = true := by decide +kernel

theorem icGridE_ok : icGridE.all (fxOK 512 (2 ^ 108)) = true := by decide +kernel

end Verif.Cpc
