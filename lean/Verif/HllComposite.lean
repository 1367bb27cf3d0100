import Verif.HllCubic
import Verif.HllInterp
import Mathlib.Analysis.Complex.ExponentialBounds

/-!
# The composite estimate: interpolation in the tables, harmonic numbers
-/

namespace Verif.Hll

/-! ## The tables -/

/-- increasing, and neighbouring gaps differ by at most a quarter -/
def gapsOk : List Nat → Bool
  | a :: b :: c :: l =>
    decide (a < b) && decide (b < c) && decide (4 * (c - b) ≤ 5 * (b - a)) &&
      decide (4 * (b - a) ≤ 5 * (c - b)) && gapsOk (b :: c :: l)
  | _ => true

/-- all eighteen tables: 257 entries with regular gaps -/
theorem tables_ok : ∀ lgK, 4 ≤ lgK → lgK ≤ 21 →
    ∃ t, xTab lgK = some t ∧ t.length = 257 ∧ gapsOk t = true ∧ 0 < t.getD 256 0 := by
  intro lgK h4 h21
  have key : ∀ i : Fin 18, (match xTab (i.val + 4) with
      | some t => decide (t.length = 257) && gapsOk t && decide (0 < t.getD 256 0)
      | none => false) = true := by decide +kernel
  have := key ⟨lgK - 4, by omega⟩
  rw [show (⟨lgK - 4, by omega⟩ : Fin 18).val + 4 = lgK by simp; omega] at this
  cases h : xTab lgK with
  | none => rw [h] at this; simp at this
  | some t =>
    rw [h] at this
    simp only [Bool.and_eq_true, decide_eq_true_eq] at this
    exact ⟨t, rfl, this.1.1, this.1.2, this.2⟩

theorem gapsOk_get : ∀ (t : List Nat), gapsOk t = true → ∀ i, i + 2 < t.length →
    t.getD i 0 < t.getD (i + 1) 0 ∧ t.getD (i + 1) 0 < t.getD (i + 2) 0 ∧
      4 * (t.getD (i + 2) 0 - t.getD (i + 1) 0) ≤ 5 * (t.getD (i + 1) 0 - t.getD i 0) ∧
      4 * (t.getD (i + 1) 0 - t.getD i 0) ≤ 5 * (t.getD (i + 2) 0 - t.getD (i + 1) 0)
  | [], _, i, hi => by simp at hi
  | [_], _, i, hi => by simp at hi
  | [_, _], _, i, hi => by simp at hi
  | a :: b :: c :: l, h, i, hi => by
    unfold gapsOk at h
    simp only [Bool.and_eq_true, decide_eq_true_eq] at h
    cases i with
    | zero => exact ⟨h.1.1.1.1, h.1.1.1.2, h.1.1.2, h.1.2⟩
    | succ i =>
      have := gapsOk_get (b :: c :: l) h.2 i (by simp at hi ⊢; omega)
      simpa using this

/-- the table as rationals -/
def scaled (t : List Nat) : List ℚ := t.map fun n : Nat => (n : ℚ) / 10 ^ 12

theorem scaled_length (t : List Nat) : (scaled t).length = t.length := List.length_map _

theorem scaled_getD (t : List Nat) (i : Nat) : (scaled t).getD i 0 = (t.getD i 0 : ℚ) / 10 ^ 12 := by
  unfold scaled
  rw [List.getD_eq_getElem?_getD, List.getElem?_map, List.getD_eq_getElem?_getD]
  cases t[i]? <;> simp

theorem scaled_gaps {t : List Nat} (h : gapsOk t = true) {i : Nat} (hi : i + 2 < t.length) :
    0 < (scaled t).getD (i + 1) 0 - (scaled t).getD i 0 ∧
    0 < (scaled t).getD (i + 2) 0 - (scaled t).getD (i + 1) 0 ∧
    Near ((scaled t).getD (i + 1) 0 - (scaled t).getD i 0)
      ((scaled t).getD (i + 2) 0 - (scaled t).getD (i + 1) 0) := by
  obtain ⟨h1, h2, h3, h4⟩ := gapsOk_get t h i hi
  simp only [scaled_getD]
  generalize t.getD i 0 = a at *
  generalize t.getD (i + 1) 0 = b at *
  generalize t.getD (i + 2) 0 = c at *
  have q1 : (a : ℚ) < b := by exact_mod_cast h1
  have q2 : (b : ℚ) < c := by exact_mod_cast h2
  have q3 : 4 * ((c : ℚ) - b) ≤ 5 * (b - a) := by
    have : (4 * (c - b) : Nat) ≤ (5 * (b - a) : Nat) := h3
    have : ((4 * (c - b) : Nat) : ℚ) ≤ ((5 * (b - a) : Nat) : ℚ) := by exact_mod_cast this
    rw [Nat.cast_mul, Nat.cast_mul, Nat.cast_sub h2.le, Nat.cast_sub h1.le] at this
    exact_mod_cast this
  have q4 : 4 * ((b : ℚ) - a) ≤ 5 * (c - b) := by
    have : (4 * (b - a) : Nat) ≤ (5 * (c - b) : Nat) := h4
    have : ((4 * (b - a) : Nat) : ℚ) ≤ ((5 * (c - b) : Nat) : ℚ) := by exact_mod_cast this
    rw [Nat.cast_mul, Nat.cast_mul, Nat.cast_sub h2.le, Nat.cast_sub h1.le] at this
    exact_mod_cast this
  refine ⟨?_, ?_, ?_, ?_⟩ <;> linarith

/-- the ordinates of a stride -/
def strides (n : Nat) (s : ℚ) : List ℚ := (List.range n).map fun i : Nat => s * (i : ℚ)

theorem strides_length (n : Nat) (s : ℚ) : (strides n s).length = n := by simp [strides]

theorem strides_getD {n i : Nat} (s : ℚ) (h : i < n) : (strides n s).getD i 0 = s * i := by
  unfold strides
  rw [List.getD_eq_getElem?_getD, List.getElem?_map, List.getElem?_range h]
  rfl

/-- Between two table points the interpolated value is between their ordinates. -/
theorem interp_between {t : List Nat} (hg : gapsOk t = true) (hl : 4 ≤ t.length) {s x : ℚ}
    (hs : 0 ≤ s) {o : Nat} (ho : o + 1 < t.length) (ha : (scaled t).getD o 0 ≤ x)
    (hb : x ≤ (scaled t).getD (o + 1) 0) :
    s * o ≤ interpVal (scaled t) (strides t.length s) o x ∧
      interpVal (scaled t) (strides t.length s) o x ≤ s * (o + 1) := by
  unfold interpVal base
  rw [scaled_length]
  by_cases h0 : o = 0
  · subst h0
    simp only [if_true, Nat.zero_add] at *
    rw [strides_getD s (by omega), strides_getD s (by omega), strides_getD s (by omega),
      strides_getD s (by omega)]
    obtain ⟨g1, g2, g3⟩ := scaled_gaps hg (i := 0) (by omega)
    obtain ⟨_, g5, g6⟩ := scaled_gaps hg (i := 1) (by omega)
    simp only [Nat.zero_add, Nat.reduceAdd] at g1 g2 g3 g5 g6
    have := first_between (t := (scaled t).getD 0 0) (s := s) (b := 0) (u := x - (scaled t).getD 0 0)
      g1 g2 g5 hs g3 g6 (by linarith) (by linarith)
    push_cast
    convert this using 2 <;> first | rfl | (congr 1 <;> ring)
  · rw [if_neg h0]
    by_cases h1 : o = t.length - 2
    · rw [if_pos h1]
      obtain ⟨b, rfl⟩ : ∃ b, o = b + 2 := ⟨o - 2, by omega⟩
      rw [Nat.add_sub_cancel]
      dsimp only
      rw [strides_getD s (by omega), strides_getD s (by omega), strides_getD s (by omega),
        strides_getD s (by omega)]
      obtain ⟨g1, g2, g3⟩ := scaled_gaps hg (i := b) (by omega)
      obtain ⟨_, g5, g6⟩ := scaled_gaps hg (i := b + 1) (by omega)
      have := last_between (t := (scaled t).getD (b + 2) 0) (s := s) (b := b)
        (u := x - (scaled t).getD (b + 2) 0)
        g1 g2 g5 hs (near_symm g6) (near_symm g3) (by linarith) (by linarith)
      push_cast
      convert this using 2 <;> first | rfl | (congr 1 <;> ring)
    · rw [if_neg h1]
      obtain ⟨b, rfl⟩ : ∃ b, o = b + 1 := ⟨o - 1, by omega⟩
      rw [Nat.add_sub_cancel]
      dsimp only
      rw [strides_getD s (by omega), strides_getD s (by omega), strides_getD s (by omega),
        strides_getD s (by omega)]
      obtain ⟨g1, g2, g3⟩ := scaled_gaps hg (i := b) (by omega)
      obtain ⟨_, g5, g6⟩ := scaled_gaps hg (i := b + 1) (by omega)
      have := mid_between (t := (scaled t).getD (b + 1) 0) (s := s) (b := b)
        (u := x - (scaled t).getD (b + 1) 0)
        g1 g2 g5 hs (near_symm g3) g6 (by linarith) (by linarith)
      push_cast
      convert this using 2 <;> first | rfl | (congr 1 <;> ring)

theorem stride_ok {t : List Nat} (hg : gapsOk t = true) (hl : 4 ≤ t.length) {s x : ℚ}
    (hs : 0 ≤ s) (ha : (scaled t).getD 0 0 ≤ x) (hb : x ≤ (scaled t).getD (t.length - 1) 0) :
    ∃ v, usingXArrAndYStride (scaled t) s x = .ok v ∧ 0 ≤ v := by
  unfold usingXArrAndYStride
  rw [scaled_length, if_neg (by omega), ofOption_getD (by rw [scaled_length]; omega), Outcome.ok_bind,
    ofOption_getD (by rw [scaled_length]; omega), Outcome.ok_bind,
    if_neg (by rintro (h | h) <;> linarith)]
  by_cases h : x = (scaled t).getD (t.length - 1) 0
  · rw [if_pos h]
    exact ⟨_, rfl, by positivity⟩
  · rw [if_neg h]
    obtain ⟨o, e, ho, h1, h2⟩ := findStraddle_spec (xs := scaled t) (x := x)
      (by rw [scaled_length]; omega) ha (by rw [scaled_length]; exact lt_of_le_of_ne hb h)
    rw [e, Outcome.ok_bind]
    rw [scaled_length] at ho
    have hy : (scaled t).length = (strides t.length s).length := by
      rw [scaled_length, strides_length]
    refine ⟨_, interpolateAt_ok (by rw [scaled_length]; omega) hy (by rw [scaled_length]; omega) x, ?_⟩
    have := (interp_between hg hl hs ho h1 h2.le).1
    exact le_trans (by positivity) this

/-! ## Harmonic numbers -/

theorem harm_small : ∀ n, n < 24 → harmonicTab.getD n 0 ≤ harmonicTab.getD (n + 1) 0 := by
  have : ∀ i : Fin 24, harmonicTab.getD i.val 0 ≤ harmonicTab.getD (i.val + 1) 0 := by
    decide +kernel
  intro n hn
  exact this ⟨n, hn⟩

theorem log_25 : (16 / 5 : ℝ) ≤ Real.log 25 := by
  rw [Real.le_log_iff_exp_le (by norm_num)]
  have h := Real.exp_one_lt_d9.le
  have h5 : Real.exp (16 / 5) ^ 5 ≤ 25 ^ 5 := by
    rw [← Real.exp_nat_mul]
    have : ((5 : ℕ) : ℝ) * (16 / 5) = ((16 : ℕ) : ℝ) * 1 := by norm_num
    rw [this, Real.exp_nat_mul]
    exact le_trans (pow_le_pow_left₀ (Real.exp_pos 1).le h 16) (by norm_num)
  exact le_of_pow_le_pow_left₀ (by norm_num) (by norm_num) h5

/-- the tail of the asymptotic series -/
noncomputable def tail (n : ℝ) : ℝ :=
  1 / (2 * n) - (1 / (n * n : ℝ)) * (1 / 12)
    + (1 / (n * n : ℝ)) ^ 2 * (1 / 120) - (1 / (n * n : ℝ)) ^ 3 * (1 / 252)
    + (1 / (n * n : ℝ)) ^ 4 * (1 / 240)

theorem tail_bounds {n : ℝ} (h : 1 ≤ n) : 1 / (3 * n) ≤ tail n ∧ tail n ≤ 1 / (2 * n) := by
  unfold tail
  have hn : 0 < n := by linarith
  have e : 1 / (n * n) = (1 / n) * (1 / n) := by field_simp
  have h3 : 1 / (3 * n) = (1 / n) * (1 / 3) := by field_simp
  have h2 : 1 / (2 * n) = (1 / n) * (1 / 2) := by field_simp
  rw [e, h3, h2]
  have w0 : 0 < 1 / n := by positivity
  have w1 : 1 / n ≤ 1 := by rw [div_le_one hn]; exact h
  generalize 1 / n = w at *
  have z0 : 0 < w * w := by positivity
  have z1 : w * w ≤ w := by nlinarith
  generalize hz : w * w = z at *
  have z2 : z ≤ 1 := by linarith
  have z3 : z ^ 2 ≤ z := by nlinarith
  have z4 : z ^ 3 ≤ z ^ 2 := by nlinarith [sq_nonneg z]
  have z5 : z ^ 4 ≤ z ^ 3 := by nlinarith [pow_pos z0 3]
  have p2 := pow_pos z0 2
  have p3 := pow_pos z0 3
  have p4 := pow_pos z0 4
  constructor <;> linarith

theorem harmonic_big {n : Nat} (h : 25 ≤ n) : harmonicNumber n = Real.log n + gammaC + tail n := by
  unfold harmonicNumber tail
  rw [if_neg (by omega)]
  ring

theorem harmonic_step (n : Nat) : harmonicNumber n ≤ harmonicNumber (n + 1) := by
  by_cases h : n < 24
  · unfold harmonicNumber
    rw [if_pos (by omega), if_pos (by omega)]
    exact_mod_cast harm_small n h
  · by_cases h24 : n = 24
    · subst h24
      rw [harmonic_big (n := 24 + 1) (by omega)]
      have h1 := log_25
      have h2 := (tail_bounds (n := ((24 + 1 : Nat) : ℝ)) (by norm_num)).1
      unfold harmonicNumber
      rw [if_pos (by omega), show harmonicTab.getD 24 0 = 1347822955 / 356948592 by
        simp [harmonicTab]]
      unfold gammaC
      norm_num at h1 h2 ⊢
      linarith
    · rw [harmonic_big (by omega), harmonic_big (by omega)]
      have hn : (25 : ℝ) ≤ n := by exact_mod_cast (by omega : 25 ≤ n)
      have h1 := (tail_bounds (n := (n : ℝ)) (by linarith)).2
      have h2 := (tail_bounds (n := ((n + 1 : Nat) : ℝ)) (by push_cast; linarith)).1
      have h3 := Real.one_sub_inv_le_log_of_pos (x := ((n + 1 : Nat) : ℝ) / n)
        (by have : (0 : ℝ) < ((n + 1 : Nat) : ℝ) := by positivity
            positivity)
      rw [Real.log_div (by positivity) (by linarith)] at h3
      have h4 : (1 : ℝ) - (((n + 1 : Nat) : ℝ) / n)⁻¹ = 1 / (n + 1) := by
        push_cast
        have : (n : ℝ) + 1 ≠ 0 := by linarith
        field_simp
        ring
      rw [h4] at h3
      have h5 : (1 : ℝ) / (2 * n) ≤ 1 / (n + 1) := by
        apply one_div_le_one_div_of_le <;> linarith
      have h6 : (0 : ℝ) ≤ 1 / (3 * ((n + 1 : Nat) : ℝ)) := by positivity
      linarith

theorem harmonic_mono : Monotone harmonicNumber := monotone_nat_of_le_succ harmonic_step

theorem bitMapEst_nonneg (len set : Nat) : 0 ≤ bitMapEst len set := by
  unfold bitMapEst
  exact mul_nonneg (Nat.cast_nonneg _) (sub_nonneg.mpr (harmonic_mono (Nat.sub_le _ _)))

theorem linEst_nonneg (lgK curMin : Nat) (num : Int) : 0 ≤ linEst lgK curMin num := by
  unfold linEst
  generalize (if curMin = 0 then num else 0) = z
  by_cases hz : z = 0
  · rw [if_pos hz]
    apply mul_nonneg (by positivity)
    apply Real.log_nonneg
    have : (1 : ℝ) ≤ 2 ^ lgK := one_le_pow₀ (by norm_num)
    rw [le_div_iff₀ (by norm_num)]
    linarith
  · rw [if_neg hz]
    exact bitMapEst_nonneg _ _

/-! ## The composite estimate -/

theorem chooseEst_nonneg {lgK curMin : Nat} {num : Int} {adj : ℚ} (h : 0 ≤ adj) :
    0 ≤ chooseEst lgK curMin num adj := by
  unfold chooseEst
  have h' : (0 : ℝ) ≤ (adj : ℝ) := by exact_mod_cast h
  split
  · exact h'
  · split
    · exact h'
    · exact linEst_nonneg _ _ _

theorem stride_table : ∀ lgK, 4 ≤ lgK → lgK ≤ 21 → ∃ s, yStride lgK = .ok s ∧ 0 ≤ s := by
  intro lgK h4 h21
  have : ∃ n, yStrides[lgK - 4]? = some n := by
    rw [← Option.isSome_iff_exists]
    simp [yStrides]
    omega
  obtain ⟨n, hn⟩ := this
  refine ⟨(n : ℚ), ?_, Nat.cast_nonneg n⟩
  unfold yStride
  rw [hn]
  rfl

theorem correction_pos (lgK : Nat) : 0 < correction lgK := by
  unfold correction
  split_ifs <;> positivity

/-- The composite estimate always has a value, and it is not negative. -/
theorem compositeEst_ok {a : Arr ℚ} (h4 : 4 ≤ a.lgK) (h21 : a.lgK ≤ 21)
    (hpos : 0 < a.kxq0 + a.kxq1) : ∃ e, a.compositeEst = .ok e ∧ 0 ≤ e := by
  obtain ⟨t, ht, hl, hg, hlast⟩ := tables_ok a.lgK h4 h21
  obtain ⟨s, hs, hs0⟩ := stride_table a.lgK h4 h21
  have hx : xArr a.lgK = .ok (scaled t) := by
    unfold xArr
    rw [ht]
    rfl
  unfold Arr.compositeEst
  simp only []
  rw [hx, Outcome.ok_bind, hs, Outcome.ok_bind, ofOption_getD (by rw [scaled_length, hl]; omega),
    Outcome.ok_bind]
  have hraw : 0 < rawEst a.lgK (((a.kxq0 + a.kxq1 : Int) : ℚ) / 2 ^ 63) := by
    unfold rawEst
    have h1 : (0 : ℚ) < ((a.kxq0 + a.kxq1 : Int) : ℚ) := by exact_mod_cast hpos
    have := correction_pos a.lgK
    positivity
  generalize rawEst a.lgK (((a.kxq0 + a.kxq1 : Int) : ℚ) / 2 ^ 63) = raw at *
  by_cases c1 : raw < (scaled t).getD 0 0
  · rw [if_pos c1]
    exact ⟨0, rfl, le_refl _⟩
  · rw [if_neg c1, ofOption_getD (by rw [scaled_length, hl]; omega), Outcome.ok_bind]
    by_cases c2 : raw > (scaled t).getD ((scaled t).length - 1) 0
    · rw [if_pos c2]
      refine ⟨_, rfl, ?_⟩
      have hr : 0 < (scaled t).getD ((scaled t).length - 1) 0 := by
        rw [scaled_length, hl, scaled_getD]
        have : (0 : ℚ) < (t.getD 256 0 : ℚ) := by exact_mod_cast hlast
        positivity
      have : 0 ≤ raw * (s * (((scaled t).length - 1 : Nat) : ℚ) /
          (scaled t).getD ((scaled t).length - 1) 0) := by positivity
      exact_mod_cast this
    · rw [if_neg c2]
      rw [scaled_length] at c2
      obtain ⟨v, hv, hv0⟩ := stride_ok hg (by omega) hs0 (not_lt.mp c1) (not_lt.mp c2)
      rw [hv, Outcome.ok_bind]
      exact ⟨_, rfl, chooseEst_nonneg hv0⟩

end Verif.Hll
