import Verif.HllEstModel
import Mathlib.Tactic.IntervalCases
import Mathlib.Tactic.LinearCombination

/-!
# Cubic interpolation: the table search, and the coupon estimate
-/

namespace Verif.Hll

/-! ## The search -/

/-- the table increases -/
def Incr (xs : List ℚ) : Prop := ∀ i, i + 1 < xs.length → xs.getD i 0 < xs.getD (i + 1) 0

theorem getElem?_getD {xs : List ℚ} {i : Nat} (h : i < xs.length) :
    xs[i]? = some (xs.getD i 0) := by
  rw [List.getD_eq_getElem _ _ h, List.getElem?_eq_getElem h]

theorem ofOption_getD {xs : List ℚ} {i : Nat} (h : i < xs.length) :
    (Outcome.ofOption xs[i]? : Outcome ℚ) = .ok (xs.getD i 0) := by
  rw [getElem?_getD h]; rfl

theorem straddleLoop_spec {xs : List ℚ} {x : ℚ} : ∀ (n left right : Nat), right - left ≤ n →
    left < right → right < xs.length → xs.getD left 0 ≤ x → x < xs.getD right 0 →
    ∃ o, straddleLoop xs x n left right = .ok o ∧ o + 1 < xs.length ∧
      xs.getD o 0 ≤ x ∧ x < xs.getD (o + 1) 0 := by
  intro n
  induction n with
  | zero => intro left right h1 h2; omega
  | succ n ih =>
    intro left right h1 h2 h3 h4 h5
    unfold straddleLoop
    rw [if_neg (by omega), ofOption_getD (by omega), Outcome.ok_bind, ofOption_getD h3,
      Outcome.ok_bind, if_neg (by rintro (h | h) <;> linarith)]
    by_cases h6 : left + 1 = right
    · rw [if_pos h6]
      exact ⟨left, rfl, by omega, h4, by rw [h6]; exact h5⟩
    · rw [if_neg h6, ofOption_getD (by omega), Outcome.ok_bind]
      by_cases h7 : xs.getD (left + (right - left) / 2) 0 ≤ x
      · rw [if_pos h7]
        exact ih _ _ (by omega) (by omega) h3 h7 h5
      · rw [if_neg h7]
        exact ih _ _ (by omega) (by omega) (by omega) h4 (by linarith)

theorem findStraddle_spec {xs : List ℚ} {x : ℚ} (hlen : 2 ≤ xs.length) (h0 : xs.getD 0 0 ≤ x)
    (h1 : x < xs.getD (xs.length - 1) 0) :
    ∃ o, findStraddle xs x = .ok o ∧ o + 1 < xs.length ∧
      xs.getD o 0 ≤ x ∧ x < xs.getD (o + 1) 0 := by
  unfold findStraddle
  rw [if_neg (by omega), ofOption_getD (by omega), Outcome.ok_bind, ofOption_getD (by omega),
    Outcome.ok_bind, if_neg (by rintro (h | h) <;> linarith)]
  exact straddleLoop_spec _ _ _ (by omega) (by omega) (by omega) h0 h1

/-- the index of the first of the four points used in the interval `o` -/
def base (len o : Nat) : Nat := if o = 0 then 0 else if o = len - 2 then o - 2 else o - 1

/-- the interpolated value in the interval `o` -/
def interpVal (xs ys : List ℚ) (o : Nat) (x : ℚ) : ℚ :=
  let b := base xs.length o
  cubic (xs.getD b 0) (ys.getD b 0) (xs.getD (b + 1) 0) (ys.getD (b + 1) 0)
    (xs.getD (b + 2) 0) (ys.getD (b + 2) 0) (xs.getD (b + 3) 0) (ys.getD (b + 3) 0) x

theorem interpolate_ok {xs ys : List ℚ} {b : Nat} (h : b + 3 < xs.length)
    (hy : b + 3 < ys.length) (x : ℚ) :
    interpolate xs ys b x = .ok (cubic (xs.getD b 0) (ys.getD b 0) (xs.getD (b + 1) 0)
      (ys.getD (b + 1) 0) (xs.getD (b + 2) 0) (ys.getD (b + 2) 0) (xs.getD (b + 3) 0)
      (ys.getD (b + 3) 0) x) := by
  unfold interpolate
  rw [ofOption_getD (by omega), Outcome.ok_bind, ofOption_getD (by omega), Outcome.ok_bind,
    ofOption_getD (by omega), Outcome.ok_bind, ofOption_getD (by omega), Outcome.ok_bind,
    ofOption_getD (by omega), Outcome.ok_bind, ofOption_getD (by omega), Outcome.ok_bind,
    ofOption_getD (by omega), Outcome.ok_bind, ofOption_getD (by omega), Outcome.ok_bind]

theorem interpolateAt_ok {xs ys : List ℚ} {o : Nat} (h4 : 4 ≤ xs.length)
    (hy : xs.length = ys.length) (ho : o + 1 < xs.length) (x : ℚ) :
    interpolateAt xs ys o x = .ok (interpVal xs ys o x) := by
  unfold interpolateAt interpVal base
  rw [if_neg (by omega)]
  by_cases h0 : o = 0
  · rw [if_pos h0, if_pos h0, h0]
    exact interpolate_ok (by omega) (by omega) x
  · rw [if_neg h0, if_neg h0]
    by_cases h1 : o = xs.length - 2
    · rw [if_pos h1, if_pos h1]
      exact interpolate_ok (by omega) (by omega) x
    · rw [if_neg h1, if_neg h1]
      exact interpolate_ok (by omega) (by omega) x

/-- Inside the table the two-table interpolation gives a value. -/
theorem usingXAndYTables_ok {xs ys : List ℚ} {x : ℚ} (h4 : 4 ≤ xs.length)
    (hy : xs.length = ys.length) (h0 : xs.getD 0 0 ≤ x) (h1 : x < xs.getD (xs.length - 1) 0) :
    ∃ o, o + 1 < xs.length ∧ xs.getD o 0 ≤ x ∧ x < xs.getD (o + 1) 0 ∧
      usingXAndYTables xs ys x = .ok (interpVal xs ys o x) := by
  obtain ⟨o, e, ho, ha, hb⟩ := findStraddle_spec (by omega) h0 h1
  refine ⟨o, ho, ha, hb, ?_⟩
  unfold usingXAndYTables
  rw [if_neg (by omega), ofOption_getD (by omega), Outcome.ok_bind, if_neg (by linarith), e,
    Outcome.ok_bind]
  exact interpolateAt_ok h4 hy ho x

/-! ## The coupon estimate -/

theorem couponX_length : couponX.length = 40 := rfl
theorem couponY_length : couponY.length = 40 := rfl

theorem couponRaw_ok {n : Nat} (h : n < 10200000) :
    ∃ o, o + 1 < 40 ∧ couponX.getD o 0 ≤ n ∧ (n : ℚ) < couponX.getD (o + 1) 0 ∧
      couponRaw n = .ok (interpVal couponX couponY o n) := by
  have h0 : couponX.getD 0 0 = 0 := by norm_num [couponX]
  have h1 : couponX.getD (couponX.length - 1) 0 = 10200000 := by
    rw [couponX_length]; norm_num [couponX]
  exact usingXAndYTables_ok (xs := couponX) (ys := couponY) (x := n) (by rw [couponX_length]; omega)
    rfl (by rw [h0]; exact Nat.cast_nonneg n) (by rw [h1]; exact_mod_cast h)

theorem couponEst_ok {n : Nat} (h : n < 10200000) : ∃ e, couponEst n = .ok e ∧ (n : ℚ) ≤ e := by
  obtain ⟨o, _, _, _, e⟩ := couponRaw_ok h
  refine ⟨max (interpVal couponX couponY o n) n, ?_, le_max_right _ _⟩
  unfold couponEst
  rw [e, Outcome.ok_bind]

theorem couponX_0 : couponX.getD 0 0 = 0 := by norm_num [couponX]
theorem couponX_1 : couponX.getD 1 0 = 1 := by norm_num [couponX]
theorem couponX_2 : couponX.getD 2 0 = 20 := by norm_num [couponX]
theorem couponX_3 : couponX.getD 3 0 = 400 := by norm_num [couponX]
theorem couponX_4 : couponX.getD 4 0 = 8000 := by norm_num [couponX]
theorem couponX_5 : couponX.getD 5 0 = 160000 := by norm_num [couponX]
theorem couponX_6 : couponX.getD 6 0 = 300000 := by norm_num [couponX]
theorem couponX_7 : couponX.getD 7 0 = 600000 := by norm_num [couponX]
theorem couponY_0 : couponY.getD 0 0 = 0 / 10 ^ 16 := by norm_num [couponY]
theorem couponY_1 : couponY.getD 1 0 = 10000000000000000 / 10 ^ 16 := by norm_num [couponY]
theorem couponY_2 : couponY.getD 2 0 = 200000009437402611 / 10 ^ 16 := by norm_num [couponY]
theorem couponY_3 : couponY.getD 3 0 = 4000003963713384110 / 10 ^ 16 := by norm_num [couponY]
theorem couponY_4 : couponY.getD 4 0 = 80001589294602090376 / 10 ^ 16 := by norm_num [couponY]
theorem couponY_5 : couponY.getD 5 0 = 1600636067763759638183 / 10 ^ 16 := by norm_num [couponY]
theorem couponY_6 : couponY.getD 6 0 = 3002237071597663452849 / 10 ^ 16 := by norm_num [couponY]
theorem couponY_7 : couponY.getD 7 0 = 6008955933856170158833 / 10 ^ 16 := by norm_num [couponY]

theorem interp_le {o : Nat} (ho : o < 6) {x : ℚ} (ha : couponX.getD o 0 ≤ x)
    (hb : x < couponX.getD (o + 1) 0) (hx : x ≤ 200000) :
    interpVal couponX couponY o x ≤ x * (1 + 1 / 1000) := by
  unfold interpVal base
  rw [couponX_length]
  interval_cases o
  all_goals
    simp only [couponX_0, couponX_1, couponX_2, couponX_3, couponX_4, couponX_5, couponX_6,
      couponX_7, couponY_0, couponY_1, couponY_2, couponY_3, couponY_4, couponY_5, couponY_6,
      couponY_7, Nat.reduceAdd, Nat.reduceSub, if_true, if_false, Nat.reduceEqDiff,
      OfNat.ofNat_ne_zero, one_ne_zero, cubic] at ha hb ⊢
    norm_num at ha hb ⊢
  · have h2 : x * x ≤ 1 * x := mul_le_mul_of_nonneg_right hb.le ha
    have h3 : x * x * x ≤ 1 * x * x := by nlinarith
    have h4 : 0 ≤ x * x * x := by positivity
    nlinarith
  all_goals
    have hx0 : 0 < x := by linarith
    have h2 := mul_le_mul_of_nonneg_right hb.le hx0.le
    have h3 := mul_le_mul_of_nonneg_right h2 hx0.le
    have h4 := mul_le_mul_of_nonneg_right ha hx0.le
    have h5 := mul_le_mul_of_nonneg_right h4 hx0.le
    have h6 := mul_le_mul_of_nonneg_right hx hx0.le
    have h7 := mul_le_mul_of_nonneg_right h6 hx0.le
    ring_nf at h2 h3 h4 h5 h6 h7 ⊢
    linarith

theorem couponX_large : ∀ o, o < 40 → 6 ≤ o → (300000 : ℚ) ≤ couponX.getD o 0 := by
  decide +kernel

/-- The coupon estimate is at least the count, and at most a thousandth above it. -/
theorem couponEst_close {n : Nat} (h : n ≤ 200000) :
    ∃ e, couponEst n = .ok e ∧ (n : ℚ) ≤ e ∧ e ≤ n * (1 + 1 / 1000) := by
  obtain ⟨o, ho, ha, hb, e⟩ := couponRaw_ok (n := n) (by omega)
  have hn : (n : ℚ) ≤ 200000 := by exact_mod_cast h
  have h6 : o < 6 := by
    by_contra hc
    have := couponX_large o (by omega) (by omega)
    linarith
  refine ⟨max (interpVal couponX couponY o n) n, ?_, le_max_right _ _, ?_⟩
  · unfold couponEst
    rw [e, Outcome.ok_bind]
  · apply max_le (interp_le h6 ha hb hn)
    have : (0 : ℚ) ≤ n := Nat.cast_nonneg n
    linarith

end Verif.Hll
