import Verif.HllInterp
import Mathlib.Tactic.FieldSimp

/-!
# The cubic stays between its neighbours

For equidistant values and points whose neighbouring gaps differ by at most a quarter, the
interpolated value lies between the values at the two neighbouring points.
-/

namespace Verif.Hll

theorem cubic_mid (t p h q s b u : ℚ) (hp : 0 < p) (hh : 0 < h) (hq : 0 < q) :
    cubic (t - p) (s * b) t (s * (b + 1)) (t + h) (s * (b + 2)) (t + h + q) (s * (b + 3)) (t + u) =
      s * (b + 1) + s * u / h - s * u * (h - u) *
        (((h + q - u) * ((1 / h - 1 / p) / (h + p)) + (u + p) * ((1 / q - 1 / h) / (q + h))) /
          (p + h + q)) := by
  unfold cubic
  have e1 : t + u - t = u := by ring
  have e2 : t + u - (t + h) = u - h := by ring
  have e3 : t + u - (t + h + q) = u - h - q := by ring
  have e4 : t + u - (t - p) = u + p := by ring
  have d1 : t - p - t = -p := by ring
  have d2 : t - p - (t + h) = -(p + h) := by ring
  have d3 : t - p - (t + h + q) = -(p + h + q) := by ring
  have d4 : t - (t - p) = p := by ring
  have d5 : t - (t + h) = -h := by ring
  have d6 : t - (t + h + q) = -(h + q) := by ring
  have d7 : t + h - (t - p) = p + h := by ring
  have d8 : t + h - t = h := by ring
  have d9 : t + h - (t + h + q) = -q := by ring
  have d10 : t + h + q - (t - p) = p + h + q := by ring
  have d11 : t + h + q - t = h + q := by ring
  have d12 : t + h + q - (t + h) = q := by ring
  rw [e1, e2, e3, e4, d1, d2, d3, d4, d5, d6, d7, d8, d9, d10, d11, d12]
  have h1 : p + h ≠ 0 := by positivity
  have h2 : h + q ≠ 0 := by positivity
  have h3 : p + h + q ≠ 0 := by positivity
  have h4 : h + p ≠ 0 := by positivity
  have h5 : q + h ≠ 0 := by positivity
  field_simp
  ring

theorem cubic_first (t h q r s b u : ℚ) (hh : 0 < h) (hq : 0 < q) (hr : 0 < r) :
    cubic t (s * b) (t + h) (s * (b + 1)) (t + h + q) (s * (b + 2)) (t + h + q + r) (s * (b + 3))
      (t + u) =
      s * b + s * u / h - s * u * (h - u) *
        (((1 / q - 1 / h) / (h + q)) * (1 + (h + q - u) / (h + q + r)) -
          ((1 / r - 1 / q) / (q + r)) * ((h + q - u) / (h + q + r))) := by
  unfold cubic
  have e1 : t + u - t = u := by ring
  have e2 : t + u - (t + h) = u - h := by ring
  have e3 : t + u - (t + h + q) = u - h - q := by ring
  have e4 : t + u - (t + h + q + r) = u - h - q - r := by ring
  have d1 : t - (t + h) = -h := by ring
  have d2 : t - (t + h + q) = -(h + q) := by ring
  have d3 : t - (t + h + q + r) = -(h + q + r) := by ring
  have d4 : t + h - t = h := by ring
  have d5 : t + h - (t + h + q) = -q := by ring
  have d6 : t + h - (t + h + q + r) = -(q + r) := by ring
  have d7 : t + h + q - t = h + q := by ring
  have d8 : t + h + q - (t + h) = q := by ring
  have d9 : t + h + q - (t + h + q + r) = -r := by ring
  have d10 : t + h + q + r - t = h + q + r := by ring
  have d11 : t + h + q + r - (t + h) = q + r := by ring
  have d12 : t + h + q + r - (t + h + q) = r := by ring
  rw [e1, e2, e3, e4, d1, d2, d3, d4, d5, d6, d7, d8, d9, d10, d11, d12]
  have h1 : h + q ≠ 0 := by positivity
  have h2 : q + r ≠ 0 := by positivity
  have h3 : h + q + r ≠ 0 := by positivity
  field_simp
  ring

theorem cubic_last (t r p h s b u : ℚ) (hr : 0 < r) (hp : 0 < p) (hh : 0 < h) :
    cubic (t - p - r) (s * b) (t - p) (s * (b + 1)) t (s * (b + 2)) (t + h) (s * (b + 3)) (t + u) =
      s * (b + 2) + s * u / h - s * u * (h - u) *
        (((1 / h - 1 / p) / (h + p)) * (1 + (u + p) / (h + p + r)) -
          ((1 / p - 1 / r) / (p + r)) * ((u + p) / (h + p + r))) := by
  unfold cubic
  have e1 : t + u - t = u := by ring
  have e2 : t + u - (t + h) = u - h := by ring
  have e3 : t + u - (t - p) = u + p := by ring
  have e4 : t + u - (t - p - r) = u + p + r := by ring
  have d1 : t - p - r - (t - p) = -r := by ring
  have d2 : t - p - r - t = -(p + r) := by ring
  have d3 : t - p - r - (t + h) = -(h + p + r) := by ring
  have d4 : t - p - (t - p - r) = r := by ring
  have d5 : t - p - t = -p := by ring
  have d6 : t - p - (t + h) = -(h + p) := by ring
  have d7 : t - (t - p - r) = p + r := by ring
  have d8 : t - (t - p) = p := by ring
  have d9 : t - (t + h) = -h := by ring
  have d10 : t + h - (t - p - r) = h + p + r := by ring
  have d11 : t + h - (t - p) = h + p := by ring
  have d12 : t + h - t = h := by ring
  rw [e1, e2, e3, e4, d1, d2, d3, d4, d5, d6, d7, d8, d9, d10, d11, d12]
  have h1 : h + p ≠ 0 := by positivity
  have h2 : p + r ≠ 0 := by positivity
  have h3 : h + p + r ≠ 0 := by positivity
  field_simp
  ring

/-- a correction of at most `1/h^2` keeps the value in the interval -/
theorem between {s y u h G : ℚ} (hs : 0 ≤ s) (h0 : 0 ≤ u) (h1 : u ≤ h) (hh : 0 < h)
    (hG : |G| * (h * h) ≤ 1) :
    y ≤ y + s * u / h - s * u * (h - u) * G ∧ y + s * u / h - s * u * (h - u) * G ≤ y + s := by
  have hG1 : G * (h * h) ≤ 1 := le_trans (mul_le_mul_of_nonneg_right (le_abs_self G) (by positivity)) hG
  have hG2 : -1 ≤ G * (h * h) := by
    have := mul_le_mul_of_nonneg_right (neg_abs_le G) (by positivity : (0 : ℚ) ≤ h * h)
    linarith
  have e : s * u / h - s * u * (h - u) * G = s / (h * h) * (u * h - u * (h - u) * (G * (h * h))) := by
    field_simp
  have hk : 0 ≤ s / (h * h) := by positivity
  have hw : 0 ≤ u * (h - u) := mul_nonneg h0 (by linarith)
  constructor
  · have : 0 ≤ u * h - u * (h - u) * (G * (h * h)) := by nlinarith
    have := mul_nonneg hk this
    linarith
  · have h3 : u * h - u * (h - u) * (G * (h * h)) ≤ h * h := by nlinarith
    have h4 := mul_le_mul_of_nonneg_left h3 hk
    have h5 : s / (h * h) * (h * h) = s := by field_simp
    linarith

/-- neighbouring gaps differ by at most a quarter -/
def Near (a b : ℚ) : Prop := 4 * a ≤ 5 * b ∧ 4 * b ≤ 5 * a

/-- a second difference relative to the square of the first of its gaps -/
theorem second_le {a b : ℚ} (ha : 0 < a) (hb : 0 < b) (h : Near a b) :
    |(1 / b - 1 / a) / (a + b)| * (a * a) ≤ 1 / 4 := by
  have e : (1 / b - 1 / a) / (a + b) = (a - b) / (a * b * (a + b)) := by field_simp
  rw [e, abs_div, abs_of_pos (by positivity : 0 < a * b * (a + b))]
  have hab : |a - b| ≤ b / 4 := by
    rw [abs_le]; constructor <;> linarith [h.1, h.2]
  rw [div_mul_eq_mul_div, div_le_iff₀ (by positivity)]
  nlinarith [mul_pos ha hb, mul_pos (mul_pos ha ha) hb, mul_le_mul_of_nonneg_right hab
    (by positivity : (0 : ℚ) ≤ a * a), mul_pos (mul_pos ha hb) hb]

theorem second_le' {a b : ℚ} (ha : 0 < a) (hb : 0 < b) (h : Near a b) :
    |(1 / a - 1 / b) / (a + b)| * (a * a) ≤ 1 / 4 := by
  have e : (1 / a - 1 / b) / (a + b) = -((1 / b - 1 / a) / (a + b)) := by ring
  rw [e, abs_neg]
  exact second_le ha hb h

theorem second_far {h q r : ℚ} (hh : 0 < h) (hq : 0 < q) (hr : 0 < r) (h1 : Near h q)
    (h2 : Near q r) : |(1 / r - 1 / q) / (q + r)| * (h * h) ≤ 1 / 2 := by
  have h3 := second_le hq hr h2
  have h4 : h * h ≤ 2 * (q * q) := by nlinarith [h1.1, h1.2]
  have h5 := mul_le_mul_of_nonneg_left h4 (abs_nonneg ((1 / r - 1 / q) / (q + r)))
  nlinarith

theorem near_symm {a b : ℚ} (h : Near a b) : Near b a := ⟨h.2, h.1⟩

theorem mid_between {t p h q s b u : ℚ} (hp : 0 < p) (hh : 0 < h) (hq : 0 < q) (hs : 0 ≤ s)
    (h1 : Near h p) (h2 : Near h q) (h0 : 0 ≤ u) (hu : u ≤ h) :
    s * (b + 1) ≤ cubic (t - p) (s * b) t (s * (b + 1)) (t + h) (s * (b + 2)) (t + h + q)
      (s * (b + 3)) (t + u) ∧
    cubic (t - p) (s * b) t (s * (b + 1)) (t + h) (s * (b + 2)) (t + h + q)
      (s * (b + 3)) (t + u) ≤ s * (b + 2) := by
  rw [cubic_mid t p h q s b u hp hh hq]
  have hA := second_le' hh hp h1
  have hB := second_le hh hq h2
  rw [add_comm h q] at hB
  generalize (1 / h - 1 / p) / (h + p) = A at *
  generalize (1 / q - 1 / h) / (q + h) = B at *
  have hT : 0 < p + h + q := by positivity
  have hG : |((h + q - u) * A + (u + p) * B) / (p + h + q)| * (h * h) ≤ 1 := by
    rw [abs_div, abs_of_pos hT, div_mul_eq_mul_div, div_le_iff₀ hT]
    have h3 := abs_add_le ((h + q - u) * A) ((u + p) * B)
    rw [abs_mul, abs_mul, abs_of_nonneg (by linarith : 0 ≤ h + q - u),
      abs_of_nonneg (by linarith : 0 ≤ u + p)] at h3
    have h4 := mul_le_mul_of_nonneg_right h3 (by positivity : (0 : ℚ) ≤ h * h)
    have h5 := mul_le_mul_of_nonneg_left hA (by linarith : 0 ≤ h + q - u)
    have h6 := mul_le_mul_of_nonneg_left hB (by linarith : 0 ≤ u + p)
    nlinarith
  have := between (y := s * (b + 1)) hs h0 hu hh hG
  refine ⟨this.1, le_trans this.2 (le_of_eq (by ring))⟩

theorem edge_between {s y u h A B w : ℚ} (hs : 0 ≤ s) (h0 : 0 ≤ u) (h1 : u ≤ h) (hh : 0 < h)
    (hA : |A| * (h * h) ≤ 1 / 4) (hB : |B| * (h * h) ≤ 1 / 2) (hw0 : 0 ≤ w) (hw1 : w ≤ 1) :
    y ≤ y + s * u / h - s * u * (h - u) * (A * (1 + w) - B * w) ∧
      y + s * u / h - s * u * (h - u) * (A * (1 + w) - B * w) ≤ y + s := by
  apply between hs h0 h1 hh
  have h3 := abs_sub (A * (1 + w)) (B * w)
  rw [abs_mul, abs_mul, abs_of_nonneg hw0, abs_of_nonneg (by linarith : 0 ≤ 1 + w)] at h3
  have h4 := mul_le_mul_of_nonneg_right h3 (by positivity : (0 : ℚ) ≤ h * h)
  have h5 := mul_le_mul_of_nonneg_right hA (by linarith : 0 ≤ 1 + w)
  have h6 := mul_le_mul_of_nonneg_right hB hw0
  nlinarith

theorem first_between {t h q r s b u : ℚ} (hh : 0 < h) (hq : 0 < q) (hr : 0 < r) (hs : 0 ≤ s)
    (h1 : Near h q) (h2 : Near q r) (h0 : 0 ≤ u) (hu : u ≤ h) :
    s * b ≤ cubic t (s * b) (t + h) (s * (b + 1)) (t + h + q) (s * (b + 2)) (t + h + q + r)
      (s * (b + 3)) (t + u) ∧
    cubic t (s * b) (t + h) (s * (b + 1)) (t + h + q) (s * (b + 2)) (t + h + q + r)
      (s * (b + 3)) (t + u) ≤ s * (b + 1) := by
  rw [cubic_first t h q r s b u hh hq hr]
  have hT : 0 < h + q + r := by positivity
  have := edge_between (y := s * b) hs h0 hu hh (second_le hh hq h1) (second_far hh hq hr h1 h2)
    (w := (h + q - u) / (h + q + r)) (div_nonneg (by linarith) hT.le)
    ((div_le_one hT).mpr (by linarith))
  exact ⟨this.1, le_trans this.2 (le_of_eq (by ring))⟩

theorem last_between {t r p h s b u : ℚ} (hr : 0 < r) (hp : 0 < p) (hh : 0 < h) (hs : 0 ≤ s)
    (h1 : Near h p) (h2 : Near p r) (h0 : 0 ≤ u) (hu : u ≤ h) :
    s * (b + 2) ≤ cubic (t - p - r) (s * b) (t - p) (s * (b + 1)) t (s * (b + 2)) (t + h)
      (s * (b + 3)) (t + u) ∧
    cubic (t - p - r) (s * b) (t - p) (s * (b + 1)) t (s * (b + 2)) (t + h)
      (s * (b + 3)) (t + u) ≤ s * (b + 3) := by
  rw [cubic_last t r p h s b u hr hp hh]
  have hT : 0 < h + p + r := by positivity
  have hB := second_far hh hp hr h1 h2
  rw [show (1 / r - 1 / p) / (p + r) = -((1 / p - 1 / r) / (p + r)) by ring, abs_neg] at hB
  have := edge_between (y := s * (b + 2)) hs h0 hu hh (second_le' hh hp h1) hB
    (w := (u + p) / (h + p + r)) (div_nonneg (by linarith) hT.le)
    ((div_le_one hT).mpr (by linarith))
  exact ⟨this.1, le_trans this.2 (le_of_eq (by ring))⟩

end Verif.Hll
