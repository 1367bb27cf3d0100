import Verif.Binomial
import Verif.ThetaModel

/-!
# C93, C94: confidence bounds of theta and tuple sketches

Over exact reals (see `BinomialModel`).  `fuel` bounds the iterations of the two summation loops;
`C93_defined` shows that enough fuel always exists, all other theorems hold for every fuel with which
the code returns.
-/

noncomputable section

namespace Verif.Binomial

open Finset

/-! ## C93: the bounds are defined, ordered and widen -/

/-- C93 (defined).  For every number of samples, every theta in (0, 1] and 1, 2 or 3 standard
deviations both bounds are computed: no error, no index outside the tables, and the loops stop. -/
theorem C93_defined (n : ℕ) {θ : ℝ} {s : ℕ} (h0 : 0 < θ) (h1 : θ ≤ 1) (hs1 : 1 ≤ s) (hs3 : s ≤ 3) :
    ∃ F, ∀ fuel, F ≤ fuel → ∃ lb ub,
      lowerBound fuel n θ s = .ok lb ∧ upperBound fuel n θ s = .ok ub := by
  obtain ⟨F, hF⟩ := approxLB_total n h0 h1 hs1 hs3
  obtain ⟨G, hG⟩ := approxUB_total n h0 h1 hs1 hs3
  have hv := validate_ok.mpr ⟨h0, h1, hs1, hs3⟩
  refine ⟨max F G, fun fuel hf => ?_⟩
  obtain ⟨x, hx⟩ := hF fuel (le_trans (le_max_left _ _) hf)
  obtain ⟨y, hy⟩ := hG fuel (le_trans (le_max_right _ _) hf)
  refine ⟨min (n / θ) (max n x), max (n / θ) y, ?_, ?_⟩
  · unfold lowerBound; rw [hv, Outcome.ok_bind]; simp only; rw [hx]; rfl
  · unfold upperBound; rw [hv, Outcome.ok_bind]; simp only; rw [hy]; rfl

/-- C93 (errors).  Any other theta or number of standard deviations is an error, for both bounds. -/
theorem C93_rejects (fuel n : ℕ) {θ : ℝ} {s : ℕ} (h : θ ≤ 0 ∨ 1 < θ ∨ s < 1 ∨ 3 < s) :
    ∃ e, lowerBound fuel n θ s = .err e ∧ upperBound fuel n θ s = .err e := by
  unfold lowerBound upperBound validate
  by_cases c : θ ≤ 0 ∨ 1 < θ
  · rw [if_pos c]; exact ⟨_, rfl, rfl⟩
  · rw [if_neg c, if_pos (by tauto)]; exact ⟨_, rfl, rfl⟩

/-- C93 (order).  Samples ≤ lower bound ≤ estimate ≤ upper bound; equalities when theta is 1. -/
theorem C93_order {fuel fuel' n s t : ℕ} {θ lb ub : ℝ} (hl : lowerBound fuel n θ s = .ok lb)
    (hu : upperBound fuel' n θ t = .ok ub) :
    (n : ℝ) ≤ lb ∧ lb ≤ n / θ ∧ n / θ ≤ ub ∧ (θ = 1 → lb = n ∧ ub = n) := by
  obtain ⟨⟨h0, h1, -, -⟩, x, hx, rfl⟩ := lowerBound_ok hl
  obtain ⟨-, y, hy, rfl⟩ := upperBound_ok hu
  have hn : (n : ℝ) ≤ n / θ := by
    rw [le_div_iff₀ h0]
    have : (0 : ℝ) ≤ n := Nat.cast_nonneg n
    nlinarith
  refine ⟨le_min hn (le_max_left _ _), min_le_left _ _, le_max_left _ _, ?_⟩
  rintro rfl
  have ex : x = n := by
    cases hx <;> first | rfl | (exfalso; linarith) | (exfalso; norm_num at *)
  have ey : y = n := by
    cases hy <;> first | rfl | (exfalso; linarith) | (exfalso; norm_num at *)
  rw [ex, ey, div_one, max_self, min_self]
  exact ⟨rfl, rfl⟩

/-- C93 (width).  More standard deviations never narrow the interval. -/
theorem C93_widens {f f' n s t : ℕ} {θ : ℝ} (hst : s ≤ t) :
    (∀ {x y : ℝ}, lowerBound f n θ s = .ok x → lowerBound f' n θ t = .ok y → y ≤ x) ∧
    (∀ {x y : ℝ}, upperBound f n θ s = .ok x → upperBound f' n θ t = .ok y → x ≤ y) := by
  constructor
  · intro x y hx hy
    obtain ⟨⟨h0, -, hs, -⟩, x', hx', rfl⟩ := lowerBound_ok hx
    obtain ⟨⟨-, -, -, ht⟩, y', hy', rfl⟩ := lowerBound_ok hy
    have := hx'.anti h0 hs hst ht hy'
    gcongr
  · intro x y hx hy
    obtain ⟨⟨h0, -, hs, -⟩, x', hx', rfl⟩ := upperBound_ok hx
    obtain ⟨⟨-, -, -, ht⟩, y', hy', rfl⟩ := upperBound_ok hy
    have := hx'.mono h0 hs hst ht hy'
    gcongr

/-- C93 (many samples).  Above 120 samples the bounds are half a unit outside the population sizes
for which the observation, moved by one half, lies exactly the given number of standard deviations
above (below) its mean: sizes `x`, `y` with `xθ + s√(xθ(1-θ)) = n - ½` and
`yθ - s√(yθ(1-θ)) = n + ½`. -/
theorem C93_normal {fuel fuel' n s : ℕ} {θ lb ub : ℝ} (hl : lowerBound fuel n θ s = .ok lb)
    (hu : upperBound fuel' n θ s = .ok ub) (hn : 120 < n) (hθ : θ < 1) :
    ∃ x y : ℝ, 0 ≤ x ∧ 0 ≤ y ∧
      x * θ + s * Real.sqrt (x * θ * (1 - θ)) = n - 1 / 2 ∧
      y * θ - s * Real.sqrt (y * θ * (1 - θ)) = n + 1 / 2 ∧
      lb = max (n : ℝ) (x - 1 / 2) ∧ ub = y + 1 / 2 := by
  obtain ⟨⟨h0, h1, -, -⟩, x, hx, rfl⟩ := lowerBound_ok hl
  obtain ⟨-, y, hy, rfl⟩ := upperBound_ok hu
  have ex : x = contClassicLB n θ s - 1 / 2 := by
    cases hx <;> first | rfl | (exfalso; omega) | (exfalso; linarith)
  have ey : y = contClassicUB n θ s + 1 / 2 := by
    cases hy <;> first | rfl | (exfalso; omega) | (exfalso; linarith)
  obtain ⟨p1, e1⟩ := classicLB_eq (n := n) (s := s) h0 h1 (by omega)
  obtain ⟨p2, e2⟩ := classicUB_eq (n := n) (s := s) h0 h1
  refine ⟨_, _, p1, p2, e1, e2, ?_, ?_⟩
  · have hs : 0 ≤ (s : ℝ) * Real.sqrt (contClassicLB n θ s * θ * (1 - θ)) := by positivity
    have hn1 : (n : ℝ) ≤ n / θ := by
      rw [le_div_iff₀ h0]
      have : (0 : ℝ) ≤ n := Nat.cast_nonneg n
      nlinarith
    rw [ex, min_eq_right]
    refine max_le hn1 ?_
    have : contClassicLB n θ s ≤ n / θ := by rw [le_div_iff₀ h0]; linarith
    linarith
  · have hs : 0 ≤ (s : ℝ) * Real.sqrt (contClassicUB n θ s * θ * (1 - θ)) := by positivity
    rw [ey, max_eq_right]
    have : (n : ℝ) / θ ≤ contClassicUB n θ s := by rw [div_le_iff₀ h0]; linarith
    linarith

/-- `LowerBound` of a theta sketch: theta/update_sketch.go l.159-164, compact_sketch.go l.149-158,
wrapped_compact_sketch.go l.86-95 (with `subset` the number retained), and `LowerBoundFromSubset` of
tuple sketches: tuple/compact_sketch.go l.171-177, update_sketch.go, arrayofnumbers_*.go alike -/
def sketchLB (fuel : ℕ) (isEmpty : Bool) (theta64 retained subset s : ℕ) : Outcome ℝ :=
  let n := min subset retained
  if theta64 < Theta.maxTheta ∧ isEmpty = false then
    lowerBound fuel n ((theta64 : ℝ) / Theta.maxTheta) s
  else .ok n

/-- `UpperBound`, `UpperBoundFromSubset` in the same files: theta/update_sketch.go l.170-175,
compact_sketch.go l.164-173, wrapped_compact_sketch.go l.98-107, tuple/compact_sketch.go l.192-198 -/
def sketchUB (fuel : ℕ) (isEmpty : Bool) (theta64 retained subset s : ℕ) : Outcome ℝ :=
  let n := min subset retained
  if theta64 < Theta.maxTheta ∧ isEmpty = false then
    upperBound fuel n ((theta64 : ℝ) / Theta.maxTheta) s
  else .ok n

/-- C93 (sketches).  For every theta or tuple sketch with positive theta (empty only with nothing
retained and theta 1): with 1, 2 or 3 standard deviations both bounds are returned and the estimate,
the number in the subset over theta, lies between them; the lower bound is at least the number
counted; outside estimation mode both are that number. -/
theorem C93_sketch {isEmpty : Bool} {theta64 retained s : ℕ} (subset : ℕ) (h0 : 0 < theta64)
    (h1 : theta64 ≤ Theta.maxTheta) (he : isEmpty = true → theta64 = Theta.maxTheta)
    (hs1 : 1 ≤ s) (hs3 : s ≤ 3) :
    ∃ F, ∀ fuel, F ≤ fuel → ∃ lb ub, sketchLB fuel isEmpty theta64 retained subset s = .ok lb ∧
      sketchUB fuel isEmpty theta64 retained subset s = .ok ub ∧
      ((min subset retained : ℕ) : ℝ) ≤ lb ∧
      lb ≤ ((min subset retained : ℕ) : ℝ) / ((theta64 : ℝ) / Theta.maxTheta) ∧
      ((min subset retained : ℕ) : ℝ) / ((theta64 : ℝ) / Theta.maxTheta) ≤ ub ∧
      (theta64 = Theta.maxTheta → lb = (min subset retained : ℕ) ∧ ub = (min subset retained : ℕ)) := by
  have hM : (0 : ℝ) < Theta.maxTheta := by
    have : 0 < Theta.maxTheta := by decide
    exact_mod_cast this
  have ht : (0 : ℝ) < theta64 := by exact_mod_cast h0
  by_cases c : theta64 < Theta.maxTheta ∧ isEmpty = false
  · have hle : (theta64 : ℝ) / Theta.maxTheta ≤ 1 := by
      rw [div_le_one hM]; exact_mod_cast h1
    obtain ⟨F, hF⟩ := C93_defined (min subset retained) (div_pos ht hM) hle hs1 hs3
    refine ⟨F, fun fuel hf => ?_⟩
    obtain ⟨lb, ub, hl, hu⟩ := hF fuel hf
    have ho := C93_order hl hu
    refine ⟨lb, ub, ?_, ?_, ho.1, ho.2.1, ho.2.2.1, fun h => absurd c.1 (by omega)⟩
    · unfold sketchLB; simp only; rw [if_pos c]; exact hl
    · unfold sketchUB; simp only; rw [if_pos c]; exact hu
  · refine ⟨0, fun fuel _ => ⟨((min subset retained : ℕ) : ℝ), ((min subset retained : ℕ) : ℝ), ?_, ?_, ?_⟩⟩
    · unfold sketchLB; simp only; rw [if_neg c]
    · unfold sketchUB; simp only; rw [if_neg c]
    · have ht1 : theta64 = Theta.maxTheta := by
        rcases Bool.eq_false_or_eq_true isEmpty with h | h
        · exact he h
        · by_contra hc
          exact c ⟨by omega, h⟩
      rw [ht1, div_self hM.ne', div_one]
      exact ⟨le_refl _, le_refl _, le_refl _, fun _ => ⟨rfl, rfl⟩⟩

/-- the hypotheses hold for a sketch with 200 retained hashes and theta near one half -/
example : ∃ F, ∀ fuel, F ≤ fuel → ∃ lb ub,
    sketchLB fuel false (2 ^ 62) 200 200 2 = .ok lb ∧ sketchUB fuel false (2 ^ 62) 200 200 2 = .ok ub ∧
    (200 : ℝ) ≤ lb ∧ lb ≤ ub := by
  obtain ⟨F, hF⟩ := C93_sketch (isEmpty := false) (theta64 := 2 ^ 62) (retained := 200) (s := 2) 200
    (by decide) (by decide) (by decide) (by decide) (by decide)
  refine ⟨F, fun fuel hf => ?_⟩
  obtain ⟨lb, ub, h1, h2, h3, h4, h5, -⟩ := hF fuel hf
  exact ⟨lb, ub, h1, h2, by simpa using h3, h4.trans h5⟩

/-! ## C94: exact binomial bounds for few samples -/

/-- C94 (lower).  With 1 sample, or with 2 to 120 samples and theta from samples/360 to 1 - 10^-5,
the lower bound is the largest population size for which this many samples or more have probability
at most the tail of the normal distribution (and at least the number of samples, at most the
estimate). -/
theorem C94_lower_exact {fuel n s : ℕ} {θ lb : ℝ} (h : lowerBound fuel n θ s = .ok lb) (hθ : θ < 1)
    (hn : n = 1 ∨ (2 ≤ n ∧ n ≤ 120 ∧ (n : ℝ) / 360 ≤ θ ∧ θ ≤ 1 - 1 / 10 ^ 5)) :
    ∃ r : ℕ, atLeast θ r n ≤ tailProb s ∧ (∀ m, atLeast θ m n ≤ tailProb s → m ≤ r) ∧
      lb = min (n / θ) (max n r) := by
  obtain ⟨⟨h0, h1, -, -⟩, x, hx, rfl⟩ := lowerBound_ok h
  have : ∃ r : ℕ, x = r ∧ IsNStar θ (tailProb s) n r := by
    rcases hn with rfl | ⟨h2, h3, h4, h5⟩ <;> cases hx <;>
      first
        | (exfalso; omega)
        | (exfalso; linarith)
        | exact ⟨_, rfl, by assumption⟩
  obtain ⟨r, rfl, hr⟩ := this
  exact ⟨r, hr.1, hr.2, rfl⟩

/-- C94 (upper).  With no sample, or with 1 to 120 samples and theta from samples/360 to 1 - 10^-5,
the upper bound is the smallest population size for which this many samples or fewer have
probability at most the tail of the normal distribution (and at least the estimate). -/
theorem C94_upper_exact {fuel n s : ℕ} {θ ub : ℝ} (h : upperBound fuel n θ s = .ok ub) (hθ : θ < 1)
    (hn : n = 0 ∨ (n ≤ 120 ∧ (n : ℝ) / 360 ≤ θ ∧ θ ≤ 1 - 1 / 10 ^ 5)) :
    ∃ r : ℕ, atMost θ r n ≤ tailProb s ∧ (∀ m, atMost θ m n ≤ tailProb s → r ≤ m) ∧
      ub = max (n / θ) r := by
  obtain ⟨⟨h0, h1, -, -⟩, x, hx, rfl⟩ := upperBound_ok h
  have : ∃ r : ℕ, x = r ∧ IsNPrime θ (tailProb s) n r := by
    rcases hn with rfl | ⟨h3, h4, h5⟩ <;> cases hx <;>
      first
        | (exfalso; omega)
        | (exfalso; linarith)
        | exact ⟨_, rfl, by assumption⟩
        | (subst_vars; exact ⟨_, rfl, by assumption⟩)
  obtain ⟨r, rfl, hr⟩ := this
  exact ⟨r, hr.1, hr.2, rfl⟩

theorem atMost_near {θ : ℝ} (h1 : θ ≤ 1) (hq : 1 - 1 / 10 ^ 5 < θ) {i : ℕ} (hi : i ≤ 120) :
    atMost θ (i + 2) i ≤ 1 / 1000 := by
  have e : atMost θ (i + 2) i = 1 - θ ^ (i + 1) * (1 + (i + 1) * (1 - θ)) := by
    have h := atMost_top (p := θ) (n := i + 2) (k := i + 2) (le_refl _)
    unfold atMost at h ⊢
    rw [Finset.sum_range_succ, Finset.sum_range_succ] at h
    have e1 : binProb θ (i + 2) (i + 1) = (i + 2) * θ ^ (i + 1) * (1 - θ) := by
      unfold binProb
      have : (i + 2).choose (i + 1) = i + 2 := Nat.choose_succ_self_right (i + 1)
      rw [this, show i + 2 - (i + 1) = 1 by omega]
      push_cast; ring
    have e2 : binProb θ (i + 2) (i + 2) = θ ^ (i + 1) * θ := by
      unfold binProb; simp [pow_succ]
    rw [e1, e2] at h
    linear_combination h
  have hb := one_add_mul_le_pow (a := θ - 1) (by linarith) (i + 1)
  have hi' : (i : ℝ) ≤ 120 := by exact_mod_cast hi
  have hi0 : (0 : ℝ) ≤ i := Nat.cast_nonneg i
  have hq' : 0 ≤ 1 - θ := by linarith
  rw [show (1 : ℝ) + (θ - 1) = θ by ring] at hb
  push_cast at hb
  have hz : ((i : ℝ) + 1) * (1 - θ) ≤ 121 * (1 / 10 ^ 5) :=
    mul_le_mul (by linarith) (by linarith) hq' (by norm_num)
  have hz0 : 0 ≤ ((i : ℝ) + 1) * (1 - θ) := by positivity
  have hm : (1 - (i + 1) * (1 - θ)) * (1 + (i + 1) * (1 - θ)) ≤ θ ^ (i + 1) * (1 + (i + 1) * (1 - θ)) :=
    mul_le_mul_of_nonneg_right (by linarith) (by linarith)
  rw [e]
  norm_num at hz
  nlinarith

open Classical in
/-- C94 (coverage of the lower bound).  Let every member of a population of `N` be sampled
independently with probability theta.  The probability that at most one member, or at most
min(120, 360 theta) members, are sampled and the lower bound exceeds `N` is at most the tail of the
normal distribution for that number of standard deviations. -/
theorem C94_lower_coverage (fuel N : ℕ) {s : ℕ} {θ : ℝ} (h0 : 0 < θ) (h1 : θ ≤ 1) :
    ∑ k ∈ (range (N + 1)).filter (fun k : ℕ => (k ≤ 1 ∨ (k ≤ 120 ∧ (k : ℝ) ≤ 360 * θ)) ∧
      ∃ lb, lowerBound fuel k θ s = .ok lb ∧ (N : ℝ) < lb), binProb θ N k ≤ tailProb s := by
  set S := (range (N + 1)).filter (fun k : ℕ => (k ≤ 1 ∨ (k ≤ 120 ∧ (k : ℝ) ≤ 360 * θ)) ∧
      ∃ lb, lowerBound fuel k θ s = .ok lb ∧ (N : ℝ) < lb) with hS
  have key : ∀ k ∈ S, 1 ≤ k ∧ atLeast θ N k ≤ tailProb s := by
    intro k hk
    rw [hS, Finset.mem_filter, Finset.mem_range] at hk
    obtain ⟨hkN, hex, lb, hlb, hlt⟩ := hk
    obtain ⟨⟨-, -, -, -⟩, x, hx, rfl⟩ := lowerBound_ok hlb
    have hk' : (k : ℝ) ≤ N := by exact_mod_cast Nat.lt_succ_iff.mp hkN
    have hxN : (N : ℝ) < x := by
      have := lt_of_lt_of_le hlt (min_le_right _ _)
      rcases lt_max_iff.mp this with h | h
      · linarith
      · exact h
    have hstar : ∀ {r : ℕ}, 1 ≤ k → IsNStar θ (tailProb s) k r → (N : ℝ) < r →
        1 ≤ k ∧ atLeast θ N k ≤ tailProb s := by
      intro r hk1 hr hlt
      refine ⟨hk1, le_trans ?_ hr.1⟩
      have : N < r := by exact_mod_cast hlt
      obtain ⟨a, rfl⟩ : ∃ a, k = a + 1 := ⟨k - 1, by omega⟩
      exact atLeast_mono h0.le h1 this.le a
    cases hx with
    | all => linarith
    | none h => subst h; simp only [Nat.cast_zero] at *; linarith
    | one r h _ hr => subst h; exact hstar (le_refl _) hr hxN
    | many h => exfalso; omega
    | near => linarith
    | table h2 h3 h4 =>
      exfalso
      rcases hex with h | h
      · omega
      · linarith [h.2]
    | summed r h2 _ _ _ hr => exact hstar (by omega) hr hxN
  rcases S.eq_empty_or_nonempty with he | hne
  · rw [he, Finset.sum_empty]; exact (tailProb_pos s).le
  · obtain ⟨hk1, hk⟩ := key _ (S.min'_mem hne)
    refine le_trans ?_ hk
    refine Finset.sum_le_sum_of_subset_of_nonneg ?_ fun i _ _ => binProb_nonneg h0.le h1 _ _
    intro i hi
    have h2 := S.min'_le i hi
    have h3 : i < N + 1 := by
      rw [hS, Finset.mem_filter, Finset.mem_range] at hi; exact hi.1
    rw [Finset.mem_Ico]
    exact ⟨h2, h3⟩

open Classical in
/-- C94 (coverage of the upper bound).  Let every member of a population of `N` be sampled
independently with probability theta.  The probability that at most min(120, 360 theta) members are
sampled and the upper bound is below `N` is at most the tail of the normal distribution for that
number of standard deviations. -/
theorem C94_upper_coverage (fuel N : ℕ) {s : ℕ} {θ : ℝ} (h0 : 0 < θ) (h1 : θ ≤ 1) :
    ∑ k ∈ (range (N + 1)).filter (fun k : ℕ => (k ≤ 120 ∧ (k : ℝ) ≤ 360 * θ) ∧
      ∃ ub, upperBound fuel k θ s = .ok ub ∧ ub < (N : ℝ)), binProb θ N k ≤ tailProb s := by
  set S := (range (N + 1)).filter (fun k : ℕ => (k ≤ 120 ∧ (k : ℝ) ≤ 360 * θ) ∧
      ∃ ub, upperBound fuel k θ s = .ok ub ∧ ub < (N : ℝ)) with hS
  have key : ∀ k ∈ S, atMost θ N k ≤ tailProb s := by
    intro k hk
    rw [hS, Finset.mem_filter, Finset.mem_range] at hk
    obtain ⟨hkN, hex, ub, hub, hlt⟩ := hk
    obtain ⟨⟨-, -, -, -⟩, x, hx, rfl⟩ := upperBound_ok hub
    have hxN : x < (N : ℝ) := lt_of_le_of_lt (le_max_right _ _) hlt
    have hprime : ∀ {r : ℕ}, IsNPrime θ (tailProb s) k r → (r : ℝ) < N →
        atMost θ N k ≤ tailProb s := by
      intro r hr hlt
      refine le_trans ?_ hr.1
      have : r < N := by exact_mod_cast hlt
      exact atMost_anti h0.le h1 this.le k
    cases hx with
    | all h =>
      subst h
      have hkN' : k < N := by exact_mod_cast hxN
      have : atMost 1 N k = 0 := by
        unfold atMost
        apply Finset.sum_eq_zero
        intro i hi
        rw [Finset.mem_range] at hi
        unfold binProb
        rw [sub_self, zero_pow (by omega), mul_zero]
      rw [this]; exact (tailProb_pos s).le
    | none r h _ hr => subst h; exact hprime hr hxN
    | many h => exfalso; omega
    | near _ _ hq =>
      have hkN' : k + 1 < N := by exact_mod_cast hxN
      refine le_trans (atMost_anti h0.le h1 (show k + 2 ≤ N by omega) k) ?_
      exact (atMost_near h1 hq hex.1).trans (tailProb_ge s).le
    | table h2 h3 h4 => exfalso; linarith [hex.2]
    | summed r h2 _ _ _ hr => exact hprime hr hxN
  rcases S.eq_empty_or_nonempty with he | hne
  · rw [he, Finset.sum_empty]; exact (tailProb_pos s).le
  · refine le_trans ?_ (key _ (S.max'_mem hne))
    refine Finset.sum_le_sum_of_subset_of_nonneg ?_ fun i _ _ => binProb_nonneg h0.le h1 _ _
    intro i hi
    have h2 := S.le_max' i hi
    rw [Finset.mem_range]
    omega

/-- With theta at least 1/3 and a population of at most 120 the restriction on the number of samples
is met by every outcome. -/
example {N k : ℕ} {θ : ℝ} (hN : N ≤ 120) (hθ : 1 / 3 ≤ θ) (hk : k ∈ range (N + 1)) :
    k ≤ 120 ∧ (k : ℝ) ≤ 360 * θ := by
  rw [Finset.mem_range] at hk
  have h : k ≤ 120 := by omega
  have : (k : ℝ) ≤ 120 := by exact_mod_cast h
  exact ⟨h, by linarith⟩

end Verif.Binomial
