import Verif.SubsetBoundsModel
import Verif.Proportion
import Verif.ReservoirProps
import Verif.VarOptProps

/-!
# C95: bounds of subset sums of the sampling sketches
-/

noncomputable section

namespace Verif.SubsetBounds

open Rand Proportion

variable {T : Type}

/-! ## Bounds on a proportion -/

/-- C95: for up to two standard deviations both bounds are defined, they lie in `[0, 1]` and the
observed proportion lies between them. -/
theorem C95_proportion_bracket {n k : ℕ} {κ : ℝ} (hn : 1 ≤ n) (hk : k ≤ n) (h0 : 0 ≤ κ)
    (h2 : κ ≤ 2) :
    ∃ lb ub, lowerOnP n k κ = .ok lb ∧ upperOnP n k κ = .ok ub ∧
      0 ≤ lb ∧ lb ≤ (k : ℝ) / n ∧ (k : ℝ) / n ≤ ub ∧ ub ≤ 1 :=
  bracket hn hk h0 h2

example := C95_proportion_bracket (n := 50) (k := 17) (κ := 3 / 2) (by decide) (by decide)
  (by norm_num) (by norm_num)

/-- C95: more successes than trials are refused. -/
theorem C95_proportion_rejects {n k : ℕ} (h : n < k) (κ : ℝ) :
    lowerOnP n k κ = .err "K cannot exceed N" ∧ upperOnP n k κ = .err "K cannot exceed N" := by
  unfold lowerOnP upperOnP
  rw [if_pos h, if_pos h]
  exact ⟨rfl, rfl⟩

example := C95_proportion_rejects (n := 3) (k := 4) (by decide) 1

/-- C95: without trials nothing is known. -/
theorem C95_proportion_no_trials (κ : ℝ) : lowerOnP 0 0 κ = .ok 0 ∧ upperOnP 0 0 κ = .ok 1 := by
  unfold lowerOnP upperOnP
  norm_num

theorem formula_swap {a b : ℝ} (ha : 0 < a) (hb : 0 < b) (y : ℝ) :
    formula a b (-y) + formula b a y = 1 := by
  rw [formula_eq, formula_eq, neg_sq]
  have e1 : 1 / (2 * b - 1) + 1 / (2 * a - 1) = 1 / (2 * a - 1) + 1 / (2 * b - 1) := add_comm _ _
  rw [e1]
  generalize 2 / (1 / (2 * a - 1) + 1 / (2 * b - 1)) = h
  generalize Real.sqrt (h + (y ^ 2 - 3) / 6) = s
  generalize (y ^ 2 - 3) / 6 + 5 / 6 - 2 / (3 * h) = t
  have e2 : 2 * (y * s / h - (1 / (2 * a - 1) - 1 / (2 * b - 1)) * t)
      = -(2 * (-y * s / h - (1 / (2 * b - 1) - 1 / (2 * a - 1)) * t)) := by ring
  rw [e2, Real.exp_neg]
  generalize 2 * (-y * s / h - (1 / (2 * b - 1) - 1 / (2 * a - 1)) * t) = w
  have hw := Real.exp_pos w
  have h1 : 0 < a + b * Real.exp w := by positivity
  have h2 : b + a * (Real.exp w)⁻¹ = (a + b * Real.exp w) / Real.exp w := by
    field_simp; ring
  rw [h2, div_div_eq_mul_div, ← add_div, div_self h1.ne']

/-- C95: failures are successes of the opposite: the lower bound for `k` successes and the upper
bound for `n - k` successes add up to one. -/
theorem C95_proportion_complement {n k : ℕ} (hn : 1 ≤ n) (hk : k ≤ n) (κ : ℝ) :
    ∃ lb ub, lowerOnP n k κ = .ok lb ∧ upperOnP n (n - k) κ = .ok ub ∧ lb + ub = 1 := by
  unfold lowerOnP upperOnP
  rw [if_neg (by omega : ¬ n < k), if_neg (by omega : ¬ n = 0), if_neg (by omega : ¬ n < n - k),
    if_neg (by omega : ¬ n = 0)]
  by_cases c0 : k = 0
  · rw [if_pos c0, if_pos (by omega : n - k = n)]
    exact ⟨_, _, rfl, rfl, by norm_num⟩
  rw [if_neg c0, if_neg (by omega : ¬ n - k = n)]
  by_cases c1 : k = 1
  · rw [if_pos c1, if_pos (by omega : n - k = n - 1)]
    exact ⟨_, _, rfl, rfl, by norm_num⟩
  rw [if_neg c1, if_neg (by omega : ¬ n - k = n - 1)]
  by_cases c2 : k = n
  · rw [if_pos c2, if_pos (by omega : n - k = 0)]
    exact ⟨_, _, rfl, rfl, by norm_num⟩
  rw [if_neg c2, if_neg (by omega : ¬ n - k = 0)]
  refine ⟨_, _, rfl, rfl, ?_⟩
  have e1 : n - (n - k) = k := by omega
  rw [e1]
  have ha : (0 : ℝ) < ((n - k + 1 : ℕ) : ℝ) := by exact_mod_cast Nat.succ_pos _
  have hb : (0 : ℝ) < (k : ℝ) := by exact_mod_cast (by omega : 0 < k)
  have := formula_swap ha hb κ
  have e2 : (-1.0 * κ : ℝ) = -κ := by norm_num
  rw [e2]
  norm_num at this ⊢
  linarith

example := C95_proportion_complement (n := 50) (k := 17) (by decide) (by decide) 2

open Binomial in
/-- C95: where the code uses no approximation (one success, only successes) the lower bound is the
Clopper–Pearson bound: the proportion at which at least as many successes as observed have
probability `δ`. -/
theorem C95_proportion_exact_lower {n k : ℕ} {κ : ℝ} (hn : 1 ≤ n) (hk : k = 1 ∨ k = n)
    (h0 : 0 ≤ κ) : ∃ lb, lowerOnP n k κ = .ok lb ∧ atLeast lb n k = deltaOf κ := by
  obtain ⟨hd0, hd1⟩ := deltaOf_range h0
  have h1 : (1.0 : ℝ) = 1 := by norm_num
  unfold lowerOnP
  rw [if_neg (by omega : ¬ n < k), if_neg (by omega : ¬ n = 0), if_neg (by omega : ¬ k = 0), h1]
  by_cases c1 : k = 1
  · rw [if_pos c1]
    refine ⟨_, rfl, ?_⟩
    subst c1
    rw [atLeast_succ, atMost_zero, sub_sub_cancel, root_pow (by linarith) hn]
    ring
  · rw [if_neg c1, if_pos (by omega : k = n)]
    refine ⟨_, rfl, ?_⟩
    obtain ⟨m, rfl⟩ : ∃ m, n = m + 1 := ⟨n - 1, by omega⟩
    obtain rfl : k = m + 1 := by omega
    rw [tot_first, root_pow hd0.le hn]

example := C95_proportion_exact_lower (n := 50) (κ := 2) (by decide) (Or.inl rfl) (by norm_num)

open Binomial in
/-- C95: likewise the upper bound for no success and for one failure: the proportion at which at
most as many successes as observed have probability `δ`. -/
theorem C95_proportion_exact_upper {n k : ℕ} {κ : ℝ} (hn : 1 ≤ n) (hk : k = 0 ∨ k = n - 1)
    (h0 : 0 ≤ κ) : ∃ ub, upperOnP n k κ = .ok ub ∧ atMost ub n k = deltaOf κ := by
  obtain ⟨hd0, hd1⟩ := deltaOf_range h0
  have h1 : (1.0 : ℝ) = 1 := by norm_num
  unfold upperOnP
  rw [if_neg (by omega : ¬ n < k), if_neg (by omega : ¬ n = 0), if_neg (by omega : ¬ k = n), h1]
  by_cases c1 : k = n - 1
  · rw [if_pos c1]
    refine ⟨_, rfl, ?_⟩
    obtain ⟨m, rfl⟩ : ∃ m, n = m + 1 := ⟨n - 1, by omega⟩
    obtain rfl : k = m := by omega
    have h := atLeast_succ (p := (1 - deltaOf κ) ^ (1 / ((k + 1 : ℕ) : ℝ))) (k + 1) k
    rw [tot_first, root_pow (by linarith) hn] at h
    linarith
  · have hk0 : k = 0 := by omega
    rw [if_neg c1, if_pos hk0]
    refine ⟨_, rfl, ?_⟩
    subst hk0
    rw [atMost_zero, sub_sub_cancel, root_pow hd0.le hn]

example := C95_proportion_exact_upper (n := 50) (κ := 2) (by decide) (Or.inr rfl) (by norm_num)

/-! ## Specification of a summary -/

/-- The bounds are in order around the estimate, and no more than `total` is claimed. -/
structure Brackets (r : Summary) (total : ℝ) : Prop where
  nonneg : 0 ≤ r.lower
  lower : r.lower ≤ r.estimate
  upper : r.estimate ≤ r.upper
  most : r.upper ≤ total

theorem hyper_bracket {n k : ℕ} {rate : ℝ} (hn : 1 ≤ n) (hk : k ≤ n) (h0 : 0 ≤ rate) :
    ∃ lb ub, hyperLower n k rate = .ok lb ∧ hyperUpper n k rate = .ok ub ∧
      0 ≤ lb ∧ lb ≤ (k : ℝ) / n ∧ (k : ℝ) / n ≤ ub ∧ ub ≤ 1 := by
  have h2 : (2.0 : ℝ) = 2 := by norm_num
  have hs : Real.sqrt (1 - rate) ≤ 1 := by
    rw [Real.sqrt_le_left (by norm_num)]
    linarith
  have hp := Real.sqrt_nonneg (1 - rate)
  unfold hyperLower hyperUpper
  rw [h2]
  exact bracket hn hk (by linarith) (by linarith)

theorem hyper_complement {n k : ℕ} (hn : 1 ≤ n) (hk : k ≤ n) (rate : ℝ) :
    ∃ lb ub, hyperLower n k rate = .ok lb ∧ hyperUpper n (n - k) rate = .ok ub ∧ lb + ub = 1 :=
  C95_proportion_complement hn hk _

/-! ## Reservoir -/

/-- Every sketch whose sample has `min(n, k)` items. -/
theorem reservoir_spec {s : Reservoir.Sk T} (hk : 1 ≤ s.k) (hl : s.data.length = min s.n s.k)
    (p : T → Bool) :
    ∃ r, reservoir s p = .ok r ∧
      r.estimate = ((Reservoir.estimateSubsetSum s p).1 : ℝ) ∧
      r.total = s.n ∧ Brackets r s.n ∧
      (s.n ≤ s.k → r.lower = s.data.countP p ∧ r.upper = s.data.countP p) := by
  have hc : s.data.countP p ≤ s.data.length := List.countP_le_length
  unfold reservoir Reservoir.estimateSubsetSum Reservoir.Sk.numSamples
  by_cases h0 : s.n = 0
  · rw [if_pos h0, if_pos h0]
    have hd : s.data = [] := List.length_eq_zero_iff.1 (by omega)
    exact ⟨_, rfl, by norm_num, by simp [h0], ⟨le_refl _, le_refl _, le_refl _, by simp⟩,
      fun _ => by simp [hd]⟩
  rw [if_neg h0, if_neg h0]
  dsimp only
  by_cases h1 : s.n ≤ s.k
  · rw [if_pos h1, if_pos h1]
    rw [Nat.min_eq_left h1] at hl
    refine ⟨_, rfl, by simp, by simp [hl], ⟨?_, le_refl _, le_refl _, ?_⟩, fun _ => ⟨rfl, rfl⟩⟩
    · positivity
    · rw [hl] at hc
      dsimp only
      exact_mod_cast hc
  · rw [if_neg h1, if_neg h1]
    rw [Nat.min_eq_right (by omega)] at hl
    obtain ⟨lb, ub, e1, e2, b0, b1, b2, b3⟩ := hyper_bracket (n := s.data.length)
      (k := s.data.countP p) (rate := (s.data.length : ℝ) / s.n) (by omega) hc (by positivity)
    unfold reservoirSampled
    rw [e1, Outcome.ok_bind, e2, Outcome.ok_bind]
    have hn : (0 : ℝ) ≤ s.n := by positivity
    have h10 : (1.0 : ℝ) = 1 := by norm_num
    refine ⟨_, rfl, ?_, rfl, ⟨?_, ?_, ?_, ?_⟩, fun h => absurd h h1⟩
    · simp only [h10, one_mul]; push_cast; rfl
    · exact mul_nonneg hn b0
    · simp only [h10, one_mul]; exact mul_le_mul_of_nonneg_left b1 hn
    · simp only [h10, one_mul]; exact mul_le_mul_of_nonneg_left b2 hn
    · calc (s.n : ℝ) * ub ≤ s.n * 1 := mul_le_mul_of_nonneg_left b3 hn
        _ = s.n := mul_one _

/-- C95: for every stream, whatever the generator returns, and every predicate, the summary of a
reservoir is defined; its estimate is the unbiased estimate of C39; the bounds lie around it, between
zero and the number of items; and while everything is kept both bounds are the true count. -/
theorem C95_reservoir (E : Reservoir.Env T) (hE : E.Ok) {k : Nat} (hk : 2 ≤ k) (rf : Nat)
    (stream : List T) (hm : stream.length ≤ 2 ^ 48 - 1) (p : T → Bool) :
    All (fun s => ∃ r, reservoir s p = .ok r ∧
        r.estimate = ((Reservoir.estimateSubsetSum s p).1 : ℝ) ∧
        r.total = (stream.filter fun x => !E.isNil x).length ∧
        Brackets r (stream.filter fun x => !E.isNil x).length ∧
        ((stream.filter fun x => !E.isNil x).length ≤ k →
          r.lower = (stream.filter fun x => !E.isNil x).countP p ∧
          r.upper = (stream.filter fun x => !E.isNil x).countP p))
      (Reservoir.sample E k rf stream) := by
  refine (Reservoir.C39_sample E hE hk rf stream hm).mono fun s h => ?_
  obtain ⟨hk', hn, hl, _, hex⟩ := h
  obtain ⟨r, e, h1, h2, h3, h4⟩ := reservoir_spec (s := s) (by omega) (by rw [hl, hk']) p
  rw [hn] at h2 h3
  refine ⟨r, e, h1, h2, h3, fun h => ?_⟩
  have := h4 (by omega)
  rw [hex (by omega)] at this
  exact this

example := C95_reservoir Reservoir.natEnv Reservoir.natEnv_ok (k := 2) (by decide) 3 [5, 6, 7, 8]
  (by decide) (fun x => x = 6)

/-- C95: what is surely in the subset is not in its complement: the lower bound of a predicate and
the upper bound of its negation add up to the number of items. -/
theorem C95_reservoir_complement {s : Reservoir.Sk T} (hk : 1 ≤ s.k)
    (hl : s.data.length = min s.n s.k) (p : T → Bool) :
    ∃ r r', reservoir s p = .ok r ∧ reservoir s (fun x => !p x) = .ok r' ∧
      r.lower + r'.upper = s.n ∧ r.estimate + r'.estimate = s.n := by
  have hc : s.data.countP p ≤ s.data.length := List.countP_le_length
  have hc' : s.data.countP (fun x => !p x) = s.data.length - s.data.countP p := by
    have := List.length_eq_countP_add_countP p (l := s.data)
    simp only [Bool.not_eq_true, Bool.decide_eq_false] at this
    omega
  unfold reservoir Reservoir.Sk.numSamples
  by_cases h0 : s.n = 0
  · rw [if_pos h0, if_pos h0, h0]
    exact ⟨_, _, rfl, rfl, by norm_num, by norm_num⟩
  rw [if_neg h0, if_neg h0]
  dsimp only
  rw [hc']
  have hadd : ((s.data.countP p : ℕ) : ℝ) + ((s.data.length - s.data.countP p : ℕ) : ℝ)
      = s.data.length := by
    rw [Nat.cast_sub hc]; ring
  by_cases h1 : s.n ≤ s.k
  · rw [if_pos h1, if_pos h1]
    rw [Nat.min_eq_left h1] at hl
    refine ⟨_, _, rfl, rfl, ?_, ?_⟩ <;> (dsimp only; rw [hadd, hl])
  · rw [if_neg h1, if_neg h1]
    rw [Nat.min_eq_right (by omega)] at hl
    obtain ⟨lb, ub, e1, e2, e3⟩ := hyper_complement (n := s.data.length) (by omega) hc
      ((s.data.length : ℝ) / s.n)
    obtain ⟨_, ub', e1', e2', _⟩ := hyper_bracket (n := s.data.length)
      (k := s.data.countP p) (rate := (s.data.length : ℝ) / s.n) (by omega) hc (by positivity)
    obtain ⟨lb', _, e3', _, _⟩ := hyper_bracket (n := s.data.length)
      (k := s.data.length - s.data.countP p) (rate := (s.data.length : ℝ) / s.n) (by omega)
      (by omega) (by positivity)
    unfold reservoirSampled
    rw [e1, Outcome.ok_bind, e2', Outcome.ok_bind, e3', Outcome.ok_bind, e2, Outcome.ok_bind]
    refine ⟨_, _, rfl, rfl, ?_, ?_⟩
    · dsimp only; rw [← mul_add, e3, mul_one]
    · dsimp only
      have hd : (s.data.length : ℝ) ≠ 0 := by exact_mod_cast (by omega : s.data.length ≠ 0)
      have h10 : (1.0 : ℝ) = 1 := by norm_num
      rw [h10, one_mul, one_mul, ← mul_add, ← add_div, hadd, div_self hd, mul_one]

example := C95_reservoir_complement (s := ⟨2, 5, 3, [7, 9], 16⟩) (by decide) (by decide)
  (fun x => x = 7)

/-! ## VarOpt -/

theorem wsum_nonneg {l : List (VarOpt.Slot T)} (h : ∀ x ∈ l, 0 < x.weight) (p : T → Bool) :
    0 ≤ VarOpt.wsum p l ∧ VarOpt.wsum p l ≤ VarOpt.wsum (fun _ => true) l := by
  induction l with
  | nil => simp
  | cons x l ih =>
    obtain ⟨h1, h2⟩ := ih fun y hy => h y (List.mem_cons_of_mem _ hy)
    have hx := h x (List.mem_cons_self ..)
    rw [VarOpt.wsum_cons, VarOpt.wsum_cons]
    by_cases c : p x.item = true
    · simp only [c, if_true]
      constructor <;> linarith
    · simp only [c, if_true]
      constructor
      · simpa using h1
      · simp; linarith

/-- The summary of a usable sketch in terms of its two regions. -/
theorem varopt_eq {s : VarOpt.Sk T} (v : VarOpt.Valid s) (p : T → Bool) :
    varopt s p = if s.r = 0 then
        .ok ⟨(VarOpt.wsum p s.hSlots : ℚ), (VarOpt.wsum p s.hSlots : ℚ), (VarOpt.wsum p s.hSlots : ℚ),
          (VarOpt.wsum p s.hSlots : ℚ)⟩
      else varoptSampled s.r (VarOpt.cnt p s.rSlots) ((s.r : ℝ) / ((s.n : ℝ) - s.h))
        (VarOpt.wsum p s.hSlots : ℚ) (VarOpt.wsum (fun _ => true) s.hSlots : ℚ)
        (s.totalWeightR : ℚ) := by
  have h1 := v.hlen
  have h2 := v.rlen
  have h3 := v.le
  have h4 : s.numSamples = s.h + s.r := by unfold VarOpt.Sk.numSamples; omega
  unfold varopt
  by_cases h0 : s.n = 0
  · have hc := v.count
    have hH : s.hSlots = [] := List.length_eq_zero_iff.1 (by omega)
    rw [if_pos h0, if_pos (by omega : s.r = 0), hH]
    simp
  · rw [if_neg h0]
    have hh : ¬ s.h > s.slots.length := by
      unfold VarOpt.Sk.hSlots at h1
      rw [List.length_take] at h1
      omega
    rw [if_neg hh]
    dsimp only
    have hw : (((s.slots.take s.h).filter fun x => p x.item).map fun x => x.weight).sum
        = VarOpt.wsum p s.hSlots := by
      have := VarOpt.sum_filter_pairs p s.hSlots
      rw [← this]
      unfold VarOpt.pairs VarOpt.Sk.hSlots
      rw [List.filter_map, List.map_map]
      rfl
    have hwt : ((s.slots.take s.h).map fun x => x.weight).sum
        = VarOpt.wsum (fun _ => true) s.hSlots := by
      unfold VarOpt.wsum VarOpt.Sk.hSlots
      congr 1
    rw [hw, hwt]
    by_cases hr : s.r = 0
    · rw [if_pos hr, if_pos hr]
    · rw [if_neg hr, if_neg hr]
      have hfull := v.full hr
      have hrq : (0 : ℝ) < s.r := by exact_mod_cast Nat.pos_of_ne_zero hr
      have hnq : (s.r : ℝ) ≤ (s.n : ℝ) - s.h := by
        have : ((s.h + s.r : Nat) : ℝ) ≤ s.n := by exact_mod_cast v.count
        push_cast at this
        linarith
      have hden : (0 : ℝ) < (s.n : ℝ) - s.h := lt_of_lt_of_le hrq hnq
      rw [if_neg]
      · rw [if_neg]
        · have hR : (s.slots.drop (s.h + 1)).take (s.k - s.h) = s.rSlots := by
            unfold VarOpt.Sk.rSlots
            rw [h4, hfull]
          rw [hR]
          rfl
        · unfold VarOpt.Sk.rSlots at h2
          rw [List.length_take, List.length_drop] at h2
          omega
      · rw [not_or]
        refine ⟨not_lt.2 (le_of_lt (div_pos hrq hden)), not_lt.2 ?_⟩
        rw [div_le_iff₀ hden, one_mul]
        exact hnq

theorem samples_regions {s : VarOpt.Sk T} (v : VarOpt.Valid s) (p : T → Bool) :
    VarOpt.weightOf p s.samples
      = VarOpt.wsum p s.hSlots + s.totalWeightR / s.r * VarOpt.cnt p s.rSlots := by
  rw [← VarOpt.est_eq_weightOf]
  exact VarOpt.est_regions v.rlen p

theorem samples_total {s : VarOpt.Sk T} (v : VarOpt.Valid s) (hr : s.r ≠ 0) :
    VarOpt.totalWeight s.samples = VarOpt.wsum (fun _ => true) s.hSlots + s.totalWeightR := by
  rw [← VarOpt.weightOf_true, samples_regions v]
  have hct : VarOpt.cnt (fun _ => true) s.rSlots = s.r := by
    unfold VarOpt.cnt
    rw [← v.rlen, List.countP_eq_length]
    simp
  have hq : (s.r : ℚ) ≠ 0 := by exact_mod_cast hr
  rw [hct, div_mul_cancel₀ _ hq]

/-- Every usable VarOpt sketch. -/
theorem varopt_spec {s : VarOpt.Sk T} (v : VarOpt.Valid s) (p : T → Bool) :
    ∃ r, varopt s p = .ok r ∧
      r.estimate = (VarOpt.weightOf p s.samples : ℚ) ∧
      Brackets r (VarOpt.totalWeight s.samples : ℚ) ∧
      (s.r = 0 → r.lower = r.estimate ∧ r.upper = r.estimate) ∧
      (s.r ≠ 0 → r.total = (VarOpt.totalWeight s.samples : ℚ)) := by
  obtain ⟨w0, w1⟩ := wsum_nonneg v.hpos p
  have w0' : (0 : ℝ) ≤ (VarOpt.wsum p s.hSlots : ℚ) := by exact_mod_cast w0
  have w1' : ((VarOpt.wsum p s.hSlots : ℚ) : ℝ) ≤ (VarOpt.wsum (fun _ => true) s.hSlots : ℚ) := by
    exact_mod_cast w1
  rw [varopt_eq v]
  by_cases hr : s.r = 0
  · rw [if_pos hr]
    have hR : s.rSlots = [] := List.length_eq_zero_iff.1 (by rw [v.rlen, hr])
    have ht : VarOpt.totalWeight s.samples = VarOpt.wsum (fun _ => true) s.hSlots := by
      rw [← VarOpt.weightOf_true, samples_regions v, hR]
      simp [VarOpt.cnt]
    refine ⟨_, rfl, ?_, ⟨w0', le_refl _, le_refl _, ?_⟩, fun _ => ⟨rfl, rfl⟩, fun h => absurd hr h⟩
    · rw [samples_regions v, hR]; simp [VarOpt.cnt]
    · rw [ht]; exact w1'
  · rw [if_neg hr, samples_total v hr, samples_regions v]
    have hc : VarOpt.cnt p s.rSlots ≤ s.r := by
      rw [← v.rlen]; exact List.countP_le_length
    have hn : (0 : ℝ) ≤ (s.n : ℝ) - s.h := by
      have := v.count
      have : (s.h : ℝ) ≤ s.n := by exact_mod_cast (by omega : s.h ≤ s.n)
      linarith
    obtain ⟨lb, ub, e1, e2, b0, b1, b2, b3⟩ := hyper_bracket (n := s.r)
      (k := VarOpt.cnt p s.rSlots) (rate := (s.r : ℝ) / ((s.n : ℝ) - s.h))
      (Nat.pos_of_ne_zero hr) hc (by positivity)
    have ht : (0 : ℝ) ≤ (s.totalWeightR : ℚ) := by exact_mod_cast (v.tot hr).le
    unfold varoptSampled
    rw [e1, Outcome.ok_bind, e2, Outcome.ok_bind]
    refine ⟨_, rfl, ?_, ⟨?_, ?_, ?_, ?_⟩, fun h => absurd h hr, fun _ => ?_⟩
    · dsimp only; push_cast; ring
    · exact add_nonneg w0' (mul_nonneg ht b0)
    · exact add_le_add_right (mul_le_mul_of_nonneg_left b1 ht) _
    · exact add_le_add_right (mul_le_mul_of_nonneg_left b2 ht) _
    · dsimp only
      push_cast
      have := mul_le_mul_of_nonneg_left b3 ht
      linarith
    · dsimp only; push_cast; ring

/-- C95: the same for whatever makes a usable VarOpt sketch of a stream (updates, or a union of
sketches): the summary is defined for every predicate, its estimate is the unbiased estimate, and the
bounds lie around it, between zero and the weight of the stream. -/
theorem C95_varopt {prog : Rand (VarOpt.Sk T)} {stream : List (T × ℚ)}
    (h : VarOpt.Represents prog stream) (p : T → Bool) :
    All (fun s => ∃ r, varopt s p = .ok r ∧
        r.estimate = (VarOpt.weightOf p s.samples : ℚ) ∧
        Brackets r (VarOpt.totalWeight stream : ℚ)) prog := by
  refine h.all.mono fun s hs => ?_
  obtain ⟨v, _, ht, _⟩ := hs
  obtain ⟨r, e, h1, h2, _⟩ := varopt_spec v p
  rw [ht] at h2
  exact ⟨r, e, h1, h2⟩

/-- C95: with at most `k` items all three numbers are the true weight; with more the total is the
weight of the stream. -/
theorem C95_varopt_sample {k : Nat} (h1 : 1 ≤ k) (h2 : k ≤ 2 ^ 31 - 2) (stream : List (T × ℚ))
    (hw : ∀ q ∈ stream, 0 < q.2) (p : T → Bool) :
    All (fun s => ∃ r, varopt s p = .ok r ∧
        Brackets r (VarOpt.totalWeight stream : ℚ) ∧
        (stream.length ≤ k →
          r.lower = (VarOpt.weightOf p stream : ℚ) ∧ r.estimate = (VarOpt.weightOf p stream : ℚ) ∧
          r.upper = (VarOpt.weightOf p stream : ℚ)) ∧
        (k < stream.length → r.total = (VarOpt.totalWeight stream : ℚ)))
      (VarOpt.sample k stream) := by
  refine ((VarOpt.sample_spec h1 h2 hw).1.and (VarOpt.C40_sample h1 h2 stream hw)).mono
    fun s hs => ?_
  obtain ⟨i, hk, _, hns, samples, ha, _, ht, _, _, hex⟩ := hs
  obtain ⟨e', hi, he⟩ := i.inv
  have hn : s.n = stream.length := by rw [i.n]; simp
  rw [List.nil_append] at hi
  have v : VarOpt.Valid s := hi.valid (by rw [hn])
  have hsam : s.samples = samples := by
    have := v.all_ok
    rw [ha] at this
    exact (Outcome.ok.inj this).symm
  obtain ⟨r, e, q1, q2, q3, q4⟩ := varopt_spec v p
  rw [hsam] at q1 q2 q4
  rw [ht] at q2 q4
  refine ⟨r, e, q2, fun h => ?_, fun h => q4 ?_⟩
  · have hr : s.r = 0 := by
      by_contra hr
      have h3 := i.over hr
      simp at h3
      omega
    obtain ⟨c1, c2⟩ := q3 hr
    rw [hex h] at q1
    exact ⟨c1.trans q1, q1, c2.trans q1⟩
  · intro hr
    rcases hi with w | hi
    · have h3 := (i.warm w.r0).1
      have h4 := w.len
      rw [h3] at h4
      simp at h4
      have h5 := w.le
      omega
    · exact hi.r_ne hr

/-- Streams of positive weights. -/
theorem example_weights :
    ∀ q ∈ [((1 : Nat), (1 : ℚ)), (2, 1), (3, 100), (4, 2)], 0 < q.2 := by
  simp

example := C95_varopt (VarOpt.sample_represents (k := 2) (by decide) (by decide) example_weights)
  (fun x => x = 3)
example := C95_varopt (VarOpt.C47_union_represents 0 (maxK := 3) (by decide) (by decide) _
  VarOpt.example_ok) (fun x => x = 3)
example := C95_varopt_sample (k := 2) (by decide) (by decide) _ example_weights (fun x => x = 3)

theorem wsum_not {l : List (VarOpt.Slot T)} (p : T → Bool) :
    VarOpt.wsum p l + VarOpt.wsum (fun x => !p x) l = VarOpt.wsum (fun _ => true) l := by
  induction l with
  | nil => simp
  | cons x l ih =>
    rw [VarOpt.wsum_cons, VarOpt.wsum_cons, VarOpt.wsum_cons, ← ih]
    cases p x.item <;> simp <;> ring

/-- C95: the lower bound of a predicate and the upper bound of its negation add up to the weight of
the stream. -/
theorem C95_varopt_complement {prog : Rand (VarOpt.Sk T)} {stream : List (T × ℚ)}
    (h : VarOpt.Represents prog stream) (p : T → Bool) :
    All (fun s => ∃ r r', varopt s p = .ok r ∧ varopt s (fun x => !p x) = .ok r' ∧
        r.lower + r'.upper = (VarOpt.totalWeight stream : ℚ) ∧
        r.estimate + r'.estimate = (VarOpt.totalWeight stream : ℚ)) prog := by
  refine h.all.mono fun s hs => ?_
  obtain ⟨v, _, ht, _⟩ := hs
  rw [varopt_eq v, varopt_eq v, ← ht]
  have hs : ((VarOpt.wsum p s.hSlots : ℚ) : ℝ) + (VarOpt.wsum (fun x => !p x) s.hSlots : ℚ)
      = (VarOpt.wsum (fun _ => true) s.hSlots : ℚ) := by
    exact_mod_cast wsum_not p
  by_cases hr : s.r = 0
  · rw [if_pos hr, if_pos hr]
    have hR : s.rSlots = [] := List.length_eq_zero_iff.1 (by rw [v.rlen, hr])
    have ht : VarOpt.totalWeight s.samples = VarOpt.wsum (fun _ => true) s.hSlots := by
      rw [← VarOpt.weightOf_true, samples_regions v, hR]
      simp [VarOpt.cnt]
    rw [ht]
    exact ⟨_, _, rfl, rfl, hs, hs⟩
  · rw [if_neg hr, if_neg hr, samples_total v hr]
    have hc : VarOpt.cnt p s.rSlots ≤ s.r := by
      rw [← v.rlen]; exact List.countP_le_length
    have hc' : VarOpt.cnt (fun x => !p x) s.rSlots = s.r - VarOpt.cnt p s.rSlots := by
      have := List.length_eq_countP_add_countP (fun x : VarOpt.Slot T => p x.item) (l := s.rSlots)
      simp only [Bool.not_eq_true, Bool.decide_eq_false] at this
      rw [v.rlen] at this
      unfold VarOpt.cnt
      dsimp only
      omega
    have hn : (0 : ℝ) ≤ (s.n : ℝ) - s.h := by
      have := v.count
      have : (s.h : ℝ) ≤ s.n := by exact_mod_cast (by omega : s.h ≤ s.n)
      linarith
    have h1 : 1 ≤ s.r := Nat.pos_of_ne_zero hr
    have hrate : (0 : ℝ) ≤ (s.r : ℝ) / ((s.n : ℝ) - s.h) := by positivity
    obtain ⟨lb, ub, e1, e2, e3⟩ := hyper_complement h1 hc ((s.r : ℝ) / ((s.n : ℝ) - s.h))
    obtain ⟨_, ub', _, e2', _⟩ := hyper_bracket h1 hc hrate
    obtain ⟨lb', _, e3', _, _⟩ := hyper_bracket (k := s.r - VarOpt.cnt p s.rSlots) h1 (by omega) hrate
    unfold varoptSampled
    rw [hc', e1, Outcome.ok_bind, e2', Outcome.ok_bind, e3', Outcome.ok_bind, e2, Outcome.ok_bind]
    refine ⟨_, _, rfl, rfl, ?_, ?_⟩
    · dsimp only
      push_cast
      rw [← hs]
      linear_combination (s.totalWeightR : ℝ) * e3
    · dsimp only
      have hq : (s.r : ℝ) ≠ 0 := by exact_mod_cast hr
      have hd : (VarOpt.cnt p s.rSlots : ℝ) / s.r
          + ((s.r - VarOpt.cnt p s.rSlots : ℕ) : ℝ) / s.r = 1 := by
        rw [← add_div, Nat.cast_sub hc, add_sub_cancel, div_self hq]
      push_cast
      rw [← hs]
      linear_combination (s.totalWeightR : ℝ) * hd

example := C95_varopt_complement
  (VarOpt.sample_represents (k := 2) (by decide) (by decide) example_weights) (fun x => x = 3)

/-- C95: the result of a reservoir union. -/
theorem C95_reservoir_union (E : Reservoir.Env T) (hE : E.Ok) {maxK : Nat} (hk : 2 ≤ maxK)
    (inputs : List (Reservoir.Input T)) (hi : ∀ i ∈ inputs, i.Ok)
    (hm : (Reservoir.allItems inputs).length ≤ 2 ^ 48 - 1) (p : T → Bool) :
    All (fun u => ∀ s, u.result = some s → ∃ r, reservoir s p = .ok r ∧
        r.estimate = ((Reservoir.estimateSubsetSum s p).1 : ℝ) ∧
        Brackets r ((Reservoir.allItems inputs).filter fun x => !E.isNil x).length)
      (Reservoir.unionOf E maxK inputs) := by
  have hn0 : (Reservoir.newUnion maxK : Reservoir.Un T).n = 0 := rfl
  refine ((Reservoir.C46_union E hE hk inputs hi hm).and
    (Reservoir.fold_all hE inputs (Reservoir.newUnion_inv E hk) hi
    (by rw [hn0]; simpa [Reservoir.maxItemsSeen] using hm))).mono fun u h s hs => ?_
  obtain ⟨h, hf⟩ := h
  rw [hs] at h
  obtain ⟨_, hn, hl, _⟩ := h
  have h2 := (hf.inv.gadget s hs).1.two
  obtain ⟨r, e, h1, _, h3, _⟩ := reservoir_spec (by omega : 1 ≤ s.k) hl p
  rw [hn] at h3
  exact ⟨r, e, h1, h3⟩

example := C95_reservoir_union Reservoir.natEnv Reservoir.natEnv_ok (maxK := 3) (by decide)
  [.sketch 2 3 [1, 2, 3, 4], .sketch 5 3 [5, 6, 7, 8, 9, 10, 11], .item 12]
  (by intro i hi; simp at hi; rcases hi with rfl | rfl | rfl <;> simp [Reservoir.Input.Ok]) (by decide)
  (fun x => x = 6)

/-! ## The confidence level -/

open Binomial in
/-- C95: when a single sample of a reservoir of `k` out of `n` items matches, the lower bound is the
Clopper–Pearson bound for two standard deviations, narrowed by the finite population correction
`√(1 - k/n)`. -/
theorem C95_reservoir_level {s : Reservoir.Sk T} (hk : 1 ≤ s.k) (hl : s.data.length = min s.n s.k)
    (hn : s.k < s.n) (p : T → Bool) (h1 : s.data.countP p = 1) :
    ∃ r, reservoir s p = .ok r ∧
      atLeast (r.lower / s.n) s.k 1 = deltaOf (2 * Real.sqrt (1 - (s.k : ℝ) / s.n)) := by
  rw [Nat.min_eq_right (by omega)] at hl
  have hn0 : (s.n : ℝ) ≠ 0 := by exact_mod_cast (by omega : s.n ≠ 0)
  have h2 : (2.0 : ℝ) = 2 := by norm_num
  obtain ⟨lb, e1, e2⟩ := C95_proportion_exact_lower (n := s.k) (k := 1)
    (κ := 2 * Real.sqrt (1 - (s.k : ℝ) / s.n)) hk (Or.inl rfl) (by positivity)
  obtain ⟨_, ub, _, e3, _⟩ := hyper_bracket (n := s.k) (k := 1) (rate := (s.k : ℝ) / s.n) hk hk
    (by positivity)
  unfold reservoir Reservoir.Sk.numSamples
  rw [if_neg (by omega : ¬ s.n = 0)]
  dsimp only
  rw [if_neg (by omega : ¬ s.n ≤ s.k), h1, hl]
  unfold reservoirSampled
  rw [e3]
  unfold hyperLower
  rw [h2, e1, Outcome.ok_bind, Outcome.ok_bind]
  refine ⟨_, rfl, ?_⟩
  dsimp only
  rw [mul_div_cancel_left₀ _ hn0, e2]

example := C95_reservoir_level (s := ⟨2, 5, 3, [7, 9], 16⟩) (by decide) (by decide) (by decide)
  (fun x => x = 7) (by decide)

open Binomial in
/-- C95: likewise for VarOpt: of the `r` samples that stand for `n - h` light items one matches. -/
theorem C95_varopt_level {s : VarOpt.Sk T} (v : VarOpt.Valid s) (hr : s.r ≠ 0) (p : T → Bool)
    (h1 : (s.rSlots.countP fun x => p x.item) = 1) :
    ∃ r lb, varopt s p = .ok r ∧
      r.lower = (((s.hSlots.filter fun x => p x.item).map fun x => x.weight).sum : ℚ)
        + s.totalWeightR * lb ∧
      atLeast lb s.r 1 = deltaOf (2 * Real.sqrt (1 - (s.r : ℝ) / ((s.n : ℝ) - s.h))) := by
  have h2 : (2.0 : ℝ) = 2 := by norm_num
  have hr1 : 1 ≤ s.r := Nat.pos_of_ne_zero hr
  have hn : (0 : ℝ) ≤ (s.n : ℝ) - s.h := by
    have := v.count
    have : (s.h : ℝ) ≤ s.n := by exact_mod_cast (by omega : s.h ≤ s.n)
    linarith
  obtain ⟨lb, e1, e2⟩ := C95_proportion_exact_lower (n := s.r) (k := 1)
    (κ := 2 * Real.sqrt (1 - (s.r : ℝ) / ((s.n : ℝ) - s.h))) hr1 (Or.inl rfl) (by positivity)
  obtain ⟨_, ub, _, e3, _⟩ := hyper_bracket (n := s.r) (k := 1)
    (rate := (s.r : ℝ) / ((s.n : ℝ) - s.h)) hr1 hr1 (by positivity)
  have hw : ((s.hSlots.filter fun x => p x.item).map fun x => x.weight).sum
      = VarOpt.wsum p s.hSlots := by
    have := VarOpt.sum_filter_pairs p s.hSlots
    rw [← this]
    unfold VarOpt.pairs
    rw [List.filter_map, List.map_map]
    rfl
  rw [varopt_eq v, if_neg hr]
  unfold VarOpt.cnt varoptSampled
  rw [h1, e3]
  unfold hyperLower
  rw [h2, e1, Outcome.ok_bind, Outcome.ok_bind]
  exact ⟨_, lb, rfl, by rw [hw], e2⟩

/-- A sketch with one heavy item and two samples that stand for four light items. -/
def exampleSketch : VarOpt.Sk Nat :=
  ⟨[⟨7, 50, false⟩, ⟨0, 0, false⟩, ⟨1, -1, false⟩, ⟨2, -1, false⟩], false, 3, 5, 1, 0, 2, 8, 0⟩

theorem example_valid : VarOpt.Valid exampleSketch where
  k1 := by decide
  m0 := rfl
  hlen := rfl
  rlen := rfl
  hpos := by
    intro x hx
    have : x = ⟨7, 50, false⟩ := by simpa [exampleSketch, VarOpt.Sk.hSlots] using hx
    rw [this]; norm_num
  le := by decide
  full := fun _ => rfl
  tot := fun _ => by norm_num [exampleSketch]
  count := by decide

example := C95_varopt_level example_valid (by decide) (fun x => x = 2) (by decide)

end Verif.SubsetBounds
