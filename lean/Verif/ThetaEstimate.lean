import Verif.ThetaSampled

/-!
# Mean and variance of the estimate of a sketch of random hashes
-/

set_option linter.unusedSectionVars false

namespace Verif.Theta

variable {ι : Type} [Fintype ι] [DecidableEq ι]

/-- `Estimate` theta/update_sketch.go l.150-153 and l.184-186, compact_sketch.go l.140-143 and
l.182-184, wrapped_compact_sketch.go l.71-83: the number of retained hashes over theta as a
fraction.  Simplification: exact rationals instead of float64. -/
def estimate (v : View) : ℚ := v.numRetained / ((v.theta : ℚ) / maxTheta)

/-- fraction of the hashings for which a predicate holds -/
def prob (ι : Type) [Fintype ι] [DecidableEq ι] (N : Nat) (p : (ι → Nat) → Prop)
    [DecidablePred p] : ℚ := ((hashings ι N).filter p).card / (hashings ι N).card

theorem prob_eq {N : Nat} (p : (ι → Nat) → Prop) [DecidablePred p] :
    prob ι N p = mean ι N (fun h => if p h then 1 else 0) := by
  unfold prob mean
  rw [Finset.sum_ite, Finset.sum_const, Finset.sum_const_zero, add_zero, nsmul_eq_mul, mul_one]

theorem hashings_proper {N : Nat} {h : ι → Nat} (hm : h ∈ hashings ι N) : Proper h := by
  rw [mem_hashings] at hm
  exact ⟨hm.1, fun i => (hm.2 i).1⟩

theorem maxTheta_pos : (0 : ℚ) < maxTheta := by
  have : 0 < maxTheta := by decide
  exact_mod_cast this

/-- Chebyshev -/
theorem prob_far {N : Nat} (f : (ι → Nat) → ℚ) {n ε V : ℚ} (hn : 0 < n) (hε : 0 < ε)
    (hV : mean ι N (fun h => (f h - n) ^ 2) ≤ V) :
    prob ι N (fun h => ε * n ≤ |f h - n|) ≤ V / (ε * n) ^ 2 := by
  have hpos : 0 < (ε * n) ^ 2 := by positivity
  rw [prob_eq, le_div_iff₀ hpos, mul_comm, ← mean_smul]
  refine le_trans (mean_mono ?_) hV
  intro h _
  split
  · rename_i hc
    rw [mul_one, ← sq_abs (f h - n)]
    exact pow_le_pow_left₀ (by positivity) hc 2
  · rw [mul_zero]; positivity

section

variable {sh : Nat} {S : (ι → Nat) → View} {P : Finset ι}

omit [Fintype ι] in
/-- the threshold of a sampled set -/
theorem Sampled.stop (s : Sampled sh S P) : Stops fun h => (S h).theta :=
  fun h h' hp hp' hd => (s.stops h h' hp hp' hd).1

theorem Sampled.below_eq (s : Sampled sh S P) {h : ι → Nat} (hp : Proper h) :
    below (fun h => (S h).theta) P h = (S h).numRetained := by
  rw [(s.input h hp).valid.num, s.all_card hp]
  rfl

/-- estimate and its unbiased version -/
theorem Sampled.estimate_eq (s : Sampled sh S P) {h : ι → Nat} (hp : Proper h) :
    estimate (S h) = maxTheta * (below (fun h => (S h).theta) P h : ℚ) / (S h).theta := by
  rw [s.below_eq hp]
  unfold estimate
  have h1 := maxTheta_pos
  have h2 : (0 : ℚ) < (S h).theta := by
    have := s.low h hp
    exact_mod_cast (by omega : 0 < (S h).theta)
  field_simp

theorem Sampled.sub_one (s : Sampled sh S P) {h : ι → Nat} (hp : Proper h) :
    (((S h).theta - 1 : Nat) : ℚ) = (S h).theta - 1 ∧ (32 : ℚ) < (S h).theta := by
  have := s.low h hp
  refine ⟨?_, by exact_mod_cast this⟩
  rw [Nat.cast_sub (by omega)]
  norm_num

theorem Sampled.unbiased (s : Sampled sh S P) (hN : Fintype.card ι ≤ maxTheta) :
    mean ι maxTheta (fun h => estimate (S h) * ((S h).theta / ((S h).theta - 1))) = P.card := by
  have hb := mean_below s.stop P (N := maxTheta) (fun h hp => by have := s.low h hp; omega)
    (fun h hp => (s.input h hp).valid.theta.trans (by omega)) hN
  have h0 := maxTheta_pos
  have : mean ι maxTheta (fun h => estimate (S h) * ((S h).theta / ((S h).theta - 1))) =
      maxTheta * mean ι maxTheta (fun h => (below (fun h => (S h).theta) P h : ℚ) /
        (((S h).theta - 1 : Nat) : ℚ)) := by
    rw [← mean_smul]
    apply mean_congr
    intro h hm
    have hp := hashings_proper hm
    obtain ⟨e, hl⟩ := s.sub_one hp
    rw [s.estimate_eq hp, e]
    have h1 : (S h).theta - (1 : ℚ) ≠ 0 := by linarith
    have h2 : ((S h).theta : ℚ) ≠ 0 := by linarith
    field_simp
  rw [this, hb]
  field_simp

theorem Sampled.mean_le (s : Sampled sh S P) (hN : Fintype.card ι ≤ maxTheta) :
    mean ι maxTheta (fun h => estimate (S h)) ≤ P.card ∧
      (32 / 33 : ℚ) * P.card ≤ mean ι maxTheta (fun h => estimate (S h)) := by
  rw [← s.unbiased hN]
  have hnn : ∀ h, 0 ≤ estimate (S h) := by
    intro h; unfold estimate; have := maxTheta_pos; positivity
  constructor
  · apply mean_mono
    intro h hm
    obtain ⟨-, hl⟩ := s.sub_one (hashings_proper hm)
    have : (1 : ℚ) ≤ (S h).theta / ((S h).theta - 1) := by
      rw [le_div_iff₀ (by linarith)]; linarith
    nlinarith [hnn h]
  · rw [← mean_smul]
    apply mean_mono
    intro h hm
    have hl : (33 : ℚ) ≤ (S h).theta := by
      have := s.low h (hashings_proper hm)
      exact_mod_cast (by omega : 33 ≤ (S h).theta)
    have h1 : ((S h).theta : ℚ) / ((S h).theta - 1) ≤ 33 / 32 := by
      rw [div_le_div_iff₀ (by linarith) (by norm_num)]; linarith
    nlinarith [hnn h]

/-- the items retained below a maximal theta: all of them but an item with hash `maxTheta` -/
theorem retained_max (s : Sampled sh S P) {h : ι → Nat} (hm : h ∈ hashings ι maxTheta)
    (hθ : (S h).theta = maxTheta) : P.card ≤ (S h).numRetained + 1 ∧
      (S h).numRetained ≤ P.card := by
  have hp := hashings_proper hm
  rw [(s.input h hp).valid.num, s.all_card hp, hθ]
  refine ⟨?_, Finset.card_filter_le _ _⟩
  rw [← Finset.card_filter_add_card_filter_not (s := P) (fun i => h i < maxTheta)]
  have : (P.filter fun i => ¬ h i < maxTheta).card ≤ 1 := by
    rw [Finset.card_le_one]
    intro a ha b hb
    rw [Finset.mem_filter] at ha hb
    have h1 := ((mem_hashings.mp hm).2 a).2
    have h2 := ((mem_hashings.mp hm).2 b).2
    exact hp.1 (by omega)
  omega

omit [Fintype ι] in
/-- Few items: theta stays maximal. -/
theorem few_items (s : Sampled sh S P) {k : Nat} (m : Many k S P) (hk : P.card ≤ k) {h : ι → Nat}
    (hp : Proper h) : (S h).theta = maxTheta := by
  by_contra hne
  obtain ⟨h1, i, hi, e⟩ := m h hp hne
  rw [s.all_card hp] at h1
  have : (P.filter fun i => h i < (S h).theta).card < P.card := by
    apply Finset.card_lt_card
    rw [Finset.ssubset_iff_of_subset (Finset.filter_subset _ _)]
    exact ⟨i, hi, by simp [e]⟩
  omega

theorem many_items (s : Sampled sh S P) {k : Nat} (m : Many k S P) (hk : k < P.card) {h : ι → Nat}
    (hm : h ∈ hashings ι maxTheta) : k ≤ below (fun h => (S h).theta) P h := by
  have hp := hashings_proper hm
  rw [s.below_eq hp]
  by_cases hθ : (S h).theta = maxTheta
  · have := (retained_max s hm hθ).1
    omega
  · have := (m h hp hθ).1
    rw [(s.input h hp).valid.num]
    exact this

/-- bias of the estimate -/
theorem bias (s : Sampled sh S P) {k : Nat} (h2 : 2 ≤ k) (m : Many k S P) (hk : k < P.card)
    (hN : Fintype.card ι ≤ maxTheta) :
    (P.card : ℚ) - mean ι maxTheta (fun h => estimate (S h)) ≤
      (P.card : ℚ) ^ 2 / ((k - 1) * maxTheta) := by
  have h0 := maxTheta_pos
  have hkq : (2 : ℚ) ≤ k := by exact_mod_cast h2
  have hk1 : (0 : ℚ) < (k : ℚ) - 1 := by linarith
  -- deviation of one estimate
  have hstep : ∀ h ∈ hashings ι maxTheta,
      estimate (S h) * ((S h).theta / ((S h).theta - 1)) ≤ estimate (S h) +
        maxTheta / ((k : ℚ) - 1) * ((below (fun h => (S h).theta) P h : ℚ) *
          ((below (fun h => (S h).theta) P h : ℚ) - 1) /
        (((S h).theta - 1 : Nat) * ((S h).theta - 2 : Nat) : ℚ)) := by
    intro h hm
    have hp := hashings_proper hm
    obtain ⟨e, hl⟩ := s.sub_one hp
    have e2 : (((S h).theta - 2 : Nat) : ℚ) = (S h).theta - 2 := by
      have := s.low h hp
      rw [Nat.cast_sub (by omega)]; norm_num
    have hc : (k : ℚ) ≤ below (fun h => (S h).theta) P h := by
      exact_mod_cast many_items s m hk hm
    rw [s.estimate_eq hp, e, e2]
    generalize ((S h).theta : ℚ) = t at *
    generalize (below (fun h => (S h).theta) P h : ℚ) = c at *
    have t1 : (0 : ℚ) < t - 1 := by linarith
    have t2 : (0 : ℚ) < t - 2 := by linarith
    have t0 : (0 : ℚ) < t := by linarith
    have lhs : (maxTheta : ℚ) * c / t * (t / (t - 1)) =
        maxTheta * c / t + maxTheta * (c / (t * (t - 1))) := by field_simp; ring
    rw [lhs, div_mul_eq_mul_div (maxTheta : ℚ), mul_div_assoc (maxTheta : ℚ) (c * (c - 1) / ((t - 1) * (t - 2)))]
    apply add_le_add_right
    apply mul_le_mul_of_nonneg_left _ h0.le
    rw [div_div, div_le_div_iff₀ (by positivity) (by positivity)]
    have a1 : (k : ℚ) - 1 ≤ c - 1 := by linarith
    have hcp : (0 : ℚ) < c := by linarith
    have a2 : c * ((t - 1) * (t - 2) * ((k : ℚ) - 1)) ≤ c * ((t - 1) * (t - 2) * (c - 1)) := by
      apply mul_le_mul_of_nonneg_left _ hcp.le
      apply mul_le_mul_of_nonneg_left a1 (by positivity)
    refine a2.trans ?_
    have hc1 : (0 : ℚ) ≤ c - 1 := by linarith
    have : c * (c - 1) * (t * (t - 1)) - c * ((t - 1) * (t - 2) * (c - 1)) =
      2 * (c * (c - 1) * (t - 1)) := by ring
    have : 0 ≤ c * (c - 1) * (t - 1) := by positivity
    linarith
  have hmean := mean_mono hstep
  rw [s.unbiased hN, mean_add, mean_smul, mean_below_two s.stop P
    (fun h hp => by have := s.low h hp; omega)
    (fun h hp => (s.input h hp).valid.theta.trans (by omega)) hN] at hmean
  have hn1 : (1 : ℚ) ≤ P.card := by
    exact_mod_cast (by omega : 1 ≤ P.card)
  have hPN : (P.card : ℚ) ≤ maxTheta := by
    exact_mod_cast (Finset.card_le_univ P).trans hN
  have hm1 : ((maxTheta - 1 : Nat) : ℚ) = maxTheta - 1 := by
    rw [Nat.cast_sub (by decide)]; norm_num
  have hm2 : (1 : ℚ) < maxTheta := by
    have : 1 < maxTheta := by decide
    exact_mod_cast this
  rw [hm1] at hmean
  generalize (P.card : ℚ) = n at *
  generalize mean ι maxTheta (fun h => estimate (S h)) = E at *
  generalize (maxTheta : ℚ) = N at *
  have hN1 : (0 : ℚ) < N - 1 := by linarith
  have : N / ((k : ℚ) - 1) * (n * (n - 1) / (N * (N - 1))) ≤ n ^ 2 / ((k - 1) * N) := by
    rw [div_mul_div_comm, div_le_div_iff₀ (by positivity) (by positivity)]
    have hn0 : 0 < n := by linarith
    have key : (n - 1) * N ≤ n * (N - 1) := by nlinarith
    have : N * (n * (n - 1)) * (((k : ℚ) - 1) * N) = (n * N * ((k : ℚ) - 1)) * ((n - 1) * N) := by ring
    rw [this]
    have : n ^ 2 * (((k : ℚ) - 1) * (N * (N - 1))) = (n * N * ((k : ℚ) - 1)) * (n * (N - 1)) := by ring
    rw [this]
    exact mul_le_mul_of_nonneg_left key (by positivity)
  linarith

/-- mean squared error -/
theorem squared_error (s : Sampled sh S P) {k : Nat} (h2 : 2 ≤ k) (m : Many k S P)
    (hk : k < P.card) (hN : Fintype.card ι ≤ maxTheta) :
    mean ι maxTheta (fun h => (estimate (S h) - P.card) ^ 2) ≤
      (P.card : ℚ) ^ 2 / (k - 1) * (1 + 2 * P.card / maxTheta) := by
  have h0 := maxTheta_pos
  have hkq : (2 : ℚ) ≤ k := by exact_mod_cast h2
  have hk1 : (0 : ℚ) < (k : ℚ) - 1 := by linarith
  have hsq := mean_square s.stop P h2 (fun h hp => by have := s.low h hp; omega)
    (fun h hp => (s.input h hp).valid.theta.trans (by omega)) hN
    (fun h hm => many_items s m hk hm)
  have hle : mean ι maxTheta (fun h => estimate (S h) ^ 2) ≤ (P.card : ℚ) ^ 2 * (1 + 1 / (k - 1)) := by
    refine le_trans (mean_mono ?_) hsq
    intro h hm
    have hp := hashings_proper hm
    obtain ⟨e, hl⟩ := s.sub_one hp
    rw [s.estimate_eq hp, e]
    have hb : (0 : ℚ) ≤ below (fun h => (S h).theta) P h := by positivity
    apply pow_le_pow_left₀
    · positivity
    · apply div_le_div_of_nonneg_left (by positivity) (by linarith) (by linarith)
  have hb := bias s h2 m hk hN
  have hexp : mean ι maxTheta (fun h => (estimate (S h) - P.card) ^ 2) =
      mean ι maxTheta (fun h => estimate (S h) ^ 2) +
        ((-2 * P.card) * mean ι maxTheta (fun h => estimate (S h)) + (P.card : ℚ) ^ 2) := by
    rw [← mean_smul]
    conv_rhs => rw [← mean_const (ι := ι) hN ((P.card : ℚ) ^ 2)]
    rw [← mean_add, ← mean_add]
    apply mean_congr
    intro h _
    ring
  rw [hexp]
  have hn : (0 : ℚ) ≤ P.card := by positivity
  generalize (P.card : ℚ) = n at *
  generalize mean ι maxTheta (fun h => estimate (S h)) = E at *
  generalize mean ι maxTheta (fun h => estimate (S h) ^ 2) = E2 at *
  generalize (maxTheta : ℚ) = N at *
  have e1 : n ^ 2 / ((k : ℚ) - 1) * (1 + 2 * n / N) =
      n ^ 2 * (1 / ((k : ℚ) - 1)) + 2 * n * (n ^ 2 / ((k - 1) * N)) := by field_simp
  rw [e1]
  have e2 : 2 * n * (n - E) ≤ 2 * n * (n ^ 2 / ((k - 1) * N)) :=
    mul_le_mul_of_nonneg_left hb (by linarith)
  nlinarith

end

end Verif.Theta
