import Verif.BinomialModel
import Mathlib.Algebra.BigOperators.Intervals
import Mathlib.Algebra.Order.BigOperators.Group.Finset
import Mathlib.Analysis.SpecificLimits.Normed
import Mathlib.Data.Nat.Choose.Sum
import Mathlib.Tactic.Linarith
import Mathlib.Tactic.LinearCombination
import Mathlib.Tactic.FieldSimp
import Mathlib.Tactic.Positivity
import Mathlib.Tactic.NormNum

/-!
# Binomial tails and the loops that sum them
-/

noncomputable section

namespace Verif.Binomial

open Finset Filter

/-- probability of exactly `i` successes in `n` independent trials of probability `p` -/
def binProb (p : ℝ) (n i : ℕ) : ℝ := (n.choose i) * p ^ i * (1 - p) ^ (n - i)

/-- probability of at most `k` successes in `n` trials -/
def atMost (p : ℝ) (n k : ℕ) : ℝ := ∑ i ∈ range (k + 1), binProb p n i

/-- probability of at least `k` successes in `n` trials -/
def atLeast (p : ℝ) (n k : ℕ) : ℝ := ∑ i ∈ Ico k (n + 1), binProb p n i

variable {p : ℝ}

theorem binProb_zero_of_lt {n i : ℕ} (h : n < i) : binProb p n i = 0 := by
  unfold binProb; rw [Nat.choose_eq_zero_of_lt h]; simp

theorem binProb_nonneg (h0 : 0 ≤ p) (h1 : p ≤ 1) (n i : ℕ) : 0 ≤ binProb p n i := by
  unfold binProb
  have : 0 ≤ 1 - p := by linarith
  positivity

theorem binProb_total (p : ℝ) (n : ℕ) : ∑ i ∈ range (n + 1), binProb p n i = 1 := by
  have h := add_pow p (1 - p) n
  rw [add_sub_cancel, one_pow] at h
  rw [h]
  exact Finset.sum_congr rfl fun i _ => by unfold binProb; ring

theorem atMost_top {n k : ℕ} (h : n ≤ k) : atMost p n k = 1 := by
  rw [← binProb_total p n]
  symm
  apply Finset.sum_subset
  · exact Finset.range_mono (by omega)
  · intro x _ h2
    rw [Finset.mem_range, not_lt] at h2
    exact binProb_zero_of_lt (by omega)

theorem atLeast_succ (n k : ℕ) : atLeast p n (k + 1) = 1 - atMost p n k := by
  rcases Nat.lt_or_ge n (k + 1) with h | h
  · rw [atMost_top (by omega), sub_self]
    unfold atLeast
    rw [Finset.Ico_eq_empty_of_le (by omega), Finset.sum_empty]
  · rw [eq_sub_iff_add_eq, ← binProb_total p n]
    unfold atLeast atMost
    rw [add_comm]
    exact Finset.sum_range_add_sum_Ico _ (by omega)

theorem binProb_succ (n i : ℕ) :
    binProb p (n + 1) (i + 1) = p * binProb p n i + (1 - p) * binProb p n (i + 1) := by
  rcases Nat.lt_or_ge i n with h | h
  · unfold binProb
    rw [Nat.choose_succ_succ, Nat.add_sub_add_right]
    obtain ⟨d, rfl⟩ : ∃ d, n = i + 1 + d := ⟨n - (i + 1), by omega⟩
    have e1 : i + 1 + d - i = d + 1 := by omega
    have e2 : i + 1 + d - (i + 1) = d := by omega
    rw [e1, e2]
    push_cast
    ring
  · rw [binProb_zero_of_lt (p := p) (n := n) (i := i + 1) (by omega)]
    unfold binProb
    rw [Nat.choose_succ_succ, Nat.add_sub_add_right, Nat.choose_eq_zero_of_lt (n := n) (k := i + 1) (by omega)]
    push_cast
    ring

theorem binProb_succ_zero (n : ℕ) : binProb p (n + 1) 0 = (1 - p) * binProb p n 0 := by
  unfold binProb
  simp [pow_succ]
  ring

theorem atMost_step (n k : ℕ) : atMost p (n + 1) k = atMost p n k - p * binProb p n k := by
  induction k with
  | zero =>
    unfold atMost
    simp only [zero_add, Finset.sum_range_one, binProb_succ_zero]
    ring
  | succ k ih =>
    have e : ∀ n, atMost p n (k + 1) = atMost p n k + binProb p n (k + 1) := fun n => by
      unfold atMost; rw [Finset.sum_range_succ]
    rw [e, e, ih, binProb_succ]
    ring

theorem atMost_anti (h0 : 0 ≤ p) (h1 : p ≤ 1) {n m : ℕ} (h : n ≤ m) (k : ℕ) :
    atMost p m k ≤ atMost p n k := by
  induction m, h using Nat.le_induction with
  | base => exact le_refl _
  | succ m _ ih =>
    rw [atMost_step]
    have := mul_nonneg h0 (binProb_nonneg h0 h1 m k)
    linarith

theorem atLeast_mono (h0 : 0 ≤ p) (h1 : p ≤ 1) {n m : ℕ} (h : n ≤ m) (k : ℕ) :
    atLeast p n (k + 1) ≤ atLeast p m (k + 1) := by
  rw [atLeast_succ, atLeast_succ]
  have := atMost_anti h0 h1 h k
  linarith

/-- few successes in many trials become unlikely -/
theorem atMost_tendsto (h0 : 0 < p) (h1 : p ≤ 1) (k : ℕ) :
    Tendsto (fun n => atMost p n k) atTop (nhds 0) := by
  have hz : (0 : ℝ) = ∑ i ∈ range (k + 1), (0 : ℝ) := by simp
  unfold atMost
  rw [hz]
  refine tendsto_finsetSum _ fun i _ => ?_
  have hq : |1 - p| < 1 := by rw [abs_lt]; constructor <;> linarith
  have hq0 : 0 ≤ 1 - p := by linarith
  have ht : Tendsto (fun n : ℕ => ((n + i : ℕ) : ℝ) ^ i * (1 - p) ^ n) atTop (nhds 0) := by
    have h2 : Tendsto (fun n : ℕ => ((i + 1 : ℕ) : ℝ) ^ i * ((n : ℝ) ^ i * (1 - p) ^ n)) atTop
        (nhds 0) := by
      have := (tendsto_pow_const_mul_const_pow_of_abs_lt_one i hq).const_mul
        (((i + 1 : ℕ) : ℝ) ^ i)
      rwa [mul_zero] at this
    refine squeeze_zero' (Eventually.of_forall fun n => by positivity) ?_ h2
    filter_upwards [eventually_ge_atTop 1] with n hn
    rw [← mul_assoc, ← mul_pow]
    refine mul_le_mul_of_nonneg_right ?_ (by positivity)
    refine pow_le_pow_left₀ (by positivity) ?_ _
    have : n + i ≤ (i + 1) * n := by nlinarith
    exact_mod_cast this
  rw [← tendsto_add_atTop_iff_nat i]
  refine squeeze_zero (fun n => binProb_nonneg h0.le h1 _ _) (fun n => ?_) ht
  unfold binProb
  rw [Nat.add_sub_cancel]
  refine mul_le_mul_of_nonneg_right ?_ (by positivity)
  have hc : ((n + i).choose i : ℝ) ≤ ((n + i : ℕ) : ℝ) ^ i := by
    exact_mod_cast Nat.choose_le_pow _ _
  have hp : p ^ i ≤ 1 := pow_le_one₀ h0.le h1
  have : 0 ≤ ((n + i).choose i : ℝ) := by positivity
  nlinarith [pow_nonneg h0.le i]

theorem exists_atMost_lt (h0 : 0 < p) (h1 : p ≤ 1) (k : ℕ) {ε : ℝ} (hε : 0 < ε) :
    ∃ n, atMost p n k < ε := by
  have := (atMost_tendsto h0 h1 k).eventually (gt_mem_nhds hε)
  exact this.exists

/-! ## The loops -/

/-- term added at `m` trials: the probability that success number `a + 1` comes at trial `m + 1` -/
def term (p : ℝ) (a m : ℕ) : ℝ := p * binProb p m a

theorem term_first (p : ℝ) (a : ℕ) : term p a a = p ^ (a + 1) := by
  unfold term binProb; simp [pow_succ]; ring

theorem term_next {a m : ℕ} (h : a ≤ m) :
    term p a m * (1 - p) * ((m + 1 : ℕ) : ℝ) / (((m + 1 + 1) - (a + 1) : ℕ) : ℝ) =
      term p a (m + 1) := by
  have e : (m + 1 + 1) - (a + 1) = m + 1 - a := by omega
  have hc := Nat.choose_mul_succ_eq m a
  have hpos : (0 : ℝ) < ((m + 1 - a : ℕ) : ℝ) := by
    have : 0 < m + 1 - a := by omega
    exact_mod_cast this
  rw [e, div_eq_iff hpos.ne']
  have hc' : (m.choose a : ℝ) * ((m + 1 : ℕ) : ℝ) = ((m + 1).choose a : ℝ) * ((m + 1 - a : ℕ) : ℝ) := by
    exact_mod_cast hc
  have e2 : m + 1 - a = (m - a) + 1 := by omega
  have e3 : (1 - p) ^ (m + 1 - a) = (1 - p) ^ (m - a) * (1 - p) := by rw [e2, pow_succ]
  unfold term binProb
  rw [e3]
  linear_combination (p * p ^ a * (1 - p) ^ (m - a) * (1 - p)) * hc'

theorem tot_next (a m : ℕ) : atLeast p m (a + 1) + term p a m = atLeast p (m + 1) (a + 1) := by
  rw [atLeast_succ, atLeast_succ, atMost_step]; unfold term; ring

theorem tot_first (p : ℝ) (a : ℕ) : atLeast p (a + 1) (a + 1) = p ^ (a + 1) := by
  rw [← tot_next, term_first, atLeast_succ, atMost_top (le_refl _)]; ring

theorem starLoop_spec {a : ℕ} {δ : ℝ} : ∀ (fuel m : ℕ) {r : ℕ}, a ≤ m →
    atLeast p m (a + 1) ≤ δ →
    starLoop (a + 1) (1 - p) δ fuel (term p a m) (atLeast p (m + 1) (a + 1)) (m + 1) = .ok r →
    atLeast p r (a + 1) ≤ δ ∧ δ < atLeast p (r + 1) (a + 1)
  | 0, m, r, _, _, h => by simp [starLoop] at h
  | fuel + 1, m, r, ha, hm, h => by
    unfold starLoop at h
    split at h
    · rename_i hc
      simp only [] at h
      rw [term_next ha, tot_next] at h
      exact starLoop_spec fuel (m + 1) (by omega) hc h
    · rename_i hc
      cases h
      exact ⟨hm, not_le.mp hc⟩

theorem starLoop_total {a : ℕ} {δ : ℝ} {M : ℕ} (h0 : 0 ≤ p) (h1 : p ≤ 1)
    (hM : δ < atLeast p M (a + 1)) : ∀ (fuel m : ℕ), a ≤ m → M ≤ m + fuel →
    ∃ r, starLoop (a + 1) (1 - p) δ (fuel + 1) (term p a m) (atLeast p (m + 1) (a + 1)) (m + 1) = .ok r
  | 0, m, _, h => by
    unfold starLoop
    have := atLeast_mono (p := p) h0 h1 (n := M) (m := m + 1) (by omega) a
    rw [if_neg (by linarith)]
    exact ⟨_, rfl⟩
  | fuel + 1, m, ha, h => by
    unfold starLoop
    split
    · dsimp only
      rw [term_next ha, tot_next]
      exact starLoop_total h0 h1 hM fuel (m + 1) (by omega) (by omega)
    · exact ⟨_, rfl⟩

theorem primeLoop_spec {a : ℕ} {t : ℝ} : ∀ (fuel m : ℕ) {r : ℕ}, a ≤ m →
    (a < m → atLeast p m (a + 1) < t) →
    primeLoop (a + 1) (1 - p) t fuel (term p a m) (atLeast p (m + 1) (a + 1)) (m + 1) = .ok r →
    t ≤ atLeast p r (a + 1) ∧ a + 1 ≤ r ∧ (a + 1 < r → atLeast p (r - 1) (a + 1) < t)
  | 0, m, r, _, _, h => by simp [primeLoop] at h
  | fuel + 1, m, r, ha, hm, h => by
    unfold primeLoop at h
    split at h
    · rename_i hc
      simp only [] at h
      rw [term_next ha, tot_next] at h
      exact primeLoop_spec fuel (m + 1) (by omega) (fun _ => hc) h
    · rename_i hc
      cases h
      exact ⟨not_lt.mp hc, by omega, fun h => hm (by omega)⟩

theorem primeLoop_total {a : ℕ} {t : ℝ} {M : ℕ} (h0 : 0 ≤ p) (h1 : p ≤ 1)
    (hM : t ≤ atLeast p M (a + 1)) : ∀ (fuel m : ℕ), a ≤ m → M ≤ m + fuel →
    ∃ r, primeLoop (a + 1) (1 - p) t (fuel + 1) (term p a m) (atLeast p (m + 1) (a + 1)) (m + 1) = .ok r
  | 0, m, _, h => by
    unfold primeLoop
    have := atLeast_mono (p := p) h0 h1 (n := M) (m := m + 1) (by omega) a
    rw [if_neg (by linarith)]
    exact ⟨_, rfl⟩
  | fuel + 1, m, ha, h => by
    unfold primeLoop
    split
    · dsimp only
      rw [term_next ha, tot_next]
      exact primeLoop_total h0 h1 hM fuel (m + 1) (by omega) (by omega)
    · exact ⟨_, rfl⟩

/-! ## What the loops compute -/

/-- the largest number of trials for which `k` or more successes have probability at most `δ` -/
def IsNStar (p δ : ℝ) (k r : ℕ) : Prop :=
  atLeast p r k ≤ δ ∧ ∀ m, atLeast p m k ≤ δ → m ≤ r

/-- the smallest number of trials for which `k` or fewer successes have probability at most `δ` -/
def IsNPrime (p δ : ℝ) (k r : ℕ) : Prop :=
  atMost p r k ≤ δ ∧ ∀ m, atMost p m k ≤ δ → r ≤ m

theorem isNStar_of {δ : ℝ} (h0 : 0 ≤ p) (h1 : p ≤ 1) {a r : ℕ}
    (h : atLeast p r (a + 1) ≤ δ ∧ δ < atLeast p (r + 1) (a + 1)) : IsNStar p δ (a + 1) r := by
  refine ⟨h.1, fun m hm => ?_⟩
  by_contra hc
  have := atLeast_mono (p := p) h0 h1 (n := r + 1) (m := m) (by omega) a
  linarith [h.2]

theorem isNPrime_of {δ : ℝ} (h0 : 0 ≤ p) (h1 : p ≤ 1) (hd : δ < 1) {a r : ℕ}
    (h : 1 - δ ≤ atLeast p r (a + 1) ∧ a + 1 ≤ r ∧
      (a + 1 < r → atLeast p (r - 1) (a + 1) < 1 - δ)) : IsNPrime p δ a r := by
  obtain ⟨h2, h3, h4⟩ := h
  rw [atLeast_succ] at h2
  refine ⟨by linarith, fun m hm => ?_⟩
  by_contra hc
  by_cases h5 : a + 1 < r
  · have h6 := h4 h5
    rw [atLeast_succ] at h6
    have := atMost_anti (p := p) h0 h1 (n := m) (m := r - 1) (by omega) a
    linarith
  · rw [atMost_top (by omega)] at hm
    linarith

theorem specialNStar_spec {fuel a : ℕ} {δ : ℝ} {r : ℕ} (h0 : 0 ≤ p) (h1 : p ≤ 1) (hd : 0 ≤ δ)
    (h : specialNStar fuel (a + 1) p δ = .ok r) : IsNStar p δ (a + 1) r := by
  unfold specialNStar at h
  simp only at h
  split at h
  · cases h
  split at h
  · cases h
  have e : (1.0 : ℝ) - p = 1 - p := by norm_num
  have ht : starLoop (a + 1) (1 - p) δ fuel (term p a a) (atLeast p (a + 1) (a + 1)) (a + 1) = .ok r := by
    rw [term_first, tot_first, ← e]; exact h
  exact isNStar_of h0 h1 (starLoop_spec fuel a (le_refl _)
    (by rw [atLeast_succ, atMost_top (le_refl _)]; linarith) ht)

theorem specialNStar_total {a : ℕ} {δ : ℝ} (h0 : 0 < p) (h1 : p ≤ 1) (hd : δ < 1)
    (h500 : ((a + 1 : ℕ) : ℝ) / p < 500) (hbig : 1 / 10 ^ 100 < p ^ (a + 1)) :
    ∃ F, ∀ fuel, F ≤ fuel → ∃ r, specialNStar fuel (a + 1) p δ = .ok r := by
  obtain ⟨M, hM⟩ := exists_atMost_lt h0 h1 a (ε := 1 - δ) (by linarith)
  refine ⟨M + 1, fun fuel hf => ?_⟩
  obtain ⟨f, rfl⟩ : ∃ f, fuel = f + 1 := ⟨fuel - 1, by omega⟩
  unfold specialNStar
  simp only
  have e : (1.0 : ℝ) - p = 1 - p := by norm_num
  have e5 : (500.0 : ℝ) = 500 := by norm_num
  rw [if_neg (by rw [e5]; exact not_le.mpr h500), if_neg (not_le.mpr hbig), e]
  have := starLoop_total (p := p) (a := a) (δ := δ) (M := M) h0.le h1
    (by rw [atLeast_succ]; linarith) f a (le_refl _) (by omega)
  rwa [term_first, tot_first] at this

theorem specialNPrimeF_spec {fuel a : ℕ} {δ : ℝ} {r : ℕ} (h0 : 0 ≤ p) (h1 : p ≤ 1) (hd : δ < 1)
    (h : specialNPrimeF fuel a p δ = .ok r) : IsNPrime p δ a r := by
  unfold specialNPrimeF specialNPrimeB at h
  simp only at h
  split at h
  · cases h
  split at h
  · cases h
  have e : (1.0 : ℝ) - p = 1 - p := by norm_num
  have e2 : (1.0 : ℝ) - δ = 1 - δ := by norm_num
  have ht : primeLoop (a + 1) (1 - p) (1 - δ) fuel (term p a a) (atLeast p (a + 1) (a + 1)) (a + 1)
      = .ok r := by
    rw [term_first, tot_first, ← e, ← e2]; exact h
  exact isNPrime_of h0 h1 hd (primeLoop_spec fuel a (le_refl _) (fun h => absurd h (lt_irrefl _)) ht)

theorem specialNPrimeF_total {a : ℕ} {δ : ℝ} (h0 : 0 < p) (h1 : p ≤ 1) (hd : 0 < δ)
    (h500 : (a : ℝ) / p < 500) (hbig : 1 / 10 ^ 100 < p ^ (a + 1)) :
    ∃ F, ∀ fuel, F ≤ fuel → ∃ r, specialNPrimeF fuel a p δ = .ok r := by
  obtain ⟨M, hM⟩ := exists_atMost_lt h0 h1 a (ε := δ) hd
  refine ⟨M + 1, fun fuel hf => ?_⟩
  obtain ⟨f, rfl⟩ : ∃ f, fuel = f + 1 := ⟨fuel - 1, by omega⟩
  unfold specialNPrimeF specialNPrimeB
  simp only
  have e : (1.0 : ℝ) - p = 1 - p := by norm_num
  have e2 : (1.0 : ℝ) - δ = 1 - δ := by norm_num
  have e5 : (500.0 : ℝ) = 500 := by norm_num
  rw [if_neg (by rw [e5]; exact not_le.mpr h500), if_neg (not_le.mpr hbig), e, e2]
  have := primeLoop_total (p := p) (a := a) (t := 1 - δ) (M := M) h0.le h1
    (by rw [atLeast_succ]; linarith) f a (le_refl _) (by omega)
  rwa [term_first, tot_first] at this

/-! ## The closed forms for one sample (lower) and none (upper) -/

theorem atMost_zero (p : ℝ) (n : ℕ) : atMost p n 0 = (1 - p) ^ n := by
  unfold atMost binProb; simp

theorem log_lower {δ : ℝ} (h0 : 0 < p) (h1 : p < 1) (hd0 : 0 ≤ δ) (hd : δ < 1) :
    ∃ r : ℕ, (⌊Real.log (1 - δ) / Real.log (1 - p)⌋ : ℝ) = r ∧ IsNStar p δ 1 r := by
  have hlp : Real.log (1 - p) < 0 := Real.log_neg (by linarith) (by linarith)
  have hld : Real.log (1 - δ) ≤ 0 := Real.log_nonpos (by linarith) (by linarith)
  have hx : 0 ≤ Real.log (1 - δ) / Real.log (1 - p) := div_nonneg_of_nonpos hld hlp.le
  have key : ∀ m : ℕ, atLeast p m 1 ≤ δ ↔ (m : ℝ) ≤ Real.log (1 - δ) / Real.log (1 - p) := by
    intro m
    rw [show (1 : ℕ) = 0 + 1 from rfl, atLeast_succ, atMost_zero, le_div_iff_of_neg hlp,
      ← Real.log_pow, Real.log_le_log_iff (by linarith) (by have : 0 < 1 - p := by linarith
                                                            positivity)]
    constructor <;> intro h <;> linarith
  refine ⟨⌊Real.log (1 - δ) / Real.log (1 - p)⌋₊, ?_, ?_, ?_⟩
  · exact (natCast_floor_eq_intCast_floor hx).symm
  · rw [key]; exact Nat.floor_le hx
  · intro m hm
    rw [key] at hm
    exact Nat.le_floor hm

theorem log_upper {δ : ℝ} (h0 : 0 < p) (h1 : p < 1) (hd0 : 0 < δ) (hd : δ < 1) :
    ∃ r : ℕ, (⌈Real.log δ / Real.log (1 - p)⌉ : ℝ) = r ∧ IsNPrime p δ 0 r := by
  have hlp : Real.log (1 - p) < 0 := Real.log_neg (by linarith) (by linarith)
  have hld : Real.log δ ≤ 0 := Real.log_nonpos hd0.le hd.le
  have hx : 0 ≤ Real.log δ / Real.log (1 - p) := div_nonneg_of_nonpos hld hlp.le
  have key : ∀ m : ℕ, atMost p m 0 ≤ δ ↔ Real.log δ / Real.log (1 - p) ≤ (m : ℝ) := by
    intro m
    rw [atMost_zero, div_le_iff_of_neg hlp, ← Real.log_pow,
      Real.log_le_log_iff (by have : 0 < 1 - p := by linarith
                              positivity) hd0]
  refine ⟨⌈Real.log δ / Real.log (1 - p)⌉₊, ?_, ?_, ?_⟩
  · exact (natCast_ceil_eq_intCast_ceil hx).symm
  · rw [key]; exact Nat.le_ceil _
  · intro m hm
    rw [key] at hm
    exact Nat.ceil_le.mpr hm

/-! ## The normal approximation -/

theorem classicLB_sq {n : ℕ} {θ s : ℝ} (h0 : 0 < θ) (hn : 1 ≤ n) :
    ∃ b u N : ℝ, b = s * Real.sqrt ((1 - θ) / θ) ∧ N = ((n : ℝ) - 1 / 2) / θ ∧ 0 < N ∧ 0 ≤ u ∧
      u = Real.sqrt (b ^ 2 + 4 * N) ∧ u ^ 2 = b ^ 2 + 4 * N ∧
      contClassicLB n θ s = ((u - b) / 2) ^ 2 := by
  have hn' : (1 : ℝ) ≤ n := by exact_mod_cast hn
  have hN : 0 < ((n : ℝ) - 1 / 2) / θ := div_pos (by linarith) h0
  refine ⟨s * Real.sqrt ((1 - θ) / θ), _, ((n : ℝ) - 1 / 2) / θ, rfl, rfl, hN, Real.sqrt_nonneg _,
    rfl, ?_, ?_⟩
  · rw [Real.sq_sqrt]; positivity
  · unfold contClassicLB
    simp only
    have e1 : (1.0 : ℝ) - θ = 1 - θ := by norm_num
    have e2 : (n : ℝ) - 0.5 = n - 1 / 2 := by norm_num
    rw [e1, e2]
    generalize s * Real.sqrt ((1 - θ) / θ) = b
    generalize ((n : ℝ) - 1 / 2) / θ = N at *
    have e3 : b * b + 4.0 * N = b ^ 2 + 4 * N := by norm_num; ring
    have e4 : Real.sqrt (b ^ 2 + 4 * N) ^ 2 = b ^ 2 + 4 * N := Real.sq_sqrt (by positivity)
    rw [e3]
    generalize Real.sqrt (b ^ 2 + 4 * N) = u at *
    norm_num
    linear_combination (-1 / 4) * e4

theorem classicUB_sq {n : ℕ} {θ s : ℝ} (h0 : 0 < θ) :
    ∃ b u N : ℝ, b = s * Real.sqrt ((1 - θ) / θ) ∧ N = ((n : ℝ) + 1 / 2) / θ ∧ 0 < N ∧ 0 ≤ u ∧
      u = Real.sqrt (b ^ 2 + 4 * N) ∧ u ^ 2 = b ^ 2 + 4 * N ∧
      contClassicUB n θ s = ((u + b) / 2) ^ 2 := by
  have hN : 0 < ((n : ℝ) + 1 / 2) / θ := by positivity
  refine ⟨s * Real.sqrt ((1 - θ) / θ), _, ((n : ℝ) + 1 / 2) / θ, rfl, rfl, hN, Real.sqrt_nonneg _,
    rfl, ?_, ?_⟩
  · rw [Real.sq_sqrt]; positivity
  · unfold contClassicUB
    simp only
    have e1 : (1.0 : ℝ) - θ = 1 - θ := by norm_num
    have e2 : (n : ℝ) + 0.5 = n + 1 / 2 := by norm_num
    rw [e1, e2]
    generalize s * Real.sqrt ((1 - θ) / θ) = b
    generalize ((n : ℝ) + 1 / 2) / θ = N at *
    have e3 : b * b + 4.0 * N = b ^ 2 + 4 * N := by norm_num; ring
    have e4 : Real.sqrt (b ^ 2 + 4 * N) ^ 2 = b ^ 2 + 4 * N := Real.sq_sqrt (by positivity)
    rw [e3]
    generalize Real.sqrt (b ^ 2 + 4 * N) = u at *
    norm_num
    linear_combination (-1 / 4) * e4

/-- `s * √(x θ (1 - θ))` for a square `x` -/
theorem dev_eq {θ s w : ℝ} (h0 : 0 < θ) (h1 : θ ≤ 1) (hw : 0 ≤ w) :
    s * Real.sqrt (w ^ 2 * θ * (1 - θ)) = w * θ * (s * Real.sqrt ((1 - θ) / θ)) := by
  have hq : 0 ≤ 1 - θ := by linarith
  have e : w ^ 2 * θ * (1 - θ) = (w * θ) ^ 2 * ((1 - θ) / θ) := by field_simp
  rw [e, Real.sqrt_mul (by positivity), Real.sqrt_sq (by positivity)]
  ring

theorem sqrt_ge_of_sq {b u N : ℝ} (hN : 0 < N) (hu : 0 ≤ u) (h : u ^ 2 = b ^ 2 + 4 * N) : |b| ≤ u :=
  abs_le_of_sq_le_sq (by linarith) hu

theorem classicLB_eq {n : ℕ} {θ s : ℝ} (h0 : 0 < θ) (h1 : θ ≤ 1) (hn : 1 ≤ n) :
    0 ≤ contClassicLB n θ s ∧ contClassicLB n θ s * θ +
      s * Real.sqrt (contClassicLB n θ s * θ * (1 - θ)) = n - 1 / 2 := by
  obtain ⟨b, u, N, hb, hNe, hN, hu, -, hsq, hx⟩ := classicLB_sq (s := s) h0 hn
  rw [hx]
  refine ⟨by positivity, ?_⟩
  have := sqrt_ge_of_sq hN hu hsq
  have hw : 0 ≤ (u - b) / 2 := by linarith [le_abs_self b]
  rw [dev_eq h0 h1 hw, ← hb]
  have hNt : N * θ = n - 1 / 2 := by rw [hNe]; field_simp
  linear_combination (θ / 4) * hsq + hNt

theorem classicUB_eq {n : ℕ} {θ s : ℝ} (h0 : 0 < θ) (h1 : θ ≤ 1) :
    0 ≤ contClassicUB n θ s ∧ contClassicUB n θ s * θ -
      s * Real.sqrt (contClassicUB n θ s * θ * (1 - θ)) = n + 1 / 2 := by
  obtain ⟨b, u, N, hb, hNe, hN, hu, -, hsq, hx⟩ := classicUB_sq (n := n) (s := s) h0
  rw [hx]
  refine ⟨by positivity, ?_⟩
  have := sqrt_ge_of_sq hN hu hsq
  have hw : 0 ≤ (u + b) / 2 := by linarith [neg_abs_le b]
  rw [dev_eq h0 h1 hw, ← hb]
  have hNt : N * θ = n + 1 / 2 := by rw [hNe]; field_simp
  linear_combination (θ / 4) * hsq + hNt

theorem classicLB_anti {n : ℕ} {θ s t : ℝ} (h0 : 0 < θ) (hn : 1 ≤ n) (hs : 0 ≤ s) (hst : s ≤ t) :
    contClassicLB n θ t ≤ contClassicLB n θ s := by
  obtain ⟨b, u, N, hb, hNe, hN, hu, hu', hsq, hx⟩ := classicLB_sq (s := s) h0 hn
  obtain ⟨b', v, N', hb', hNe', -, hv, hv', hsq', hx'⟩ := classicLB_sq (s := t) h0 hn
  rw [← hNe] at hNe'
  subst hNe'
  rw [hx, hx']
  have hbb : b ≤ b' := by
    rw [hb, hb']; exact mul_le_mul_of_nonneg_right hst (Real.sqrt_nonneg _)
  have hb0 : 0 ≤ b := by rw [hb]; positivity
  have huv : u ≤ v := by rw [hu', hv']; apply Real.sqrt_le_sqrt; nlinarith
  have h1 := (abs_le.mp (sqrt_ge_of_sq hN hu hsq)).2
  have h2 := (abs_le.mp (sqrt_ge_of_sq hN hv hsq')).2
  refine pow_le_pow_left₀ (by linarith) ?_ 2
  have hpos : 0 < u + b := by nlinarith
  have : (v - b') * (u + b) ≤ (u - b) * (u + b) := by
    have e1 : (u - b) * (u + b) = (v - b') * (v + b') := by linear_combination hsq - hsq'
    rw [e1]
    exact mul_le_mul_of_nonneg_left (by linarith) (by linarith)
  have := le_of_mul_le_mul_right this hpos
  linarith

theorem classicUB_mono {n : ℕ} {θ s t : ℝ} (h0 : 0 < θ) (hs : 0 ≤ s) (hst : s ≤ t) :
    contClassicUB n θ s ≤ contClassicUB n θ t := by
  obtain ⟨b, u, N, hb, hNe, hN, hu, hu', hsq, hx⟩ := classicUB_sq (n := n) (s := s) h0
  obtain ⟨b', v, N', hb', hNe', -, hv, hv', hsq', hx'⟩ := classicUB_sq (n := n) (s := t) h0
  rw [← hNe] at hNe'
  subst hNe'
  rw [hx, hx']
  have hbb : b ≤ b' := by
    rw [hb, hb']; exact mul_le_mul_of_nonneg_right hst (Real.sqrt_nonneg _)
  have hb0 : 0 ≤ b := by rw [hb]; positivity
  have huv : u ≤ v := by rw [hu', hv']; apply Real.sqrt_le_sqrt; nlinarith
  exact pow_le_pow_left₀ (by linarith) (by linarith) 2

/-! ## The branches -/

/-- probability of a normal variable exceeding its mean by that many standard deviations, to the
digits used by the code -/
def tailProb : ℕ → ℝ
  | 1 => 0.1586553191586026479
  | 2 => 0.0227502618904135701
  | _ => 0.0013498126861731796

theorem tailProb_pos (s : ℕ) : 0 < tailProb s := by unfold tailProb; split <;> norm_num

theorem tailProb_lt (s : ℕ) : tailProb s < 1 / 2 := by unfold tailProb; split <;> norm_num

theorem tailProb_ge (s : ℕ) : 1 / 1000 < tailProb s := by unfold tailProb; split <;> norm_num

theorem tailProb_anti {s t : ℕ} (h1 : 1 ≤ s) (hst : s ≤ t) (h3 : t ≤ 3) :
    tailProb t ≤ tailProb s := by
  have hs : s = 1 ∨ s = 2 ∨ s = 3 := by omega
  have ht : t = 1 ∨ t = 2 ∨ t = 3 := by omega
  rcases hs with rfl | rfl | rfl <;> rcases ht with rfl | rfl | rfl <;>
    first | omega | (unfold tailProb; norm_num)

theorem deltas_get {s : ℕ} (h1 : 1 ≤ s) (h3 : s ≤ 3) : deltas[s]? = some (tailProb s) := by
  have hs : s = 1 ∨ s = 2 ∨ s = 3 := by omega
  rcases hs with rfl | rfl | rfl <;> rfl

theorem tables_length : lbTable.length = 363 ∧ ubTable.length = 363 := by decide +kernel

theorem tables_mono : ∀ k < 121,
    lbTable[3 * k]! ≤ lbTable[3 * k + 1]! ∧ lbTable[3 * k + 1]! ≤ lbTable[3 * k + 2]! ∧
    ubTable[3 * k]! ≤ ubTable[3 * k + 1]! ∧ ubTable[3 * k + 1]! ≤ ubTable[3 * k + 2]! := by
  decide +kernel

/-- an entry of the table of lower bounds -/
def lbDev (n s : ℕ) : ℝ := (lbTable[3 * n + (s - 1)]! : ℝ) / 10 ^ 17

/-- an entry of the table of upper bounds -/
def ubDev (n s : ℕ) : ℝ := (ubTable[3 * n + (s - 1)]! : ℝ) / 10 ^ 17

theorem entry_lb {n s : ℕ} (hn : n ≤ 120) (h1 : 1 ≤ s) (h3 : s ≤ 3) :
    entry lbTable (3 * n + (s - 1)) = .ok (lbDev n s) := by
  have hl : 3 * n + (s - 1) < lbTable.length := by rw [tables_length.1]; omega
  unfold entry lbDev
  rw [List.getElem?_eq_getElem hl, getElem!_pos lbTable _ hl]
  rfl

theorem entry_ub {n s : ℕ} (hn : n ≤ 120) (h1 : 1 ≤ s) (h3 : s ≤ 3) :
    entry ubTable (3 * n + (s - 1)) = .ok (ubDev n s) := by
  have hl : 3 * n + (s - 1) < ubTable.length := by rw [tables_length.2]; omega
  unfold entry ubDev
  rw [List.getElem?_eq_getElem hl, getElem!_pos ubTable _ hl]
  rfl

theorem dev_mono {n s t : ℕ} (hn : n ≤ 120) (h1 : 1 ≤ s) (hst : s ≤ t) (h3 : t ≤ 3) :
    lbDev n s ≤ lbDev n t ∧ ubDev n s ≤ ubDev n t := by
  have h := tables_mono n (by omega)
  have hs : s = 1 ∨ s = 2 ∨ s = 3 := by omega
  have ht : t = 1 ∨ t = 2 ∨ t = 3 := by omega
  have key : lbTable[3 * n + (s - 1)]! ≤ lbTable[3 * n + (t - 1)]! ∧
      ubTable[3 * n + (s - 1)]! ≤ ubTable[3 * n + (t - 1)]! := by
    rcases hs with rfl | rfl | rfl <;> rcases ht with rfl | rfl | rfl <;>
      first | omega | (simp only [Nat.sub_self, Nat.add_zero, Nat.reduceSub]; omega)
  constructor
  · unfold lbDev
    have : (lbTable[3 * n + (s - 1)]! : ℝ) ≤ lbTable[3 * n + (t - 1)]! := by exact_mod_cast key.1
    gcongr
  · unfold ubDev
    have : (ubTable[3 * n + (s - 1)]! : ℝ) ≤ ubTable[3 * n + (t - 1)]! := by exact_mod_cast key.2
    gcongr

theorem dev_nonneg (n s : ℕ) : 0 ≤ lbDev n s ∧ 0 ≤ ubDev n s := by
  unfold lbDev ubDev; constructor <;> positivity

/-- the powers never underflow the sanity check -/
theorem powers : ∀ k < 121, 1 ≤ k → 360 ^ (k + 1) < 10 ^ 100 * k ^ (k + 1) := by decide +kernel

theorem pow_big {k : ℕ} {θ : ℝ} (h1 : 1 ≤ k) (hk : k ≤ 120) (h : (k : ℝ) / 360 ≤ θ) :
    1 / 10 ^ 100 < θ ^ (k + 1) := by
  refine lt_of_lt_of_le ?_ (pow_le_pow_left₀ (by positivity) h (k + 1))
  have := powers k (by omega) h1
  rw [div_pow, div_lt_div_iff₀ (by positivity) (by positivity)]
  have h2 : ((360 ^ (k + 1) : ℕ) : ℝ) < ((10 ^ 100 * k ^ (k + 1) : ℕ) : ℝ) := Nat.cast_lt.mpr this
  push_cast at h2
  linarith

/-- how the code chooses the raw lower bound -/
inductive LBCase (n : ℕ) (θ : ℝ) (s : ℕ) : ℝ → Prop
  | all : θ = 1 → LBCase n θ s n
  | none : n = 0 → θ < 1 → LBCase n θ s 0
  | one (r : ℕ) : n = 1 → θ < 1 → IsNStar θ (tailProb s) 1 r → LBCase n θ s r
  | many : 120 < n → θ < 1 → LBCase n θ s (contClassicLB n θ s - 1 / 2)
  | near : 2 ≤ n → n ≤ 120 → 1 - 1 / 10 ^ 5 < θ → θ < 1 → LBCase n θ s n
  | table : 2 ≤ n → n ≤ 120 → θ < (n : ℝ) / 360 → θ < 1 →
      LBCase n θ s (contClassicLB n θ (lbDev n s) - 1 / 2)
  | summed (r : ℕ) : 2 ≤ n → n ≤ 120 → (n : ℝ) / 360 ≤ θ → θ ≤ 1 - 1 / 10 ^ 5 →
      IsNStar θ (tailProb s) n r → LBCase n θ s r

/-- how the code chooses the raw upper bound -/
inductive UBCase (n : ℕ) (θ : ℝ) (s : ℕ) : ℝ → Prop
  | all : θ = 1 → UBCase n θ s n
  | none (r : ℕ) : n = 0 → θ < 1 → IsNPrime θ (tailProb s) 0 r → UBCase n θ s r
  | many : 120 < n → θ < 1 → UBCase n θ s (contClassicUB n θ s + 1 / 2)
  | near : 1 ≤ n → n ≤ 120 → 1 - 1 / 10 ^ 5 < θ → θ < 1 → UBCase n θ s ((n + 1 : ℕ) : ℝ)
  | table : 1 ≤ n → n ≤ 120 → θ < (n : ℝ) / 360 → θ < 1 →
      UBCase n θ s (contClassicUB n θ (ubDev n s) + 1 / 2)
  | summed (r : ℕ) : 1 ≤ n → n ≤ 120 → (n : ℝ) / 360 ≤ θ → θ ≤ 1 - 1 / 10 ^ 5 →
      IsNPrime θ (tailProb s) n r → UBCase n θ s r

theorem approxLB_case {fuel n s : ℕ} {θ x : ℝ} (h0 : 0 < θ) (h1 : θ ≤ 1) (hs1 : 1 ≤ s) (hs3 : s ≤ 3)
    (h : approxLB fuel n θ s = .ok x) : LBCase n θ s x := by
  have e36 : (360.0 : ℝ) = 360 := by norm_num
  have e5 : (0.5 : ℝ) = 1 / 2 := by norm_num
  unfold approxLB at h
  rw [deltas_get hs1 hs3, e36, e5] at h
  by_cases c1 : θ = 1
  · rw [if_pos c1] at h; cases h; exact .all c1
  have hlt := lt_of_le_of_ne h1 c1
  rw [if_neg c1] at h
  by_cases c2 : n = 0
  · rw [if_pos c2] at h; cases h; exact .none c2 hlt
  rw [if_neg c2] at h
  have hd0 := tailProb_pos s
  have hd1 := tailProb_lt s
  by_cases c3 : n = 1
  · rw [if_pos c3, Outcome.ofOption_some, Outcome.ok_bind] at h
    obtain ⟨r, hr, hr'⟩ := log_lower (p := θ) (δ := tailProb s) h0 hlt hd0.le (by linarith)
    cases h
    rw [hr]; exact .one r c3 hlt hr'
  rw [if_neg c3] at h
  by_cases c4 : 120 < n
  · rw [if_pos c4] at h; cases h; exact .many c4 hlt
  rw [if_neg c4] at h
  by_cases c5 : 1 - 1 / 10 ^ 5 < θ
  · rw [if_pos c5] at h; cases h; exact .near (by omega) (by omega) c5 hlt
  rw [if_neg c5] at h
  by_cases c6 : θ < (n : ℝ) / 360
  · rw [if_pos c6, entry_lb (by omega) hs1 hs3, Outcome.ok_bind] at h
    cases h; exact .table (by omega) (by omega) c6 hlt
  rw [if_neg c6, Outcome.ofOption_some, Outcome.ok_bind] at h
  obtain ⟨r, hr, hx⟩ := Outcome.bind_eq_ok.mp h
  cases hx
  obtain ⟨a, rfl⟩ : ∃ a, n = a + 1 := ⟨n - 1, by omega⟩
  exact .summed r (by omega) (by omega) (not_lt.mp c6) (not_lt.mp c5) (specialNStar_spec h0.le h1 hd0.le hr)

theorem approxUB_case {fuel n s : ℕ} {θ x : ℝ} (h0 : 0 < θ) (h1 : θ ≤ 1) (hs1 : 1 ≤ s) (hs3 : s ≤ 3)
    (h : approxUB fuel n θ s = .ok x) : UBCase n θ s x := by
  have e36 : (360.0 : ℝ) = 360 := by norm_num
  have e5 : (0.5 : ℝ) = 1 / 2 := by norm_num
  unfold approxUB at h
  rw [deltas_get hs1 hs3, e36, e5] at h
  by_cases c1 : θ = 1
  · rw [if_pos c1] at h; cases h; exact .all c1
  have hlt := lt_of_le_of_ne h1 c1
  rw [if_neg c1] at h
  have hd0 := tailProb_pos s
  have hd1 := tailProb_lt s
  by_cases c2 : n = 0
  · rw [if_pos c2, Outcome.ofOption_some, Outcome.ok_bind] at h
    obtain ⟨r, hr, hr'⟩ := log_upper (p := θ) (δ := tailProb s) h0 hlt hd0 (by linarith)
    cases h
    rw [hr]; exact .none r c2 hlt hr'
  rw [if_neg c2] at h
  by_cases c4 : 120 < n
  · rw [if_pos c4] at h; cases h; exact .many c4 hlt
  rw [if_neg c4] at h
  by_cases c5 : 1 - 1 / 10 ^ 5 < θ
  · rw [if_pos c5] at h; cases h; exact .near (by omega) (by omega) c5 hlt
  rw [if_neg c5] at h
  by_cases c6 : θ < (n : ℝ) / 360
  · rw [if_pos c6, entry_ub (by omega) hs1 hs3, Outcome.ok_bind] at h
    cases h; exact .table (by omega) (by omega) c6 hlt
  rw [if_neg c6, Outcome.ofOption_some, Outcome.ok_bind] at h
  obtain ⟨r, hr, hx⟩ := Outcome.bind_eq_ok.mp h
  cases hx
  exact .summed r (by omega) (by omega) (not_lt.mp c6) (not_lt.mp c5)
    (specialNPrimeF_spec h0.le h1 (by linarith) hr)

theorem approxLB_total (n : ℕ) {θ : ℝ} {s : ℕ} (h0 : 0 < θ) (h1 : θ ≤ 1) (hs1 : 1 ≤ s) (hs3 : s ≤ 3) :
    ∃ F, ∀ fuel, F ≤ fuel → ∃ x, approxLB fuel n θ s = .ok x := by
  have e36 : (360.0 : ℝ) = 360 := by norm_num
  have hd1 := tailProb_lt s
  unfold approxLB
  rw [deltas_get hs1 hs3, e36]
  by_cases c1 : θ = 1
  · simp only [if_pos c1]; exact ⟨0, fun _ _ => ⟨_, rfl⟩⟩
  simp only [if_neg c1]
  by_cases c2 : n = 0
  · simp only [if_pos c2]; exact ⟨0, fun _ _ => ⟨_, rfl⟩⟩
  simp only [if_neg c2]
  by_cases c3 : n = 1
  · simp only [if_pos c3]; exact ⟨0, fun _ _ => ⟨_, rfl⟩⟩
  simp only [if_neg c3]
  by_cases c4 : 120 < n
  · simp only [if_pos c4]; exact ⟨0, fun _ _ => ⟨_, rfl⟩⟩
  simp only [if_neg c4]
  by_cases c5 : 1 - 1 / 10 ^ 5 < θ
  · simp only [if_pos c5]; exact ⟨0, fun _ _ => ⟨_, rfl⟩⟩
  simp only [if_neg c5]
  by_cases c6 : θ < (n : ℝ) / 360
  · simp only [if_pos c6, entry_lb (n := n) (by omega) hs1 hs3]; exact ⟨0, fun _ _ => ⟨_, rfl⟩⟩
  simp only [if_neg c6, Outcome.ofOption_some, Outcome.ok_bind]
  obtain ⟨a, rfl⟩ : ∃ a, n = a + 1 := ⟨n - 1, by omega⟩
  have h360 : ((a + 1 : ℕ) : ℝ) / θ < 500 := by
    rw [div_lt_iff₀ h0]
    have : ((a + 1 : ℕ) : ℝ) ≤ 360 * θ := by linarith [not_lt.mp c6]
    linarith
  have hbig : 1 / 10 ^ 100 < θ ^ (a + 1) := by
    refine lt_of_lt_of_le (pow_big (k := a + 1) (by omega) (by omega) (not_lt.mp c6)) ?_
    exact pow_le_pow_of_le_one h0.le h1 (by omega)
  obtain ⟨F, hF⟩ := specialNStar_total (δ := tailProb s) h0 h1 (by linarith) h360 hbig
  refine ⟨F, fun fuel hf => ?_⟩
  obtain ⟨r, hr⟩ := hF fuel hf
  rw [hr]; exact ⟨_, rfl⟩

theorem approxUB_total (n : ℕ) {θ : ℝ} {s : ℕ} (h0 : 0 < θ) (h1 : θ ≤ 1) (hs1 : 1 ≤ s) (hs3 : s ≤ 3) :
    ∃ F, ∀ fuel, F ≤ fuel → ∃ x, approxUB fuel n θ s = .ok x := by
  have e36 : (360.0 : ℝ) = 360 := by norm_num
  have hd0 := tailProb_pos s
  unfold approxUB
  rw [deltas_get hs1 hs3, e36]
  by_cases c1 : θ = 1
  · simp only [if_pos c1]; exact ⟨0, fun _ _ => ⟨_, rfl⟩⟩
  simp only [if_neg c1]
  by_cases c2 : n = 0
  · simp only [if_pos c2]; exact ⟨0, fun _ _ => ⟨_, rfl⟩⟩
  simp only [if_neg c2]
  by_cases c4 : 120 < n
  · simp only [if_pos c4]; exact ⟨0, fun _ _ => ⟨_, rfl⟩⟩
  simp only [if_neg c4]
  by_cases c5 : 1 - 1 / 10 ^ 5 < θ
  · simp only [if_pos c5]; exact ⟨0, fun _ _ => ⟨_, rfl⟩⟩
  simp only [if_neg c5]
  by_cases c6 : θ < (n : ℝ) / 360
  · simp only [if_pos c6, entry_ub (n := n) (by omega) hs1 hs3]; exact ⟨0, fun _ _ => ⟨_, rfl⟩⟩
  simp only [if_neg c6, Outcome.ofOption_some, Outcome.ok_bind]
  have h360 : (n : ℝ) / θ < 500 := by
    rw [div_lt_iff₀ h0]
    have : (n : ℝ) ≤ 360 * θ := by linarith [not_lt.mp c6]
    linarith
  have hbig := pow_big (k := n) (by omega) (by omega) (not_lt.mp c6)
  obtain ⟨F, hF⟩ := specialNPrimeF_total (δ := tailProb s) h0 h1 hd0 h360 hbig
  refine ⟨F, fun fuel hf => ?_⟩
  obtain ⟨r, hr⟩ := hF fuel hf
  rw [hr]; exact ⟨_, rfl⟩

theorem validate_ok {θ : ℝ} {s : ℕ} :
    validate θ s = .ok () ↔ 0 < θ ∧ θ ≤ 1 ∧ 1 ≤ s ∧ s ≤ 3 := by
  unfold validate
  split
  · rename_i h
    constructor
    · intro h; cases h
    · rintro ⟨a, b, -⟩; rcases h with h | h <;> linarith
  · rename_i h
    push Not at h
    split
    · rename_i h'
      constructor
      · intro h; cases h
      · rintro ⟨-, -, a, b⟩; omega
    · rename_i h'
      simp only [true_iff]
      exact ⟨h.1, h.2, by omega, by omega⟩

theorem lowerBound_ok {fuel n s : ℕ} {θ lb : ℝ} (h : lowerBound fuel n θ s = .ok lb) :
    (0 < θ ∧ θ ≤ 1 ∧ 1 ≤ s ∧ s ≤ 3) ∧ ∃ x, LBCase n θ s x ∧ lb = min (n / θ) (max n x) := by
  unfold lowerBound at h
  obtain ⟨u, hv, h⟩ := Outcome.bind_eq_ok.mp h
  have hv' := validate_ok.mp hv
  simp only at h
  obtain ⟨x, hx, h⟩ := Outcome.bind_eq_ok.mp h
  cases h
  exact ⟨hv', x, approxLB_case hv'.1 hv'.2.1 hv'.2.2.1 hv'.2.2.2 hx, rfl⟩

theorem upperBound_ok {fuel n s : ℕ} {θ ub : ℝ} (h : upperBound fuel n θ s = .ok ub) :
    (0 < θ ∧ θ ≤ 1 ∧ 1 ≤ s ∧ s ≤ 3) ∧ ∃ x, UBCase n θ s x ∧ ub = max (n / θ) x := by
  unfold upperBound at h
  obtain ⟨u, hv, h⟩ := Outcome.bind_eq_ok.mp h
  have hv' := validate_ok.mp hv
  simp only at h
  obtain ⟨x, hx, h⟩ := Outcome.bind_eq_ok.mp h
  cases h
  exact ⟨hv', x, approxUB_case hv'.1 hv'.2.1 hv'.2.2.1 hv'.2.2.2 hx, rfl⟩

theorem IsNStar.mono {δ ε : ℝ} {k r r' : ℕ} (h : IsNStar p δ k r) (h' : IsNStar p ε k r')
    (hle : ε ≤ δ) : (r' : ℝ) ≤ r := by
  exact_mod_cast h.2 r' (h'.1.trans hle)

theorem IsNPrime.mono {δ ε : ℝ} {k r r' : ℕ} (h : IsNPrime p δ k r) (h' : IsNPrime p ε k r')
    (hle : ε ≤ δ) : (r : ℝ) ≤ r' := by
  exact_mod_cast h.2 r' (h'.1.trans hle)

theorem LBCase.anti {n s t : ℕ} {θ x y : ℝ} (h0 : 0 < θ) (hs : 1 ≤ s) (hst : s ≤ t) (ht : t ≤ 3)
    (hx : LBCase n θ s x) (hy : LBCase n θ t y) : y ≤ x := by
  have hd := tailProb_anti hs hst ht
  have h360 : n ≤ 120 → (n : ℝ) / 360 ≤ 1 / 3 := fun h => by
    have : (n : ℝ) ≤ 120 := by exact_mod_cast h
    linarith
  cases hx <;> cases hy <;>
    first
      | (exfalso; omega)
      | (exfalso; linarith)
      | (exfalso; norm_num at *; linarith [h360 (by assumption)])
      | exact le_refl _
      | exact IsNStar.mono (by assumption) (by assumption) hd
      | (subst_vars; exact IsNStar.mono (by assumption) (by assumption) hd)
      | skip
  · have : (s : ℝ) ≤ t := by exact_mod_cast hst
    linarith [classicLB_anti (n := n) h0 (by omega) (Nat.cast_nonneg s) this]
  · linarith [classicLB_anti (n := n) h0 (by omega) (dev_nonneg n s).1
      (dev_mono (n := n) (by omega) hs hst ht).1]

theorem UBCase.mono {n s t : ℕ} {θ x y : ℝ} (h0 : 0 < θ) (hs : 1 ≤ s) (hst : s ≤ t) (ht : t ≤ 3)
    (hx : UBCase n θ s x) (hy : UBCase n θ t y) : x ≤ y := by
  have hd := tailProb_anti hs hst ht
  have h360 : n ≤ 120 → (n : ℝ) / 360 ≤ 1 / 3 := fun h => by
    have : (n : ℝ) ≤ 120 := by exact_mod_cast h
    linarith
  cases hx <;> cases hy <;>
    first
      | (exfalso; omega)
      | (exfalso; linarith)
      | (exfalso; norm_num at *; linarith [h360 (by assumption)])
      | exact le_refl _
      | exact IsNPrime.mono (by assumption) (by assumption) hd
      | (subst_vars; exact IsNPrime.mono (by assumption) (by assumption) hd)
      | skip
  · have : (s : ℝ) ≤ t := by exact_mod_cast hst
    linarith [classicUB_mono (n := n) h0 (Nat.cast_nonneg s) this]
  · linarith [classicUB_mono (n := n) h0 (dev_nonneg n s).2
      (dev_mono (n := n) (by omega) hs hst ht).2]

end Verif.Binomial
