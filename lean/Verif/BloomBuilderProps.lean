import Verif.BloomBuilder
import Verif.BloomRate

/-!
# C105: Bloom filters sized by accuracy
-/

namespace Verif.Bloom

open Verif

/-- the textbook false positive rate of `cap` bits and `k` hash functions after `n` distinct items -/
noncomputable def fpRate (cap k n : Nat) : ℝ := (1 - Real.exp (-((k : ℝ) * n) / cap)) ^ k

theorem fpRate_mono {cap cap' k n n' : Nat} (hc : cap' ≤ cap) (hc0 : 0 < cap') (hn : n ≤ n') :
    fpRate cap k n ≤ fpRate cap' k n' := by
  have h0 : (0 : ℝ) < cap' := by exact_mod_cast hc0
  have h1 : (cap' : ℝ) ≤ cap := by exact_mod_cast hc
  have h2 : (n : ℝ) ≤ n' := by exact_mod_cast hn
  have hk : (0 : ℝ) ≤ k := Nat.cast_nonneg _
  have hn0 : (0 : ℝ) ≤ n := Nat.cast_nonneg _
  refine pow_le_pow_left₀ ?_ ?_ _
  · rw [sub_nonneg, Real.exp_le_one_iff]
    exact div_nonpos_of_nonpos_of_nonneg (by nlinarith) (by linarith)
  · refine sub_le_sub_left (Real.exp_le_exp.2 ?_) _
    rw [neg_div, neg_div]
    refine neg_le_neg (div_le_div₀ (by positivity) (by nlinarith) h0 h1)

theorem log_ge {p : ℝ} (hp : (2 : ℝ)⁻¹ ^ 1074 ≤ p) : -Real.log p ≤ 1074 * Real.log 2 := by
  have h0 : (0 : ℝ) < (2 : ℝ)⁻¹ ^ 1074 := by positivity
  have := Real.log_le_log h0 hp
  rw [Real.log_pow, Real.log_inv] at this
  push_cast at this
  linarith

theorem ceil_ge {x : ℝ} {m : Nat} (h : ⌈x⌉₊ = m) : x ≤ m := h ▸ Nat.le_ceil x

/-- an empty filter of at least `m` bits -/
def fresh (m k : Nat) (seed : Word) : Filter :=
  { seed := seed, numHashes := k, isDirty := false, capacityBits := roundCapacity m,
    numBitsSet := 0, bitArray := List.replicate (roundCapacity m / 64) 0#64 }

theorem newBySize_eq {m k : Nat} {seed : Word} (hm : 0 < m) (hk : 0 < k) (h : m ≤ maxBits) :
    newBySize m k seed = .ok (fresh m k seed) := by
  rw [newBySize, if_neg hm.ne', if_neg hk.ne', if_neg (by omega)]
  rfl

/-- **C105.** For at least one item and a target that a float64 can hold, the builder returns an empty filter with the
seed asked for, sized within 64 bits of the formula, or an error when that size exceeds the limit. The number of
hash functions is `SuggestNumHashes` of the target or one more, and between 1 and 1075.
The textbook false positive rate stays within 9/8 of the target up to the number of items asked for.
(Partial: the full claim, a rate of at most the target, fails: `C105_target_missed`.) -/
theorem C105_accuracy_partial {n : Nat} {p : ℝ} {seed : Word} (hn : 1 ≤ n) (hn2 : n ≤ 2 ^ 53)
    (hp : (2 : ℝ)⁻¹ ^ 1074 ≤ p) (hp1 : p < 1) :
    ∃ m s, suggestNumFilterBits n p = .ok m ∧ suggestNumHashes p = .ok s ∧
      (n : ℝ) * (-Real.log p) / (Real.log 2) ^ 2 ≤ m ∧ (m : ℝ) < n * (-Real.log p) / (Real.log 2) ^ 2 + 1 ∧
      (maxBits < m → ∃ e, newByAccuracy n p seed = .err e) ∧
      (m ≤ maxBits → ∃ f, newByAccuracy n p seed = .ok f ∧ f.seed = seed ∧
        m ≤ f.capacityBits ∧ f.capacityBits < m + 64 ∧ 64 ∣ f.capacityBits ∧
        f.bitArray = List.replicate (f.capacityBits / 64) 0#64 ∧
        s ≤ f.numHashes ∧ f.numHashes ≤ s + 1 ∧ 1 ≤ f.numHashes ∧ f.numHashes ≤ 1075 ∧
        ∀ j ≤ n, fpRate f.capacityBits f.numHashes j ≤ 9 / 8 * p) := by
  have hp0 : 0 < p := lt_of_lt_of_le (by positivity) hp
  have hL := Real.log_pos (by norm_num : (1 : ℝ) < 2)
  have hL1 := Real.log_two_gt_d9
  have hL2 := Real.log_two_lt_d9
  have hlp := log_ge hp
  have hlp0 : 0 < -Real.log p := by have := Real.log_neg hp0 hp1; linarith
  set L := Real.log 2 with hLd
  set q := -Real.log p with hq
  have hn0 : (0 : ℝ) < n := by exact_mod_cast hn
  have hn1 : (1 : ℝ) ≤ n := by exact_mod_cast hn
  have hn53 : (n : ℝ) ≤ 2 ^ 53 := by exact_mod_cast hn2
  -- bits
  have hx : -(n : ℝ) * Real.log p / (L * L) = n * q / L ^ 2 := by rw [hq]; ring
  have hx0 : 0 < n * q / L ^ 2 := by positivity
  have hm1 := Nat.le_ceil (n * q / L ^ 2)
  have hm2 := Nat.ceil_lt_add_one hx0.le
  have hm0 : 0 < ⌈n * q / L ^ 2⌉₊ := Nat.ceil_pos.2 hx0
  have hbits : suggestNumFilterBits n p
      = if ⌈n * q / L ^ 2⌉₊ < 2 ^ 64 then .ok ⌈n * q / L ^ 2⌉₊ else .panic := by
    rw [suggestNumFilterBits, ceilTo, ← hLd, hx]
  generalize ⌈n * q / L ^ 2⌉₊ = m at hm1 hm2 hm0 hbits
  have hxu : n * q / L ^ 2 ≤ n * 1550 := by
    rw [div_le_iff₀ (by positivity)]
    have : q ≤ 1550 * L ^ 2 := by nlinarith
    nlinarith
  have hm64 : m < 2 ^ 64 := by
    have : (m : ℝ) < 2 ^ 64 := by
      have e : (2 : ℝ) ^ 53 * 1550 + 1 ≤ 2 ^ 64 := by norm_num
      linarith
    exact_mod_cast this
  rw [if_pos hm64] at hbits
  -- hashes from the target
  have hy : -Real.log p / L = q / L := by rw [hq]
  have hy0 : 0 < q / L := by positivity
  have hyu : q / L ≤ 1074 := by rw [div_le_iff₀ hL]; exact hlp
  have hs1 := Nat.le_ceil (q / L)
  have hs2 : ⌈q / L⌉₊ ≤ 1074 := Nat.ceil_le.2 (by exact_mod_cast hyu)
  have hsug : suggestNumHashes p = .ok ⌈q / L⌉₊ := by
    rw [suggestNumHashes, ceilTo, ← hLd, hy, if_pos (by norm_num; omega)]
  -- hashes from the size
  set t : ℝ := (m : ℝ) / n * L with ht
  have hm0r : (0 : ℝ) < m := by exact_mod_cast hm0
  have ht0 : 0 < t := by positivity
  have ht1 : q / L ≤ t := by
    have : q / L = n * q / L ^ 2 / n * L := by field_simp
    rw [this, ht]
    gcongr
  have ht2 : t < q / L + 1 := by
    have : q / L + L / n = (n * q / L ^ 2 + 1) / n * L := by field_simp
    have h2 : L / n < 1 := by rw [div_lt_one hn0]; linarith
    have h3 : t < q / L + L / n := by
      rw [this, ht]
      gcongr
    linarith
  have hk1 : ⌈q / L⌉₊ ≤ ⌈t⌉₊ := Nat.ceil_le_ceil ht1
  have hk2 : ⌈t⌉₊ ≤ ⌈q / L⌉₊ + 1 := by
    refine Nat.ceil_le.2 ?_
    push_cast
    linarith
  have hk0 : 0 < ⌈t⌉₊ := Nat.ceil_pos.2 ht0
  have hsize : suggestNumHashesFromSize n m = .ok ⌈t⌉₊ := by
    rw [suggestNumHashesFromSize, if_neg (by omega), ceilTo, ← hLd, ← ht, if_pos (by norm_num; omega)]
    rw [Outcome.ok_bind, if_neg hk0.ne']
  have hnew : newByAccuracy n p seed = newBySize m ⌈t⌉₊ seed := by
    rw [newByAccuracy, if_neg (by omega), if_neg (by push Not; exact ⟨hp0, hp1⟩), hbits, Outcome.ok_bind, hsize,
      Outcome.ok_bind]
  have hrt := ratio_le ht0
  generalize ⌈t⌉₊ = k at hk0 hk1 hk2 hsize hnew hrt
  generalize ⌈q / L⌉₊ = s at hs1 hs2 hsug hk1 hk2
  refine ⟨m, s, hbits, hsug, hm1, hm2, fun hbig => ⟨"numBits exceeds maximum allowed size", ?_⟩, fun hle => ?_⟩
  · rw [hnew, newBySize, if_neg hm0.ne', if_neg hk0.ne', if_pos hbig]
  · refine ⟨fresh m k seed, ?_, rfl, ?_, ?_, ?_, rfl, hk1, hk2, hk0, by show k ≤ 1075; omega, fun j hj => ?_⟩
    · rw [hnew, newBySize_eq hm0 hk0 hle]
    · show m ≤ roundCapacity m
      unfold roundCapacity; omega
    · show roundCapacity m < m + 64
      unfold roundCapacity; omega
    · show 64 ∣ roundCapacity m
      unfold roundCapacity; omega
    · have hcap : m ≤ roundCapacity m := by unfold roundCapacity; omega
      refine (fpRate_mono hcap hm0 hj).trans ?_
      have hr : fpRate m k n = (1 - Real.exp (-(k / t) * L)) ^ k := by
        rw [fpRate, show -((k : ℝ) * n) / m = -(k / t) * L by rw [ht]; field_simp]
      have he : Real.exp (-(t * L)) ≤ p := by
        have : q ≤ t * L := by rwa [div_le_iff₀ hL] at ht1
        calc Real.exp (-(t * L)) ≤ Real.exp (-q) := Real.exp_le_exp.2 (by linarith)
          _ = p := by rw [hq, neg_neg, Real.exp_log hp0]
      have hr2 : fpRate m k n = ratio k t * Real.exp (-(t * L)) := by
        rw [ratio, hr, mul_assoc, ← Real.exp_add, show t * L + -(t * L) = 0 by ring, Real.exp_zero, mul_one]
      show fpRate m k n ≤ _
      rw [hr2]
      exact mul_le_mul hrt he (Real.exp_pos _).le (by norm_num)

/-- the hypotheses hold for the default filter: 10000 items at 1% -/
example : ∃ m s, suggestNumFilterBits 10000 0.01 = .ok m ∧ suggestNumHashes 0.01 = .ok s := by
  obtain ⟨m, s, h1, h2, _⟩ := C105_accuracy_partial (n := 10000) (p := 0.01) (seed := 9001#64)
    (by norm_num) (by norm_num)
    (le_trans (pow_le_pow_of_le_one (by norm_num) (by norm_num) (by norm_num : 7 ≤ 1074)) (by norm_num)) (by norm_num)
  exact ⟨m, s, h1, h2⟩

/-- **C105.** The default filter: 95872 bits and 7 hash functions. -/
theorem C105_default : newWithDefault = .ok
    { seed := 9001#64, numHashes := 7, isDirty := false, capacityBits := 95872, numBitsSet := 0,
      bitArray := List.replicate 1498 0#64 } := by
  have hL1 := Real.log_two_gt_d9
  have hL2 := Real.log_two_lt_d9
  have hL0 : (0 : ℝ) < Real.log 2 := by linarith
  have hlog : Real.log 0.01 = -(2 * Real.log 10) := by
    rw [show (0.01 : ℝ) = (10 ^ 2)⁻¹ by norm_num, Real.log_inv, Real.log_pow]; norm_num
  have h10a : 485 * Real.log 2 ≤ 146 * Real.log 10 := by
    have h : (2 : ℝ) ^ 485 ≤ 10 ^ 146 := by
      have : (2 : Nat) ^ 485 ≤ 10 ^ 146 := by decide +kernel
      exact_mod_cast this
    have := Real.log_le_log (by positivity) h
    rwa [Real.log_pow, Real.log_pow] at this
  have h10b : 351 * Real.log 10 ≤ 1166 * Real.log 2 := by
    have h : (10 : ℝ) ^ 351 ≤ 2 ^ 1166 := by
      have : (10 : Nat) ^ 351 ≤ 2 ^ 1166 := by decide +kernel
      exact_mod_cast this
    have := Real.log_le_log (by positivity) h
    rwa [Real.log_pow, Real.log_pow] at this
  have hm : suggestNumFilterBits 10000 0.01 = .ok 95851 := by
    have : ⌈-((10000 : Nat) : ℝ) * Real.log 0.01 / (Real.log 2 * Real.log 2)⌉₊ = 95851 := by
      rw [hlog, Nat.ceil_eq_iff (by norm_num)]
      constructor
      · rw [lt_div_iff₀ (by positivity)]; norm_num; nlinarith
      · rw [div_le_iff₀ (by positivity)]; norm_num; nlinarith
    rw [suggestNumFilterBits, ceilTo, this, if_pos (by norm_num)]
  have hk : suggestNumHashesFromSize 10000 95851 = .ok 7 := by
    have : ⌈((95851 : Nat) : ℝ) / ((10000 : Nat) : ℝ) * Real.log 2⌉₊ = 7 := by
      rw [Nat.ceil_eq_iff (by norm_num)]
      constructor
      · norm_num; linarith
      · norm_num; linarith
    rw [suggestNumHashesFromSize, if_neg (by norm_num), ceilTo, this, if_pos (by norm_num), Outcome.ok_bind,
      if_neg (by norm_num)]
  rw [newWithDefault, newByAccuracy, if_neg (by norm_num), if_neg (by norm_num), hm, Outcome.ok_bind, hk,
    Outcome.ok_bind, newBySize_eq (by norm_num) (by norm_num) (by norm_num [maxBits])]
  rfl

/-- **C105.** A filter of a given size is refused exactly for no bits, no hash functions, or more than
137438953152 bits; otherwise it has the least multiple of 64 bits that is at least the size asked
for. -/
theorem C105_size (m k : Nat) (seed : Word) :
    ((∃ f, newBySize m k seed = .ok f) ↔ (0 < m ∧ m ≤ 137438953152) ∧ 0 < k) ∧
    ∀ f, newBySize m k seed = .ok f → f.seed = seed ∧ f.numHashes = k ∧ f.bitsUsed.2 = 0 ∧
      64 ∣ f.capacityBits ∧ m ≤ f.capacityBits ∧ f.capacityBits < m + 64 := by
  have hmax : maxBits = 137438953152 := by decide
  constructor
  · constructor
    · rintro ⟨f, hf⟩
      unfold newBySize at hf
      split at hf
      · cases hf
      split at hf
      · cases hf
      split at hf
      · cases hf
      omega
    · rintro ⟨⟨h1, h2⟩, h3⟩
      exact ⟨_, newBySize_eq h1 h3 (by omega)⟩
  · intro f hf
    unfold newBySize at hf
    split at hf
    · cases hf
    split at hf
    · cases hf
    split at hf
    · cases hf
    cases hf
    refine ⟨rfl, rfl, rfl, ⟨(m + 63) / 64, ?_⟩, ?_, ?_⟩
    · simp only [roundCapacity]; omega
    · simp only [roundCapacity]; omega
    · simp only [roundCapacity]; omega

/-- **C105.** Exactly the arguments out of range are refused before sizing. -/
theorem C105_bad_arguments {n : Nat} {p : ℝ} {seed : Word} (h : n = 0 ∨ p ≤ 0 ∨ 1 ≤ p) :
    ∃ e, newByAccuracy n p seed = .err e := by
  unfold newByAccuracy
  split
  · exact ⟨_, rfl⟩
  · rw [if_pos (by tauto)]
    exact ⟨_, rfl⟩

/-- **C105, violation.** A filter for a million items at a target of 1/2 gets two hash functions
(`SuggestNumHashes` says one) and a false positive rate above 0.56 once the items are in. -/
theorem C105_target_missed (seed : Word) : ∃ f, newByAccuracy 1000000 (1 / 2) seed = .ok f ∧
    f.capacityBits = 1442752 ∧ f.numHashes = 2 ∧ suggestNumHashes (1 / 2) = .ok 1 ∧
    56 / 100 < fpRate f.capacityBits f.numHashes 1000000 := by
  have hL1 := Real.log_two_gt_d9
  have hL2 := Real.log_two_lt_d9
  have hlog : Real.log (1 / 2) = -Real.log 2 := by rw [one_div, Real.log_inv]
  have hL0 : (0 : ℝ) < Real.log 2 := by linarith
  have hm : suggestNumFilterBits 1000000 (1 / 2) = .ok 1442696 := by
    have : ⌈-((1000000 : Nat) : ℝ) * Real.log (1 / 2) / (Real.log 2 * Real.log 2)⌉₊ = 1442696 := by
      rw [hlog, show -((1000000 : Nat) : ℝ) * -Real.log 2 / (Real.log 2 * Real.log 2) = 1000000 / Real.log 2 by
        push_cast; field_simp]
      rw [Nat.ceil_eq_iff (by norm_num)]
      constructor
      · rw [lt_div_iff₀ hL0]; norm_num; linarith
      · rw [div_le_iff₀ hL0]; norm_num; linarith
    rw [suggestNumFilterBits, ceilTo, this, if_pos (by norm_num)]
  have hk : suggestNumHashesFromSize 1000000 1442696 = .ok 2 := by
    have : ⌈((1442696 : Nat) : ℝ) / ((1000000 : Nat) : ℝ) * Real.log 2⌉₊ = 2 := by
      rw [Nat.ceil_eq_iff (by norm_num)]
      constructor
      · norm_num; linarith
      · norm_num; linarith
    rw [suggestNumHashesFromSize, if_neg (by norm_num), ceilTo, this, if_pos (by norm_num), Outcome.ok_bind,
      if_neg (by norm_num)]
  have hs : suggestNumHashes (1 / 2) = .ok 1 := by
    rw [suggestNumHashes, ceilTo, hlog, neg_neg, div_self hL0.ne', Nat.ceil_one, if_pos (by norm_num)]
  refine ⟨fresh 1442696 2 seed, ?_, rfl, rfl, hs, ?_⟩
  · rw [newByAccuracy, if_neg (by norm_num), if_neg (by norm_num), hm, Outcome.ok_bind, hk, Outcome.ok_bind,
      newBySize_eq (by norm_num) (by norm_num) (by norm_num [maxBits])]
  · show 56 / 100 < fpRate 1442752 2 1000000
    have he : Real.exp (-(((2 : Nat) : ℝ) * ((1000000 : Nat) : ℝ)) / ((1442752 : Nat) : ℝ)) ≤ 0.2501 := by
      have h1 : Real.exp (-(((2 : Nat) : ℝ) * ((1000000 : Nat) : ℝ)) / ((1442752 : Nat) : ℝ))
          ≤ Real.exp (-(2 * Real.log 2) + 0.0001) := by
        refine Real.exp_le_exp.2 ?_
        norm_num
        linarith
      refine h1.trans ?_
      rw [Real.exp_add, Real.exp_neg, two_mul, Real.exp_add, Real.exp_log (by norm_num)]
      have h2 : Real.exp 0.0001 ≤ 1.0002 := by
        have := Real.exp_bound_div_one_sub_of_interval (x := 0.0001) (by norm_num) (by norm_num)
        refine this.trans ?_
        norm_num
      nlinarith
    rw [fpRate]
    nlinarith

end Verif.Bloom
