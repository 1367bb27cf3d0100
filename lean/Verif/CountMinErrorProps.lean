import Verif.CountMinRandom

/-!
# C88: the error guarantee of the count-min sketch

Randomness: the hash words of the items of a finite set `X` are drawn independently and uniformly
from the 64-bit words, for every row (`Words`).
-/

namespace Verif.CountMin

open Finset

/-- hash words of the items of `X` in `d` rows -/
abbrev Words (X : Finset (List Nat)) (d : Nat) := Fin d → X → Fin (2 ^ 64)

/-- the primitives with the given hash words for the items of `X`; the rows are told apart by their
seeds -/
def withWords (P : Prims) (seed : Int) {X : Finset (List Nat)} {d : Nat} (w : Words X d) : Prims :=
  { P with hash := fun x s =>
      if hx : x ∈ X then
        if hi : (P.seeds seed d).idxOf s < d then (w ⟨_, hi⟩ ⟨x, hx⟩).val else P.hash x s
      else P.hash x s }

/-- `SuggestNumBuckets` count/utils.go l.25-30 for a positive relative error, over the reals -/
noncomputable def suggestNumBuckets (relativeError : ℝ) : Int := ⌈Real.exp 1 / relativeError⌉

/-- `SuggestNumHashes` count/utils.go l.32-37 for a confidence in [0, 1), over the reals -/
noncomputable def suggestNumHashes (confidence : ℝ) : Int :=
  min ⌈Real.log (1 / (1 - confidence))⌉ 127

/-- `GetRelativeError` count_min_sketch.go l.88-90, over the reals -/
noncomputable def relativeError (numBuckets : Int) : ℝ := Real.exp 1 / numBuckets

/-- row of an item under given words -/
theorem row_withWords {P : Prims} {seed : Int} {X : Finset (List Nat)} {d : Nat} (w : Words X d)
    (hnd : (P.seeds seed d).Nodup) {c : Sketch} (hc : c.hashSeeds = P.seeds seed d) {i : Nat}
    (hi : i < d) {x : List Nat} (hx : x ∈ X) :
    row (withWords P seed w) c i x = (w ⟨i, hi⟩ ⟨x, hx⟩).val % c.numBuckets.toNat := by
  have hlen := P.seeds_length seed d
  have hget : (P.seeds seed d).getD i 0 = (P.seeds seed d)[i] := by
    simp [List.getD, hlen, hi]
  have hidx : (P.seeds seed d).idxOf ((P.seeds seed d)[i]) = i := hnd.idxOf_getElem i (by omega)
  unfold row withWords
  rw [hc, hget]
  dsimp only
  rw [dif_pos hx, dif_pos (by rw [hidx]; exact hi)]
  have hfin : ∀ (k : Nat) (hk : k < d), k = i → w ⟨k, hk⟩ ⟨x, hx⟩ = w ⟨i, hi⟩ ⟨x, hx⟩ := by
    rintro k hk rfl; rfl
  rw [hfin _ _ hidx]

/-- C88 (error).  Non-negative weights, total below 2^63, distinct row seeds, random hash words.
For every t > 0, the estimate of an item exceeds its weight by t or more with probability at most
(total (1/buckets + 1/2^64) / t) to the power of the number of hash functions. -/
theorem C88_error_probability (P : Prims) (nh nb seed : Int) (hnh : 0 ≤ nh) (hnhr : InRange 1 nh)
    (hnb : 3 ≤ nb) (hnbr : InRange 4 nb) (hsmall : nb * nh < 2 ^ 30)
    (hseeds : (P.seeds seed nh.toNat).Nodup) (s : Stream) (hs : ∀ e ∈ s, 0 ≤ e.2)
    (hov : absWeight s < 2 ^ 63) (X : Finset (List Nat)) (hX : ∀ e ∈ s, e.1 ∈ X)
    (item : List Nat) (hitem : item ≠ []) (hiX : item ∈ X) :
    ∃ est : Words X nh.toNat → Int,
      (∀ w, ∃ c c', new (withWords P seed w) nh nb seed = .ok c ∧
        runStream (withWords P seed w) c s = .ok c' ∧
        c'.getEstimate (withWords P seed w) item = .ok (est w)) ∧
      (∀ w, 1 ≤ nh → weightOf s (fun x => x == item) ≤ est w ∧
        est w ≤ weightOf s (fun _ => true)) ∧
      ∀ t : ℝ, 0 < t →
        prob (Words X nh.toNat) (fun w => (weightOf s (fun x => x == item) : ℝ) + t ≤ est w) ≤
          (weightOf s (fun _ => true) * (1 / nb + 1 / 2 ^ 64) / t) ^ nh.toNat := by
  have hex : ∀ w : Words X nh.toNat, ∃ r : Int, (∃ c c', new (withWords P seed w) nh nb seed = .ok c ∧
      runStream (withWords P seed w) c s = .ok c' ∧
      c'.getEstimate (withWords P seed w) item = .ok r) ∧
      (1 ≤ nh → weightOf s (fun x => x == item) ≤ r ∧ r ≤ weightOf s (fun _ => true)) ∧
      ∀ i : Fin nh.toNat, r ≤ weightOf s (fun x => row (withWords P seed w)
        { numBuckets := nb, numHashes := nh, slice := [], seed := seed, totalWeight := 0,
          hashSeeds := P.seeds seed nh.toNat } i x == row (withWords P seed w)
        { numBuckets := nb, numHashes := nh, slice := [], seed := seed, totalWeight := 0,
          hashSeeds := P.seeds seed nh.toNat } i item) := by
    intro w
    obtain ⟨c, hc⟩ : ∃ c, new (withWords P seed w) nh nb seed = .ok c := by
      unfold new
      have hmul : 0 ≤ nb * nh := Int.mul_nonneg (by omega) hnh
      have hw : wrap 4 (nb * nh) = nb * nh := by
        apply wrap_of_inRange
        constructor <;> norm_num <;> omega
      rw [hw, if_neg (by omega), if_neg (by omega), if_neg (by omega), if_neg (by omega)]
      exact ⟨_, rfl⟩
    obtain ⟨i0, e1, e2, e3⟩ := new_inv _ nh nb seed hnh hnhr hnbr hsmall c hc
    obtain ⟨c', e, inv, b1, b2, b3⟩ := run_inv (withWords P seed w) s c [] i0
    rw [List.nil_append] at inv
    obtain ⟨r, er, r1, r2, r3⟩ := estimate_of_inv inv item hitem
    refine ⟨r, ⟨c, c', hc, e, er⟩, ?_, ?_⟩
    · intro h1
      obtain ⟨d', r', f1, f2, f3, f4, -⟩ := C20_estimate_bounds (withWords P seed w) nh nb seed h1 hnhr
        hnbr hsmall c hc s hs hov item hitem
      rw [e] at f1; cases f1
      rw [er] at f2; cases f2
      exact ⟨f3, f4⟩
    · intro i
      have hi : (i : Nat) < c'.numHashes.toNat := by rw [b2, e2]; exact i.isLt
      have := r2 i hi
      rw [wrap_weightOf hov] at this
      have hrow : ∀ x, row (withWords P seed w) c' i x = row (withWords P seed w)
        { numBuckets := nb, numHashes := nh, slice := [], seed := seed, totalWeight := 0,
          hashSeeds := P.seeds seed nh.toNat } i x := by
        intro x
        unfold row
        have hsd : c'.hashSeeds = P.seeds seed nh.toNat := by
          rw [inv.seeds, b1, b2, e1, e2]; rfl
        rw [hsd, b3, e3]
      simpa only [hrow] using this
  choose est h1 h2 h3 using hex
  refine ⟨est, h1, h2, ?_⟩
  intro t ht
  -- weights of the items
  have hf : ∀ y : X, (0 : ℝ) ≤ (weightOf s (fun x => x == y.val) : ℝ) := by
    intro y
    have : weightOf s (fun _ => false) ≤ weightOf s (fun x => x == y.val) :=
      weightOf_mono s hs _ _ (by simp)
    have h0 : weightOf s (fun _ => false) = 0 := by simp [weightOf]
    rw [h0] at this
    exact_mod_cast this
  have htot : (weightOf s (fun _ => true) : ℝ) = ∑ y : X, (weightOf s (fun x => x == y.val) : ℝ) := by
    rw [weightOf_items X s hX (fun _ => true)]
    push_cast
    simp
  have hrowsum : ∀ (w : Words X nh.toNat) (i : Fin nh.toNat), (est w : ℝ) ≤
      weightOf s (fun x => x == item) + excess nb.toNat
        (fun y : X => (weightOf s (fun x => x == y.val) : ℝ)) ⟨item, hiX⟩ (w i) := by
    intro w i
    have h := h3 w i
    rw [weightOf_items X s hX] at h
    have h' : (est w : ℝ) ≤ ((∑ y : X, weightOf s (fun x => x == y.val) *
      (if (row (withWords P seed w)
        { numBuckets := nb, numHashes := nh, slice := [], seed := seed, totalWeight := 0,
          hashSeeds := P.seeds seed nh.toNat } i y.val == row (withWords P seed w)
        { numBuckets := nb, numHashes := nh, slice := [], seed := seed, totalWeight := 0,
          hashSeeds := P.seeds seed nh.toNat } i item) = true then 1 else 0) : Int) : ℝ) := by
      exact_mod_cast h
    refine h'.trans (le_of_eq ?_)
    push_cast
    rw [← Finset.add_sum_erase univ _ (mem_univ (⟨item, hiX⟩ : X))]
    unfold excess
    congr 1
    · simp
    · apply sum_congr rfl
      intro y _
      rw [row_withWords w hseeds rfl i.isLt y.property, row_withWords w hseeds rfl i.isLt hiX]
      simp
  refine (prob_mono (q := fun w => ∀ i, t ≤ excess nb.toNat
        (fun y : X => (weightOf s (fun x => x == y.val) : ℝ)) ⟨item, hiX⟩ (w i)) ?_).trans ?_
  · intro w hw i
    have := hrowsum w i
    linarith
  · have hone := prob_excess (W := 2 ^ 64) (n := nb.toNat) (Nat.pow_pos (by omega)) hf
      (⟨item, hiX⟩ : X) ht
    rw [← htot] at hone
    have hnbc : ((nb.toNat : Nat) : ℝ) = (nb : ℝ) := by
      have : ((nb.toNat : Nat) : Int) = nb := Int.toNat_of_nonneg (by omega)
      exact_mod_cast congrArg (fun z : Int => (z : ℝ)) this
    rw [hnbc] at hone
    have hpow : (((2 ^ 64 : Nat)) : ℝ) = 2 ^ 64 := Nat.cast_pow 2 64
    rw [hpow] at hone
    rw [prob_rows nh.toNat (fun g : X → Fin (2 ^ 64) => t ≤ excess nb.toNat
        (fun y : X => (weightOf s (fun x => x == y.val) : ℝ)) ⟨item, hiX⟩ g)]
    apply pow_le_pow_left₀ _ hone
    unfold prob
    positivity

/-- C88 (relative error).  Under the same assumptions the estimate exceeds the weight of an item by
more than `GetRelativeError` times the total weight with probability at most e^-d for d hash
functions, up to a factor (1 + buckets/2^64)^d. -/
theorem C88_relative_error (P : Prims) (nh nb seed : Int) (hnh : 0 ≤ nh) (hnhr : InRange 1 nh)
    (hnb : 3 ≤ nb) (hnbr : InRange 4 nb) (hsmall : nb * nh < 2 ^ 30)
    (hseeds : (P.seeds seed nh.toNat).Nodup) (s : Stream) (hs : ∀ e ∈ s, 0 ≤ e.2)
    (hov : absWeight s < 2 ^ 63) (X : Finset (List Nat)) (hX : ∀ e ∈ s, e.1 ∈ X)
    (item : List Nat) (hitem : item ≠ []) (hiX : item ∈ X) :
    ∃ est : Words X nh.toNat → Int,
      (∀ w, ∃ c c', new (withWords P seed w) nh nb seed = .ok c ∧
        runStream (withWords P seed w) c s = .ok c' ∧
        c'.getEstimate (withWords P seed w) item = .ok (est w)) ∧
      prob (Words X nh.toNat) (fun w => (weightOf s (fun x => x == item) : ℝ) +
          relativeError nb * weightOf s (fun _ => true) < est w) ≤
        Real.exp (-nh) * (1 + nb / 2 ^ 64) ^ nh.toNat := by
  obtain ⟨est, h1, h2, h3⟩ := C88_error_probability P nh nb seed hnh hnhr hnb hnbr hsmall hseeds s hs
    hov X hX item hitem hiX
  refine ⟨est, h1, ?_⟩
  have hnbq : (0 : ℝ) < nb := by
    have : 0 < nb := by omega
    exact_mod_cast this
  have hexp : Real.exp (-(nh : ℝ)) = (Real.exp (-1)) ^ nh.toNat := by
    rw [← Real.exp_nat_mul]
    congr 1
    have : ((nh.toNat : Nat) : ℝ) = nh := by
      have : ((nh.toNat : Nat) : Int) = nh := Int.toNat_of_nonneg hnh
      exact_mod_cast congrArg (fun z : Int => (z : ℝ)) this
    rw [this]; ring
  have htotal : (0 : ℤ) ≤ weightOf s (fun _ => true) := by
    rw [weightOf_true_eq s hs]; exact absWeight_nonneg s
  rcases eq_or_lt_of_le htotal with h0 | hpos
  · -- nothing was counted
    rw [← h0]
    by_cases hz : nh = 0
    · subst hz
      have : prob (Words X (0 : Int).toNat) (fun w => (weightOf s (fun x => x == item) : ℝ) +
          relativeError nb * ((0 : ℤ) : ℝ) < est w) ≤ 1 := by
        unfold prob
        apply div_le_one_of_le₀ _ (by positivity)
        exact_mod_cast card_le_univ _
      simpa using this
    · have hnone : ∀ w, ¬ ((weightOf s (fun x => x == item) : ℝ) +
          relativeError nb * ((0 : ℤ) : ℝ) < est w) := by
        intro w
        obtain ⟨a, b⟩ := h2 w (by omega)
        have : est w ≤ weightOf s (fun x => x == item) := by
          have h00 : weightOf s (fun _ => false) ≤ weightOf s (fun x => x == item) :=
            weightOf_mono s hs _ _ (by simp)
          have : weightOf s (fun _ => false) = 0 := by simp [weightOf]
          omega
        have : (est w : ℝ) ≤ weightOf s (fun x => x == item) := by exact_mod_cast this
        simp only [Int.cast_zero, mul_zero, add_zero, not_lt]
        exact this
      have hp0 : prob (Words X nh.toNat) (fun w => (weightOf s (fun x => x == item) : ℝ) +
          relativeError nb * ((0 : ℤ) : ℝ) < est w) = 0 := by
        unfold prob
        rw [filter_false_of_mem (fun w _ => hnone w)]
        simp
      rw [hp0]
      positivity
  · have hposr : (0 : ℝ) < weightOf s (fun _ => true) := by exact_mod_cast hpos
    have ht : 0 < relativeError nb * weightOf s (fun _ => true) := by
      unfold relativeError
      have := Real.exp_pos 1
      positivity
    refine (prob_mono (fun w hw => le_of_lt hw)).trans ((h3 _ ht).trans (le_of_eq ?_))
    rw [hexp, ← mul_pow]
    congr 1
    unfold relativeError
    rw [Real.exp_neg]
    have he := (Real.exp_pos 1).ne'
    field_simp

/-- C88 (configuration).  A sketch configured with `SuggestNumBuckets` and `SuggestNumHashes` for a
relative error ε and a confidence below 1 - e^-127 keeps both promises, up to the same factor. -/
theorem C88_suggested_sizes (P : Prims) (seed : Int) {ε confidence : ℝ} (hε : 0 < ε)
    (hc0 : 0 ≤ confidence) (hc1 : confidence ≤ 1 - Real.exp (-127)) {nh nb : Int}
    (hnh : nh = suggestNumHashes confidence) (hnb : nb = suggestNumBuckets ε) (h3 : 3 ≤ nb)
    (hnbr : InRange 4 nb) (hsmall : nb * nh < 2 ^ 30)
    (hseeds : (P.seeds seed nh.toNat).Nodup) (s : Stream) (hs : ∀ e ∈ s, 0 ≤ e.2)
    (hov : absWeight s < 2 ^ 63) (X : Finset (List Nat)) (hX : ∀ e ∈ s, e.1 ∈ X)
    (item : List Nat) (hitem : item ≠ []) (hiX : item ∈ X) :
    ∃ est : Words X nh.toNat → Int,
      (∀ w, ∃ c c', new (withWords P seed w) nh nb seed = .ok c ∧
        runStream (withWords P seed w) c s = .ok c' ∧
        c'.getEstimate (withWords P seed w) item = .ok (est w)) ∧
      prob (Words X nh.toNat) (fun w => (weightOf s (fun x => x == item) : ℝ) +
          ε * weightOf s (fun _ => true) < est w) ≤
        (1 - confidence) * (1 + nb / 2 ^ 64) ^ nh.toNat := by
  have hpos : 0 < 1 - confidence := by
    have := Real.exp_pos (-127)
    linarith
  have hlog0 : 0 ≤ Real.log (1 / (1 - confidence)) := by
    apply Real.log_nonneg
    rw [le_div_iff₀ hpos]; linarith
  have hlog : Real.log (1 / (1 - confidence)) ≤ 127 := by
    rw [Real.log_div one_ne_zero hpos.ne', Real.log_one, zero_sub]
    have : Real.log (Real.exp (-127)) ≤ Real.log (1 - confidence) :=
      Real.log_le_log (Real.exp_pos _) (by linarith)
    rw [Real.log_exp] at this
    linarith
  have hceil : ⌈Real.log (1 / (1 - confidence))⌉ ≤ 127 := by
    rw [Int.ceil_le]; exact_mod_cast hlog
  have hnh' : nh = ⌈Real.log (1 / (1 - confidence))⌉ := by
    rw [hnh]; unfold suggestNumHashes; omega
  have hnh0 : 0 ≤ nh := by
    rw [hnh']; exact Int.ceil_nonneg hlog0
  have hnh127 : nh ≤ 127 := by omega
  obtain ⟨est, e1, e2⟩ := C88_relative_error P nh nb seed hnh0
    (by constructor <;> norm_num <;> omega) h3 hnbr hsmall hseeds s hs hov X hX item hitem hiX
  refine ⟨est, e1, ?_⟩
  have hnbq : (0 : ℝ) < nb := by
    have : 0 < nb := by omega
    exact_mod_cast this
  have hrel : relativeError nb ≤ ε := by
    unfold relativeError
    have : Real.exp 1 / ε ≤ nb := by
      rw [hnb]; exact Int.le_ceil _
    rw [div_le_iff₀ hε] at this
    rw [div_le_iff₀ hnbq]
    linarith
  have htot : (0 : ℝ) ≤ weightOf s (fun _ => true) := by
    have : (0 : ℤ) ≤ weightOf s (fun _ => true) := by
      rw [weightOf_true_eq s hs]; exact absWeight_nonneg s
    exact_mod_cast this
  refine (prob_mono (fun w hw => ?_)).trans (e2.trans ?_)
  · have := mul_le_mul_of_nonneg_right hrel htot
    linarith
  · apply mul_le_mul_of_nonneg_right _ (by positivity)
    have h : Real.log (1 / (1 - confidence)) ≤ nh := by rw [hnh']; exact Int.le_ceil _
    rw [Real.log_div one_ne_zero hpos.ne', Real.log_one, zero_sub] at h
    calc Real.exp (-(nh : ℝ)) ≤ Real.exp (Real.log (1 - confidence)) := Real.exp_le_exp.mpr (by linarith)
      _ = 1 - confidence := Real.exp_log hpos

/-! ## non-vacuity -/

example : ∃ P : Prims, (P.seeds 9 5).Nodup :=
  ⟨{ hash := fun _ _ => 0, seeds := fun s n => (List.range n).map (fun i => s + i),
     seeds_length := by simp, seedHash := fun _ => none }, by decide⟩

/-- a relative error of e/100 with confidence 1 - e^-5 asks for 100 buckets and 5 hash functions -/
example : suggestNumBuckets (Real.exp 1 / 100) = 100 ∧ suggestNumHashes (1 - Real.exp (-5)) = 5 ∧
    (0 : ℝ) ≤ 1 - Real.exp (-5) ∧ 1 - Real.exp (-5) ≤ 1 - Real.exp (-127) := by
  have he := (Real.exp_pos 1).ne'
  refine ⟨?_, ?_, ?_, ?_⟩
  · unfold suggestNumBuckets
    rw [div_div_cancel₀ he]
    exact Int.ceil_ofNat 100
  · unfold suggestNumHashes
    have : Real.log (1 / (1 - (1 - Real.exp (-5)))) = 5 := by
      rw [sub_sub_cancel, one_div, Real.log_inv, Real.log_exp, neg_neg]
    rw [this, Int.ceil_ofNat]
    decide
  · have : Real.exp (-5) ≤ Real.exp 0 := Real.exp_le_exp.mpr (by norm_num)
    rw [Real.exp_zero] at this
    linarith
  · have : Real.exp (-127) ≤ Real.exp (-5) := Real.exp_le_exp.mpr (by norm_num)
    linarith

end Verif.CountMin
