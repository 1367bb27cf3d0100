import Verif.BloomProps
import Mathlib.Data.Int.CardIntervalMod
import Mathlib.Data.Set.Card
import Mathlib.Data.BitVec
import Mathlib.Tactic.Ring
import Mathlib.Algebra.Order.Field.Rat
import Mathlib.Algebra.BigOperators.Ring.Finset
import Mathlib.Algebra.Order.BigOperators.Group.Finset
import Mathlib.Tactic.Linarith

/-!
# How many hash pairs a Bloom filter answers "maybe"

The index of the `t`-th hash function is the upper 63 bits of `h0 + t h1` modulo the capacity.  The
first two, `h0 + h1` and `h0 + 2 h1`, determine the pair, so the pairs for which both bits are set
are as many as the pairs of words that lead to set bits.
-/

namespace Verif.Bloom

/-- Halving doubles the counts. -/
theorem card_half (P : Nat → Prop) [DecidablePred P] (N : Nat) :
    ((Finset.range (2 * N)).filter fun x => P (x / 2)).card =
      2 * ((Finset.range N).filter P).card := by
  induction N with
  | zero => simp
  | succ N ih =>
    have e : 2 * (N + 1) = 2 * N + 1 + 1 := by ring
    rw [e, Finset.range_add_one, Finset.range_add_one, Finset.filter_insert, Finset.filter_insert,
      Finset.range_add_one, Finset.filter_insert]
    have h1 : (2 * N + 1) / 2 = N := by omega
    have h2 : 2 * N / 2 = N := by omega
    rw [h1, h2]
    by_cases h : P N
    · simp only [h, if_true]
      rw [Finset.card_insert_of_notMem, Finset.card_insert_of_notMem, Finset.card_insert_of_notMem,
        ih]
      · ring
      · simp
      · simp
      · simp
    · simp only [h, if_false]
      exact ih

/-- Numbers below `N` with a given remainder. -/
theorem card_mod (N m j : Nat) (hj : j < m) :
    N / m ≤ ((Finset.range N).filter fun y => y % m = j).card ∧
      ((Finset.range N).filter fun y => y % m = j).card ≤ N / m + 1 := by
  have h := Nat.count_modEq_card N (r := m) (by omega) j
  rw [Nat.count_eq_card_filter_range] at h
  have e : ((Finset.range N).filter fun y => y % m = j) =
      (Finset.range N).filter fun y => y ≡ j [MOD m] := by
    refine Finset.filter_congr fun y _ => ?_
    unfold Nat.ModEq
    rw [Nat.mod_eq_of_lt hj]
  rw [e, h]
  split <;> omega

/-- Numbers below `N` whose remainder satisfies a predicate. -/
theorem card_mod_pred (P : Nat → Prop) [DecidablePred P] (N m : Nat) (hm : 0 < m) :
    ((Finset.range m).filter P).card * (N / m) ≤
        ((Finset.range N).filter fun y => P (y % m)).card ∧
      ((Finset.range N).filter fun y => P (y % m)).card ≤
        ((Finset.range m).filter P).card * (N / m + 1) := by
  have hs : ((Finset.range N).filter fun y => P (y % m)).card =
      ∑ j ∈ (Finset.range m).filter P, ((Finset.range N).filter fun y => y % m = j).card := by
    rw [Finset.card_eq_sum_card_fiberwise (f := fun y => y % m) (t := (Finset.range m).filter P)]
    · refine Finset.sum_congr rfl fun j hj => ?_
      congr 1
      rw [Finset.filter_filter]
      refine Finset.filter_congr fun y _ => ?_
      constructor
      · exact fun h => h.2
      · exact fun h => ⟨h ▸ (Finset.mem_filter.mp hj).2, h⟩
    · intro y hy
      have := (Finset.mem_filter.mp (Finset.mem_coe.mp hy)).2
      exact Finset.mem_coe.mpr (Finset.mem_filter.mpr
        ⟨Finset.mem_range.mpr (Nat.mod_lt _ hm), this⟩)
  rw [hs]
  constructor
  · exact Finset.card_nsmul_le_sum _ _ _ fun j hj =>
      (card_mod N m j (Finset.mem_range.mp (Finset.mem_filter.mp hj).1)).1
  · exact Finset.sum_le_card_nsmul _ _ _ fun j hj =>
      (card_mod N m j (Finset.mem_range.mp (Finset.mem_filter.mp hj).1)).2

theorem popcount_card (arr : List Word) :
    popcount arr = ((Finset.range (64 * arr.length)).filter fun i => bitAt arr i = true).card := by
  unfold popcount
  generalize 64 * arr.length = n
  induction n with
  | zero => rfl
  | succ n ih =>
    rw [List.range_succ, List.countP_append, ih, Finset.range_add_one, Finset.filter_insert]
    by_cases h : bitAt arr n = true
    · rw [if_pos h, Finset.card_insert_of_notMem (by simp)]
      simp [h]
    · rw [if_neg h]
      simp [h]

/-- The words that lead to a set bit. -/
def goodWords (f : Filter) : Set Word :=
  { x | bitAt f.bitArray ((x >>> 1).toNat % f.capacityBits) = true }

theorem ncard_toNat (P : Nat → Prop) [DecidablePred P] (N : Nat) (hN : N = 2 ^ 64) :
    Set.ncard { x : Word | P x.toNat } = ((Finset.range N).filter P).card := by
  rw [← Set.ncard_image_of_injective _ (f := BitVec.toNat (w := 64))
    (fun a b h => BitVec.eq_of_toNat_eq h), ← Set.ncard_coe_finset]
  congr 1
  ext y
  simp only [Set.mem_image, Set.mem_ofPred_eq, Finset.coe_filter, Finset.mem_range]
  constructor
  · rintro ⟨x, hx, rfl⟩
    exact ⟨hN ▸ x.isLt, hx⟩
  · rintro ⟨h1, h2⟩
    rw [hN] at h1
    refine ⟨BitVec.ofNat 64 y, ?_, ?_⟩
    · rw [BitVec.toNat_ofNat, Nat.mod_eq_of_lt h1]; exact h2
    · rw [BitVec.toNat_ofNat, Nat.mod_eq_of_lt h1]

theorem goodWords_card {f : Filter} (hf : WF f) :
    popcount f.bitArray * (2 * (2 ^ 63 / f.capacityBits)) ≤ (goodWords f).ncard ∧
      (goodWords f).ncard ≤ popcount f.bitArray * (2 * (2 ^ 63 / f.capacityBits + 1)) := by
  have hm : 0 < f.capacityBits := by have := hf.cap; have := hf.pos; omega
  have e : goodWords f =
      { x : Word | (fun n => bitAt f.bitArray (n / 2 % f.capacityBits) = true) x.toNat } := by
    unfold goodWords
    ext x
    simp only [Set.mem_ofPred_eq, BitVec.toNat_ushiftRight, Nat.shiftRight_eq_div_pow, pow_one]
  rw [e, ncard_toNat (fun n => bitAt f.bitArray (n / 2 % f.capacityBits) = true) (2 * 2 ^ 63)
      (by norm_num),
    card_half (fun y => bitAt f.bitArray (y % f.capacityBits) = true), popcount_card, ← hf.cap]
  obtain ⟨h1, h2⟩ := card_mod_pred (fun i => bitAt f.bitArray i = true) (2 ^ 63) f.capacityBits hm
  constructor
  · calc _ = 2 * (((Finset.range f.capacityBits).filter fun i => bitAt f.bitArray i = true).card *
          (2 ^ 63 / f.capacityBits)) := by ring
      _ ≤ _ := Nat.mul_le_mul_left 2 h1
  · calc _ ≤ 2 * (((Finset.range f.capacityBits).filter fun i => bitAt f.bitArray i = true).card *
          (2 ^ 63 / f.capacityBits + 1)) := Nat.mul_le_mul_left 2 h2
      _ = _ := by ring

/-- The first two hashes determine the pair. -/
def firstTwo : Word × Word ≃ Word × Word where
  toFun h := (h.1 + BitVec.ofNat 64 1 * h.2, h.1 + BitVec.ofNat 64 2 * h.2)
  invFun p := (p.1 + p.1 - p.2, p.2 - p.1)
  left_inv h := by
    obtain ⟨a, b⟩ := h
    simp only [Prod.mk.injEq, show BitVec.ofNat 64 1 = (1 : Word) from rfl,
      show BitVec.ofNat 64 2 = (1 + 1 : Word) from rfl]
    constructor <;> ring
  right_inv p := by
    obtain ⟨a, b⟩ := p
    simp only [Prod.mk.injEq, show BitVec.ofNat 64 1 = (1 : Word) from rfl,
      show BitVec.ofNat 64 2 = (1 + 1 : Word) from rfl]
    constructor <;> ring

/-- For a given second hash, the first index runs over everything. -/
def firstOne : Word × Word ≃ Word × Word where
  toFun h := (h.1 + BitVec.ofNat 64 1 * h.2, h.2)
  invFun p := (p.1 - p.2, p.2)
  left_inv h := by
    obtain ⟨a, b⟩ := h
    simp only [Prod.mk.injEq, show BitVec.ofNat 64 1 = (1 : Word) from rfl]
    exact ⟨by ring, trivial⟩
  right_inv p := by
    obtain ⟨a, b⟩ := p
    simp only [Prod.mk.injEq, show BitVec.ofNat 64 1 = (1 : Word) from rfl]
    exact ⟨by ring, trivial⟩

theorem idx_good (f : Filter) (h : Word × Word) (t : Nat) :
    bitAt f.bitArray (idxOf f h t) = true ↔ h.1 + BitVec.ofNat 64 t * h.2 ∈ goodWords f := Iff.rfl

instance : Finite Word := Finite.of_injective (β := Fin (2 ^ 64)) BitVec.toFin
  (fun _ _ h => BitVec.eq_of_toFin_eq h)

/-- The pairs answered "maybe", for at least two hash functions. -/
theorem pairs_le {f : Filter} (h2 : 2 ≤ f.numHashes) :
    Set.ncard { h : Word × Word | ∀ t, 1 ≤ t → t ≤ f.numHashes →
      bitAt f.bitArray (idxOf f h t) = true } ≤ (goodWords f).ncard ^ 2 := by
  have hs : { h : Word × Word | ∀ t, 1 ≤ t → t ≤ f.numHashes →
      bitAt f.bitArray (idxOf f h t) = true } ⊆ firstTwo ⁻¹' (goodWords f ×ˢ goodWords f) := by
    intro h hh
    exact ⟨(idx_good f h 1).mp (hh 1 (le_refl _) (by omega)),
      (idx_good f h 2).mp (hh 2 (by omega) h2)⟩
  refine (Set.ncard_le_ncard hs (Set.toFinite _)).trans ?_
  rw [Set.ncard_preimage_of_injective_subset_range firstTwo.injective
    (by rw [firstTwo.range_eq_univ]; exact Set.subset_univ _), Set.ncard_prod, sq]

/-- Exactly two hash functions. -/
theorem pairs_two {f : Filter} (h2 : f.numHashes = 2) :
    Set.ncard { h : Word × Word | ∀ t, 1 ≤ t → t ≤ f.numHashes →
      bitAt f.bitArray (idxOf f h t) = true } = (goodWords f).ncard ^ 2 := by
  have hs : { h : Word × Word | ∀ t, 1 ≤ t → t ≤ f.numHashes →
      bitAt f.bitArray (idxOf f h t) = true } = firstTwo ⁻¹' (goodWords f ×ˢ goodWords f) := by
    ext h
    constructor
    · intro hh
      exact ⟨(idx_good f h 1).mp (hh 1 (le_refl _) (by omega)),
        (idx_good f h 2).mp (hh 2 (by omega) (by omega))⟩
    · rintro ⟨g1, g2⟩ t ht1 ht2
      rw [h2] at ht2
      obtain rfl | rfl : t = 1 ∨ t = 2 := by omega
      · exact (idx_good f h 1).mpr g1
      · exact (idx_good f h 2).mpr g2
  rw [hs, Set.ncard_preimage_of_injective_subset_range firstTwo.injective
    (by rw [firstTwo.range_eq_univ]; exact Set.subset_univ _), Set.ncard_prod, sq]

/-- One hash function. -/
theorem pairs_one {f : Filter} (h1 : f.numHashes = 1) :
    Set.ncard { h : Word × Word | ∀ t, 1 ≤ t → t ≤ f.numHashes →
      bitAt f.bitArray (idxOf f h t) = true } = (goodWords f).ncard * 2 ^ 64 := by
  have hs : { h : Word × Word | ∀ t, 1 ≤ t → t ≤ f.numHashes →
      bitAt f.bitArray (idxOf f h t) = true } = firstOne ⁻¹' (goodWords f ×ˢ Set.univ) := by
    ext h
    constructor
    · intro hh
      exact ⟨(idx_good f h 1).mp (hh 1 (le_refl _) (by omega)), trivial⟩
    · rintro ⟨g1, -⟩ t ht1 ht2
      rw [h1] at ht2
      obtain rfl : t = 1 := by omega
      exact (idx_good f h 1).mpr g1
  have hu : (Set.univ : Set Word).ncard = 2 ^ 64 := by
    have := ncard_toNat (fun _ => True) (2 ^ 64) rfl
    rw [Finset.filter_true, Finset.card_range] at this
    rw [← this]
    rfl
  rw [hs, Set.ncard_preimage_of_injective_subset_range firstOne.injective
    (by rw [firstOne.range_eq_univ]; exact Set.subset_univ _), Set.ncard_prod, hu]

end Verif.Bloom
