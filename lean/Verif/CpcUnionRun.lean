import Verif.CpcUnion

/-!
# Unions of many CPC sketches, and the reference bit matrix
-/

namespace Verif.Cpc

open Outcome

/-! ## The reference structure -/

/-- cpc/bit_matrix.go l.29-35: the fields in use -/
structure BM where
  lgK : Nat
  num : Nat
  rows : List (BitVec 64)
  deriving DecidableEq, Repr

/-- l.38-46 `NewBitMatrixWithSeed` -/
def BM.new (lgK : Nat) : BM := ⟨lgK, 0, List.replicate (2 ^ lgK) 0#64⟩

/-- l.85-104 `hashUpdate`; `rowCol == -1` never holds -/
def BM.hashUpdate (b : BM) (h0 h1 : BitVec 64) : Outcome BM :=
  let col := clz h1
  let col := if col > 63 then 63 else col
  let row := h0.toNat &&& (2 ^ b.lgK - 1)
  match b.rows[row]? with
  | none => .panic
  | some old =>
    let new := old ||| (1#64 <<< col)
    if new ≠ old then .ok { b with num := b.num + 1, rows := b.rows.set row new } else .ok b

/-- The reference structure fed with a stream of hashes -/
def BM.run (b : BM) (hs : List (BitVec 64 × BitVec 64)) : Outcome BM :=
  hs.foldlM (fun b h => b.hashUpdate h.1 h.2) b

theorem BM.step {b : BM} {S : Finset Nat} (hm : IsMatrix (2 ^ b.lgK) b.rows S) (hn : b.num = S.card)
    (h0 h1 : BitVec 64) :
    ∃ b', b.hashUpdate h0 h1 = .ok b' ∧ b'.lgK = b.lgK ∧
      IsMatrix (2 ^ b.lgK) b'.rows (insert (coupon b.lgK (h0, h1)) S) ∧
      b'.num = (insert (coupon b.lgK (h0, h1)) S).card := by
  have hlt : h0.toNat % 2 ^ b.lgK < 2 ^ b.lgK := Nat.mod_lt _ (Nat.two_pow_pos _)
  obtain ⟨old, ho, _⟩ := hm.get hlt
  have hcol : (if clz h1 > 63 then 63 else clz h1) = min 63 (clz h1) := by
    split <;> omega
  have hc64 : min 63 (clz h1) < 64 := by omega
  unfold BM.hashUpdate
  simp only [hcol, Nat.and_two_pow_sub_one_eq_mod, ho]
  have hx : coupon b.lgK (h0, h1) = 64 * (h0.toNat % 2 ^ b.lgK) + min 63 (clz h1) := rfl
  have hbit := hm.bit ho hc64
  rw [← hx] at hbit
  have hor := or_row (v := 1#64 <<< min 63 (clz h1)) hm ho
  have hp : S ∪ patSet (h0.toNat % 2 ^ b.lgK) (1#64 <<< min 63 (clz h1)) =
      insert (coupon b.lgK (h0, h1)) S := by
    ext y
    rw [Finset.mem_union, mem_patSet, single_bit hc64, Finset.mem_insert, hx, decide_eq_true_eq]
    constructor
    · rintro (h | ⟨h2, h3⟩)
      · exact Or.inr h
      · left; omega
    · rintro (h | h)
      · right; constructor <;> omega
      · exact Or.inl h
  rw [hp] at hor
  by_cases hmem : coupon b.lgK (h0, h1) ∈ S
  · have heq : old ||| (1#64 <<< min 63 (clz h1)) = old := by
      apply BitVec.eq_of_getLsbD_eq
      intro i hi
      rw [BitVec.getLsbD_or, single_bit hc64]
      by_cases h : i = min 63 (clz h1)
      · rw [h, hbit]; simp [hmem]
      · simp only [h, decide_false, Bool.or_false]
    rw [if_neg (by simpa using heq)]
    rw [Finset.insert_eq_of_mem hmem]
    exact ⟨b, rfl, rfl, hm, hn⟩
  · have hne : old ||| (1#64 <<< min 63 (clz h1)) ≠ old := by
      intro he
      have h2 : (old ||| (1#64 <<< min 63 (clz h1))).getLsbD (min 63 (clz h1)) = true := by
        rw [BitVec.getLsbD_or, single_bit hc64]; simp
      rw [he, hbit] at h2
      simp [hmem] at h2
    rw [if_pos hne]
    refine ⟨_, rfl, rfl, hor, ?_⟩
    rw [Finset.card_insert_of_notMem hmem]
    show b.num + 1 = _
    rw [hn]

theorem BM.run_spec (hs : List (BitVec 64 × BitVec 64)) : ∀ {b : BM} {S : Finset Nat},
    IsMatrix (2 ^ b.lgK) b.rows S → b.num = S.card →
    ∃ b', b.run hs = .ok b' ∧ b'.lgK = b.lgK ∧
      IsMatrix (2 ^ b.lgK) b'.rows (S ∪ coupons b.lgK hs) ∧
      b'.num = (S ∪ coupons b.lgK hs).card := by
  induction hs with
  | nil => intro b S hm hn; exact ⟨b, rfl, rfl, by simpa [coupons] using hm, by simpa [coupons] using hn⟩
  | cons a hs ih =>
    intro b S hm hn
    obtain ⟨b1, e1, l1, m1, n1⟩ := BM.step hm hn a.1 a.2
    have m1' : IsMatrix (2 ^ b1.lgK) b1.rows (insert (coupon b.lgK (a.1, a.2)) S) := by
      rw [l1]; exact m1
    obtain ⟨b2, e2, l2, m2, n2⟩ := ih m1' n1
    refine ⟨b2, ?_, l2.trans l1, ?_, ?_⟩
    · unfold BM.run
      rw [List.foldlM_cons, e1, ok_bind]
      exact e2
    · rw [l1] at m2
      rw [coupons_cons, Finset.union_insert, ← Finset.insert_union]
      exact m2
    · rw [l1] at n2
      rw [coupons_cons, Finset.union_insert, ← Finset.insert_union]
      exact n2

/-! ## Folding the coupons of a stream -/

theorem fold_coupons {a b : Nat} (h : b ≤ a) (hs : List (BitVec 64 × BitVec 64)) :
    fold b (coupons a hs) = coupons b hs := by
  ext x
  rw [mem_fold]
  unfold coupons
  simp only [List.mem_toFinset, List.mem_map]
  have hone : ∀ p : BitVec 64 × BitVec 64, coupon a p % (64 * 2 ^ b) = coupon b p := by
    intro p
    have hdvd : (2 : Nat) ^ b ∣ 2 ^ a := Nat.pow_dvd_pow _ h
    rw [fold_row]
    unfold coupon
    have h1 : (64 * (p.1.toNat % 2 ^ a) + min 63 (clz p.2)) / 64 = p.1.toNat % 2 ^ a := by omega
    have h2 : (64 * (p.1.toNat % 2 ^ a) + min 63 (clz p.2)) % 64 = min 63 (clz p.2) := by omega
    rw [h1, h2, Nat.mod_mod_of_dvd _ hdvd]
  constructor
  · rintro ⟨y, ⟨p, hp, rfl⟩, hx⟩
    exact ⟨p, hp, by rw [← hx, hone]⟩
  · rintro ⟨p, hp, rfl⟩
    exact ⟨_, ⟨p, hp, rfl⟩, hone p⟩

theorem coupons_append (lgK : Nat) (a b : List (BitVec 64 × BitVec 64)) :
    coupons lgK (a ++ b) = coupons lgK a ∪ coupons lgK b := by
  simp [coupons]

/-! ## A union fed with many sketches -/

/-- a union fed with a list of sketches -/
def unionAll (u : Un) (srcs : List Sk) : Outcome Un := srcs.foldlM Un.update u

/-- the `lgK` of the union after sources with the given sets -/
def minLg (lg : Nat) : List (Sk × Finset Nat) → Nat
  | [] => lg
  | p :: l => minLg (if p.2.card = 0 then lg else min lg p.1.lgK) l

/-- all coupons -/
def unionSet (S : Finset Nat) : List (Sk × Finset Nat) → Finset Nat
  | [] => S
  | p :: l => unionSet (S ∪ p.2) l

theorem minLg_le (l : List (Sk × Finset Nat)) : ∀ lg, minLg lg l ≤ lg := by
  induction l with
  | nil => intro lg; exact Nat.le_refl _
  | cons p l ih =>
    intro lg
    rw [minLg]
    refine (ih _).trans ?_
    split
    · exact Nat.le_refl _
    · exact Nat.min_le_left _ _

theorem unionSet_fold {b : Nat} (l : List (Sk × Finset Nat)) : ∀ {S S' : Finset Nat},
    fold b S = fold b S' → fold b (unionSet S l) = fold b (unionSet S' l) := by
  induction l with
  | nil => intro S S' h; exact h
  | cons p l ih =>
    intro S S' h
    rw [unionSet, unionSet]
    apply ih
    rw [fold_union, fold_union, h]

theorem unionAll_sound (l : List (Sk × Finset Nat)) : ∀ {u u' : Un} {S : Finset Nat}, UnInv u S →
    (∀ p ∈ l, SkInv p.1 p.2 ∧ p.1.seed = u.seed) → unionAll u (l.map (·.1)) = .ok u' →
    UnInv u' (fold (minLg u.lgK l) (unionSet S l)) ∧ u'.lgK = minLg u.lgK l ∧ u'.seed = u.seed := by
  induction l with
  | nil =>
    intro u u' S h _ he
    cases he
    rw [minLg, unionSet, fold_self h.valid]
    exact ⟨h, rfl, rfl⟩
  | cons p l ih =>
    intro u u' S h hl he
    unfold unionAll at he
    rw [List.map_cons, List.foldlM_cons] at he
    obtain ⟨u1, e1, e2⟩ := Outcome.bind_eq_ok.mp he
    obtain ⟨hp, hps⟩ := hl p List.mem_cons_self
    rw [minLg, unionSet]
    by_cases h0 : p.2.card = 0
    · have hp2 : p.2 = ∅ := Finset.card_eq_zero.mp h0
      rw [hp2] at hp
      rw [update_empty hp hps.symm] at e1
      cases e1
      rw [if_pos h0, hp2, Finset.union_empty]
      exact ih h (fun q hq => hl q (List.mem_cons_of_mem _ hq)) e2
    · obtain ⟨h1, l1, s1⟩ := (update_spec h hp (by omega) hps.symm).1 u1 e1
      obtain ⟨h2, l2, s2⟩ := ih h1 (fun q hq => by
        rw [s1]; exact hl q (List.mem_cons_of_mem _ hq)) e2
      rw [if_neg h0]
      rw [l1] at h2 l2
      refine ⟨?_, l2, s2.trans s1⟩
      have hle := minLg_le l (min u.lgK p.1.lgK)
      have : fold (minLg (min u.lgK p.1.lgK) l)
          (unionSet (fold (min u.lgK p.1.lgK) S ∪ fold (min u.lgK p.1.lgK) p.2) l) =
          fold (minLg (min u.lgK p.1.lgK) l) (unionSet (S ∪ p.2) l) := by
        apply unionSet_fold
        rw [← fold_union, fold_fold hle]
      rw [← this]
      exact h2

theorem subset_unionSet (l : List (Sk × Finset Nat)) : ∀ S, S ⊆ unionSet S l := by
  induction l with
  | nil => intro S; exact Finset.Subset.refl _
  | cons p l ih => intro S; rw [unionSet]; exact Finset.subset_union_left.trans (ih _)

theorem fold_mono {b : Nat} {S T : Finset Nat} (h : S ⊆ T) : fold b S ⊆ fold b T :=
  Finset.image_subset_image h

/-- All updates succeed when the final number of coupons is moderate. -/
theorem unionAll_total (l : List (Sk × Finset Nat)) : ∀ {u : Un} {S : Finset Nat}, UnInv u S →
    (∀ p ∈ l, SkInv p.1 p.2 ∧ p.1.seed = u.seed) → u.lgK ≤ 20 →
    (fold (minLg u.lgK l) (unionSet S l)).card < 25 * 2 ^ minLg u.lgK l →
    ∃ u', unionAll u (l.map (·.1)) = .ok u' := by
  induction l with
  | nil => intro u S _ _ _ _; exact ⟨u, rfl⟩
  | cons p l ih =>
    intro u S h hl h20 hcard
    obtain ⟨hp, hps⟩ := hl p List.mem_cons_self
    rw [minLg, unionSet] at hcard
    unfold unionAll
    rw [List.map_cons, List.foldlM_cons]
    by_cases h0 : p.2.card = 0
    · have hp2 : p.2 = ∅ := Finset.card_eq_zero.mp h0
      rw [hp2] at hp
      rw [update_empty hp hps.symm, ok_bind]
      rw [if_pos h0, hp2, Finset.union_empty] at hcard
      exact ih h (fun q hq => hl q (List.mem_cons_of_mem _ hq)) h20 hcard
    · rw [if_neg h0] at hcard
      have hle := minLg_le l (min u.lgK p.1.lgK)
      obtain ⟨L, hL⟩ : ∃ L, L = min u.lgK p.1.lgK := ⟨_, rfl⟩
      have hsp := update_spec h hp (by omega) hps.symm
      rw [← hL] at hle hcard hsp
      have hmid : (fold L S ∪ fold L p.2).card < 25 * 2 ^ L := by
        rw [← fold_union]
        have hc := card_fold (S := fold L (S ∪ p.2)) (a := L) (b := minLg L l) hle (fold_valid _ _)
        rw [fold_fold hle] at hc
        have hsub := Finset.card_le_card (fold_mono (b := minLg L l) (subset_unionSet l (S ∪ p.2)))
        have hp1 := Nat.two_pow_pos (minLg L l)
        have hp2 := Nat.two_pow_pos L
        have : (fold L (S ∪ p.2)).card * 2 ^ minLg L l < 25 * 2 ^ L * 2 ^ minLg L l := by
          calc _ ≤ (fold (minLg L l) (S ∪ p.2)).card * 2 ^ L := hc
            _ ≤ (fold (minLg L l) (unionSet (S ∪ p.2) l)).card * 2 ^ L := Nat.mul_le_mul_right _ hsub
            _ < 25 * 2 ^ minLg L l * 2 ^ L := Nat.mul_lt_mul_of_pos_right hcard hp2
            _ = _ := by ring
        exact Nat.lt_of_mul_lt_mul_right this
      obtain ⟨u1, e1⟩ := hsp.2 (fun V hV => room_of_moderate (by omega)
        (lt_of_le_of_lt (Finset.card_le_card hV) hmid))
      obtain ⟨h1, l1, s1⟩ := hsp.1 u1 e1
      rw [e1, ok_bind]
      apply ih h1 (fun q hq => by rw [s1]; exact hl q (List.mem_cons_of_mem _ hq)) (by omega)
      rw [l1]
      have : fold (minLg L l) (unionSet (fold L S ∪ fold L p.2) l) =
          fold (minLg L l) (unionSet (S ∪ p.2) l) := by
        apply unionSet_fold
        rw [← fold_union, fold_fold hle]
      rw [this]
      exact hcard

end Verif.Cpc
