import Verif.VarOptModel
import Mathlib.Data.List.Basic
import Mathlib.Data.List.Perm.Subperm

/-!
# The heap of the VarOpt sketch

The loops of the heap terminate, do not touch slots beyond the heap, permute the slots of the heap
and restore the heap order.
-/

namespace Verif.VarOpt

open Outcome

variable {T : Type}

/-- The weight in slot `i` (zero beyond the end). -/
def wt (l : List (Slot T)) (i : Nat) : ℚ := ((l[i]?).map Slot.weight).getD 0

theorem wAt_ok {l : List (Slot T)} {i : Nat} (h : i < l.length) : wAt l i = .ok (wt l i) := by
  unfold wAt wt
  rw [List.getElem?_eq_getElem h]
  rfl

theorem wt_getElem {l : List (Slot T)} {i : Nat} (h : i < l.length) : wt l i = l[i].weight := by
  unfold wt
  rw [List.getElem?_eq_getElem h]
  rfl

/-- `l'` differs from `l` by a permutation of the first `h` slots. -/
structure Shuf (h : Nat) (l l' : List (Slot T)) : Prop where
  len : l'.length = l.length
  perm : (l'.take h).Perm (l.take h)
  drop : l'.drop h = l.drop h

theorem Shuf.refl (h : Nat) (l : List (Slot T)) : Shuf h l l := ⟨rfl, .refl _, rfl⟩

theorem Shuf.trans {h : Nat} {a b c : List (Slot T)} (x : Shuf h a b) (y : Shuf h b c) : Shuf h a c :=
  ⟨y.len.trans x.len, y.perm.trans x.perm, y.drop.trans x.drop⟩

theorem swap_ok {l : List (Slot T)} {h i j : Nat} (hi : i < h) (hj : j < h) (hl : h ≤ l.length) :
    ∃ l', swap l i j = .ok l' ∧ Shuf h l l' ∧
      ∀ t, wt l' t = if t = j then wt l i else if t = i then wt l j else wt l t := by
  have hi' : i < l.length := by omega
  have hj' : j < l.length := by omega
  refine ⟨(l.set i l[j]).set j l[i], ?_, ⟨by simp, ?_, ?_⟩, fun t => ?_⟩
  · unfold swap
    rw [List.getElem?_eq_getElem hi', List.getElem?_eq_getElem hj']
  · rw [List.take_set, List.take_set]
    have h1 : i < (l.take h).length := by rw [List.length_take]; omega
    have h2 : j < (l.take h).length := by rw [List.length_take]; omega
    have := List.set_set_perm h1 h2
    simpa using this
  · rw [List.drop_set_of_lt hj, List.drop_set_of_lt hi]
  · unfold wt
    rw [List.getElem?_set, List.getElem?_set]
    by_cases h1 : j = t
    · subst h1
      simp [hi', hj']
    · rw [if_neg h1, if_neg (Ne.symm h1)]
      by_cases h2 : i = t
      · subst h2
        simp [hi', hj']
      · rw [if_neg h2, if_neg (Ne.symm h2)]

/-- Heap order among the slots below `h` whose parent is at `j` or beyond. -/
def HeapFrom (l : List (Slot T)) (h j : Nat) : Prop :=
  ∀ i, 0 < i → i < h → j ≤ (i - 1) / 2 → wt l ((i - 1) / 2) ≤ wt l i

/-- The same except below `slot`, whose children are not lighter than its parent. -/
structure HoleDown (l : List (Slot T)) (h j slot : Nat) : Prop where
  other : ∀ i, 0 < i → i < h → j ≤ (i - 1) / 2 → (i - 1) / 2 ≠ slot → wt l ((i - 1) / 2) ≤ wt l i
  below : ∀ i, 0 < i → i < h → (i - 1) / 2 = slot → 0 < slot → j ≤ (slot - 1) / 2 →
    wt l ((slot - 1) / 2) ≤ wt l i

theorem pickChild_ok {l : List (Slot T)} {h slot : Nat} (hl : h ≤ l.length)
    (hc : 2 * slot + 1 ≤ h - 1) (h0 : 0 < h) :
    ∃ c, pickChild l (h - 1) (2 * slot + 1) = .ok c ∧ c < h ∧ 0 < c ∧ (c - 1) / 2 = slot ∧
      ∀ i, 0 < i → i < h → (i - 1) / 2 = slot → wt l c ≤ wt l i := by
  unfold pickChild
  by_cases h2 : 2 * slot + 1 + 1 ≤ h - 1
  · rw [if_pos h2, wAt_ok (by omega), wAt_ok (by omega), ok_bind, ok_bind]
    by_cases h3 : wt l (2 * slot + 1 + 1) < wt l (2 * slot + 1)
    · refine ⟨2 * slot + 1 + 1, by simp [h3], by omega, by omega, by omega, ?_⟩
      intro i hi0 hi he
      rcases (by omega : i = 2 * slot + 1 ∨ i = 2 * slot + 1 + 1) with rfl | rfl
      · exact le_of_lt h3
      · exact le_refl _
    · refine ⟨2 * slot + 1, by simp [h3], by omega, by omega, by omega, ?_⟩
      intro i hi0 hi he
      rcases (by omega : i = 2 * slot + 1 ∨ i = 2 * slot + 1 + 1) with rfl | rfl
      · exact le_refl _
      · exact not_lt.1 h3
  · rw [if_neg h2]
    refine ⟨2 * slot + 1, rfl, by omega, by omega, by omega, ?_⟩
    intro i hi0 hi he
    rcases (by omega : i = 2 * slot + 1) with rfl
    exact le_refl _

theorem leavesLoop_ok {h : Nat} (j : Nat) : ∀ (fuel : Nat) (l : List (Slot T)) (slot : Nat),
    h ≤ l.length → slot < h → j ≤ slot → h - slot < fuel → HoleDown l h j slot →
    ∃ l', leavesLoop fuel l (h - 1) slot (2 * slot + 1) = .ok l' ∧ Shuf h l l' ∧ HeapFrom l' h j := by
  intro fuel
  induction fuel with
  | zero => intro l slot _ _ _ hf; omega
  | succ fuel ih =>
    intro l slot hl hs hj hf hole
    rw [leavesLoop]
    by_cases hc : 2 * slot + 1 ≤ h - 1
    · rw [if_pos hc]
      obtain ⟨c, hpc, hch, hc0, hcp, hmin⟩ := pickChild_ok hl hc (by omega)
      rw [hpc, ok_bind, wAt_ok (by omega), ok_bind, wAt_ok (by omega), ok_bind]
      by_cases hle : wt l slot ≤ wt l c
      · rw [if_pos hle]
        refine ⟨l, rfl, .refl _ _, fun i h0 h1 h2 => ?_⟩
        by_cases he : (i - 1) / 2 = slot
        · rw [he]
          exact le_trans hle (hmin i h0 h1 he)
        · exact hole.other i h0 h1 h2 he
      · rw [if_neg hle]
        obtain ⟨l1, hsw, hsh, hw⟩ := swap_ok (l := l) hs hch hl
        rw [hsw, ok_bind]
        have hl1 : h ≤ l1.length := by rw [hsh.len]; exact hl
        have hsc : slot ≠ c := by omega
        obtain ⟨l2, h1, h2, h3⟩ := ih l1 c hl1 hch (by omega) (by omega) (by
          constructor
          · intro i i0 i1 i2 i3
            rw [hw, hw]
            rw [if_neg i3]
            by_cases hps : (i - 1) / 2 = slot
            · rw [if_pos hps]
              by_cases hic : i = c
              · rw [if_pos hic]
                exact le_of_not_ge hle
              · rw [if_neg hic, if_neg (by omega)]
                exact hmin i i0 i1 hps
            · rw [if_neg hps, if_neg (show i ≠ c by intro hh; rw [hh] at hps; exact hps hcp)]
              by_cases his : i = slot
              · rw [if_pos his]
                subst his
                exact hole.below c hc0 hch hcp i0 i2
              · rw [if_neg his]
                exact hole.other i i0 i1 i2 hps
          · intro i i0 i1 i2 c0 i3
            rw [hcp] at i3 ⊢
            rw [hw, hw, if_neg hsc, if_pos rfl, if_neg (by omega), if_neg (by omega)]
            have := hole.other i i0 i1 (by omega) (by omega)
            rw [i2] at this
            exact this)
        exact ⟨l2, h1, hsh.trans h2, h3⟩
    · rw [if_neg hc]
      refine ⟨l, rfl, .refl _ _, fun i h0 h1 h2 => ?_⟩
      exact hole.other i h0 h1 h2 (by omega)

/-- Sifting down from `j` extends the heap order from below `j` to `j`. -/
theorem restoreTowardsLeaves_ok {l : List (Slot T)} {h j : Nat} (hl : h ≤ l.length) (hj : j < h)
    (hp : HeapFrom l h (j + 1)) :
    ∃ l', restoreTowardsLeaves l h j = .ok l' ∧ Shuf h l l' ∧ HeapFrom l' h j := by
  unfold restoreTowardsLeaves
  rw [if_neg (by omega)]
  refine leavesLoop_ok j (h + 1) l j hl hj (le_refl _) (by omega) ⟨?_, ?_⟩
  · intro i h0 h1 h2 h3
    exact hp i h0 h1 (by omega)
  · intro i _ _ _ h4 h5
    omega

theorem heapifyFrom_ok {h : Nat} : ∀ (j : Nat) (l : List (Slot T)), h ≤ l.length → j ≤ h →
    HeapFrom l h j → ∃ l', heapifyFrom h j l = .ok l' ∧ Shuf h l l' ∧ HeapFrom l' h 0 := by
  intro j
  induction j with
  | zero => intro l _ _ hp; exact ⟨l, rfl, .refl _ _, hp⟩
  | succ j ih =>
    intro l hl hj hp
    obtain ⟨l1, h1, h2, h3⟩ := restoreTowardsLeaves_ok hl (show j < h by omega) hp
    rw [heapifyFrom, h1, ok_bind]
    obtain ⟨l2, k1, k2, k3⟩ := ih l1 (by rw [h2.len]; exact hl) (by omega) h3
    exact ⟨l2, k1, h2.trans k2, k3⟩

theorem heapify_ok {l : List (Slot T)} {h : Nat} (hl : h ≤ l.length) :
    ∃ l', heapify l h = .ok l' ∧ Shuf h l l' ∧ HeapFrom l' h 0 := by
  unfold heapify
  by_cases h2 : h < 2
  · rw [if_pos h2]
    exact ⟨l, rfl, .refl _ _, fun i h0 h1 => by omega⟩
  · rw [if_neg h2]
    exact heapifyFrom_ok (h / 2) l hl (by omega) fun i h0 h1 h3 => by omega

/-- Heap order except above `slot`. -/
structure HoleUp (l : List (Slot T)) (h slot : Nat) : Prop where
  other : ∀ i, 0 < i → i < h → i ≠ slot → wt l ((i - 1) / 2) ≤ wt l i
  below : ∀ i, 0 < i → i < h → (i - 1) / 2 = slot → 0 < slot → wt l ((slot - 1) / 2) ≤ wt l i

theorem restoreTowardsRoot_ok {h : Nat} : ∀ (fuel : Nat) (l : List (Slot T)) (slot : Nat),
    h ≤ l.length → slot < h → slot < fuel → HoleUp l h slot →
    ∃ l', restoreTowardsRoot fuel l slot = .ok l' ∧ Shuf h l l' ∧ HeapFrom l' h 0 := by
  intro fuel
  induction fuel with
  | zero => intro l slot _ _ hf; omega
  | succ fuel ih =>
    intro l slot hl hs hf hole
    rw [restoreTowardsRoot]
    by_cases h0 : slot > 0
    · rw [if_pos h0]
      have hp : (slot + 1) / 2 - 1 = (slot - 1) / 2 := by omega
      simp only [hp]
      have hpl : (slot - 1) / 2 < slot := by omega
      rw [wAt_ok (by omega), ok_bind, wAt_ok (by omega), ok_bind]
      by_cases hlt : wt l slot < wt l ((slot - 1) / 2)
      · rw [if_pos hlt]
        obtain ⟨l1, hsw, hsh, hw⟩ := swap_ok (l := l) (j := (slot - 1) / 2) hs (by omega) hl
        rw [hsw, ok_bind]
        obtain ⟨l2, h1, h2, h3⟩ := ih l1 ((slot - 1) / 2) (by rw [hsh.len]; exact hl) (by omega)
          (by omega) (by
          constructor
          · intro i i0 i1 i2
            rw [hw, hw]
            rw [if_neg i2]
            by_cases his : i = slot
            · subst his
              rw [if_pos rfl, if_pos rfl]
              exact le_of_lt hlt
            · rw [if_neg his]
              by_cases hpp : (i - 1) / 2 = (slot - 1) / 2
              · rw [if_pos hpp]
                have := hole.other i i0 i1 his
                rw [hpp] at this
                exact le_trans (le_of_lt hlt) this
              · rw [if_neg hpp]
                by_cases hps : (i - 1) / 2 = slot
                · rw [if_pos hps]
                  exact hole.below i i0 i1 hps h0
                · rw [if_neg hps]
                  exact hole.other i i0 i1 his
          · intro i i0 i1 i2 i3
            rw [hw, hw, if_neg (by omega), if_neg (by omega)]
            have hpar := hole.other ((slot - 1) / 2) i3 (by omega) (by omega)
            by_cases his : i = slot
            · rw [if_neg (by omega), if_pos his]
              exact hpar
            · rw [if_neg (by omega), if_neg his]
              have := hole.other i i0 i1 his
              rw [i2] at this
              exact le_trans hpar this)
        exact ⟨l2, h1, hsh.trans h2, h3⟩
      · rw [if_neg hlt]
        refine ⟨l, rfl, .refl _ _, fun i i0 i1 _ => ?_⟩
        by_cases his : i = slot
        · rw [his]
          exact not_lt.1 hlt
        · exact hole.other i i0 i1 his
    · rw [if_neg h0]
      refine ⟨l, rfl, .refl _ _, fun i i0 i1 _ => ?_⟩
      exact hole.other i i0 i1 (by omega)

theorem HeapFrom.root_le {l : List (Slot T)} {h : Nat} (hp : HeapFrom l h 0) :
    ∀ i, i < h → wt l 0 ≤ wt l i := by
  intro i
  induction i using Nat.strong_induction_on with
  | _ i ih =>
    intro hi
    by_cases h0 : i = 0
    · rw [h0]
    · exact le_trans (ih ((i - 1) / 2) (by omega) (by omega)) (hp i (by omega) hi (by omega))

/-- Heap order only depends on the slots of the heap. -/
theorem HeapFrom.congr {l l' : List (Slot T)} {h j : Nat} (hp : HeapFrom l h j)
    (he : ∀ i, i < h → wt l' i = wt l i) : HeapFrom l' h j := by
  intro i i0 i1 i2
  rw [he i i1, he _ (by omega)]
  exact hp i i0 i1 i2

end Verif.VarOpt
