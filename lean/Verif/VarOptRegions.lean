import Verif.VarOptHeap
import Mathlib.Algebra.BigOperators.Group.List.Basic

/-!
# The regions of the VarOpt sketch

Heap operations seen as operations on the lists that make up the slots: `H` (heavy items, a heap),
`M` (candidates with their own weight) and `R` (candidates of common weight).
-/

namespace Verif.VarOpt

open Outcome

variable {T : Type}

/-- `H` is in heap order. -/
def IsHeap (H : List (Slot T)) : Prop := HeapFrom H H.length 0

theorem wt_append {H t : List (Slot T)} {i : Nat} (h : i < H.length) : wt (H ++ t) i = wt H i := by
  unfold wt
  rw [List.getElem?_append_left h]

theorem IsHeap.append {H t : List (Slot T)} (h : IsHeap H) : HeapFrom (H ++ t) H.length 0 :=
  HeapFrom.congr h fun _ hi => wt_append hi

theorem isHeap_of_append {H t : List (Slot T)} (h : HeapFrom (H ++ t) H.length 0) : IsHeap H :=
  HeapFrom.congr h fun _ hi => (wt_append hi).symm

theorem IsHeap.nil : IsHeap ([] : List (Slot T)) := fun i _ h => absurd h (by simp)

/-- The first slot of a heap is a lightest one. -/
theorem IsHeap.head_le {x : Slot T} {H : List (Slot T)} (h : IsHeap (x :: H)) :
    ∀ y ∈ x :: H, x.weight ≤ y.weight := by
  intro y hy
  obtain ⟨i, hi, rfl⟩ := List.getElem_of_mem hy
  have := HeapFrom.root_le h i hi
  rw [wt_getElem hi, wt_getElem (by simp)] at this
  exact this

theorem Shuf.split {H t l' : List (Slot T)} (h : Shuf H.length (H ++ t) l') :
    ∃ H', l' = H' ++ t ∧ H'.Perm H := by
  refine ⟨l'.take H.length, ?_, ?_⟩
  · have := h.drop
    rw [List.drop_left] at this
    rw [← this, List.take_append_drop]
  · have := h.perm
    rwa [List.take_left] at this

theorem heapify_list (H t : List (Slot T)) :
    ∃ H', heapify (H ++ t) H.length = .ok (H' ++ t) ∧ H'.Perm H ∧ IsHeap H' := by
  obtain ⟨l', h1, h2, h3⟩ := heapify_ok (l := H ++ t) (h := H.length) (by simp)
  obtain ⟨H', rfl, hp⟩ := h2.split
  refine ⟨H', h1, hp, isHeap_of_append (t := t) ?_⟩
  rw [hp.length_eq]
  exact h3

/-- `popMinToMRegion` moves a lightest slot of the heap behind the heap. -/
theorem popSlots_list {x : Slot T} {H : List (Slot T)} (t : List (Slot T)) (hp : IsHeap (x :: H)) :
    ∃ H', popSlots (x :: H ++ t) (H.length + 1) = .ok (H' ++ x :: t) ∧ H'.Perm H ∧ IsHeap H' := by
  unfold popSlots
  by_cases h1 : H.length + 1 = 1
  · rw [if_pos h1]
    have : H = [] := List.length_eq_zero_iff.1 (by omega)
    subst this
    exact ⟨[], rfl, .refl _, IsHeap.nil⟩
  · rw [if_neg h1]
    have hne : H ≠ [] := by
      intro h; rw [h] at h1; simp at h1
    obtain ⟨G, y, rfl⟩ : ∃ G y, H = G ++ [y] := ⟨H.dropLast, H.getLast hne, (List.dropLast_append_getLast hne).symm⟩
    have hlen : (G ++ [y]).length + 1 - 1 = G.length + 1 := by simp
    have hsw : swap (x :: (G ++ [y]) ++ t) 0 ((G ++ [y]).length + 1 - 1)
        = .ok (y :: G ++ x :: t) := by
      unfold swap
      rw [hlen]
      have e1 : (x :: (G ++ [y]) ++ t)[0]? = some x := rfl
      have e2 : (x :: (G ++ [y]) ++ t)[G.length + 1]? = some y := by simp
      rw [e1, e2]
      simp
    rw [hsw, ok_bind, hlen]
    have hheap : HeapFrom (y :: G ++ x :: t) (G.length + 1) (0 + 1) := by
      intro i i0 i1 i2
      have hw : ∀ j, 0 < j → j < G.length + 1 → wt (y :: G ++ x :: t) j = wt (x :: (G ++ [y])) j := by
        intro j j0 j1
        obtain ⟨j, rfl⟩ : ∃ j', j = j' + 1 := ⟨j - 1, by omega⟩
        unfold wt
        simp only [List.cons_append, List.getElem?_cons_succ]
        rw [List.getElem?_append_left (by omega), List.getElem?_append_left (by omega)]
      rw [hw i i0 i1, hw _ (by omega) (by omega)]
      exact hp i i0 (by simp; omega) (by omega)
    have := restoreTowardsLeaves_ok (l := y :: G ++ x :: t) (h := G.length + 1) (j := 0) (by simp)
      (by omega) hheap
    obtain ⟨l', h1, h2, h3⟩ := this
    have hl : G.length + 1 = (y :: G).length := rfl
    rw [hl] at h2
    obtain ⟨H', rfl, hpm⟩ := h2.split
    refine ⟨H', h1, hpm.trans ?_, isHeap_of_append (t := x :: t) ?_⟩
    · exact (List.perm_append_singleton y G).symm
    · rw [hpm.length_eq]
      exact h3

/-- `push` writes over the slot behind the heap. -/
theorem pushSlots_list {H : List (Slot T)} (g x : Slot T) (t : List (Slot T)) (hp : IsHeap H) :
    ∃ H', restoreTowardsRoot (H.length + 1) (H ++ x :: t) H.length = .ok (H' ++ t) ∧
      H'.Perm (x :: H) ∧ IsHeap H' ∧ put (H ++ g :: t) H.length x = .ok (H ++ x :: t) := by
  have hassoc : H ++ x :: t = (H ++ [x]) ++ t := by simp
  have := restoreTowardsRoot_ok (h := H.length + 1) (H.length + 1) (H ++ x :: t) H.length (by simp)
    (by omega) (by omega) (by
      constructor
      · intro i i0 i1 i2
        have := HeapFrom.congr (l' := H ++ x :: t) hp fun j hj => wt_append hj
        exact this i i0 (by omega) (by omega)
      · intro i i0 i1 i2 i3
        omega)
  obtain ⟨l', h1, h2, h3⟩ := this
  have hl : H.length + 1 = (H ++ [x]).length := by simp
  rw [hl, hassoc] at h2
  obtain ⟨H', rfl, hpm⟩ := h2.split
  refine ⟨H', h1, hpm.trans (List.perm_append_singleton x H), isHeap_of_append (t := t) ?_, ?_⟩
  · rw [hpm.length_eq, List.length_append, List.length_singleton]
    exact h3
  · unfold put
    rw [if_pos (by simp)]
    congr 1
    simp

/-! ## Deleting one candidate by moving the first one over it -/

theorem tail_set_perm {α : Type} {c : List α} {a : α} {t : List α} (hc : c = a :: t) {j : Nat}
    (hj : j < c.length) : (c.set j a).tail.Perm (c.eraseIdx j) := by
  subst hc
  cases j with
  | zero => exact .refl _
  | succ j =>
    simp only [List.set_cons_succ, List.tail_cons, List.eraseIdx_cons_succ]
    exact List.set_perm_cons_eraseIdx (by simpa using hj) a

end Verif.VarOpt
