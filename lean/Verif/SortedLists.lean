import Mathlib.Data.List.Sort
import Mathlib.Data.Nat.Basic
import Mathlib.Data.List.Nodup
import Mathlib.Tactic.Common

/-!
# Sorting facts used by several property files

`sortN` is the specification's ascending sort (Lean core `mergeSort`); Go's `slices.Sort` on
integers is modelled by it (any correct sort of a list of integers gives the same list).
-/

namespace Verif

/-- ascending sort of naturals -/
def sortN (l : List Nat) : List Nat := l.mergeSort (fun a b => decide (a ≤ b))

theorem sortN_perm (l : List Nat) : (sortN l).Perm l := List.mergeSort_perm _ _

theorem sortN_pairwise (l : List Nat) : (sortN l).Pairwise (· ≤ ·) := by
  have := List.pairwise_mergeSort (le := fun a b : Nat => decide (a ≤ b))
    (by intro a b c; simp; omega) (by intro a b; simp; omega) l
  simpa [sortN] using this

theorem sortN_eq_of_perm {l m : List Nat} (hp : m.Perm l) (hs : m.Pairwise (· ≤ ·)) :
    m = sortN l := by
  apply List.Perm.eq_of_pairwise (le := (· ≤ ·))
  · intro a b _ _ h1 h2; omega
  · exact hs
  · exact sortN_pairwise l
  · exact hp.trans (sortN_perm l).symm

theorem sortN_congr {l m : List Nat} (hp : m.Perm l) : sortN m = sortN l :=
  sortN_eq_of_perm ((sortN_perm m).trans hp) (sortN_pairwise m)

@[simp] theorem sortN_length (l : List Nat) : (sortN l).length = l.length :=
  (sortN_perm l).length_eq

@[simp] theorem mem_sortN {l : List Nat} {x : Nat} : x ∈ sortN l ↔ x ∈ l :=
  (sortN_perm l).mem_iff

theorem sortN_strict {l : List Nat} (h : l.Nodup) : (sortN l).Pairwise (· < ·) := by
  have h1 := sortN_pairwise l
  have h2 : (sortN l).Nodup := (sortN_perm l).nodup_iff.mpr h
  exact (h1.and h2).imp (by intro a b; omega)

/-- Splitting a duplicate-free list at one of its elements splits its sorted version. -/
theorem sortN_split {l : List Nat} (hnd : l.Nodup) {v : Nat} (hv : v ∈ l) :
    sortN l = sortN (l.filter (fun x => decide (x < v))) ++
      v :: sortN (l.filter (fun x => decide (v < x))) := by
  symm
  apply sortN_eq_of_perm
  · have h1 : (l.filter (fun x => decide (x < v)) ++ l.filter (fun x => !decide (x < v))).Perm l :=
      List.filter_append_perm _ _
    refine List.Perm.trans ?_ h1
    refine (sortN_perm _).append ?_
    refine ((sortN_perm _).cons v).trans ?_
    have hnd2 : (l.filter (fun x => !decide (x < v))).Nodup := hnd.filter _
    apply (List.perm_ext_iff_of_nodup ?_ hnd2).mpr
    · intro a
      simp only [List.mem_cons, List.mem_filter, decide_eq_true_eq, Bool.not_eq_true',
        decide_eq_false_iff_not, not_lt]
      constructor
      · rintro (rfl | ⟨h, h'⟩)
        · exact ⟨hv, le_refl _⟩
        · exact ⟨h, by omega⟩
      · rintro ⟨h, h'⟩
        by_cases ha : a = v
        · exact Or.inl ha
        · exact Or.inr ⟨h, by omega⟩
    · rw [List.nodup_cons]
      refine ⟨by simp, hnd.filter _⟩
  · rw [List.pairwise_append]
    refine ⟨sortN_pairwise _, ?_, ?_⟩
    · rw [List.pairwise_cons]
      refine ⟨?_, sortN_pairwise _⟩
      intro x hx
      rw [mem_sortN, List.mem_filter] at hx
      have := hx.2
      simp only [decide_eq_true_eq] at this
      omega
    · intro a ha b hb
      rw [mem_sortN, List.mem_filter] at ha
      have h1 := ha.2
      simp only [decide_eq_true_eq] at h1
      rcases List.mem_cons.mp hb with rfl | hb
      · omega
      · rw [mem_sortN, List.mem_filter] at hb
        have h2 := hb.2
        simp only [decide_eq_true_eq] at h2
        omega

/-- The elements below `v` are the first `k` of the sorted list and `v` is at index `k`. -/
theorem sortN_below {l m : List Nat} (hnd : l.Nodup) {v : Nat} (hv : v ∈ l)
    (hm : m.Perm (l.filter (fun x => decide (x < v)))) :
    (sortN l)[m.length]? = some v ∧ sortN m = (sortN l).take m.length := by
  have hl : m.length = (sortN (l.filter (fun x => decide (x < v)))).length := by
    rw [sortN_length, hm.length_eq]
  rw [sortN_split hnd hv, sortN_congr hm, hl]
  constructor
  · rw [List.getElem?_append_right (le_refl _)]; simp
  · simp

end Verif
