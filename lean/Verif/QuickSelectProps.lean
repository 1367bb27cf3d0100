import Verif.QuickSelectLemmas

/-!
# C05: QuickSelect returns the k-th order statistic and only permutes
-/

namespace Verif.QuickSelect

/-- C05 (general comparator).  For every slice, every range `lo ≤ pivot ≤ hi` inside it and every
strict weak order, the routine terminates without panic, only rearranges positions
`[lo, hi]`, and splits the range at `pivot` around the returned element. -/
theorem C05_quickSelect_splits {α : Type} (lt : α → α → Bool) (hsw : StrictWeak lt)
    (arr : List α) (lo hi pivot : Nat) (h1 : lo ≤ pivot) (h2 : pivot ≤ hi) (h3 : hi < arr.length) :
    ∃ arr' v, quickSelect lt arr lo hi pivot = some (arr', v) ∧ arr'.Perm arr ∧
      (∀ k, k < lo ∨ hi < k → arr'[k]? = arr[k]?) ∧ arr'[pivot]? = some v ∧
      (∀ k x, lo ≤ k → k ≤ pivot → arr'[k]? = some x → lt v x = false) ∧
      (∀ k x, pivot ≤ k → k ≤ hi → arr'[k]? = some x → lt x v = false) := by
  obtain ⟨arr', v, e, lp, hv, hL, hR⟩ :=
    quickSelectLoop_spec lt hsw pivot lo hi (arr.length + 1) arr lo hi h3 (le_refl _) (le_refl _)
      h1 (by omega) (by omega) (by intro k k'; omega) (by intro k k'; omega)
  exact ⟨arr', v, e, lp.perm, lp.out, hv, hL, hR⟩

/-- The strict order of a linear order as a Boolean comparison (Go `<` on `cmp.Ordered` types;
floating point NaN is excluded because it breaks the order axioms). -/
def ltOf {α : Type} [LinearOrder α] (a b : α) : Bool := decide (a < b)

theorem ltOf_strictWeak {α : Type} [LinearOrder α] : StrictWeak (ltOf (α := α)) where
  irrefl a := by simp [ltOf]
  trans a b c := by simp only [ltOf, decide_eq_true_eq]; exact lt_trans
  negtrans a b c := by
    simp only [ltOf, decide_eq_false_iff_not, not_lt]
    intro h1 h2; exact le_trans h2 h1

/-- C05 (ordered types).  Selecting over the whole slice returns exactly the element that
sorting the slice would put at that index, and everything before / after it is not larger /
not smaller. -/
theorem C05_quickSelect_is_order_statistic {α : Type} [LinearOrder α]
    (arr : List α) (pivot : Nat) (h : pivot < arr.length) :
    ∃ arr' v, quickSelect ltOf arr 0 ((arr.length : Int) - 1) pivot = some (arr', v) ∧
      arr'.Perm arr ∧ (arr.mergeSort (· ≤ ·))[pivot]? = some v ∧ arr'[pivot]? = some v ∧
      (∀ x ∈ arr'.take pivot, x ≤ v) ∧ (∀ x ∈ arr'.drop (pivot + 1), v ≤ x) := by
  obtain ⟨arr', v, e, hp, -, hv, hL, hR⟩ :=
    C05_quickSelect_splits ltOf ltOf_strictWeak arr 0 (arr.length - 1) pivot (by omega) (by omega)
      (by omega)
  have hlen := hp.length_eq
  have hpl : pivot < arr'.length := by omega
  rw [show ((arr.length - 1 : Nat) : Int) = (arr.length : Int) - 1 by omega] at e
  have hT : ∀ x ∈ arr'.take pivot, x ≤ v := by
    intro x hx
    obtain ⟨k, hk, rfl⟩ := List.mem_iff_getElem.mp hx
    simp at hk
    have := hL k arr'[k] (by omega) (by omega) (List.getElem?_eq_getElem (by omega))
    simpa [ltOf] using this
  have hD : ∀ x ∈ arr'.drop (pivot + 1), v ≤ x := by
    intro x hx
    obtain ⟨k, hk, rfl⟩ := List.mem_iff_getElem.mp hx
    simp at hk
    have := hR (pivot + 1 + k) arr'[pivot + 1 + k] (by omega) (by omega)
      (List.getElem?_eq_getElem (by omega))
    simpa [ltOf] using this
  refine ⟨arr', v, e, hp, ?_, hv, hT, hD⟩
  have hv' : arr'[pivot] = v := by
    rw [List.getElem?_eq_getElem hpl] at hv; simpa using hv
  have hdec : arr' = arr'.take pivot ++ v :: arr'.drop (pivot + 1) := by
    rw [← hv']; simp
  have hsorted : ∀ l : List α, (l.mergeSort (· ≤ ·)).Pairwise (· ≤ ·) := fun l => by
    have := List.pairwise_mergeSort (le := fun a b : α => decide (a ≤ b))
      (by intro a b c; simp; exact le_trans) (by intro a b; simp; exact le_total a b) l
    simpa using this
  have hkey : arr.mergeSort (· ≤ ·) =
      (arr'.take pivot).mergeSort (· ≤ ·) ++ v :: (arr'.drop (pivot + 1)).mergeSort (· ≤ ·) := by
    apply List.Perm.eq_of_pairwise (le := (· ≤ ·))
    · intro a b _ _ h1 h2; exact le_antisymm h1 h2
    · exact hsorted arr
    · rw [List.pairwise_append]
      refine ⟨hsorted _, ?_, ?_⟩
      · rw [List.pairwise_cons]
        refine ⟨?_, hsorted _⟩
        intro x hx
        exact hD x ((List.mergeSort_perm _ _).mem_iff.mp hx)
      · intro a ha b hb
        have ha' := hT a ((List.mergeSort_perm _ _).mem_iff.mp ha)
        rcases List.mem_cons.mp hb with hb | hb
        · rw [hb]; exact ha'
        · exact le_trans ha' (hD b ((List.mergeSort_perm _ _).mem_iff.mp hb))
    · refine (List.mergeSort_perm _ _).trans (hp.symm.trans ?_)
      conv_lhs => rw [hdec]
      exact (List.mergeSort_perm _ _).symm.append ((List.mergeSort_perm _ _).symm.cons v)
  rw [hkey, List.getElem?_append_right (by simp)]
  simp [Nat.min_eq_left (Nat.le_of_lt hpl)]

/-- Non-vacuity: a slice with duplicates satisfies the hypotheses and the model computes. -/
example : quickSelect ltOf [5, 3, 9, 3, 1, 7] 0 5 2 = some ([1, 3, 3, 5, 9, 7], 3) := by
  decide +kernel

example : (2 : Nat) < [5, 3, 9, 3, 1, 7].length := by decide

end Verif.QuickSelect
