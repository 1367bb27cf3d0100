import Verif.Outcome
import Verif.Probe

/-!
# Inserting the entries of an old table into a new one
-/

namespace Verif.Probe

variable {α : Type} {s : Scheme α} {lg : Nat} {stride : Nat → Nat}

/-- The rehash loop, for any step function that skips free entries and stores an occupied entry in
the free slot found for its key. -/
theorem grow_generic (h : s.Ok lg stride) (step : List α → α → Outcome (List α))
    (h1 : ∀ arr e, s.emp e = true → step arr e = .ok arr)
    (h2 : ∀ arr e i, s.emp e = false → s.find arr (s.key e) = .empty i →
      step arr e = .ok (arr.set i e)) :
    ∀ (l arr : List α), Chain s stride arr →
      ((s.items l).map s.key ++ (s.items arr).map s.key).Nodup →
      (s.items l).length + (s.items arr).length < s.size →
      ∃ arr', l.foldlM step arr = .ok arr' ∧ Chain s stride arr' ∧
        (s.items arr').Perm (s.items l ++ s.items arr) := by
  intro l
  induction l with
  | nil =>
    intro arr hc _ _
    exact ⟨arr, rfl, hc, by simp [Scheme.items]⟩
  | cons e l ih =>
    intro arr hc hnd hlen
    rw [List.foldlM_cons]
    by_cases he : s.emp e = true
    · have hi : s.items (e :: l) = s.items l := by simp [Scheme.items, he]
      rw [hi] at hnd hlen
      rw [h1 arr e he, Outcome.ok_bind, hi]
      exact ih arr hc hnd hlen
    · have he' : s.emp e = false := by simpa using he
      have hi : s.items (e :: l) = e :: s.items l := by simp [Scheme.items, he']
      rw [hi] at hnd hlen
      simp only [List.map_cons, List.cons_append, List.nodup_cons, List.length_cons] at hnd hlen
      have habs : ∀ (p : Nat) (f : α), arr[p]? = some f → s.emp f = false → s.key f ≠ s.key e := by
        intro p f hp hf hk
        apply hnd.1
        rw [List.mem_append]
        exact Or.inr (hk ▸ List.mem_map_of_mem (mem_items.mpr ⟨p, hp, hf⟩))
      have hfree : ∃ (p : Nat) (f : α), arr[p]? = some f ∧ s.emp f = true :=
        items_length_lt_of_free.mpr (by rw [hc.len]; omega)
      obtain ⟨i, f, hi', hp, hf, _, hfind⟩ := Chain.find_absent hc.len h (s.key e) habs hfree
      rw [h2 arr e _ he' hfind, Outcome.ok_bind]
      have hc' := hc.insert h he' hfind
      have hperm := items_set_empty (s := s) (e := e) hp hf he'
      have hnd' : ((s.items l).map s.key ++
          (s.items (arr.set (s.pos stride (s.key e) i) e)).map s.key).Nodup := by
        have hp2 : ((s.items l).map s.key ++
            (s.items (arr.set (s.pos stride (s.key e) i) e)).map s.key).Perm
            (s.key e :: ((s.items l).map s.key ++ (s.items arr).map s.key)) := by
          have := (hperm.map s.key).append_left ((s.items l).map s.key)
          rw [List.map_cons] at this
          exact this.trans List.perm_middle
        rw [hp2.nodup_iff, List.nodup_cons]
        exact hnd
      obtain ⟨arr', ha, hca, hpa⟩ := ih _ hc' hnd' (by rw [hperm.length_eq, List.length_cons]; omega)
      refine ⟨arr', ha, hca, ?_⟩
      rw [hi]
      exact hpa.trans ((hperm.append_left _).trans List.perm_middle)

end Verif.Probe
