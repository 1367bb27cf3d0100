import Verif.ThetaUpdateProps

/-!
# Validity of sketches passed to set operations

`Valid` is what the interface of a well-formed sketch guarantees.  Every reachable update sketch and
its compact forms satisfy it (proved here), and the set operations preserve it (proved with the
properties of the set operations).
-/

namespace Verif.Theta

open HashTable

/-- Well-formed sketch as seen through the `Sketch` interface. -/
structure Valid (v : View) : Prop where
  nodup : v.all.Nodup
  range : ∀ e ∈ v.all, e ≠ 0 ∧ e < v.theta
  num : v.numRetained = v.all.length
  ordered : v.isOrdered = true → v.all.Pairwise (· < ·)
  theta : v.theta ≤ maxTheta
  empty : v.isEmpty = true → v.all = []

theorem SInv.valid {ι : Type} {hash : ι → Nat} {lgK start : Nat} {t : Tbl} {xs : List ι}
    (i : SInv hash lgK start t xs) (hs : start ≤ maxTheta) (sh : Nat) : Valid (viewOf t sh) := by
  have hnum : numRetained t = (all t).length := i.tinv.num
  have hemp : t.isEmpty = true → all t = [] := by
    intro hem
    apply List.eq_nil_iff_forall_not_mem.mpr
    intro a ha
    have := (i.ret a).mp ha
    rw [i.empty.mp hem] at this
    simp at this
  refine { nodup := nodup_all i.tinv, range := ?_, num := hnum, ordered := ?_, theta := ?_,
           empty := hemp }
  · intro e he
    have he' : e ∈ all t := he
    have h1 := (i.ret e).mp he'
    refine ⟨h1.2.1, ?_⟩
    show e < theta64 t
    unfold theta64
    split
    · exact lt_of_lt_of_le h1.2.2 (le_trans i.le_start hs)
    · exact h1.2.2
  · intro ho
    have h1 : (all t).length ≤ 1 := by
      have ho' : isOrdered t = true := ho
      rw [← hnum]; simpa [isOrdered, numRetained] using ho'
    show (all t).Pairwise (· < ·)
    match hA : all t, h1 with
    | [], _ => exact List.Pairwise.nil
    | [a], _ => exact List.pairwise_singleton _ _
    | a :: b :: l, h1 => simp at h1
  · show theta64 t ≤ maxTheta
    unfold theta64
    split
    · exact le_refl _
    · exact le_trans i.le_start hs

/-- Every reachable update sketch is valid. -/
theorem reachable_valid {ι : Type} (hash : ι → Nat) (lgK rf start seedHash : Nat)
    (hstart : start ≤ maxTheta) (t0 : Tbl) (hnew : newTable lgK rf start = .ok t0)
    (ops : List (Op ι)) (t : Tbl) (ht : run hash t0 ops = .ok t) : Valid (viewOf t seedHash) := by
  obtain ⟨t', e, i⟩ := run_inv ops t0 [] (new_sinv hash hnew)
  rw [ht] at e
  cases e
  exact i.valid hstart seedHash

theorem newCompact_entries (v : View) (o : Bool) : (newCompact v o).entries =
    bif v.isEmpty then [] else bif (o && !v.isOrdered) then sortN v.all else v.all := by
  cases hem : v.isEmpty <;> cases hio : v.isOrdered <;> cases o <;> simp [newCompact, hem, hio]

theorem newCompact_perm {v : View} (hv : Valid v) (o : Bool) :
    (newCompact v o).entries.Perm v.all := by
  rw [newCompact_entries]
  cases hem : v.isEmpty
  · cases (o && !v.isOrdered)
    · exact List.Perm.refl _
    · exact sortN_perm _
  · rw [hv.empty hem]; exact List.Perm.refl _

/-- The compact form of a valid sketch is valid. -/
theorem newCompact_valid {v : View} (hv : Valid v) (o : Bool) : Valid (newCompact v o).view := by
  have hp := newCompact_perm hv o
  refine { nodup := hp.nodup_iff.mpr hv.nodup,
           range := fun e he => hv.range e (hp.mem_iff.mp he), num := rfl, ordered := ?_,
           theta := hv.theta, empty := ?_ }
  · intro ho
    have ho' : (v.isOrdered || o) = true := ho
    show (newCompact v o).entries.Pairwise (· < ·)
    rw [newCompact_entries]
    cases hem : v.isEmpty
    · cases hio : v.isOrdered
      · rw [hio] at ho'
        simp only [Bool.false_or] at ho'
        rw [ho']
        exact sortN_strict hv.nodup
      · cases o <;> exact hv.ordered hio
    · exact List.Pairwise.nil
  · intro he
    have he' : v.isEmpty = true := he
    show (newCompact v o).entries = []
    rw [newCompact_entries, he']; rfl

/-- A compact sketch assembled by a set operation is valid if its parts are. -/
theorem compactFromEntries_valid {em o : Bool} {sh th : Nat} {es : List Nat} (hnd : es.Nodup)
    (hr : ∀ e ∈ es, e ≠ 0 ∧ e < th) (ho : o = true → es.Pairwise (· < ·)) (hth : th ≤ maxTheta)
    (hem : em = true → es = []) : Valid (compactFromEntries em o sh th es).view := by
  refine { nodup := hnd, range := hr, num := rfl, ordered := ?_, theta := hth, empty := hem }
  intro h
  show es.Pairwise (· < ·)
  match es, h with
  | [], _ => exact List.Pairwise.nil
  | [a], _ => exact List.pairwise_singleton _ _
  | a :: b :: l, h =>
    apply ho
    simpa [compactFromEntries, Compact.view] using h

end Verif.Theta
