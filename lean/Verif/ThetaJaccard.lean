import Verif.ThetaJaccardModel
import Verif.ThetaUnionProps
import Verif.ThetaInterProps
import Verif.VarOptSerde
import Verif.Proportion
import Mathlib.Data.Finset.Card

/-!
# Lemmas on the Jaccard similarity of theta sketches
-/

noncomputable section

namespace Verif.Theta

open HashTable

theorem jaccardLgK_range (a b : Nat) : 5 ≤ jaccardLgK a b ∧ jaccardLgK a b ≤ 26 := by
  unfold jaccardLgK
  dsimp only
  split <;> split <;> omega

theorem jaccardLgK_room {a b n : Nat} (h32 : a + b < 2 ^ 32) (hn : n ≤ a + b) (h26 : n ≤ 2 ^ 26) :
    n ≤ 2 ^ jaccardLgK a b := by
  unfold jaccardLgK
  rw [Nat.mod_eq_of_lt h32]
  obtain ⟨j, ej, hj⟩ := VarOpt.ceilPow2_pow (a + b)
  rw [ej, Nat.log2_two_pow]
  dsimp only
  by_cases h5 : j < 5
  · rw [if_pos h5, if_neg (by omega : ¬ (5 : ℕ) > 26)]
    rcases hj with hj | hj
    · have : 2 ^ j ≤ 2 ^ 5 := Nat.pow_le_pow_right (by omega) (by omega)
      omega
    · omega
  · rw [if_neg h5]
    by_cases hj26 : j > 26
    · rw [if_pos hj26]; exact h26
    · rw [if_neg hj26]
      rcases hj with hj | hj <;> omega

theorem newUnion_ok {lgK : Nat} (h : 5 ≤ lgK ∧ lgK ≤ 26) : ∃ u, newUnion lgK 3 maxTheta = .ok u := by
  unfold newUnion newTable
  rw [if_neg (by omega), if_neg (by omega)]
  exact ⟨_, rfl⟩

theorem minTheta_two {a b : View} (ha : a.isEmpty = false) (hb : b.isEmpty = false)
    (hta : a.theta ≤ maxTheta) : minTheta maxTheta [a, b] = min a.theta b.theta := by
  unfold minTheta
  simp [ha, hb, Nat.min_eq_right hta]

theorem mem_union_two {m x : Nat} {a b : View} (ha : a.isEmpty = false) (hb : b.isEmpty = false) :
    x ∈ unionHashes m [a, b] ↔ x < m ∧ (x ∈ a.all ∨ x ∈ b.all) := by
  rw [mem_unionHashes]
  simp [InSome, ha, hb, and_comm]

/-- The union of two non-empty sketches. -/
theorem computeUnion_spec {sh : Nat} {a b : View} (va : Input sh a) (vb : Input sh b)
    (ha : a.isEmpty = false) (hb : b.isEmpty = false) :
    ∃ c, computeUnion (some sh) a b = .ok c ∧ Input sh c.view ∧ c.isEmpty = false ∧
      c.theta ≤ min a.theta b.theta ∧
      (∀ h, h ∈ c.entries ↔ h < c.theta ∧ (h ∈ a.all ∨ h ∈ b.all)) ∧
      ((unionHashes (min a.theta b.theta) [a, b]).length ≤ 2 ^ jaccardLgK a.numRetained b.numRetained →
        c.theta = min a.theta b.theta) ∧
      (2 ^ jaccardLgK a.numRetained b.numRetained < (unionHashes (min a.theta b.theta) [a, b]).length →
        c.theta < min a.theta b.theta) := by
  have hlg := jaccardLgK_range a.numRetained b.numRetained
  generalize hL : jaccardLgK a.numRetained b.numRetained = lgK at *
  obtain ⟨u0, hnew⟩ := newUnion_ok hlg
  have hops : ∀ v, UOp.update v ∈ [UOp.update a, UOp.update b] →
      Valid v ∧ (v.isEmpty = false → v.seedHash = sh) := by
    intro v hv
    simp at hv
    rcases hv with rfl | rfl
    · exact ⟨va.valid, fun _ => va.seed⟩
    · exact ⟨vb.valid, fun _ => vb.seed⟩
  obtain ⟨u, c, e1, e2, h1, h2, h3, h4, h5, _, h6, h7, h8, _⟩ :=
    C07_union_result lgK 3 maxTheta sh (le_refl _) u0 hnew _ hops false
  obtain ⟨u', e1', i⟩ := urun_inv _ u0 [] (unew_inv hnew) hops
  obtain rfl : u = u' := by rw [e1] at e1'; exact Outcome.ok.inj e1'
  have hin : inputs [] [UOp.update a, UOp.update b] = [a, b] := rfl
  rw [hin] at h1 h3 h6 i
  obtain ⟨c', e2', hth, hent, _⟩ := result_spec (sh := sh) i (le_refl _) (by
    intro v hv; simp at hv; rcases hv with rfl | rfl
    · exact va.valid
    · exact vb.valid) false
  obtain rfl : c = c' := by rw [e2] at e2'; exact Outcome.ok.inj e2'
  have hmin := minTheta_two ha hb va.valid.theta
  refine ⟨c, ?_, ⟨h8, h7, ?_⟩, ?_, ?_, ?_, ?_, ?_⟩
  · unfold computeUnion
    rw [hL, hnew, Outcome.ok_bind]
    simp only [urun, ustep] at e1
    cases q1 : u0.update (some sh) a with
    | ok u1 =>
      rw [q1, Outcome.ok_bind] at e1
      rw [Outcome.ok_bind]
      cases q2 : u1.update (some sh) b with
      | ok u2 =>
        rw [q2, Outcome.ok_bind] at e1
        rw [Outcome.ok_bind]
        cases e1
        exact e2
      | err s => rw [q2] at e1; cases e1
      | panic => rw [q2] at e1; cases e1
    | err s => rw [q1] at e1; cases e1
    | panic => rw [q1] at e1; cases e1
  · show c.entries.length ≤ maxRetained
    have : 2 ^ lgK ≤ 2 ^ 26 := Nat.pow_le_pow_right (by omega) hlg.2
    unfold maxRetained
    omega
  · cases hc : c.isEmpty with
    | false => rfl
    | true =>
      have := h6.mp hc a (by simp)
      rw [ha] at this; cases this
  · exact le_min (h1 a (by simp) ha) (h1 b (by simp) hb)
  · intro h
    rw [h3]
    simp [ha, hb]
  · intro hl
    rw [hth]
    unfold unionSpec
    rw [hmin]
    dsimp only
    rw [if_pos hl]
  · intro hl
    rw [hth]
    unfold unionSpec
    rw [hmin]
    dsimp only
    rw [if_neg (by omega), List.getD_eq_getElem?_getD, List.getElem?_eq_getElem hl]
    exact ((mem_union_two ha hb).mp (List.getElem_mem hl)).1

/-- Both sketches are exact and have hashes, but none in common. -/
def DisjointExact (a b : View) : Prop :=
  a.all ≠ [] ∧ b.all ≠ [] ∧ a.theta = maxTheta ∧ b.theta = maxTheta ∧ ∀ h ∈ a.all, h ∉ b.all

theorem jaccardInter_eq {sh : Option Nat} {a b u : View} {s : Inter} {d : Compact}
    (e1 : irun sh newInter [a, b, u] = .ok s) (e2 : s.result sh false = .ok d) :
    jaccardInter sh a b u = .ok d := by
  unfold jaccardInter
  simp only [irun] at e1
  cases q1 : newInter.update sh a with
  | ok s1 =>
    rw [q1, Outcome.ok_bind] at e1
    rw [Outcome.ok_bind]
    cases q2 : s1.update sh b with
    | ok s2 =>
      rw [q2, Outcome.ok_bind] at e1
      rw [Outcome.ok_bind]
      cases q3 : s2.update sh u with
      | ok s3 =>
        rw [q3, Outcome.ok_bind] at e1
        rw [Outcome.ok_bind]
        cases e1
        exact e2
      | err s => rw [q3] at e1; cases e1
      | panic => rw [q3] at e1; cases e1
    | err s => rw [q2] at e1; cases e1
    | panic => rw [q2] at e1; cases e1
  | err s => rw [q1] at e1; cases e1
  | panic => rw [q1] at e1; cases e1

theorem jaccardInter_spec {sh : Nat} {a b u : View} (va : Input sh a) (vb : Input sh b)
    (vu : Input sh u) (ha : a.isEmpty = false) (hb : b.isEmpty = false) (hu : u.isEmpty = false)
    (hle : u.theta ≤ min a.theta b.theta)
    (hm : ∀ h, h ∈ u.all ↔ h < u.theta ∧ (h ∈ a.all ∨ h ∈ b.all)) :
    ∃ d, jaccardInter (some sh) a b u = .ok d ∧ Valid d.view ∧
      (DisjointExact a b → d.theta = maxTheta ∧ d.entries = []) ∧
      (¬ DisjointExact a b → d.theta = u.theta ∧
        ∀ h, h ∈ d.entries ↔ h < u.theta ∧ h ∈ a.all ∧ h ∈ b.all) := by
  obtain ⟨s, d, x, e1, e2, hx, hem, hth, hent, hval, _⟩ := inter_refines [a, b, u] (by simp) (by
    intro v hv; simp at hv; rcases hv with rfl | rfl | rfl <;> assumption) false
  refine ⟨d, jaccardInter_eq e1 e2, hval, ?_, ?_⟩
  all_goals
    simp only [ispec, List.foldl_cons, List.foldl_nil, istep, ha, hb, hu, Option.some.injEq,
      Bool.false_eq_true, if_false] at hx
  · rintro ⟨h1, h2, h3, h4, h5⟩
    have hf : (sortN a.all).filter (fun h => decide (h < min a.theta b.theta) && decide (h ∈ b.all)) = [] := by
      rw [List.filter_eq_nil_iff]
      intro h hh
      rw [mem_sortN] at hh
      simp [h5 h hh]
    rw [hf] at hx
    have h6 : sortN a.all ≠ [] := by rwa [Ne, sortN_eq_nil]
    rw [h3, h4] at hx
    simp only [h6, h2, Nat.min_self, ne_eq, not_false_eq_true, and_self, decide_true, if_true] at hx
    rw [← hx] at hth hent
    exact ⟨hth, sortN_eq_nil.mp hent⟩
  · intro hn
    have hflag : ¬ ((sortN a.all).filter (fun h => decide (h < min a.theta b.theta) && decide (h ∈ b.all)) = []
        ∧ sortN a.all ≠ [] ∧ b.all ≠ [] ∧ min a.theta b.theta = maxTheta) := by
      rintro ⟨h1, h2, h3, h4⟩
      have ha' := va.valid.theta
      have hb' := vb.valid.theta
      have e1 : a.theta = maxTheta := by omega
      have e2 : b.theta = maxTheta := by omega
      refine hn ⟨fun h => h2 (by rw [sortN_eq_nil]; exact h), h3, e1, e2, ?_⟩
      intro h hh hb2
      rw [List.filter_eq_nil_iff] at h1
      have := h1 h (mem_sortN.mpr hh)
      have hlt := (va.valid.range h hh).2
      simp [hb2] at this
      omega
    simp only [hflag, decide_false, Bool.false_eq_true, if_false] at hx
    have hmin : min (min a.theta b.theta) u.theta = u.theta := Nat.min_eq_right hle
    rw [← hx] at hth hent
    dsimp only at hth hent
    rw [hmin] at hth hent
    refine ⟨hth, fun h => ?_⟩
    rw [← mem_sortN, hent]
    simp only [List.mem_filter, mem_sortN, Bool.and_eq_true, decide_eq_true_eq, hm]
    constructor
    · rintro ⟨⟨q1, q2, q3⟩, q4, _⟩
      exact ⟨q4, q1, q3⟩
    · rintro ⟨q1, q2, q3⟩
      exact ⟨⟨q2, by omega, q3⟩, q1, q1, Or.inl q2⟩

end Verif.Theta
