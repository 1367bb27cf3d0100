import Verif.TupleJaccardModel
import Verif.TupleKeys
import Verif.TupleUnionProps
import Verif.TupleInterProps
import Verif.ThetaJaccardProps

/-!
# C97: Jaccard index of tuple sketches
-/

noncomputable section

namespace Verif.Tuple

open Theta (maxTheta JResult)

variable {H S V : Type} (K : Kind H S V)

theorem computeUnion_keys (h : H) (sh : Option Nat) (a b : View S) :
    (computeUnion K h sh a b).map (fun r => r.1.keys) = Theta.computeUnion sh a.keys b.keys := by
  unfold computeUnion Theta.computeUnion
  rw [show a.keys.numRetained = a.numRetained from rfl, show b.keys.numRetained = b.numRetained from rfl,
    ← newUnion_keys K, Outcome.bind_map, Outcome.map_bind]
  refine Outcome.bind_congr fun u => ?_
  rw [← Union.update_keys K u h, Outcome.bind_map, Outcome.map_bind]
  refine Outcome.bind_congr fun r => ?_
  rw [← Union.update_keys K r.1 r.2, Outcome.bind_map, Outcome.map_bind]
  refine Outcome.bind_congr fun r' => ?_
  rw [← Union.result_keys K, Outcome.map_bind]
  cases r'.1.result K sh false <;> rfl

theorem jaccardInter_keys (h : H) (sh : Option Nat) (a b u : View S) :
    (jaccardInter K h sh a b u).map (fun r => r.1.keys) =
      Theta.jaccardInter sh a.keys b.keys u.keys := by
  unfold jaccardInter Theta.jaccardInter
  rw [← newInter_keys K, ← Inter.update_keys K _ h, Outcome.bind_map, Outcome.map_bind]
  refine Outcome.bind_congr fun r => ?_
  rw [← Inter.update_keys K r.1 r.2, Outcome.bind_map, Outcome.map_bind]
  refine Outcome.bind_congr fun r' => ?_
  rw [← Inter.update_keys K r'.1 r'.2, Outcome.bind_map, Outcome.map_bind]
  refine Outcome.bind_congr fun r'' => ?_
  rw [← Inter.result_keys K r''.1 r''.2]

theorem view_keys_of_pos {c : Compact S} (h : ∀ k ∈ c.keys.entries, k ≠ 0) :
    c.view.keys = c.keys.view := by
  unfold Compact.view View.keys Theta.Compact.view Compact.keys
  have : c.entries.filter (fun e => e.1 != 0) = c.entries := by
    rw [List.filter_eq_self]
    intro e he
    have := h e.1 (List.mem_map.mpr ⟨e, he, rfl⟩)
    simpa using this
  simp [this]

/-- The result does not depend on the summaries: it is that of the theta sketches of the hashes. -/
theorem jaccard_keys {sh : Nat} {a b : View S} (va : Theta.Input sh a.keys) (vb : Theta.Input sh b.keys)
    (same : Bool) (h : H) :
    (jaccard K same h (some sh) a b).map Prod.fst = Theta.jaccard same (some sh) a.keys b.keys ∧
    (isExactlyEqual K same h (some sh) a b).map Prod.fst =
      Theta.isExactlyEqual same (some sh) a.keys b.keys := by
  unfold jaccard isExactlyEqual Theta.jaccard Theta.isExactlyEqual
  rw [show a.keys.isEmpty = a.isEmpty from rfl, show b.keys.isEmpty = b.isEmpty from rfl]
  cases same with
  | true => exact ⟨rfl, rfl⟩
  | false =>
    cases ha : a.isEmpty <;> cases hb : b.isEmpty
    case false.false =>
      simp only [Bool.false_eq_true, if_false, Bool.and_self, Bool.or_self]
      obtain ⟨c, e, vc, hce, hle, hm, _⟩ := Theta.computeUnion_spec va vb ha hb
      have hk := computeUnion_keys K h (some sh) a b
      rw [e] at hk
      obtain ⟨⟨c', h'⟩, e', rfl⟩ := Outcome.map_eq_ok.1 hk
      rw [e, e', Outcome.ok_bind, Outcome.ok_bind, Outcome.ok_bind, Outcome.ok_bind]
      dsimp only
      have hv : c'.view.keys = c'.keys.view := view_keys_of_pos fun k hk =>
        (vc.valid.range k hk).1
      have hi : identicalSets a b c'.view = Theta.identicalSets a.keys b.keys c'.keys.view := by
        rw [← hv]; rfl
      refine ⟨?_, by rw [hi]; rfl⟩
      unfold jaccardWith Theta.jaccardWith
      rw [hi]
      cases Theta.identicalSets a.keys b.keys c'.keys.view with
      | true => rfl
      | false =>
        simp only [Bool.false_eq_true, if_false]
        obtain ⟨d, ed, vd, _⟩ := Theta.jaccardInter_spec va vb vc ha hb hce hle hm
        have hk2 := jaccardInter_keys K h' (some sh) a b c'.view
        rw [hv, ed] at hk2
        obtain ⟨⟨d', h''⟩, ed', rfl⟩ := Outcome.map_eq_ok.1 hk2
        rw [ed, ed', Outcome.ok_bind, Outcome.ok_bind]
        dsimp only
        have hd : d'.view.keys = d'.keys.view := view_keys_of_pos fun k hk => (vd.range k hk).1
        rw [show c'.view.hashes = c'.view.keys from rfl, show d'.view.hashes = d'.view.keys from rfl,
          hv, hd]
        cases Theta.jaccardRatios c'.keys.view d'.keys.view <;> rfl
    all_goals exact ⟨rfl, rfl⟩

/-! ## Specification: what the index of two sets of hashes is -/

/-- The index of two sampled sets: bounds in `[0, 1]` around the estimate; certainly one for equal
sets; unknown without any hash below the common theta; otherwise the share of the hashes below the
common theta that both sets have, exact for exact sketches, else with the bounds on a proportion. -/
structure IndexOf (a b : Theta.View) (r : JResult) : Prop where
  nonneg : 0 ≤ r.lower
  lower : r.lower ≤ r.estimate
  upper : r.estimate ≤ r.upper
  le_one : r.upper ≤ 1
  same : Theta.SameContent a b → r = ⟨1, 1, 1⟩
  none : ¬ Theta.SameContent a b → Theta.eitherBelow a b = ∅ → r = ⟨0, 1 / 2, 1⟩
  ratio : ¬ Theta.SameContent a b → Theta.eitherBelow a b ≠ ∅ →
    r.estimate = ((Theta.bothBelow a b).card : ℝ) / (Theta.eitherBelow a b).card
  exact : ¬ Theta.SameContent a b → Theta.eitherBelow a b ≠ ∅ → Theta.commonTheta a b = maxTheta →
    r.lower = r.estimate ∧ r.upper = r.estimate
  bounds : ¬ Theta.SameContent a b → Theta.eitherBelow a b ≠ ∅ → Theta.commonTheta a b ≠ maxTheta →
    Proportion.lowerOnP (Theta.eitherBelow a b).card (Theta.bothBelow a b).card
      (Theta.deviations (Theta.commonTheta a b / maxTheta)) = .ok r.lower ∧
    Proportion.upperOnP (Theta.eitherBelow a b).card (Theta.bothBelow a b).card
      (Theta.deviations (Theta.commonTheta a b / maxTheta)) = .ok r.upper

/-! ## Theorems -/

/-- C97: for two non-empty tuple sketches with at most 2^26 hashes together, whatever their summaries
and whatever the policy does with them, `Jaccard` succeeds with the index of the hashes. -/
theorem C97_jaccard {sh : Nat} {a b : View S} (va : Input sh a) (vb : Input sh b)
    (ha : a.isEmpty = false) (hb : b.isEmpty = false)
    (hsize : a.numRetained + b.numRetained ≤ 2 ^ 26) (h : H) :
    ∃ r h', jaccard K false h (some sh) a b = .ok (r, h') ∧ IndexOf a.keys b.keys r := by
  obtain ⟨r, e, b0, b1, b2, b3, hs, hz, hn⟩ := Theta.C96_jaccard va vb ha hb hsize
  have hk := (jaccard_keys K va vb false h).1
  rw [e] at hk
  obtain ⟨⟨r', h'⟩, e', rfl⟩ := Outcome.map_eq_ok.1 hk
  exact ⟨_, h', e', b0, b1, b2, b3, hs, hz, fun h1 h2 => (hn h1 h2).1, fun h1 h2 => (hn h1 h2).2.1,
    fun h1 h2 => (hn h1 h2).2.2⟩

/-- C97: the trivial cases, in which nothing is touched. -/
theorem C97_trivial (h : H) (sh : Option Nat) (a b : View S) :
    jaccard K true h sh a b = .ok (⟨1, 1, 1⟩, h) ∧ isExactlyEqual K true h sh a b = .ok (true, h) ∧
    (a.isEmpty = true → b.isEmpty = true →
      jaccard K false h sh a b = .ok (⟨1, 1, 1⟩, h) ∧ isExactlyEqual K false h sh a b = .ok (true, h)) ∧
    (a.isEmpty ≠ b.isEmpty →
      jaccard K false h sh a b = .ok (⟨0, 0, 0⟩, h) ∧ isExactlyEqual K false h sh a b = .ok (false, h)) := by
  unfold jaccard isExactlyEqual
  refine ⟨rfl, rfl, fun h1 h2 => by simp [h1, h2], fun h => ?_⟩
  cases h1 : a.isEmpty <;> cases h2 : b.isEmpty <;> simp_all

/-- C97: the index is symmetric, although the policy may not be. -/
theorem C97_symmetric {sh : Nat} {a b : View S} (va : Input sh a) (vb : Input sh b)
    (hsize : a.numRetained + b.numRetained ≤ 2 ^ 26) (h h' : H) :
    (jaccard K false h (some sh) a b).map Prod.fst = (jaccard K false h' (some sh) b a).map Prod.fst := by
  rw [(jaccard_keys K va vb false h).1, (jaccard_keys K vb va false h').1,
    Theta.C96_symmetric va vb hsize]

/-- C97: sketches are exactly equal if and only if they have the same theta and the same hashes; the
summaries do not count. -/
theorem C97_exactly_equal {sh : Nat} {a b : View S} (va : Input sh a) (vb : Input sh b)
    (ha : a.isEmpty = false) (hb : b.isEmpty = false) (hsize : a.numRetained ≤ 2 ^ 26) (h : H) :
    ∃ r h', isExactlyEqual K false h (some sh) a b = .ok (r, h') ∧
      (r = true ↔ Theta.SameContent a.keys b.keys) := by
  obtain ⟨r, e, hr⟩ := Theta.C96_exactly_equal va vb ha hb hsize
  have hk := (jaccard_keys K va vb false h).2
  rw [e] at hk
  obtain ⟨⟨r', h'⟩, e', rfl⟩ := Outcome.map_eq_ok.1 hk
  exact ⟨_, h', e', hr⟩

/-- C97: `IsSimilar` and `IsDissimilar` compare the bounds with the threshold. -/
theorem C97_similar {sh : Nat} {a b : View S} (va : Input sh a) (vb : Input sh b)
    (ha : a.isEmpty = false) (hb : b.isEmpty = false)
    (hsize : a.numRetained + b.numRetained ≤ 2 ^ 26) (threshold : ℝ) (h : H) :
    ∃ r s d h', jaccard K false h (some sh) a b = .ok (r, h') ∧ IndexOf a.keys b.keys r ∧
      isSimilar K false h (some sh) a b threshold = .ok (s, h') ∧
      isDissimilar K false h (some sh) a b threshold = .ok (d, h') ∧
      (s = true ↔ threshold ≤ r.lower) ∧ (d = true ↔ r.upper ≤ threshold) := by
  obtain ⟨r, h', e, hr⟩ := C97_jaccard K va vb ha hb hsize h
  unfold isSimilar isDissimilar
  rw [e]
  exact ⟨r, _, _, h', rfl, hr, rfl, rfl, by simp, by simp⟩

/-- C97: a non-empty sketch of another seed is refused. -/
theorem C97_seed {sh : Nat} {a b : View S} (ha : a.isEmpty = false) (hb : b.isEmpty = false)
    (va : Valid a) (hs : a.seedHash ≠ sh ∨ b.seedHash ≠ sh) (h : H) :
    jaccard K false h (some sh) a b = .err "seed hash mismatch" ∧
    isExactlyEqual K false h (some sh) a b = .err "seed hash mismatch" := by
  have h1 := (Theta.C96_seed (a := a.keys) (b := b.keys) ha hb va hs).2
  have hk := computeUnion_keys K h (some sh) a b
  have e : Theta.computeUnion (some sh) a.keys b.keys = .err "seed hash mismatch" := by
    unfold Theta.isExactlyEqual at h1
    rw [show a.keys.isEmpty = a.isEmpty from rfl, show b.keys.isEmpty = b.isEmpty from rfl, ha, hb] at h1
    simp only [Bool.false_eq_true, if_false, Bool.and_self, Bool.or_self] at h1
    cases hc : Theta.computeUnion (some sh) a.keys b.keys with
    | ok c => rw [hc] at h1; cases h1
    | err m => rw [hc] at h1; cases h1; rfl
    | panic => rw [hc] at h1; cases h1
  rw [e] at hk
  have e2 : computeUnion K h (some sh) a b = .err "seed hash mismatch" := by
    cases hc : computeUnion K h (some sh) a b with
    | ok c => rw [hc] at hk; cases hk
    | err m => rw [hc] at hk; cases hk; rfl
    | panic => rw [hc] at hk; cases hk
  unfold jaccard isExactlyEqual
  simp [ha, hb, e2]

/-! ## What happens to the sketches

Summaries are counters behind pointers and are merged by addition. -/

/-- a sketch with hashes 9 and `k`, counters at the addresses `s` and `t` -/
def two (k s t : Nat) : View Nat := ⟨false, true, maxTheta, 7, 2, [(9, s), (k, t)]⟩

/-- C97, negative part 1: comparing two sketches for equality changes the first one: its counter goes
from 1 to 11. -/
theorem C97_equality_changes_input :
    isExactlyEqual counters false [1, 10] (some 7) (one 0) (one 1) = .ok (true, [11, 10]) := by
  decide +kernel

theorem two_input {k s t : Nat} (h9 : 9 < k) (hk : k < maxTheta) : Input 7 (two k s t) where
  valid := {
    nodup := by simp [two, View.keys]; omega
    range := by
      intro e he
      simp only [two, View.keys, List.map_cons, List.map_nil, List.mem_cons, List.not_mem_nil,
        or_false] at he
      show e ≠ 0 ∧ e < maxTheta
      omega
    num := rfl
    ordered := by simp [two, View.keys, h9]
    theta := by simp [two, View.keys]
    empty := by simp [two, View.keys] }
  seed := rfl
  size := by simp [two, View.keys, Theta.maxRetained]

/-- C97, negative part 2: computing the index changes the first sketch: of the counters 1 and 10 of
the common hash the first one becomes 42 (merged into by the union, by the intersection, and with
itself). -/
theorem C97_jaccard_changes_input :
    ∃ r, jaccard counters false [1, 2, 10, 20] (some 7) (two 11 0 1) (two 13 2 3) =
        .ok (r, [42, 2, 10, 20, 42]) ∧ r.estimate = 1 / 3 := by
  obtain ⟨r, h', e, hr⟩ := C97_jaccard counters (sh := 7) (a := two 11 0 1) (b := two 13 2 3)
    (two_input (by decide) (by decide)) (two_input (by decide) (by decide)) rfl rfl (by decide)
    [1, 2, 10, 20]
  have hns : ¬ Theta.SameContent (two 11 0 1).keys (two 13 2 3).keys := by
    unfold Theta.SameContent Theta.hashSet; decide
  have hE : (Theta.eitherBelow (two 11 0 1).keys (two 13 2 3).keys) = {9, 11, 13} := by decide
  have hB : (Theta.bothBelow (two 11 0 1).keys (two 13 2 3).keys) = {9} := by decide
  have hest := hr.ratio hns (by rw [hE]; decide)
  rw [hE, hB] at hest
  refine ⟨r, ?_, by rw [hest]; simp⟩
  rw [e]
  have hid : ((computeUnion counters [1, 2, 10, 20] (some 7) (two 11 0 1) (two 13 2 3)).bind fun u =>
      .ok (identicalSets (two 11 0 1) (two 13 2 3) u.1.view)) = .ok false := by decide +kernel
  have hmem : ((computeUnion counters [1, 2, 10, 20] (some 7) (two 11 0 1) (two 13 2 3)).bind fun u =>
      (jaccardInter counters u.2 (some 7) (two 11 0 1) (two 13 2 3) u.1.view).bind fun i => .ok i.2) =
        .ok [42, 2, 10, 20, 42] := by decide +kernel
  unfold jaccard at e
  cases hc : computeUnion counters [1, 2, 10, 20] (some 7) (two 11 0 1) (two 13 2 3) with
  | err m => rw [hc] at hid; cases hid
  | panic => rw [hc] at hid; cases hid
  | ok u =>
    rw [hc] at hid hmem e
    have hid' : identicalSets (two 11 0 1) (two 13 2 3) u.1.view = false := Outcome.ok.inj hid
    have e2 : jaccardWith counters u.2 (some 7) (two 11 0 1) (two 13 2 3) u.1.view = .ok (r, h') := e
    unfold jaccardWith at e2
    rw [hid'] at e2
    have hm2 : ((jaccardInter counters u.2 (some 7) (two 11 0 1) (two 13 2 3) u.1.view).bind
      fun i => .ok i.2) = .ok [42, 2, 10, 20, 42] := hmem
    cases hi : jaccardInter counters u.2 (some 7) (two 11 0 1) (two 13 2 3) u.1.view with
    | err m => rw [hi] at hm2; cases hm2
    | panic => rw [hi] at hm2; cases hm2
    | ok i =>
      rw [hi] at hm2 e2
      have hm3 : i.2 = [42, 2, 10, 20, 42] := Outcome.ok.inj hm2
      simp only [Bool.false_eq_true, if_false, Outcome.ok_bind] at e2
      cases hr2 : Theta.jaccardRatios u.1.view.hashes i.1.view.hashes with
      | err m => rw [hr2] at e2; cases e2
      | panic => rw [hr2] at e2; cases e2
      | ok q =>
        rw [hr2] at e2
        have := Outcome.ok.inj e2
        rw [← hm3, ← (Prod.mk.inj this).2]

end Verif.Tuple
