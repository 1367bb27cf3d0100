import Verif.CpcModel
import Verif.ProbeGrow
import Verif.Loops
import Mathlib.Data.Finset.Card
import Mathlib.Data.Finset.Insert

/-!
# The pair table of the CPC sketch stores a set of coupons

`PTInv p vb S`: the table `p` holds exactly the numbers `S`, all below `2^vb`.  Insertion and
deletion realise `insert` and `erase`; insertion can fail only when the table would have to exceed
`2^26` slots or `2^vb` slots.
-/

namespace Verif.Cpc

open Probe Outcome

theorem and_mask (x n : Nat) : x &&& (2 ^ n - 1) = x % 2 ^ n := Nat.and_two_pow_sub_one_eq_mod x n

/-- the probing scheme of the pair table -/
def sch (vb lg : Nat) : Scheme (Option Nat) where
  emp := fun e => e.isNone
  key := fun e => e.getD 0
  size := 2 ^ lg
  start := fun k => (k >>> (vb - lg)) % 2 ^ lg
  next := fun _ p => (p + 1) &&& (2 ^ lg - 1)

def one (_ : Nat) : Nat := 1

theorem sch_ok (vb lg : Nat) : (sch vb lg).Ok lg one where
  size_eq := rfl
  start_lt := fun _ => Nat.mod_lt _ (Nat.two_pow_pos _)
  odd := fun _ => rfl
  next_eq := fun _ i _ => and_mask (i + 1) lg

theorem start_eq {vb lg x : Nat} (h : lg ≤ vb) (hx : x < 2 ^ vb) :
    (sch vb lg).start x = x >>> (vb - lg) := by
  show (x >>> (vb - lg)) % 2 ^ lg = _
  apply Nat.mod_eq_of_lt
  rw [Nat.shiftRight_eq_div_pow, Nat.div_lt_iff_lt_mul (Nat.two_pow_pos _), ← pow_add,
    Nat.add_sub_cancel' h]
  exact hx

theorem probeLoop_of_findLoop {slots : List (Option Nat)} {lg vb x s : Nat} :
    ∀ (fuel i r : Nat),
      (findLoop (sch vb lg).emp (fun e => (sch vb lg).key e == x) ((sch vb lg).next x) s slots fuel i
          = .found r ∨
       findLoop (sch vb lg).emp (fun e => (sch vb lg).key e == x) ((sch vb lg).next x) s slots fuel i
          = .empty r) →
      probeLoop slots (2 ^ lg - 1) x fuel i = .ok r := by
  intro fuel
  induction fuel with
  | zero => intro i r h; rcases h with h | h <;> cases h
  | succ n ih =>
    intro i r h
    unfold findLoop at h
    unfold probeLoop
    cases hs : slots[i]? with
    | none => rw [hs] at h; rcases h with h | h <;> cases h
    | some e =>
      rw [hs] at h
      cases e with
      | none =>
        simp only [sch, Option.isNone_none, if_true] at h
        rcases h with h | h
        · cases h
        · simp only [Res.empty.injEq] at h
          simp [h]
      | some y =>
        simp only [if_neg (show ¬ (sch vb lg).emp (some y) = true by simp [sch])] at h
        by_cases hy : y = x
        · subst hy
          simp only [if_pos (show ((sch vb lg).key (some y) == y) = true by simp [sch])] at h
          rcases h with h | h
          · simp only [Res.found.injEq] at h
            simp [h]
          · cases h
        · simp only [if_neg (show ¬ ((sch vb lg).key (some y) == x) = true by simpa [sch] using hy)] at h
          simp only [ne_eq, Option.some.injEq, hy, not_false_eq_true, reduceCtorEq, and_self, if_true]
          apply ih
          by_cases hst : (sch vb lg).next x i = s
          · rw [if_pos hst] at h; rcases h with h | h <;> cases h
          · rw [if_neg hst] at h; exact h

/-- The slots hold exactly `S`. -/
structure Core (vb lg : Nat) (slots : List (Option Nat)) (S : Finset Nat) : Prop where
  lgvb : lg ≤ vb
  chain : Chain (sch vb lg) one slots
  mem : ∀ x, some x ∈ slots ↔ x ∈ S
  valid : ∀ x ∈ S, x < 2 ^ vb

section
variable {vb lg : Nat} {slots : List (Option Nat)} {S : Finset Nat}

theorem Core.len (h : Core vb lg slots S) : slots.length = 2 ^ lg := h.chain.len

theorem items_eq_map (slots : List (Option Nat)) :
    (sch vb lg).items slots = (slots.filterMap id).map some := by
  unfold Scheme.items
  induction slots with
  | nil => rfl
  | cons a t ih =>
    cases a with
    | none => simpa [sch, List.filter_cons] using ih
    | some x => simpa [sch, List.filter_cons] using ih

theorem Core.card (h : Core vb lg slots S) : ((sch vb lg).items slots).length = S.card := by
  have h1 := h.chain.keys_nodup
  rw [items_eq_map, List.map_map] at h1
  have h2 : (slots.filterMap id).map ((sch vb lg).key ∘ some) = slots.filterMap id := by
    conv_rhs => rw [← List.map_id (slots.filterMap id)]
    rfl
  rw [h2] at h1
  rw [items_eq_map, List.length_map, ← List.toFinset_card_of_nodup h1]
  congr 1
  ext x
  rw [List.mem_toFinset, List.mem_filterMap, ← h.mem x]
  simp

theorem Core.empty (h : lg ≤ vb) : Core vb lg (List.replicate (2 ^ lg) none) ∅ where
  lgvb := h
  chain := Chain.empty rfl
  mem := by intro x; simp [List.mem_replicate]
  valid := by simp

theorem Core.locate_mem (h : Core vb lg slots S) {num x : Nat} (hx : x ∈ S) :
    ∃ i, locate ⟨lg, vb, num, slots⟩ x = .ok i ∧ slots[i]? = some (some x) := by
  obtain ⟨p, hp⟩ := List.mem_iff_getElem?.mp ((h.mem x).mpr hx)
  have hf := h.chain.find_present (sch_ok vb lg) hp rfl
  refine ⟨p, ?_, hp⟩
  unfold locate
  rw [if_neg (Nat.not_lt.mpr h.lgvb)]
  have := probeLoop_of_findLoop (slots := slots) (lg := lg) (vb := vb) (x := x) _ _ _ (Or.inl hf)
  rw [show (sch vb lg).key (some x) = x from rfl, start_eq h.lgvb (h.valid x hx)] at this
  exact this

theorem Core.locate_not_mem (h : Core vb lg slots S) {num x : Nat} (hx : x ∉ S) (hv : x < 2 ^ vb)
    (hc : S.card < 2 ^ lg) :
    ∃ i, locate ⟨lg, vb, num, slots⟩ x = .ok i ∧ slots[i]? = some none ∧
      Core vb lg (slots.set i (some x)) (insert x S) := by
  have habs : ∀ (p : Nat) (e : Option Nat), slots[p]? = some e → (sch vb lg).emp e = false →
      (sch vb lg).key e ≠ x := by
    intro p e hp he hk
    cases e with
    | none => cases he
    | some y =>
      have hk' : y = x := hk
      subst hk'
      exact hx ((h.mem y).mp (List.mem_of_getElem? hp))
  have hfree : ∃ (p : Nat) (e : Option Nat), slots[p]? = some e ∧ (sch vb lg).emp e = true :=
    items_length_lt_of_free.mpr (by rw [h.card, h.len]; exact hc)
  obtain ⟨i, e, hi, hp, he, hocc, hfind⟩ := Chain.find_absent h.chain.len (sch_ok vb lg) x habs hfree
  have hen : e = none := by cases e with
    | none => rfl
    | some y => cases he
  subst hen
  have hfind' : (sch vb lg).find slots ((sch vb lg).key (some x)) =
      .empty ((sch vb lg).pos one x i) := hfind
  refine ⟨(sch vb lg).pos one x i, ?_, hp, h.lgvb, h.chain.insert (sch_ok vb lg) rfl hfind', ?_, ?_⟩
  · unfold locate
    rw [if_neg (Nat.not_lt.mpr h.lgvb)]
    have := probeLoop_of_findLoop (slots := slots) (lg := lg) (vb := vb) (x := x) _ _ _ (Or.inr hfind)
    rw [start_eq h.lgvb hv] at this
    exact this
  · intro y
    have h1 := items_set_empty (s := sch vb lg) (e := some x) hp rfl rfl
    have h2 : ∀ (l : List (Option Nat)) (z : Nat), some z ∈ (sch vb lg).items l ↔ some z ∈ l := by
      intro l z
      unfold Scheme.items
      rw [List.mem_filter]
      simp [sch]
    rw [← h2, h1.mem_iff, List.mem_cons, h2, h.mem, Finset.mem_insert, Option.some.injEq]
  · intro y hy
    rcases Finset.mem_insert.mp hy with rfl | hy
    · exact hv
    · exact h.valid y hy

end

/-- The table `p` holds exactly the set `S`. -/
structure PTInv (p : PT) (vb : Nat) (S : Finset Nat) : Prop where
  vbeq : p.vb = vb
  lg2 : 2 ≤ p.lg
  lg26 : p.lg ≤ 26
  core : Core vb p.lg p.slots S
  num : p.num = S.card
  load : 4 * S.card ≤ 3 * 2 ^ p.lg

variable {p : PT} {vb : Nat} {S : Finset Nat}

theorem PTInv.card_lt (h : PTInv p vb S) : S.card < 2 ^ p.lg := by
  have := h.load
  have := Nat.two_pow_pos p.lg
  omega

theorem PTInv.eta (h : PTInv p vb S) : p = ⟨p.lg, vb, p.num, p.slots⟩ := by
  cases p; simp [← h.vbeq]

theorem checkLg_ok {lg : Nat} (h2 : 2 ≤ lg) (h26 : lg ≤ 26) : checkLg lg = .ok () := by
  unfold checkLg; rw [if_neg (by omega)]

theorem PTInv.new {lg vb : Nat} (h2 : 2 ≤ lg) (h26 : lg ≤ 26) (hv : lg ≤ vb) :
    ∃ p, newPT lg vb = .ok p ∧ PTInv p vb ∅ ∧ p.lg = lg := by
  refine ⟨⟨lg, vb, 0, List.replicate (2 ^ lg) none⟩, ?_, ?_, rfl⟩
  · unfold newPT; rw [checkLg_ok h2 h26]; rfl
  · exact ⟨rfl, h2, h26, Core.empty hv, rfl, by simp⟩

theorem PTInv.clear (h : PTInv p vb S) : PTInv p.clear vb ∅ := by
  have : p.slots.map (fun _ => (none : Option Nat)) = List.replicate (2 ^ p.lg) none := by
    rw [List.map_const', h.core.len]
  refine ⟨h.vbeq, h.lg2, h.lg26, ?_, rfl, by simp⟩
  show Core vb p.lg (p.slots.map fun _ => none) ∅
  rw [this]
  exact Core.empty h.core.lgvb

theorem maybeInsertF_mem (h : PTInv p vb S) {x : Nat} (hx : x ∈ S) (f : Nat) :
    maybeInsertF (f + 1) p x = .ok (p, false) := by
  obtain ⟨i, hl, hs⟩ := h.core.locate_mem (num := p.num) hx
  rw [← h.eta] at hl
  unfold maybeInsertF
  rw [hl, ok_bind, if_pos hs]

/-- `maybeInsert` up to the enlargement -/
theorem maybeInsertF_not_mem (h : PTInv p vb S) {x : Nat} (hx : x ∉ S) (hv : x < 2 ^ vb) (f : Nat) :
    ∃ slots, Core vb p.lg slots (insert x S) ∧
      maybeInsertF (f + 1) p x =
        (growLoop (rebuildWith (maybeInsertF f)) 64 ⟨p.lg, vb, S.card + 1, slots⟩) >>= fun p =>
          .ok (p, true) := by
  obtain ⟨i, hl, hs, hc⟩ := h.core.locate_not_mem (num := p.num) hx hv h.card_lt
  rw [← h.eta] at hl
  refine ⟨p.slots.set i (some x), hc, ?_⟩
  unfold maybeInsertF
  rw [hl, ok_bind, if_neg (by rw [hs]; simp), h.num, h.vbeq]

theorem maybeInsertF_room (h : PTInv p vb S) {x : Nat} (hx : x ∉ S) (hv : x < 2 ^ vb) (f : Nat)
    (hroom : 4 * (S.card + 1) ≤ 3 * 2 ^ p.lg) :
    ∃ p', maybeInsertF (f + 1) p x = .ok (p', true) ∧ PTInv p' vb (insert x S) ∧ p'.lg = p.lg := by
  obtain ⟨slots, hc, he⟩ := maybeInsertF_not_mem h hx hv f
  have hcard : (insert x S).card = S.card + 1 := Finset.card_insert_of_notMem hx
  refine ⟨⟨p.lg, vb, S.card + 1, slots⟩, ?_, ⟨rfl, h.lg2, h.lg26, hc, hcard.symm, by rw [hcard]; exact hroom⟩, rfl⟩
  rw [he]
  unfold growLoop
  rw [if_neg (by show ¬ (4 * (S.card + 1) > 3 * 2 ^ p.lg); omega)]
  rfl

/-- The insertion loop of `rebuild` when there is room for everything. -/
theorem rebuild_fold {T : Finset Nat} (f : Nat) (hT : ∀ x ∈ T, x < 2 ^ vb) :
    ∀ (l : List (Option Nat)) (q : PT) (S : Finset Nat), PTInv q vb S → S ⊆ T →
      (∀ x, some x ∈ l → x ∈ T) → 4 * T.card ≤ 3 * 2 ^ q.lg →
      ∃ q', l.foldlM (insStep (maybeInsertF (f + 1))) q = .ok q' ∧ q'.lg = q.lg ∧
        PTInv q' vb (S ∪ (l.filterMap id).toFinset) := by
  intro l
  induction l with
  | nil => intro q S h _ _ _; exact ⟨q, rfl, rfl, by simpa using h⟩
  | cons a l ih =>
    intro q S h hST hl hroom
    rw [List.foldlM_cons]
    cases a with
    | none =>
      obtain ⟨q', h1, h2, h3⟩ := ih q S h hST (fun x hx => hl x (List.mem_cons_of_mem _ hx)) hroom
      exact ⟨q', h1, h2, by simpa using h3⟩
    | some x =>
      have hxT := hl x List.mem_cons_self
      have hl' : ∀ y, some y ∈ l → y ∈ T := fun y hy => hl y (List.mem_cons_of_mem _ hy)
      have hset : S ∪ ((some x :: l).filterMap id).toFinset =
          insert x S ∪ (l.filterMap id).toFinset := by
        ext y; simp
      rw [hset]
      by_cases hx : x ∈ S
      · show ∃ q', ((maybeInsertF (f + 1) q x >>= fun r => Outcome.ok r.1) >>= fun q => _) = _ ∧ _
        rw [maybeInsertF_mem h hx f, ok_bind, ok_bind, Finset.insert_eq_self.mpr hx]
        exact ih q S h hST hl' hroom
      · have hle : (insert x S).card ≤ T.card :=
          Finset.card_le_card (Finset.insert_subset hxT hST)
        rw [Finset.card_insert_of_notMem hx] at hle
        obtain ⟨q1, e1, h1, hlg⟩ := maybeInsertF_room h hx (hT x hxT) f (by omega)
        show ∃ q', ((maybeInsertF (f + 1) q x >>= fun r => Outcome.ok r.1) >>= fun q => _) = _ ∧ _
        rw [e1, ok_bind, ok_bind]
        obtain ⟨q', h2, h3, h4⟩ := ih q1 (insert x S) h1 (Finset.insert_subset hxT hST) hl'
          (by rw [hlg]; exact hroom)
        exact ⟨q', h2, by rw [h3, hlg], h4⟩

theorem filterMap_toFinset {lg : Nat} {slots : List (Option Nat)} (h : Core vb lg slots S) :
    (slots.filterMap id).toFinset = S := by
  ext x
  rw [List.mem_toFinset, List.mem_filterMap, ← h.mem x]
  simp

theorem rebuildWith_spec {lg newLg : Nat} {slots : List (Option Nat)} (h : Core vb lg slots S)
    (f : Nat) (h2 : 2 ≤ newLg) (h26 : newLg ≤ 26) (hv : newLg ≤ vb)
    (hroom : 4 * S.card ≤ 3 * 2 ^ newLg) :
    ∃ p', rebuildWith (maybeInsertF (f + 1)) ⟨lg, vb, S.card, slots⟩ newLg = .ok p' ∧
      p'.lg = newLg ∧ PTInv p' vb S := by
  unfold rebuildWith
  rw [checkLg_ok h2 h26, ok_bind]
  have hpos := Nat.two_pow_pos newLg
  rw [if_neg (by show ¬ (2 ^ newLg ≤ S.card); omega)]
  have htake : slots.take (2 ^ lg) = slots := List.take_of_length_le (by rw [h.len])
  show ∃ p', List.foldlM _ _ (slots.take (2 ^ lg)) = _ ∧ _
  rw [htake]
  obtain ⟨q', h3, h4, h5⟩ := rebuild_fold (vb := vb) (T := S) f h.valid slots
    ⟨newLg, vb, 0, List.replicate (2 ^ newLg) none⟩ ∅
    ⟨rfl, h2, h26, Core.empty hv, rfl, by simp⟩ (by simp) (fun x hx => (h.mem x).mp hx) hroom
  refine ⟨q', h3, h4, ?_⟩
  rw [filterMap_toFinset h, Finset.empty_union] at h5
  exact h5

/-- A rebuild beyond the limits does not succeed. -/
theorem rebuildWith_fail {lg newLg : Nat} {slots : List (Option Nat)} (h : Core vb lg slots S)
    (f : Nat) (hbad : 26 < newLg ∨ vb < newLg) (hne : 0 < S.card) :
    ∀ r, rebuildWith (maybeInsertF (f + 1)) ⟨lg, vb, S.card, slots⟩ newLg ≠ .ok r := by
  intro r hr
  unfold rebuildWith at hr
  rcases hbad with hb | hb
  · unfold checkLg at hr
    rw [if_pos (by omega), err_bind] at hr
    cases hr
  · obtain ⟨_, _, hr⟩ := Outcome.bind_eq_ok.mp hr
    split at hr
    · cases hr
    · have htake : slots.take (2 ^ lg) = slots := List.take_of_length_le (by rw [h.len])
      obtain ⟨x, hx⟩ := Finset.card_pos.mp hne
      have hm := (h.mem x).mpr hx
      have key : ∀ (l : List (Option Nat)) (q : PT), some x ∈ l → q.vb < q.lg →
          l.foldlM (insStep (maybeInsertF (f + 1))) q = .panic := by
        intro l
        induction l with
        | nil => intro q hx; simp at hx
        | cons a l ih =>
          intro q hx hq
          rw [List.foldlM_cons]
          cases a with
          | none => exact ih q (by simpa using hx) hq
          | some y =>
            have : maybeInsertF (f + 1) q y = .panic := by
              unfold maybeInsertF locate
              rw [if_pos hq]; rfl
            show ((maybeInsertF (f + 1) q y >>= fun r => Outcome.ok r.1) >>= fun q => _) = _
            rw [this]; rfl
      have hr' : List.foldlM _ _ (slots.take (2 ^ lg)) = _ := hr
      rw [htake] at hr'
      exact absurd (hr'.symm.trans (key slots _ hm hb)) (by simp)

/-- `maybeInsert` of a number that is already there -/
theorem maybeInsert_mem (h : PTInv p vb S) {x : Nat} (hx : x ∈ S) :
    maybeInsert p x = .ok (p, false) := maybeInsertF_mem h hx 1

/-- the largest number of pairs that fits -/
def Cap (vb n : Nat) : Prop := 4 * n ≤ 3 * 2 ^ (min 26 vb)

/-- `maybeInsert` of a new number: it is added, unless the table is at its limit. -/
theorem maybeInsert_spec (h : PTInv p vb S) {x : Nat} (hx : x ∉ S) (hv : x < 2 ^ vb) :
    (Cap vb (S.card + 1) ∧ ∃ p', maybeInsert p x = .ok (p', true) ∧ PTInv p' vb (insert x S)) ∨
    (¬ Cap vb (S.card + 1) ∧ ∀ r, maybeInsert p x ≠ .ok r) := by
  have hmin : p.lg ≤ min 26 vb := by have := h.lg26; have := h.core.lgvb; omega
  have hpow : 2 ^ p.lg ≤ 2 ^ min 26 vb := Nat.pow_le_pow_right (by omega) hmin
  by_cases hroom : 4 * (S.card + 1) ≤ 3 * 2 ^ p.lg
  · left
    obtain ⟨p', h1, h2, _⟩ := maybeInsertF_room h hx hv 1 hroom
    exact ⟨by unfold Cap; omega, p', h1, h2⟩
  · obtain ⟨slots, hc, he⟩ := maybeInsertF_not_mem h hx hv 1
    have hcard : (insert x S).card = S.card + 1 := Finset.card_insert_of_notMem hx
    rw [show maybeInsert p x = maybeInsertF 2 p x from rfl, he]
    unfold growLoop
    rw [if_pos (by show 4 * (S.card + 1) > 3 * 2 ^ p.lg; omega)]
    by_cases hlim : p.lg + 1 ≤ min 26 vb
    · left
      have hp1 : 2 ^ (p.lg + 1) ≤ 2 ^ min 26 vb := Nat.pow_le_pow_right (by omega) hlim
      have hload := h.load
      have hfour : 4 ≤ 2 ^ p.lg := Nat.pow_le_pow_right (n := 2) (by omega) h.lg2
      have hr : 4 * (insert x S).card ≤ 3 * 2 ^ (p.lg + 1) := by rw [hcard, pow_succ]; omega
      refine ⟨by unfold Cap; omega, ?_⟩
      obtain ⟨p', h1, h2, h3⟩ := rebuildWith_spec hc 0 (by have := h.lg2; omega) (by omega) (by omega) hr
      rw [hcard] at h1
      refine ⟨p', ?_, h3⟩
      rw [h1, ok_bind]
      unfold growLoop
      rw [if_neg (by rw [h2, h3.num]; omega)]
      rfl
    · right
      have hlg : p.lg = min 26 vb := by omega
      refine ⟨by unfold Cap; rw [← hlg]; omega, ?_⟩
      have hf := rebuildWith_fail (newLg := p.lg + 1) hc 0 (by omega) (by omega)
      rw [hcard] at hf
      intro r hr
      obtain ⟨a, ha, _⟩ := Outcome.bind_eq_ok.mp hr
      obtain ⟨b, hb, _⟩ := Outcome.bind_eq_ok.mp ha
      exact hf b hb

end Verif.Cpc
