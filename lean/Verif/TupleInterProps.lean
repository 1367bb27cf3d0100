import Verif.TupleUnionProps
import Verif.ThetaInterProps

/-!
# C56: intersection of tuple sketches

The hashes are those of the theta intersection (C09); the summary of a hash is the merge, in the
order of the updates, of the summaries of all inputs for that hash.  The first input's summaries are
stored without cloning, so with summaries behind pointers the first input changes.
-/

namespace Verif.Tuple

open Probe HashTable
open Theta (maxTheta lgSizeFromCount pred8)

def irun {H S V : Type} (K : Kind H S V) (sh : Option Nat) :
    Inter S → H → List (View S) → Outcome (Inter S × H)
  | s, h, [] => .ok (s, h)
  | s, h, v :: vs => do let (s, h) ← s.update K h sh v; irun K sh s h vs

section
variable {H S V σ : Type} {K : Kind H S V} {read : H → S → σ} {new : σ} {upd : σ → V → σ}
  {app : σ → σ → σ} {own : H → List S → Prop}

theorem vals_unique (rd : S → σ) : ∀ {l : List (Entry S)} {e : Entry S}, e ∈ l →
    (l.map Prod.fst).Nodup → vals rd e.1 l = [rd e.2] := by
  intro l
  induction l with
  | nil => intro e he; simp at he
  | cons a l ih =>
    intro e he hnd
    rw [List.map_cons, List.nodup_cons] at hnd
    rcases List.mem_cons.mp he with rfl | he
    · rw [vals_cons_eq _ rfl, vals_nil]
      intro x hx hxe
      exact hnd.1 (List.mem_map.mpr ⟨x, hx, hxe⟩)
    · rw [vals_cons_ne, ih he hnd.2]
      intro hh
      exact hnd.1 (List.mem_map.mpr ⟨e, he, hh.symm⟩)

/-- both filling loops put exactly the given entries into a table that is large enough -/
theorem fill_spec : ∀ (es : List (Entry S)) (t : Tbl S), Plain (elem K) t → (es.map Prod.fst).Nodup →
    (∀ e ∈ es, e.1 ≠ 0) → (∀ e ∈ es, e.1 ∉ (all t).map Prod.fst) →
    (all t).length + es.length ≤ 15 * 2 ^ t.lgCur / 16 →
    ∃ t', interCopy K es t = .ok t' ∧ interFill K es t = .ok t' ∧ Plain (elem K) t' ∧
      SameShape t t' ∧ (all t').Perm (es ++ all t) := by
  intro es
  induction es with
  | nil => intro t h _ _ _ _; exact ⟨t, rfl, rfl, h, SameShape.refl t, List.Perm.refl _⟩
  | cons e es ih =>
    intro t h hnd hnz hdis hroom
    rw [List.length_cons] at hroom
    have h2 := Nat.two_pow_pos t.lgCur
    have habs : ∀ x ∈ itemsOf (elem K) t.entries, (elem K).key x ≠ e.1 := by
      intro x hx hk
      exact hdis e (by simp) (List.mem_map.mpr ⟨x, hx, hk⟩)
    have hh : (itemsOf (elem K) t.entries).length = (all t).length := rfl
    obtain ⟨p, hf⟩ := h.find_absent habs (by omega)
    obtain ⟨t1, e1, i1, s1, p1⟩ := h.insert (e := e) (hnz e (by simp)) hf (by omega)
    have p1' : (all t1).Perm (e :: all t) := p1
    rw [List.map_cons, List.nodup_cons] at hnd
    obtain ⟨t2, e2, e2', i2, s2, p2⟩ := ih t1 i1 hnd.2 (fun x hx => hnz x (by simp [hx])) (by
      intro x hx hx1
      have := (p1'.map Prod.fst).mem_iff.mp hx1
      rw [List.map_cons] at this
      rcases List.mem_cons.mp this with hxe | hx1
      · exact hnd.1 (List.mem_map.mpr ⟨x, hx, hxe⟩)
      · exact hdis x (by simp [hx]) hx1) (by
      rw [p1'.length_eq, s1.lgCur, List.length_cons]; omega)
    refine ⟨t2, ?_, ?_, i2, s1.trans s2, ?_⟩
    · unfold interCopy; rw [hf]; simp only [e1, Outcome.ok_bind]; exact e2
    · unfold interFill; rw [hf]; simp only [e1, Outcome.ok_bind]; exact e2'
    · refine p2.trans ((List.Perm.append_left es p1').trans ?_)
      rw [List.cons_append]
      exact List.perm_middle

/-- filling a fresh table -/
theorem fill_new (es : List (Entry S)) (th : Nat) (em : Bool) (hnd : (es.map Prod.fst).Nodup)
    (hnz : ∀ e ∈ es, e.1 ≠ 0) (h1 : es.length ≠ 0) (h2 : es.length ≤ Theta.maxRetained) :
    ∃ t', interCopy K es (Table.new (elem K) (lgSizeFromCount es.length)
        (pred8 (lgSizeFromCount es.length)) 0 maxTheta th em) = .ok t' ∧
      interFill K es (Table.new (elem K) (lgSizeFromCount es.length)
        (pred8 (lgSizeFromCount es.length)) 0 maxTheta th em) = .ok t' ∧ (all t').Perm es := by
  obtain ⟨l1, l2, l3⟩ := Theta.lgSize_spec (Nat.one_le_iff_ne_zero.mpr h1) h2
  obtain ⟨pl, it⟩ := plain_new (E := elem K) (lg := lgSizeFromCount es.length)
    (nom := pred8 (lgSizeFromCount es.length)) (rf := 0) (st := maxTheta) (th := th)
    (em := em) l1 (by omega) (Or.inl (by unfold pred8; omega))
  have it' : all (Table.new (elem K) (lgSizeFromCount es.length)
    (pred8 (lgSizeFromCount es.length)) 0 maxTheta th em) = [] := it
  obtain ⟨t', a, b, -, -, p⟩ := fill_spec es _ pl hnd hnz (by rw [it']; simp) (by
    rw [it']; simpa [Table.new] using l3)
  rw [it', List.append_nil] at p
  exact ⟨t', a, b, p⟩

variable (L : Laws K read new upd app own)
include L

theorem interMatch_sums (ord : Bool) (mm : Nat) : ∀ (es : List (Entry S)) (t : Tbl S) (h : H)
    (ms : List (Entry S)) (count : Nat) (F : List S) (ms' : List (Entry S)) (c' : Nat) (h' : H),
    ((all t).map Prod.fst).Nodup → (es.map Prod.fst).Nodup → (∀ e ∈ es, e.1 ≠ 0) →
    own h ((all t).map Prod.snd ++ (es.map Prod.snd ++ F)) →
    (∀ m ∈ ms, m ∈ all t ∧ m.1 ∉ es.map Prod.fst) → (ms.map Prod.fst).Nodup →
    interMatch K ord mm es t h ms count = .ok (ms', c', h') →
    own h' (ms'.map Prod.snd ++ F) ∧ (∀ x ∈ F, read h' x = read h x) ∧ (ms'.map Prod.fst).Nodup ∧
    ms'.length ≤ ms.length + es.length ∧
    ∀ m ∈ ms', (m ∈ ms ∧ read h' m.2 = read h m.2) ∨
      ∃ x ∈ all t, ∃ e ∈ es, x.1 = m.1 ∧ e.1 = m.1 ∧ m.1 ≠ 0 ∧
        read h' m.2 = app (read h x.2) (read h e.2) := by
  intro es
  have base : ∀ (t : Tbl S) (h : H) (ms es : List (Entry S)) (F : List S),
      own h ((all t).map Prod.snd ++ (es.map Prod.snd ++ F)) → (∀ m ∈ ms, m ∈ all t) →
      (ms.map Prod.fst).Nodup → own h (ms.map Prod.snd ++ F) := by
    intro t h ms es F ho hm hn
    refine L.sub _ _ _ ho ?_
    have hnd : ms.Nodup := List.Nodup.of_map _ hn
    obtain ⟨l, l1, l2⟩ := List.subperm_of_subset hnd (fun m hmm => hm m hmm)
    have h1 : (ms.map Prod.snd).Subperm ((all t).map Prod.snd) := ⟨l.map _, l1.map _, l2.map _⟩
    exact ((List.subperm_append_right F).mpr h1).trans
      ((List.sublist_append_right _ _).append_left _).subperm
  induction es with
  | nil =>
    intro t h ms count F ms' c' h' _ _ _ ho hm hn e
    simp only [interMatch, Outcome.ok.injEq, Prod.mk.injEq] at e
    obtain ⟨rfl, rfl, rfl⟩ := e
    exact ⟨base t h ms [] F ho (fun m hmm => (hm m hmm).1) hn, fun _ _ => rfl, hn, by simp,
      fun m hmm => Or.inl ⟨hmm, rfl⟩⟩
  | cons e0 es ih =>
    intro t h ms count F ms' c' h' htn hnd hnz ho hm hn e
    rw [List.map_cons, List.nodup_cons] at hnd
    have hnz' : ∀ e ∈ es, e.1 ≠ 0 := fun x hx => hnz x (by simp [hx])
    have hm' : ∀ m ∈ ms, m ∈ all t ∧ m.1 ∉ es.map Prod.fst := fun m hmm =>
      ⟨(hm m hmm).1, fun hh => (hm m hmm).2 (by simp [hh])⟩
    have hskip : own h ((all t).map Prod.snd ++ (es.map Prod.snd ++ F)) := by
      refine L.sub _ _ _ ho ?_
      simp only [List.map_cons, List.cons_append]
      exact ((List.sublist_cons_self _ _).append_left _).subperm
    -- cases in which the entry is passed over
    have skip : interMatch K ord mm es t h ms (count + 1) = .ok (ms', c', h') →
        own h' (ms'.map Prod.snd ++ F) ∧ (∀ x ∈ F, read h' x = read h x) ∧
        (ms'.map Prod.fst).Nodup ∧ ms'.length ≤ ms.length + (e0 :: es).length ∧
        ∀ m ∈ ms', (m ∈ ms ∧ read h' m.2 = read h m.2) ∨
          ∃ x ∈ all t, ∃ e ∈ e0 :: es, x.1 = m.1 ∧ e.1 = m.1 ∧ m.1 ≠ 0 ∧
            read h' m.2 = app (read h x.2) (read h e.2) := by
      intro e
      obtain ⟨a, b, c, d, f⟩ := ih t h ms (count + 1) F ms' c' h' htn hnd.2 hnz' hskip hm' hn e
      refine ⟨a, b, c, by rw [List.length_cons]; omega, fun m hmm => ?_⟩
      rcases f m hmm with g | ⟨x, hx, y, hy, g⟩
      · exact Or.inl g
      · exact Or.inr ⟨x, hx, y, by simp [hy], g⟩
    unfold interMatch at e
    by_cases hlt : e0.1 < t.theta
    · rw [if_pos hlt] at e
      cases hf : t.find (elem K) e0.1 with
      | panic => rw [hf] at e; cases e
      | empty i => rw [hf] at e; exact skip e
      | full => rw [hf] at e; exact skip e
      | found i =>
        rw [hf] at e
        simp only at e
        obtain ⟨x0, hx, hx0, hxk⟩ := find_found_get (elem K) hf
        by_cases hmm : ms.length = mm
        · rw [if_pos hmm] at e; cases e
        rw [if_neg hmm, hx] at e
        simp only at e
        have hx1 : x0.1 = e0.1 := by first | exact hxk | exact hx0
        have he0 : (elem K).key x0 ≠ 0 := by
          show x0.1 ≠ 0
          rw [hx1]; exact hnz e0 (by simp)
        obtain ⟨rest, p1, p2⟩ := itemsOf_set (E := elem K) hx he0
          (e' := (x0.1, (K.merge h x0.2 e0.2).1)) rfl
        have p1' : (all t).Perm (x0 :: rest) := p1
        have hmem : x0 ∈ all t := p1'.mem_iff.mpr (by simp)
        have hnt := (p1'.map Prod.fst).nodup_iff.mp htn
        rw [List.map_cons, List.nodup_cons] at hnt
        have hown : own h (x0.2 :: (rest.map Prod.snd ++ (e0.2 :: (es.map Prod.snd ++ F)))) := by
          refine L.perm ho ?_
          have := (p1'.map Prod.snd).append_right ((e0 :: es).map Prod.snd ++ F)
          simp only [List.map_cons, List.cons_append] at this ⊢
          exact this.symm
        obtain ⟨u1, u2, u3⟩ := L.merge h x0.2 e0.2 _ hown (by simp)
        obtain ⟨s, hs⟩ : ∃ s, s = (K.merge h x0.2 e0.2).1 := ⟨_, rfl⟩
        obtain ⟨h2, hh2⟩ : ∃ h2, h2 = (K.merge h x0.2 e0.2).2 := ⟨_, rfl⟩
        rw [← hs, ← hh2] at u1 u2
        rw [← hh2] at u3
        rw [← hs] at p2
        have e : interMatch K ord mm es { t with entries := t.entries.set i (x0.1, s) } h2
            (ms ++ [(x0.1, s)]) (count + 1) = .ok (ms', c', h') := by rw [hs, hh2]; exact e
        have p2' : (all ({ t with entries := t.entries.set i (x0.1, s) } : Tbl S)).Perm
            ((x0.1, s) :: rest) := p2
        have hown2 : own h2
            ((all ({ t with entries := t.entries.set i (x0.1, s) } : Tbl S)).map Prod.snd ++
              (es.map Prod.snd ++ F)) := by
          refine L.sub _ _ _ u1 ?_
          have h1 := ((p2'.map Prod.snd).append_right (es.map Prod.snd ++ F))
          simp only [List.map_cons, List.cons_append] at h1
          refine h1.subperm.trans ?_
          exact (((List.sublist_cons_self e0.2 _).append_left _).cons_cons _).subperm
        have hne : ∀ m ∈ ms, m.1 ≠ x0.1 := fun m hmm hh =>
          (hm m hmm).2 (by rw [hh, hx1]; simp)
        have hrest : ∀ m ∈ ms, m ∈ rest := by
          intro m hmm
          rcases List.mem_cons.mp (p1'.mem_iff.mp (hm m hmm).1) with hh | hh
          · exact absurd (by rw [hh]) (hne m hmm)
          · exact hh
        obtain ⟨a, b, c, d, f⟩ := ih { t with entries := t.entries.set i (x0.1, s) } h2
          (ms ++ [(x0.1, s)]) (count + 1) F ms' c' h'
          ((p2'.map Prod.fst).nodup_iff.mpr (by
            rw [List.map_cons, List.nodup_cons]; exact hnt)) hnd.2 hnz' hown2
          (by
            intro m hmm
            rcases List.mem_append.mp hmm with hmm | hmm
            · exact ⟨p2'.mem_iff.mpr (by simp [hrest m hmm]), (hm' m hmm).2⟩
            · rw [List.mem_singleton] at hmm
              subst hmm
              exact ⟨p2'.mem_iff.mpr (by simp), by rw [hx1]; exact hnd.1⟩)
          (by
            rw [List.map_append, List.nodup_append]
            refine ⟨hn, by simp, ?_⟩
            intro k hk k' hk'
            obtain ⟨m, hmm, rfl⟩ := List.mem_map.mp hk
            simp only [List.map_cons, List.map_nil, List.mem_singleton] at hk'
            rw [hk']; exact hne m hmm) e
        refine ⟨a, ?_, c, ?_, ?_⟩
        · intro y hy
          rw [b y hy, u3 y (by simp [hy])]
        · rw [List.length_append, List.length_singleton] at d
          rw [List.length_cons]; omega
        · intro m hmm
          rcases f m hmm with ⟨g1, g2⟩ | ⟨x, hxx, y, hy, k1, k2, k3, k4⟩
          · rcases List.mem_append.mp g1 with g1 | g1
            · left
              refine ⟨g1, ?_⟩
              rw [g2, u3]
              simp only [List.mem_append, List.mem_map]
              exact Or.inl ⟨m, hrest m g1, rfl⟩
            · right
              rw [List.mem_singleton] at g1
              refine ⟨x0, hmem, e0, by simp, by rw [g1], by rw [g1, hx1], by rw [g1]; exact he0, ?_⟩
              rw [g2, g1]
              exact u2
          · right
            have hy' : y.2 ∈ rest.map Prod.snd ++ (e0.2 :: (es.map Prod.snd ++ F)) := by
              simp only [List.mem_append, List.mem_cons, List.mem_map]
              exact Or.inr (Or.inr (Or.inl ⟨y, hy, rfl⟩))
            rcases List.mem_cons.mp (p2'.mem_iff.mp hxx) with hxe | hxr
            · exfalso
              rw [hxe] at k1
              apply hnd.1
              exact List.mem_map.mpr ⟨y, hy, by rw [k2, ← k1]; exact hx1⟩
            · refine ⟨x, p1'.mem_iff.mpr (by simp [hxr]), y, by simp [hy], k1, k2, k3, ?_⟩
              rw [k4, u3 _ hy', u3]
              simp only [List.mem_append, List.mem_map]
              exact Or.inl ⟨x, hxr, rfl⟩
    · rw [if_neg hlt] at e
      split at e
      · simp only [Outcome.ok.injEq, Prod.mk.injEq] at e
        obtain ⟨rfl, rfl, rfl⟩ := e
        exact ⟨base t h ms _ F ho (fun m hmm => (hm m hmm).1) hn, fun _ _ => rfl, hn, by omega,
          fun m hmm => Or.inl ⟨hmm, rfl⟩⟩
      · exact skip e

end

/-! ## invariant -/

section
variable {H S V σ : Type} {K : Kind H S V} {read : H → S → σ} {new : σ} {upd : σ → V → σ}
  {app : σ → σ → σ} {own : H → List S → Prop}

/-- inputs acceptable to the set operations -/
abbrev Input (sh : Nat) {S : Type} (v : View S) : Prop := Theta.Input sh v.keys

/-- Invariant of an intersection after the inputs `vs` (at least one). -/
structure TIInv (K : Kind H S V) (read : H → S → σ) (app : σ → σ → σ) (own : H → List S → Prop)
    (G : List S) (h0 : H) (s : Inter S) (h : H) (vs : List (View S)) : Prop where
  own : own h ((all s.table).map Prod.snd ++ G)
  frame : ∀ x ∈ G, read h x = read h0 x
  sums : ∀ e ∈ all s.table, some (read h e.2) = mergeAll app (contribs (read h0) e.1 vs)

theorem IInv.num_zero {s : Inter S} {a : Theta.ISpec} (i : Theta.IInv (s.keys K) a)
    (hz : s.table.numEntries = 0) : all s.table = [] := by
  have h1 : Theta.all (s.keys K).table = [] := by
    rcases i.table with ⟨-, hh⟩ | ⟨pl, hlen, -⟩
    · exact hh
    · have : s.table.numEntries = (Theta.all (s.keys K).table).length := pl.num
      omega
  have h2 : (all s.table).map Prod.fst = [] := by rw [all_keys K]; exact h1
  exact List.map_eq_nil_iff.mp h2

theorem all_new0 (th st : Nat) (em : Bool) : all (Table.new (elem K) 0 0 0 st th em) = [] := by
  simp [all, Table.new]

variable (L : Laws K read new upd app own)
include L

theorem iupdate_tiinv {sh : Nat} {G : List S} {h0 : H} {s : Inter S} {h : H}
    {vs : List (View S)} {v : View S} {s' : Inter S} {h' : H}
    (ho : own h ((all s.table).map Prod.snd ++ (v.all.map Prod.snd ++ G)))
    (hfr : ∀ x ∈ v.all.map Prod.snd ++ G, read h x = read h0 x)
    (hs : (s.isValid = false ∧ vs = [] ∧ s.table.isEmpty = false ∧ all s.table = []) ∨
      (∃ a, Theta.IInv (s.keys K) a) ∧
        ∀ e ∈ all s.table, some (read h e.2) = mergeAll app (contribs (read h0) e.1 vs))
    (hv : Input sh v) (hup : s.update K h (some sh) v = .ok (s', h')) :
    TIInv K read app own G h0 s' h' (vs ++ [v]) := by
  -- states without entries
  have nil : all s'.table = [] → h' = h → TIInv K read app own G h0 s' h' (vs ++ [v]) := by
    rintro hn rfl
    refine ⟨?_, fun x hx => hfr x (by simp [hx]), by rw [hn]; simp⟩
    rw [hn]
    refine L.sub _ _ _ ho ?_
    simp only [List.map_nil, List.nil_append]
    exact ((List.sublist_append_right _ _).trans (List.sublist_append_right _ _)).subperm
  have hvn : (v.all.map Prod.fst).Nodup := hv.valid.nodup
  have hvz : ∀ e ∈ v.all, e.1 ≠ 0 := fun e he =>
    (hv.valid.range e.1 (List.mem_map.mpr ⟨e, he, rfl⟩)).1
  have hvl : v.numRetained = v.all.length := by
    have := hv.valid.num
    simpa [View.keys] using this
  have hvm : v.all.length ≤ Theta.maxRetained := by rw [← hvl]; exact hv.size
  by_cases c1 : s.table.isEmpty = true
  · unfold Inter.update at hup
    rw [if_pos c1] at hup
    simp only [Outcome.ok.injEq, Prod.mk.injEq] at hup
    obtain ⟨rfl, rfl⟩ := hup
    refine nil ?_ rfl
    rcases hs with ⟨-, -, hc, -⟩ | ⟨⟨a, i⟩, -⟩
    · rw [hc] at c1; cases c1
    · have h1 : a.empty = true := by rw [← i.empty]; exact c1
      have h2 := (i.emp h1).2
      rw [← i.hashes, Theta.sortN_eq_nil] at h2
      have h3 : (all s.table).map Prod.fst = [] := by rw [all_keys K]; exact h2
      exact List.map_eq_nil_iff.mp h3
  · have c2 : ¬ (!v.isEmpty && v.seedHash != sh) = true := by
      have : v.seedHash = sh := hv.seed
      simp [this]
    rw [tupleTail_eq K s h sh v c1 c2] at hup
    generalize hth : (if v.isEmpty then maxTheta else min s.table.theta v.theta) = th at hup
    unfold tupleTail at hup
    dsimp +instances only at hup
    by_cases c3 : (s.isValid && s.table.numEntries == 0) = true
    · rw [if_pos c3] at hup
      simp only [Outcome.ok.injEq, Prod.mk.injEq] at hup
      obtain ⟨rfl, rfl⟩ := hup
      rw [Bool.and_eq_true, beq_iff_eq] at c3
      refine nil ?_ rfl
      rcases hs with ⟨hc, -⟩ | ⟨⟨a, i⟩, -⟩
      · rw [hc] at c3; cases c3.1
      · exact IInv.num_zero (s := s) i c3.2
    rw [if_neg c3] at hup
    by_cases c4 : v.numRetained = 0
    · rw [if_pos c4] at hup
      simp only [Outcome.ok.injEq, Prod.mk.injEq] at hup
      obtain ⟨rfl, rfl⟩ := hup
      exact nil (all_new0 _ _ _) rfl
    rw [if_neg c4] at hup
    have hl0 : v.all.length ≠ 0 := by rw [← hvl]; exact c4
    by_cases c5 : (!s.isValid) = true
    · rw [if_pos c5] at hup
      rcases hs with ⟨hc, rfl, -, hnil⟩ | ⟨⟨a, i⟩, -⟩
      swap
      · have : s.isValid = true := i.isValid
        rw [this] at c5; cases c5
      obtain ⟨t', e1, -, p⟩ := fill_new (K := K) v.all th v.isEmpty hvn hvz hl0 hvm
      rw [hvl, e1] at hup
      simp only [Outcome.ok_bind] at hup
      split at hup
      · cases hup
      simp only [Outcome.pure_eq, Outcome.ok.injEq, Prod.mk.injEq] at hup
      obtain ⟨rfl, rfl⟩ := hup
      refine ⟨?_, fun x hx => hfr x (by simp [hx]), ?_⟩
      · refine L.sub _ _ _ ho ?_
        rw [hnil]
        simp only [List.map_nil, List.nil_append]
        exact ((p.map Prod.snd).append_right G).subperm
      · intro e he
        have he' : e ∈ v.all := p.mem_iff.mp he
        rw [contribs_append]
        have : contribs (read h0) e.1 ([] : List (View S)) = [] := rfl
        rw [this, List.nil_append, vals_unique _ he' hvn]
        simp only [mergeAll, List.foldl_nil]
        rw [hfr]
        simp only [List.mem_append, List.mem_map]
        exact Or.inl ⟨e, he', rfl⟩
    · rw [if_neg c5] at hup
      rcases hs with ⟨hc, -⟩ | ⟨⟨a, i⟩, hsum⟩
      · rw [hc] at c5; exact absurd rfl c5
      obtain ⟨⟨ms, count, h2⟩, hm, hup⟩ := Outcome.bind_eq_ok.1 hup
      have htn : ((all s.table).map Prod.fst).Nodup := by
        rw [all_keys K]; exact i.nodup
      obtain ⟨o1, o2, o3, o4, o5⟩ := interMatch_sums L _ _ v.all
        { s.table with
          isEmpty := v.isEmpty
          theta := th } h [] 0 G ms count h2 htn hvn hvz ho
        (by simp) (by simp) hm
      simp only at hup
      split at hup
      · cases hup
      split at hup
      · cases hup
      by_cases c6 : ms.length = 0
      · rw [if_pos c6] at hup
        simp only [Outcome.pure_eq, Outcome.ok.injEq, Prod.mk.injEq] at hup
        obtain ⟨rfl, rfl⟩ := hup
        have hn : all (if th = maxTheta then Table.new (elem K) 0 0 0 maxTheta th true
            else Table.new (elem K) 0 0 0 maxTheta th v.isEmpty) = [] := by
          split <;> exact all_new0 _ _ _
        refine ⟨?_, ?_, ?_⟩
        · show own h2 ((all (if th = maxTheta then _ else _)).map Prod.snd ++ G)
          rw [hn]
          exact L.sub _ _ _ o1 (List.sublist_append_right _ _).subperm
        · intro x hx
          rw [o2 x hx, hfr x (by simp [hx])]
        · show ∀ e ∈ all (if th = maxTheta then _ else _), _
          rw [hn]; simp
      · rw [if_neg c6] at hup
        have hmz : ∀ m ∈ ms, m.1 ≠ 0 := by
          intro m hmm
          rcases o5 m hmm with ⟨hh, -⟩ | ⟨x, -, e, -, -, -, hh, -⟩
          · simp at hh
          · exact hh
        obtain ⟨t', -, e1, p⟩ := fill_new (K := K) ms th v.isEmpty o3 hmz c6 (by
          simp only [List.length_nil, Nat.zero_add] at o4
          omega)
        rw [e1] at hup
        simp only [Outcome.ok_bind, Outcome.pure_eq, Outcome.ok.injEq, Prod.mk.injEq] at hup
        obtain ⟨rfl, rfl⟩ := hup
        refine ⟨?_, ?_, ?_⟩
        · exact L.perm o1 ((p.map Prod.snd).append_right G)
        · intro x hx
          rw [o2 x hx, hfr x (by simp [hx])]
        · intro m hmm
          have hmm' : m ∈ ms := p.mem_iff.mp hmm
          rcases o5 m hmm' with ⟨hh, -⟩ | ⟨x, hx, e, he, k1, k2, -, k4⟩
          · simp at hh
          have h1 := hsum x hx
          rw [k1] at h1
          rw [contribs_append, ← k2, vals_unique _ he hvn, k2, ← mergeAll_append h1]
          simp only [List.foldl_cons, List.foldl_nil]
          rw [k4, hfr e.2 (by
            simp only [List.mem_append, List.mem_map]
            exact Or.inl ⟨e, he, rfl⟩)]

theorem irun_tiinv {sh : Nat} {F : List S} {h0 : H} : ∀ (vs ws : List (View S)) (s : Inter S) (h : H)
    (a : Theta.ISpec), Theta.IInv (s.keys K) a →
    TIInv K read app own (vs.flatMap (fun v => v.all.map Prod.snd) ++ F) h0 s h ws →
    (∀ v ∈ vs, Input sh v) →
    ∃ s' h', irun K (some sh) s h vs = .ok (s', h') ∧ TIInv K read app own F h0 s' h' (ws ++ vs) ∧
      ∃ a', Theta.IInv (s'.keys K) a' := by
  intro vs
  induction vs with
  | nil => intro ws s h a i t _; exact ⟨s, h, rfl, by simpa using t, a, i⟩
  | cons v vs ih =>
    intro ws s h a i t hvs
    obtain ⟨k1, e1, i1⟩ := Theta.iupdate_next i (hvs v (by simp))
    have hk := Inter.update_keys K s h (some sh) v
    rw [e1] at hk
    obtain ⟨⟨s1, h1⟩, hup, hkey⟩ := Outcome.map_eq_ok.1 hk
    simp only at hkey
    subst hkey
    have ho := t.own
    have hfr := t.frame
    rw [List.flatMap_cons, List.append_assoc] at ho hfr
    have t1 := iupdate_tiinv L ho hfr (Or.inr ⟨⟨a, i⟩, t.sums⟩) (hvs v (by simp)) hup
    obtain ⟨s2, h2, e2, t2, a2⟩ := ih (ws ++ [v]) s1 h1 _ i1 t1 (fun w hw => hvs w (by simp [hw]))
    exact ⟨s2, h2, by simp [irun, hup, e2], by simpa using t2, a2⟩

end

/-- What C56 says about the hashes of an intersection result. -/
structure InterHashes {S : Type} (sh : Nat) (ordered : Bool) (vs : List (View S)) (c : Compact S) :
    Prop where
  nodup : (c.entries.map Prod.fst).Nodup
  seed : c.seedHash = sh
  sorted : ordered = true → (c.entries.map Prod.fst).Pairwise (· < ·)
  nonempty : c.isEmpty = false → (∀ v ∈ vs, v.isEmpty = false) ∧
    c.theta = (vs.map View.theta).foldl min maxTheta ∧
    ∀ k, (∃ s, (k, s) ∈ c.entries) ↔ k < c.theta ∧ ∀ v ∈ vs, ∃ s, (k, s) ∈ v.all
  empty : c.isEmpty = true → c.theta = maxTheta ∧ c.entries = []

/-- general form of C56 -/
theorem inter_general {H S V σ : Type} {K : Kind H S V} {read : H → S → σ} {new : σ}
    {upd : σ → V → σ} {app : σ → σ → σ} {own : H → List S → Prop}
    (L : Laws K read new upd app own) (sh : Nat) (vs : List (View S)) (hne : vs ≠ [])
    (hvs : ∀ v ∈ vs, Input sh v) (h0 : H) (F : List S)
    (ho : own h0 (vs.flatMap (fun v => v.all.map Prod.snd) ++ F)) (ordered : Bool) :
    ∃ s h c h', irun K (some sh) (newInter K) h0 vs = .ok (s, h) ∧
      s.result K h (some sh) ordered = .ok (c, h') ∧ InterHashes sh ordered vs c ∧
      (∀ e ∈ c.entries, some (read h' e.2) = mergeAll app (contribs (read h0) e.1 vs)) ∧
      own h' (c.entries.map Prod.snd ++ ((all s.table).map Prod.snd ++ F)) ∧
      (∀ x ∈ (all s.table).map Prod.snd ++ F, read h' x = read h x) ∧
      ∀ x ∈ F, read h' x = read h0 x := by
  have hkv : ∀ v ∈ vs.map View.keys, Theta.Input sh v := by
    intro v hv
    obtain ⟨w, hw, rfl⟩ := List.mem_map.mp hv
    exact hvs w hw
  obtain ⟨ks, kc, e1, e2, p1, p2, p3, p4, p5, p6⟩ := Theta.C09_intersection_result sh
    (vs.map View.keys) (by simpa using hne) hkv ordered
  have hrun : ∀ (vs : List (View S)) (s : Inter S) (h : H),
      (irun K (some sh) s h vs).map (fun r => r.1.keys K) =
        Theta.irun (some sh) (s.keys K) (vs.map View.keys) := by
    intro vs
    induction vs with
    | nil => intro s h; rfl
    | cons v vs ih =>
      intro s h
      simp only [irun, List.map_cons, Theta.irun, ← Inter.update_keys K s h (some sh) v,
        Outcome.bind_map, Outcome.map_bind]
      exact Outcome.bind_congr (fun r => ih r.1 r.2)
  have hinv : ∃ s h, irun K (some sh) (newInter K) h0 vs = .ok (s, h) ∧
      TIInv K read app own F h0 s h vs ∧ ∃ a', Theta.IInv (s.keys K) a' := by
    match vs, hne, hvs, ho with
    | v :: vs, _, hvs, ho =>
      obtain ⟨k1, f1, i1⟩ := Theta.iupdate_first (hvs v (by simp))
      have hk := Inter.update_keys K (newInter K) h0 (some sh) v
      rw [newInter_keys, f1] at hk
      obtain ⟨⟨s1, h1⟩, hup, hkey⟩ := Outcome.map_eq_ok.1 hk
      simp only at hkey
      subst hkey
      have hn0 : all (newInter K).table = [] := all_new0 _ _ _
      rw [List.flatMap_cons, List.append_assoc] at ho
      have t1 : TIInv K read app own (vs.flatMap (fun v => v.all.map Prod.snd) ++ F) h0 s1 h1 ([] ++ [v]) :=
        iupdate_tiinv L (by rw [hn0]; exact ho) (fun _ _ => rfl)
          (Or.inl ⟨rfl, rfl, rfl, hn0⟩) (hvs v (by simp)) hup
      obtain ⟨s2, h2, g2, t2, a2⟩ := irun_tiinv L vs _ s1 h1 _ i1 t1 (fun w hw => hvs w (by simp [hw]))
      exact ⟨s2, h2, by simp [irun, hup, g2], t2, a2⟩
  obtain ⟨s, h, hr, t, a, ia⟩ := hinv
  have h1 := hrun vs (newInter K) h0
  rw [hr, newInter_keys, e1] at h1
  simp only [Outcome.map_ok, Outcome.ok.injEq] at h1
  subst h1
  have h2 := Inter.result_keys K s h (some sh) ordered
  rw [e2] at h2
  obtain ⟨⟨c, h'⟩, hc, hck⟩ := Outcome.map_eq_ok.1 h2
  simp only at hck
  subst hck
  obtain ⟨c1, c2, c3⟩ := L.cloneAll (all s.table) h ((all s.table).map Prod.snd ++ F) t.own
    (fun e he => by simp only [List.mem_append, List.mem_map]; exact Or.inl ⟨e, he, rfl⟩)
  -- the entries of the result are the clones, possibly sorted
  have hent : c.entries.Perm (cloneAll K (all s.table) h).1 ∧ h' = (cloneAll K (all s.table) h).2 := by
    have hval : s.isValid = true := ia.isValid
    unfold Inter.result at hc
    rw [hval] at hc
    simp only [Bool.not_true, Bool.false_eq_true, if_false] at hc
    by_cases hn : s.table.numEntries > 0
    · simp only [if_pos hn, Outcome.ok.injEq, Prod.mk.injEq] at hc
      obtain ⟨rfl, rfl⟩ := hc
      refine ⟨?_, rfl⟩
      show (if ordered = true then sortE _ else _).Perm _
      split
      · exact sortE_perm _
      · exact List.Perm.refl _
    · simp only [if_neg hn, Outcome.ok.injEq, Prod.mk.injEq] at hc
      obtain ⟨rfl, rfl⟩ := hc
      have hnil := IInv.num_zero ia (by omega)
      rw [hnil]
      exact ⟨List.Perm.refl _, rfl⟩
  obtain ⟨hp, rfl⟩ := hent
  refine ⟨s, h, c, _, hr, hc, ?_, ?_, ?_, c3, ?_⟩
  · refine { nodup := p1, seed := p2, sorted := p4, nonempty := ?_, empty := ?_ }
    · intro he
      obtain ⟨n1, n2, n3⟩ := p5 he
      refine ⟨fun v hv => n1 v.keys (List.mem_map.mpr ⟨v, hv, rfl⟩), ?_, ?_⟩
      · have : Theta.minAll (vs.map View.keys) = (vs.map View.theta).foldl min maxTheta := by
          unfold Theta.minAll
          rw [List.map_map]; rfl
        rw [← this]; exact n2
      · intro k
        rw [← mem_map_fst]
        refine (n3 k).trans ?_
        constructor
        · rintro ⟨a, b⟩
          exact ⟨a, fun v hv => mem_map_fst.mp (b v.keys (List.mem_map.mpr ⟨v, hv, rfl⟩))⟩
        · rintro ⟨a, b⟩
          refine ⟨a, fun w hw => ?_⟩
          obtain ⟨v, hv, rfl⟩ := List.mem_map.mp hw
          exact mem_map_fst.mpr (b v hv)
    · intro he
      obtain ⟨n1, n2, -⟩ := p6 he
      exact ⟨n1, List.map_eq_nil_iff.mp n2⟩
  · intro e he
    have he' : e ∈ (cloneAll K (all s.table) h).1 := hp.mem_iff.mp he
    have hm : (e.1, read (cloneAll K (all s.table) h).2 e.2) ∈
        (all s.table).map (fun e => (e.1, read h e.2)) := by
      rw [← c2]; exact List.mem_map.mpr ⟨e, he', rfl⟩
    obtain ⟨x, hx, hxe⟩ := List.mem_map.mp hm
    simp only [Prod.mk.injEq] at hxe
    rw [← hxe.1, ← hxe.2]
    exact t.sums x hx
  · exact L.perm c1 ((hp.map Prod.snd).append_right _)
  · intro x hx
    rw [c3 x (by simp [hx]), t.frame x hx]

/-- C56 (summaries stored by value).  For every non-empty sequence of valid inputs: updates and the
result succeed; hashes and theta are those of the intersection; the summary of every hash is the
merge, from left to right, of the summaries of all inputs for it. -/
theorem C56_intersection_values {σ V : Type} (new : σ) (upd : σ → V → σ) (app : σ → σ → σ) (sh : Nat)
    (vs : List (View σ)) (hne : vs ≠ []) (hvs : ∀ v ∈ vs, Input sh v) (ordered : Bool) :
    ∃ s c, irun (values new upd app) (some sh) (newInter (values new upd app)) () vs = .ok (s, ()) ∧
      s.result (values new upd app) () (some sh) ordered = .ok (c, ()) ∧
      InterHashes sh ordered vs c ∧
      ∀ e ∈ c.entries, some e.2 = mergeAll app (contribs id e.1 vs) := by
  obtain ⟨s, h, c, h', a, b, d, f, -⟩ := inter_general (values_laws new upd app) sh vs hne hvs () []
    trivial ordered
  exact ⟨s, c, a, b, d, f⟩

/-- C56 (summaries behind pointers).  The same for the contents, taken before the first update,
provided the summaries of the inputs are live objects no two of which are the same.  The summaries of
the result are fresh objects, distinct from those of the intersection and from the objects in use
elsewhere, which are not touched. -/
theorem C56_intersection_pointers {σ V : Type} (new zero : σ) (upd : σ → V → σ) (app : σ → σ → σ)
    (sh : Nat) (vs : List (View Nat)) (hne : vs ≠ []) (hvs : ∀ v ∈ vs, Input sh v) (h0 : List σ)
    (F : List Nat) (hdist : (vs.flatMap (fun v => v.all.map Prod.snd) ++ F).Nodup)
    (hlive : ∀ x ∈ vs.flatMap (fun v => v.all.map Prod.snd) ++ F, x < h0.length) (ordered : Bool) :
    ∃ s h c h',
      irun (pointers new zero upd app) (some sh) (newInter (pointers new zero upd app)) h0 vs =
        .ok (s, h) ∧
      s.result (pointers new zero upd app) h (some sh) ordered = .ok (c, h') ∧
      InterHashes sh ordered vs c ∧
      (∀ e ∈ c.entries, h'[e.2]? =
        mergeAll app (contribs (fun s => h0[s]?.getD zero) e.1 vs)) ∧
      (c.entries.map Prod.snd ++ ((all s.table).map Prod.snd ++ F)).Nodup ∧
      ∀ x ∈ F, h'[x]? = h0[x]? := by
  obtain ⟨s, h, c, h', a, b, d, f, g, k, k'⟩ := inter_general (pointers_laws new zero upd app) sh vs
    hne hvs h0 F ⟨hdist, hlive⟩ ordered
  refine ⟨s, h, c, h', a, b, d, ?_, g.1, ?_⟩
  · intro e he
    have hl : e.2 < h'.length := g.2 e.2 (by
      simp only [List.mem_append, List.mem_map]; exact Or.inl ⟨e, he, rfl⟩)
    refine Eq.trans ?_ (f e he)
    simp only [content, List.getElem?_eq_getElem hl, Option.getD_some]
  · intro x hx
    have h1 : x < h'.length := g.2 x (by simp [hx])
    have h2 : x < h0.length := hlive x (by simp [hx])
    have := k' x hx
    simp only [content, List.getElem?_eq_getElem h1, List.getElem?_eq_getElem h2,
      Option.getD_some] at this
    rw [List.getElem?_eq_getElem h1, List.getElem?_eq_getElem h2, this]

/-- C56, negative part: the intersection changes the summaries of its first input: after
intersecting two sketches with counters 1 and 10 for the same hash, the first input holds 11.  (The
result is at address 2.) -/
theorem C56_intersection_changes_first_input :
    ((irun counters (some 7) (newInter counters) [1, 10] [one 0, one 1]).bind (fun r =>
      (r.1.result counters r.2 (some 7) false).bind (fun c => .ok (c.1.entries, c.2)))) =
      .ok ([(9, 2)], [11, 10, 11]) := by
  decide +kernel

/-! ## non-vacuity -/

example : ∀ v ∈ [one 0, one 1], Input 7 v := by
  intro v hv
  simp only [List.mem_cons, List.not_mem_nil, or_false] at hv
  have : ∀ s, Input 7 (one s) := fun s =>
    { valid := { nodup := by simp [one, View.keys], range := by simp [one, View.keys, maxTheta],
                 num := rfl, ordered := by simp [one, View.keys],
                 theta := by simp [one, View.keys], empty := by simp [one, View.keys] }
      seed := rfl
      size := by simp [one, View.keys, Theta.maxRetained] }
  rcases hv with rfl | rfl
  · exact this 0
  · exact this 1

example : ([one 0, one 1].flatMap (fun v : View Nat => v.all.map Prod.snd) ++ [2]).Nodup := by decide

end Verif.Tuple
