import Verif.TupleUpdateProps
import Verif.ThetaUnionProps
import Verif.QuickSelectProps

/-!
# C55: union of tuple sketches

The hashes of the union are those of the theta union (C07).  The summary of a hash is obtained by
merging, in the order of the updates, the summaries of the inputs that hold the hash.  With summaries
behind pointers this needs that no two entries handed over share a summary object, because the union
stores the summaries of its inputs without cloning them; what happens otherwise is shown at the end.
-/

namespace Verif.Tuple

open Probe HashTable
open Theta (maxTheta)

/-! ## histories and specification -/

inductive UOp (S : Type) where
  | update (v : View S)
  | reset

def UOp.keys {S : Type} : UOp S → Theta.UOp
  | .update v => .update v.keys
  | .reset => .reset

def ustep {H S V : Type} (K : Kind H S V) (sh : Option Nat) (u : Union S) (h : H) :
    UOp S → Outcome (Union S × H)
  | .update v => u.update K h sh v
  | .reset => .ok (u.reset K h)

def urun {H S V : Type} (K : Kind H S V) (sh : Option Nat) :
    Union S → H → List (UOp S) → Outcome (Union S × H)
  | u, h, [] => .ok (u, h)
  | u, h, op :: ops => do let (u, h) ← ustep K sh u h op; urun K sh u h ops

/-- Spec: the inputs since the last reset. -/
def inputs {S : Type} : List (View S) → List (UOp S) → List (View S)
  | acc, [] => acc
  | acc, .update v :: ops => inputs (acc ++ [v]) ops
  | _, .reset :: ops => inputs [] ops

/-- Spec: all summaries handed over by a history. -/
def handed {S : Type} : List (UOp S) → List S
  | [] => []
  | .update v :: ops => v.all.map Prod.snd ++ handed ops
  | .reset :: ops => handed ops

/-- Spec: the contents of the summaries the inputs hold for the hash `k`, in order. -/
def contribs {S σ : Type} (rd : S → σ) (k : Nat) (vs : List (View S)) : List σ :=
  vs.flatMap (fun v => (v.all.filter (fun e => decide (e.1 = k))).map (fun e => rd e.2))

/-- Spec: merging a list of contents from left to right. -/
def mergeAll {σ : Type} (app : σ → σ → σ) : List σ → Option σ
  | [] => none
  | a :: l => some (l.foldl app a)

theorem mergeAll_append {σ : Type} {app : σ → σ → σ} {l : List σ} {a : σ}
    (h : some a = mergeAll app l) (m : List σ) : some (m.foldl app a) = mergeAll app (l ++ m) := by
  cases l with
  | nil => cases h
  | cons b l =>
    simp only [mergeAll, Option.some.injEq] at h
    simp only [mergeAll, List.cons_append, List.foldl_append, h]

theorem inputs_keys {S : Type} : ∀ (ops : List (UOp S)) (acc : List (View S)),
    (inputs acc ops).map View.keys = Theta.inputs (acc.map View.keys) (ops.map UOp.keys) := by
  intro ops
  induction ops with
  | nil => intro acc; rfl
  | cons op ops ih =>
    intro acc
    cases op with
    | update v =>
      simp only [inputs, List.map_cons, UOp.keys, Theta.inputs]
      rw [ih]; simp
    | reset => exact ih []

/-! ## the loop -/

section
variable {H S V σ : Type} {K : Kind H S V} {read : H → S → σ} {new : σ} {upd : σ → V → σ}
  {app : σ → σ → σ} {own : H → List S → Prop}

/-- contents of the entries with hash `k` -/
def vals (rd : S → σ) (k : Nat) (es : List (Entry S)) : List σ :=
  (es.filter (fun e => decide (e.1 = k))).map (fun e => rd e.2)

theorem vals_cons_eq (rd : S → σ) {k : Nat} {e : Entry S} (hk : e.1 = k) (es : List (Entry S)) :
    vals rd k (e :: es) = rd e.2 :: vals rd k es := by
  simp [vals, hk]

theorem vals_cons_ne (rd : S → σ) {k : Nat} {e : Entry S} (hk : e.1 ≠ k) (es : List (Entry S)) :
    vals rd k (e :: es) = vals rd k es := by
  simp [vals, hk]

theorem vals_nil (rd : S → σ) {k : Nat} {es : List (Entry S)} (hk : ∀ e ∈ es, e.1 ≠ k) :
    vals rd k es = [] := by
  simp only [vals, List.map_eq_nil_iff, List.filter_eq_nil_iff, decide_eq_true_eq]
  exact hk

theorem vals_congr {rd rd' : S → σ} (k : Nat) {es : List (Entry S)}
    (h : ∀ e ∈ es, rd e.2 = rd' e.2) : vals rd k es = vals rd' k es := by
  unfold vals
  apply List.map_congr_left
  intro e he
  exact h e (List.mem_filter.mp he).1

variable (L : Laws K read new upd app own)
include L

theorem unionLoop_sums (uT : Nat) (ord : Bool) : ∀ (es : List (Entry S)) (t : Tbl S) (h : H)
    (F : List S), TInv (elem K) t → (∀ e ∈ es, e.1 ≠ 0) →
    (ord = true → (es.map Prod.fst).Pairwise (· < ·)) →
    own h ((all t).map Prod.snd ++ (es.map Prod.snd ++ F)) →
    ∃ t' h', unionLoop K uT ord es t h = .ok (t', h') ∧ TInv (elem K) t' ∧ t'.theta ≤ t.theta ∧
      own h' ((all t').map Prod.snd ++ F) ∧ (∀ x ∈ F, read h' x = read h x) ∧
      ∀ e ∈ all t', e.1 < uT →
        (∃ x ∈ all t, x.1 = e.1 ∧
          read h' e.2 = (vals (read h) e.1 es).foldl app (read h x.2)) ∨
        ((∀ x ∈ all t, x.1 ≠ e.1) ∧ some (read h' e.2) = mergeAll app (vals (read h) e.1 es)) := by
  intro es
  induction es with
  | nil =>
    intro t h F i _ _ ho
    exact ⟨t, h, rfl, i, le_refl _, ho, fun _ _ => rfl, fun e he _ => Or.inl ⟨e, he, rfl, rfl⟩⟩
  | cons e0 es ih =>
    intro t h F i hnz hord ho
    have hnz' : ∀ e ∈ es, e.1 ≠ 0 := fun e he => hnz e (by simp [he])
    have hord' : ord = true → (es.map Prod.fst).Pairwise (· < ·) :=
      fun h1 => (List.pairwise_cons.mp (hord h1)).2
    have hz : e0.1 ≠ 0 := hnz e0 (by simp)
    unfold unionLoop
    by_cases hc : e0.1 < uT ∧ e0.1 < t.theta
    · rw [if_pos hc]
      rcases i.find_total e0.1 with ⟨p, hf, hp, habs⟩ | ⟨p, x0, hf, hpe, hek, hmem⟩
      · rw [hf]
        obtain ⟨t2, e1, i1, s1, em1, th1, p1, -⟩ := insert_inv i (e := e0) hz hc.2 hf
        simp only [e1, Outcome.ok_bind]
        have hm2 : ∀ x, x ∈ all t2 ↔ (x = e0 ∨ x ∈ all t) ∧ x.1 < t2.theta := by
          intro x
          have := p1.mem_iff (a := x)
          rw [List.mem_filter, List.mem_cons, decide_eq_true_eq] at this
          exact this
        have hown : own h ((all t2).map Prod.snd ++ (es.map Prod.snd ++ F)) := by
          refine L.sub _ _ _ ho ?_
          have h1 : ((all t2).map Prod.snd).Subperm (e0.2 :: (all t).map Prod.snd) :=
            (p1.map Prod.snd).subperm.trans (List.filter_sublist.map Prod.snd).subperm
          have h2 : (e0.2 :: (all t).map Prod.snd ++ (es.map Prod.snd ++ F)).Perm
              ((all t).map Prod.snd ++ ((e0 :: es).map Prod.snd ++ F)) := by
            simp only [List.map_cons, List.cons_append]
            exact List.perm_middle.symm
          exact ((List.subperm_append_right _).mpr h1).trans h2.subperm
        obtain ⟨t', h', e2, i2, th2, o2, f2, sm⟩ := ih t2 h F i1 hnz' hord' hown
        refine ⟨t', h', e2, i2, le_trans th2 th1, o2, f2, ?_⟩
        intro e he hu
        have hlt : e.1 < t2.theta := lt_of_lt_of_le (i2.below e he) th2
        rcases sm e he hu with ⟨x, hx, hxe, hr⟩ | ⟨hno, hr⟩
        · rcases ((hm2 x).mp hx).1 with rfl | hx'
          · right
            refine ⟨fun y hy hye => habs y hy (by rw [← hxe] at hye; exact hye), ?_⟩
            rw [vals_cons_eq _ hxe, hr]; rfl
          · left
            refine ⟨x, hx', hxe, ?_⟩
            rw [hr, vals_cons_ne]
            intro hh
            exact habs x hx' (by rw [← hh] at hxe; exact hxe)
        · right
          have hne : e0.1 ≠ e.1 := fun hh =>
            hno e0 ((hm2 e0).mpr ⟨Or.inl rfl, by rw [hh]; exact hlt⟩) hh
          refine ⟨fun y hy hye => hno y ((hm2 y).mpr ⟨Or.inr hy, by rw [hye]; exact hlt⟩) hye, ?_⟩
          rw [hr, vals_cons_ne _ hne]
      · rw [hf]
        simp only [hpe]
        have hx1 : x0.1 = e0.1 := hek
        have he0 : (elem K).key x0 ≠ 0 := by rw [hek]; exact hz
        obtain ⟨rest, p1, p2⟩ := itemsOf_set (E := elem K) hpe he0
          (e' := (x0.1, (K.merge h x0.2 e0.2).1)) rfl
        have hown : own h (x0.2 :: (rest.map Prod.snd ++ (e0.2 :: (es.map Prod.snd ++ F)))) := by
          refine L.perm ho ?_
          have := (p1.map Prod.snd).append_right ((e0 :: es).map Prod.snd ++ F)
          simp only [List.map_cons, List.cons_append] at this
          exact this.symm
        obtain ⟨u1, u2, u3⟩ := L.merge h x0.2 e0.2 _ hown (by simp)
        have hown2 : own (K.merge h x0.2 e0.2).2
            ((all { t with entries := t.entries.set p (x0.1, (K.merge h x0.2 e0.2).1) }).map Prod.snd ++
              (es.map Prod.snd ++ F)) := by
          refine L.sub _ _ _ u1 ?_
          have h1 := ((p2.map Prod.snd).append_right (es.map Prod.snd ++ F))
          simp only [List.map_cons, List.cons_append] at h1
          refine h1.subperm.trans ?_
          exact (((List.sublist_cons_self e0.2 _).append_left _).cons_cons _).subperm
        obtain ⟨t', h', e2, i2, th2, o2, f2, sm⟩ := ih _ _ F
          (i.set (e' := (x0.1, (K.merge h x0.2 e0.2).1)) hpe he0 rfl) hnz' hord' hown2
        refine ⟨t', h', e2, i2, th2, o2, ?_, ?_⟩
        · intro y hy
          rw [f2 y hy, u3 y (by simp [hy])]
        intro e he hu
        have hm2 : ∀ y, y ∈ all ({ t with entries := t.entries.set p (x0.1, (K.merge h x0.2 e0.2).1) } : Tbl S) ↔
            y = (x0.1, (K.merge h x0.2 e0.2).1) ∨ y ∈ rest := by
          intro y
          rw [← List.mem_cons]
          exact p2.mem_iff
        have hvs : vals (read (K.merge h x0.2 e0.2).2) e.1 es = vals (read h) e.1 es := by
          apply vals_congr
          intro y hy
          apply u3
          simp only [List.mem_append, List.mem_cons, List.mem_map]
          exact Or.inr (Or.inr (Or.inl ⟨y, hy, rfl⟩))
        have hnd := ((p1.map (elem K).key).nodup_iff).mp i.chain.keys_nodup
        rw [List.map_cons, List.nodup_cons] at hnd
        rcases sm e he hu with ⟨x, hx, hxe, hr⟩ | ⟨hno, hr⟩
        · left
          rcases (hm2 x).mp hx with rfl | hx'
          · refine ⟨x0, hmem, hxe, ?_⟩
            have : e0.1 = e.1 := by rw [← hx1]; exact hxe
            rw [hr, hvs, vals_cons_eq _ this, u2]
            rfl
          · have hxt : x ∈ all t := p1.mem_iff.mpr (by simp [hx'])
            refine ⟨x, hxt, hxe, ?_⟩
            have hne : e0.1 ≠ e.1 := by
              intro hh
              apply hnd.1
              exact List.mem_map.mpr ⟨x, hx', by
                show x.1 = x0.1
                rw [hx1, hh, hxe]⟩
            rw [hr, hvs, vals_cons_ne _ hne, u3 x.2 (by
              simp only [List.mem_append, List.mem_map]
              exact Or.inl ⟨x, hx', rfl⟩)]
        · right
          have hne : x0.1 ≠ e.1 := hno (x0.1, (K.merge h x0.2 e0.2).1) ((hm2 _).mpr (Or.inl rfl))
          refine ⟨?_, ?_⟩
          · intro y hy hye
            rcases List.mem_cons.mp (p1.mem_iff.mp hy) with rfl | hyr
            · exact hne hye
            · exact hno y ((hm2 y).mpr (Or.inr hyr)) hye
          · rw [hr, hvs, vals_cons_ne _ (by rw [← hx1]; exact hne)]
    · rw [if_neg hc]
      have hsub : own h ((all t).map Prod.snd ++ (es.map Prod.snd ++ F)) := by
        refine L.sub _ _ _ ho ?_
        simp only [List.map_cons, List.cons_append]
        exact ((List.sublist_cons_self _ _).append_left _).subperm
      split
      · rename_i ho'
        refine ⟨t, h, rfl, i, le_refl _, ?_, fun _ _ => rfl, ?_⟩
        · exact L.sub _ _ _ hsub ((List.sublist_append_right _ _).append_left _).subperm
        · intro e he hu
          left
          refine ⟨e, he, rfl, ?_⟩
          rw [vals_nil]
          · rfl
          · intro y hy hye
            have hlt : e.1 < t.theta := i.below e he
            rcases List.mem_cons.mp hy with rfl | hy
            · exact hc ⟨by omega, by omega⟩
            · have := (List.pairwise_cons.mp (hord ho')).1 y.1 (List.mem_map.mpr ⟨y, hy, rfl⟩)
              exact hc ⟨by omega, by omega⟩
      · obtain ⟨t', h', e2, i2, th2, o2, f2, sm⟩ := ih t h F i hnz' hord' hsub
        refine ⟨t', h', e2, i2, th2, o2, f2, ?_⟩
        intro e he hu
        have hlt : e.1 < t.theta := lt_of_lt_of_le (i2.below e he) th2
        have hne : e0.1 ≠ e.1 := fun hh => hc ⟨by omega, by omega⟩
        rw [vals_cons_ne _ hne]
        exact sm e he hu

end

/-! ## invariant -/

section
variable {H S V σ : Type} {K : Kind H S V} {read : H → S → σ} {new : σ} {upd : σ → V → σ}
  {app : σ → σ → σ} {own : H → List S → Prop}

/-- Invariant of a union after the inputs `vs` since the last reset; `G` are the summaries in use
elsewhere (among them those of inputs still to come), `h0` the memory at the beginning. -/
structure TUInv (K : Kind H S V) (read : H → S → σ) (app : σ → σ → σ) (own : H → List S → Prop)
    (lgK start : Nat) (G : List S) (h0 : H) (u : Union S) (h : H) (vs : List (View S)) : Prop where
  keys : Theta.UInv lgK start (u.keys K) (vs.map View.keys)
  tinv : TInv (elem K) u.table
  own : own h ((all u.table).map Prod.snd ++ G)
  frame : ∀ x ∈ G, read h x = read h0 x
  sums : ∀ e ∈ all u.table, e.1 < u.theta →
    some (read h e.2) = mergeAll app (contribs (read h0) e.1 vs)

theorem contribs_append (rd : S → σ) (k : Nat) (vs : List (View S)) (v : View S) :
    contribs rd k (vs ++ [v]) = contribs rd k vs ++ vals rd k v.all := by
  simp [contribs, vals]

theorem contribs_nil {rd : S → σ} {k : Nat} {vs : List (View S)}
    (h : ∀ v ∈ vs, ∀ e ∈ v.all, e.1 ≠ k) : contribs rd k vs = [] := by
  simp only [contribs, List.flatMap_eq_nil_iff, List.map_eq_nil_iff, List.filter_eq_nil_iff,
    decide_eq_true_eq]
  exact h

variable (L : Laws K read new upd app own)
include L

theorem uupdate_tuinv {lgK start sh : Nat} {G : List S} {h0 : H} {u : Union S} {h : H}
    {vs : List (View S)} {v : View S}
    (i : TUInv K read app own lgK start (v.all.map Prod.snd ++ G) h0 u h vs)
    (hvs : ∀ w ∈ vs, Valid w) (hv : Valid v) (hsh : v.isEmpty = false → v.seedHash = sh) :
    ∃ u' h', u.update K h (some sh) v = .ok (u', h') ∧
      TUInv K read app own lgK start G h0 u' h' (vs ++ [v]) := by
  obtain ⟨k', hk1, hk2⟩ := Theta.uupdate_inv i.keys (v := v.keys) hv hsh
  have hk3 := Union.update_keys K u h (some sh) v
  rw [hk1] at hk3
  obtain ⟨⟨u', h'⟩, hup, hkey⟩ := Outcome.map_eq_ok.1 hk3
  simp only at hkey
  have hkeys : Theta.UInv lgK start (u'.keys K) ((vs ++ [v]).map View.keys) := by
    rw [hkey]; simpa using hk2
  refine ⟨u', h', hup, ?_⟩
  unfold Union.update at hup
  cases hem : v.isEmpty with
  | true =>
    rw [hem] at hup
    simp only [if_true, Outcome.ok.injEq, Prod.mk.injEq] at hup
    obtain ⟨rfl, rfl⟩ := hup
    have hall : v.all = [] := List.map_eq_nil_iff.mp (hv.empty hem)
    refine { keys := hkeys, tinv := i.tinv, own := ?_, frame := ?_, sums := ?_ }
    · have := i.own
      rw [hall] at this
      exact this
    · intro x hx
      exact i.frame x (by simp [hx])
    · intro e he hlt
      rw [contribs_append, hall]
      have := i.sums e he hlt
      simpa [vals] using this
  | false =>
    rw [hem] at hup
    simp only [Bool.false_eq_true, if_false] at hup
    rw [if_neg (by rw [hsh hem]; simp)] at hup
    obtain ⟨t', h2, e2, i2, th2, o2, f2, sm⟩ := unionLoop_sums L (min u.theta v.theta) v.isOrdered
      v.all _ h G (i.tinv.withEmpty false)
      (fun e he => (hv.range e.1 (List.mem_map.mpr ⟨e, he, rfl⟩)).1) hv.ordered i.own
    rw [e2] at hup
    simp only [Outcome.ok_bind, Outcome.pure_eq, Outcome.ok.injEq, Prod.mk.injEq] at hup
    obtain ⟨rfl, rfl⟩ := hup
    refine { keys := hkeys, tinv := i2, own := o2, frame := ?_, sums := ?_ }
    · intro x hx
      rw [f2 x hx, i.frame x (by simp [hx])]
    · intro e he hlt
      simp only at hlt he
      have hlt1 : e.1 < min u.theta v.theta := by omega
      have hvals : vals (read h) e.1 v.all = vals (read h0) e.1 v.all := by
        apply vals_congr
        intro x hx
        apply i.frame
        simp only [List.mem_append, List.mem_map]
        exact Or.inl ⟨x, hx, rfl⟩
      rw [contribs_append]
      rcases sm e he hlt1 with ⟨x, hx, hxe, hr⟩ | ⟨hno, hr⟩
      · have hx' : x ∈ all u.table := hx
        have h1 := i.sums x hx' (by omega)
        rw [hxe] at h1
        rw [hr, hvals]
        exact mergeAll_append h1 _
      · have hno' : ∀ x ∈ all u.table, x.1 ≠ e.1 := hno
        rw [hr, hvals, contribs_nil, List.nil_append]
        intro w hw y hy hye
        have hin : Theta.InSome (vs.map View.keys) e.1 := by
          refine ⟨w.keys, List.mem_map.mpr ⟨w, hw, rfl⟩, ?_, ?_⟩
          · show w.isEmpty = false
            by_contra hc
            have hc' : w.keys.isEmpty = true := by
              show w.isEmpty = true
              simpa using hc
            have := (hvs w hw).empty hc'
            have : w.all = [] := List.map_eq_nil_iff.mp this
            rw [this] at hy; simp at hy
          · exact List.mem_map.mpr ⟨y, hy, hye⟩
        have h2 := (i.keys.ret e.1 (show e.1 < u.theta by omega)).mpr hin
        have h3 : e.1 ∈ (all u.table).map Prod.fst := by rw [all_keys K]; exact h2
        obtain ⟨x, hx, hxe⟩ := List.mem_map.mp h3
        exact hno' x hx hxe

theorem ureset_tuinv {lgK start : Nat} {G : List S} {h0 : H} {u : Union S} {h : H}
    {vs : List (View S)} (i : TUInv K read app own lgK start G h0 u h vs) :
    TUInv K read app own lgK start G h0 (u.reset K h).1 (u.reset K h).2 [] := by
  obtain ⟨i1, a1⟩ := reset_table (h := h) i.tinv (by
    have := i.keys.lgk
    rw [show u.table.lgNom = lgK from this]; exact i.keys.ge5)
  obtain ⟨o1, o2⟩ := reset_own L i.own
  have a1' : all (u.reset K h).1.table = [] := a1
  refine { keys := ?_, tinv := i1, own := ?_, frame := ?_, sums := ?_ }
  · rw [Union.reset_keys]
    exact Theta.ureset_inv i.keys
  · rw [a1']; exact o1
  · intro x hx; rw [← i.frame x hx]; exact o2 x hx
  · rw [a1']; simp

omit L in
theorem unew_tuinv {lgK rf start : Nat} {G : List S} {h0 : H} {u : Union S}
    (hnew : newUnion K lgK rf start = .ok u) (ho : own h0 G) :
    TUInv K read app own lgK start G h0 u h0 [] := by
  have hk := newUnion_keys K lgK rf start
  rw [hnew] at hk
  unfold newUnion at hnew
  obtain ⟨t, ht, hu⟩ := Outcome.bind_eq_ok.1 hnew
  simp only [Outcome.pure_eq, Outcome.ok.injEq] at hu
  subst hu
  obtain ⟨a, b, c⟩ := newTable_empty ht
  exact { keys := Theta.unew_inv hk.symm, tinv := a, own := by rw [b]; exact ho,
          frame := fun _ _ => rfl, sums := by rw [b]; simp }

theorem urun_tuinv {lgK start sh : Nat} {F : List S} {h0 : H} :
    ∀ (ops : List (UOp S)) (u : Union S) (h : H) (vs : List (View S)),
    TUInv K read app own lgK start (handed ops ++ F) h0 u h vs → (∀ v ∈ vs, Valid v) →
    (∀ v, UOp.update v ∈ ops → Valid v ∧ (v.isEmpty = false → v.seedHash = sh)) →
    ∃ u' h', urun K (some sh) u h ops = .ok (u', h') ∧
      TUInv K read app own lgK start F h0 u' h' (inputs vs ops) ∧ ∀ v ∈ inputs vs ops, Valid v := by
  intro ops
  induction ops with
  | nil => intro u h vs i hvs _; exact ⟨u, h, rfl, i, hvs⟩
  | cons op ops ih =>
    intro u h vs i hvs hops
    have hops' : ∀ v, UOp.update v ∈ ops → Valid v ∧ (v.isEmpty = false → v.seedHash = sh) :=
      fun v hv => hops v (by simp [hv])
    cases op with
    | update v =>
      obtain ⟨hv, hs⟩ := hops v (by simp)
      have i' : TUInv K read app own lgK start (v.all.map Prod.snd ++ (handed ops ++ F)) h0 u h vs := by
        have := i
        simp only [handed, List.append_assoc] at this
        exact this
      obtain ⟨u1, h1, e1, i1⟩ := uupdate_tuinv L i' hvs hv hs
      obtain ⟨u2, h2, e2, i2⟩ := ih u1 h1 _ i1 (by
        intro w hw
        rcases List.mem_append.mp hw with hw | hw
        · exact hvs w hw
        · rw [List.mem_singleton] at hw; subst hw; exact hv) hops'
      exact ⟨u2, h2, by simp [urun, ustep, e1, e2], i2⟩
    | reset =>
      obtain ⟨u2, h2, e2, i2⟩ := ih _ _ _ (ureset_tuinv L i) (by simp) hops'
      exact ⟨u2, h2, by simp [urun, ustep, e2], i2⟩

omit L in
/-- the entries of the result are entries of the union below its theta -/
theorem result_sub {u : Union S} {sh : Option Nat} {o : Bool} {c : Compact S}
    (ht : TInv (elem K) u.table) (hc : u.result K sh o = .ok c) :
    c.entries.Subperm (all u.table) ∧ ∀ e ∈ c.entries, e.1 < u.theta := by
  unfold Union.result at hc
  cases sh with
  | none => cases hc
  | some sh =>
    simp only at hc
    split at hc
    · simp only [Outcome.ok.injEq] at hc
      subst hc
      exact ⟨List.nil_subperm, by simp [compactFromEntries]⟩
    · obtain ⟨⟨es, th⟩, hcut, hc⟩ := Outcome.bind_eq_ok.1 hc
      simp only [Outcome.pure_eq, Outcome.ok.injEq] at hc
      have hE : (if u.theta ≥ u.table.theta then u.table.entries.filter (fun e => e.1 != 0)
            else u.table.entries.filter
              (fun e => e.1 != 0 && decide (e.1 < min u.theta u.table.theta))).Sublist (all u.table) ∧
          ∀ e ∈ (if u.theta ≥ u.table.theta then u.table.entries.filter (fun e => e.1 != 0)
            else u.table.entries.filter
              (fun e => e.1 != 0 && decide (e.1 < min u.theta u.table.theta))), e.1 < u.theta := by
        split
        · rename_i hge
          refine ⟨List.Sublist.refl _, fun e he => ?_⟩
          have h1 : e.1 < u.table.theta := ht.below e he
          omega
        · constructor
          · have : u.table.entries.filter
                (fun e => e.1 != 0 && decide (e.1 < min u.theta u.table.theta)) =
                (u.table.entries.filter (fun e => e.1 != 0)).filter
                (fun e => decide (e.1 < min u.theta u.table.theta)) := by
              rw [List.filter_filter]
              apply List.filter_congr
              intro x _
              rw [Bool.and_comm]
            rw [this]
            exact List.filter_sublist
          · intro e he
            have := (List.mem_filter.mp he).2
            simp only [Bool.and_eq_true, decide_eq_true_eq] at this
            omega
      generalize (if u.theta ≥ u.table.theta then u.table.entries.filter (fun e => e.1 != 0)
            else u.table.entries.filter
              (fun e => e.1 != 0 && decide (e.1 < min u.theta u.table.theta))) = E at hE hcut
      have hes : es.Subperm E := by
        generalize 2 ^ u.table.lgNom = N at hcut
        split at hcut
        · split at hcut
          · cases hcut
          · rename_i es' pv hq
            have hp : es'.Perm E := by
              have hgt' : N < E.length := by assumption
              obtain ⟨out, pv', hq', hp, -⟩ := QuickSelect.C05_quickSelect_splits (ltKey (elem K))
                ltKey_strictWeak E 0 (E.length - 1) N (Nat.zero_le _) (by omega)
                (by omega)
              have e1 : ((E.length - 1 : Nat) : Int) = (E.length : Int) - 1 := by omega
              rw [e1] at hq'
              have hq2 : some (es', pv) = some (out, pv') := hq.symm.trans hq'
              simp only [Option.some.injEq, Prod.mk.injEq] at hq2
              rw [hq2.1]; exact hp
            split at hcut
            · cases hcut
            · simp only [Outcome.ok.injEq, Prod.mk.injEq] at hcut
              rw [← hcut.1]
              exact (List.take_sublist _ _).subperm.trans hp.subperm
        · simp only [Outcome.ok.injEq, Prod.mk.injEq] at hcut
          rw [← hcut.1]
      have hperm : c.entries.Perm es := by
        rw [← hc]
        show (if o then sortE es else es).Perm es
        split
        · exact sortE_perm _
        · exact List.Perm.refl _
      refine ⟨hperm.subperm.trans (hes.trans hE.1.subperm), ?_⟩
      intro e he
      exact hE.2 e (hes.subset (hperm.mem_iff.mp he))

end

/-! ## properties -/

/-- What C55 says about the hashes of a union result. -/
structure UnionHashes {S : Type} (lgK start sh : Nat) (ordered : Bool) (vs : List (View S))
    (c : Compact S) : Prop where
  theta_le : ∀ v ∈ vs, v.isEmpty = false → c.theta ≤ v.theta
  start_le : c.theta ≤ start
  mem : ∀ k, (∃ s, (k, s) ∈ c.entries) ↔
    k < c.theta ∧ ∃ v ∈ vs, v.isEmpty = false ∧ ∃ s, (k, s) ∈ v.all
  nodup : (c.entries.map Prod.fst).Nodup
  size : c.entries.length ≤ 2 ^ lgK
  full : c.entries.length = 2 ^ lgK ∨
    (c.theta = start ∨ ∃ v ∈ vs, v.isEmpty = false ∧ c.theta = v.theta)
  empty : c.isEmpty = true ↔ ∀ v ∈ vs, v.isEmpty = true
  seed : c.seedHash = sh
  sorted : ordered = true → (c.entries.map Prod.fst).Pairwise (· < ·)

theorem mem_map_fst {S : Type} {l : List (Entry S)} {k : Nat} :
    k ∈ l.map Prod.fst ↔ ∃ s, (k, s) ∈ l := by
  rw [List.mem_map]
  constructor
  · rintro ⟨⟨a, s⟩, hs, rfl⟩; exact ⟨s, hs⟩
  · rintro ⟨s, hs⟩; exact ⟨_, hs, rfl⟩

/-- general form of C55 -/
theorem union_general {H S V σ : Type} {K : Kind H S V} {read : H → S → σ} {new : σ}
    {upd : σ → V → σ} {app : σ → σ → σ} {own : H → List S → Prop}
    (L : Laws K read new upd app own) (lgK rf start sh : Nat) (hstart : start ≤ maxTheta)
    (u0 : Union S) (hnew : newUnion K lgK rf start = .ok u0) (h0 : H) (F : List S)
    (ops : List (UOp S)) (ho : own h0 (handed ops ++ F))
    (hops : ∀ v, UOp.update v ∈ ops → Valid v ∧ (v.isEmpty = false → v.seedHash = sh))
    (ordered : Bool) :
    ∃ u h c, urun K (some sh) u0 h0 ops = .ok (u, h) ∧ u.result K (some sh) ordered = .ok c ∧
      UnionHashes lgK start sh ordered (inputs [] ops) c ∧
      (∀ e ∈ c.entries, some (read h e.2) =
        mergeAll app (contribs (read h0) e.1 (inputs [] ops))) ∧
      own h (c.entries.map Prod.snd ++ F) ∧ ∀ x ∈ F, read h x = read h0 x := by
  obtain ⟨u, h, e, i, hvs⟩ := urun_tuinv L ops u0 h0 [] (unew_tuinv hnew ho) (by simp) hops
  have hk := newUnion_keys K lgK rf start
  rw [hnew] at hk
  have hops' : ∀ v, Theta.UOp.update v ∈ ops.map UOp.keys →
      Theta.Valid v ∧ (v.isEmpty = false → v.seedHash = sh) := by
    intro v hv
    obtain ⟨op, hop, hopv⟩ := List.mem_map.mp hv
    cases op with
    | reset => cases hopv
    | update w =>
      simp only [UOp.keys, Theta.UOp.update.injEq] at hopv
      subst hopv
      exact hops w hop
  -- the theta union of the same inputs
  have hrun : ∀ (ops : List (UOp S)) (u : Union S) (h : H),
      (urun K (some sh) u h ops).map (fun r => r.1.keys K) =
        Theta.urun (some sh) (u.keys K) (ops.map UOp.keys) := by
    intro ops
    induction ops with
    | nil => intro u h; rfl
    | cons op ops ih =>
      intro u h
      have hs : (ustep K (some sh) u h op).map (fun r => r.1.keys K) =
          Theta.ustep (some sh) (u.keys K) op.keys := by
        cases op with
        | update v => exact Union.update_keys K u h (some sh) v
        | reset => exact congrArg Outcome.ok (Union.reset_keys K u h)
      simp only [urun, List.map_cons, Theta.urun, ← hs, Outcome.bind_map, Outcome.map_bind]
      exact Outcome.bind_congr (fun r => ih r.1 r.2)
  obtain ⟨ku, kc, e1, e2, p1, p2, p3, p4, p5, p6, p7, p8, p9, p10⟩ :=
    Theta.C07_union_result lgK rf start sh hstart (u0.keys K) hk.symm (ops.map UOp.keys) hops' ordered
  have h1 := hrun ops u0 h0
  rw [e, e1] at h1
  simp only [Outcome.map_ok, Outcome.ok.injEq] at h1
  have h2 := Union.result_keys K u (some sh) ordered
  rw [h1, e2] at h2
  obtain ⟨c, hc, hck⟩ := Outcome.map_eq_ok.1 h2
  have hin : Theta.inputs [] (ops.map UOp.keys) = (inputs [] ops).map View.keys :=
    (inputs_keys ops []).symm
  rw [hin] at p1 p3 p6 p7
  subst hck
  obtain ⟨s1, s2⟩ := result_sub i.tinv hc
  have hlen : c.keys.entries.length = c.entries.length := by simp [Compact.keys]
  refine ⟨u, h, c, e, hc, ?_, ?_, ?_, i.frame⟩
  · refine { theta_le := ?_, start_le := p2, mem := ?_, nodup := p4, size := by rw [← hlen]; exact p5,
             full := ?_, empty := ?_, seed := p8, sorted := p10 }
    · intro v hv hve
      exact p1 v.keys (List.mem_map.mpr ⟨v, hv, rfl⟩) hve
    · intro k
      rw [← mem_map_fst]
      refine (p3 k).trans ?_
      constructor
      · rintro ⟨a, w, hw, b, d⟩
        obtain ⟨v, hv, rfl⟩ := List.mem_map.mp hw
        exact ⟨a, v, hv, b, mem_map_fst.mp d⟩
      · rintro ⟨a, v, hv, b, d⟩
        exact ⟨a, v.keys, List.mem_map.mpr ⟨v, hv, rfl⟩, b, mem_map_fst.mpr d⟩
    · rw [hlen] at p6
      rcases p6 with p6 | p6 | ⟨w, hw, b, d⟩
      · exact Or.inl p6
      · exact Or.inr (Or.inl p6)
      · obtain ⟨v, hv, rfl⟩ := List.mem_map.mp hw
        exact Or.inr (Or.inr ⟨v, hv, b, d⟩)
    · refine p7.trans ?_
      constructor
      · intro hh v hv
        exact hh v.keys (List.mem_map.mpr ⟨v, hv, rfl⟩)
      · intro hh w hw
        obtain ⟨v, hv, rfl⟩ := List.mem_map.mp hw
        exact hh v hv
  · intro a ha
    exact i.sums a (s1.subset ha) (s2 a ha)
  · refine L.sub _ _ _ i.own ?_
    apply (List.subperm_append_right F).mpr
    obtain ⟨l, l1, l2⟩ := s1
    exact ⟨l.map Prod.snd, l1.map _, l2.map _⟩

/-- C55 (summaries stored by value).  For every history of updates with valid sketches and resets:
updates and the result succeed; hashes, theta and emptiness are those of the union of the inputs
since the last reset; the summary of every hash is the merge, from left to right, of the summaries
that the inputs hold for this hash, in the order of the updates. -/
theorem C55_union_values {σ V : Type} (new : σ) (upd : σ → V → σ) (app : σ → σ → σ)
    (lgK rf start sh : Nat) (hstart : start ≤ maxTheta) (u0 : Union σ)
    (hnew : newUnion (values new upd app) lgK rf start = .ok u0) (ops : List (UOp σ))
    (hops : ∀ v, UOp.update v ∈ ops → Valid v ∧ (v.isEmpty = false → v.seedHash = sh))
    (ordered : Bool) :
    ∃ u c, urun (values new upd app) (some sh) u0 () ops = .ok (u, ()) ∧
      u.result (values new upd app) (some sh) ordered = .ok c ∧
      UnionHashes lgK start sh ordered (inputs [] ops) c ∧
      ∀ e ∈ c.entries, some e.2 = mergeAll app (contribs id e.1 (inputs [] ops)) := by
  obtain ⟨u, h, c, a, b, d, f, -⟩ := union_general (values_laws new upd app) lgK rf start sh hstart u0
    hnew () [] ops trivial hops ordered
  exact ⟨u, c, a, b, d, f⟩

/-- C55 (summaries behind pointers).  The same holds for the contents, where those of the inputs are
taken before the first update, provided the summaries handed over are live objects no two of which
are the same; objects in use elsewhere are not touched, and no two hashes share a summary. -/
theorem C55_union_pointers {σ V : Type} (new zero : σ) (upd : σ → V → σ) (app : σ → σ → σ)
    (lgK rf start sh : Nat) (hstart : start ≤ maxTheta) (u0 : Union Nat)
    (hnew : newUnion (pointers new zero upd app) lgK rf start = .ok u0) (h0 : List σ) (F : List Nat)
    (ops : List (UOp Nat)) (hdist : (handed ops ++ F).Nodup)
    (hlive : ∀ x ∈ handed ops ++ F, x < h0.length)
    (hops : ∀ v, UOp.update v ∈ ops → Valid v ∧ (v.isEmpty = false → v.seedHash = sh))
    (ordered : Bool) :
    ∃ u h c, urun (pointers new zero upd app) (some sh) u0 h0 ops = .ok (u, h) ∧
      u.result (pointers new zero upd app) (some sh) ordered = .ok c ∧
      UnionHashes lgK start sh ordered (inputs [] ops) c ∧
      (∀ e ∈ c.entries, h[e.2]? =
        mergeAll app (contribs (fun s => h0[s]?.getD zero) e.1 (inputs [] ops))) ∧
      (c.entries.map Prod.snd ++ F).Nodup ∧ ∀ x ∈ F, h[x]? = h0[x]? := by
  obtain ⟨u, h, c, a, b, d, f, g, k⟩ := union_general (pointers_laws new zero upd app) lgK rf start sh
    hstart u0 hnew h0 F ops ⟨hdist, hlive⟩ hops ordered
  refine ⟨u, h, c, a, b, d, ?_, g.1, ?_⟩
  · intro e he
    have hl : e.2 < h.length := g.2 e.2 (by
      simp only [List.mem_append, List.mem_map]; exact Or.inl ⟨e, he, rfl⟩)
    refine Eq.trans ?_ (f e he)
    simp only [content, List.getElem?_eq_getElem hl, Option.getD_some]
  · intro x hx
    have h1 : x < h.length := g.2 x (by simp [hx])
    have h2 : x < h0.length := hlive x (by simp [hx])
    have := k x hx
    simp only [content, List.getElem?_eq_getElem h1, List.getElem?_eq_getElem h2,
      Option.getD_some] at this
    rw [List.getElem?_eq_getElem h1, List.getElem?_eq_getElem h2, this]

/-! ## what goes wrong with shared summaries

Summaries are counters behind pointers and are merged by addition. -/

/-- counters -/
abbrev counters : Kind (List Nat) Nat Nat := pointers 0 0 (· + ·) (· + ·)

/-- a sketch holding hash 9 with the counter at address `s` -/
def one (s : Nat) : View Nat := ⟨false, true, maxTheta, 7, 1, [(9, s)]⟩

/-- the contents of the result after a history -/
def runResult (h0 : List Nat) (ops : List (UOp Nat)) : Outcome (List (Nat × Option Nat) × List Nat) :=
  (newUnion counters 5 1 maxTheta).bind (fun u0 =>
    (urun counters (some 7) u0 h0 ops).bind (fun r =>
      (r.1.result counters (some 7) false).bind (fun c => .ok (contents r.2 c.entries, r.2))))

/-- C55, negative part 1: giving the same sketch three times yields four times its counter (with
summaries stored by value it is three times). -/
theorem C55_union_same_input_thrice :
    runResult [1] [.update (one 0), .update (one 0), .update (one 0)] = .ok ([(9, some 4)], [4]) ∧
    ((newUnion (values 0 (· + ·) (· + ·) : Kind Unit Nat Nat) 5 1 maxTheta).bind (fun u0 =>
      (urun (values 0 (· + ·) (· + ·)) (some 7) u0 () [.update (one 1), .update (one 1), .update (one 1)]).bind
        (fun r => (r.1.result (values 0 (· + ·) (· + ·) : Kind Unit Nat Nat) (some 7) false).bind
          (fun c => .ok c.entries)))) = .ok [(9, 3)] := by
  decide +kernel

/-- C55, negative part 2: the union changes the summaries of the sketches it was given: after
uniting two sketches with counters 1 and 10, the first input holds 11. -/
theorem C55_union_changes_its_inputs :
    runResult [1, 10] [.update (one 0), .update (one 1)] = .ok ([(9, some 11)], [11, 10]) := by
  decide +kernel

/-- C55, negative part 3: a result shares its summaries with the union: the result taken after the
first update holds counter 1 (at address 0), and 11 after the next update. -/
theorem C55_union_result_changes_later :
    runResult [1, 10] [.update (one 0)] = .ok ([(9, some 1)], [1, 10]) ∧
    ((newUnion counters 5 1 maxTheta).bind (fun u0 =>
      (urun counters (some 7) u0 [1, 10] [.update (one 0)]).bind (fun r =>
        (r.1.result counters (some 7) false).bind (fun c =>
          (r.1.update counters r.2 (some 7) (one 1)).bind (fun r' =>
            .ok (contents r'.2 c.entries)))))) = .ok [(9, some 11)] := by
  decide +kernel

/-- C55, negative part 4: resetting a union zeroes the summaries of the inputs it still holds, when
the table keeps its size (here: resize factor 1 and at most 31 hashes); otherwise it leaves them. -/
theorem C55_union_reset_clears_inputs :
    runResult [1] [.update (one 0), .reset] = .ok ([], [0]) := by
  decide +kernel

/-! ## non-vacuity -/

/-- two sketches sharing hash 9: the hypotheses of `C55_union_pointers` hold and the result is as
stated -/
example : ∀ v, UOp.update v ∈ [UOp.update (one 0), UOp.update (one 1)] →
    Valid v ∧ (v.isEmpty = false → v.seedHash = 7) := by
  have : ∀ s, Valid (one s) := fun s =>
    { nodup := by simp [one, View.keys], range := by simp [one, View.keys, maxTheta],
      num := rfl, ordered := by simp [one, View.keys],
      theta := by simp [one, View.keys], empty := by simp [one, View.keys] }
  intro v hv
  simp only [List.mem_cons, UOp.update.injEq, List.not_mem_nil, or_false] at hv
  rcases hv with rfl | rfl
  · exact ⟨this 0, fun _ => rfl⟩
  · exact ⟨this 1, fun _ => rfl⟩

example : (handed [UOp.update (one 0), UOp.update (one 1)] ++ [2]).Nodup := by decide

example : mergeAll (· + ·) (contribs (fun s => ([1, 10] : List Nat)[s]?.getD 0) 9 [one 0, one 1])
    = some 11 := by decide

end Verif.Tuple
