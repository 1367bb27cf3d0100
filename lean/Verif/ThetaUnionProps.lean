import Verif.ThetaValid
import Mathlib.Data.List.Dedup
import Mathlib.Data.List.Perm.Subperm

/-!
# C07, C08: theta union
-/

namespace Verif.Theta

open Probe HashTable

/-! ## histories and specification -/

inductive UOp where
  | update (v : View)
  | reset

def ustep (sh : Option Nat) (u : Union) : UOp → Outcome Union
  | .update v => u.update sh v
  | .reset => .ok u.reset

def urun (sh : Option Nat) : Union → List UOp → Outcome Union
  | u, [] => .ok u
  | u, op :: ops => do let u ← ustep sh u op; urun sh u ops

/-- Spec: the inputs since the last reset. -/
def inputs : List View → List UOp → List View
  | acc, [] => acc
  | acc, .update v :: ops => inputs (acc ++ [v]) ops
  | _, .reset :: ops => inputs [] ops

/-- Spec: the smallest theta among `start` and the non-empty inputs. -/
def minTheta (start : Nat) (vs : List View) : Nat :=
  ((vs.filter (fun v => !v.isEmpty)).map View.theta).foldl min start

/-- Spec: all distinct hashes of non-empty inputs below `m`, ascending. -/
def unionHashes (m : Nat) (vs : List View) : List Nat :=
  sortN ((((vs.filter (fun v => !v.isEmpty)).flatMap View.all).filter (fun h => decide (h < m))).dedup)

/-- Spec of the union of `vs` with `k` nominal entries: theta and ascending list of hashes. -/
def unionSpec (k start : Nat) (vs : List View) : Nat × List Nat :=
  let m := minTheta start vs
  let a := unionHashes m vs
  if a.length ≤ k then (m, a) else (a.getD k 0, a.take k)

/-! ## loop -/

theorem mem_all_perm {t : Tbl} {l : List Nat} {th : Nat}
    (p : (itemsOf elem t.entries).Perm (l.filter (fun x => decide (elem.key x < th)))) (x : Nat) :
    x ∈ all t ↔ x ∈ l ∧ x < th := by
  rw [all_eq, p.mem_iff, mem_filter_lt]

theorem unionLoop_spec (uT : Nat) (ord : Bool) : ∀ (es : List Nat) (t : Tbl), TInv elem t →
    (∀ e ∈ es, e ≠ 0) → (ord = true → es.Pairwise (· < ·)) →
    ∃ t', unionLoop uT ord es t = .ok t' ∧ TInv elem t' ∧ SameParams t t' ∧ t'.isEmpty = t.isEmpty ∧
      t'.theta ≤ t.theta ∧
      (∀ x, x ∈ all t' → x ∈ all t ∨ x ∈ es) ∧
      (∀ x, x < uT → x < t'.theta → (x ∈ all t' ↔ x ∈ all t ∨ x ∈ es)) ∧
      (t'.theta ≠ t.theta → 2 ^ t.lgNom ≤ t'.numEntries ∧ (t'.theta ∈ all t ∨ t'.theta ∈ es)) ∧
      (t'.theta = t.theta → t.numEntries ≤ t'.numEntries) := by
  intro es
  induction es with
  | nil =>
    intro t h _ _
    exact ⟨t, rfl, h, SameParams.refl t, rfl, le_refl _, fun x hx => Or.inl hx, by simp,
      fun hc => absurd rfl hc, fun _ => le_refl _⟩
  | cons e es ih =>
    intro t h hnz hord
    have hnz' : ∀ x ∈ es, x ≠ 0 := fun x hx => hnz x (by simp [hx])
    have hord' : ord = true → es.Pairwise (· < ·) := fun ho => (List.pairwise_cons.mp (hord ho)).2
    have h0 : e ≠ 0 := hnz e (by simp)
    unfold unionLoop
    by_cases hc : e < uT ∧ e < t.theta
    · rw [if_pos hc]
      rcases h.find_total e with ⟨p, hf, hp, habs⟩ | ⟨p, y, hf, hpy, hk, hmem⟩
      · rw [hf]
        obtain ⟨t1, e1, i1, s1, em1, th1, p1, ch1⟩ := insert_inv h (e := e) h0 hc.2 hf
        obtain ⟨t2, e2, i2, s2, em2, th2, a2, b2, c2, d2⟩ := ih t1 i1 hnz' hord'
        have hm1 := mem_all_perm p1
        simp only [e1, Outcome.ok_bind]
        refine ⟨t2, e2, i2, s1.trans s2, by rw [em2, em1], le_trans th2 th1, ?_, ?_, ?_, ?_⟩
        · intro x hx
          rcases a2 x hx with hx | hx
          · have := (hm1 x).mp hx
            rcases List.mem_cons.mp this.1 with rfl | hx
            · right; simp
            · left; exact hx
          · right; simp [hx]
        · intro x hx1 hx2
          rw [b2 x hx1 hx2, hm1 x, List.mem_cons, List.mem_cons]
          constructor
          · rintro (⟨rfl | hx, -⟩ | hx)
            · right; left; rfl
            · left; exact hx
            · right; right; exact hx
          · rintro (hx | rfl | hx)
            · left; exact ⟨Or.inr hx, lt_of_lt_of_le hx2 th2⟩
            · left; exact ⟨Or.inl rfl, lt_of_lt_of_le hx2 th2⟩
            · right; exact hx
        · intro hne
          by_cases h21 : t2.theta = t1.theta
          · have hne1 : t1.theta ≠ t.theta := by rw [← h21]; exact hne
            obtain ⟨-, hk1, x, hx, hxk⟩ := ch1 hne1
            refine ⟨le_trans (le_of_eq hk1.symm) (d2 h21), ?_⟩
            have hxk' : x = t1.theta := hxk
            rw [h21, ← hxk']
            rcases List.mem_cons.mp hx with rfl | hx
            · right; simp
            · left; exact hx
          · obtain ⟨hk2, hx⟩ := c2 h21
            rw [s1.lgNom] at hk2
            refine ⟨hk2, ?_⟩
            rcases hx with hx | hx
            · rcases List.mem_cons.mp ((hm1 _).mp hx).1 with hx | hx
              · right; simp [hx]
              · left; exact hx
            · right; simp [hx]
        · intro heq
          have h1 : t1.theta = t.theta := by omega
          have h2 := d2 (by omega)
          have h3 : t1.numEntries = t.numEntries + 1 := by
            have hfil : (e :: itemsOf elem t.entries).filter (fun x => decide (elem.key x < t1.theta))
                = e :: itemsOf elem t.entries := by
              rw [List.filter_eq_self]
              intro x hx
              rw [h1, decide_eq_true_eq]
              rcases List.mem_cons.mp hx with rfl | hx
              · exact hc.2
              · exact h.below x hx
            rw [hfil] at p1
            rw [i1.num, p1.length_eq, List.length_cons, ← h.num]
          omega
      · rw [hf]
        obtain ⟨t2, e2, i2, s2, em2, th2, a2, b2, c2, d2⟩ := ih t h hnz' hord'
        have hy : y = e := hk
        subst hy
        refine ⟨t2, e2, i2, s2, em2, th2, ?_, ?_, ?_, d2⟩
        · intro x hx
          rcases a2 x hx with hx | hx
          · exact Or.inl hx
          · exact Or.inr (by simp [hx])
        · intro x hx1 hx2
          rw [b2 x hx1 hx2, List.mem_cons]
          constructor
          · rintro (hx | hx)
            · exact Or.inl hx
            · exact Or.inr (Or.inr hx)
          · rintro (hx | rfl | hx)
            · exact Or.inl hx
            · exact Or.inl hmem
            · exact Or.inr hx
        · intro hne
          obtain ⟨hk2, hx⟩ := c2 hne
          refine ⟨hk2, ?_⟩
          rcases hx with hx | hx
          · exact Or.inl hx
          · exact Or.inr (by simp [hx])
    · rw [if_neg hc]
      cases ord with
      | true =>
        simp only [if_true]
        refine ⟨t, rfl, h, SameParams.refl t, rfl, le_refl _, fun x hx => Or.inl hx, ?_,
          fun hcc => absurd rfl hcc, fun _ => le_refl _⟩
        intro x hx1 hx2
        constructor
        · exact Or.inl
        · rintro (hx | hx)
          · exact hx
          · exfalso
            have hle : e ≤ x := by
              rcases List.mem_cons.mp hx with rfl | hx
              · exact le_refl _
              · exact le_of_lt ((List.pairwise_cons.mp (hord rfl)).1 x hx)
            omega
      | false =>
        simp only [Bool.false_eq_true, if_false]
        obtain ⟨t2, e2, i2, s2, em2, th2, a2, b2, c2, d2⟩ := ih t h hnz' hord'
        refine ⟨t2, e2, i2, s2, em2, th2, ?_, ?_, ?_, d2⟩
        · intro x hx
          rcases a2 x hx with hx | hx
          · exact Or.inl hx
          · exact Or.inr (by simp [hx])
        · intro x hx1 hx2
          rw [b2 x hx1 hx2, List.mem_cons]
          constructor
          · rintro (hx | hx)
            · exact Or.inl hx
            · exact Or.inr (Or.inr hx)
          · rintro (hx | rfl | hx)
            · exact Or.inl hx
            · exfalso; omega
            · exact Or.inr hx
        · intro hne
          obtain ⟨hk2, hx⟩ := c2 hne
          refine ⟨hk2, ?_⟩
          rcases hx with hx | hx
          · exact Or.inl hx
          · exact Or.inr (by simp [hx])

/-! ## invariant of the union -/

/-- hashes in non-empty inputs -/
def InSome (vs : List View) (x : Nat) : Prop := ∃ v ∈ vs, v.isEmpty = false ∧ x ∈ v.all

structure UInv (lgK start : Nat) (u : Union) (vs : List View) : Prop where
  tinv : TInv elem u.table
  lgk : u.table.lgNom = lgK
  ge5 : 5 ≤ lgK
  st : u.table.startTheta = start
  le_start : u.table.theta ≤ start
  empty : u.table.isEmpty = true ↔ ∀ v ∈ vs, v.isEmpty = true
  theta : u.theta = min (minTheta start vs) u.table.theta
  sub : ∀ x, x ∈ all u.table → InSome vs x
  ret : ∀ x, x < u.theta → (x ∈ all u.table ↔ InSome vs x)
  full : u.table.theta ≠ start → 2 ^ lgK ≤ u.table.numEntries ∧ InSome vs u.table.theta

theorem minTheta_append (start : Nat) (vs : List View) (v : View) :
    minTheta start (vs ++ [v]) =
      if v.isEmpty then minTheta start vs else min (minTheta start vs) v.theta := by
  cases hv : v.isEmpty <;> simp [minTheta, hv, List.filter_append, List.foldl_append]

theorem inSome_append (vs : List View) (v : View) (x : Nat) :
    InSome (vs ++ [v]) x ↔ InSome vs x ∨ (v.isEmpty = false ∧ x ∈ v.all) := by
  constructor
  · rintro ⟨w, hw, h⟩
    rcases List.mem_append.mp hw with hw | hw
    · exact Or.inl ⟨w, hw, h⟩
    · rw [List.mem_singleton] at hw; subst hw; exact Or.inr h
  · rintro (⟨w, hw, h⟩ | h)
    · exact ⟨w, by simp [hw], h⟩
    · exact ⟨v, by simp, h⟩

theorem uupdate_inv {lgK start sh : Nat} {u : Union} {vs : List View} (h : UInv lgK start u vs)
    {v : View} (hv : Valid v) (hsh : v.isEmpty = false → v.seedHash = sh) :
    ∃ u', u.update (some sh) v = .ok u' ∧ UInv lgK start u' (vs ++ [v]) := by
  unfold Union.update
  cases hem : v.isEmpty with
  | true =>
    simp only [if_true]
    refine ⟨u, rfl, ?_⟩
    have hin : ∀ x, InSome (vs ++ [v]) x ↔ InSome vs x := by
      intro x; rw [inSome_append]; simp [hem]
    exact { tinv := h.tinv, lgk := h.lgk, ge5 := h.ge5, st := h.st, le_start := h.le_start,
            empty := by
              rw [h.empty]; constructor
              · intro hh w hw
                rcases List.mem_append.mp hw with hw | hw
                · exact hh w hw
                · rw [List.mem_singleton] at hw; subst hw; exact hem
              · intro hh w hw; exact hh w (by simp [hw]),
            theta := by rw [minTheta_append, hem]; exact h.theta,
            sub := fun x hx => (hin x).mpr (h.sub x hx),
            ret := fun x hx => (h.ret x hx).trans (hin x).symm,
            full := fun hne => ⟨(h.full hne).1, (hin _).mpr (h.full hne).2⟩ }
  | false =>
    simp only [Bool.false_eq_true, if_false]
    rw [if_neg (by rw [hsh hem]; simp)]
    obtain ⟨t2, e2, i2, s2, em2, th2, a2, b2, c2, d2⟩ := unionLoop_spec (min u.theta v.theta)
      v.isOrdered v.all _ (tinv_isEmpty false h.tinv) (fun e he => (hv.range e he).1) hv.ordered
    rw [e2]
    simp only [Outcome.ok_bind, Outcome.pure_eq]
    have hall : all ({ u.table with isEmpty := false } : Tbl) = all u.table := rfl
    rw [hall] at a2 b2 c2
    have hin : ∀ x, InSome (vs ++ [v]) x ↔ InSome vs x ∨ x ∈ v.all := by
      intro x; rw [inSome_append]; simp [hem]
    refine ⟨_, rfl, ?_⟩
    refine { tinv := i2, lgk := by rw [s2.lgNom]; exact h.lgk, ge5 := h.ge5,
             st := by rw [s2.start]; exact h.st, le_start := le_trans th2 h.le_start,
             empty := ?_, theta := ?_, sub := ?_, ret := ?_, full := ?_ }
    · rw [em2]
      simp only [Bool.false_eq_true, false_iff]
      intro hh
      have := hh v (by simp)
      rw [hem] at this; cases this
    · rw [minTheta_append, hem, h.theta]
      simp only [Bool.false_eq_true, if_false]
      have : t2.theta ≤ u.table.theta := th2
      omega
    · intro x hx
      rw [hin]
      rcases a2 x hx with hx | hx
      · exact Or.inl (h.sub x hx)
      · exact Or.inr hx
    · intro x hx
      simp only at hx
      rw [b2 x (by omega) (by omega), hin, h.ret x (by omega)]
    · intro hne
      by_cases heq : t2.theta = u.table.theta
      · obtain ⟨f1, f2⟩ := h.full (by rw [← heq]; exact hne)
        refine ⟨le_trans f1 (d2 heq), ?_⟩
        rw [hin]
        simp only [heq]
        exact Or.inl f2
      · obtain ⟨f1, f2⟩ := c2 heq
        have f1' : 2 ^ u.table.lgNom ≤ t2.numEntries := f1
        rw [h.lgk] at f1'
        refine ⟨f1', ?_⟩
        rw [hin]
        rcases f2 with f2 | f2
        · exact Or.inl (h.sub _ f2)
        · exact Or.inr f2

theorem ureset_inv {lgK start : Nat} {u : Union} {vs : List View} (h : UInv lgK start u vs) :
    UInv lgK start u.reset [] := by
  obtain ⟨i1, it1, s1, em1, th1⟩ := reset_inv h.tinv (by rw [h.lgk]; exact h.ge5)
  have hth : (u.table.reset elem).theta = start := by rw [th1, h.st]
  refine { tinv := i1, lgk := by rw [Union.reset]; simp only; rw [s1.lgNom]; exact h.lgk,
           ge5 := h.ge5, st := by rw [Union.reset]; simp only; rw [s1.start]; exact h.st,
           le_start := le_of_eq hth, empty := by simp [Union.reset, em1], theta := ?_,
           sub := ?_, ret := ?_, full := ?_ }
  · simp only [Union.reset, hth, minTheta, List.filter_nil, List.map_nil, List.foldl_nil]
    omega
  · intro x hx
    have : x ∈ itemsOf elem (u.table.reset elem).entries := hx
    rw [it1] at this; simp at this
  · intro x _
    have : all (u.reset).table = [] := it1
    rw [this]; simp [InSome]
  · intro hne; exact absurd hth hne

theorem unew_inv {lgK rf start : Nat} {u : Union} (h : newUnion lgK rf start = .ok u) :
    UInv lgK start u [] := by
  unfold newUnion at h
  cases ht : newTable lgK rf start with
  | err m => rw [ht] at h; cases h
  | panic => rw [ht] at h; cases h
  | ok t =>
    rw [ht] at h
    simp only [Outcome.ok_bind, Outcome.pure_eq, Outcome.ok.injEq] at h
    subst h
    have i : SInv (fun x : Nat => x) lgK start t [] := new_sinv _ ht
    have hth : t.theta = start := i.fresh (i.empty.mpr rfl)
    have hall : all t = [] := by
      apply List.eq_nil_iff_forall_not_mem.mpr
      intro a ha; have := (i.ret a).mp ha; simp at this
    exact { tinv := i.tinv, lgk := i.lgk, ge5 := i.ge5, st := i.st, le_start := i.le_start,
            empty := by simp [i.empty.mpr rfl],
            theta := by simp [minTheta, hth],
            sub := by intro x hx; rw [hall] at hx; simp at hx,
            ret := by intro x _; simp [hall, InSome],
            full := fun hne => absurd hth hne }

theorem urun_inv {lgK start sh : Nat} : ∀ (ops : List UOp) (u : Union) (vs : List View),
    UInv lgK start u vs →
    (∀ v, UOp.update v ∈ ops → Valid v ∧ (v.isEmpty = false → v.seedHash = sh)) →
    ∃ u', urun (some sh) u ops = .ok u' ∧ UInv lgK start u' (inputs vs ops) := by
  intro ops
  induction ops with
  | nil => intro u vs h _; exact ⟨u, rfl, h⟩
  | cons op ops ih =>
    intro u vs h hops
    have hops' : ∀ v, UOp.update v ∈ ops → Valid v ∧ (v.isEmpty = false → v.seedHash = sh) :=
      fun v hv => hops v (by simp [hv])
    cases op with
    | update v =>
      obtain ⟨hv, hs⟩ := hops v (by simp)
      obtain ⟨u1, e1, i1⟩ := uupdate_inv h hv hs
      obtain ⟨u2, e2, i2⟩ := ih u1 _ i1 hops'
      exact ⟨u2, by simp [urun, ustep, e1, e2], i2⟩
    | reset =>
      obtain ⟨u2, e2, i2⟩ := ih _ _ (ureset_inv h) hops'
      exact ⟨u2, by simp [urun, ustep, e2], i2⟩

/-! ## the result -/

theorem mem_unionHashes {m : Nat} {vs : List View} {x : Nat} :
    x ∈ unionHashes m vs ↔ InSome vs x ∧ x < m := by
  simp only [unionHashes, mem_sortN, List.mem_dedup, List.mem_filter, List.mem_flatMap,
    decide_eq_true_eq, InSome, Bool.not_eq_true']
  constructor
  · rintro ⟨⟨v, ⟨h1, h2⟩, h3⟩, h4⟩; exact ⟨⟨v, h1, h2, h3⟩, h4⟩
  · rintro ⟨⟨v, h1, h2, h3⟩, h4⟩; exact ⟨⟨v, ⟨h1, h2⟩, h3⟩, h4⟩

theorem unionHashes_strict (m : Nat) (vs : List View) : (unionHashes m vs).Pairwise (· < ·) :=
  sortN_strict (List.nodup_dedup _)

theorem unionHashes_nodup (m : Nat) (vs : List View) : (unionHashes m vs).Nodup :=
  (unionHashes_strict m vs).imp (by intro a b h; omega)

/-- the entries collected by `Result` before the cut -/
theorem result_entries {lgK start : Nat} {u : Union} {vs : List View} (h : UInv lgK start u vs) :
    (if u.theta ≥ u.table.theta then u.table.entries.filter (fun e => e != 0)
      else u.table.entries.filter (fun e => e != 0 && decide (e < min u.theta u.table.theta))) =
    (all u.table).filter (fun e => decide (e < u.theta)) := by
  have hle : u.theta ≤ u.table.theta := by rw [h.theta]; omega
  have hall : ∀ e ∈ all u.table, e < u.table.theta := fun e he => h.tinv.below e he
  split
  · rename_i hge
    have : u.theta = u.table.theta := by omega
    rw [this]
    symm
    exact List.filter_eq_self.mpr (fun a ha => by simpa using hall a ha)
  · rw [all, List.filter_filter]
    apply List.filter_congr
    intro x _
    rw [Nat.min_eq_left hle, Bool.and_comm]

/-- The union result in canonical form. -/
theorem result_spec {lgK start sh : Nat} {u : Union} {vs : List View} (h : UInv lgK start u vs)
    (hstart : start ≤ maxTheta) (hvs : ∀ v ∈ vs, Valid v) (ordered : Bool) :
    ∃ c, u.result (some sh) ordered = .ok c ∧ c.theta = (unionSpec (2 ^ lgK) start vs).1 ∧
      sortN c.entries = (unionSpec (2 ^ lgK) start vs).2 ∧ c.seedHash = sh ∧
      (c.isEmpty = true ↔ ∀ v ∈ vs, v.isEmpty = true) ∧ Valid c.view ∧
      (ordered = true → c.isOrdered = true) := by
  have hnz : ∀ x, InSome vs x → x ≠ 0 := by
    rintro x ⟨v, hv, -, hx⟩; exact ((hvs v hv).range x hx).1
  have hmle : minTheta start vs ≤ maxTheta := by
    have : ∀ (l : List Nat) (a : Nat), l.foldl min a ≤ a := by
      intro l
      induction l with
      | nil => intro a; exact le_refl _
      | cons b l ih => intro a; exact le_trans (ih _) (min_le_left _ _)
    exact le_trans (this _ _) hstart
  unfold Union.result
  simp only
  by_cases hem : u.table.isEmpty = true
  · rw [if_pos hem]
    have hall := h.empty.mp hem
    have hfil : vs.filter (fun v => !v.isEmpty) = [] := by
      rw [List.filter_eq_nil_iff]; intro v hv; simp [hall v hv]
    have hm : minTheta start vs = start := by simp [minTheta, hfil]
    have hA : unionHashes (minTheta start vs) vs = [] := by
      simp [unionHashes, hfil, sortN]
    rw [hm] at hA
    have hth : u.theta = start := by
      rw [h.theta, hm]
      by_cases hne : u.table.theta = start
      · omega
      · obtain ⟨-, v, hv, hv2, -⟩ := h.full hne
        rw [hall v hv] at hv2; cases hv2
    refine ⟨_, rfl, ?_, ?_, rfl, ?_, ?_, ?_⟩
    · simp [unionSpec, hA, compactFromEntries, hth, hm]
    · simp [unionSpec, hA, hm, compactFromEntries, sortN]
    · simp only [compactFromEntries, true_iff]; exact hall
    · exact compactFromEntries_valid List.nodup_nil (by simp) (fun _ => List.Pairwise.nil)
        (by rw [hth]; exact hstart) (fun _ => rfl)
    · intro _; simp [compactFromEntries]
  · rw [if_neg hem, result_entries h]
    have hle : u.theta ≤ u.table.theta := by rw [h.theta]; omega
    rw [Nat.min_eq_left hle, h.lgk]
    set A := unionHashes (minTheta start vs) vs with hAdef
    set es := (all u.table).filter (fun e => decide (e < u.theta)) with hes
    have hAnd : A.Nodup := unionHashes_nodup _ _
    have hAs : sortN A = A := (sortN_eq_of_perm (List.Perm.refl A)
      ((unionHashes_strict (minTheta start vs) vs).imp (fun h => le_of_lt h))).symm
    have hesnd : es.Nodup := (nodup_all h.tinv).filter _
    have huM : u.theta ≤ minTheta start vs := by rw [h.theta]; omega
    -- the collected entries are the canonical ones below u.theta
    have hperm : es.Perm (A.filter (fun e => decide (e < u.theta))) := by
      apply (List.perm_ext_iff_of_nodup hesnd (hAnd.filter _)).mpr
      intro x
      rw [hes, List.mem_filter, List.mem_filter, decide_eq_true_eq, hAdef, mem_unionHashes]
      constructor
      · rintro ⟨h1, h2⟩; exact ⟨⟨(h.ret x h2).mp h1, by omega⟩, h2⟩
      · rintro ⟨⟨h1, h2⟩, h3⟩; exact ⟨(h.ret x h3).mpr h1, h3⟩
    have hesR : ∀ e ∈ es, e ≠ 0 ∧ e < u.theta := by
      intro e he
      rw [hes, List.mem_filter, decide_eq_true_eq] at he
      exact ⟨hnz e (h.sub e he.1), he.2⟩
    -- either nothing was cut, or at least k entries remain and u.theta is one of the hashes
    have hdich : (u.theta = minTheta start vs ∧ es.Perm A) ∨
        (2 ^ lgK ≤ es.length ∧ u.theta ∈ A ∧ u.theta < minTheta start vs) := by
      by_cases hc : u.theta = minTheta start vs
      · left
        refine ⟨hc, ?_⟩
        have : A.filter (fun e => decide (e < u.theta)) = A := by
          rw [List.filter_eq_self]
          intro x hx
          rw [decide_eq_true_eq, hc]
          exact (mem_unionHashes.mp hx).2
        rwa [this] at hperm
      · right
        have h1 : u.theta = u.table.theta := by have := h.theta; omega
        have hMs : minTheta start vs ≤ start := by
          have : ∀ (l : List Nat) (a : Nat), l.foldl min a ≤ a := by
            intro l
            induction l with
            | nil => intro a; exact le_refl _
            | cons b l ih => intro a; exact le_trans (ih _) (min_le_left _ _)
          exact this _ _
        have hne : u.table.theta ≠ start := by omega
        obtain ⟨f1, f2⟩ := h.full hne
        refine ⟨?_, ?_, by omega⟩
        · have : es = all u.table := by
            rw [hes, List.filter_eq_self]
            intro x hx
            rw [decide_eq_true_eq, h1]
            exact h.tinv.below x hx
          rw [this]
          have := h.tinv.num
          rw [this] at f1; exact f1
        · rw [hAdef, mem_unionHashes, h1]; exact ⟨f2, by omega⟩
    have hemf : u.table.isEmpty = false := by simpa using hem
    have hemiff : ∀ (b : Bool) (th : Nat) (l : List Nat),
        ((compactFromEntries u.table.isEmpty b sh th l).isEmpty = true ↔ ∀ v ∈ vs, v.isEmpty = true) := by
      intro b th l; exact h.empty
    -- finishing: entries l (unsorted) with theta th
    have fin : ∀ (l : List Nat) (th : Nat), l.Nodup → (∀ e ∈ l, e ≠ 0 ∧ e < th) → th ≤ maxTheta →
        th = (unionSpec (2 ^ lgK) start vs).1 → sortN l = (unionSpec (2 ^ lgK) start vs).2 →
        ∃ c, (Outcome.ok (compactFromEntries u.table.isEmpty ordered sh th
            (if ordered = true then sortN l else l))) = Outcome.ok c ∧
          c.theta = (unionSpec (2 ^ lgK) start vs).1 ∧
          sortN c.entries = (unionSpec (2 ^ lgK) start vs).2 ∧ c.seedHash = sh ∧
          (c.isEmpty = true ↔ ∀ v ∈ vs, v.isEmpty = true) ∧ Valid c.view ∧
          (ordered = true → c.isOrdered = true) := by
      intro l th hnd hr hth h1 h2
      have hp : (if ordered = true then sortN l else l).Perm l := by
        split
        · exact sortN_perm l
        · exact List.Perm.refl _
      refine ⟨_, rfl, h1, ?_, rfl, hemiff _ _ _, ?_, ?_⟩
      · rw [← h2]; exact sortN_congr hp
      · refine compactFromEntries_valid (hp.nodup_iff.mpr hnd) ?_ ?_ hth (by simp [hemf])
        · intro e he; exact hr e (hp.mem_iff.mp he)
        · intro ho; rw [if_pos ho]; exact sortN_strict hnd
      · intro ho; simp [compactFromEntries, ho]
    by_cases hgt : es.length > 2 ^ lgK
    · rw [if_pos hgt]
      obtain ⟨arr, v, q, hap, hsv, hav, hL, hR⟩ :=
        QuickSelect.C05_quickSelect_is_order_statistic es (2 ^ lgK) hgt
      have q' : QuickSelect.quickSelect (ltKey elem) es 0 ((es.length : Int) - 1) (2 ^ lgK)
          = some (arr, v) := q
      have hsv' : (sortN es)[2 ^ lgK]? = some v := hsv
      rw [q']
      simp only [hav, Outcome.ok_bind, Outcome.pure_eq]
      -- sorted entries are a prefix of A
      have hpre : ∃ r, A = sortN es ++ r := by
        rcases hdich with ⟨-, hp⟩ | ⟨-, hm, -⟩
        · exact ⟨[], by rw [List.append_nil, ← hAs]; exact sortN_congr hp.symm⟩
        · have := sortN_below hAnd hm hperm
          rw [hAs] at this
          exact ⟨A.drop es.length, by rw [this.2]; exact (List.take_append_drop _ _).symm⟩
      obtain ⟨r, hr⟩ := hpre
      have hAlen : ¬ A.length ≤ 2 ^ lgK := by
        rw [hr, List.length_append, sortN_length]; omega
      have hAk : A.getD (2 ^ lgK) 0 = v := by
        rw [List.getD_eq_getElem?_getD, hr, List.getElem?_append_left (by rw [sortN_length]; omega), hsv']
        rfl
      have hvmem : v ∈ es := by
        have := List.mem_of_getElem? hsv'; rwa [mem_sortN] at this
      have harrnd : arr.Nodup := hap.nodup_iff.mpr hesnd
      have htake : (arr.take (2 ^ lgK)).Perm (es.filter (fun e => decide (e < v))) := by
        have hdec : arr = arr.take (2 ^ lgK) ++ arr.drop (2 ^ lgK) := (List.take_append_drop _ _).symm
        have hlt : 2 ^ lgK < arr.length := by rw [hap.length_eq]; omega
        have hdrop : arr.drop (2 ^ lgK) = v :: arr.drop (2 ^ lgK + 1) := by
          rw [List.drop_eq_getElem_cons hlt]
          congr 1
          rw [List.getElem?_eq_getElem hlt] at hav; simpa using hav
        rw [hdrop] at hdec
        have hnd2 := harrnd
        rw [hdec, List.nodup_append] at hnd2
        apply (List.perm_ext_iff_of_nodup hnd2.1 (hesnd.filter _)).mpr
        intro x
        rw [List.mem_filter, decide_eq_true_eq]
        constructor
        · intro hx
          refine ⟨hap.mem_iff.mp (List.mem_of_mem_take hx), ?_⟩
          have h1 := hL x hx
          have h2 := hnd2.2.2 x hx v (by simp)
          omega
        · rintro ⟨hx, hlt'⟩
          have hx' := hap.mem_iff.mpr hx
          rw [hdec, List.mem_append] at hx'
          rcases hx' with hx' | hx'
          · exact hx'
          · exfalso
            rcases List.mem_cons.mp hx' with rfl | hx'
            · omega
            · have := hR x hx'; omega
      have htl : (arr.take (2 ^ lgK)).length = 2 ^ lgK := by
        rw [List.length_take, hap.length_eq]; omega
      have hst := sortN_below hesnd hvmem htake
      rw [htl] at hst
      apply fin
      · exact htake.nodup_iff.mpr (hesnd.filter _)
      · intro e he
        have := htake.mem_iff.mp he
        rw [List.mem_filter, decide_eq_true_eq] at this
        exact ⟨(hesR e this.1).1, this.2⟩
      · have := (hesR v hvmem).2; omega
      · simp only [unionSpec]; rw [if_neg hAlen]; exact hAk.symm
      · simp only [unionSpec]; rw [if_neg hAlen, hst.2]
        show _ = A.take (2 ^ lgK)
        rw [hr, List.take_append_of_le_length (by rw [sortN_length]; omega)]
    · rw [if_neg hgt]
      simp only [Outcome.ok_bind, Outcome.pure_eq]
      apply fin es u.theta hesnd hesR (by omega)
      · rcases hdich with ⟨hc, hp⟩ | ⟨hk, hm, hlt⟩
        · have : A.length ≤ 2 ^ lgK := by rw [← hp.length_eq]; omega
          simp only [unionSpec]; rw [if_pos this]; exact hc
        · have hkeq : es.length = 2 ^ lgK := by omega
          have hb := sortN_below hAnd hm hperm
          rw [hAs, hkeq] at hb
          have hAlen : ¬ A.length ≤ 2 ^ lgK := by
            intro hcon
            rw [List.getElem?_eq_none hcon] at hb; cases hb.1
          simp only [unionSpec]; rw [if_neg hAlen]
          show _ = A.getD (2 ^ lgK) 0
          rw [List.getD_eq_getElem?_getD, hb.1]; rfl
      · rcases hdich with ⟨hc, hp⟩ | ⟨hk, hm, hlt⟩
        · have : A.length ≤ 2 ^ lgK := by rw [← hp.length_eq]; omega
          simp only [unionSpec]; rw [if_pos this, sortN_congr hp]; exact hAs
        · have hkeq : es.length = 2 ^ lgK := by omega
          have hb := sortN_below hAnd hm hperm
          rw [hAs, hkeq] at hb
          have hAlen : ¬ A.length ≤ 2 ^ lgK := by
            intro hcon
            rw [List.getElem?_eq_none hcon] at hb; cases hb.1
          simp only [unionSpec]; rw [if_neg hAlen]; exact hb.2

/-! ## properties -/

theorem minTheta_le {start : Nat} {vs : List View} {v : View} (hv : v ∈ vs)
    (hem : v.isEmpty = false) : minTheta start vs ≤ v.theta := by
  have hmem : v.theta ∈ (vs.filter (fun v => !v.isEmpty)).map View.theta :=
    List.mem_map.mpr ⟨v, List.mem_filter.mpr ⟨hv, by simp [hem]⟩, rfl⟩
  have gen : ∀ (l : List Nat) (a x : Nat), x ∈ l → l.foldl min a ≤ x := by
    have hle : ∀ (l : List Nat) (a : Nat), l.foldl min a ≤ a := by
      intro l
      induction l with
      | nil => intro a; exact le_refl _
      | cons b l ih => intro a; exact le_trans (ih _) (min_le_left _ _)
    intro l
    induction l with
    | nil => intro a x hx; simp at hx
    | cons b l ih =>
      intro a x hx
      rcases List.mem_cons.mp hx with rfl | hx
      · rw [List.foldl_cons]; exact le_trans (hle _ _) (min_le_right _ _)
      · exact ih _ _ hx
  exact gen _ _ _ hmem

/-- C07.  For every history of union updates with valid sketches (and resets), every nominal size and
sampling probability: updates and the result succeed; the result's theta is at most every non-empty
input theta; a hash is retained iff it lies below the result theta and occurs in a non-empty input;
at most `k` hashes are retained, exactly `k` if theta was lowered by the union itself; the result is
empty iff all inputs are; and the result is again a valid sketch. -/
theorem C07_union_result (lgK rf start sh : Nat) (hstart : start ≤ maxTheta) (u0 : Union)
    (hnew : newUnion lgK rf start = .ok u0) (ops : List UOp)
    (hops : ∀ v, UOp.update v ∈ ops → Valid v ∧ (v.isEmpty = false → v.seedHash = sh))
    (ordered : Bool) :
    ∃ u c, urun (some sh) u0 ops = .ok u ∧ u.result (some sh) ordered = .ok c ∧
      (∀ v ∈ inputs [] ops, v.isEmpty = false → c.theta ≤ v.theta) ∧ c.theta ≤ start ∧
      (∀ h, h ∈ c.entries ↔
        h < c.theta ∧ ∃ v ∈ inputs [] ops, v.isEmpty = false ∧ h ∈ v.all) ∧
      c.entries.Nodup ∧ c.entries.length ≤ 2 ^ lgK ∧
      (c.entries.length = 2 ^ lgK ∨
        (c.theta = start ∨ ∃ v ∈ inputs [] ops, v.isEmpty = false ∧ c.theta = v.theta)) ∧
      (c.isEmpty = true ↔ ∀ v ∈ inputs [] ops, v.isEmpty = true) ∧
      c.seedHash = sh ∧ Valid c.view ∧ (ordered = true → c.entries.Pairwise (· < ·)) := by
  obtain ⟨u, e, i⟩ := urun_inv ops u0 [] (unew_inv hnew) hops
  have hvs : ∀ v ∈ inputs [] ops, Valid v := by
    have gen : ∀ (ops : List UOp) (vs : List View), (∀ v ∈ vs, Valid v) →
        (∀ v, UOp.update v ∈ ops → Valid v ∧ (v.isEmpty = false → v.seedHash = sh)) →
        ∀ v ∈ inputs vs ops, Valid v := by
      intro ops
      induction ops with
      | nil => intro vs h _; exact h
      | cons op ops ih =>
        intro vs h hops
        cases op with
        | update w =>
          refine ih _ ?_ (fun v hv => hops v (by simp [hv]))
          intro v hv
          rcases List.mem_append.mp hv with hv | hv
          · exact h v hv
          · rw [List.mem_singleton] at hv; subst hv; exact (hops v (by simp)).1
        | reset => exact ih _ (by simp) (fun v hv => hops v (by simp [hv]))
    exact gen ops [] (by simp) hops
  obtain ⟨c, ec, hth, hent, hsh, hem, hval, hord⟩ := result_spec (sh := sh) i hstart hvs ordered
  generalize hV : inputs [] ops = vs at *
  have hmemc : ∀ x, x ∈ c.entries ↔ x ∈ (unionSpec (2 ^ lgK) start vs).2 := by
    intro x; rw [← hent, mem_sortN]
  have hlen : c.entries.length = (unionSpec (2 ^ lgK) start vs).2.length := by
    rw [← hent, sortN_length]
  have hst := unionHashes_strict (minTheta start vs) vs
  have hmin_or : minTheta start vs = start ∨ ∃ v ∈ vs, v.isEmpty = false ∧ minTheta start vs = v.theta := by
    have gen : ∀ (l : List Nat) (a : Nat), l.foldl min a = a ∨ l.foldl min a ∈ l := by
      intro l
      induction l with
      | nil => intro a; exact Or.inl rfl
      | cons b l ih =>
        intro a
        rw [List.foldl_cons]
        rcases ih (min a b) with h | h
        · rw [h]
          rcases le_total a b with h' | h'
          · rw [Nat.min_eq_left h']; exact Or.inl rfl
          · rw [Nat.min_eq_right h']; exact Or.inr (by simp)
        · exact Or.inr (by simp [h])
    rcases gen ((vs.filter (fun v => !v.isEmpty)).map View.theta) start with h | h
    · exact Or.inl h
    · right
      obtain ⟨v, hv, hvt⟩ := List.mem_map.mp h
      rw [List.mem_filter] at hv
      exact ⟨v, hv.1, by simpa using hv.2, hvt.symm⟩
  have hminst : minTheta start vs ≤ start := by
    have : ∀ (l : List Nat) (a : Nat), l.foldl min a ≤ a := by
      intro l
      induction l with
      | nil => intro a; exact le_refl _
      | cons b l ih => intro a; exact le_trans (ih _) (min_le_left _ _)
    exact this _ _
  have hordc : ordered = true → c.entries.Pairwise (· < ·) := fun ho => hval.ordered (hord ho)
  by_cases hA : (unionHashes (minTheta start vs) vs).length ≤ 2 ^ lgK
  · have hS : unionSpec (2 ^ lgK) start vs = (minTheta start vs, unionHashes (minTheta start vs) vs) := by
      simp only [unionSpec]; rw [if_pos hA]
    rw [hS] at hth hmemc hlen
    refine ⟨u, c, e, ec, ?_, by rw [hth]; exact hminst, ?_, hval.nodup, by rw [hlen]; exact hA, ?_,
      hem, hsh, hval, hordc⟩
    · intro v hv hve; rw [hth]; exact minTheta_le hv hve
    · intro x; rw [hmemc, mem_unionHashes, hth]; exact And.comm
    · right; rw [hth]; exact hmin_or
  · have hAlt : 2 ^ lgK < (unionHashes (minTheta start vs) vs).length := by omega
    set A := unionHashes (minTheta start vs) vs with hAdef
    have hS : unionSpec (2 ^ lgK) start vs = (A.getD (2 ^ lgK) 0, A.take (2 ^ lgK)) := by
      simp only [unionSpec]; rw [if_neg hA]
    rw [hS] at hth hmemc hlen
    have hgetD : A.getD (2 ^ lgK) 0 = A[2 ^ lgK] := by
      rw [List.getD_eq_getElem?_getD, List.getElem?_eq_getElem hAlt]; rfl
    rw [hgetD] at hth
    simp only at hth hmemc hlen
    have hmem := (mem_unionHashes (m := minTheta start vs) (vs := vs)).mp (List.getElem_mem hAlt)
    have hlenk : c.entries.length = 2 ^ lgK := by rw [hlen, List.length_take]; omega
    refine ⟨u, c, e, ec, ?_, by omega, ?_, hval.nodup, by omega, Or.inl hlenk, hem, hsh, hval, hordc⟩
    · intro v hv hve
      have := minTheta_le (start := start) hv hve
      omega
    · intro x
      rw [hmemc, hth]
      constructor
      · intro hx
        obtain ⟨j, hj, rfl⟩ := List.mem_iff_getElem.mp hx
        rw [List.length_take] at hj
        rw [List.getElem_take]
        refine ⟨List.pairwise_iff_getElem.mp hst j (2 ^ lgK) (by omega) hAlt (by omega), ?_⟩
        exact (mem_unionHashes.mp (List.getElem_mem (l := A) (n := j) (by omega))).1
      · rintro ⟨hlt, hin⟩
        have hxA : x ∈ A := by rw [hAdef, mem_unionHashes]; exact ⟨hin, by omega⟩
        obtain ⟨j, hj, rfl⟩ := List.mem_iff_getElem.mp hxA
        have hjk : j < 2 ^ lgK := by
          by_contra hcon
          rcases Nat.lt_or_ge (2 ^ lgK) j with h1 | h1
          · have := List.pairwise_iff_getElem.mp hst (2 ^ lgK) j hAlt hj h1
            omega
          · have : j = 2 ^ lgK := by omega
            subst this; omega
        exact List.mem_iff_getElem.mpr ⟨j, by rw [List.length_take]; omega, by rw [List.getElem_take]⟩

/-- Two presentations of the same sketch (possibly in different physical layouts). -/
def SameSketch (v w : View) : Prop :=
  v.isEmpty = w.isEmpty ∧ v.theta = w.theta ∧ ∀ h, h ∈ v.all ↔ h ∈ w.all

theorem spec_perm {k start : Nat} {vs ws : List View} (hp : vs.Perm ws) :
    unionSpec k start vs = unionSpec k start ws := by
  have hf := hp.filter (fun v => !v.isEmpty)
  have hm : minTheta start vs = minTheta start ws := by
    unfold minTheta
    exact (hf.map View.theta).foldl_eq' (fun x _ y _ z => by omega) start
  have hA : unionHashes (minTheta start vs) vs = unionHashes (minTheta start ws) ws := by
    rw [hm]
    apply sortN_congr
    apply (List.perm_ext_iff_of_nodup (List.nodup_dedup _) (List.nodup_dedup _)).mpr
    intro x
    rw [List.mem_dedup, List.mem_dedup]
    exact ((hf.flatMap_right View.all).filter _).mem_iff
  simp only [unionSpec, hm] at hA ⊢
  rw [hA]

theorem spec_same {k start : Nat} {vs ws : List View} (h : List.Forall₂ SameSketch vs ws) :
    unionSpec k start vs = unionSpec k start ws := by
  have hm : minTheta start vs = minTheta start ws := by
    have : (vs.filter (fun v => !v.isEmpty)).map View.theta =
        (ws.filter (fun v => !v.isEmpty)).map View.theta := by
      induction h with
      | nil => rfl
      | cons hab _ ih =>
        obtain ⟨h1, h2, -⟩ := hab
        rw [List.filter_cons, List.filter_cons, h1]
        split
        · rw [List.map_cons, List.map_cons, h2, ih]
        · exact ih
    unfold minTheta; rw [this]
  have hin : ∀ x, InSome vs x ↔ InSome ws x := by
    intro x
    clear hm
    induction h with
    | nil => exact Iff.rfl
    | @cons a b l l' hab _ ih =>
      obtain ⟨h1, -, h3⟩ := hab
      simp only [InSome, List.exists_mem_cons_iff] at ih ⊢
      rw [h1, h3, ih]
  have hA : unionHashes (minTheta start vs) vs = unionHashes (minTheta start ws) ws := by
    rw [hm]
    apply sortN_congr
    apply (List.perm_ext_iff_of_nodup (List.nodup_dedup _) (List.nodup_dedup _)).mpr
    intro x
    have h1 := @mem_unionHashes (minTheta start ws) vs x
    have h2 := @mem_unionHashes (minTheta start ws) ws x
    rw [unionHashes, mem_sortN] at h1 h2
    rw [h1, h2, hin]
  simp only [unionSpec, hm] at hA ⊢
  rw [hA]

theorem same_empty {vs ws : List View} (h : List.Forall₂ SameSketch vs ws) :
    (∀ v ∈ vs, v.isEmpty = true) ↔ (∀ v ∈ ws, v.isEmpty = true) := by
  induction h with
  | nil => simp
  | cons hab _ ih => rw [List.forall_mem_cons, List.forall_mem_cons, hab.1, ih]

theorem inputs_updates : ∀ (vs acc : List View), inputs acc (vs.map UOp.update) = acc ++ vs := by
  intro vs
  induction vs with
  | nil => intro acc; simp [inputs]
  | cons v vs ih => intro acc; simp [inputs, ih]

/-- C08.  The union of the same sketches gives the same theta, emptiness and set of hashes for every
order of presentation, every physical layout of the inputs and every resize factor. -/
theorem C08_union_order_and_layout_independent (lgK rf rf' start sh : Nat) (hstart : start ≤ maxTheta)
    (u0 w0 : Union) (hu : newUnion lgK rf start = .ok u0) (hw : newUnion lgK rf' start = .ok w0)
    (vs vs' ws : List View) (hperm : vs.Perm vs') (hsame : List.Forall₂ SameSketch vs' ws)
    (hvs : ∀ v ∈ vs, Valid v ∧ v.seedHash = sh) (hws : ∀ v ∈ ws, Valid v ∧ v.seedHash = sh)
    (o o' : Bool) :
    ∃ u w c d, urun (some sh) u0 (vs.map .update) = .ok u ∧ urun (some sh) w0 (ws.map .update) = .ok w ∧
      u.result (some sh) o = .ok c ∧ w.result (some sh) o' = .ok d ∧
      c.theta = d.theta ∧ c.isEmpty = d.isEmpty ∧ c.entries.Perm d.entries ∧
      (o = o' → o = true → c = d) := by
  have ops : ∀ (l : List View), (∀ v ∈ l, Valid v ∧ v.seedHash = sh) →
      ∀ v, UOp.update v ∈ l.map UOp.update → Valid v ∧ (v.isEmpty = false → v.seedHash = sh) := by
    intro l hl v hv
    obtain ⟨w, hw, he⟩ := List.mem_map.mp hv
    cases he
    exact ⟨(hl v hw).1, fun _ => (hl v hw).2⟩
  obtain ⟨u, e1, i1⟩ := urun_inv _ u0 [] (unew_inv hu) (ops vs hvs)
  obtain ⟨w, e2, i2⟩ := urun_inv _ w0 [] (unew_inv hw) (ops ws hws)
  rw [inputs_updates, List.nil_append] at i1 i2
  obtain ⟨c, ec, t1, n1, s1, m1, v1, o1⟩ :=
    result_spec (sh := sh) i1 hstart (fun v hv => (hvs v hv).1) o
  obtain ⟨d, ed, t2, n2, s2, m2, v2, o2⟩ :=
    result_spec (sh := sh) i2 hstart (fun v hv => (hws v hv).1) o'
  have hspec : unionSpec (2 ^ lgK) start vs = unionSpec (2 ^ lgK) start ws :=
    (spec_perm hperm).trans (spec_same hsame)
  have hth : c.theta = d.theta := by rw [t1, t2, hspec]
  have hso : sortN c.entries = sortN d.entries := by rw [n1, n2, hspec]
  have hemp : c.isEmpty = d.isEmpty := by
    have hiff : (∀ v ∈ vs, v.isEmpty = true) ↔ (∀ v ∈ ws, v.isEmpty = true) := by
      rw [show (∀ v ∈ vs, v.isEmpty = true) ↔ ∀ v ∈ vs', v.isEmpty = true from
        ⟨fun h v hv => h v (hperm.mem_iff.mpr hv), fun h v hv => h v (hperm.mem_iff.mp hv)⟩]
      exact same_empty hsame
    have : (c.isEmpty = true) ↔ (d.isEmpty = true) := by rw [m1, m2, hiff]
    exact Bool.eq_iff_iff.mpr this
  refine ⟨u, w, c, d, e1, e2, ec, ed, hth, hemp, ?_, ?_⟩
  · exact ((sortN_perm _).symm.trans (by rw [hso])).trans (sortN_perm _)
  · intro hoo ho
    have hc := v1.ordered (o1 ho)
    have hd := v2.ordered (o2 (by rw [← hoo]; exact ho))
    have hent : c.entries = d.entries := by
      rw [sortN_eq_of_perm (List.Perm.refl c.entries) (List.Pairwise.imp (fun h => le_of_lt h) hc),
        sortN_eq_of_perm (List.Perm.refl d.entries) (List.Pairwise.imp (fun h => le_of_lt h) hd), hso]
    have hio : c.isOrdered = d.isOrdered := by
      rw [o1 ho, o2 (by rw [← hoo]; exact ho)]
    cases c; cases d
    simp only at hent hth hemp hio s1 s2
    subst s1 s2 hent hth hemp hio
    rfl

/-! ## non-vacuity -/

/-- a concrete valid input and a union run over two overlapping inputs -/
example : Valid ⟨false, true, maxTheta, 7, 2, [5, 9]⟩ :=
  { nodup := by decide, range := by decide, num := rfl, ordered := by decide, theta := by decide,
    empty := by decide }

example : ((newUnion 5 0 maxTheta).bind (fun u => urun (some 7) u
    [.update ⟨false, true, maxTheta, 7, 2, [5, 9]⟩, .update ⟨false, false, maxTheta, 7, 2, [9, 3]⟩])).bind
    (fun u => (u.result (some 7) false).bind (fun c => .ok (c.entries.length, c.theta, c.isEmpty)))
    = .ok (3, maxTheta, false) := by decide +kernel

end Verif.Theta
