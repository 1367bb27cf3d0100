import Verif.TupleInterProps
import Verif.ThetaANotBProps

/-!
# C57: difference of tuple sketches

The hashes are those of the theta difference (C10); every kept hash keeps the content of A's summary in
a fresh object; neither input changes.
-/

namespace Verif.Tuple

open Probe HashTable
open Theta (maxTheta)

section
variable {S : Type}

theorem scanA_sublist (t : Theta.Tbl) (th : Nat) (ord : Bool) : ∀ (es acc out : List (Entry S)),
    scanA t th ord es acc = .ok out → ∃ l, out = acc ++ l ∧ l.Sublist es := by
  intro es
  induction es with
  | nil =>
    intro acc out h
    simp only [scanA, Outcome.ok.injEq] at h
    exact ⟨[], by simp [h], List.Sublist.refl _⟩
  | cons e es ih =>
    intro acc out h
    have skip : scanA t th ord es acc = .ok out → ∃ l, out = acc ++ l ∧ l.Sublist (e :: es) := by
      intro h
      obtain ⟨l, l1, l2⟩ := ih acc out h
      exact ⟨l, l1, l2.cons _⟩
    simp only [scanA] at h
    split at h
    · split at h
      · obtain ⟨l, l1, l2⟩ := ih _ out h
        exact ⟨e :: l, by rw [l1]; simp, l2.cons_cons _⟩
      · exact skip h
      · exact skip h
      · cases h
    · split at h
      · simp only [Outcome.ok.injEq] at h
        exact ⟨[], by simp [h], List.nil_sublist _⟩
      · exact skip h

theorem aNotBEntries_sublist {a : View S} {b : Theta.View} {th : Nat} {out : List (Entry S)}
    (h : aNotBEntries a b th = .ok out) : out.Sublist a.all := by
  unfold aNotBEntries at h
  split at h
  · simp only [Outcome.ok.injEq] at h; rw [← h]; exact List.filter_sublist
  · split at h
    · simp only [Outcome.ok.injEq] at h; rw [← h]; exact List.filter_sublist
    · unfold computeHashBased at h
      obtain ⟨t, -, h⟩ := Outcome.bind_eq_ok.1 h
      obtain ⟨l, l1, l2⟩ := scanA_sublist t th a.isOrdered a.all [] out h
      rw [l1, List.nil_append]; exact l2

end

/-- the entries of the difference are clones of some of A's entries -/
theorem aNotB_clones {H S V : Type} {K : Kind H S V} {a : View S} {b : Theta.View} {h h' : H}
    {sh : Option Nat} {o : Bool} {c : Compact S} (e : aNotB K a b h sh o = .ok (c, h')) :
    ∃ es, es.Sublist a.all ∧ c.entries.Perm (cloneAll K es h).1 ∧ h' = (cloneAll K es h).2 := by
  have cmp : ∀ {c : Compact S} {h' : H}, newCompact K a h o = (c, h') →
      ∃ es, es.Sublist a.all ∧ c.entries.Perm (cloneAll K es h).1 ∧ h' = (cloneAll K es h).2 := by
    intro c h' e
    unfold newCompact at e
    simp only [Prod.mk.injEq] at e
    obtain ⟨rfl, rfl⟩ := e
    refine ⟨a.all, List.Sublist.refl _, ?_, rfl⟩
    show (if _ then sortE _ else _ : List (Entry S)).Perm _
    split
    · exact sortE_perm _
    · exact List.Perm.refl _
  unfold aNotB at e
  cases sh with
  | none => cases e
  | some sh =>
    simp only at e
    split at e
    · simp only [Outcome.ok.injEq] at e; exact cmp e
    split at e
    · simp only [Outcome.ok.injEq] at e; exact cmp e
    split at e
    · cases e
    split at e
    · cases e
    obtain ⟨es, h1, e⟩ := Outcome.bind_eq_ok.1 e
    simp only [Outcome.pure_eq, Outcome.ok.injEq, Prod.mk.injEq] at e
    obtain ⟨rfl, rfl⟩ := e
    refine ⟨es, aNotBEntries_sublist h1, ?_, rfl⟩
    show (if _ then sortE _ else _ : List (Entry S)).Perm _
    split
    · exact sortE_perm _
    · exact List.Perm.refl _

/-- What C57 says about the hashes of a difference. -/
structure DiffHashes {S : Type} (sh : Nat) (ordered : Bool) (a : View S) (b : Theta.View)
    (c : Compact S) : Prop where
  theta : c.theta = (if a.isEmpty then a.theta else min a.theta b.theta)
  mem : ∀ k, (∃ s, (k, s) ∈ c.entries) ↔ (∃ s, (k, s) ∈ a.all) ∧ k ∉ b.all ∧ k < c.theta
  nodup : (c.entries.map Prod.fst).Nodup
  seed : c.seedHash = sh
  sorted : ordered = true → (c.entries.map Prod.fst).Pairwise (· < ·)
  empty : c.isEmpty = true ↔ a.isEmpty = true ∨ (c.entries = [] ∧ c.theta = maxTheta)

theorem diff_hashes {H S V : Type} (K : Kind H S V) (sh : Nat) (a : View S) (b : Theta.View)
    (ha : Input sh a) (hb : Theta.Input sh b) (hbt : b.isEmpty = true → b.theta = maxTheta)
    (ordered : Bool) (h : H) :
    ∃ c h', aNotB K a b h (some sh) ordered = .ok (c, h') ∧ DiffHashes sh ordered a b c := by
  obtain ⟨kc, e1, -, p1, p2, p3, p4, p5, p6⟩ := Theta.C10_a_not_b_result sh a.keys b ha hb hbt ordered
  have hk := aNotB_keys K (a := a) (fun he => List.map_eq_nil_iff.mp (ha.valid.empty he)) b h (some sh)
    ordered
  rw [e1] at hk
  obtain ⟨⟨c, h'⟩, hc, hck⟩ := Outcome.map_eq_ok.1 hk
  simp only at hck
  subst hck
  refine ⟨c, h', hc, { theta := p1, mem := ?_, nodup := p3, seed := p4, sorted := p5, empty := ?_ }⟩
  · intro k
    rw [← mem_map_fst, ← mem_map_fst]
    exact p2 k
  · refine p6.trans ?_
    constructor
    · rintro (x | ⟨x, y⟩)
      · exact Or.inl x
      · exact Or.inr ⟨List.map_eq_nil_iff.mp x, y⟩
    · rintro (x | ⟨x, y⟩)
      · exact Or.inl x
      · exact Or.inr ⟨List.map_eq_nil_iff.mpr x, y⟩

theorem cloneAll_values {σ V : Type} (new : σ) (upd : σ → V → σ) (app : σ → σ → σ) :
    ∀ (es : List (Entry σ)), cloneAll (values new upd app) es () = (es, ()) := by
  intro es
  induction es with
  | nil => rfl
  | cons e es ih => simp only [cloneAll, ih]; rfl

/-- C57 (summaries stored by value).  For every tuple sketch A and every tuple or theta sketch B, both
valid and with the expected seed: the difference succeeds; its hashes are those of A below both
thetas that do not occur in B; every entry of the result is an entry of A. -/
theorem C57_a_not_b_values {σ V : Type} (new : σ) (upd : σ → V → σ) (app : σ → σ → σ) (sh : Nat)
    (a : View σ) (b : Theta.View) (ha : Input sh a) (hb : Theta.Input sh b)
    (hbt : b.isEmpty = true → b.theta = maxTheta) (ordered : Bool) :
    ∃ c, aNotB (values new upd app) a b () (some sh) ordered = .ok (c, ()) ∧
      DiffHashes sh ordered a b c ∧ ∀ e ∈ c.entries, e ∈ a.all := by
  obtain ⟨c, h', e1, p⟩ := diff_hashes (values new upd app) sh a b ha hb hbt ordered ()
  refine ⟨c, e1, p, ?_⟩
  obtain ⟨es, s1, s2, -⟩ := aNotB_clones e1
  rw [cloneAll_values] at s2
  exact fun e he => s1.subset (s2.mem_iff.mp he)

/-- C57 (summaries behind pointers).  For every A whose summaries are live distinct objects (and live
objects `F` in use elsewhere, among them those of B): the difference succeeds with the hashes of A
below both thetas that do not occur in B; the summary of every hash has the content of A's summary
for it; the summaries are fresh objects; nothing that existed before changes. -/
theorem C57_a_not_b_pointers {σ V : Type} (new zero : σ) (upd : σ → V → σ) (app : σ → σ → σ)
    (sh : Nat) (a : View Nat) (b : Theta.View) (ha : Input sh a) (hb : Theta.Input sh b)
    (hbt : b.isEmpty = true → b.theta = maxTheta) (h0 : List σ) (F : List Nat)
    (hdist : (a.all.map Prod.snd ++ F).Nodup) (hlive : ∀ x ∈ a.all.map Prod.snd ++ F, x < h0.length)
    (ordered : Bool) :
    ∃ c h, aNotB (pointers new zero upd app) a b h0 (some sh) ordered = .ok (c, h) ∧
      DiffHashes sh ordered a b c ∧
      (∀ p ∈ contents h c.entries, p ∈ contents h0 a.all) ∧
      (c.entries.map Prod.snd ++ (a.all.map Prod.snd ++ F)).Nodup ∧
      ∀ x ∈ a.all.map Prod.snd ++ F, h[x]? = h0[x]? := by
  obtain ⟨c, h', e1, p⟩ := diff_hashes (pointers new zero upd app) sh a b ha hb hbt ordered h0
  refine ⟨c, h', e1, p, ?_⟩
  obtain ⟨es, s1, s2, s3⟩ := aNotB_clones e1
  obtain ⟨c1, c2, c3⟩ := clone_contents new zero upd app es h0 _ ⟨hdist, hlive⟩ (fun e he => by
    simp only [List.mem_append, List.mem_map]; exact Or.inl ⟨e, s1.subset he, rfl⟩)
  rw [← s3] at c1 c2 c3
  refine ⟨?_, ?_, c3⟩
  · intro q hq
    have h1 : q ∈ contents h' (cloneAll (pointers new zero upd app) es h0).1 :=
      (contents_perm h' s2).mem_iff.mp hq
    rw [c2] at h1
    exact (s1.map _).subset h1
  · exact (((s2.map Prod.snd).append_right _).nodup_iff).mpr c1.1

/-! ## non-vacuity -/

/-- hashes 9 and 5 minus hash 5 -/
example : aNotB counters ⟨false, false, maxTheta, 7, 2, [(9, 0), (5, 1)]⟩
    ⟨false, true, maxTheta, 7, 1, [5]⟩ [1, 10] (some 7) false =
    .ok (⟨[(9, 2)], maxTheta, 7, false, true⟩, [1, 10, 1]) := by decide +kernel

example : Input 7 (⟨false, false, maxTheta, 7, 2, [(9, 0), (5, 1)]⟩ : View Nat) :=
  { valid := { nodup := by simp [View.keys], range := by simp [View.keys, maxTheta],
               num := rfl, ordered := by simp [View.keys],
               theta := by simp [View.keys], empty := by simp [View.keys] }
    seed := rfl
    size := by simp [View.keys, Theta.maxRetained] }

example : Theta.Input 7 ⟨false, true, maxTheta, 7, 1, [5]⟩ :=
  { valid := { nodup := by simp, range := by simp [maxTheta], num := rfl, ordered := by simp,
               theta := by simp, empty := by simp }
    seed := rfl
    size := by simp [Theta.maxRetained] }

end Verif.Tuple
