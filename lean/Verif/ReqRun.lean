import Verif.ReqView

/-!
# Programs over several REQ sketches
-/

namespace Verif.Req

open Verif Verif.View

variable {α : Type} [LinearOrder α]

/-- One call; sketches are numbered in the order of their creation. -/
inductive Op (α : Type) where
  /-- `NewSketch(WithK(k), WithHighRankAccuracyMode(hra))` -/
  | new (k : Nat) (hra : Bool)
  /-- `sketch i .Update(x)`, `none` is NaN -/
  | update (i : Nat) (x : Option α)
  /-- `sketch i .Merge(sketch j)` -/
  | merge (i j : Nat)
  /-- `sketch i .Reset()` -/
  | reset (i : Nat)
  /-- any query of sketch `i` that makes the sorted view -/
  | query (i : Nat)

def pair (st : List (Sketch α)) (i j : Nat) : Outcome (Sketch α × Sketch α) := do
  let s ← rd st i
  let o ← rd st j
  .ok (s, o)

/-- A query keeps the view; the query of an empty sketch is refused and changes nothing. -/
def query (env : Env α) (s : Sketch α) : Outcome (Sketch α) :=
  if s.n = 0 then .ok s
  else do
    let r ← refreshSortedView env s
    .ok r.2

/-- Run one call on the store of sketches. -/
def step (env : Env α) (st : List (Sketch α)) : Op α → Rand (List (Sketch α))
  | .new k hra => Rand.ofOutcome (newSketch env k hra) >>= fun s => Rand.ret (st ++ [s])
  | .update i x => Rand.ofOutcome (rd st i) >>= fun s =>
      update env s x >>= fun s' => Rand.ret (st.set i s')
  | .merge i j => Rand.ofOutcome (pair st i j) >>= fun q =>
      merge env q.1 q.2 >>= fun s' => Rand.ret (st.set i s')
  | .reset i => Rand.ofOutcome (rd st i) >>= fun s => Rand.ret (st.set i (reset env s))
  | .query i => Rand.ofOutcome (rd st i) >>= fun s =>
      Rand.ofOutcome (query env s) >>= fun s' => Rand.ret (st.set i s')

def run (env : Env α) (ops : List (Op α)) : Rand (List (Sketch α)) := ops.foldlM (step env) []

/-! ## Specification: what each sketch stands for -/

/-- What is known about a sketch from the calls alone.  `stream` are the items presented to it.
`ext` are the items whose extremes it reports: the stream and, if a sketch that was never used had
another one merged into it, the number 0. -/
structure Hist (α : Type) where
  k : Nat
  hra : Bool
  stream : List α
  ext : List α
  fresh : Bool

def noHist : Hist α := ⟨0, false, [], [], false⟩

def histStep (zero : α) (hs : List (Hist α)) : Op α → List (Hist α)
  | .new k hra => hs ++ [⟨k, hra, [], [], true⟩]
  | .update _ none => hs
  | .update i (some x) =>
    let h := hs.getD i noHist
    hs.set i ⟨h.k, h.hra, h.stream ++ [x], h.ext ++ [x], false⟩
  | .merge i j =>
    let h := hs.getD i noHist
    let o := hs.getD j noHist
    if o.stream = [] then hs
    else hs.set i ⟨h.k, h.hra, h.stream ++ o.stream,
      (if h.fresh then [zero] else []) ++ h.ext ++ o.ext, false⟩
  | .reset i =>
    let h := hs.getD i noHist
    hs.set i ⟨h.k, h.hra, [], [], false⟩
  | .query _ => hs

def hist (zero : α) (ops : List (Op α)) : List (Hist α) := ops.foldl (histStep zero) []

/-- Parameters in range, only existing sketches are used, both sketches of a merge have the same
accuracy mode, and no stream reaches `2^47` items. -/
def Allowed (hs : List (Hist α)) : Op α → Prop
  | .new k _ => 4 ≤ k ∧ k ≤ 1024 ∧ k % 2 = 0
  | .update i _ => i < hs.length ∧ (hs.getD i noHist).stream.length + 1 < 2 ^ 47
  | .merge i j => i < hs.length ∧ j < hs.length ∧
      ((hs.getD j noHist).stream = [] ∨ (hs.getD i noHist).hra = (hs.getD j noHist).hra) ∧
      (hs.getD i noHist).stream.length + (hs.getD j noHist).stream.length < 2 ^ 47
  | .reset i => i < hs.length
  | .query i => i < hs.length

def Valid (zero : α) (ops : List (Op α)) : Prop :=
  ∀ pre op post, ops = pre ++ op :: post → Allowed (hist zero pre) op

/-! ## One sketch -/

/-- Reported extremes. -/
structure Ext (zero : α) (s : Sketch α) (h : Hist α) : Prop where
  empty : h.stream = [] → h.ext = [] ∧ s.minItem = (if h.fresh then some zero else none) ∧
    s.maxItem = (if h.fresh then some zero else none)
  used : h.stream ≠ [] → h.fresh = false ∧ ∃ mn mx, s.minItem = some mn ∧ s.maxItem = some mx ∧
    (mn ∈ h.ext ∧ ∀ x ∈ h.ext, mn ≤ x) ∧ (mx ∈ h.ext ∧ ∀ x ∈ h.ext, x ≤ mx)
  sub : ∀ x ∈ h.stream, x ∈ h.ext
  sup : ∀ x ∈ h.ext, x ∈ h.stream ∨ x = zero

structure Good (env : Env α) (K : Nat) (s : Sketch α) (h : Hist α) : Prop where
  core : Core K s h.stream
  k : s.k = h.k
  hra : s.hra = h.hra
  ext : Ext env.zero s h
  view : ∀ v, s.view = some v → ViewOk s v
  small : s.numRetained < s.maxNomSize

section one
variable {env : Env α} {K : Nat}

theorem new_good {k : Nat} (hra : Bool) (h4 : 4 ≤ k) (hk : k ≤ 1024) (he : k % 2 = 0) (hK : K ≤ k) :
    ∃ s, newSketch env k hra = .ok s ∧ Good env K s ⟨k, hra, [], [], true⟩ := by
  refine ⟨_, if_neg (by omega), fresh_core env hra h4 hk he hK _ _ _ _ _ rfl, rfl, rfl, ?_, ?_,
    grow_small env hra h4 _ _ _ _⟩
  · exact ⟨fun _ => ⟨rfl, rfl, rfl⟩, fun h => absurd rfl h, by simp, by simp⟩
  · intro v hv
    simp [grow] at hv

theorem reset_good {s : Sketch α} {h : Hist α} (hg : Good env K s h) :
    Good env K (reset env s) ⟨h.k, h.hra, [], [], false⟩ := by
  have hi := hg.core.inv
  have e : reset env s = grow env ⟨0, [], 0, 0, none, none, none, s.k, s.hra, []⟩ := rfl
  rw [e]
  refine ⟨fresh_core env s.hra hi.k4 hi.kle hi.keven hg.core.kK _ _ _ _ _ rfl, hg.k, hg.hra, ?_, ?_,
    grow_small env _ hi.k4 _ _ _ _⟩
  · exact ⟨fun _ => ⟨rfl, rfl, rfl⟩, fun h => absurd rfl h, by simp, by simp⟩
  · intro v hv
    simp [grow] at hv

theorem update_good (he : EnvOk env) {s : Sketch α} {h : Hist α} (hg : Good env K s h)
    (hn : h.stream.length + 1 < 2 ^ 47) (x : α) :
    Rand.All (fun s' => Good env K s' ⟨h.k, h.hra, h.stream ++ [x], h.ext ++ [x], false⟩)
      (update env s (some x)) := by
  refine (update_core he hg.core hn x).mono ?_
  rintro s' ⟨h1, h2, h3, h4, h5, h6, h7⟩
  refine ⟨h1, h2.trans hg.k, h3.trans hg.hra, ⟨?_, ?_, ?_, ?_⟩, ?_, h7⟩
  · intro hc
    exact absurd hc (by simp)
  · intro _
    refine ⟨rfl, ?_⟩
    rw [h5, h6]
    by_cases hS : h.stream = []
    · obtain ⟨e1, -⟩ := hg.ext.empty hS
      have hn0 : s.n = 0 := by rw [hg.core.len, hS]; rfl
      refine ⟨x, x, ?_, ?_, ?_, ?_⟩
      · unfold updateExtremes; rw [if_pos hn0]
      · unfold updateExtremes; rw [if_pos hn0]
      · rw [e1]; simp
      · rw [e1]; simp
    · obtain ⟨_, mn, mx, a1, a2, a3, a4⟩ := hg.ext.used hS
      have hn0 : s.n ≠ 0 := by
        rw [hg.core.len]
        have := List.length_pos_of_ne_nil hS
        omega
      refine ⟨min x mn, max x mx, ?_, ?_, ⟨?_, ?_⟩, ?_, ?_⟩
      · unfold updateExtremes; rw [if_neg hn0, a1]; rfl
      · unfold updateExtremes; rw [if_neg hn0, a2]; rfl
      · rcases min_choice x mn with h | h <;> rw [h] <;> simp [a3.1]
      · intro y hy
        rcases List.mem_append.1 hy with hy | hy
        · exact le_trans (min_le_right _ _) (a3.2 y hy)
        · rw [List.mem_singleton] at hy
          rw [hy]; exact min_le_left _ _
      · rcases max_choice x mx with h | h <;> rw [h] <;> simp [a4.1]
      · intro y hy
        rcases List.mem_append.1 hy with hy | hy
        · exact le_trans (a4.2 y hy) (le_max_right _ _)
        · rw [List.mem_singleton] at hy
          rw [hy]; exact le_max_left _ _
  · intro y hy
    rcases List.mem_append.1 hy with hy | hy
    · exact List.mem_append_left _ (hg.ext.sub y hy)
    · exact List.mem_append_right _ hy
  · intro y hy
    rcases List.mem_append.1 hy with hy | hy
    · rcases hg.ext.sup y hy with h | h
      · exact Or.inl (List.mem_append_left _ h)
      · exact Or.inr h
    · exact Or.inl (List.mem_append_right _ hy)
  · intro v hv
    rw [h4] at hv
    simp at hv

/-- Extremes of two lists. -/
theorem mergeMin_ok {A B : List α} {a b : α} (ha : a ∈ A ∧ ∀ x ∈ A, a ≤ x) (hb : b ∈ B ∧ ∀ x ∈ B, b ≤ x) :
    ∃ m, mergeMin (some a) (some b) = some m ∧ m ∈ A ++ B ∧ ∀ x ∈ A ++ B, m ≤ x := by
  unfold mergeMin
  simp only
  split
  · rename_i h
    refine ⟨b, rfl, List.mem_append_right _ hb.1, ?_⟩
    intro x hx
    rcases List.mem_append.1 hx with hx | hx
    · exact le_trans (le_of_lt h) (ha.2 x hx)
    · exact hb.2 x hx
  · rename_i h
    refine ⟨a, rfl, List.mem_append_left _ ha.1, ?_⟩
    intro x hx
    rcases List.mem_append.1 hx with hx | hx
    · exact ha.2 x hx
    · exact le_trans (le_of_not_gt h) (hb.2 x hx)

theorem mergeMax_ok {A B : List α} {a b : α} (ha : a ∈ A ∧ ∀ x ∈ A, x ≤ a) (hb : b ∈ B ∧ ∀ x ∈ B, x ≤ b) :
    ∃ m, mergeMax (some a) (some b) = some m ∧ m ∈ A ++ B ∧ ∀ x ∈ A ++ B, x ≤ m := by
  unfold mergeMax
  simp only
  split
  · rename_i h
    refine ⟨b, rfl, List.mem_append_right _ hb.1, ?_⟩
    intro x hx
    rcases List.mem_append.1 hx with hx | hx
    · exact le_trans (ha.2 x hx) (le_of_lt h)
    · exact hb.2 x hx
  · rename_i h
    refine ⟨a, rfl, List.mem_append_left _ ha.1, ?_⟩
    intro x hx
    rcases List.mem_append.1 hx with hx | hx
    · exact ha.2 x hx
    · exact le_trans (hb.2 x hx) (le_of_not_gt h)

theorem merge_good (he : EnvOk env) {s o : Sketch α} {h g : Hist α} (hg : Good env K s h)
    (ho : Good env K o g) (hT : g.stream ≠ []) (hhra : h.hra = g.hra)
    (hn : h.stream.length + g.stream.length < 2 ^ 47) :
    Rand.All (fun s' => Good env K s' ⟨h.k, h.hra, h.stream ++ g.stream,
      (if h.fresh then [env.zero] else []) ++ h.ext ++ g.ext, false⟩) (merge env s o) := by
  refine (merge_core he hg.core ho.core hT (by rw [hg.hra, ho.hra, hhra]) hn).mono ?_
  rintro s' ⟨h1, h2, h3, h4, h5, h6, h7⟩
  obtain ⟨-, mn, mx, o1, o2, o3, o4⟩ := ho.ext.used hT
  refine ⟨h1, h2.trans hg.k, h3.trans hg.hra, ⟨?_, ?_, ?_, ?_⟩, ?_, h7⟩
  · intro hc
    exact absurd (List.append_eq_nil_iff.1 hc).2 hT
  · intro _
    refine ⟨rfl, ?_⟩
    rw [h5, h6, o1, o2]
    by_cases hS : h.stream = []
    · obtain ⟨e1, e2, e3⟩ := hg.ext.empty hS
      rw [e2, e3, e1]
      by_cases hf : h.fresh = true
      · rw [hf]
        simp only [if_true, List.append_nil]
        obtain ⟨m1, a1, a2⟩ := mergeMin_ok (A := [env.zero]) (a := env.zero) (by simp) o3
        obtain ⟨m2, b1, b2⟩ := mergeMax_ok (A := [env.zero]) (a := env.zero) (by simp) o4
        exact ⟨m1, m2, a1, b1, a2, b2⟩
      · rw [Bool.not_eq_true] at hf
        rw [hf]
        simp only [Bool.false_eq_true, if_false, List.nil_append]
        exact ⟨mn, mx, rfl, rfl, o3, o4⟩
    · obtain ⟨hf, mn', mx', a1, a2, a3, a4⟩ := hg.ext.used hS
      rw [a1, a2, hf]
      simp only [Bool.false_eq_true, if_false, List.nil_append]
      obtain ⟨m1, c1, c2⟩ := mergeMin_ok a3 o3
      obtain ⟨m2, d1, d2⟩ := mergeMax_ok a4 o4
      exact ⟨m1, m2, c1, d1, c2, d2⟩
  · intro x hx
    rcases List.mem_append.1 hx with hx | hx
    · exact List.mem_append_left _ (List.mem_append_right _ (hg.ext.sub x hx))
    · exact List.mem_append_right _ (ho.ext.sub x hx)
  · intro x hx
    rcases List.mem_append.1 hx with hx | hx
    · rcases List.mem_append.1 hx with hx | hx
      · right
        split at hx
        · simpa using hx
        · simp at hx
      · rcases hg.ext.sup x hx with h | h
        · exact Or.inl (List.mem_append_left _ h)
        · exact Or.inr h
    · rcases ho.ext.sup x hx with h | h
      · exact Or.inl (List.mem_append_right _ h)
      · exact Or.inr h
  · intro v hv
    rw [h4] at hv
    simp at hv

/-- The retained items lie between the extremes. -/
theorem Good.between {s : Sketch α} {h : Hist α} (hg : Good env K s h) {mn mx : α}
    (h1 : ∀ x ∈ h.ext, mn ≤ x) (h2 : ∀ x ∈ h.ext, x ≤ mx) :
    ∀ l ∈ levels s, ∀ x ∈ l, mn ≤ x ∧ x ≤ mx := by
  intro l hl x hx
  have := hg.ext.sub x (hg.core.lk.mem l hl x hx)
  exact ⟨h1 x this, h2 x this⟩

/-- Some item is retained. -/
theorem Core.item {s : Sketch α} {S : List α} (h : Core K s S) (hS : S ≠ []) :
    ∃ l ∈ levels s, ∃ x, x ∈ l := by
  by_contra hc
  push Not at hc
  have hw : Kll.rk (fun _ => true) (levels s) = s.n := h.inv.wt
  have : ∀ Ls : List (List α), (∀ l ∈ Ls, ∀ x, x ∉ l) → Kll.rk (fun _ => true) Ls = 0 := by
    intro Ls
    induction Ls with
    | nil => intro _; rfl
    | cons l ls ih =>
      intro hl
      have hnil : l = [] := List.eq_nil_iff_forall_not_mem.2 (hl l List.mem_cons_self)
      rw [Kll.rk, ih fun m hm => hl m (List.mem_cons_of_mem _ hm), hnil]
      rfl
  rw [this _ hc, h.len] at hw
  exact hS (List.length_eq_zero_iff.1 hw.symm)

theorem Good.single {s : Sketch α} {h : Hist α} (hg : Good env K s h) {mn mx : α}
    (h1 : mn ∈ h.ext ∧ ∀ x ∈ h.ext, mn ≤ x) (h2 : mx ∈ h.ext ∧ ∀ x ∈ h.ext, x ≤ mx) (hn : s.n = 1) :
    ∃ l ∈ levels s, ∃ x ∈ l, x = mn ∨ x = mx := by
  rw [hg.core.len] at hn
  obtain ⟨y, hy⟩ := List.length_eq_one_iff.1 hn
  obtain ⟨l, hl, x, hx⟩ := hg.core.item (by rw [hy]; simp)
  have hxy := hg.core.lk.mem l hl x hx
  rw [hy, List.mem_singleton] at hxy
  refine ⟨l, hl, x, hx, ?_⟩
  have a1 := hg.ext.sup mn h1.1
  have a2 := hg.ext.sup mx h2.1
  rw [hy, List.mem_singleton] at a1 a2
  rcases a1 with a1 | a1
  · left; rw [a1, hxy]
  · rcases a2 with a2 | a2
    · right; rw [a2, hxy]
    · left
      have hye : y ∈ h.ext := hg.ext.sub y (by rw [hy]; simp)
      rw [hxy]
      exact le_antisymm (by rw [a1, ← a2]; exact h2.2 y hye) (h1.2 y hye)

/-- The view of a used sketch. -/
theorem refresh_good {s : Sketch α} {h : Hist α} (hg : Good env K s h) (hS : h.stream ≠ []) :
    ∃ v s', refreshSortedView env s = .ok (v, s') ∧ Good env K s' h ∧ ViewOk s' v ∧
      s'.minItem = s.minItem ∧ s'.maxItem = s.maxItem ∧
      List.Forall₂ List.Perm (levels s') (levels s) ∧ s'.n = s.n := by
  cases hv : s.view with
  | some v =>
    refine ⟨v, s, ?_, hg, hg.view v hv, rfl, rfl, List.forall₂_same.2 fun _ _ => List.Perm.refl _, rfl⟩
    unfold refreshSortedView
    rw [hv]
  | none =>
    obtain ⟨hf, mn, mx, a1, a2, a3, a4⟩ := hg.ext.used hS
    obtain ⟨v, D, h1, h2, h3⟩ := refresh_ok env hg.core hS a1 a2 (hg.between a3.2 a4.2)
      (hg.single a3 a4) hv
    obtain ⟨h4, h5⟩ := tidy_core hg.core h2 (some v)
    refine ⟨v, _, h1, ⟨h5, hg.k, hg.hra, ⟨hg.ext.empty, hg.ext.used, hg.ext.sub, hg.ext.sup⟩, ?_,
      hg.small⟩, h3, rfl, rfl, h4, rfl⟩
    intro v' hv'
    simp only [Option.some.injEq] at hv'
    rw [← hv']
    exact h3

theorem query_good {s : Sketch α} {h : Hist α} (hg : Good env K s h) :
    ∃ s', query env s = .ok s' ∧ Good env K s' h := by
  unfold query
  by_cases hS : h.stream = []
  · rw [if_pos (by rw [hg.core.len, hS]; rfl)]
    exact ⟨s, rfl, hg⟩
  · obtain ⟨v, s', h1, h2, -⟩ := refresh_good hg hS
    rw [if_neg (by
      rw [hg.core.len]
      have := List.length_pos_of_ne_nil hS
      omega), h1, Outcome.ok_bind]
    exact ⟨s', rfl, h2⟩

end one

/-! ## The store -/

structure Store (env : Env α) (K : Nat) (st : List (Sketch α)) (hs : List (Hist α)) : Prop where
  len : st.length = hs.length
  good : ∀ (i : Nat) (s : Sketch α), st[i]? = some s → Good env K s (hs.getD i noHist)

theorem Store.get {env : Env α} {K : Nat} {st : List (Sketch α)} {hs : List (Hist α)}
    (h : Store env K st hs) {i : Nat} (hi : i < hs.length) :
    ∃ s, st[i]? = some s ∧ rd st i = .ok s ∧ Good env K s (hs.getD i noHist) := by
  have hi' : i < st.length := by rw [h.len]; exact hi
  have e : st[i]? = some st[i] := List.getElem?_eq_getElem hi'
  exact ⟨st[i], e, rd_ok e, h.good i _ e⟩

theorem getD_set {β : Type} (l : List β) (i j : Nat) (v d : β) (hi : i < l.length) :
    (l.set i v).getD j d = if j = i then v else l.getD j d := by
  by_cases h : j = i
  · subst h
    rw [if_pos rfl]
    simp [List.getD_eq_getElem?_getD, hi]
  · rw [if_neg h]
    simp [List.getD_eq_getElem?_getD, Ne.symm h]

theorem Store.set {env : Env α} {K : Nat} {st : List (Sketch α)} {hs : List (Hist α)}
    (h : Store env K st hs) {i : Nat} (hi : i < hs.length) {s : Sketch α} {g : Hist α}
    (hg : Good env K s g) : Store env K (st.set i s) (hs.set i g) := by
  refine ⟨by simp [h.len], fun j t hj => ?_⟩
  rw [getD_set hs i j g noHist hi]
  by_cases hji : j = i
  · subst hji
    rw [if_pos rfl]
    rw [List.getElem?_set_self (by rw [h.len]; exact hi)] at hj
    cases hj
    exact hg
  · rw [if_neg hji]
    rw [List.getElem?_set_ne (Ne.symm hji)] at hj
    exact h.good j t hj

theorem Store.set_same {env : Env α} {K : Nat} {st : List (Sketch α)} {hs : List (Hist α)}
    (h : Store env K st hs) {i : Nat} (hi : i < hs.length) {s : Sketch α}
    (hg : Good env K s (hs.getD i noHist)) : Store env K (st.set i s) hs := by
  have := h.set hi hg
  rwa [show hs.set i (hs.getD i noHist) = hs by
    rw [List.getD_eq_getElem?_getD, List.getElem?_eq_getElem hi, Option.getD_some,
      List.set_getElem_self]] at this

/-- Lower bound of the parameter `k` in a program -/
def Ks (K : Nat) : Op α → Prop
  | .new k _ => K ≤ k
  | _ => True

theorem step_good {env : Env α} (he : EnvOk env) {K : Nat} {st : List (Sketch α)} {hs : List (Hist α)}
    (h : Store env K st hs) {op : Op α} (ha : Allowed hs op) (hk : Ks K op) :
    Rand.All (fun st' => Store env K st' (histStep env.zero hs op)) (step env st op) := by
  cases op with
  | new k hra =>
    obtain ⟨s, h1, h2⟩ := new_good (env := env) (K := K) hra ha.1 ha.2.1 ha.2.2 hk
    simp only [step, histStep]
    rw [h1, Rand.ofOutcome_ok, Rand.ret_bind]
    refine ⟨by simp [h.len], ?_⟩
    intro i t ht
    rcases Nat.lt_or_ge i st.length with hi | hi
    · rw [List.getElem?_append_left hi] at ht
      rw [List.getD_eq_getElem?_getD, List.getElem?_append_left (by rw [← h.len]; exact hi),
        ← List.getD_eq_getElem?_getD]
      exact h.good i t ht
    · rw [List.getElem?_append_right hi] at ht
      have hl := (List.getElem?_eq_some_iff.1 ht).1
      simp only [List.length_singleton] at hl
      have hi0 : i - st.length = 0 := by omega
      rw [hi0, List.getElem?_cons_zero, Option.some.injEq] at ht
      rw [← ht, List.getD_eq_getElem?_getD, List.getElem?_append_right (by rw [← h.len]; exact hi),
        ← h.len, hi0]
      exact h2
  | update i x =>
    obtain ⟨s, -, h1, h2⟩ := h.get ha.1
    simp only [step]
    rw [h1, Rand.ofOutcome_ok, Rand.ret_bind]
    cases x with
    | none =>
      simp only [update, histStep, Rand.ret_bind]
      exact h.set_same ha.1 h2
    | some x =>
      refine (update_good he h2 ha.2 x).bind ?_
      intro s' hs'
      exact h.set ha.1 hs'
  | merge i j =>
    obtain ⟨s, -, h1, h2⟩ := h.get ha.1
    obtain ⟨o, -, h3, h4⟩ := h.get ha.2.1
    simp only [step, pair, histStep]
    rw [h1, Outcome.ok_bind, h3, Outcome.ok_bind, Rand.ofOutcome_ok, Rand.ret_bind]
    by_cases hT : (hs.getD j noHist).stream = []
    · rw [if_pos hT]
      unfold merge
      rw [if_pos (by simp only; rw [h4.core.len, hT]; rfl), Rand.ret_bind]
      exact h.set_same ha.1 h2
    · rw [if_neg hT]
      refine (merge_good he h2 h4 hT (ha.2.2.1.resolve_left hT) ha.2.2.2).bind ?_
      intro s' hs'
      exact h.set ha.1 hs'
  | reset i =>
    obtain ⟨s, -, h1, h2⟩ := h.get ha
    simp only [step, histStep]
    rw [h1, Rand.ofOutcome_ok, Rand.ret_bind]
    exact h.set ha (reset_good h2)
  | query i =>
    obtain ⟨s, -, h1, h2⟩ := h.get ha
    obtain ⟨s', h3, h4⟩ := query_good h2
    simp only [step, histStep]
    rw [h1, Rand.ofOutcome_ok, Rand.ret_bind, h3, Rand.ofOutcome_ok, Rand.ret_bind]
    exact h.set_same ha h4


theorem run_good {env : Env α} (he : EnvOk env) {K : Nat} (ops : List (Op α))
    (hv : Valid env.zero ops) (hk : ∀ op ∈ ops, Ks K op) :
    Rand.All (fun st => Store env K st (hist env.zero ops)) (run env ops) := by
  induction ops using List.reverseRecOn with
  | nil => exact ⟨rfl, by simp⟩
  | append_singleton ops op ih =>
    unfold run hist at *
    rw [List.foldlM_append, List.foldl_append]
    refine (ih (fun pre o post e => hv pre o (post ++ [op]) (by rw [e]; simp))
      (fun o ho => hk o (List.mem_append_left _ ho))).bind ?_
    intro st hst
    simp only [List.foldlM_cons, List.foldlM_nil, List.foldl_cons, List.foldl_nil]
    have := step_good he hst (hv ops op [] rfl) (hk op (by simp))
    exact this.bind fun s hs => hs

end Verif.Req
