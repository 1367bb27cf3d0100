import Verif.KllCore

/-!
# `Update` on the list of levels

The update of the model is simulated by a random program on lists of levels, and the invariants are
kept by that program.
-/

namespace Verif.Kll

open Verif

variable {α : Type}

/-- Sizes of the arrays. -/
structure Shape (a : Abs α) : Prop where
  k : a.k ≤ 65535
  m2 : 2 ≤ a.m
  mle : a.m ≤ a.k
  room : tot a.k a.m a.Ls.length ≤ a.free + size a.Ls
  bound : a.free + size a.Ls ≤ a.k * a.Ls.length
  full : a.k ≤ 32767 → a.free + size a.Ls = tot a.k a.m a.Ls.length

/-- Exactness of the extremes. -/
structure MM (lt : α → α → Bool) (S : List α) (a : Abs α) : Prop where
  has : a.hasMinMax = true ↔ S ≠ []
  minMem : S ≠ [] → a.minItem ∈ S
  maxMem : S ≠ [] → a.maxItem ∈ S
  minLe : ∀ y ∈ S, lt y a.minItem = false
  maxGe : ∀ y ∈ S, lt a.maxItem y = false

/-- The invariant; `O`: the comparison is an order and the sorting functions sort; `K`: no sketch
has `k > 32767`. -/
structure Inv (env : Env α) (K : Prop) (S : List α) (a : Abs α) : Prop where
  shape : Shape a
  core : Core a.n S a.Ls a.log
  srt : IsOrd env.lt → Sorts env → Srt env S a.zs a.Ls a.log
  mm : IsOrd env.lt → MM env.lt S a
  kappa : a.minK ≤ a.k
  fresh : a.n = 0 → a.free = a.k
  pot : K → a.k ≤ 32767 ∧ Pot a.minK a.n a.Ls a.log
  many : 2 ≤ a.n → 2 ≤ size a.Ls

/-! ## The abstract program -/

def aNote (env : Env α) (a : Abs α) (x : α) : Abs α :=
  if a.hasMinMax then
    { a with
      minItem := if env.lt x a.minItem then x else a.minItem
      maxItem := if env.lt a.maxItem x then x else a.maxItem }
  else
    { a with
      minItem := x
      maxItem := x
      hasMinMax := true }

def aStore (a : Abs α) (x : α) : Abs α :=
  { a with
    n := a.n + 1
    zs := false
    free := a.free - 1
    Ls := consHead x a.Ls }

/-- One compaction, with a new top level if required. -/
def aComp (env : Env α) (a : Abs α) (h o : Nat) : Abs α :=
  { a with
    free := a.free + (if h + 1 = a.Ls.length then cap a.k a.m a.Ls.length else 0) + pop a.Ls h / 2
    Ls := cstep env (h == 0) o h a.Ls
    log := h :: a.log }

def aMakeRoom (env : Env α) (a : Abs α) : Rand (Abs α) :=
  if a.free = 0 then do
    let p ← Rand.ofOutcome (aPrepare a)
    let o ← Rand.draw 2
    Rand.ret (aCompress env p.2 p.1 o)
  else Rand.ret a

def aUpdate (env : Env α) (a : Abs α) (x : α) : Rand (Abs α) := do
  let a ← aMakeRoom env (aNote env a x)
  Rand.ret (aStore a x)

/-! ## Fields -/

@[simp] theorem aNote_k (env : Env α) (a : Abs α) (x : α) : (aNote env a x).k = a.k := by
  unfold aNote; split <;> rfl
@[simp] theorem aNote_m (env : Env α) (a : Abs α) (x : α) : (aNote env a x).m = a.m := by
  unfold aNote; split <;> rfl
@[simp] theorem aNote_minK (env : Env α) (a : Abs α) (x : α) : (aNote env a x).minK = a.minK := by
  unfold aNote; split <;> rfl
@[simp] theorem aNote_n (env : Env α) (a : Abs α) (x : α) : (aNote env a x).n = a.n := by
  unfold aNote; split <;> rfl
@[simp] theorem aNote_zs (env : Env α) (a : Abs α) (x : α) : (aNote env a x).zs = a.zs := by
  unfold aNote; split <;> rfl
@[simp] theorem aNote_free (env : Env α) (a : Abs α) (x : α) : (aNote env a x).free = a.free := by
  unfold aNote; split <;> rfl
@[simp] theorem aNote_Ls (env : Env α) (a : Abs α) (x : α) : (aNote env a x).Ls = a.Ls := by
  unfold aNote; split <;> rfl
@[simp] theorem aNote_log (env : Env α) (a : Abs α) (x : α) : (aNote env a x).log = a.log := by
  unfold aNote; split <;> rfl

theorem Shape.note {a : Abs α} (h : Shape a) (env : Env α) (x : α) : Shape (aNote env a x) := by
  refine ⟨?_, ?_, ?_, ?_, ?_, ?_⟩ <;> simp [h.k, h.m2, h.mle, h.room, h.bound]
  exact h.full

/-! ## A level can always be compacted -/

theorem aFind_some {k m L : Nat} (R : List (List α)) (i0 : Nat) (hL : i0 + R.length = L)
    (hne : R ≠ []) (h : tot k m R.length ≤ size R) : ∃ i, aFind k m L R i0 = .ok i := by
  induction R generalizing i0 with
  | nil => exact absurd rfl hne
  | cons l R ih =>
    unfold aFind
    simp only [List.length_cons] at hL
    by_cases hc : cap k m (L - (i0 + 1)) ≤ l.length
    · exact ⟨i0, by rw [if_pos hc]⟩
    · rw [if_neg hc]
      rw [show L - (i0 + 1) = R.length by omega] at hc
      have h' : tot k m R.length + cap k m R.length ≤ l.length + size R := by
        simpa [tot] using h
      refine ih (i0 + 1) (by omega) ?_ (by omega)
      rintro rfl
      simp at h' hc
      omega

theorem pop_append_nil (Ls : List (List α)) (h : Nat) (hh : h < Ls.length) :
    pop (Ls ++ [[]]) h = pop Ls h := by
  unfold pop
  simp [List.getD_eq_getElem?_getD, List.getElem?_append_left hh]

theorem aPrepare_some {env : Env α} {a : Abs α} (hs : Shape a) (hne : a.Ls ≠ []) (h0 : a.free = 0) :
    ∃ p, aPrepare a = .ok p ∧ p.1 < a.Ls.length ∧
      cap a.k a.m (a.Ls.length - (p.1 + 1)) ≤ pop a.Ls p.1 ∧ 2 ≤ pop a.Ls p.1 ∧
      ∀ o, aCompress env p.2 p.1 o = aComp env a p.1 o := by
  obtain ⟨i, hi⟩ := aFind_some (k := a.k) (m := a.m) (L := a.Ls.length) a.Ls 0 (by omega) hne
    (by have := hs.room; omega)
  have hp : ∃ p, aPrepare a = .ok p := by
    unfold aPrepare
    rw [hi, Outcome.ok_bind]
    by_cases ht : i = a.Ls.length - 1
    · rw [if_pos ht]; exact ⟨_, rfl⟩
    · rw [if_neg ht]; exact ⟨_, rfl⟩
  obtain ⟨p, hp⟩ := hp
  obtain ⟨⟨h1, h2, h3⟩, h4⟩ := aPrepare_spec hs.m2 hp
  refine ⟨p, hp, h1, h2, h3, fun o => ?_⟩
  rcases h4 with ⟨h5, h6⟩ | ⟨h5, h6⟩
  · unfold aComp aCompress cstep
    rw [if_pos h5, if_pos h5, h6]
    simp only [aAddTop, pop_append_nil _ _ h1]
  · unfold aComp aCompress cstep
    rw [if_neg (by omega), if_neg (by omega), h6]
    simp

/-- What `aUpdate` does. -/
theorem aUpdate_form {env : Env α} {a : Abs α} (hs : Shape a) (hne : a.Ls ≠ []) (x : α) :
    (0 < a.free ∧ aUpdate env a x = Rand.ret (aStore (aNote env a x) x)) ∨
    (a.free = 0 ∧ ∃ h, h < a.Ls.length ∧ cap a.k a.m (a.Ls.length - (h + 1)) ≤ pop a.Ls h ∧
      2 ≤ pop a.Ls h ∧ aUpdate env a x =
        Rand.draw 2 >>= fun o => Rand.ret (aStore (aComp env (aNote env a x) h o) x)) := by
  by_cases h0 : a.free = 0
  · right
    obtain ⟨p, hp, h1, h2, h3, h4⟩ := aPrepare_some (env := env) (hs.note env x)
      (by simpa using hne) (by simpa using h0)
    refine ⟨h0, p.1, by simpa using h1, by simpa using h2, by simpa using h3, ?_⟩
    unfold aUpdate aMakeRoom
    rw [if_pos (by simpa using h0), hp, Rand.ofOutcome_ok, Rand.ret_bind, Rand.bind_assoc]
    congr 1
    funext o
    rw [h4 o]
    rfl
  · left
    refine ⟨by omega, ?_⟩
    unfold aUpdate aMakeRoom
    rw [if_neg (by simpa using h0)]
    rfl

/-! ## Simulation -/

theorem Rep.note {env : Env α} {s : Sketch α} {a : Abs α} (hr : Rep s a) (x : α) :
    Rep (noteMinMax env s x) (aNote env a x) := by
  unfold noteMinMax aNote
  rw [hr.hasMinMax]
  by_cases h : a.hasMinMax = true
  · rw [if_pos h, if_pos h]
    exact
      { k := hr.k
        m := hr.m
        minK := hr.minK
        zs := hr.zs
        n := hr.n
        numLevels := hr.numLevels
        levels := hr.levels
        items := hr.items
        minItem := by
          show (if env.lt x s.minItem then x else s.minItem) = _
          rw [hr.minItem]
        maxItem := by
          show (if env.lt s.maxItem x then x else s.maxItem) = _
          rw [hr.maxItem]
        hasMinMax := rfl
        log := hr.log }
  · rw [if_neg h, if_neg h]
    exact
      { k := hr.k
        m := hr.m
        minK := hr.minK
        zs := hr.zs
        n := hr.n
        numLevels := hr.numLevels
        levels := hr.levels
        items := hr.items
        minItem := rfl
        maxItem := rfl
        hasMinMax := rfl
        log := hr.log }

theorem Rep.head {s : Sketch α} {a : Abs α} (hr : Rep s a) : rd s.levels 0 = .ok a.free := by
  rw [hr.levels]
  cases a.Ls <;> rfl

theorem storeItem_ok {s : Sketch α} {a : Abs α} (hr : Rep s a) (hne : a.Ls ≠ []) (hf : 0 < a.free)
    (x : α) : ∃ s', storeItem s x = .ok s' ∧ Rep s' (aStore a x) := by
  obtain ⟨G, hG, hit⟩ := hr.items
  unfold storeItem
  rw [hr.head, Outcome.ok_bind, sub_ok hf, Outcome.ok_bind]
  obtain ⟨G', y, rfl⟩ : ∃ G' y, G = G' ++ [y] := by
    rcases List.eq_nil_or_concat G with h | ⟨G', y, h⟩
    · rw [h] at hG; simp at hG; omega
    · exact ⟨G', y, by rw [h, List.concat_eq_append]⟩
  have hG' : a.free - 1 = G'.length := by simp at hG; omega
  have w2 : wr s.items (a.free - 1) x = .ok (G' ++ x :: a.Ls.flatten) := by
    rw [hit, show G' ++ [y] ++ a.Ls.flatten = G' ++ y :: a.Ls.flatten by asm]
    exact wr_mid _ _ _ _ hG'
  have hlv := hr.levels
  have hn := hr.numLevels
  cases hL : a.Ls with
  | nil => exact absurd hL hne
  | cons l ls =>
    rw [hL] at hlv w2 hn
    have w1 : wr s.levels 0 (a.free - 1) = .ok ((a.free - 1) :: offs (a.free + l.length) ls) := by
      rw [hlv]; rfl
    rw [w1, Outcome.ok_bind, w2, Outcome.ok_bind]
    refine ⟨_, rfl, ?_⟩
    exact
      { k := hr.k
        m := hr.m
        minK := hr.minK
        zs := rfl
        n := by
          show s.n + 1 = a.n + 1
          rw [hr.n]
        numLevels := by
          show s.numLevels = (consHead x a.Ls).length
          rw [hn, hL, consHead_length]
        levels := by
          show (a.free - 1) :: offs (a.free + l.length) ls = offs (a.free - 1) (consHead x a.Ls)
          rw [hL]
          simp only [consHead, offs, List.length_cons]
          congr 2
          omega
        items := ⟨G', hG'.symm, by
          show G' ++ x :: (l :: ls).flatten = G' ++ (consHead x a.Ls).flatten
          rw [hL]; simp [consHead]⟩
        minItem := hr.minItem
        maxItem := hr.maxItem
        hasMinMax := hr.hasMinMax
        log := hr.log }

/-- At most 60 levels for fewer than `2^60` items. -/
theorem Core.levels_le {n : Nat} {S : List α} {Ls : List (List α)} {log : List Nat}
    (hc : Core n S Ls log) (hn : n < 2 ^ 60) : Ls.length ≤ 60 := by
  rcases hc.top with h | h
  · omega
  · by_contra hcon
    have : 2 ^ 60 ≤ 2 ^ (Ls.length - 1) := Nat.pow_le_pow_right (by omega) (by omega)
    omega

theorem updateSome_sim {env : Env α} (hs : ∀ l, (env.sort l).Perm l) {s : Sketch α} {a : Abs α}
    (hr : Rep s a) (hsh : Shape a) {S : List α} (hc : Core a.n S a.Ls a.log) (hn : a.n < 2 ^ 60)
    (x : α) : Rand.Sim Rep (updateSome env s x) (aUpdate env a x) := by
  have hr' := hr.note (env := env) x
  have hL := hc.levels_le hn
  have hne : (aNote env a x).Ls ≠ [] := by simpa using hc.ne
  unfold updateSome makeRoom
  rw [hr'.head, Rand.ofOutcome_ok, Rand.ret_bind]
  rcases aUpdate_form (env := env) hsh hc.ne x with ⟨h0, hu⟩ | ⟨h0, h, h1, h2, h3, hu⟩
  · rw [hu, if_neg (by simp; omega), Rand.ret_bind]
    obtain ⟨s', e, hs'⟩ := storeItem_ok hr' hne (by simpa using h0) x
    rw [e]
    exact hs'
  · rw [if_pos (by simpa using h0)]
    obtain ⟨p, hp, q1, q2, q3, q4⟩ := aPrepare_some (env := env) (hsh.note env x)
      hne (by simpa using h0)
    obtain ⟨s1, e1, hs1⟩ := compressPrepare_ok (env := env) hr' (by simpa using hsh.k)
      (by simp; omega) hp
    have hu' : aUpdate env a x = Rand.draw 2 >>= fun o =>
        Rand.ret (aStore (aCompress env p.2 p.1 o) x) := by
      unfold aUpdate aMakeRoom
      rw [if_pos (by simpa using h0), hp, Rand.ofOutcome_ok, Rand.ret_bind, Rand.bind_assoc]
      rfl
    rw [hu']
    unfold compressWhileUpdating
    rw [e1, Rand.ofOutcome_ok, Rand.ret_bind, Rand.bind_assoc]
    refine Rand.Sim.draw fun o ho => ?_
    have hpl : p.1 + 1 < p.2.Ls.length ∧ 2 ≤ pop p.2.Ls p.1 := by
      obtain ⟨_, h4⟩ := aPrepare_spec (a := aNote env a x) (by simpa using hsh.m2) hp
      rcases h4 with ⟨h5, h6⟩ | ⟨h5, h6⟩
      · rw [h6]
        simp only [aAddTop]
        rw [pop_append_nil _ _ q1]
        exact ⟨by simp at h5 ⊢; omega, q3⟩
      · rw [h6]; exact ⟨h5, q3⟩
    obtain ⟨s2, e2, hs2⟩ := compressLevel_ok hs hs1 ho hpl.1 hpl.2
    show Rand.Sim Rep (Rand.ofOutcome (compressLevel env s1 p.1 o) >>= _) _
    rw [e2, Rand.ofOutcome_ok, Rand.ret_bind]
    have hf : 0 < (aCompress env p.2 p.1 o).free := by
      unfold aCompress
      have := hpl.2
      simp only []
      omega
    have hne2 : (aCompress env p.2 p.1 o).Ls ≠ [] := by
      rw [q4 o]
      unfold aComp
      intro hnil
      have := cstep_length env (p.1 == 0) o q1
      simp only [] at hnil
      rw [hnil] at this
      simp at this
      split at this <;> omega
    obtain ⟨s3, e3, hs3⟩ := storeItem_ok hs2 hne2 hf x
    rw [e3]
    exact hs3

/-! ## Invariants -/

theorem Shape.comp {env : Env α} (hs : ∀ l, (env.sort l).Perm l) {a : Abs α} (hsh : Shape a)
    {h : Nat} (hh : h < a.Ls.length) (o : Nat) : Shape (aComp env a h o) := by
  have h1 := cstep_size hs (h == 0) o hh
  have h2 := cstep_length env (h == 0) o hh
  refine ⟨hsh.k, hsh.m2, hsh.mle, ?_, ?_, ?_⟩
  · show tot a.k a.m (cstep env (h == 0) o h a.Ls).length ≤
      a.free + (if h + 1 = a.Ls.length then cap a.k a.m a.Ls.length else 0) + pop a.Ls h / 2 +
        size (cstep env (h == 0) o h a.Ls)
    have h3 := hsh.room
    rw [h2]
    by_cases ht : h + 1 = a.Ls.length
    · rw [if_pos ht, if_pos ht]
      show tot a.k a.m a.Ls.length + cap a.k a.m a.Ls.length ≤ _
      omega
    · rw [if_neg ht, if_neg ht]; omega
  · show a.free + (if h + 1 = a.Ls.length then cap a.k a.m a.Ls.length else 0) + pop a.Ls h / 2 +
        size (cstep env (h == 0) o h a.Ls) ≤ a.k * (cstep env (h == 0) o h a.Ls).length
    have h3 := hsh.bound
    rw [h2]
    by_cases ht : h + 1 = a.Ls.length
    · rw [if_pos ht, if_pos ht, Nat.mul_succ]
      have := cap_le hsh.mle a.Ls.length
      omega
    · rw [if_neg ht, if_neg ht]; omega
  · intro hk
    show a.free + (if h + 1 = a.Ls.length then cap a.k a.m a.Ls.length else 0) + pop a.Ls h / 2 +
        size (cstep env (h == 0) o h a.Ls) = tot a.k a.m (cstep env (h == 0) o h a.Ls).length
    have h3 := hsh.full hk
    rw [h2]
    by_cases ht : h + 1 = a.Ls.length
    · rw [if_pos ht, if_pos ht]
      show _ = tot a.k a.m a.Ls.length + cap a.k a.m a.Ls.length
      omega
    · rw [if_neg ht, if_neg ht]; omega

theorem Shape.store {a : Abs α} (hsh : Shape a) (hne : a.Ls ≠ []) (hf : 0 < a.free) (x : α) :
    Shape (aStore a x) := by
  refine ⟨hsh.k, hsh.m2, hsh.mle, ?_, ?_, ?_⟩
  · show tot a.k a.m (consHead x a.Ls).length ≤ a.free - 1 + size (consHead x a.Ls)
    rw [consHead_length, size_consHead x hne]
    have := hsh.room; omega
  · show a.free - 1 + size (consHead x a.Ls) ≤ a.k * (consHead x a.Ls).length
    rw [consHead_length, size_consHead x hne]
    have := hsh.bound; omega
  · intro hk
    show a.free - 1 + size (consHead x a.Ls) = tot a.k a.m (consHead x a.Ls).length
    rw [consHead_length, size_consHead x hne]
    have := hsh.full hk; omega

theorem MM.note {env : Env α} (ho : IsOrd env.lt) {S : List α} {a : Abs α} (h : MM env.lt S a)
    (x : α) : MM env.lt (S ++ [x]) (aNote env a x) := by
  have hirr : ∀ y, env.lt y y = false := by
    intro y
    by_contra hc
    have hc' : env.lt y y = true := by simpa using hc
    have := ho.asymm y y hc'
    rw [hc'] at this
    simp at this
  by_cases hS : S = []
  · have hm : ¬ a.hasMinMax = true := by rw [h.has]; simpa using hS
    unfold aNote
    rw [if_neg hm]
    refine ⟨by simp, ?_, ?_, ?_, ?_⟩ <;> simp [hS, hirr]
  · have hm : a.hasMinMax = true := h.has.2 hS
    unfold aNote
    rw [if_pos hm]
    refine ⟨by simp [hm], ?_, ?_, ?_, ?_⟩
    · intro _
      show (if env.lt x a.minItem then x else a.minItem) ∈ _
      split
      · simp
      · exact List.mem_append_left _ (h.minMem hS)
    · intro _
      show (if env.lt a.maxItem x then x else a.maxItem) ∈ _
      split
      · simp
      · exact List.mem_append_left _ (h.maxMem hS)
    · intro y hy
      show env.lt y (if env.lt x a.minItem then x else a.minItem) = false
      rw [List.mem_append, List.mem_singleton] at hy
      split
      · rename_i hx
        rcases hy with hy | rfl
        · exact ho.trans x a.minItem y (ho.asymm _ _ hx) (h.minLe y hy)
        · exact hirr y
      · rename_i hx
        rcases hy with hy | rfl
        · exact h.minLe y hy
        · simpa using hx
    · intro y hy
      show env.lt (if env.lt a.maxItem x then x else a.maxItem) y = false
      rw [List.mem_append, List.mem_singleton] at hy
      split
      · rename_i hx
        rcases hy with hy | rfl
        · exact ho.trans y a.maxItem x (h.maxGe y hy) (ho.asymm _ _ hx)
        · exact hirr y
      · rename_i hx
        rcases hy with hy | rfl
        · exact h.maxGe y hy
        · simpa using hx

theorem MM.congr {lt : α → α → Bool} {S : List α} {a b : Abs α} (h : MM lt S a)
    (h1 : b.minItem = a.minItem) (h2 : b.maxItem = a.maxItem) (h3 : b.hasMinMax = a.hasMinMax) :
    MM lt S b :=
  ⟨by rw [h3]; exact h.has, by rw [h1]; exact h.minMem, by rw [h2]; exact h.maxMem,
    by rw [h1]; exact h.minLe, by rw [h2]; exact h.maxGe⟩

theorem Core.size_pos {n : Nat} {S : List α} {Ls : List (List α)} {log : List Nat}
    (h : Core n S Ls log) (hn : 0 < n) : 0 < size Ls := by
  have hw := h.weight
  by_contra h0
  have hf : Ls.flatten = [] := List.eq_nil_of_length_eq_zero (by unfold size at h0; omega)
  have : ∀ Ls : List (List α), Ls.flatten = [] → wt Ls = 0 := by
    intro Ls
    induction Ls with
    | nil => intro _; rfl
    | cons l ls ih =>
      intro hl
      rw [List.flatten_cons, List.append_eq_nil_iff] at hl
      have := ih hl.2
      unfold wt at this ⊢
      simp [rk, hl.1, this]
  have := this Ls hf
  omega

/-- The invariant after an update without compaction. -/
theorem Inv.store {env : Env α} {K : Prop} {S : List α} {a : Abs α} (h : Inv env K S a)
    (hf : 0 < a.free) (x : α) : Inv env K (S ++ [x]) (aStore (aNote env a x) x) := by
  have hne : (aNote env a x).Ls ≠ [] := by simpa using h.core.ne
  refine ⟨(h.shape.note env x).store hne (by simpa using hf) x, ?_, ?_, ?_, ?_, ?_, ?_, ?_⟩
  · have := h.core.store x
    simpa [aStore] using this
  · intro ho hso
    have := (h.srt ho hso).store h.core.ne x
    simpa [aStore] using this
  · intro ho
    exact ((h.mm ho).note ho x).congr rfl rfl rfl
  · simpa [aStore] using h.kappa
  · intro h0
    simp [aStore] at h0
  · intro hK
    obtain ⟨h1, h2⟩ := h.pot hK
    have := h2.store h.core.ne x
    exact ⟨by simpa [aStore] using h1, by simpa [aStore] using this⟩
  · intro h2
    have h1 : 0 < a.n := by simp [aStore] at h2; omega
    have := h.core.size_pos h1
    show 2 ≤ size (consHead x (aNote env a x).Ls)
    rw [size_consHead x hne, aNote_Ls]
    omega

/-- The invariant after a compaction and an update. -/
theorem Inv.compStore {env : Env α} (hs : ∀ l, (env.sort l).Perm l) {K : Prop} {S : List α}
    {a : Abs α} (hi : Inv env K S a) {h : Nat} (hh : h < a.Ls.length)
    (hcap : cap a.k a.m (a.Ls.length - (h + 1)) ≤ pop a.Ls h) (hp : 2 ≤ pop a.Ls h) (o : Nat)
    (x : α) : Inv env K (S ++ [x]) (aStore (aComp env (aNote env a x) h o) x) := by
  have hsc := hi.core.comp hs (h == 0) o hh hp
  refine ⟨?_, ?_, ?_, ?_, ?_, ?_, ?_, ?_⟩
  · apply ((hi.shape.note env x).comp hs (by simpa using hh) o).store
    · have := hsc.ne
      simpa [aComp] using this
    · simp only [aComp, aNote_Ls]; omega
  · have := hsc.store x
    simpa [aStore, aComp] using this
  · intro ho hso
    have := ((hi.srt ho hso).comp ho hso (doSort := h == 0) o hh (by
      intro h1 h2
      subst h2
      simp at h1)).store hsc.ne x
    simpa [aStore, aComp] using this
  · intro ho
    exact ((hi.mm ho).note ho x).congr rfl rfl rfl
  · simpa [aStore, aComp] using hi.kappa
  · intro h0
    simp [aStore] at h0
  · intro hK
    obtain ⟨h1, h2⟩ := hi.pot hK
    have := (h2.comp hs hi.core.weight hi.kappa h1 hi.shape.m2 (h == 0) o hh hcap).store hsc.ne x
    exact ⟨by simpa [aStore, aComp] using h1, by simpa [aStore, aComp] using this⟩
  · intro h2
    show 2 ≤ size (consHead x (cstep env (h == 0) o h (aNote env a x).Ls))
    rw [aNote_Ls, size_consHead x hsc.ne]
    have := hsc.size_pos (by
      have h3 := wt_pop (Ls := a.Ls) (h := h)
      rw [hi.core.weight] at h3
      have h4 : 0 < 2 ^ h * pop a.Ls h := by positivity
      omega)
    omega

theorem aUpdate_inv {env : Env α} (hs : ∀ l, (env.sort l).Perm l) {K : Prop} {S : List α}
    {a : Abs α} (hi : Inv env K S a) (x : α) :
    Rand.All (fun b => Inv env K (S ++ [x]) b ∧ b.n = a.n + 1 ∧ b.k = a.k ∧ b.m = a.m ∧
      b.minK = a.minK) (aUpdate env a x) := by
  rcases aUpdate_form (env := env) hi.shape hi.core.ne x with ⟨h0, hu⟩ | ⟨h0, h, h1, h2, h3, hu⟩
  · rw [hu]
    exact ⟨hi.store h0 x, by simp [aStore], by simp [aStore], by simp [aStore], by simp [aStore]⟩
  · rw [hu]
    refine Rand.All.bind (P := fun o => o < 2) (Rand.All.draw (by omega) fun i hi => hi) ?_
    intro o ho
    exact ⟨hi.compStore hs h1 h2 h3 o x, by simp [aStore, aComp], by simp [aStore, aComp],
      by simp [aStore, aComp], by simp [aStore, aComp]⟩

/-! ## Expectations -/

/-- The rank estimate as a rational number. -/
def rkQ (p : α → Bool) (Ls : List (List α)) : ℚ := rk p Ls

theorem half_sum (f : Nat → ℚ) : (∑ i ∈ Finset.range 2, f i) / (2 : Nat) = (f 0 + f 1) / 2 := by
  simp [Finset.sum_range_succ]

theorem rkQ_cstep_avg {env : Env α} (hs : ∀ l, (env.sort l).Perm l) (p : α → Bool) (doSort : Bool)
    {h : Nat} {Ls : List (List α)} (hh : h < Ls.length) :
    (rkQ p (cstep env doSort 0 h Ls) + rkQ p (cstep env doSort 1 h Ls)) / 2 = rkQ p Ls := by
  have h1 := rk_cstep_avg hs p doSort hh
  have h2 : rkQ p (cstep env doSort 0 h Ls) + rkQ p (cstep env doSort 1 h Ls) = 2 * rkQ p Ls := by
    unfold rkQ
    exact_mod_cast h1
  rw [h2]; ring

theorem sq_cstep_avg {env : Env α} (hs : ∀ l, (env.sort l).Perm l) {p : α → Bool}
    (hp : Down env.lt p) {doSort : Bool} {h : Nat} {Ls : List (List α)} (hh : h < Ls.length)
    (hX : ∀ L, Ls[h]? = some L →
      Sorted env.lt (if doSort then env.sort (evenPart L) else evenPart L)) (t : ℚ) :
    ((rkQ p (cstep env doSort 0 h Ls) - t) ^ 2 + (rkQ p (cstep env doSort 1 h Ls) - t) ^ 2) / 2 ≤
      (rkQ p Ls - t) ^ 2 + 4 ^ h := by
  have h1 := rkQ_cstep_avg hs p doSort hh
  obtain ⟨c1, c2⟩ := rk_cstep_close (o := 0) hs hp hh hX
  have d1 : rkQ p (cstep env doSort 0 h Ls) ≤ rkQ p Ls + 2 ^ h := by
    unfold rkQ; exact_mod_cast c1
  have d2 : rkQ p Ls ≤ rkQ p (cstep env doSort 0 h Ls) + 2 ^ h := by
    unfold rkQ; exact_mod_cast c2
  set A := rkQ p (cstep env doSort 0 h Ls)
  set B := rkQ p (cstep env doSort 1 h Ls)
  set R := rkQ p Ls
  have hB : B = 2 * R - A := by linarith
  have h4 : (4 : ℚ) ^ h = 2 ^ h * 2 ^ h := by rw [← mul_pow]; norm_num
  rw [hB, h4]
  have : (A - R) ^ 2 ≤ 2 ^ h * 2 ^ h := by
    have e1 : -(2 ^ h) ≤ A - R := by linarith
    have e2 : A - R ≤ 2 ^ h := by linarith
    nlinarith [mul_nonneg (show (0 : ℚ) ≤ 2 ^ h + (A - R) by linarith)
      (show (0 : ℚ) ≤ 2 ^ h - (A - R) by linarith)]
  nlinarith [this]

theorem rkQ_consHead (p : α → Bool) (x : α) {Ls : List (List α)} (h : Ls ≠ []) :
    rkQ p (consHead x Ls) = rkQ p Ls + if p x then 1 else 0 := by
  unfold rkQ
  rw [rk_consHead p x h]
  push_cast
  split <;> simp

/-- An update is unbiased. -/
theorem aUpdate_E {env : Env α} (hs : ∀ l, (env.sort l).Perm l) {K : Prop} {S : List α}
    {a : Abs α} (hi : Inv env K S a) (x : α) (p : α → Bool) :
    Rand.HasE (fun b => rkQ p b.Ls) (aUpdate env a x) (rkQ p a.Ls + if p x then 1 else 0) := by
  rcases aUpdate_form (env := env) hi.shape hi.core.ne x with ⟨h0, hu⟩ | ⟨h0, h, h1, h2, h3, hu⟩
  · rw [hu]
    show _ = _
    simp only [aStore, aNote_Ls]
    rw [rkQ_consHead p x hi.core.ne]
  · rw [hu]
    refine Rand.HasE.bind (h := fun o => rkQ p (cstep env (h == 0) o h a.Ls) + if p x then 1 else 0)
      ?_ ?_
    · have hd := Rand.HasE.draw (n := 2)
        (f := fun o => rkQ p (cstep env (h == 0) o h a.Ls) + if p x then 1 else 0) (by omega)
      rw [half_sum] at hd
      have e := rkQ_cstep_avg hs p (h == 0) h1
      have e2 : (rkQ p (cstep env (h == 0) 0 h a.Ls) + (if p x then 1 else 0) +
          (rkQ p (cstep env (h == 0) 1 h a.Ls) + (if p x then 1 else 0))) / 2 =
          rkQ p a.Ls + if p x then 1 else 0 := by linarith
      rw [e2] at hd
      exact hd
    · refine Rand.All.draw (by omega) fun o ho => ?_
      show _ = _
      simp only [aStore, aComp, aNote_Ls]
      rw [rkQ_consHead p x (hi.core.comp hs (h == 0) o h1 h3).ne]

/-- The squared error minus `∑ 4^h` does not grow on average. -/
theorem aUpdate_sq {env : Env α} (ho : IsOrd env.lt) (hso : Sorts env) {K : Prop} {S : List α}
    {a : Abs α} (hi : Inv env K S a) (x : α) {p : α → Bool} (hp : Down env.lt p) (t : ℚ) :
    Rand.ELe (fun b => (rkQ p b.Ls - (t + if p x then 1 else 0)) ^ 2 - q4 b.log) (aUpdate env a x)
      ((rkQ p a.Ls - t) ^ 2 - q4 a.log) := by
  have hs := hso.perm
  rcases aUpdate_form (env := env) hi.shape hi.core.ne x with ⟨h0, hu⟩ | ⟨h0, h, h1, h2, h3, hu⟩
  · rw [hu]
    show _ ≤ _
    simp only [aStore, aNote_Ls, aNote_log]
    rw [rkQ_consHead p x hi.core.ne]
    apply le_of_eq; ring
  · rw [hu]
    refine Rand.ELe.bind
      (h := fun o => (rkQ p (cstep env (h == 0) o h a.Ls) - t) ^ 2 - (4 ^ h + q4 a.log)) ?_ ?_
    · apply Rand.ELe.draw (by omega)
      rw [half_sum]
      have := sq_cstep_avg hs hp h1 ((hi.srt ho hso).ready hso (doSort := h == 0) (h := h) (by
        intro e1 e2
        subst e2
        simp at e1)) t
      linarith
    · refine Rand.All.draw (by omega) fun o ho => ?_
      show _ ≤ _
      simp only [aStore, aComp, aNote_Ls, aNote_log, q4_cons]
      rw [rkQ_consHead p x (hi.core.comp hs (h == 0) o h1 h3).ne]
      push_cast
      apply le_of_eq; ring

end Verif.Kll
