import Mathlib.Data.Nat.Prime.Basic
import Mathlib.Data.Nat.ModEq
import Mathlib.Algebra.Group.Nat.Even
import Mathlib.Data.List.Perm.Basic
import Mathlib.Data.List.Perm.Subperm
import Mathlib.Data.List.Perm.Lattice
import Mathlib.Data.List.Nodup
import Mathlib.Tactic.Linarith
import Mathlib.Tactic.Ring

/-!
# Open addressing with a key-dependent odd stride over a power-of-two table

Shared by the models of `theta/hashtable.go`, `tuple/hashtable.go`, `hll/coupon_hash_set.go`,
`hll/aux_hash_map.go` and `frequencies` (stride 1).  `findLoop` is the probing loop that all of them
use; each model instantiates it with its own index arithmetic.
-/

namespace Verif.Probe

/-- Result of a probe loop. `full`: came back to the start without a hit or an empty slot.
`panic`: index out of range (or, in the model, out of fuel; shown impossible). -/
inductive Res where
  | found (i : Nat)
  | empty (i : Nat)
  | full
  | panic
  deriving DecidableEq, Repr

/-- The probe loop: `emp` recognises a free slot, `hit` the sought key, `next` is the index step,
`start` the first index.  The check order (empty, hit, step, back at start) is that of the Go loops. -/
def findLoop {α : Type} (emp hit : α → Bool) (next : Nat → Nat) (start : Nat) (tbl : List α) :
    Nat → Nat → Res
  | 0, _ => .panic
  | fuel + 1, idx =>
    match tbl[idx]? with
    | none => .panic
    | some e =>
      if emp e then .empty idx
      else if hit e then .found idx
      else if next idx = start then .full
      else findLoop emp hit next start tbl fuel (next idx)

/-- A table scheme: how entries are recognised and where keys are probed. -/
structure Scheme (α : Type) where
  emp : α → Bool
  key : α → Nat
  size : Nat
  start : Nat → Nat
  next : Nat → Nat → Nat

/-- The scheme's search for key `k`. -/
def Scheme.find {α : Type} (s : Scheme α) (tbl : List α) (k : Nat) : Res :=
  findLoop s.emp (fun e => s.key e == k) (s.next k) (s.start k) tbl s.size (s.start k)

/-- The arithmetic facts a scheme must satisfy: power-of-two size, odd strides. -/
structure Scheme.Ok {α : Type} (s : Scheme α) (lg : Nat) (stride : Nat → Nat) : Prop where
  size_eq : s.size = 2 ^ lg
  start_lt : ∀ k, s.start k < s.size
  odd : ∀ k, stride k % 2 = 1
  next_eq : ∀ k i, i < s.size → s.next k i = (i + stride k) % s.size

/-- `i`-th probed position for key `k` -/
def Scheme.pos {α : Type} (s : Scheme α) (stride : Nat → Nat) (k i : Nat) : Nat :=
  (s.start k + i * stride k) % s.size

variable {α : Type} {s : Scheme α} {lg : Nat} {stride : Nat → Nat}

theorem Scheme.Ok.size_pos (h : s.Ok lg stride) : 0 < s.size := by
  rw [h.size_eq]; exact Nat.two_pow_pos lg

theorem Scheme.Ok.pos_lt (h : s.Ok lg stride) (k i : Nat) : s.pos stride k i < s.size :=
  Nat.mod_lt _ h.size_pos

theorem Scheme.Ok.pos_zero (h : s.Ok lg stride) (k : Nat) : s.pos stride k 0 = s.start k := by
  simp [Scheme.pos, Nat.mod_eq_of_lt (h.start_lt k)]

theorem Scheme.Ok.next_pos (h : s.Ok lg stride) (k i : Nat) :
    s.next k (s.pos stride k i) = s.pos stride k (i + 1) := by
  rw [h.next_eq k _ (h.pos_lt k i)]
  simp only [Scheme.pos]
  rw [Nat.mod_add_mod]
  congr 1; ring

theorem Scheme.Ok.pos_inj (h : s.Ok lg stride) (k : Nat) {i j : Nat} (hi : i < s.size)
    (hj : j < s.size) (he : s.pos stride k i = s.pos stride k j) : i = j := by
  have hc : Nat.Coprime s.size (stride k) := by
    rw [h.size_eq]
    apply Nat.Coprime.pow_left
    rw [Nat.coprime_two_left, Nat.odd_iff]
    exact h.odd k
  have h1 : s.start k + i * stride k ≡ s.start k + j * stride k [MOD s.size] := he
  have h2 : i * stride k ≡ j * stride k [MOD s.size] := Nat.ModEq.add_left_cancel' _ h1
  have h3 : i ≡ j [MOD s.size] := Nat.ModEq.cancel_right_of_coprime hc h2
  exact Nat.ModEq.eq_of_lt_of_lt h3 hi hj

theorem Scheme.Ok.pos_size (h : s.Ok lg stride) (k : Nat) : s.pos stride k s.size = s.start k := by
  simp [Scheme.pos, Nat.mod_eq_of_lt (h.start_lt k)]

theorem Scheme.Ok.pos_surj (h : s.Ok lg stride) (k : Nat) {p : Nat} (hp : p < s.size) :
    ∃ i, i < s.size ∧ s.pos stride k i = p := by
  -- the list of the probed positions is duplicate free and inside [0, size), hence a permutation
  have hnd : ((List.range s.size).map (s.pos stride k)).Nodup := by
    apply List.Nodup.map_on _ List.nodup_range
    intro i hi j hj e
    exact h.pos_inj k (List.mem_range.mp hi) (List.mem_range.mp hj) e
  have hsub : ((List.range s.size).map (s.pos stride k)) ⊆ List.range s.size := by
    intro x hx
    obtain ⟨i, _, rfl⟩ := List.mem_map.mp hx
    exact List.mem_range.mpr (h.pos_lt k i)
  have hperm : ((List.range s.size).map (s.pos stride k)).Perm (List.range s.size) :=
    (hnd.subperm hsub).perm_of_length_le (by simp)
  have : p ∈ (List.range s.size).map (s.pos stride k) :=
    hperm.mem_iff.mpr (List.mem_range.mpr hp)
  obtain ⟨i, hi, e⟩ := List.mem_map.mp this
  exact ⟨i, List.mem_range.mp hi, e⟩

/-- slot `p` holds a non-empty entry -/
def Occ (s : Scheme α) (tbl : List α) (p : Nat) : Prop :=
  ∃ e, tbl[p]? = some e ∧ s.emp e = false

theorem findLoop_spec (h : s.Ok lg stride) (tbl : List α) (hl : tbl.length = s.size) (k : Nat) :
    ∀ (fuel i : Nat), i + fuel = s.size → 0 < fuel →
      (∀ j, j < i → ∃ e, tbl[s.pos stride k j]? = some e ∧ s.emp e = false ∧ s.key e ≠ k) →
      (∃ i', i' < s.size ∧
        (∀ j, j < i' → ∃ e, tbl[s.pos stride k j]? = some e ∧ s.emp e = false ∧ s.key e ≠ k) ∧
        ((∃ e, tbl[s.pos stride k i']? = some e ∧ s.emp e = false ∧ s.key e = k ∧
          findLoop s.emp (fun e => s.key e == k) (s.next k) (s.start k) tbl fuel (s.pos stride k i)
            = .found (s.pos stride k i')) ∨
         (∃ e, tbl[s.pos stride k i']? = some e ∧ s.emp e = true ∧
          findLoop s.emp (fun e => s.key e == k) (s.next k) (s.start k) tbl fuel (s.pos stride k i)
            = .empty (s.pos stride k i')))) ∨
      ((∀ j, j < s.size → ∃ e, tbl[s.pos stride k j]? = some e ∧ s.emp e = false ∧ s.key e ≠ k) ∧
        findLoop s.emp (fun e => s.key e == k) (s.next k) (s.start k) tbl fuel (s.pos stride k i)
          = .full) := by
  intro fuel
  induction fuel with
  | zero => intro i _ h0; omega
  | succ fuel ih =>
    intro i hfi _ hprev
    have hp := h.pos_lt k i
    have hg : tbl[s.pos stride k i]? = some (tbl[s.pos stride k i]'(by omega)) :=
      List.getElem?_eq_getElem (by omega)
    generalize hE : tbl[s.pos stride k i]'(by omega) = E at hg
    rw [findLoop, hg]
    simp only
    by_cases he : s.emp E = true
    · left
      refine ⟨i, by omega, hprev, Or.inr ⟨E, hg, he, by rw [if_pos he]⟩⟩
    · rw [if_neg he]
      by_cases hk : s.key E = k
      · left
        refine ⟨i, by omega, hprev, Or.inl ⟨E, hg, by simpa using he, hk, ?_⟩⟩
        rw [if_pos (by simp [hk])]
      · rw [if_neg (by simp [hk]), h.next_pos]
        have hprev' : ∀ j, j < i + 1 →
            ∃ e, tbl[s.pos stride k j]? = some e ∧ s.emp e = false ∧ s.key e ≠ k := by
          intro j hj
          by_cases hji : j = i
          · subst hji; exact ⟨E, hg, by simpa using he, hk⟩
          · exact hprev j (by omega)
        by_cases hend : i + 1 = s.size
        · right
          refine ⟨fun j hj => hprev' j (by omega), ?_⟩
          rw [hend, h.pos_size, if_pos rfl]
        · have hne : s.pos stride k (i + 1) ≠ s.start k := by
            intro hcon
            rw [← h.pos_zero] at hcon
            have := h.pos_inj k (by omega) h.size_pos hcon
            omega
          rw [if_neg hne]
          exact ih (i + 1) (by omega) (by omega) hprev'

/-- Complete description of `find`. -/
theorem Scheme.Ok.find_cases (h : s.Ok lg stride) (tbl : List α) (hl : tbl.length = s.size)
    (k : Nat) :
    (∃ i, i < s.size ∧
      (∀ j, j < i → ∃ e, tbl[s.pos stride k j]? = some e ∧ s.emp e = false ∧ s.key e ≠ k) ∧
      ((∃ e, tbl[s.pos stride k i]? = some e ∧ s.emp e = false ∧ s.key e = k ∧
        s.find tbl k = .found (s.pos stride k i)) ∨
       (∃ e, tbl[s.pos stride k i]? = some e ∧ s.emp e = true ∧
        s.find tbl k = .empty (s.pos stride k i)))) ∨
    ((∀ p, p < s.size → ∃ e, tbl[p]? = some e ∧ s.emp e = false ∧ s.key e ≠ k) ∧
      s.find tbl k = .full) := by
  have := findLoop_spec h tbl hl k s.size 0 (by omega) h.size_pos (by intro j hj; omega)
  rw [h.pos_zero] at this
  rcases this with ⟨i, hi, hprev, hc⟩ | ⟨hall, e⟩
  · exact Or.inl ⟨i, hi, hprev, hc⟩
  · right
    refine ⟨?_, e⟩
    intro p hp
    obtain ⟨i, hi, rfl⟩ := h.pos_surj k hp
    exact hall i hi

/-- The reachability invariant: each occupied slot can be reached along its key's probe sequence
through occupied slots only, and keys are unique. -/
structure Chain (s : Scheme α) (stride : Nat → Nat) (tbl : List α) : Prop where
  len : tbl.length = s.size
  reach : ∀ (p : Nat) (e : α), tbl[p]? = some e → s.emp e = false →
    ∃ i, i < s.size ∧ p = s.pos stride (s.key e) i ∧
      ∀ j, j < i → Occ s tbl (s.pos stride (s.key e) j)
  uniq : ∀ (p q : Nat) (e f : α), tbl[p]? = some e → s.emp e = false → tbl[q]? = some f →
    s.emp f = false → s.key e = s.key f → p = q

/-- A present key is found, at its slot. -/
theorem Chain.find_present (hc : Chain s stride tbl) (h : s.Ok lg stride) {p : Nat}
    {e : α} (hp : tbl[p]? = some e) (he : s.emp e = false) :
    s.find tbl (s.key e) = .found p := by
  obtain ⟨i, hi, hpi, hocc⟩ := hc.reach p e hp he
  have hpe : tbl[s.pos stride (s.key e) i]? = some e := by rw [← hpi]; exact hp
  rcases h.find_cases tbl hc.len (s.key e) with ⟨i', hi', hprev, hcase⟩ | ⟨hall, hf⟩
  · rcases hcase with ⟨f, hf, hfe, hfk, hres⟩ | ⟨f, hf, hfe, hres⟩
    · rw [hres]
      rw [hc.uniq _ _ f e hf hfe hp he hfk]
    · exfalso
      rcases Nat.lt_trichotomy i' i with hlt | heq | hgt
      · obtain ⟨g, hg, hge⟩ := hocc i' hlt
        rw [hf] at hg
        simp only [Option.some.injEq] at hg
        subst hg
        rw [hfe] at hge; cases hge
      · subst heq
        rw [hpe] at hf
        simp only [Option.some.injEq] at hf
        subst hf
        rw [hfe] at he; cases he
      · obtain ⟨g, hg, _, hgk⟩ := hprev i hgt
        rw [hpe] at hg
        simp only [Option.some.injEq] at hg
        subst hg
        exact hgk rfl
  · exfalso
    have hplt : p < s.size := by rw [hpi]; exact h.pos_lt _ _
    obtain ⟨g, hg, _, hgk⟩ := hall p hplt
    rw [hp] at hg
    simp only [Option.some.injEq] at hg
    subst hg
    exact hgk rfl

/-- An absent key is reported as absent with a free slot if there is one. -/
theorem Chain.find_absent (hl : tbl.length = s.size) (h : s.Ok lg stride) (k : Nat)
    (habs : ∀ (p : Nat) (e : α), tbl[p]? = some e → s.emp e = false → s.key e ≠ k)
    (hfree : ∃ (p : Nat) (e : α), tbl[p]? = some e ∧ s.emp e = true) :
    ∃ i e, i < s.size ∧ tbl[s.pos stride k i]? = some e ∧ s.emp e = true ∧
      (∀ j, j < i → Occ s tbl (s.pos stride k j)) ∧ s.find tbl k = .empty (s.pos stride k i) := by
  rcases h.find_cases tbl hl k with ⟨i', hi', hprev, hcase⟩ | ⟨hall, hf⟩
  · rcases hcase with ⟨f, hf, hfe, hfk, hres⟩ | ⟨f, hf, hfe, hres⟩
    · exact absurd hfk (habs _ f hf hfe)
    · refine ⟨i', f, hi', hf, hfe, ?_, hres⟩
      intro j hj
      obtain ⟨g, hg, hge, _⟩ := hprev j hj
      exact ⟨g, hg, hge⟩
  · exfalso
    obtain ⟨p, e, hp, he⟩ := hfree
    have : p < tbl.length := by
      by_contra hcon
      rw [List.getElem?_eq_none (by omega)] at hp; cases hp
    obtain ⟨g, hg, hge, _⟩ := hall p (by omega)
    rw [hp] at hg
    simp only [Option.some.injEq] at hg
    subst hg
    rw [he] at hge; cases hge

/-- What a search result `empty p` means. -/
theorem Scheme.Ok.find_empty (h : s.Ok lg stride) {tbl : List α} (hl : tbl.length = s.size)
    {k p : Nat} (hf : s.find tbl k = .empty p) :
    ∃ i e, i < s.size ∧ p = s.pos stride k i ∧ tbl[p]? = some e ∧ s.emp e = true ∧
      (∀ j, j < i → Occ s tbl (s.pos stride k j)) := by
  rcases h.find_cases tbl hl k with ⟨i', hi', hprev, hcase⟩ | ⟨_, hf'⟩
  · rcases hcase with ⟨f, hf1, hfe, hfk, hres⟩ | ⟨f, hf1, hfe, hres⟩
    · rw [hres] at hf; cases hf
    · rw [hres] at hf
      simp only [Res.empty.injEq] at hf
      subst hf
      refine ⟨i', f, hi', rfl, hf1, hfe, ?_⟩
      intro j hj
      obtain ⟨g, hg, hge, _⟩ := hprev j hj
      exact ⟨g, hg, hge⟩
  · rw [hf'] at hf; cases hf

/-- What a search result `found p` means. -/
theorem Scheme.Ok.find_found (h : s.Ok lg stride) {tbl : List α} (hl : tbl.length = s.size)
    {k p : Nat} (hf : s.find tbl k = .found p) :
    ∃ e, tbl[p]? = some e ∧ s.emp e = false ∧ s.key e = k := by
  rcases h.find_cases tbl hl k with ⟨i', hi', hprev, hcase⟩ | ⟨_, hf'⟩
  · rcases hcase with ⟨f, hf1, hfe, hfk, hres⟩ | ⟨f, hf1, hfe, hres⟩
    · rw [hres] at hf
      simp only [Res.found.injEq] at hf
      subst hf
      exact ⟨f, hf1, hfe, hfk⟩
    · rw [hres] at hf; cases hf
  · rw [hf'] at hf; cases hf

/-- Under the invariant a search result `empty` means the key is absent. -/
theorem Chain.absent_of_empty (hc : Chain s stride tbl) (h : s.Ok lg stride) {k p : Nat}
    (hf : s.find tbl k = .empty p) :
    ∀ (q : Nat) (e : α), tbl[q]? = some e → s.emp e = false → s.key e ≠ k := by
  intro q e hq he hk
  have := hc.find_present h hq he
  rw [hk, hf] at this
  cases this

theorem Chain.insert (hc : Chain s stride tbl) (h : s.Ok lg stride) {e : α} {p : Nat}
    (he : s.emp e = false) (hf : s.find tbl (s.key e) = .empty p) :
    Chain s stride (tbl.set p e) := by
  obtain ⟨i, e0, hi, hpi, hp, hemp, hocc⟩ := h.find_empty hc.len hf
  have habs := hc.absent_of_empty h hf
  have hplt : p < tbl.length := by
    by_contra hcon
    rw [List.getElem?_eq_none (by omega)] at hp; cases hp
  have hset : ∀ q, (tbl.set p e)[q]? = if p = q then some e else tbl[q]? := by
    intro q
    by_cases hq : p = q
    · subst hq; rw [if_pos rfl, List.getElem?_set_self hplt]
    · rw [if_neg hq, List.getElem?_set_ne hq]
  have hkeep : ∀ q, Occ s tbl q → Occ s (tbl.set p e) q := by
    rintro q ⟨f, hf, hfe⟩
    by_cases hq : p = q
    · exact ⟨e, by rw [hset, if_pos hq], he⟩
    · exact ⟨f, by rw [hset, if_neg hq]; exact hf, hfe⟩
  refine ⟨by rw [List.length_set]; exact hc.len, ?_, ?_⟩
  · intro q f hq hfe
    rw [hset] at hq
    by_cases hpq : p = q
    · rw [if_pos hpq] at hq
      simp only [Option.some.injEq] at hq
      subst hq
      exact ⟨i, hi, by rw [← hpq]; exact hpi, fun j hj => hkeep _ (hocc j hj)⟩
    · rw [if_neg hpq] at hq
      obtain ⟨i', hi', hq', hocc'⟩ := hc.reach q f hq hfe
      exact ⟨i', hi', hq', fun j hj => hkeep _ (hocc' j hj)⟩
  · intro q r f g hq hfe hr hge hk
    rw [hset] at hq hr
    by_cases hpq : p = q <;> by_cases hpr : p = r
    · omega
    · rw [if_pos hpq] at hq; rw [if_neg hpr] at hr
      simp only [Option.some.injEq] at hq
      subst hq
      exact absurd hk.symm (habs r g hr hge)
    · rw [if_neg hpq] at hq; rw [if_pos hpr] at hr
      simp only [Option.some.injEq] at hr
      subst hr
      exact absurd hk (habs q f hq hfe)
    · rw [if_neg hpq] at hq; rw [if_neg hpr] at hr
      exact hc.uniq q r f g hq hfe hr hge hk

/-- Overwriting the entry of a present key by another entry with the same key. -/
theorem Chain.replace (hc : Chain s stride tbl) {e f : α} {p : Nat}
    (hp : tbl[p]? = some f) (hf : s.emp f = false) (he : s.emp e = false)
    (hk : s.key e = s.key f) : Chain s stride (tbl.set p e) := by
  have hplt : p < tbl.length := by
    by_contra hcon
    rw [List.getElem?_eq_none (by omega)] at hp; cases hp
  have hset : ∀ q, (tbl.set p e)[q]? = if p = q then some e else tbl[q]? := by
    intro q
    by_cases hq : p = q
    · subst hq; rw [if_pos rfl, List.getElem?_set_self hplt]
    · rw [if_neg hq, List.getElem?_set_ne hq]
  have hkeep : ∀ q, Occ s tbl q → Occ s (tbl.set p e) q := by
    rintro q ⟨g, hg, hge⟩
    by_cases hq : p = q
    · exact ⟨e, by rw [hset, if_pos hq], he⟩
    · exact ⟨g, by rw [hset, if_neg hq]; exact hg, hge⟩
  -- every entry of the new table corresponds to one of the old with the same key
  have hold : ∀ (q : Nat) (g : α), (tbl.set p e)[q]? = some g → s.emp g = false →
      ∃ g', tbl[q]? = some g' ∧ s.emp g' = false ∧ s.key g' = s.key g := by
    intro q g hq hge
    rw [hset] at hq
    by_cases hpq : p = q
    · rw [if_pos hpq] at hq
      simp only [Option.some.injEq] at hq
      subst hq
      exact ⟨f, by rw [← hpq]; exact hp, hf, hk.symm⟩
    · rw [if_neg hpq] at hq
      exact ⟨g, hq, hge, rfl⟩
  refine ⟨by rw [List.length_set]; exact hc.len, ?_, ?_⟩
  · intro q g hq hge
    obtain ⟨g', hq', hge', hk'⟩ := hold q g hq hge
    obtain ⟨i, hi, hqi, hocc⟩ := hc.reach q g' hq' hge'
    rw [hk'] at hqi hocc
    exact ⟨i, hi, hqi, fun j hj => hkeep _ (hocc j hj)⟩
  · intro q r g g2 hq hge hr hge2 hk2
    obtain ⟨g', hq', hge', hk'⟩ := hold q g hq hge
    obtain ⟨h', hr', hre', hkr'⟩ := hold r g2 hr hge2
    exact hc.uniq q r g' h' hq' hge' hr' hre' (by rw [hk', hkr', hk2])

/-- The empty table satisfies the invariant. -/
theorem Chain.empty {z : α} (hz : s.emp z = true) : Chain s stride (List.replicate s.size z) := by
  refine ⟨by simp, ?_, ?_⟩
  · intro p e hp he
    have := List.mem_of_getElem? hp
    rw [List.mem_replicate] at this
    rw [this.2, hz] at he; cases he
  · intro p q e f hp he
    have := List.mem_of_getElem? hp
    rw [List.mem_replicate] at this
    rw [this.2, hz] at he; cases he

/-- the occupied entries, in table order -/
def Scheme.items (s : Scheme α) (tbl : List α) : List α := tbl.filter (fun e => !s.emp e)

theorem items_set_empty {tbl : List α} {p : Nat} {e f : α} (hp : tbl[p]? = some f)
    (hf : s.emp f = true) (he : s.emp e = false) :
    (s.items (tbl.set p e)).Perm (e :: s.items tbl) := by
  unfold Scheme.items
  induction tbl generalizing p with
  | nil => simp at hp
  | cons a t ih =>
    cases p with
    | zero =>
      simp only [List.getElem?_cons_zero, Option.some.injEq] at hp
      subst hp
      simp [hf, he]
    | succ p =>
      simp only [List.getElem?_cons_succ] at hp
      simp only [List.set_cons_succ, List.filter_cons]
      split
      · exact ((ih hp).cons a).trans (List.Perm.swap _ _ _)
      · exact ih hp

theorem items_set_occ {tbl : List α} {p : Nat} {e f : α} (hp : tbl[p]? = some f)
    (hf : s.emp f = false) (he : s.emp e = false) :
    ∃ l, (s.items tbl).Perm (f :: l) ∧ (s.items (tbl.set p e)).Perm (e :: l) := by
  unfold Scheme.items
  induction tbl generalizing p with
  | nil => simp at hp
  | cons a t ih =>
    cases p with
    | zero =>
      simp only [List.getElem?_cons_zero, Option.some.injEq] at hp
      subst hp
      exact ⟨t.filter (fun e => !s.emp e), by simp [hf], by simp [he]⟩
    | succ p =>
      simp only [List.getElem?_cons_succ] at hp
      simp only [List.set_cons_succ, List.filter_cons]
      obtain ⟨l, h1, h2⟩ := ih hp
      split
      · exact ⟨a :: l, (h1.cons a).trans (List.Perm.swap _ _ _),
          (h2.cons a).trans (List.Perm.swap _ _ _)⟩
      · exact ⟨l, h1, h2⟩

theorem items_length_lt_of_free {tbl : List α} :
    (∃ (p : Nat) (e : α), tbl[p]? = some e ∧ s.emp e = true) ↔
      (s.items tbl).length < tbl.length := by
  unfold Scheme.items
  induction tbl with
  | nil => simp
  | cons a t ih =>
    simp only [List.filter_cons, List.length_cons]
    have hle := List.length_filter_le (fun e => !s.emp e) t
    by_cases ha : s.emp a = true
    · rw [if_neg (by simp [ha])]
      constructor
      · intro _; omega
      · intro _; exact ⟨0, a, by simp, ha⟩
    · rw [if_pos (by simpa using ha), List.length_cons]
      constructor
      · rintro ⟨p, e, hp, he⟩
        cases p with
        | zero =>
          simp only [List.getElem?_cons_zero, Option.some.injEq] at hp
          subst hp; exact absurd he ha
        | succ p =>
          have := ih.mp ⟨p, e, by simpa using hp, he⟩
          omega
      · intro hlt
        obtain ⟨p, e, hp, he⟩ := ih.mpr (by omega)
        exact ⟨p + 1, e, by simpa using hp, he⟩

theorem mem_items {tbl : List α} {e : α} :
    e ∈ s.items tbl ↔ ∃ p : Nat, tbl[p]? = some e ∧ s.emp e = false := by
  unfold Scheme.items
  rw [List.mem_filter, List.mem_iff_getElem?]
  simp

theorem items_replicate {z : α} (hz : s.emp z = true) (n : Nat) :
    s.items (List.replicate n z) = [] := by
  simp [Scheme.items, hz]

theorem Chain.keys_nodup (hc : Chain s stride tbl) : ((s.items tbl).map s.key).Nodup := by
  have hu := hc.uniq
  clear hc
  unfold Scheme.items
  induction tbl with
  | nil => simp
  | cons a t ih =>
    have iht : ((t.filter (fun e => !s.emp e)).map s.key).Nodup := by
      apply ih
      intro p q e f hp he hq hf hk
      have := hu (p + 1) (q + 1) e f (by simpa using hp) he (by simpa using hq) hf hk
      omega
    rw [List.filter_cons]
    split
    · rename_i ha
      rw [List.map_cons, List.nodup_cons]
      refine ⟨?_, iht⟩
      intro hm
      obtain ⟨b, hb, hbk⟩ := List.mem_map.mp hm
      rw [List.mem_filter] at hb
      obtain ⟨p, hp⟩ := List.mem_iff_getElem?.mp hb.1
      have := hu 0 (p + 1) a b (by simp) (by simpa using ha) (by simpa using hp) (by simpa using hb.2)
        hbk.symm
      omega
    · exact iht

end Verif.Probe
