import Verif.Rand

/-!
# Pairing the runs of a program with coin flips

Two programs that flip coins are paired so that their runs correspond, with some coins of the second
reversed.  If the quantity of interest changes its sign between the two, its expectations do too; a
program paired with itself in this way has expectation 0.
-/

namespace Verif.Rand

variable {α β γ δ : Type}

/-- Related runs: every coin of `t` has a counterpart in `u`, which may be reversed. -/
def Mirror (R : α → β → Prop) : Rand α → Rand β → Prop
  | ret a, ret b => R a b
  | intn n k, intn n' k' => n = 2 ∧ n' = 2 ∧
      ((Mirror R (k 0) (k' 0) ∧ Mirror R (k 1) (k' 1)) ∨
        (Mirror R (k 0) (k' 1) ∧ Mirror R (k 1) (k' 0)))
  | _, _ => False

theorem Mirror.ret {R : α → β → Prop} {a : α} {b : β} (h : R a b) : Mirror R (ret a) (ret b) := h

theorem Mirror.bind {R : α → β → Prop} {S : γ → δ → Prop} {P : α → Prop} {Q : β → Prop} {t : Rand α}
    {u : Rand β} {f : α → Rand γ} {g : β → Rand δ} (h : Mirror R t u) (hp : All P t) (hq : All Q u)
    (hf : ∀ a b, R a b → P a → Q b → Mirror S (f a) (g b)) : Mirror S (t >>= f) (u >>= g) := by
  induction t generalizing u with
  | ret a =>
    cases u with
    | ret b => exact hf a b h hp hq
    | _ => exact absurd h (by simp [Mirror])
  | err e => exact absurd hp (by simp [All])
  | panic => exact absurd hp (by simp [All])
  | intn n k ih =>
    cases u with
    | intn n' k' =>
      simp only [Mirror] at h
      obtain ⟨rfl, rfl, h⟩ := h
      simp only [intn_bind, Mirror]
      refine ⟨trivial, trivial, ?_⟩
      rcases h with ⟨h0, h1⟩ | ⟨h0, h1⟩
      · exact Or.inl ⟨ih 0 h0 (hp.2 0 (by omega)) (hq.2 0 (by omega)),
          ih 1 h1 (hp.2 1 (by omega)) (hq.2 1 (by omega))⟩
      · exact Or.inr ⟨ih 0 h0 (hp.2 0 (by omega)) (hq.2 1 (by omega)),
          ih 1 h1 (hp.2 1 (by omega)) (hq.2 0 (by omega))⟩
    | _ => exact absurd h (by simp [Mirror])
  | unif nz k ih => exact absurd h (by simp [Mirror])

theorem Mirror.mono {R S : α → β → Prop} {t : Rand α} {u : Rand β} (h : Mirror R t u)
    (hrs : ∀ a b, R a b → S a b) : Mirror S t u := by
  induction t generalizing u with
  | ret a =>
    cases u with
    | ret b => exact hrs a b h
    | _ => exact absurd h (by simp [Mirror])
  | err e => exact absurd h (by simp [Mirror])
  | panic => exact absurd h (by simp [Mirror])
  | intn n k ih =>
    cases u with
    | intn n' k' =>
      simp only [Mirror] at h ⊢
      obtain ⟨h1, h2, h⟩ := h
      refine ⟨h1, h2, ?_⟩
      rcases h with ⟨a, b⟩ | ⟨a, b⟩
      · exact Or.inl ⟨ih 0 a, ih 1 b⟩
      · exact Or.inr ⟨ih 0 a, ih 1 b⟩
    | _ => exact absurd h (by simp [Mirror])
  | unif nz k ih => exact absurd h (by simp [Mirror])

theorem Mirror.neg {R : α → β → Prop} {f : α → ℚ} {g : β → ℚ} {t : Rand α} {u : Rand β}
    (h : Mirror R t u) (hfg : ∀ a b, R a b → g b = -f a) : ∃ x, HasE f t x ∧ HasE g u (-x) := by
  induction t generalizing u with
  | ret a =>
    cases u with
    | ret b => exact ⟨f a, rfl, (hfg a b h).symm⟩
    | _ => exact absurd h (by simp [Mirror])
  | err e => exact absurd h (by simp [Mirror])
  | panic => exact absurd h (by simp [Mirror])
  | intn n k ih =>
    cases u with
    | intn n' k' =>
      simp only [Mirror] at h
      obtain ⟨rfl, rfl, h⟩ := h
      have key : ∀ a b a' b', HasE f (k 0) a → HasE f (k 1) b → HasE g (k' 0) a' →
          HasE g (k' 1) b' → a' + b' = -(a + b) →
          ∃ x, HasE f (intn 2 k) x ∧ HasE g (intn 2 k') (-x) := by
        intro a b a' b' h1 h2 h3 h4 h5
        refine ⟨(a + b) / 2, ⟨by omega, fun i => if i = 0 then a else b, ?_, ?_⟩,
          ⟨by omega, fun i => if i = 0 then a' else b', ?_, ?_⟩⟩
        · intro i hi
          match i, hi with
          | 0, _ => exact h1
          | 1, _ => exact h2
        · simp [Finset.sum_range_succ]
        · intro i hi
          match i, hi with
          | 0, _ => exact h3
          | 1, _ => exact h4
        · simp only [Finset.sum_range_succ, Finset.sum_range_zero, if_true, one_ne_zero, if_false,
            zero_add, Nat.cast_ofNat]
          rw [h5]; ring
      rcases h with ⟨h0, h1⟩ | ⟨h0, h1⟩
      · obtain ⟨x, hx, hx'⟩ := ih 0 h0
        obtain ⟨y, hy, hy'⟩ := ih 1 h1
        exact key x y (-x) (-y) hx hy hx' hy' (by ring)
      · obtain ⟨x, hx, hx'⟩ := ih 0 h0
        obtain ⟨y, hy, hy'⟩ := ih 1 h1
        exact key x y (-y) (-x) hx hy hy' hx' (by ring)
    | _ => exact absurd h (by simp [Mirror])
  | unif nz k ih => exact absurd h (by simp [Mirror])

/-- A program that is its own mirror image with the sign reversed. -/
theorem Mirror.zero {R : α → α → Prop} {f : α → ℚ} {t : Rand α} (h : Mirror R t t)
    (hf : ∀ a b, R a b → f b = -f a) : HasE f t 0 := by
  obtain ⟨x, h1, h2⟩ := h.neg hf
  have := h1.unique h2
  have hx : x = 0 := by linarith
  rwa [hx] at h1

theorem Mirror.left {R : α → β → Prop} {P : α → Prop} {t : Rand α} {u : Rand β} (h : Mirror R t u)
    (hp : ∀ a b, R a b → P a) : All P t := by
  induction t generalizing u with
  | ret a =>
    cases u with
    | ret b => exact hp a b h
    | _ => exact absurd h (by simp [Mirror])
  | err e => exact absurd h (by simp [Mirror])
  | panic => exact absurd h (by simp [Mirror])
  | intn n k ih =>
    cases u with
    | intn n' k' =>
      simp only [Mirror] at h
      obtain ⟨rfl, rfl, h⟩ := h
      refine ⟨by omega, fun i hi => ?_⟩
      match i, hi with
      | 0, _ => exact h.elim (fun h => ih 0 h.1) fun h => ih 0 h.1
      | 1, _ => exact h.elim (fun h => ih 1 h.2) fun h => ih 1 h.2
    | _ => exact absurd h (by simp [Mirror])
  | unif nz k ih => exact absurd h (by simp [Mirror])

/-- Every quantity has an expectation. -/
theorem Mirror.has {R : α → β → Prop} {t : Rand α} {u : Rand β} (h : Mirror R t u) (f : α → ℚ) :
    ∃ x, HasE f t x := by
  induction t generalizing u with
  | ret a => exact ⟨f a, rfl⟩
  | err e => exact absurd h (by simp [Mirror])
  | panic => exact absurd h (by simp [Mirror])
  | intn n k ih =>
    cases u with
    | intn n' k' =>
      simp only [Mirror] at h
      obtain ⟨rfl, rfl, h⟩ := h
      obtain ⟨x, hx⟩ : ∃ x, HasE f (k 0) x := h.elim (fun h => ih 0 h.1) fun h => ih 0 h.1
      obtain ⟨y, hy⟩ : ∃ x, HasE f (k 1) x := h.elim (fun h => ih 1 h.2) fun h => ih 1 h.2
      refine ⟨_, by omega, fun i => if i = 0 then x else y, ?_, rfl⟩
      intro i hi
      match i, hi with
      | 0, _ => exact hx
      | 1, _ => exact hy
    | _ => exact absurd h (by simp [Mirror])
  | unif nz k ih => exact absurd h (by simp [Mirror])

end Verif.Rand
