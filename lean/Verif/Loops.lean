import Verif.Outcome
import Mathlib.Data.List.Basic
import Mathlib.Data.List.Range

/-!
# Loop rules for `Outcome`
-/

namespace Verif

instance : LawfulMonad Outcome := LawfulMonad.mk'
  (id_map := fun x => by cases x <;> rfl)
  (pure_bind := fun _ _ => rfl)
  (bind_assoc := fun x _ _ => by cases x <;> rfl)

variable {σ α : Type}

/-- `for i := 0; i < n; i++` with an invariant. -/
theorem range_fold {f : σ → Nat → Outcome σ} {n : Nat} (P : Nat → σ → Prop) {s0 : σ} (h0 : P 0 s0)
    (hs : ∀ i s, i < n → P i s → ∃ s', f s i = .ok s' ∧ P (i + 1) s') :
    ∃ s, (List.range n).foldlM f s0 = .ok s ∧ P n s := by
  induction n with
  | zero => exact ⟨s0, rfl, h0⟩
  | succ n ih =>
    obtain ⟨s, hs1, hp⟩ := ih (fun i s hi => hs i s (by omega))
    obtain ⟨s', hs2, hp2⟩ := hs n s (by omega) hp
    refine ⟨s', ?_, hp2⟩
    rw [List.range_succ, List.foldlM_append, hs1, Outcome.ok_bind, List.foldlM_cons, hs2,
      Outcome.ok_bind, List.foldlM_nil]
    rfl

/-- The same with possible failure: either every step succeeds or the loop ends with an error and
`Q` holds. -/
theorem range_fold_err {f : σ → Nat → Outcome σ} {n : Nat} (P : Nat → σ → Prop) (Q : Prop) {s0 : σ}
    (h0 : P 0 s0)
    (hs : ∀ i s, i < n → P i s → (∃ s', f s i = .ok s' ∧ P (i + 1) s') ∨ (∃ e, f s i = .err e ∧ Q)) :
    (∃ s, (List.range n).foldlM f s0 = .ok s ∧ P n s) ∨
    (∃ e, (List.range n).foldlM f s0 = .err e ∧ Q) := by
  induction n with
  | zero => exact Or.inl ⟨s0, rfl, h0⟩
  | succ n ih =>
    rw [List.range_succ, List.foldlM_append]
    rcases ih (fun i s hi => hs i s (by omega)) with ⟨s, hs1, hp⟩ | ⟨e, he, hq⟩
    · rw [hs1, Outcome.ok_bind, List.foldlM_cons]
      rcases hs n s (by omega) hp with ⟨s', hs2, hp2⟩ | ⟨e, he, hq⟩
      · exact Or.inl ⟨s', by rw [hs2, Outcome.ok_bind, List.foldlM_nil]; rfl, hp2⟩
      · exact Or.inr ⟨e, by rw [he, Outcome.err_bind], hq⟩
    · exact Or.inr ⟨e, by rw [he, Outcome.err_bind], hq⟩

/-- `for _, x := range l` with an invariant on the processed prefix. -/
theorem list_fold {f : σ → α → Outcome σ} {l : List α} (P : List α → σ → Prop) {s0 : σ}
    (h0 : P [] s0)
    (hs : ∀ pre x post s, l = pre ++ x :: post → P pre s → ∃ s', f s x = .ok s' ∧ P (pre ++ [x]) s') :
    ∃ s, l.foldlM f s0 = .ok s ∧ P l s := by
  have key : ∀ (post pre : List α) (s : σ), l = pre ++ post → P pre s →
      ∃ s', post.foldlM f s = .ok s' ∧ P l s' := by
    intro post
    induction post with
    | nil => intro pre s hl hp; exact ⟨s, rfl, by rw [hl, List.append_nil]; exact hp⟩
    | cons x post ih =>
      intro pre s hl hp
      obtain ⟨s', h1, h2⟩ := hs pre x post s hl hp
      obtain ⟨s'', h3, h4⟩ := ih (pre ++ [x]) s' (by simpa using hl) h2
      exact ⟨s'', by rw [List.foldlM_cons, h1, Outcome.ok_bind, h3], h4⟩
  exact key l [] s0 rfl h0

theorem list_fold_err {f : σ → α → Outcome σ} {l : List α} (P : List α → σ → Prop) (Q : Prop)
    {s0 : σ} (h0 : P [] s0)
    (hs : ∀ pre x post s, l = pre ++ x :: post → P pre s →
      (∃ s', f s x = .ok s' ∧ P (pre ++ [x]) s') ∨ (∃ e, f s x = .err e ∧ Q)) :
    (∃ s, l.foldlM f s0 = .ok s ∧ P l s) ∨ (∃ e, l.foldlM f s0 = .err e ∧ Q) := by
  have key : ∀ (post pre : List α) (s : σ), l = pre ++ post → P pre s →
      (∃ s', post.foldlM f s = .ok s' ∧ P l s') ∨ (∃ e, post.foldlM f s = .err e ∧ Q) := by
    intro post
    induction post with
    | nil => intro pre s hl hp; exact Or.inl ⟨s, rfl, by rw [hl, List.append_nil]; exact hp⟩
    | cons x post ih =>
      intro pre s hl hp
      rw [List.foldlM_cons]
      rcases hs pre x post s hl hp with ⟨s', h1, h2⟩ | ⟨e, he, hq⟩
      · rw [h1, Outcome.ok_bind]
        exact ih (pre ++ [x]) s' (by simpa using hl) h2
      · exact Or.inr ⟨e, by rw [he, Outcome.err_bind], hq⟩
  exact key l [] s0 rfl h0

/-- A loop that skips some entries is a loop over the others. -/
theorem foldlM_skip {f g : σ → α → Outcome σ} (p : α → Bool) (l : List α)
    (h1 : ∀ s x, p x = false → f s x = .ok s) (h2 : ∀ s x, p x = true → f s x = g s x) (s : σ) :
    l.foldlM f s = (l.filter p).foldlM g s := by
  induction l generalizing s with
  | nil => rfl
  | cons x l ih =>
    rw [List.foldlM_cons, List.filter_cons]
    by_cases hp : p x = true
    · rw [if_pos hp, List.foldlM_cons, h2 s x hp]
      congr 1
      funext s'
      exact ih s'
    · rw [if_neg hp, h1 s x (by simpa using hp), Outcome.ok_bind]
      exact ih s

end Verif
