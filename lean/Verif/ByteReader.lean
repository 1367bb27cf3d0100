import Verif.Bytes

/-!
# Sequential readers

`binary.Read(r, binary.LittleEndian, &x)` on an `io.Reader` over a byte slice: takes the bytes of `x`
from the front, or returns an error if there are not enough left (a partial read consumes what is
there, but every caller stops at the first error).
-/

namespace Verif

/-- a reader: consumes a prefix of the bytes -/
def Rd (α : Type) := List Nat → Outcome (α × List Nat)

namespace Rd

variable {α β : Type}

def pure (a : α) : Rd α := fun r => .ok (a, r)

def bind (f : Rd α) (g : α → Rd β) : Rd β := fun r =>
  match f r with
  | .ok (a, r') => g a r'
  | .err m => .err m
  | .panic => .panic

instance : Monad Rd where
  pure := Rd.pure
  bind := Rd.bind

/-- returning an error -/
def fail (m : String) : Rd α := fun _ => .err m

/-- an unsigned field of `k` bytes -/
def le (k : Nat) : Rd Nat := fun r =>
  if k ≤ r.length then .ok (fromLE (r.take k), r.drop k) else .err "unexpected EOF"

/-- `io.ReadFull` of `k` bytes -/
def bytes (k : Nat) : Rd (List Nat) := fun r =>
  if k ≤ r.length then .ok (r.take k, r.drop k) else .err "unexpected EOF"

/-- a counted loop -/
def times (f : Rd α) : Nat → Rd (List α)
  | 0 => Rd.pure []
  | n + 1 => Rd.bind f fun a => Rd.bind (times f n) fun as => Rd.pure (a :: as)

@[simp] theorem pure_apply (a : α) (r : List Nat) : (Pure.pure a : Rd α) r = .ok (a, r) := rfl

theorem bind_apply (f : Rd α) (g : α → Rd β) (r : List Nat) :
    (f >>= g) r = match f r with
      | .ok (a, r') => g a r'
      | .err m => .err m
      | .panic => .panic := rfl

theorem bind_ok {f : Rd α} {g : α → Rd β} {r r' : List Nat} {a : α} (h : f r = .ok (a, r')) :
    (f >>= g) r = g a r' := by rw [bind_apply, h]

@[simp] theorem fail_apply (m : String) (r : List Nat) : (fail m : Rd α) r = .err m := rfl

theorem le_append {k v : Nat} (hv : v < 256 ^ k) (r : List Nat) :
    le k (toLE k v ++ r) = .ok (v, r) := by
  simp [le, List.take_left', List.drop_left', fromLE_toLE_of_lt hv]

theorem bytes_append {k : Nat} {b : List Nat} (hb : b.length = k) (r : List Nat) :
    bytes k (b ++ r) = .ok (b, r) := by
  simp [bytes, List.take_left' hb, List.drop_left' hb, hb]

theorem times_append {f : Rd α} (enc : α → List Nat) (as : List α)
    (h : ∀ a ∈ as, ∀ r, f (enc a ++ r) = .ok (a, r)) (r : List Nat) :
    times f as.length (as.flatMap enc ++ r) = .ok (as, r) := by
  induction as generalizing r with
  | nil => rfl
  | cons a as ih =>
    simp only [List.length_cons, times, List.flatMap_cons, List.append_assoc, Rd.bind]
    rw [h a (by simp)]
    simp only
    rw [ih (fun b hb => h b (by simp [hb]))]
    rfl

/-- A reader that never panics, depends only on what it consumes, and rejects every proper prefix of
it. -/
structure Strict (f : Rd α) : Prop where
  safe : ∀ r, f r ≠ .panic
  used : ∀ r a r', f r = .ok (a, r') → ∃ u, r = u ++ r' ∧ (∀ s, f (u ++ s) = .ok (a, s)) ∧
    ∀ p, p <+: u → p ≠ u → ∃ m, f p = .err m

theorem Strict.pure (a : α) : Strict (Pure.pure a : Rd α) where
  safe := by intro r h; cases h
  used := by
    intro r a' r' h
    cases h
    refine ⟨[], rfl, fun s => rfl, ?_⟩
    intro p hp hne
    exact absurd (List.prefix_nil.mp hp) hne

theorem Strict.fail (m : String) : Strict (Rd.fail m : Rd α) where
  safe := by intro r h; cases h
  used := by intro r a r' h; cases h

theorem Strict.take {g : List Nat → α} (k : Nat) (f : Rd α)
    (hf : ∀ r, f r = if k ≤ r.length then .ok (g (r.take k), r.drop k) else .err "unexpected EOF") :
    Strict f where
  safe := by intro r; rw [hf]; split <;> simp
  used := by
    intro r a r' h
    rw [hf] at h
    split at h
    · rename_i hk
      simp only [Outcome.ok.injEq, Prod.mk.injEq] at h
      obtain ⟨rfl, rfl⟩ := h
      have hl : (r.take k).length = k := by simp [hk]
      refine ⟨r.take k, (List.take_append_drop k r).symm, ?_, ?_⟩
      · intro s
        rw [hf, if_pos (by simp only [List.length_append]; omega), List.take_left' hl,
          List.drop_left' hl]
      · intro p hp hne
        have h1 := hp.length_le
        have h2 : p.length ≠ k := by
          intro he
          exact hne (hp.eq_of_length (by omega))
        exact ⟨_, by rw [hf, if_neg (by omega)]⟩
    · cases h

theorem Strict.le (k : Nat) : Strict (Rd.le k) := Strict.take (g := fromLE) k _ (fun _ => rfl)

theorem Strict.bytes (k : Nat) : Strict (Rd.bytes k) := Strict.take (g := id) k _ (fun _ => rfl)

theorem Strict.bind {f : Rd α} {g : α → Rd β} (hf : Strict f) (hg : ∀ a, Strict (g a)) :
    Strict (f >>= g) where
  safe := by
    intro r
    rw [bind_apply]
    split
    · rename_i a r' _; exact (hg a).safe r'
    · simp
    · rename_i h; exact absurd h (hf.safe r)
  used := by
    intro r b r'' h
    rw [bind_apply] at h
    split at h
    · rename_i a r' he
      obtain ⟨u, rfl, hu, hp⟩ := hf.used _ _ _ he
      obtain ⟨v, rfl, hv, hq⟩ := (hg a).used _ _ _ h
      refine ⟨u ++ v, by simp, ?_, ?_⟩
      · intro s
        rw [bind_apply, List.append_assoc, hu]
        exact hv s
      · intro p hpre hne
        rw [bind_apply]
        have hcase : p <+: u ∨ ∃ w, p = u ++ w ∧ w <+: v := by
          rcases List.prefix_or_prefix_of_prefix hpre (List.prefix_append u v) with h1 | ⟨w, rfl⟩
          · exact Or.inl h1
          · exact Or.inr ⟨w, rfl, (List.prefix_append_right_inj u).mp hpre⟩
        rcases hcase with h1 | ⟨w, rfl, h2⟩
        · by_cases hpu : p = u
          · subst hpu
            have h3 := hu []
            rw [List.append_nil] at h3
            rw [h3]
            have hv0 : v ≠ [] := by rintro rfl; simp at hne
            exact hq [] List.nil_prefix (Ne.symm hv0)
          · obtain ⟨m, hm⟩ := hp p h1 hpu
            exact ⟨m, by rw [hm]⟩
        · rw [hu w]
          refine hq w h2 ?_
          rintro rfl; exact hne rfl
    · cases h
    · cases h

theorem Strict.times {f : Rd α} (hf : Strict f) (n : Nat) : Strict (Rd.times f n) := by
  induction n with
  | zero => exact Strict.pure []
  | succ n ih => exact Strict.bind hf fun a => Strict.bind ih fun as => Strict.pure (a :: as)

theorem Strict.ite {c : Prop} [Decidable c] {f g : Rd α} (hf : Strict f) (hg : Strict g) :
    Strict (if c then f else g) := by
  split <;> assumption

end Rd

end Verif
