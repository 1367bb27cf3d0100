import Verif.Bytes

/-!
# Sequential writes into a preallocated buffer

Go encoders allocate `make([]byte, size)` and write fields at a moving offset.  `wr bs` writes the
bytes `bs` at the offset and advances it; running over the end of the buffer panics.  `skip k`
advances the offset only (`offset += k`).
-/

namespace Verif

/-- buffer and offset -/
abbrev Cursor := List Nat × Nat

def wr (bs : List Nat) (c : Cursor) : Outcome Cursor :=
  if c.2 + bs.length ≤ c.1.length then
    .ok (c.1.take c.2 ++ bs ++ c.1.drop (c.2 + bs.length), c.2 + bs.length)
  else .panic

def skip (k : Nat) (c : Cursor) : Outcome Cursor := .ok (c.1, c.2 + k)

/-- everything up to the offset is `d`, `n` zero bytes follow -/
def At (d : List Nat) (n : Nat) : Cursor := (d ++ List.replicate n 0, d.length)

theorem wr_at {d bs : List Nat} {n : Nat} (h : bs.length ≤ n) :
    wr bs (At d n) = .ok (At (d ++ bs) (n - bs.length)) := by
  unfold wr At
  simp only [List.length_append, List.length_replicate]
  rw [if_pos (by omega)]
  congr 2
  rw [List.take_left, List.drop_append]
  simp [Nat.add_sub_cancel_left, List.drop_eq_nil_of_le]

theorem wr_at_panic {d bs : List Nat} {n : Nat} (h : n < bs.length) :
    wr bs (At d n) = .panic := by
  unfold wr At
  simp only [List.length_append, List.length_replicate]
  rw [if_neg (by omega)]

theorem skip_at {d : List Nat} {n k : Nat} (h : k ≤ n) :
    skip k (At d n) = .ok (At (d ++ List.replicate k 0) (n - k)) := by
  unfold skip At
  congr 2
  · rw [List.append_assoc, List.replicate_append_replicate, Nat.add_sub_cancel' h]
  · simp

@[simp] theorem at_zero (d : List Nat) : (At d 0).1 = d := by simp [At]

/-- reading back a field -/
theorem getLE_append {a c : List Nat} {k v o : Nat} (ho : o = a.length) :
    getLE (a ++ (toLE k v ++ c)) o k = .ok (v % 256 ^ k) := by
  subst ho
  rw [getLE_ok (by simp)]
  unfold getT
  rw [List.drop_left, List.take_left' (by simp), fromLE_toLE]

end Verif
