import Verif.Bytes

/-!
# Writes at absolute offsets and reads in sequence

`put buf o bs`: `binary.LittleEndian.PutUintN(buf[o:], v)` or `buf[o] = v` with `bs` the bytes of `v`;
panics if they do not fit.  `copyAt buf o bs`: `copy(buf[o:], bs)`, which panics if `o` is beyond the
end and otherwise copies as many bytes as fit.
-/

namespace Verif

def put (buf : List Nat) (o : Nat) (bs : List Nat) : Outcome (List Nat) :=
  if o + bs.length ≤ buf.length then .ok (buf.take o ++ bs ++ buf.drop (o + bs.length)) else .panic

def copyAt (buf : List Nat) (o : Nat) (bs : List Nat) : Outcome (List Nat) :=
  if o ≤ buf.length then
    .ok (buf.take o ++ bs.take (buf.length - o) ++ buf.drop (o + (bs.take (buf.length - o)).length))
  else .panic

/-- `mem[a:b]` -/
def slice (mem : List Nat) (a b : Nat) : Outcome (List Nat) :=
  if a ≤ b ∧ b ≤ mem.length then .ok ((mem.drop a).take (b - a)) else .panic

/-- `d` written, `n` bytes still zero -/
def Buf (d : List Nat) (n : Nat) : List Nat := d ++ List.replicate n 0

theorem put_buf {d bs : List Nat} {n o : Nat} (ho : o = d.length) (h : bs.length ≤ n) :
    put (Buf d n) o bs = .ok (Buf (d ++ bs) (n - bs.length)) := by
  subst ho
  unfold put Buf
  simp only [List.length_append, List.length_replicate]
  rw [if_pos (by omega)]
  congr 1
  rw [List.take_left, List.drop_append]
  simp [List.drop_eq_nil_of_le]

theorem put_buf_skip {d bs : List Nat} {n o : Nat} (ho : d.length ≤ o)
    (h : o - d.length + bs.length ≤ n) :
    put (Buf d n) o bs =
      .ok (Buf (d ++ List.replicate (o - d.length) 0 ++ bs) (n - (o - d.length) - bs.length)) := by
  have e : Buf d n = Buf (d ++ List.replicate (o - d.length) 0) (n - (o - d.length)) := by
    unfold Buf
    rw [List.append_assoc, List.replicate_append_replicate,
      show o - d.length + (n - (o - d.length)) = n by omega]
  rw [e, put_buf (by simp; omega) (by omega)]

theorem copy_buf {d bs : List Nat} {n o : Nat} (ho : o = d.length) (h : bs.length ≤ n) :
    copyAt (Buf d n) o bs = .ok (Buf (d ++ bs) (n - bs.length)) := by
  rw [← put_buf ho h]
  subst ho
  unfold copyAt put Buf
  simp only [List.length_append, List.length_replicate]
  have e : List.take (d.length + n - d.length) bs = bs := List.take_of_length_le (by omega)
  rw [if_pos (by omega), if_pos (by omega), e]

@[simp] theorem buf_zero (d : List Nat) : Buf d 0 = d := by simp [Buf]

theorem buf_length (d : List Nat) (n : Nat) : (Buf d n).length = d.length + n := by simp [Buf]

theorem slice_here {a b c : List Nat} {o : Nat} (ho : o = a.length) {e : Nat}
    (he : e = o + b.length) : slice (a ++ (b ++ c)) o e = .ok b := by
  subst ho he
  unfold slice
  rw [if_pos (by simp)]
  congr 1
  rw [List.drop_left, Nat.add_sub_cancel_left, List.take_left]

theorem getLE_at {a c : List Nat} {k v o : Nat} (ho : o = a.length) (hv : v < 256 ^ k) :
    getLE (a ++ (toLE k v ++ c)) o k = .ok v := by
  subst ho
  rw [getLE_ok (by simp)]
  unfold getT
  rw [List.drop_left, List.take_left' (by simp), fromLE_toLE, Nat.mod_eq_of_lt hv]

theorem getLE_skip {j u : Nat} {b : List Nat} {o k : Nat} (h : j ≤ o) :
    getLE (toLE j u ++ b) o k = getLE b (o - j) k := by
  unfold getLE getT
  have : (toLE j u ++ b).drop o = b.drop (o - j) := by
    rw [List.drop_append]; simp [List.drop_eq_nil_of_le, h]
  rw [this]
  by_cases hk : o - j + k ≤ b.length
  · rw [if_pos hk, if_pos (by simp; omega)]
  · rw [if_neg hk, if_neg (by simp; omega)]

theorem getLE_first {k v : Nat} {c : List Nat} (hv : v < 256 ^ k) :
    getLE (toLE k v ++ c) 0 k = .ok v := getLE_at (a := []) rfl hv

theorem toLE_one_zero : toLE 1 0 = [0] := rfl

/-- reading a field of a concatenation of fields -/
macro "readLE" : tactic =>
  `(tactic| ((repeat rw [getLE_skip (by omega)]); exact getLE_first (by omega)))

end Verif
