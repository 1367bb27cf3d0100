import Verif.Outcome
import Mathlib.Tactic.Linarith
import Mathlib.Tactic.Ring
import Mathlib.Tactic.Common

/-!
# Byte buffers and little-endian fields

Go `[]byte` is a list of naturals (each `< 256` when produced by `toLE`).
`putLE` models `binary.LittleEndian.PutUintN(bytes[o:], v)` and `bytes[o] = v` (k = 1);
`getLE` models `binary.LittleEndian.UintN(bytes[o:])` and `bytes[o]`.  Both panic in Go when the
remaining slice is shorter than the field; that is the `panic` outcome here.
-/

namespace Verif

/-- little-endian digits of `v`, `k` bytes -/
def toLE : Nat → Nat → List Nat
  | 0, _ => []
  | k + 1, v => (v % 256) :: toLE k (v / 256)

/-- value of little-endian bytes -/
def fromLE : List Nat → Nat
  | [] => 0
  | b :: bs => b + 256 * fromLE bs

@[simp] theorem toLE_length (k v : Nat) : (toLE k v).length = k := by
  induction k generalizing v with
  | zero => rfl
  | succ k ih => simp [toLE, ih]

theorem toLE_lt (k v : Nat) : ∀ b ∈ toLE k v, b < 256 := by
  induction k generalizing v with
  | zero => simp [toLE]
  | succ k ih =>
    intro b hb
    simp only [toLE, List.mem_cons] at hb
    rcases hb with h | h
    · omega
    · exact ih _ b h

theorem fromLE_toLE (k v : Nat) : fromLE (toLE k v) = v % 256 ^ k := by
  induction k generalizing v with
  | zero => simp [toLE, fromLE, Nat.mod_one]
  | succ k ih =>
    rw [toLE, fromLE, ih, pow_succ, Nat.mul_comm (256 ^ k) 256, Nat.mod_mul]

theorem fromLE_toLE_of_lt {k v : Nat} (h : v < 256 ^ k) : fromLE (toLE k v) = v := by
  rw [fromLE_toLE, Nat.mod_eq_of_lt h]

theorem fromLE_lt (bs : List Nat) (h : ∀ b ∈ bs, b < 256) : fromLE bs < 256 ^ bs.length := by
  induction bs with
  | nil => simp [fromLE]
  | cons b bs ih =>
    simp only [fromLE, List.length_cons, pow_succ]
    have h1 := h b (by simp)
    have h2 := ih (fun x hx => h x (by simp [hx]))
    nlinarith

theorem toLE_fromLE (bs : List Nat) (h : ∀ b ∈ bs, b < 256) : toLE bs.length (fromLE bs) = bs := by
  induction bs with
  | nil => rfl
  | cons b bs ih =>
    have h1 := h b (by simp)
    have h2 := ih (fun x hx => h x (by simp [hx]))
    simp only [fromLE, List.length_cons, toLE]
    rw [show (b + 256 * fromLE bs) % 256 = b by omega,
      show (b + 256 * fromLE bs) / 256 = fromLE bs by omega, h2]

/-- the write without the bounds check: position `i` in `[o, o + k)` gets byte `i - o` of `v` -/
def putT (buf : List Nat) (o k v : Nat) : List Nat :=
  buf.mapIdx (fun i b => if o ≤ i ∧ i < o + k then v / 256 ^ (i - o) % 256 else b)

/-- `PutUintN(bytes[o:], v)` with `N = 8 k` -/
def putLE (buf : List Nat) (o k v : Nat) : Outcome (List Nat) :=
  if o + k ≤ buf.length then .ok (putT buf o k v) else .panic

/-- the read without the bounds check -/
def getT (buf : List Nat) (o k : Nat) : Nat := fromLE ((buf.drop o).take k)

/-- `UintN(bytes[o:])` with `N = 8 k` -/
def getLE (buf : List Nat) (o k : Nat) : Outcome Nat :=
  if o + k ≤ buf.length then .ok (getT buf o k) else .panic

@[simp] theorem putT_length (buf : List Nat) (o k v : Nat) :
    (putT buf o k v).length = buf.length := by
  simp [putT]

theorem putLE_ok {buf : List Nat} {o k v : Nat} (h : o + k ≤ buf.length) :
    putLE buf o k v = .ok (putT buf o k v) := if_pos h

theorem getLE_ok {buf : List Nat} {o k : Nat} (h : o + k ≤ buf.length) :
    getLE buf o k = .ok (getT buf o k) := if_pos h

theorem getLE_panic {buf : List Nat} {o k : Nat} (h : ¬ o + k ≤ buf.length) :
    getLE buf o k = .panic := if_neg h

theorem toLE_getElem? (k v i : Nat) (hi : i < k) : (toLE k v)[i]? = some (v / 256 ^ i % 256) := by
  induction k generalizing v i with
  | zero => omega
  | succ k ih =>
    cases i with
    | zero => simp [toLE]
    | succ i =>
      simp only [toLE, List.getElem?_cons_succ]
      rw [ih _ _ (by omega), Nat.div_div_eq_div_mul, pow_succ, Nat.mul_comm (256 ^ i) 256]

theorem getElem?_putT {buf : List Nat} {o k v : Nat} (i : Nat)
    (hi : i < o ∨ o + k ≤ i) : (putT buf o k v)[i]? = buf[i]? := by
  simp only [putT, List.getElem?_mapIdx]
  have hn : ¬ (o ≤ i ∧ i < o + k) := by omega
  simp only [hn, if_false]
  cases buf[i]? <;> rfl

theorem putT_drop_take {buf : List Nat} {o k v : Nat} (h : o + k ≤ buf.length) :
    ((putT buf o k v).drop o).take k = toLE k v := by
  apply List.ext_getElem?
  intro i
  by_cases hi : i < k
  · rw [List.getElem?_take_of_lt hi, List.getElem?_drop, toLE_getElem? _ _ _ hi]
    simp only [putT, List.getElem?_mapIdx]
    rw [List.getElem?_eq_getElem (show o + i < buf.length by omega)]
    simp [hi]
  · rw [List.getElem?_take_eq_none (by omega), List.getElem?_eq_none (by simp; omega)]

theorem getT_putT_same {buf : List Nat} {o k v : Nat} (h : o + k ≤ buf.length) :
    getT (putT buf o k v) o k = v % 256 ^ k := by
  rw [getT, putT_drop_take h, fromLE_toLE]

theorem drop_take_congr {a b : List Nat} {o k : Nat}
    (h : ∀ i, o ≤ i → i < o + k → a[i]? = b[i]?) : (a.drop o).take k = (b.drop o).take k := by
  apply List.ext_getElem?
  intro i
  by_cases hi : i < k
  · rw [List.getElem?_take_of_lt hi, List.getElem?_take_of_lt hi, List.getElem?_drop,
      List.getElem?_drop]
    exact h _ (by omega) (by omega)
  · rw [List.getElem?_take_eq_none (by omega), List.getElem?_take_eq_none (by omega)]

theorem getT_congr {a b : List Nat} {o k : Nat}
    (h : ∀ i, o ≤ i → i < o + k → a[i]? = b[i]?) : getT a o k = getT b o k := by
  unfold getT; rw [drop_take_congr h]

theorem getT_putT_disj {buf : List Nat} {o k v o' k' : Nat}
    (hd : o' + k' ≤ o ∨ o + k ≤ o') : getT (putT buf o k v) o' k' = getT buf o' k' := by
  apply getT_congr
  intro i h1 h2
  exact getElem?_putT i (by omega)

end Verif
