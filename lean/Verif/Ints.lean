import Verif.Bytes

/-!
# Fixed-width signed integers

`wrap k x` is the value of the `8k`-bit two's complement integer congruent to `x`.
-/

namespace Verif

/-- unsigned image of a signed `8k`-bit integer (two's complement) -/
def toU (k : Nat) (x : Int) : Nat := (x % (256 ^ k : Int)).toNat

/-- signed value of an unsigned `8k`-bit integer -/
def toS (k : Nat) (n : Nat) : Int := if 2 * n < 256 ^ k then n else (n : Int) - 256 ^ k

/-- Go signed arithmetic wraps around -/
def wrap (k : Nat) (x : Int) : Int := toS k (toU k x)

/-- `x` is representable in a signed `8k`-bit integer -/
def InRange (k : Nat) (x : Int) : Prop := -(256 ^ k : Int) ≤ 2 * x ∧ 2 * x < (256 ^ k : Int)

theorem toU_lt (k : Nat) (x : Int) : toU k x < 256 ^ k := by
  unfold toU
  have h : (0 : Int) < 256 ^ k := by positivity
  have := Int.emod_lt_of_pos x h
  have h2 := Int.emod_nonneg x (ne_of_gt h)
  zify
  rw [Int.toNat_of_nonneg h2]
  exact_mod_cast this

theorem wrap_of_inRange {k : Nat} {x : Int} (h : InRange k x) : wrap k x = x := by
  unfold wrap toS toU
  have hp : (0 : Int) < 256 ^ k := by positivity
  obtain ⟨h1, h2⟩ := h
  by_cases hx : 0 ≤ x
  · rw [Int.emod_eq_of_lt hx (by linarith)]
    have : ((x.toNat : Nat) : Int) = x := Int.toNat_of_nonneg hx
    rw [if_pos]
    · exact this
    · zify; rw [this]; exact_mod_cast h2
  · have hm : x % (256 ^ k : Int) = x + 256 ^ k := by
      rw [← Int.add_emod_right]
      exact Int.emod_eq_of_lt (by linarith) (by linarith)
    rw [hm]
    have : (((x + 256 ^ k).toNat : Nat) : Int) = x + 256 ^ k := Int.toNat_of_nonneg (by linarith)
    rw [if_neg]
    · rw [this]; ring
    · zify; rw [this]; push Not; linarith

theorem toS_inRange {k n : Nat} (h : n < 256 ^ k) : InRange k (toS k n) := by
  have h' : (n : Int) < 256 ^ k := by exact_mod_cast h
  have hp : (0 : Int) < 256 ^ k := by positivity
  unfold InRange toS
  split
  · rename_i h2
    have h2' : 2 * (n : Int) < 256 ^ k := by exact_mod_cast h2
    constructor <;> linarith
  · rename_i h2
    have h2' : ¬ 2 * (n : Int) < 256 ^ k := by intro hh; exact h2 (by exact_mod_cast hh)
    constructor <;> linarith

theorem wrap_inRange (k : Nat) (x : Int) : InRange k (wrap k x) := toS_inRange (toU_lt k x)

end Verif

namespace Verif

theorem wrap_emod (k : Nat) (x : Int) : wrap k x % (256 ^ k : Int) = x % (256 ^ k : Int) := by
  unfold wrap toS toU
  have hp : (0 : Int) < 256 ^ k := by positivity
  have h2 := Int.emod_nonneg x (ne_of_gt hp)
  split
  · rw [Int.toNat_of_nonneg h2, Int.emod_emod_of_dvd _ (dvd_refl _)]
  · rw [Int.toNat_of_nonneg h2, Int.sub_emod, Int.emod_self, sub_zero,
      Int.emod_emod_of_dvd _ (dvd_refl _), Int.emod_emod_of_dvd _ (dvd_refl _)]

theorem wrap_congr {k : Nat} {x y : Int} (h : x % (256 ^ k : Int) = y % (256 ^ k : Int)) :
    wrap k x = wrap k y := by
  unfold wrap toU; rw [h]

theorem wrap_add_left (k : Nat) (x y : Int) : wrap k (wrap k x + y) = wrap k (x + y) := by
  apply wrap_congr
  rw [Int.add_emod, wrap_emod, ← Int.add_emod]

theorem wrap_add_right (k : Nat) (x y : Int) : wrap k (x + wrap k y) = wrap k (x + y) := by
  rw [add_comm, wrap_add_left, add_comm]

theorem toU_wrap (k : Nat) (x : Int) : toU k (wrap k x) = toU k x := by
  unfold toU; rw [wrap_emod]

@[simp] theorem wrap_wrap (k : Nat) (x : Int) : wrap k (wrap k x) = wrap k x := by
  apply wrap_congr; exact wrap_emod k x

end Verif
