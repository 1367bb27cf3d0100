import Verif.ItemSerde

/-!
# Properties of the item serializers (C78)

`strings`, `longs` (also for `float64`, by bit patterns), `floats`: the four serializers of the
package `common`.
-/

namespace Verif.Items

open Verif

/-- C78: strings are read back from any place in any memory, the sizes announced are the sizes
written.  `x.length < 2^32`: the length field has four bytes. -/
theorem C78_strings (xs : List (List Nat)) (h : ∀ x ∈ xs, x.length < 4294967296)
    (before after : List Nat) :
    strings.deser (before ++ (strings.many xs ++ after)) before.length xs.length = .ok xs ∧
    strings.sizeOfMany (before ++ (strings.many xs ++ after)) before.length xs.length =
      .ok (strings.many xs).length ∧
    (xs.map strings.sizeOf).sum = (strings.many xs).length :=
  ⟨strings_lawful.deser xs before after h, strings_lawful.sizeMany xs before after h,
    strings_lawful.total xs⟩

/-- C78: the same for numbers of `w` bytes (`w = 8`: `int64`, `float64`; `w = 4`: `float32`). -/
theorem C78_numbers (w : Nat) (xs : List Nat) (h : ∀ x ∈ xs, x < 256 ^ w)
    (before after : List Nat) :
    (fixed w).deser (before ++ ((fixed w).many xs ++ after)) before.length xs.length = .ok xs ∧
    (fixed w).sizeOfMany (before ++ ((fixed w).many xs ++ after)) before.length xs.length =
      .ok ((fixed w).many xs).length ∧
    (xs.map (fixed w).sizeOf).sum = ((fixed w).many xs).length ∧
    ∀ x, (fixed w).one x = (fixed w).many [x] :=
  ⟨(fixed_lawful w).deser xs before after h, (fixed_lawful w).sizeMany xs before after h,
    (fixed_lawful w).total xs, fun x => by simp [fixed]⟩

/-- C78: reading strings never panics, whatever the bytes, the offset and the number of items; what
is read successfully is exactly what is written there; the size function accepts exactly the memory
that can be read. -/
theorem C78_strings_safe (mem : List Nat) (offset n : Nat) :
    strings.deser mem offset n ≠ .panic ∧ strings.sizeOfMany mem offset n ≠ .panic ∧
    ((∃ size, strings.sizeOfMany mem offset n = .ok size) ↔ ∃ xs, strings.deser mem offset n = .ok xs) ∧
    ((∀ b ∈ mem, b < 256) → ∀ xs, strings.deser mem offset n = .ok xs →
      xs.length = n ∧ (mem.drop offset).take (strings.many xs).length = strings.many xs) :=
  ⟨strDeser_safe mem n offset, strSizeOfMany_safe mem offset n, by
    show (∃ size, strSizeOfMany mem offset n = .ok size) ↔ ∃ xs, strDeser mem offset n = .ok xs
    rw [← strSkip_deser, strSizeOfMany]
    cases h : strSkip mem n offset <;> simp, fun hb _ h => strDeser_inv hb h⟩

/-- C78 fails for the one-item form of strings: it agrees with the list form except for the empty
string, for which it is four bytes shorter than `SizeOf` says. -/
theorem C78_one_string (x : List Nat) :
    (x ≠ [] → strings.one x = strings.many [x] ∧ strings.sizeOf x = (strings.one x).length) ∧
    (strings.one [] = [] ∧ strings.sizeOf [] = 4) := by
  refine ⟨fun hx => ?_, rfl, rfl⟩
  have : x.length ≠ 0 := fun h => hx (List.eq_nil_of_length_eq_zero h)
  constructor
  · simp [strings, strOne, strMany, this]
  · simp [strings, strOne, strSizeOf, this]
    omega

/-- C78 fails for short memory: reading numbers panics whenever the memory ends too early. -/
theorem C78_numbers_short (w : Nat) (mem : List Nat) (offset n : Nat) (hn : 0 < n)
    (h : mem.length < offset + n * w) : (fixed w).deser mem offset n = .panic :=
  fixedDeser_panic w mem n offset hn h

/-- ["a", "", "bc"] after one byte -/
example : strings.deser ([7] ++ (strings.many [[97], [], [98, 99]] ++ [1, 2])) 1 3 =
    .ok [[97], [], [98, 99]] :=
  (C78_strings [[97], [], [98, 99]] (by decide) [7] [1, 2]).1

/-- -1 and 2 -/
example : longs.deser ([] ++ (longs.many [18446744073709551615, 2] ++ [])) 0 2 =
    .ok [18446744073709551615, 2] :=
  (C78_numbers 8 [18446744073709551615, 2] (by decide) [] []).1

example : (fixed 8).deser (List.replicate 15 0) 0 2 = .panic :=
  C78_numbers_short 8 _ 0 2 (by decide) (by decide)

end Verif.Items
