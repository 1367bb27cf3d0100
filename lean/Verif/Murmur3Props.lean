import Verif.Murmur3
import Verif.CpcModel

/-!
# C89, C90: the hash functions

C89: the hash of a byte slice and of an `int64` slice is the published Murmur3_x64_128; two
inputs of the same length that differ inside one 128-bit group only, and any two different inputs
that fit into one word, have different 128-bit hashes.

C90: every element of a slice of `int32` should take part in its hash.  It does not: the elements
at odd positions are never read.
-/

namespace Verif.Murmur3

/-- The hash of the range `[off, off+len)` of a byte slice is Murmur3_x64_128 of those bytes, and
of nothing else: neither what lies outside the range nor the offset matters. -/
theorem C89_bytes_reference (key : List Byte) (off len : Nat) (seed : Word)
    (h : off + len ≤ key.length) :
    hashBytes key off len seed = .ok (Ref.murmur3 seed ((key.drop off).take len)) :=
  hashBytes_eq key off len seed h

/-- The hash of a slice of `int64` is Murmur3_x64_128 of their bytes, least significant first: an
`int64` and its eight bytes are the same item. -/
theorem C89_int64_reference (key : List Word) (off len : Nat) (seed : Word)
    (h : off + len ≤ key.length) :
    hashInt64s key off len seed =
        .ok (Ref.murmur3 seed (((key.drop off).take len).flatMap Ref.bytesOf)) ∧
      hashInt64s key 0 key.length seed =
        hashBytes (key.flatMap Ref.bytesOf) 0 (8 * key.length) seed := by
  refine ⟨hashInt64s_eq key off len seed h, ?_⟩
  rw [hashInt64s_eq key 0 _ seed (by omega),
    hashBytes_eq _ 0 _ seed (by rw [flat_length]; omega)]
  simp only [List.drop_zero, List.take_length]
  rw [List.take_of_length_le (by rw [flat_length])]

/-- The hash of a string, four bytes to a word. -/
theorem C89_chars_reference (key : List Byte) (off len : Nat) (seed : Word)
    (h : off + len ≤ key.length) :
    hashChars key off len seed = .ok (Ref.murmur3Chars seed ((key.drop off).take len)) :=
  hashChars_eq key off len seed h

/-- No bit of the hashed bytes is lost inside a group.  Two byte slices of the same length that differ in the `j`-th group of sixteen bytes only have different
128-bit hashes, whatever the seed. -/
theorem C89_bytes_one_group (a b : List Byte) (seed : Word) (j : Nat) (hl : a.length = b.length)
    (hd : ∀ i, i / 16 ≠ j → a[i]? = b[i]?) (hne : a ≠ b) :
    hashBytes a 0 a.length seed ≠ hashBytes b 0 b.length seed := by
  rw [hashBytes_eq _ _ _ _ (by omega), hashBytes_eq _ _ _ _ (by omega)]
  simp only [List.drop_zero, List.take_length, ne_eq, Outcome.ok.injEq]
  intro e
  unfold Ref.murmur3 at e
  rw [hl] at e
  exact hne (absorb_one 8 (by omega) (by omega) _ a b _ j hl hd e)

/-- The same for strings, with groups of eight bytes. -/
theorem C89_chars_one_group (a b : List Byte) (seed : Word) (j : Nat) (hl : a.length = b.length)
    (hd : ∀ i, i / 8 ≠ j → a[i]? = b[i]?) (hne : a ≠ b) :
    hashChars a 0 a.length seed ≠ hashChars b 0 b.length seed := by
  rw [hashChars_eq _ _ _ _ (by omega), hashChars_eq _ _ _ _ (by omega)]
  simp only [List.drop_zero, List.take_length, ne_eq, Outcome.ok.injEq]
  intro e
  unfold Ref.murmur3Chars at e
  rw [hl] at e
  exact hne (absorb_one 4 (by omega) (by omega) _ a b _ j hl hd e)

/-- The same for slices of `int64`, with groups of two. -/
theorem C89_int64_one_group (a b : List Word) (seed : Word) (j : Nat) (hl : a.length = b.length)
    (hd : ∀ i, i / 2 ≠ j → a[i]? = b[i]?) (hne : a ≠ b) :
    hashInt64s a 0 a.length seed ≠ hashInt64s b 0 b.length seed := by
  rw [hashInt64s_eq _ _ _ _ (by omega), hashInt64s_eq _ _ _ _ (by omega)]
  simp only [List.drop_zero, List.take_length, ne_eq, Outcome.ok.injEq]
  intro e
  unfold Ref.murmur3 at e
  have hfl : (a.flatMap Ref.bytesOf).length = (b.flatMap Ref.bytesOf).length := by
    rw [flat_length, flat_length, hl]
  rw [hfl] at e
  refine hne (flat_inj hl (absorb_one 8 (by omega) (by omega) _ _ _ _ j hfl ?_ e))
  intro i hi
  rw [flat_get, flat_get, hd (i / 8) (by omega)]

/-- Any two different byte slices of at most eight bytes, of the same length or not, have
different 128-bit hashes; any two different strings of at most four bytes too; and any two
different 64-bit integers. -/
theorem C89_short_inputs (seed : Word) :
    (∀ a b : List Byte, a.length ≤ 8 → b.length ≤ 8 → a ≠ b →
      hashBytes a 0 a.length seed ≠ hashBytes b 0 b.length seed) ∧
    (∀ a b : List Byte, a.length ≤ 4 → b.length ≤ 4 → a ≠ b →
      hashChars a 0 a.length seed ≠ hashChars b 0 b.length seed) ∧
    (∀ x y : Word, x ≠ y → hashInt64s [x] 0 1 seed ≠ hashInt64s [y] 0 1 seed) := by
  refine ⟨fun a b ha hb hne => ?_, fun a b ha hb hne => ?_, fun x y hne => ?_⟩
  · rw [hashBytes_eq _ _ _ _ (by omega), hashBytes_eq _ _ _ _ (by omega)]
    simp only [List.drop_zero, List.take_length, ne_eq, Outcome.ok.injEq]
    intro e
    refine hne (absorb_short 8 (by omega) (by omega) _ _ a b _ ha hb ?_ e)
    intro h
    have := congrArg BitVec.toNat h
    simp only [BitVec.toNat_ofNat] at this
    omega
  · rw [hashChars_eq _ _ _ _ (by omega), hashChars_eq _ _ _ _ (by omega)]
    simp only [List.drop_zero, List.take_length, ne_eq, Outcome.ok.injEq]
    intro e
    refine hne (absorb_short 4 (by omega) (by omega) _ _ a b _ ha hb ?_ e)
    intro h
    have := congrArg BitVec.toNat h
    simp only [BitVec.toNat_ofNat] at this
    omega
  · exact C89_int64_one_group [x] [y] seed 0 rfl (by
      intro i hi
      rw [List.getElem?_eq_none (by simp; omega), List.getElem?_eq_none (by simp; omega)])
      (by simpa using hne)

-- The reference function on the empty input, and a pair of different lengths.
example : Ref.murmur3 0 [] = (0, 0) := by
  rw [Ref.murmur3, absorb_end _ _ _ _ (by simp)]
  decide +kernel

-- The vector of the repository's own test (internal/murmur3_test.go l.26-37):
-- "The quick brown fox jumps over the lazy dog".
example : hashBytes [84, 104, 101, 32, 113, 117, 105, 99, 107, 32, 98, 114, 111, 119, 110, 32, 102, 111, 120, 32,
    106, 117, 109, 112, 115, 32, 111, 118, 101, 114, 32, 116, 104, 101, 32, 108, 97, 122, 121, 32, 100, 111, 103] 0 43 0 =
    .ok (0xe34bbc7bbc071b6c#64, 0x7a433ca9c49a9347#64) := by decide +kernel

example : hashBytes [1, 2, 3] 0 3 9001 ≠ hashBytes [1, 2, 3, 0] 0 4 9001 :=
  (C89_short_inputs 9001).1 [1, 2, 3] [1, 2, 3, 0] (by simp) (by simp) (by simp)

/-! ### Slices of `int32` -/

/-- The elements at odd positions have no influence: two slices that agree at the even positions
have the same hash, for every length and seed. -/
theorem C90_int32_odd_ignored (a b : List I32) (len : Nat) (seed : Word)
    (h : ∀ i, a[2 * i]? = b[2 * i]?) :
    hashInt32s a 0 len seed = hashInt32s b 0 len seed := by
  have hsl : ∀ i : Nat, i <<< 2 = 2 * (2 * i) := fun i => by rw [Nat.shiftLeft_eq]; omega
  have hb : ∀ i, int32Block a 0 i = int32Block b 0 i := by
    intro i
    have h2 : a[2 * (2 * i) + 2]? = b[2 * (2 * i) + 2]? := h (2 * i + 1)
    simp only [int32Block, hsl, Nat.zero_add, h (2 * i), h2]
  have ht : ∀ n rem, int32Tail a 0 (n <<< 2) rem = int32Tail b 0 (n <<< 2) rem := by
    intro n rem
    have h2 : a[2 * (2 * n) + 2]? = b[2 * (2 * n) + 2]? := h (2 * n + 1)
    simp only [int32Tail, hsl, Nat.zero_add, h (2 * n), h2]
  simp only [hashInt32s, rounds_congr hb, ht]

/-- cpc/cpc_sketch.go l.179-185: `UpdateInt32Slice` of a sketch built with `seed`. -/
def cpcUpdateInt32Slice (seed : Word) (c : Cpc.Sk) (xs : List I32) : Outcome Cpc.Sk :=
  if xs.length = 0 then .ok c else do
  let h ← hashInt32s xs 0 xs.length seed
  Cpc.hashUpdate c h.1 h.2

/-- Full claim: different slices are different items, at least when they differ in one position.
It fails for every seed and in every state of a CPC sketch: `[x, y]` and `[x, z]` have the same
128-bit hash, so `UpdateInt32Slice` treats them as one item. -/
theorem C90_int32_slices_refuted (seed : Word) (x y z : I32) :
    hashInt32s [x, y] 0 2 seed = hashInt32s [x, z] 0 2 seed ∧
      ∀ c : Cpc.Sk, cpcUpdateInt32Slice seed c [x, y] = cpcUpdateInt32Slice seed c [x, z] := by
  have h : hashInt32s [x, y] 0 2 seed = hashInt32s [x, z] 0 2 seed := by
    apply C90_int32_odd_ignored
    intro i
    cases i with
    | zero => rfl
    | succ i => rw [List.getElem?_eq_none (by simp), List.getElem?_eq_none (by simp)]
  refine ⟨h, fun c => ?_⟩
  simp only [cpcUpdateInt32Slice, List.length_cons, List.length_nil, Nat.zero_add, Nat.reduceAdd]
  rw [h]

/-- What remains: slices of one `int32` (the form every 8-, 16- and 32-bit update of theta and
tuple sketches uses) are told apart, and so are longer slices that differ at the even positions of
one group of four.  Missing: the odd positions. -/
theorem C90_int32_slices_partial (a b : List I32) (seed : Word) (j : Nat)
    (hl : a.length = b.length) (hd : ∀ i, i / 4 ≠ j → a[i]? = b[i]?)
    (hne : ∃ i, a[2 * i]? ≠ b[2 * i]?) :
    hashInt32s a 0 a.length seed ≠ hashInt32s b 0 b.length seed := by
  rw [hashInt32s_eq, hashInt32s_eq, ← hl]
  simp only [ne_eq, Outcome.ok.injEq]
  intro e
  obtain ⟨e1, e2⟩ := finish_inj e
  have e1 := xor_inj' e1
  have e2 := xor_inj' e2
  have hat : ∀ i, i / 4 ≠ j → at32 a i = at32 b i := by
    intro i hi
    rw [at32, at32, hd i hi]
  obtain ⟨i, hi⟩ := hne
  have hij : 2 * i / 4 = j := by
    by_contra c
    exact hi (hd _ c)
  have hlt : 2 * i < a.length := by
    by_contra c
    exact hi (by rw [List.getElem?_eq_none (by omega), List.getElem?_eq_none (by omega)])
  by_cases c : j < a.length / 4
  · have ht : tail32 a = tail32 b := by
      unfold tail32
      simp only [← hl, hat (4 * (a.length / 4)) (by omega), hat (4 * (a.length / 4) + 2) (by omega)]
    rw [ht] at e1 e2
    have hf := Prod.ext (xor_inj' e1) (xor_inj' e2)
    have := fold_inj (seed, seed) j (a.length / 4) (by
      intro k _ hk
      rw [hat (4 * k) (by omega), hat (4 * k + 2) (by omega)]) c hf
    simp only [Prod.mk.injEq] at this
    have h0 := at32_inj hl this.1
    have h2 := at32_inj hl this.2
    rcases (by omega : 2 * i = 4 * j ∨ 2 * i = 4 * j + 2) with h | h
    · exact hi (by rw [h]; exact h0)
    · exact hi (by rw [h]; exact h2)
  · have hf : fold (fun i => (at32 a (4 * i), at32 a (4 * i + 2))) (a.length / 4) (seed, seed) =
        fold (fun i => (at32 b (4 * i), at32 b (4 * i + 2))) (a.length / 4) (seed, seed) := by
      apply fold_congr
      intro k hk
      rw [hat (4 * k) (by omega), hat (4 * k + 2) (by omega)]
    rw [hf] at e1 e2
    have t1 := k1_inj (xor_inj e1)
    have t2 := k2_inj (xor_inj e2)
    have hj : j = a.length / 4 := by omega
    unfold tail32 at t1 t2
    rw [← hl] at t1 t2
    by_cases c3 : a.length - 4 * (a.length / 4) > 2
    · simp only [if_pos c3] at t1 t2
      rcases (by omega : 2 * i = 4 * (a.length / 4) ∨ 2 * i = 4 * (a.length / 4) + 2) with h | h
      · exact hi (by rw [h]; exact at32_inj hl t1)
      · exact hi (by rw [h]; exact at32_inj hl t2)
    · have c4 : a.length - 4 * (a.length / 4) ≠ 0 := by omega
      simp only [if_neg c3, if_pos c4] at t1
      have h : 2 * i = 4 * (a.length / 4) := by omega
      exact hi (by rw [h]; exact at32_inj hl t1)

/-- One `int32`: different values have different 128-bit hashes. -/
theorem C90_int32_single (x y : I32) (seed : Word) (hne : x ≠ y) :
    hashInt32s [x] 0 1 seed ≠ hashInt32s [y] 0 1 seed :=
  C90_int32_slices_partial [x] [y] seed 0 rfl (by
    intro i hi
    rw [List.getElem?_eq_none (by simp; omega), List.getElem?_eq_none (by simp; omega)])
    ⟨0, by simpa using hne⟩

-- A slice of five that differs at position 4 only.
example : hashInt32s [1, 2, 3, 4, 5] 0 5 9001 ≠ hashInt32s [1, 2, 3, 4, 6] 0 5 9001 :=
  C90_int32_slices_partial [1, 2, 3, 4, 5] [1, 2, 3, 4, 6] 9001 1 rfl (by
    intro i hi
    match i, hi with
    | 0, _ | 1, _ | 2, _ | 3, _ => rfl
    | 4, h => exact absurd rfl h
    | i + 5, _ => rw [List.getElem?_eq_none (by simp), List.getElem?_eq_none (by simp)])
    ⟨2, by decide⟩

-- ... and one that differs at position 3 only: the same hash.
example : hashInt32s [1, 2, 3, 4, 5] 0 5 9001 = hashInt32s [1, 2, 3, 9, 5] 0 5 9001 :=
  C90_int32_odd_ignored _ _ _ _ (by
    intro i
    match i with
    | 0 | 1 | 2 => rfl
    | i + 3 => rw [List.getElem?_eq_none (by simp; omega), List.getElem?_eq_none (by simp; omega)])

end Verif.Murmur3
