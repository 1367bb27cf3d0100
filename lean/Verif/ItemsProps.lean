import Verif.FloatBits
import Verif.Murmur3Props

/-!
# C91, C92: which values are the same item

C91: floating point numbers.  C92: the same integer passed to methods of different width.
-/

namespace Verif.Items

open Murmur3

/-! ### C91: floating point numbers -/

/-- Two doubles are hashed as the same bits exactly when they are the same number, all NaNs
counting as one and -0 as 0: in theta and tuple sketches, in CPC sketches, and in Bloom filters. -/
theorem C91_float_bits (a b : Word) :
    (canonicalDouble a = canonicalDouble b ↔ value a = value b) ∧
    (cpcCanonical a = cpcCanonical b ↔ value a = value b) ∧
    (bloomCanonical a = bloomCanonical b ↔ value a = value b) := by
  rw [cpcCanonical_eq, cpcCanonical_eq, bloomCanonical_eq, bloomCanonical_eq]
  exact ⟨canonical_iff a b, canonical_iff a b, canonical_iff a b⟩

theorem thetaHash_int64 (seed : Word) (x : Word) :
    thetaHash seed (.int64 x) = .ok (some (Ref.murmur3 seed (Ref.bytesOf x)).1) := by
  have h := hashInt64s_eq [x] 0 1 seed (by simp)
  simp only [List.drop_zero, List.take_succ_cons, List.take_nil, List.flatMap_cons,
    List.flatMap_nil, List.append_nil] at h
  simp only [thetaHash, h, Outcome.ok_bind]

/-- The same number has the same effect on every theta sketch; different numbers have different
128-bit hashes. -/
theorem C91_theta_floats (seed : Word) (a b : Word) :
    (value a = value b → ∀ t, thetaUpdate seed t (.float64 a) = thetaUpdate seed t (.float64 b)) ∧
    (value a ≠ value b → hashInt64s [canonicalDouble a] 0 1 seed ≠
      hashInt64s [canonicalDouble b] 0 1 seed) := by
  refine ⟨fun h t => ?_, fun h => ?_⟩
  · simp only [thetaUpdate, thetaHash, (canonical_iff a b).2 h]
  · exact (C89_short_inputs seed).2.2 _ _ (fun e => h ((canonical_iff a b).1 e))

/-- `UpdateFloat32(x)` is `UpdateFloat64(float64(x))`.  Given only that the conversion keeps the
value, two `float32` are the same item exactly when they are the same number, and a `float32` is
the same item as every `float64` of the same value. -/
theorem C91_float32 {F : Type} (value32 : F → Number) (widen : F → Word)
    (hw : ∀ x, value (widen x) = value32 x) (x y : F) (b : Word) :
    (canonicalDouble (widen x) = canonicalDouble (widen y) ↔ value32 x = value32 y) ∧
    (canonicalDouble (widen x) = canonicalDouble b ↔ value32 x = value b) := by
  rw [canonical_iff, canonical_iff, hw, hw]
  exact ⟨Iff.rfl, Iff.rfl⟩

theorem putUint64_eq (x : Word) : putUint64 x = Ref.bytesOf x := by
  unfold putUint64 Ref.bytesOf
  apply List.map_congr_left
  intro i _
  apply BitVec.eq_of_toNat_eq
  rw [BitVec.toNat_setWidth, BitVec.toNat_ushiftRight, BitVec.toNat_ofNat,
    Nat.shiftRight_eq_div_pow, Nat.pow_mul]

/-- A Bloom filter hashes a single `float64` by value (previous theorem), but an array of them by
its bits: the arrays `[0]` and `[-0]` have equal elements and are different items, the single -0
and the array `[-0]` are different items although the single 0 and the array `[0]` are the same. -/
theorem C91_bloom_arrays_refuted :
    value 0x8000000000000000#64 = value 0#64 ∧
    bloomFloatArrayBytes [0x8000000000000000#64] ≠ bloomFloatArrayBytes [0#64] ∧
    bloomFloatArrayBytes [0#64] = some (bloomFloatBytes 0#64) ∧
    bloomFloatArrayBytes [0x8000000000000000#64] ≠ some (bloomFloatBytes 0x8000000000000000#64) := by
  refine ⟨?_, by decide +kernel, by decide +kernel, by decide +kernel⟩
  rw [(isZero_iff _).1 (by decide), (isZero_iff _).1 (by decide)]

/-- What holds of arrays: they are the same bytes exactly when they have the same length and, at
every position, the same bits; so the same numbers if no element is a zero or a NaN.  Missing:
the zeros and NaNs. -/
theorem C91_bloom_arrays_partial (xs ys : List Word) (hl : xs.length = ys.length)
    (hx : ∀ x ∈ xs, value x ≠ .fin 0 ∧ value x ≠ .nan) :
    bloomFloatArrayBytes xs = bloomFloatArrayBytes ys ↔ xs.map value = ys.map value := by
  have hb : bloomFloatArrayBytes xs = bloomFloatArrayBytes ys ↔ xs = ys := by
    unfold bloomFloatArrayBytes
    by_cases h0 : xs.length = 0
    · rw [if_pos h0, if_pos (by omega), List.length_eq_zero_iff.1 h0,
        List.length_eq_zero_iff.1 (by omega : ys.length = 0)]
      simp
    · rw [if_neg h0, if_neg (by omega), Option.some.injEq,
        show putUint64 = Ref.bytesOf from funext putUint64_eq]
      exact ⟨flat_inj hl, fun h => by rw [h]⟩
  rw [hb]
  constructor
  · rintro rfl; rfl
  · intro h
    clear hb hl
    induction xs generalizing ys with
    | nil =>
      cases ys with
      | nil => rfl
      | cons y ys => simp at h
    | cons x xs ih =>
      cases ys with
      | nil => simp at h
      | cons y ys =>
        simp only [List.map_cons, List.cons.injEq] at h
        obtain ⟨c1, c2⟩ := hx x (List.mem_cons_self ..)
        rcases value_inj h.1 with c | c | c
        · exact absurd c c2
        · exact absurd c c1
        · rw [c, ih ys (fun z hz => hx z (List.mem_cons_of_mem _ hz)) h.2]

-- 1.5, -0 and a NaN with a payload.
example : value 0x3ff8000000000000#64 = .fin (3 * 2 ^ 1073) ∧
    value 0x8000000000000000#64 = .fin 0 ∧ value 0xfff0000000000001#64 = .nan := by
  refine ⟨by decide +kernel, by decide +kernel, by decide +kernel⟩

/-! ### C92: integers -/

/-- The integer an argument stands for. -/
def intValue : Arg → Option Int
  | .int64 x => some x.toInt
  | .uint64 x => some x.toNat
  | .int32 x => some x.toInt
  | .uint32 x => some x.toNat
  | .int16 x => some x.toInt
  | .uint16 x => some x.toNat
  | .int8 x => some x.toInt
  | .uint8 x => some x.toNat
  | _ => none

/-- The methods that hash eight bytes. -/
def wide : Arg → Bool
  | .int64 _ | .uint64 _ | .uint32 _ => true
  | _ => false

/-- The hash of the 64-bit form of an integer, and of its 32-bit form. -/
def wideHash (seed : Word) (z : Int) : Outcome (Option Word) := do
  let h ← hashInt64s [BitVec.ofInt 64 z] 0 1 seed; .ok (some h.1)

def narrowHash (seed : Word) (z : Int) : Outcome (Option Word) := do
  let h ← hashInt32s [BitVec.ofInt 32 z] 0 1 seed; .ok (some h.1)

theorem hash_of_int (seed : Word) (a : Arg) (z : Int) (h : intValue a = some z) :
    thetaHash seed a = if wide a then wideHash seed z else narrowHash seed z := by
  cases a <;> simp only [intValue, Option.some.injEq, reduceCtorEq] at h <;> subst h <;>
    simp only [thetaHash, wide, wideHash, narrowHash, if_true, Bool.false_eq_true, if_false] <;>
    (congr 3)
  · exact (BitVec.ofInt_toInt).symm
  · exact (BitVec.ofInt_natCast ..).trans (by simp) |>.symm
  · exact (BitVec.ofInt_toInt).symm
  all_goals exact ((BitVec.ofInt_natCast ..).trans (BitVec.ofNat_toNat ..)).symm

/-- The full claim is that an integer is one item whichever method it is passed to.  What holds:
it is, among the methods `UpdateInt64`, `UpdateUint64`, `UpdateUint32`, and among the methods
`UpdateInt32`, `UpdateInt16`, `UpdateUint16`, `UpdateInt8`, `UpdateUint8`; and the eight bytes of
a 64-bit integer, least significant first, are the same item as the integer.  Missing: one item
across the two groups. -/
theorem C92_integers_partial (seed : Word) (a b : Arg) (z : Int) (ha : intValue a = some z)
    (hb : intValue b = some z) (hw : wide a = wide b) (t : Theta.Tbl) :
    thetaUpdate seed t a = thetaUpdate seed t b ∧
    ∀ x, thetaUpdate seed t (.int64 x) = thetaUpdate seed t (.bytes (putUint64 x)) := by
  refine ⟨?_, fun x => ?_⟩
  · simp only [thetaUpdate, hash_of_int seed a z ha, hash_of_int seed b z hb, hw]
  · have h : thetaHash seed (.int64 x) = thetaHash seed (.bytes (putUint64 x)) := by
      rw [thetaHash_int64, putUint64_eq]
      have h := hashBytes_eq (Ref.bytesOf x) 0 (Ref.bytesOf x).length seed (by omega)
      rw [List.drop_zero, List.take_length] at h
      simp only [thetaHash, h, Outcome.ok_bind]
    simp only [thetaUpdate, h]

/-- Two updates of a new sketch with the default seed. -/
def twice (a b : Arg) : Outcome (Theta.Status × Theta.Status × Nat) := do
  let t ← Theta.newTable 5 3 Theta.maxTheta
  let (t, s1) ← thetaUpdate 9001 t a
  let (t, s2) ← thetaUpdate 9001 t b
  .ok (s1, s2, t.numEntries)

/-- The integer 5 passed as `int64` and as `int32` is counted twice, and so is 5 passed as `uint32`
and as `uint16`; the string "a" and its bytes are counted twice. -/
theorem C92_integers_refuted :
    intValue (.int64 5) = intValue (.int32 5) ∧
    twice (.int64 5) (.int64 5) = .ok (.inserted, .duplicate, 1) ∧
    twice (.int64 5) (.int32 5) = .ok (.inserted, .inserted, 2) ∧
    twice (.uint32 5) (.uint16 5) = .ok (.inserted, .inserted, 2) ∧
    twice (.str [97]) (.bytes [97]) = .ok (.inserted, .inserted, 2) := by
  refine ⟨by decide +kernel, by decide +kernel, by decide +kernel, by decide +kernel,
    by decide +kernel⟩

-- The hypotheses of the partial theorem: -1 as `int8` and as `int32`.
example : intValue (.int8 (-1)) = some (-1) ∧ intValue (.int32 (-1)) = some (-1) ∧
    wide (.int8 (-1)) = wide (.int32 (-1)) := by decide +kernel

end Verif.Items
