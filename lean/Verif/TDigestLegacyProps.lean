import Verif.TDigestLegacy
import Mathlib.Data.List.Induction
import Mathlib.Algebra.Order.Field.Rat

/-!
# Decoding t-digests from streams and from slices

C77 for the whole stream decoder, and C114: the two decoders read the same digests.
-/

namespace Verif.TDigest

open Verif Outcome

variable {α : Type} [Field α] [LinearOrder α]

/-! ### C77: arbitrary bytes -/

/-- C77.  The stream decoder, whatever the format, never panics, reads no further than the image, and
refuses every truncated image with an error. -/
theorem C77_stream [IsStrictOrderedRing α] (F : Codec α) :
    (∀ r, decodeStream F r ≠ .panic) ∧
    ∀ r d r', decodeStream F r = .ok (d, r') → ∃ used, r = used ++ r' ∧
      (∀ s, decodeStream F (used ++ s) = .ok (d, s)) ∧
      ∀ p, p <+: used → p ≠ used → ∃ m, decodeStream F p = .err m := by
  have hbe : ∀ k, Rd.Strict (beR k) := fun k =>
    Rd.Strict.take (g := fun l => fromLE l.reverse) k _ fun _ => rfl
  have hnan : ∀ (x : Fl α) (n : String), Rd.Strict (notNaNR x n) :=
    fun x n => strict_lift (safe_notNaN x n)
  have hinf : ∀ (x : Fl α) (n : String), Rd.Strict (notInfR x n) := by
    intro x n
    cases x
    · exact Rd.Strict.pure ()
    · exact Rd.Strict.fail _
    · exact Rd.Strict.pure ()
    · exact Rd.Strict.fail _
  have hload : ∀ k (mn mx : Fl α) cs, Rd.Strict (loadR k mn mx cs) := fun k mn mx cs =>
    Rd.Strict.ite (Rd.Strict.fail _) (Rd.Strict.pure _)
  have hD : Rd.Strict (compatDR F) :=
    (hbe 8).bind fun _ => Rd.Strict.ite (Rd.Strict.fail _) <| (hbe 8).bind fun _ =>
      (hnan _ _).bind fun _ => (hinf _ _).bind fun _ => Rd.Strict.pure _
  have hF : Rd.Strict (compatFR F) :=
    (hbe 4).bind fun _ => Rd.Strict.ite (Rd.Strict.fail _) <| (hbe 4).bind fun _ =>
      (hinf _ _).bind fun _ => (hnan _ _).bind fun _ => Rd.Strict.pure _
  have hC : Rd.Strict (compatR F) := by
    unfold compatR
    exact (hbe 1).bind fun _ => (hbe 8).bind fun _ => (hnan _ _).bind fun _ => (hbe 8).bind fun _ =>
      (hnan _ _).bind fun _ => Rd.Strict.ite
        ((hbe 8).bind fun _ => (hbe 4).bind fun _ => (hD.times _).bind fun _ => hload _ _ _ _)
        ((hbe 4).bind fun _ => (hbe 4).bind fun _ => (hbe 2).bind fun _ =>
          (hF.times _).bind fun _ => hload _ _ _ _)
  have hS : Rd.Strict (decodeStream F) := by
    unfold decodeStream
    exact (Rd.Strict.le 1).bind fun pl => (Rd.Strict.le 1).bind fun sv => (Rd.Strict.le 1).bind
      fun ty => Rd.Strict.ite (Rd.Strict.ite hC (Rd.Strict.fail _))
        ((strict_currentR F pl sv).bind fun _ => Rd.Strict.pure _)
  exact ⟨hS.safe, hS.used⟩

/-! ### C114: the decoders agree -/

/-- The number in four bytes, the highest first. -/
def bigEndian4 (data : List Nat) (o : Nat) : Nat :=
  ((data.drop o).take 4).foldl (fun acc b => acc * 256 + b) 0

theorem foldl_be (l : List Nat) : l.foldl (fun acc b => acc * 256 + b) 0 = fromLE l.reverse := by
  induction l using List.reverseRecOn with
  | nil => rfl
  | append_singleton l a ih =>
    rw [List.foldl_append, ih, List.reverse_append]
    simp only [List.foldl_cons, List.foldl_nil, List.reverse_singleton, List.singleton_append,
      fromLE]
    omega

/-- C114.  On the same bytes the slice decoder gives a digest if and only if the stream decoder
loads one with the same fields: for every image of the current format whose maximum is not NaN, of
the full format of the reference implementation, and of its compact format when no weight is NaN.
(What is missing is false, see below.) -/
theorem C114_agree_partial (F : Codec α) (data : List Nat) (d : Digest α) (hm : d.max ≠ .nan)
    (ht : data.take 3 = [0, 0, 0] → data[3]? = some 1 ∨ data[3]? = some 2)
    (hw : data.take 4 = [0, 0, 0, 2] → ∀ i < d.centroids.length,
      F.val32 (bigEndian4 data (30 + 8 * i)) ≠ .nan) :
    decodeDouble F data = .ok d ↔ ∃ rest, decodeStream F data = .ok (d.loaded, rest) := by
  by_cases h3 : data.length < 3
  · constructor
    · intro h
      unfold decodeDouble at h
      rw [if_pos (by omega)] at h
      cases h
    · rintro ⟨r, h⟩
      unfold decodeStream at h
      obtain ⟨_, r1, h1, h⟩ := rd_bind_eq_ok.mp h
      obtain ⟨-, rfl⟩ := (le_at (data := data) (o := 0) (by decide)).mp h1
      obtain ⟨_, r1, h2, h⟩ := rd_bind_eq_ok.mp h
      obtain ⟨-, rfl⟩ := (le_at (by decide)).mp h2
      obtain ⟨_, r1, h3', h⟩ := rd_bind_eq_ok.mp h
      obtain ⟨g, -⟩ := (le_at (by decide)).mp h3'
      have := getLE_len g
      omega
  rw [decodeStream_eq F data (by omega)]
  obtain ⟨a, b, c, tl, rfl⟩ : ∃ a b c tl, data = a :: b :: c :: tl := by
    match data, h3 with
    | [], h => simp at h
    | [_], h => simp at h
    | [_, _], h => simp at h
    | a :: b :: c :: tl, _ => exact ⟨a, b, c, tl, rfl⟩
  have g0 : getT (a :: b :: c :: tl) 0 1 = a := by simp [getT, fromLE]
  have g1 : getT (a :: b :: c :: tl) 1 1 = b := by simp [getT, fromLE]
  have g2 : getT (a :: b :: c :: tl) 2 1 = c := by simp [getT, fromLE]
  by_cases h8 : 8 ≤ (a :: b :: c :: tl).length
  · rw [decodeDouble_eq F _ h8, g0, g1, g2]
    by_cases hc : c = 20
    · subst hc
      rw [if_neg (by decide), if_neg (by decide), current_at F _ _ _ _ h8]
      constructor
      · rintro ⟨-, r, h⟩
        exact ⟨r, by rw [Rd.bind_ok h]; rfl⟩
      · rintro ⟨r, h⟩
        obtain ⟨e, r1, h1, h⟩ := rd_bind_eq_ok.mp h
        obtain ⟨h2, rfl⟩ := pure_ok.mp h
        rw [← loaded_inj h2] at hm ⊢
        exact ⟨hm, _, h1⟩
    · rw [if_pos hc, if_pos hc]
      by_cases h0 : a = 0 ∧ b = 0 ∧ c = 0
      · rw [if_pos h0, if_pos h0]
        obtain ⟨rfl, rfl, rfl⟩ := h0
        have ht' := ht rfl
        have hd : (0 :: 0 :: 0 :: tl).drop 3 = tl := rfl
        rw [hd]
        refine compat_at F tl d (by simpa using ht') ?_
        intro h2 i hi w hwi
        have h4 : (0 :: 0 :: 0 :: tl).take 4 = [0, 0, 0, 2] := by
          cases tl with
          | nil => simp at h2
          | cons x l =>
            simp only [List.getElem?_cons_zero, Option.some.injEq] at h2
            subst h2; rfl
        have := hw h4 i hi
        unfold getBE at hwi
        split at hwi
        · cases hwi
          have e : bigEndian4 (0 :: 0 :: 0 :: tl) (30 + 8 * i) =
              fromLE ((tl.drop (27 + i * 8)).take 4).reverse := by
            unfold bigEndian4
            rw [foldl_be, show 30 + 8 * i = (27 + i * 8) + 3 by omega]
            rfl
          rwa [e] at this
        · cases hwi
      · rw [if_neg h0, if_neg h0]
        simp
  · have hl : ¬ 8 ≤ (a :: b :: c :: tl).length := h8
    constructor
    · intro h
      unfold decodeDouble at h
      rw [if_pos (by omega)] at h
      cases h
    · rintro ⟨r, h⟩
      rw [g0, g1, g2] at h
      by_cases hc : c = 20
      · rw [if_neg (not_not.mpr hc)] at h
        obtain ⟨e, r1, h1, h⟩ := rd_bind_eq_ok.mp h
        exact absurd (currentR_len F h1) hl
      · rw [if_pos hc] at h
        by_cases h0 : a = 0 ∧ b = 0 ∧ c = 0
        · rw [if_pos h0] at h
          unfold compatR at h
          obtain ⟨_, r1, h1, h⟩ := rd_bind_eq_ok.mp h
          obtain ⟨-, rfl⟩ := (be_at (by decide)).mp h1
          obtain ⟨_, r1, h2, h⟩ := rd_bind_eq_ok.mp h
          obtain ⟨g, -⟩ := (be_at (by decide)).mp h2
          have := getBE_len g
          omega
        · rw [if_neg h0] at h
          cases h

omit [Field α] [LinearOrder α] in
/-- C114.  Loading tells digests apart. -/
theorem C114_loaded_injective {d e : Digest α} (h : d.loaded = e.loaded) : d = e := loaded_inj h

/-- What the refutations need to know about float64 and float32: the patterns of 0, of a NaN, and of
the single-precision numbers 1 and 100. -/
structure Ieee (F : Codec α) : Prop where
  zero : F.val 0 = .fin 0
  nan : F.val 0x7ff8000000000000 = .nan
  one32 : F.val32 0x3f800000 = .fin 1
  nan32 : F.val32 0x7fc00000 = .nan
  hundred32 : F.toU16 (F.val32 0x42c80000) = 100

/-- C114, finding.  An image of the current format whose maximum is NaN is loaded by the stream
decoder and refused by the slice decoder: the stream decoder tests the minimum twice. -/
theorem C114_nan_max (F : Codec α) (hF : Ieee F) :
    ∃ data l, decodeStream F data = .ok (l, []) ∧ l.max = .nan ∧
      ∃ m, decodeDouble F data = .err m := by
  have h0 := hF.zero
  have h1 := hF.nan
  refine ⟨[2, 1, 20, 100, 0, 0, 0, 0] ++ List.replicate 16 0 ++ [0, 0, 0, 0, 0, 0, 0xf8, 0x7f],
    { rev := false, k := 100, min := .fin 0, max := .nan, cap := capacityOf 100, centroids := [],
      cw := 0, buffer := [] }, ?_, rfl, "max: NaN", ?_⟩
  · simp [decodeStream, currentR, manyR, Rd.bind_apply, Rd.le, fromLE, List.replicate, h0, h1,
      notNaNR, notNaN, Rd.times, Rd.pure, liftR, fromStates, Digest.loaded, totalOf]
  · simp [decodeDouble, decodeMany, getLE, getT, fromLE, List.replicate, h0, h1, notNaN]

/-- C114, finding.  A type that does not exist (7) is read by the stream decoder as the compact format
of the reference implementation, and refused by the slice decoder. -/
theorem C114_unknown_type (F : Codec α) (hF : Ieee F) :
    ∃ data l, data.take 4 = [0, 0, 0, 7] ∧ decodeStream F data = .ok (l, []) ∧
      ∃ m, decodeDouble F data = .err m := by
  have h0 := hF.zero
  have h1 := hF.hundred32
  refine ⟨[0, 0, 0, 7] ++ List.replicate 16 0 ++ [0x42, 0xc8, 0, 0, 0, 0, 0, 0, 0, 0],
    { rev := false, k := 100, min := .fin 0, max := .fin 0, cap := capacityOf 100, centroids := [],
      cw := 0, buffer := [] }, rfl, ?_, "unexpected preamble", ?_⟩
  · simp [decodeStream, compatR, beR, Rd.bind_apply, Rd.le, fromLE, List.replicate, h0, h1,
      notNaNR, notNaN, Rd.times, Rd.pure, loadR]
  · simp [decodeDouble, decodeCompat, getLE, getT, fromLE, List.replicate]

/-- C114, finding.  In the compact format of the reference implementation the stream decoder tests
the weight for NaN in place of the mean: a centroid with a mean that is NaN is loaded by it and
refused by the slice decoder. -/
theorem C114_nan_mean (F : Codec α) (hF : Ieee F) :
    ∃ data l w, decodeStream F data = .ok (l, []) ∧ l.centroids = [(.nan, w)] ∧
      ∃ m, decodeDouble F data = .err m := by
  have h0 := hF.zero
  have h1 := hF.hundred32
  have h2 := hF.one32
  have h3 := hF.nan32
  refine ⟨[0, 0, 0, 2] ++ List.replicate 16 0 ++ [0x42, 0xc8, 0, 0, 0, 0, 0, 0, 0, 1] ++
      [0x3f, 0x80, 0, 0, 0x7f, 0xc0, 0, 0],
    { rev := false, k := 100, min := .fin 0, max := .fin 0, cap := capacityOf 100,
      centroids := [(.nan, F.toU64 (.fin 1))],
      cw := F.toU64 (.fin 1) % 2 ^ 64, buffer := [] }, _, ?_, rfl, "centroid mean: NaN", ?_⟩
  · simp [decodeStream, compatR, compatFR, beR, Rd.bind_apply, Rd.le, fromLE, List.replicate, h0, h1,
      h2, h3, notNaNR, notNaN, notInfR, Rd.times, Rd.bind, Rd.pure, loadR]
  · simp [decodeDouble, decodeCompat, getCompatF, getLE, getBE, getT, fromLE, List.replicate, h0, h2,
      h3, notNaN, finite]

/-- C114, finding.  For the same reason a weight that is NaN is accepted by the slice decoder, with
whatever `uint64(NaN)` is on the machine, and refused by the stream decoder. -/
theorem C114_nan_weight (F : Codec α) (hF : Ieee F) :
    ∃ data d, decodeDouble F data = .ok d ∧
      d.centroids = [{ mean := 1, weight := F.toU64 .nan }] ∧
      ∃ m, decodeStream F data = .err m := by
  have h0 := hF.zero
  have h1 := hF.hundred32
  have h2 := hF.one32
  have h3 := hF.nan32
  refine ⟨[0, 0, 0, 2] ++ List.replicate 16 0 ++ [0x42, 0xc8, 0, 0, 0, 0, 0, 0, 0, 1] ++
      [0x7f, 0xc0, 0, 0, 0x3f, 0x80, 0, 0],
    { rev := false, k := 100, min := .fin 0, max := .fin 0, cap := capacityOf 100,
      centroids := [{ mean := 1, weight := F.toU64 .nan }],
      cw := F.toU64 .nan % 2 ^ 64, buffer := [] }, ?_, rfl, "centroid mean: NaN", ?_⟩
  · simp [decodeDouble, decodeCompat, getCompatF, getLE, getBE, getT, fromLE, List.replicate, h0, h1,
      h2, h3, notNaN, finite, fromStates, totalOf]
  · simp [decodeStream, compatR, compatFR, beR, Rd.bind_apply, Rd.le, fromLE, List.replicate, h0,
      h2, h3, notNaNR, notNaN, notInfR, Rd.times, Rd.bind]

/-! ### The hypotheses are met -/

/-- A codec that knows the five patterns. -/
def fiveCodec : Codec ℚ where
  bits _ := 0
  val n := if n = 0x7ff8000000000000 then .nan else .fin n
  val32 n := if n = 0x7fc00000 then .nan else if n = 0x3f800000 then .fin 1 else .fin 100
  toU16 _ := 100
  toU64 _ := 1

example : Ieee fiveCodec := ⟨by simp [fiveCodec], by simp [fiveCodec], by simp [fiveCodec],
  by simp [fiveCodec], by simp [fiveCodec]⟩

/-- C114: an image in the full format of the reference implementation, with one centroid. -/
example : ∃ d, decodeDouble fiveCodec ([0, 0, 0, 1] ++ List.replicate 27 0 ++ [1] ++
    List.replicate 7 0 ++ [3] ++ List.replicate 7 0 ++ [5]) = .ok d ∧ d.max ≠ .nan ∧
    d.centroids = [{ mean := 5, weight := 1 }] := by
  refine ⟨{ rev := false, k := 100, min := .fin 0, max := .fin 0, cap := capacityOf 100,
            centroids := [{ mean := 5, weight := 1 }], cw := 1, buffer := [] }, ?_, by simp, rfl⟩
  simp [decodeDouble, decodeCompat, getCompatD, getLE, getBE, getT, fromLE, List.replicate,
    fiveCodec, notNaN, finite, fromStates, totalOf]

end Verif.TDigest
