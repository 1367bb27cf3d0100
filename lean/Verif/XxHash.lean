import Verif.BloomProps
import Verif.ItemsProps

/-!
# xxHash64 and the integer hash of the Bloom filter

`hashLong` models the code in /repo.  `Xx.xxh64` is the published algorithm of xxHash64, written
down apart from it; the byte hash of the filter is `github.com/cespare/xxhash/v2`, which is not part
of the repository and is taken to implement that algorithm.
-/

namespace Verif.Bloom

/-- `hashLongOptimized`, filters/bloom_filter.go l.160-187 -/
def hashLong (value seed : Word) : Word :=
  let hash := seed + 0x27D4EB2F165667C5#64
  let hash := hash + 8#64
  let k1 := value
  let k1 := k1 * 0xC2B2AE3D27D4EB4F#64
  let k1 := k1.rotateLeft 31
  let k1 := k1 * 0x9E3779B185EBCA87#64
  let hash := hash ^^^ k1
  let hash := (hash.rotateLeft 27 * 0x9E3779B185EBCA87#64) + 0x85EBCA77C2B2AE63#64
  let hash := hash ^^^ (hash >>> 33)
  let hash := hash * 0xC2B2AE3D27D4EB4F#64
  let hash := hash ^^^ (hash >>> 29)
  let hash := hash * 0x165667B19E3779F9#64
  hash ^^^ (hash >>> 32)

/-! ## The published algorithm -/

namespace Xx

def P1 : Word := 0x9E3779B185EBCA87#64
def P2 : Word := 0xC2B2AE3D27D4EB4F#64
def P3 : Word := 0x165667B19E3779F9#64
def P4 : Word := 0x85EBCA77C2B2AE63#64
def P5 : Word := 0x27D4EB2F165667C5#64

/-- A little-endian lane of bytes. -/
def lane (bs : List Nat) : Word := BitVec.ofNat 64 (fromLE bs)

/-- One lane into an accumulator. -/
def round (acc w : Word) : Word := (acc + w * P2).rotateLeft 31 * P1

def mergeRound (h acc : Word) : Word := (h ^^^ round 0 acc) * P1 + P4

/-- The first `n` pieces of `k` bytes. -/
def pieces (k n : Nat) (bs : List Nat) : List (List Nat) :=
  (List.range n).map fun i => (bs.drop (k * i)).take k

/-- A stripe of 32 bytes into the four accumulators. -/
def stripe (v : Word × Word × Word × Word) (bs : List Nat) : Word × Word × Word × Word :=
  (round v.1 (lane (bs.take 8)), round v.2.1 (lane ((bs.drop 8).take 8)),
    round v.2.2.1 (lane ((bs.drop 16).take 8)), round v.2.2.2 (lane ((bs.drop 24).take 8)))

/-- The four accumulators into one. -/
def converge (v : Word × Word × Word × Word) : Word :=
  mergeRound (mergeRound (mergeRound (mergeRound
    (v.1.rotateLeft 1 + v.2.1.rotateLeft 7 + v.2.2.1.rotateLeft 12 + v.2.2.2.rotateLeft 18)
    v.1) v.2.1) v.2.2.1) v.2.2.2

/-- The state after the stripes. -/
def start (bs : List Nat) (seed : Word) : Word :=
  if 32 ≤ bs.length then
    converge ((pieces 32 (bs.length / 32) bs).foldl stripe
      (seed + P1 + P2, seed + P2, seed, seed - P1))
  else seed + P5

/-- A lane of eight bytes after the stripes. -/
def step8 (h : Word) (bs : List Nat) : Word := (h ^^^ round 0 (lane bs)).rotateLeft 27 * P1 + P4

/-- A lane of four bytes. -/
def step4 (h : Word) (bs : List Nat) : Word := (h ^^^ (lane bs * P1)).rotateLeft 23 * P2 + P3

/-- A single byte. -/
def step1 (h : Word) (b : Nat) : Word := (h ^^^ (BitVec.ofNat 64 b * P5)).rotateLeft 11 * P1

def avalanche (h : Word) : Word :=
  let h := (h ^^^ (h >>> 33)) * P2
  let h := (h ^^^ (h >>> 29)) * P3
  h ^^^ (h >>> 32)

/-- The last fewer than 32 bytes: as many lanes of eight as there are, then of four, then bytes. -/
def finish (h : Word) (bs : List Nat) : Word :=
  let h := (pieces 8 (bs.length / 8) bs).foldl step8 h
  let bs := bs.drop (8 * (bs.length / 8))
  let h := (pieces 4 (bs.length / 4) bs).foldl step4 h
  let bs := bs.drop (4 * (bs.length / 4))
  avalanche (bs.foldl step1 h)

/-- xxHash64 of a sequence of bytes. -/
def xxh64 (bs : List Nat) (seed : Word) : Word :=
  finish (start bs seed + BitVec.ofNat 64 bs.length) (bs.drop (32 * (bs.length / 32)))

end Xx

/-- The hash functions of the filter. -/
def xx : Hasher := ⟨hashLong, Xx.xxh64⟩

theorem finish_eight (l : List Nat) (hl : l.length = 8) (h : Word) :
    Xx.finish h l = Xx.avalanche (Xx.step8 h l) := by
  have hd : l.drop (8 * (l.length / 8)) = [] := List.drop_of_length_le (by omega)
  have ht : l.take 8 = l := List.take_of_length_le (by omega)
  have h1 : l.length / 8 = 1 := by omega
  have hp : Xx.pieces 8 (l.length / 8) l = [l] := by
    rw [h1]
    show [(l.drop 0).take 8] = [l]
    rw [List.drop_zero, ht]
  unfold Xx.finish
  rw [hp, hd]
  generalize Xx.step8 = g
  rfl

/-- xxHash64 of eight bytes. -/
theorem xxh64_eight (l : List Nat) (hl : l.length = 8) (seed : Word) :
    Xx.xxh64 l seed = Xx.avalanche (Xx.step8 (seed + Xx.P5 + 8#64) l) := by
  have hs : Xx.start l seed = seed + Xx.P5 := if_neg (by omega)
  have hd : l.drop (32 * (l.length / 32)) = l := by
    rw [show l.length / 32 = 0 by omega]
    rfl
  unfold Xx.xxh64
  rw [hs, hd, hl]
  exact finish_eight l hl _

theorem hashLong_steps (v seed : Word) :
    hashLong v seed = Xx.avalanche
      (((seed + Xx.P5 + 8#64) ^^^ Xx.round 0 v).rotateLeft 27 * Xx.P1 + Xx.P4) := by
  have h : Xx.round 0 v = (v * Xx.P2).rotateLeft 31 * Xx.P1 := by
    unfold Xx.round
    rw [show (0 : Word) + v * Xx.P2 = v * Xx.P2 from BitVec.zero_add _]
  rw [h]
  rfl

theorem lane_toLE (v : Word) : Xx.lane (toLE 8 v.toNat) = v := by
  have h : fromLE (toLE 8 v.toNat) = v.toNat := fromLE_toLE_of_lt v.isLt
  unfold Xx.lane
  rw [h]
  exact BitVec.eq_of_toNat_eq (by rw [BitVec.toNat_ofNat]; exact Nat.mod_eq_of_lt v.isLt)

/-- The integer hash is the byte hash of the eight bytes. -/
theorem hashLong_eq (v seed : Word) : hashLong v seed = Xx.xxh64 (toLE 8 v.toNat) seed := by
  rw [xxh64_eight _ (toLE_length 8 _), hashLong_steps]
  unfold Xx.step8
  rw [lane_toLE]

/-! ## No two integers have the same hash -/

theorem xorshift29_inj {x y : Word} (e : x ^^^ (x >>> 29) = y ^^^ (y >>> 29)) : x = y := by
  have key : ∀ z : Word, (z ^^^ (z >>> 29)) ^^^ ((z ^^^ (z >>> 29)) >>> 29)
      ^^^ ((z ^^^ (z >>> 29)) >>> 58) = z := by
    intro z
    rw [BitVec.ushiftRight_xor_distrib, BitVec.ushiftRight_xor_distrib, ← BitVec.shiftRight_add,
      ← BitVec.shiftRight_add, BitVec.ushiftRight_eq_zero (n := 29 + 58) (by omega),
      BitVec.xor_zero]
    apply BitVec.eq_of_getLsbD_eq
    intro i hi
    simp only [BitVec.getLsbD_xor]
    generalize z.getLsbD i = a
    generalize (z >>> 29).getLsbD i = b
    generalize (z >>> (29 + 29)).getLsbD i = c
    cases a <;> cases b <;> cases c <;> rfl
  rw [← key x, e, key]

theorem xorshift32_inj {x y : Word} (e : x ^^^ (x >>> 32) = y ^^^ (y >>> 32)) : x = y := by
  have key : ∀ z : Word, (z ^^^ (z >>> 32)) ^^^ ((z ^^^ (z >>> 32)) >>> 32) = z := by
    intro z
    rw [BitVec.ushiftRight_xor_distrib, ← BitVec.shiftRight_add,
      BitVec.ushiftRight_eq_zero (n := 32 + 32) (by omega), BitVec.xor_zero, BitVec.xor_assoc,
      BitVec.xor_self, BitVec.xor_zero]
  rw [← key x, e, key]

theorem xorshift33_inj {x y : Word} (e : x ^^^ (x >>> 33) = y ^^^ (y >>> 33)) : x = y :=
  Murmur3.shiftMix_inj e

theorem hashLong_inj {v w seed : Word} (e : hashLong v seed = hashLong w seed) : v = w := by
  unfold hashLong at e
  have e := xorshift32_inj e
  have e := Murmur3.mul_inj 0x165667B19E3779F9#64 0xe9e9f4c41d6df849#64 (by decide +kernel) e
  have e := xorshift29_inj e
  have e := Murmur3.mul_inj 0xC2B2AE3D27D4EB4F#64 0xba79078168d4baf#64 (by decide +kernel) e
  have e := xorshift33_inj e
  have e := Murmur3.add_inj e
  have e := Murmur3.mul_inj 0x9E3779B185EBCA87#64 0x887493432badb37#64 (by decide +kernel) e
  have e := Murmur3.rotl_inj 27 (by omega) e
  have e := Murmur3.xor_inj e
  have e := Murmur3.mul_inj 0x9E3779B185EBCA87#64 0x887493432badb37#64 (by decide +kernel) e
  have e := Murmur3.rotl_inj 31 (by omega) e
  exact Murmur3.mul_inj 0xC2B2AE3D27D4EB4F#64 0xba79078168d4baf#64 (by decide +kernel) e

/-! ## Floating point numbers -/

theorem isZero_cases (b : Word) :
    Items.isZero b = true ↔ b = 0 ∨ b = 0x8000000000000000#64 := by
  constructor
  · intro h
    have h0 : b &&& 0x7fffffffffffffff#64 = 0 := by simpa [Items.isZero] using h
    have hlow : ∀ i, i < 63 → b.getLsbD i = false := by
      intro i hi
      have h1 := congrArg (fun z => z.getLsbD i) h0
      have h2 : ∀ i, i < 63 → (0x7fffffffffffffff#64).getLsbD i = true := by decide +kernel
      simpa [BitVec.getLsbD_and, h2 i hi] using h1
    have h3 : ∀ i, i < 63 → (0x8000000000000000#64).getLsbD i = false := by decide +kernel
    cases h63 : b.getLsbD 63 with
    | false =>
      refine Or.inl (BitVec.eq_of_getLsbD_eq fun i hi => ?_)
      by_cases hi' : i < 63
      · rw [hlow i hi']; simp
      · rw [show i = 63 by omega, h63]; rfl
    | true =>
      refine Or.inr (BitVec.eq_of_getLsbD_eq fun i hi => ?_)
      by_cases hi' : i < 63
      · rw [hlow i hi', h3 i hi']
      · rw [show i = 63 by omega, h63]; rfl
  · rintro (rfl | rfl) <;> decide

theorem exp_cases (b : Word) :
    (b >>> 52) &&& 0x7ff#64 = 0x7ff#64 ↔ b &&& 0x7ff0000000000000#64 = 0x7ff0000000000000#64 := by
  have hm : ∀ i, i < 64 → (0x7ff0000000000000#64).getLsbD i = decide (52 ≤ i ∧ i < 63) := by
    decide +kernel
  have hl : ∀ i, i < 64 → (0x7ff#64).getLsbD i = decide (i < 11) := by decide +kernel
  constructor
  · intro h
    refine BitVec.eq_of_getLsbD_eq fun i hi => ?_
    rw [BitVec.getLsbD_and, hm i hi]
    by_cases hc : 52 ≤ i ∧ i < 63
    · have h1 := congrArg (fun z => z.getLsbD (i - 52)) h
      simp only [BitVec.getLsbD_and, BitVec.getLsbD_ushiftRight, hl (i - 52) (by omega)] at h1
      rw [show 52 + (i - 52) = i by omega] at h1
      simpa [hc, show i - 52 < 11 by omega] using h1
    · simp [hc]
  · intro h
    refine BitVec.eq_of_getLsbD_eq fun i hi => ?_
    rw [BitVec.getLsbD_and, BitVec.getLsbD_ushiftRight, hl i hi]
    by_cases hc : i < 11
    · have h1 := congrArg (fun z => z.getLsbD (52 + i)) h
      simp only [BitVec.getLsbD_and, hm (52 + i) (by omega)] at h1
      simpa [hc, show 52 + i < 63 by omega] using h1
    · simp [hc]

theorem canonFloat_eq (b : Word) : canonFloat b = Items.canonicalDouble b := by
  unfold canonFloat Items.canonicalDouble
  by_cases hz : b = 0 ∨ b = 0x8000000000000000#64
  · have := (isZero_cases b).2 hz
    simp only [if_pos hz, this, if_true]
  · have h0 : Items.isZero b = false := by
      rw [← Bool.not_eq_true, isZero_cases]
      exact hz
    simp only [if_neg hz, h0]
    by_cases hn : Items.isNaN b = true
    · have hn' := hn
      unfold Items.isNaN at hn'
      simp only [Bool.and_eq_true, beq_iff_eq, bne_iff_ne] at hn'
      rw [if_pos ⟨(exp_cases b).2 hn'.1, hn'.2⟩]
      simp [hn]
    · have hn' := hn
      unfold Items.isNaN at hn'
      simp only [Bool.and_eq_true, beq_iff_eq, bne_iff_ne] at hn'
      rw [if_neg fun h => hn' ⟨(exp_cases b).1 h.1, h.2⟩]
      simp [hn]

end Verif.Bloom
