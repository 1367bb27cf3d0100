import Verif.Murmur3Model
import Mathlib.Tactic.Ring
import Mathlib.Tactic.Set

/-!
# Murmur3: the reference function, and the lemmas relating the code to it
-/

namespace Verif.Murmur3

/-! ### The published function (Murmur3_x64_128) -/

namespace Ref

/-- The number a list of bytes stands for, least significant byte first. -/
def leNat : List Byte → Nat
  | [] => 0
  | b :: bs => b.toNat + 256 * leNat bs

/-- The 64-bit word a list of at most eight bytes stands for. -/
def word (bs : List Byte) : Word := BitVec.ofNat 64 (leNat bs)

def c1 : Word := 0x87c37b91114253d5#64
def c2 : Word := 0x4cf5ad432745937f#64

def k1 (k : Word) : Word := ((k * c1).rotateLeft 31) * c2
def k2 (k : Word) : Word := ((k * c2).rotateLeft 33) * c1

def shiftMix (h : Word) : Word := h ^^^ (h >>> 33)

def fmix (h : Word) : Word :=
  shiftMix (shiftMix (shiftMix h * 0xff51afd7ed558ccd#64) * 0xc4ceb9fe1a85ec53#64)

def round1 (a b w : Word) : Word := ((a ^^^ k1 w).rotateLeft 27 + b) * 5#64 + 0x52dce729#64
def round2 (a b w : Word) : Word := ((b ^^^ k2 w).rotateLeft 31 + a) * 5#64 + 0x38495ab5#64

/-- One 128-bit block. -/
def block (m : Word × Word) (w1 w2 : Word) : Word × Word :=
  (round1 m.1 m.2 w1, round2 (round1 m.1 m.2 w1) m.2 w2)

/-- `(a, b) ↦ (a + b, a + 2 b)`: the two cross additions. -/
def cross (m : Word × Word) : Word × Word := (m.1 + m.2, m.2 + (m.1 + m.2))

/-- The finalisation with the last words and the length. -/
def finish (m : Word × Word) (w1 w2 len : Word) : Word × Word :=
  let x := cross (m.1 ^^^ k1 w1 ^^^ len, m.2 ^^^ k2 w2 ^^^ len)
  cross (fmix x.1, fmix x.2)

/-- The bytes are taken `w` to a word and two words to a block; what does not fill a block goes
into the finalisation.  Murmur3 is `w = 8`. -/
def absorb (w : Nat) (len : Word) (bs : List Byte) (m : Word × Word) : Word × Word :=
  if 0 < w ∧ 2 * w ≤ bs.length then
    absorb w len (bs.drop (2 * w)) (block m (word (bs.take w)) (word ((bs.drop w).take w)))
  else finish m (word (bs.take w)) (word (bs.drop w)) len
termination_by bs.length
decreasing_by simp only [List.length_drop]; omega

/-- Murmur3_x64_128 of a byte string, both halves of the seed equal. -/
def murmur3 (seed : Word) (bs : List Byte) : Word × Word :=
  absorb 8 (BitVec.ofNat 64 bs.length) bs (seed, seed)

/-- The variant used for strings: four bytes to a 64-bit word, and twice the length. -/
def murmur3Chars (seed : Word) (bs : List Byte) : Word × Word :=
  absorb 4 (BitVec.ofNat 64 (2 * bs.length)) bs (seed, seed)

/-- The eight bytes of a word, least significant first. -/
def bytesOf (x : Word) : List Byte := (List.range 8).map fun i => BitVec.ofNat 8 (x.toNat / 256 ^ i)

end Ref

/-! ### Every step can be undone -/

theorem mul_inj (c d : Word) (h : c * d = 1#64) {x y : Word} (e : x * c = y * c) : x = y := by
  have := congrArg (· * d) e
  simpa only [BitVec.mul_assoc, h, BitVec.mul_one] using this

theorem xor_inj {a x y : Word} (e : a ^^^ x = a ^^^ y) : x = y := by
  have := congrArg (a ^^^ ·) e
  simpa only [← BitVec.xor_assoc, BitVec.xor_self, BitVec.zero_xor] using this

theorem xor_inj' {a x y : Word} (e : x ^^^ a = y ^^^ a) : x = y := by
  have := congrArg (· ^^^ a) e
  simpa only [BitVec.xor_assoc, BitVec.xor_self, BitVec.xor_zero] using this

theorem add_inj {a x y : Word} (e : x + a = y + a) : x = y := by
  have := congrArg (· - a) e
  simpa only [BitVec.add_sub_cancel] using this

theorem shiftMix_invol (x : Word) : Ref.shiftMix (Ref.shiftMix x) = x := by
  unfold Ref.shiftMix
  rw [BitVec.ushiftRight_xor_distrib, ← BitVec.shiftRight_add,
    BitVec.ushiftRight_eq_zero (n := 33 + 33) (by omega), BitVec.xor_zero, BitVec.xor_assoc,
    BitVec.xor_self, BitVec.xor_zero]

theorem shiftMix_inj {x y : Word} (e : Ref.shiftMix x = Ref.shiftMix y) : x = y := by
  rw [← shiftMix_invol x, e, shiftMix_invol]

theorem rotl_inj (r : Nat) (hr : r < 64) {x y : Word} (e : x.rotateLeft r = y.rotateLeft r) :
    x = y := by
  apply BitVec.eq_of_getLsbD_eq
  intro i hi
  have h := congrArg (fun z => z.getLsbD ((i + r) % 64)) e
  simp only [BitVec.getLsbD_rotateLeft, Nat.mod_eq_of_lt hr] at h
  by_cases c : i + r < 64
  · rw [Nat.mod_eq_of_lt c] at h
    simpa [show ¬ (i + r < r) by omega, c] using h
  · have e2 : (i + r) % 64 = i + r - 64 := by omega
    rw [e2] at h
    simpa [show i + r - 64 < r by omega, show 64 - r + (i + r - 64) = i by omega] using h

theorem k1_inj {x y : Word} (e : Ref.k1 x = Ref.k1 y) : x = y :=
  mul_inj Ref.c1 0xa98409e882ce4d7d#64 (by decide +kernel)
    (rotl_inj 31 (by omega) (mul_inj Ref.c2 0xa81e14edd9de2c7f#64 (by decide +kernel) e))

theorem k2_inj {x y : Word} (e : Ref.k2 x = Ref.k2 y) : x = y :=
  mul_inj Ref.c2 0xa81e14edd9de2c7f#64 (by decide +kernel)
    (rotl_inj 33 (by omega) (mul_inj Ref.c1 0xa98409e882ce4d7d#64 (by decide +kernel) e))

theorem fmix_inj {x y : Word} (e : Ref.fmix x = Ref.fmix y) : x = y :=
  shiftMix_inj (mul_inj 0xff51afd7ed558ccd#64 0x4f74430c22a54005#64 (by decide +kernel)
    (shiftMix_inj (mul_inj 0xc4ceb9fe1a85ec53#64 0x9cb4b2f8129337db#64 (by decide +kernel)
      (shiftMix_inj e))))

theorem cross_inj {x y : Word × Word} (e : Ref.cross x = Ref.cross y) : x = y := by
  obtain ⟨a, b⟩ := x
  obtain ⟨c, d⟩ := y
  simp only [Ref.cross, Prod.mk.injEq] at e
  obtain ⟨e1, e2⟩ := e
  rw [e1] at e2
  have hb := add_inj e2
  subst hb
  rw [add_inj e1]

/-- The finalisation undone: what was mixed in is determined by the result. -/
theorem finish_inj {m m' : Word × Word} {a b c d l l' : Word}
    (e : Ref.finish m a b l = Ref.finish m' c d l') :
    m.1 ^^^ Ref.k1 a ^^^ l = m'.1 ^^^ Ref.k1 c ^^^ l' ∧
      m.2 ^^^ Ref.k2 b ^^^ l = m'.2 ^^^ Ref.k2 d ^^^ l' := by
  have e1 := cross_inj e
  simp only [Prod.mk.injEq] at e1
  have e2 := cross_inj (Prod.ext (fmix_inj e1.1) (fmix_inj e1.2))
  simpa only [Prod.mk.injEq] using e2

theorem round_inj {b c x y : Word} (e : (x + b) * 5#64 + c = (y + b) * 5#64 + c) : x = y := by
  have h := add_inj e
  exact add_inj (a := b) (by
    generalize x + b = u at h ⊢
    generalize y + b = v at h ⊢
    exact mul_inj 5#64 0xcccccccccccccccd#64 (by decide +kernel) h)

theorem block_inj_words {m : Word × Word} {a b c d : Word}
    (e : Ref.block m a b = Ref.block m c d) : a = c ∧ b = d := by
  have h1 : Ref.round1 m.1 m.2 a = Ref.round1 m.1 m.2 c := by
    have h := e
    simp only [Ref.block, Prod.mk.injEq] at h
    exact h.1
  have h2 : Ref.round2 (Ref.round1 m.1 m.2 a) m.2 b = Ref.round2 (Ref.round1 m.1 m.2 c) m.2 d := by
    have h := e
    simp only [Ref.block, Prod.mk.injEq] at h
    exact h.2
  rw [h1] at h2
  exact ⟨k1_inj (xor_inj (rotl_inj 27 (by omega) (round_inj h1))),
    k2_inj (xor_inj (rotl_inj 31 (by omega) (round_inj h2)))⟩

theorem block_inj_state {m m' : Word × Word} {a b : Word}
    (e : Ref.block m a b = Ref.block m' a b) : m = m' := by
  have h1 : Ref.round1 m.1 m.2 a = Ref.round1 m'.1 m'.2 a := by
    have h := e
    simp only [Ref.block, Prod.mk.injEq] at h
    exact h.1
  have h2 : Ref.round2 (Ref.round1 m.1 m.2 a) m.2 b = Ref.round2 (Ref.round1 m'.1 m'.2 a) m'.2 b := by
    have h := e
    simp only [Ref.block, Prod.mk.injEq] at h
    exact h.2
  rw [h1] at h2
  have hb : m.2 = m'.2 :=
    xor_inj' (rotl_inj 31 (by omega) (round_inj h2))
  unfold Ref.round1 at h1
  rw [hb] at h1
  have ha : m.1 = m'.1 :=
    xor_inj' (rotl_inj 27 (by omega) (round_inj h1))
  exact Prod.ext ha hb

/-! ### Words and bytes -/

theorem leNat_lt (bs : List Byte) : Ref.leNat bs < 256 ^ bs.length := by
  induction bs with
  | nil => simp [Ref.leNat]
  | cons b bs ih =>
    have := b.isLt
    simp only [Ref.leNat, List.length_cons, Nat.pow_succ]
    omega

theorem leNat_append (as bs : List Byte) :
    Ref.leNat (as ++ bs) = Ref.leNat as + 256 ^ as.length * Ref.leNat bs := by
  induction as with
  | nil => simp [Ref.leNat]
  | cons a as ih =>
    simp only [List.cons_append, Ref.leNat, ih, List.length_cons, Nat.pow_succ]
    ring

theorem leNat_inj : ∀ {as bs : List Byte}, as.length = bs.length →
    Ref.leNat as = Ref.leNat bs → as = bs
  | [], [], _, _ => rfl
  | a :: as, b :: bs, hl, e => by
    simp only [Ref.leNat] at e
    have ha := a.isLt
    have hb := b.isLt
    have h1 : a.toNat = b.toNat := by omega
    have h2 : as = bs := leNat_inj (by simpa using hl) (by omega)
    rw [BitVec.eq_of_toNat_eq h1, h2]

theorem word_toNat {bs : List Byte} (h : bs.length ≤ 8) : (Ref.word bs).toNat = Ref.leNat bs := by
  have h1 := leNat_lt bs
  have h2 : 256 ^ bs.length ≤ 256 ^ 8 := Nat.pow_le_pow_right (by omega) h
  simp only [Ref.word, BitVec.toNat_ofNat]
  apply Nat.mod_eq_of_lt
  have : (256 : Nat) ^ 8 = 2 ^ 64 := by norm_num
  omega

theorem word_inj {as bs : List Byte} (hl : as.length = bs.length) (h : as.length ≤ 8)
    (e : Ref.word as = Ref.word bs) : as = bs := by
  apply leNat_inj hl
  have h2 : bs.length ≤ 8 := by omega
  have e2 := congrArg BitVec.toNat e
  rwa [word_toNat h, word_toNat h2] at e2

theorem word_snoc (bs : List Byte) (b : Byte) (h : bs.length < 8) :
    Ref.word (bs ++ [b]) = (b.setWidth 64 <<< (bs.length * 8)) ^^^ Ref.word bs := by
  apply BitVec.eq_of_toNat_eq
  rw [word_toNat (by simp; omega), leNat_append, BitVec.toNat_xor, word_toNat (by omega)]
  have hlt : Ref.leNat bs < 2 ^ (bs.length * 8) := by
    have := leNat_lt bs
    rwa [show (256 : Nat) = 2 ^ 8 by norm_num, ← Nat.pow_mul, Nat.mul_comm] at this
  have hb : (b.setWidth 64 <<< (bs.length * 8) : Word).toNat = 2 ^ (bs.length * 8) * b.toNat := by
    have h1 := b.isLt
    have h2 : (2 : Nat) ^ (bs.length * 8) ≤ 2 ^ 56 := Nat.pow_le_pow_right (by omega) (by omega)
    rw [BitVec.toNat_shiftLeft, BitVec.toNat_setWidth,
      Nat.mod_eq_of_lt (show b.toNat < 2 ^ 64 by omega), Nat.shiftLeft_eq, Nat.mul_comm]
    apply Nat.mod_eq_of_lt
    calc 2 ^ (bs.length * 8) * b.toNat ≤ 2 ^ 56 * b.toNat := Nat.mul_le_mul_right _ h2
      _ < 2 ^ 64 := by omega
  rw [hb]
  have e1 : Ref.leNat bs + 256 ^ bs.length * Ref.leNat [b] =
      2 ^ (bs.length * 8) * b.toNat + Ref.leNat bs := by
    rw [show (256 : Nat) = 2 ^ 8 by norm_num, ← Nat.pow_mul, Nat.mul_comm 8]
    simp [Ref.leNat]; omega
  rw [e1]
  apply Nat.eq_of_testBit_eq
  intro j
  rw [Nat.testBit_xor, Nat.testBit_two_pow_mul_add _ hlt, Nat.testBit_two_pow_mul]
  by_cases c : j < bs.length * 8
  · simp [c, show ¬ bs.length * 8 ≤ j by omega]
  · have : (Ref.leNat bs).testBit j = false :=
      Nat.testBit_lt_two_pow (lt_of_lt_of_le hlt (Nat.pow_le_pow_right (by omega) (by omega)))
    simp [c, this]
    omega

theorem and_ff (b : Byte) : b &&& 0xFF#8 = b := by
  rw [show (0xFF#8 : Byte) = BitVec.allOnes 8 by decide]
  exact BitVec.and_allOnes

theorem getLoop_eq (b : List Byte) (index : Nat) : ∀ (n : Nat) (out : Word), n ≤ 8 →
    index + n ≤ b.length →
    getLoop b index n out = .ok (out ^^^ Ref.word ((b.drop index).take n))
  | 0, out, _, _ => by simp [getLoop, Ref.word, Ref.leNat]
  | n + 1, out, hn, hb => by
    have hx : b[index + n]? = some (b[index + n]'(by omega)) := List.getElem?_eq_getElem _
    have ht : (b.drop index).take (n + 1) = (b.drop index).take n ++ [b[index + n]'(by omega)] := by
      rw [List.take_add_one, List.getElem?_drop, hx]; rfl
    have hl : ((b.drop index).take n).length = n := by simp; omega
    simp only [getLoop, hx, Outcome.ofOption_some, Outcome.ok_bind, and_ff]
    rw [getLoop_eq b index n _ (by omega) (by omega), ht, word_snoc _ _ (by omega), hl,
      BitVec.xor_assoc]

theorem getUint64_eq (b : List Byte) (index n : Nat) (hn : n ≤ 8) (hb : index + n ≤ b.length) :
    getUint64 b index n = .ok (Ref.word ((b.drop index).take n)) := by
  rw [getUint64, getLoop_eq b index n _ hn hb]
  exact congrArg _ (BitVec.zero_xor)

theorem getLoop_panic (b : List Byte) (index : Nat) : ∀ (n : Nat) (out : Word), 0 < n →
    b.length < index + n → getLoop b index n out = .panic
  | n + 1, out, _, hb => by
    have hx : b[index + n]? = none := List.getElem?_eq_none (by omega)
    simp [getLoop, hx]

/-! ### The steps of the code are the published ones -/

theorem mixK1_eq (k : Word) : mixK1 k = Ref.k1 k := by
  simp only [mixK1, Ref.k1, BitVec.rotateLeft_def]; rfl

theorem mixK2_eq (k : Word) : mixK2 k = Ref.k2 k := by
  simp only [mixK2, Ref.k2, BitVec.rotateLeft_def]; rfl

theorem blockMix_eq (m : State) (a b : Word) :
    ((blockMix128 m a b).h1, (blockMix128 m a b).h2) = Ref.block (m.h1, m.h2) a b := by
  simp only [blockMix128, Ref.block, Ref.round1, Ref.round2, BitVec.rotateLeft_def, mixK1_eq,
    mixK2_eq]

theorem finalMix_eq (m : State) (a b l : Word) :
    finalMix128 m a b l = Ref.finish (m.h1, m.h2) a b l := by
  simp only [finalMix128, Ref.finish, Ref.cross, mixK1_eq, mixK2_eq, finalMix64, Ref.fmix,
    Ref.shiftMix]

/-! ### The loops -/

theorem absorb_step (w : Nat) (len : Word) (bs : List Byte) (m : Word × Word) (hw : 0 < w)
    (h : 2 * w ≤ bs.length) :
    Ref.absorb w len bs m = Ref.absorb w len (bs.drop (2 * w))
      (Ref.block m (Ref.word (bs.take w)) (Ref.word ((bs.drop w).take w))) := by
  rw [Ref.absorb, if_pos ⟨hw, h⟩]

theorem absorb_end (w : Nat) (len : Word) (bs : List Byte) (m : Word × Word)
    (h : bs.length < 2 * w) :
    Ref.absorb w len bs m = Ref.finish m (Ref.word (bs.take w)) (Ref.word (bs.drop w)) len := by
  rw [Ref.absorb, if_neg (by omega)]

theorem rounds_absorb (w : Nat) (hw : 0 < w) (len : Word) (bs : List Byte) (m0 : State)
    (f : Nat → Outcome (Word × Word)) : ∀ n, 2 * w * n ≤ bs.length →
    (∀ i < n, f i = .ok (Ref.word ((bs.drop (2 * w * i)).take w),
      Ref.word ((bs.drop (2 * w * i + w)).take w))) →
    ∃ m, rounds f n m0 = .ok m ∧
      Ref.absorb w len bs (m0.h1, m0.h2) =
        Ref.absorb w len (bs.drop (2 * w * n)) (m.h1, m.h2)
  | 0, _, _ => ⟨m0, rfl, by simp⟩
  | n + 1, hn, hf => by
    have hn' : 2 * w * n + 2 * w ≤ bs.length := by rw [Nat.mul_succ] at hn; exact hn
    obtain ⟨m, h1, h2⟩ := rounds_absorb w hw len bs m0 f n (by omega)
      (fun i hi => hf i (by omega))
    refine ⟨blockMix128 m (Ref.word ((bs.drop (2 * w * n)).take w))
      (Ref.word ((bs.drop (2 * w * n + w)).take w)), ?_, ?_⟩
    · simp only [rounds, h1, Outcome.ok_bind, hf n (by omega)]
    · rw [h2, absorb_step w len _ _ hw (by simp only [List.length_drop]; omega), blockMix_eq,
        List.drop_drop, List.drop_drop, Nat.mul_succ]

theorem sub_word {α : Type} (key : List α) (off len a n : Nat) (h : a + n ≤ len) :
    (((key.drop off).take len).drop a).take n = (key.drop (off + a)).take n := by
  rw [List.drop_take, List.take_take, List.drop_drop, Nat.min_eq_left (by omega)]

/-- `HashByteArrMurmur3` on a range inside the slice. -/
theorem hashBytes_eq (key : List Byte) (off len : Nat) (seed : Word) (h : off + len ≤ key.length) :
    hashBytes key off len seed = .ok (Ref.murmur3 seed ((key.drop off).take len)) := by
  have hl : ((key.drop off).take len).length = len := by simp; omega
  have hsr : len >>> 4 = len / 16 := by rw [Nat.shiftRight_eq_div_pow]
  have hsl : ∀ i : Nat, i <<< 4 = 16 * i := fun i => by rw [Nat.shiftLeft_eq]; omega
  obtain ⟨m, h1, h2⟩ := rounds_absorb 8 (by omega) (BitVec.ofNat 64 len)
    ((key.drop off).take len) ⟨seed, seed⟩ (byteBlock key off) (len / 16) (by rw [hl]; omega) (by
      intro i hi
      have hi' : 16 * i + 16 ≤ len := by omega
      rw [sub_word _ _ _ _ _ (by omega), sub_word _ _ _ _ _ (by omega)]
      simp only [byteBlock, hsl]
      rw [getUint64_eq _ _ _ (by omega) (by omega), getUint64_eq _ _ _ (by omega) (by omega)]
      simp only [Outcome.ok_bind]
      rw [Nat.add_assoc])
  simp only [hashBytes, hsr, hsl, h1, Outcome.ok_bind]
  rw [Ref.murmur3, hl, h2, absorb_end _ _ _ _ (by simp only [List.length_drop, hl]; omega)]
  have ht : byteTail key off (16 * (len / 16)) (len - 16 * (len / 16)) =
      .ok (Ref.word ((((key.drop off).take len).drop (16 * (len / 16))).take 8),
        Ref.word ((((key.drop off).take len).drop (16 * (len / 16))).drop 8)) := by
    set t := 16 * (len / 16) with ht
    have hr : len - t < 16 := by omega
    rw [List.drop_take, List.drop_drop]
    unfold byteTail
    split
    · rw [getUint64_eq _ _ _ (by omega) (by omega), getUint64_eq _ _ _ (by omega) (by omega)]
      simp only [Outcome.ok_bind]
      rw [List.take_take, Nat.min_eq_left (by omega), List.drop_take, List.drop_drop]
    · split
      · rw [getUint64_eq _ _ _ (by omega) (by omega)]
        simp only [Outcome.ok_bind]
        rw [List.take_take, Nat.min_eq_right (by omega), List.drop_take,
          show len - t - 8 = 0 by omega]
        rfl
      · rw [show len - t = 0 by omega]
        rfl
  simp only [ht, Outcome.ok_bind, finalMix_eq]

/-- `HashCharSliceMurmur3` on a range inside the slice. -/
theorem hashChars_eq (key : List Byte) (off len : Nat) (seed : Word) (h : off + len ≤ key.length) :
    hashChars key off len seed = .ok (Ref.murmur3Chars seed ((key.drop off).take len)) := by
  have hl : ((key.drop off).take len).length = len := by simp; omega
  have hsr : len >>> 3 = len / 8 := by rw [Nat.shiftRight_eq_div_pow]
  have hsl : ∀ i : Nat, i <<< 3 = 8 * i := fun i => by rw [Nat.shiftLeft_eq]; omega
  obtain ⟨m, h1, h2⟩ := rounds_absorb 4 (by omega) (BitVec.ofNat 64 (2 * len))
    ((key.drop off).take len) ⟨seed, seed⟩ (charBlock key off) (len / 8) (by rw [hl]; omega) (by
      intro i hi
      have hi' : 8 * i + 8 ≤ len := by omega
      rw [sub_word _ _ _ _ _ (by omega), sub_word _ _ _ _ _ (by omega)]
      simp only [charBlock, hsl]
      rw [getUint64_eq _ _ _ (by omega) (by omega), getUint64_eq _ _ _ (by omega) (by omega)]
      simp only [Outcome.ok_bind]
      rw [Nat.add_assoc])
  simp only [hashChars, hsr, hsl, h1, Outcome.ok_bind]
  rw [Ref.murmur3Chars, hl, h2, absorb_end _ _ _ _ (by simp only [List.length_drop, hl]; omega)]
  have ht : charTail key off (8 * (len / 8)) (len - 8 * (len / 8)) =
      .ok (Ref.word ((((key.drop off).take len).drop (8 * (len / 8))).take 4),
        Ref.word ((((key.drop off).take len).drop (8 * (len / 8))).drop 4)) := by
    set t := 8 * (len / 8) with ht
    have hr : len - t < 8 := by omega
    rw [List.drop_take, List.drop_drop]
    unfold charTail
    split
    · rw [getUint64_eq _ _ _ (by omega) (by omega), getUint64_eq _ _ _ (by omega) (by omega)]
      simp only [Outcome.ok_bind]
      rw [List.take_take, Nat.min_eq_left (by omega), List.drop_take, List.drop_drop]
    · split
      · rw [getUint64_eq _ _ _ (by omega) (by omega)]
        simp only [Outcome.ok_bind]
        rw [List.take_take, Nat.min_eq_right (by omega), List.drop_take,
          show len - t - 4 = 0 by omega]
        rfl
      · rw [show len - t = 0 by omega]
        rfl
  have hlen : BitVec.ofNat 64 len <<< 1 = BitVec.ofNat 64 (2 * len) := by
    apply BitVec.eq_of_toNat_eq
    simp only [BitVec.toNat_shiftLeft, BitVec.toNat_ofNat, Nat.shiftLeft_eq]
    omega
  simp only [ht, Outcome.ok_bind, finalMix_eq, hlen]

theorem bytesOf_length (x : Word) : (Ref.bytesOf x).length = 8 := by simp [Ref.bytesOf]

theorem leNat_digits (x : Nat) : ∀ n, Ref.leNat ((List.range n).map fun i =>
    BitVec.ofNat 8 (x / 256 ^ i)) = x % 256 ^ n
  | 0 => by simp [Ref.leNat, Nat.mod_one]
  | n + 1 => by
    rw [List.range_succ, List.map_append, leNat_append, leNat_digits x n]
    simp only [List.length_map, List.length_range, List.map_cons, List.map_nil, Ref.leNat,
      BitVec.toNat_ofNat]
    have e := Nat.mod_mul (x := x) (a := 256 ^ n) (b := 256)
    rw [show (256 : Nat) ^ (n + 1) = 256 ^ n * 256 from Nat.pow_succ _ _, e]
    rfl

theorem word_bytesOf (x : Word) : Ref.word (Ref.bytesOf x) = x := by
  apply BitVec.eq_of_toNat_eq
  rw [word_toNat (by rw [bytesOf_length]), Ref.bytesOf, leNat_digits]
  have := x.isLt
  exact Nat.mod_eq_of_lt (by rw [show (256 : Nat) ^ 8 = 2 ^ 64 by norm_num]; exact this)

theorem flat_length (xs : List Word) : (xs.flatMap Ref.bytesOf).length = 8 * xs.length := by
  induction xs with
  | nil => rfl
  | cons x xs ih => simp only [List.flatMap_cons, List.length_append, bytesOf_length, ih,
      List.length_cons]; omega

theorem flat_drop (xs : List Word) : ∀ n, (xs.flatMap Ref.bytesOf).drop (8 * n) =
    (xs.drop n).flatMap Ref.bytesOf := by
  induction xs with
  | nil => simp
  | cons x xs ih =>
    intro n
    cases n with
    | zero => rfl
    | succ n =>
      rw [List.flatMap_cons, show 8 * (n + 1) = (Ref.bytesOf x).length + 8 * n by
        rw [bytesOf_length]; omega, List.drop_append, Nat.add_sub_cancel_left, ih n]
      rw [List.drop_succ_cons, List.drop_eq_nil_of_le (by omega), List.nil_append]

theorem flat_take (xs : List Word) {x : Word} (h : xs[0]? = some x) :
    (xs.flatMap Ref.bytesOf).take 8 = Ref.bytesOf x := by
  cases xs with
  | nil => simp at h
  | cons y ys =>
    simp only [List.getElem?_cons_zero, Option.some.injEq] at h
    subst h
    rw [List.flatMap_cons, List.take_append_of_le_length (by rw [bytesOf_length]),
      List.take_of_length_le (by rw [bytesOf_length])]

/-- `HashInt64SliceMurmur3` on a range inside the slice. -/
theorem hashInt64s_eq (key : List Word) (off len : Nat) (seed : Word) (h : off + len ≤ key.length) :
    hashInt64s key off len seed =
      .ok (Ref.murmur3 seed (((key.drop off).take len).flatMap Ref.bytesOf)) := by
  set xs := (key.drop off).take len with hxs
  have hl : xs.length = len := by simp [hxs]; omega
  have hbl : (xs.flatMap Ref.bytesOf).length = 8 * len := by rw [flat_length, hl]
  have hget : ∀ i, i < len → key[off + i]? = xs[i]? := by
    intro i hi
    rw [hxs, List.getElem?_take_of_lt hi, List.getElem?_drop]
  have hw : ∀ i (hi : i < xs.length), Ref.word (((xs.flatMap Ref.bytesOf).drop (8 * i)).take 8) =
      xs[i] := by
    intro i hi
    rw [flat_drop, flat_take (x := xs[i]) _ (by
      rw [List.getElem?_drop, Nat.add_zero, List.getElem?_eq_getElem hi]), word_bytesOf]
  have hsr : len >>> 1 = len / 2 := by rw [Nat.shiftRight_eq_div_pow]
  have hsl : ∀ i : Nat, i <<< 1 = 2 * i := fun i => by rw [Nat.shiftLeft_eq]; omega
  obtain ⟨m, h1, h2⟩ := rounds_absorb 8 (by omega) (BitVec.ofNat 64 (8 * len))
    (xs.flatMap Ref.bytesOf) ⟨seed, seed⟩ (int64Block key off) (len / 2) (by rw [hbl]; omega) (by
      intro i hi
      have hi' : 2 * i + 2 ≤ len := by omega
      have e1 := hw (2 * i) (by omega)
      have e2 := hw (2 * i + 1) (by omega)
      rw [show 2 * 8 * i = 8 * (2 * i) by omega, show 8 * (2 * i) + 8 = 8 * (2 * i + 1) by omega,
        e1, e2]
      simp only [int64Block, hsl]
      rw [hget _ (by omega), Nat.add_assoc, hget _ (by omega),
        List.getElem?_eq_getElem (show 2 * i < xs.length by omega),
        List.getElem?_eq_getElem (show 2 * i + 1 < xs.length by omega)]
      rfl)
  simp only [hashInt64s, hsr, hsl, h1, Outcome.ok_bind]
  rw [Ref.murmur3, hbl, h2, absorb_end _ _ _ _ (by simp only [List.length_drop, hbl]; omega)]
  have ht : int64Tail key off (2 * (len / 2)) (len - 2 * (len / 2)) =
      .ok (Ref.word (((xs.flatMap Ref.bytesOf).drop (2 * 8 * (len / 2))).take 8),
        Ref.word (((xs.flatMap Ref.bytesOf).drop (2 * 8 * (len / 2))).drop 8)) := by
    rw [show 2 * 8 * (len / 2) = 8 * (2 * (len / 2)) by omega]
    set t := 2 * (len / 2) with ht
    unfold int64Tail
    split
    · rw [hw t (by omega), List.drop_eq_nil_of_le (by simp only [List.length_drop, hbl]; omega),
        hget _ (by omega), List.getElem?_eq_getElem (show t < xs.length by omega)]
      rfl
    · rw [List.drop_eq_nil_of_le (by rw [hbl]; omega)]
      rfl
  have hlen : BitVec.ofNat 64 len <<< 3 = BitVec.ofNat 64 (8 * len) := by
    apply BitVec.eq_of_toNat_eq
    simp only [BitVec.toNat_shiftLeft, BitVec.toNat_ofNat, Nat.shiftLeft_eq]
    omega
  simp only [ht, Outcome.ok_bind, finalMix_eq, hlen]

/-! ### What the hash determines -/

theorem absorb_state_inj (w : Nat) (hw : 0 < w) (len : Word) (bs : List Byte) {m m' : Word × Word}
    (e : Ref.absorb w len bs m = Ref.absorb w len bs m') : m = m' := by
  induction hn : bs.length using Nat.strongRecOn generalizing bs m m' with
  | ind n ih =>
    by_cases h : 2 * w ≤ bs.length
    · rw [absorb_step w len bs m hw h, absorb_step w len bs m' hw h] at e
      exact block_inj_state (ih (bs.drop (2 * w)).length
        (by simp only [List.length_drop]; omega) _ e rfl)
    · rw [absorb_end w len bs m (by omega), absorb_end w len bs m' (by omega)] at e
      obtain ⟨e1, e2⟩ := finish_inj e
      exact Prod.ext (xor_inj' (xor_inj' e1)) (xor_inj' (xor_inj' e2))

theorem split3 (bs : List Byte) (w : Nat) :
    bs = bs.take w ++ ((bs.drop w).take w ++ bs.drop (2 * w)) := by
  conv_lhs => rw [← List.take_append_drop w bs]
  congr 1
  conv_lhs => rw [← List.take_append_drop w (bs.drop w)]
  rw [List.drop_drop, Nat.two_mul]

theorem absorb_one (w : Nat) (hw : 0 < w) (hw8 : w ≤ 8) (len : Word) (as bs : List Byte)
    (m : Word × Word) (j : Nat) (hl : as.length = bs.length)
    (hd : ∀ i, i / (2 * w) ≠ j → as[i]? = bs[i]?)
    (e : Ref.absorb w len as m = Ref.absorb w len bs m) : as = bs := by
  induction hn : as.length using Nat.strongRecOn generalizing as bs m j with
  | ind n ih =>
    by_cases h : 2 * w ≤ as.length
    · rw [absorb_step w len as m hw h, absorb_step w len bs m hw (by omega)] at e
      by_cases hj : j = 0
      · have hdrop : as.drop (2 * w) = bs.drop (2 * w) := by
          apply List.ext_getElem?
          intro i
          rw [List.getElem?_drop, List.getElem?_drop]
          apply hd
          rw [Nat.add_div_left _ (by omega), hj]
          exact Nat.succ_ne_zero _
        rw [hdrop] at e
        obtain ⟨e1, e2⟩ := block_inj_words (absorb_state_inj w hw len _ e)
        rw [split3 as w, split3 bs w, hdrop,
          word_inj (by simp only [List.length_take]; omega)
            (by simp only [List.length_take]; omega) e1,
          word_inj (by simp only [List.length_take, List.length_drop]; omega)
            (by simp only [List.length_take, List.length_drop]; omega) e2]
      · have hin : ∀ i, i < 2 * w → as[i]? = bs[i]? := by
          intro i hi
          apply hd
          rw [Nat.div_eq_of_lt hi]
          exact fun h => hj h.symm
        have e1 : as.take w = bs.take w := by
          apply List.ext_getElem?
          intro i
          rw [List.getElem?_take, List.getElem?_take]
          split
          · exact hin i (by omega)
          · rfl
        have e2 : (as.drop w).take w = (bs.drop w).take w := by
          apply List.ext_getElem?
          intro i
          rw [List.getElem?_take, List.getElem?_take]
          split
          · rw [List.getElem?_drop, List.getElem?_drop]; exact hin _ (by omega)
          · rfl
        rw [e1, e2] at e
        have e3 := ih (as.drop (2 * w)).length (by simp only [List.length_drop]; omega)
          (as.drop (2 * w)) (bs.drop (2 * w)) _ (j - 1)
          (by simp only [List.length_drop]; omega) (by
            intro i hi
            rw [List.getElem?_drop, List.getElem?_drop]
            apply hd
            rw [Nat.add_div_left _ (by omega)]
            intro h
            exact hi (by rw [← h]; rfl)) e rfl
        rw [split3 as w, split3 bs w, e1, e2, e3]
    · rw [absorb_end w len as m (by omega), absorb_end w len bs m (by omega)] at e
      obtain ⟨e1, e2⟩ := finish_inj e
      rw [← List.take_append_drop w as, ← List.take_append_drop w bs,
        word_inj (by simp only [List.length_take]; omega)
          (by simp only [List.length_take]; omega) (k1_inj (xor_inj (xor_inj' e1))),
        word_inj (by simp only [List.length_drop]; omega)
          (by simp only [List.length_drop]; omega) (k2_inj (xor_inj (xor_inj' e2)))]

/-- Strings that fit into the first word: the length is determined too. -/
theorem absorb_short (w : Nat) (hw : 0 < w) (hw8 : w ≤ 8) (la lb : Word) (as bs : List Byte)
    (m : Word × Word) (ha : as.length ≤ w) (hb : bs.length ≤ w)
    (hl : la = lb → as.length = bs.length)
    (e : Ref.absorb w la as m = Ref.absorb w lb bs m) : as = bs := by
  have e' := e
  rw [absorb_end w la as m (by omega), absorb_end w lb bs m (by omega),
    List.drop_eq_nil_of_le ha, List.drop_eq_nil_of_le hb] at e'
  obtain ⟨e1, e2⟩ := finish_inj e'
  have hla := xor_inj e2
  subst hla
  rw [List.take_of_length_le ha, List.take_of_length_le hb] at e1
  exact word_inj (hl rfl) (by omega) (k1_inj (xor_inj (xor_inj' e1)))

theorem flat_get (xs : List Word) (i : Nat) : (xs.flatMap Ref.bytesOf)[i]? =
    xs[i / 8]?.bind fun x => (Ref.bytesOf x)[i % 8]? := by
  have h := congrArg (fun l => l[i % 8]?) (flat_drop xs (i / 8))
  simp only [List.getElem?_drop] at h
  rw [Nat.div_add_mod] at h
  rw [h]
  have hx : xs[i / 8]? = (xs.drop (i / 8))[0]? := by rw [List.getElem?_drop, Nat.add_zero]
  rw [hx]
  cases xs.drop (i / 8) with
  | nil => rfl
  | cons y ys =>
    simp only [List.flatMap_cons, List.getElem?_cons_zero, Option.bind_some]
    rw [List.getElem?_append_left (by rw [bytesOf_length]; omega)]

theorem flat_inj : ∀ {xs ys : List Word}, xs.length = ys.length →
    xs.flatMap Ref.bytesOf = ys.flatMap Ref.bytesOf → xs = ys
  | [], [], _, _ => rfl
  | x :: xs, y :: ys, hl, e => by
    rw [List.flatMap_cons, List.flatMap_cons] at e
    obtain ⟨e1, e2⟩ := List.append_inj e (by rw [bytesOf_length, bytesOf_length])
    have h1 := congrArg Ref.word e1
    rw [word_bytesOf, word_bytesOf] at h1
    rw [h1, flat_inj (by simpa using hl) e2]

/-! ### Slices of 32-bit integers -/

theorem rounds_congr {f g : Nat → Outcome (Word × Word)} (h : ∀ i, f i = g i) (m : State) :
    ∀ n, rounds f n m = rounds g n m
  | 0 => rfl
  | n + 1 => by simp only [rounds, rounds_congr h m n, h n]

/-- The rounds of the reference function over the words `f 0`, ..., `f (n-1)`. -/
def fold (f : Nat → Word × Word) : Nat → Word × Word → Word × Word
  | 0, m => m
  | n + 1, m => Ref.block (fold f n m) (f n).1 (f n).2

theorem rounds_fold {f : Nat → Outcome (Word × Word)} {g : Nat → Word × Word} (m : State) :
    ∀ n, (∀ i < n, f i = .ok (g i)) →
      ∃ m', rounds f n m = .ok m' ∧ (m'.h1, m'.h2) = fold g n (m.h1, m.h2)
  | 0, _ => ⟨m, rfl, rfl⟩
  | n + 1, h => by
    obtain ⟨m', h1, h2⟩ := rounds_fold m n (fun i hi => h i (by omega))
    refine ⟨blockMix128 m' (g n).1 (g n).2, ?_, ?_⟩
    · simp only [rounds, h1, Outcome.ok_bind, h n (by omega)]
    · rw [blockMix_eq, h2, fold]

theorem fold_congr {f g : Nat → Word × Word} (m : Word × Word) (n : Nat)
    (h : ∀ i < n, f i = g i) : fold f n m = fold g n m := by
  induction n with
  | zero => rfl
  | succ n ih => rw [fold, fold, ih (fun i hi => h i (by omega)), h n (by omega)]

theorem fold_inj {f g : Nat → Word × Word} (m : Word × Word) (j n : Nat)
    (h : ∀ i < n, i ≠ j → f i = g i) (hj : j < n) (e : fold f n m = fold g n m) :
    f j = g j := by
  induction n with
  | zero => omega
  | succ n ih =>
    rw [fold, fold] at e
    by_cases c : j = n
    · subst c
      rw [fold_congr m j (fun i hi => h i (by omega) (by omega))] at e
      obtain ⟨e1, e2⟩ := block_inj_words e
      exact Prod.ext e1 e2
    · rw [h n (by omega) (fun h => c h.symm)] at e
      exact ih (fun i hi => h i (by omega)) (by omega) (block_inj_state e)

theorem ofInt32_inj {x y : I32} (e : ofInt32 x = ofInt32 y) : x = y := by
  have h := congrArg BitVec.toInt e
  simp only [ofInt32] at h
  rw [BitVec.toInt_signExtend_of_le (by omega), BitVec.toInt_signExtend_of_le (by omega)] at h
  exact BitVec.eq_of_toInt_eq h

/-- The `i`-th element, 0 past the end. -/
def at32 (a : List I32) (i : Nat) : Word := ofInt32 (a[i]?.getD 0)

/-- The words the code reads for the last, incomplete group. -/
def tail32 (a : List I32) : Word × Word :=
  let t := 4 * (a.length / 4)
  if a.length - t > 2 then (at32 a t, at32 a (t + 2))
  else if a.length - t ≠ 0 then (at32 a t, 0) else (0, 0)

theorem hashInt32s_eq (a : List I32) (seed : Word) :
    hashInt32s a 0 a.length seed =
      .ok (Ref.finish (fold (fun i => (at32 a (4 * i), at32 a (4 * i + 2))) (a.length / 4)
        (seed, seed)) (tail32 a).1 (tail32 a).2 (BitVec.ofNat 64 a.length <<< 2)) := by
  have hsr : a.length >>> 2 = a.length / 4 := by rw [Nat.shiftRight_eq_div_pow]
  have hsl : ∀ i : Nat, i <<< 2 = 4 * i := fun i => by rw [Nat.shiftLeft_eq]; omega
  have hg : ∀ i, i < a.length → ∃ x, a[i]? = some x ∧ at32 a i = ofInt32 x := by
    intro i hi
    exact ⟨a[i], List.getElem?_eq_getElem hi, by simp [at32, List.getElem?_eq_getElem hi]⟩
  obtain ⟨m, h1, h2⟩ := rounds_fold (f := int32Block a 0)
    (g := fun i => (at32 a (4 * i), at32 a (4 * i + 2))) ⟨seed, seed⟩ (a.length / 4) (by
      intro i hi
      obtain ⟨x, hx, hx'⟩ := hg (4 * i) (by omega)
      obtain ⟨y, hy, hy'⟩ := hg (4 * i + 2) (by omega)
      simp only [int32Block, hsl, Nat.zero_add, hx, hy, hx', hy', Outcome.ofOption_some,
        Outcome.ok_bind])
  have ht : int32Tail a 0 (4 * (a.length / 4)) (a.length - 4 * (a.length / 4)) =
      .ok (tail32 a) := by
    unfold int32Tail tail32
    by_cases c : a.length - 4 * (a.length / 4) > 2
    · obtain ⟨x, hx, hx'⟩ := hg (4 * (a.length / 4)) (by omega)
      obtain ⟨y, hy, hy'⟩ := hg (4 * (a.length / 4) + 2) (by omega)
      simp only [if_pos c, Nat.zero_add, hx, hy, hx', hy', Outcome.ofOption_some, Outcome.ok_bind]
    · by_cases c2 : a.length - 4 * (a.length / 4) ≠ 0
      · obtain ⟨x, hx, hx'⟩ := hg (4 * (a.length / 4)) (by omega)
        simp only [if_neg c, if_pos c2, Nat.zero_add, hx, hx', Outcome.ofOption_some,
          Outcome.ok_bind]
      · simp only [if_neg c, if_neg c2]
  simp only [hashInt32s, hsr, hsl, h1, Outcome.ok_bind, ht, finalMix_eq, h2]

theorem at32_inj {a b : List I32} {i : Nat} (hl : a.length = b.length)
    (e : at32 a i = at32 b i) : a[i]? = b[i]? := by
  have := ofInt32_inj e
  by_cases h : i < a.length
  · have h2 : i < b.length := by omega
    rw [List.getElem?_eq_getElem h, List.getElem?_eq_getElem h2] at this ⊢
    simpa using this
  · rw [List.getElem?_eq_none (by omega), List.getElem?_eq_none (by omega)]

end Verif.Murmur3
