import Verif.Outcome

/-!
# The hash functions of internal/murmur3.go

`uint64`, `int64` are `BitVec 64`, `int32` is `BitVec 32`, `byte` is `BitVec 8`.  A slice is the
list of its elements; reading outside of it is `Outcome.panic`.  The offset and length arguments
are `Nat`: every call in the repository passes 0 and `len(key)`, and the arithmetic on them stays
below `len(key)` whenever the call does not panic.
-/

namespace Verif.Murmur3

abbrev Word := BitVec 64
abbrev Byte := BitVec 8
abbrev I32 := BitVec 32

/-- internal/murmur3.go l.20-23 -/
def C1 : Word := 0x87c37b91114253d5#64
/-- internal/murmur3.go l.20-23 -/
def C2 : Word := 0x4cf5ad432745937f#64

/-- internal/murmur3.go l.25-28 -/
structure State where
  h1 : Word
  h2 : Word
  deriving DecidableEq, Repr

/-- internal/murmur3.go l.169-175 -/
def mixK1 (k : Word) : Word :=
  let k := k * C1
  let k := (k <<< 31) ||| (k >>> (64 - 31))
  k * C2

/-- internal/murmur3.go l.177-182 -/
def mixK2 (k : Word) : Word :=
  let k := k * C2
  let k := (k <<< 33) ||| (k >>> (64 - 33))
  k * C1

/-- internal/murmur3.go l.184-192 -/
def finalMix64 (h : Word) : Word :=
  let h := h ^^^ (h >>> 33)
  let h := h * 0xff51afd7ed558ccd#64
  let h := h ^^^ (h >>> 33)
  let h := h * 0xc4ceb9fe1a85ec53#64
  h ^^^ (h >>> 33)

/-- internal/murmur3.go l.194-204 -/
def blockMix128 (m : State) (k1 k2 : Word) : State :=
  let h1 := m.h1 ^^^ mixK1 k1
  let h1 := (h1 <<< 27) ||| (h1 >>> (64 - 27))
  let h1 := h1 + m.h2
  let h1 := h1 * 5#64 + 0x52dce729#64
  let h2 := m.h2 ^^^ mixK2 k2
  let h2 := (h2 <<< 31) ||| (h2 >>> (64 - 31))
  let h2 := h2 + h1
  let h2 := h2 * 5#64 + 0x38495ab5#64
  ⟨h1, h2⟩

/-- internal/murmur3.go l.206-218 -/
def finalMix128 (m : State) (k1 k2 len : Word) : Word × Word :=
  let h1 := m.h1 ^^^ mixK1 k1
  let h2 := m.h2 ^^^ mixK2 k2
  let h1 := h1 ^^^ len
  let h2 := h2 ^^^ len
  let h1 := h1 + h2
  let h2 := h2 + h1
  let h1 := finalMix64 h1
  let h2 := finalMix64 h2
  let h1 := h1 + h2
  let h2 := h2 + h1
  (h1, h2)

/-- internal/murmur3.go l.162-165: the loop of `getUint64`, `i` counting down to 0. -/
def getLoop (b : List Byte) (index : Nat) : Nat → Word → Outcome Word
  | 0, out => .ok out
  | i + 1, out => do
    let x ← Outcome.ofOption b[index + i]?
    getLoop b index i (out ^^^ ((x &&& 0xFF#8).setWidth 64 <<< (i * 8)))

/-- internal/murmur3.go l.160-167 -/
def getUint64 (b : List Byte) (index rem : Nat) : Outcome Word := getLoop b index rem 0

/-- `uint64(x)` of an `int32` extends the sign. -/
def ofInt32 (x : I32) : Word := x.signExtend 64

/-- The loop `for i := 0; i < n; i++` around `blockMix128`, with `f i` the two words of round `i`. -/
def rounds (f : Nat → Outcome (Word × Word)) : Nat → State → Outcome State
  | 0, m => .ok m
  | n + 1, m => do
    let m ← rounds f n m
    let k ← f n
    .ok (blockMix128 m k.1 k.2)

/-- internal/murmur3.go l.39-40 -/
def charBlock (key : List Byte) (off i : Nat) : Outcome (Word × Word) := do
  let k1 ← getUint64 key (off + (i <<< 3)) 4
  let k2 ← getUint64 key (off + (i <<< 3) + 4) 4
  .ok (k1, k2)

/-- internal/murmur3.go l.49-58 -/
def charTail (key : List Byte) (off tail rem : Nat) : Outcome (Word × Word) :=
  if rem > 4 then do
    let k1 ← getUint64 key (off + tail) 4
    let k2 ← getUint64 key (off + tail + 4) (rem - 4)
    .ok (k1, k2)
  else if rem ≠ 0 then do
    let k1 ← getUint64 key (off + tail) rem
    .ok (k1, 0)
  else .ok (0, 0)

/-- internal/murmur3.go l.30-63: `HashCharSliceMurmur3` -/
def hashChars (key : List Byte) (off len : Nat) (seed : Word) : Outcome (Word × Word) := do
  let nblocks := len >>> 3
  let m ← rounds (charBlock key off) nblocks ⟨seed, seed⟩
  let tail := nblocks <<< 3
  let k ← charTail key off tail (len - tail)
  .ok (finalMix128 m k.1 k.2 (BitVec.ofNat 64 len <<< 1))

/-- internal/murmur3.go l.74-75 -/
def int32Block (key : List I32) (off i : Nat) : Outcome (Word × Word) := do
  let k1 ← Outcome.ofOption key[off + (i <<< 2)]?
  let k2 ← Outcome.ofOption key[off + (i <<< 2) + 2]?
  .ok (ofInt32 k1, ofInt32 k2)

/-- internal/murmur3.go l.84-93 -/
def int32Tail (key : List I32) (off tail rem : Nat) : Outcome (Word × Word) :=
  if rem > 2 then do
    let k1 ← Outcome.ofOption key[off + tail]?
    let k2 ← Outcome.ofOption key[off + tail + 2]?
    .ok (ofInt32 k1, ofInt32 k2)
  else if rem ≠ 0 then do
    let k1 ← Outcome.ofOption key[off + tail]?
    .ok (ofInt32 k1, 0)
  else .ok (0, 0)

/-- internal/murmur3.go l.65-97: `HashInt32SliceMurmur3` -/
def hashInt32s (key : List I32) (off len : Nat) (seed : Word) : Outcome (Word × Word) := do
  let nblocks := len >>> 2
  let m ← rounds (int32Block key off) nblocks ⟨seed, seed⟩
  let tail := nblocks <<< 2
  let k ← int32Tail key off tail (len - tail)
  .ok (finalMix128 m k.1 k.2 (BitVec.ofNat 64 len <<< 2))

/-- internal/murmur3.go l.108-109 -/
def int64Block (key : List Word) (off i : Nat) : Outcome (Word × Word) := do
  let k1 ← Outcome.ofOption key[off + (i <<< 1)]?
  let k2 ← Outcome.ofOption key[off + (i <<< 1) + 1]?
  .ok (k1, k2)

/-- internal/murmur3.go l.118-121 -/
def int64Tail (key : List Word) (off tail rem : Nat) : Outcome (Word × Word) :=
  if rem ≠ 0 then do
    let k1 ← Outcome.ofOption key[off + tail]?
    .ok (k1, 0)
  else .ok (0, 0)

/-- internal/murmur3.go l.99-124: `HashInt64SliceMurmur3` -/
def hashInt64s (key : List Word) (off len : Nat) (seed : Word) : Outcome (Word × Word) := do
  let nblocks := len >>> 1
  let m ← rounds (int64Block key off) nblocks ⟨seed, seed⟩
  let tail := nblocks <<< 1
  let k ← int64Tail key off tail (len - tail)
  .ok (finalMix128 m k.1 k.2 (BitVec.ofNat 64 len <<< 3))

/-- internal/murmur3.go l.135-136 -/
def byteBlock (key : List Byte) (off i : Nat) : Outcome (Word × Word) := do
  let k1 ← getUint64 key (off + (i <<< 4)) 8
  let k2 ← getUint64 key (off + (i <<< 4) + 8) 8
  .ok (k1, k2)

/-- internal/murmur3.go l.145-154 -/
def byteTail (key : List Byte) (off tail rem : Nat) : Outcome (Word × Word) :=
  if rem > 8 then do
    let k1 ← getUint64 key (off + tail) 8
    let k2 ← getUint64 key (off + tail + 8) (rem - 8)
    .ok (k1, k2)
  else if rem ≠ 0 then do
    let k1 ← getUint64 key (off + tail) rem
    .ok (k1, 0)
  else .ok (0, 0)

/-- internal/murmur3.go l.126-158: `HashByteArrMurmur3` -/
def hashBytes (key : List Byte) (off len : Nat) (seed : Word) : Outcome (Word × Word) := do
  let nblocks := len >>> 4
  let m ← rounds (byteBlock key off) nblocks ⟨seed, seed⟩
  let tail := nblocks <<< 4
  let k ← byteTail key off tail (len - tail)
  .ok (finalMix128 m k.1 k.2 (BitVec.ofNat 64 len))

/-- internal/utils.go l.115-126: `ComputeSeedHash`; the result is the low 16 bits. -/
def computeSeedHash (seed : Word) : Outcome (BitVec 16) := do
  let h ← hashInt64s [seed] 0 [seed].length 0
  let s := h.1 &&& 0xFFFF#64
  if s = 0 then .err "seedHash of zero" else .ok (s.setWidth 16)

end Verif.Murmur3
