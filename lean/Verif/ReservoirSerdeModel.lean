import Verif.ReservoirModel
import Verif.ItemSerdeModel
import Verif.Ints

/-!
# Reservoir sketch and union: serialization

`sampling/reservoir_items_sketch.go` l.309-384 and l.410-511, `sampling/reservoir_items_union.go`
l.287-392, `sampling/reservoir_size.go`.

The reader makes a slice of the wanted capacity but returns the slice of the serializer
(reservoir_items_sketch.go l.482-488), whose capacity is taken to be its length (true for the
serializers of `common`).  The capacities computed on the way are not modelled; allocation never
fails.
-/

namespace Verif.Reservoir

open Verif.Items

variable {T : Type}

/-- A sketch as read: the field `n` is an `int64` and may be negative. -/
structure Raw (T : Type) where
  k : Nat
  n : Int
  rf : Nat
  data : List T
  cap : Nat
  deriving DecidableEq, Repr

/-- the sketch as a value that was read -/
def Sk.raw (s : Sk T) : Raw T := ⟨s.k, s.n, s.rf, s.data, s.cap⟩

/-- reservoir_items_sketch.go:317-330 -/
def rfBits (rf : Nat) : Outcome Nat :=
  if rf ≤ 3 then .ok (rf <<< 6) else .err "unsupported resize factor"

/-- reservoir_items_sketch.go:332-345 -/
def rfOf (b : Nat) : Nat := ((b &&& 0xC0) >>> 6) &&& 3

/-- reservoir_items_sketch.go:347-384; `uint32(s.k)` truncates -/
def toSlice (sd : Serde T) (s : Sk T) : Outcome (List Nat) := do
  let r ← rfBits s.rf
  if s.n = 0 then do
    let b ← put (List.replicate 8 0) 0 [r ||| 1]
    let b ← put b 1 [2]
    let b ← put b 2 [11]
    let b ← put b 3 [4]
    put b 4 (toLE 4 s.k)
  else do
    let items := sd.many s.data
    let b ← put (List.replicate (16 + items.length) 0) 0 [r ||| 2]
    let b ← put b 1 [2]
    let b ← put b 2 [11]
    let b ← put b 3 [0]
    let b ← put b 4 (toLE 4 s.k)
    let b ← put b 8 (toLE 8 s.n)
    copyAt b 16 items

/-- reservoir_size.go:33-44.  The value is computed in `float64`; all intermediate results have at
most 12 significant bits, so it is exact, and the conversion to `int` drops the fraction. -/
def decodeSize (enc : Nat) : Outcome Nat :=
  if enc > 0xF7FF then .err "maximum valid encoded value"
  else
    let p := (enc >>> 11) &&& 0x1F
    let i := enc &&& 0x07FF
    .ok (2 ^ p * (i + 2048) / 2048)

/-- reservoir_items_sketch.go:443-456, reservoir_items_union.go:354-367: the size and its version -/
def readSize (data : List Nat) (ver : Nat) : Outcome Nat := do
  let k ← getLE data 4 4
  if ver ≠ 2 then
    if ver = 1 then do
      let enc ← getLE data 4 2
      decodeSize enc
    else .err "unsupported serialization version"
  else .ok k

/-- reservoir_items_sketch.go:492-511 -/
def fromStates (items : List T) (n : Int) (rf k : Nat) : Outcome (Raw T) :=
  if k < 2 then .err "k must be at least 2"
  else if k < items.length then .err "k must be at least as large as the number of items"
  else if (n ≥ k ∧ items.length < k) ∨ (n < k ∧ (items.length : Int) < n) then
    .err "sketch with too few items"
  else .ok ⟨k, n, rf, items, items.length⟩

/-- reservoir_items_sketch.go:415-490 -/
def fromSlice (sd : Serde T) (data : List Nat) : Outcome (Raw T) :=
  if data.length < 8 then .err "data too short"
  else do
    let b0 ← getLE data 0 1
    let pre := b0 &&& 0x3F
    let rf := rfOf b0
    if pre ≠ 1 ∧ pre ≠ 2 then .err "possible corruption"
    else do
      let ver ← getLE data 1 1
      let family ← getLE data 2 1
      if family ≠ 11 then .err "wrong sketch family"
      else do
        let flags ← getLE data 3 1
        let empty := flags &&& 4 ≠ 0
        let n ← if empty then .ok (0 : Int) else do
          let w ← getLE data 8 8
          .ok (toS 8 w)
        let k ← readSize data ver
        if empty then do
          let s ← (new k rf : Outcome (Sk T))
          .ok s.raw
        else do
          let items ← sd.deser data 16 (min n k).toNat
          fromStates items n rf k

/-- reservoir_items_union.go:298-327 -/
def Un.toSlice (sd : Serde T) (u : Un T) : Outcome (List Nat) :=
  match u.gadget with
  | none => head 4 0
  | some g =>
    if g.numSamples = 0 then head 4 0
    else do
      let gb ← Reservoir.toSlice sd g
      let b ← head 0 gb.length
      copyAt b 8 gb
where
  /-- the eight bytes in front, in a buffer with room for `room` more bytes -/
  head (flags room : Nat) : Outcome (List Nat) := do
    let b ← put (List.replicate (8 + room) 0) 0 [1]
    let b ← put b 1 [2]
    let b ← put b 2 [12]
    let b ← put b 3 [flags]
    put b 4 (toLE 4 u.maxK)

/-- The sketch handed to `UpdateSketch` by the union reader.  A negative `n` has no counterpart in
`Sk`; the model stops there. -/
def Raw.sk (r : Raw T) : Outcome (Sk T) :=
  if 0 ≤ r.n then .ok ⟨r.k, r.n.toNat, r.rf, r.data, r.cap⟩ else .err "not modelled: negative n"

/-- reservoir_items_union.go:334-392 -/
def unionFromSlice (E : Env T) (sd : Serde T) (data : List Nat) : Rand (Un T) :=
  if data.length < 8 then .err "data too short"
  else do
    let b0 ← Rand.ofOutcome (getLE data 0 1)
    if b0 &&& 0x3F ≠ 1 then .err "invalid preamble longs"
    else do
      let ver ← Rand.ofOutcome (getLE data 1 1)
      let family ← Rand.ofOutcome (getLE data 2 1)
      if family ≠ 12 then .err "wrong sketch family"
      else do
        let flags ← Rand.ofOutcome (getLE data 3 1)
        let maxK ← Rand.ofOutcome (readSize data ver)
        if flags &&& 4 ≠ 0 then .ret (newUnion maxK)
        else if data.length ≤ 8 then .err "data too short for non-empty union"
        else do
          let rest ← Rand.ofOutcome (slice data 8 data.length)
          let r ← Rand.ofOutcome (fromSlice sd rest)
          let s ← Rand.ofOutcome r.sk
          (newUnion maxK : Un T).updateSketch E (some s)

end Verif.Reservoir
