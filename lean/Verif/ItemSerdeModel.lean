import Verif.Buf

/-!
# Item serializers

`common/item_sketch_string.go`, `item_sketch_long.go`, `item_sketch_double.go`,
`item_sketch_float.go`.  A string is the list of its bytes.  `int64`, `float64` and `float32` values
are represented by their bit patterns (`uint64(item)`, `math.Float64bits`, `math.Float32bits` and
their inverses are the identity here; NaN payloads are assumed to survive).  Offsets and counts are
never negative.  Allocation of the result (`make`) never fails.
-/

namespace Verif.Items

open Verif

/-- common/types.go:26-32: the interface `ItemSketchSerde` -/
structure Serde (α : Type) where
  sizeOf : α → Nat
  /-- memory, offset, number of items -/
  sizeOfMany : List Nat → Nat → Nat → Outcome Nat
  one : α → List Nat
  many : List α → List Nat
  /-- memory, offset, number of items -/
  deser : List Nat → Nat → Nat → Outcome (List α)

/-! ## Strings -/

/-- common/utils.go:30-32 on arguments that are not negative -/
def checkBounds (offset reqLen memCap : Nat) : Bool := decide (offset + reqLen ≤ memCap)

/-- common/item_sketch_string.go:45-47 -/
def strSizeOf (item : List Nat) : Nat := item.length + 4

/-- common/item_sketch_string.go:49-68, the loop with the running offset -/
def strSkip (mem : List Nat) : Nat → Nat → Outcome Nat
  | 0, offset => .ok offset
  | n + 1, offset =>
    if checkBounds offset 4 mem.length then do
      let len ← getLE mem offset 4
      if mem.length < offset + 4 + len then .err "offset out of bounds"
      else strSkip mem n (offset + 4 + len)
    else .err "offset out of bounds"

/-- common/item_sketch_string.go:49-68 -/
def strSizeOfMany (mem : List Nat) (offset n : Nat) : Outcome Nat := do
  let e ← strSkip mem n offset
  .ok (e - offset)

/-- common/item_sketch_string.go:75-84; `uint32(utf8len)` truncates -/
def strOne (item : List Nat) : List Nat :=
  if item.length = 0 then [] else toLE 4 item.length ++ item

/-- common/item_sketch_string.go:91-109 -/
def strMany (items : List (List Nat)) : List Nat :=
  items.flatMap fun item => toLE 4 item.length ++ item

/-- common/item_sketch_string.go:116-141 -/
def strDeser (mem : List Nat) : Nat → Nat → Outcome (List (List Nat))
  | _, 0 => .ok []
  | offset, n + 1 =>
    if checkBounds offset 4 mem.length then do
      let len ← getLE mem offset 4
      if checkBounds (offset + 4) len mem.length then do
        let b ← slice mem (offset + 4) (offset + 4 + len)
        let rest ← strDeser mem (offset + 4 + len) n
        .ok (b :: rest)
      else .err "offset out of bounds"
    else .err "offset out of bounds"

/-- `ItemSketchStringSerDe` -/
def strings : Serde (List Nat) := ⟨strSizeOf, strSizeOfMany, strOne, strMany, strDeser⟩

/-! ## Numbers of `w` bytes -/

/-- common/item_sketch_long.go:72-82, common/item_sketch_double.go:73-83,
common/item_sketch_float.go:65-76 -/
def fixedDeser (w : Nat) (mem : List Nat) : Nat → Nat → Outcome (List Nat)
  | _, 0 => .ok []
  | offset, n + 1 => do
    let v ← getLE mem offset w
    let rest ← fixedDeser w mem (offset + w) n
    .ok (v :: rest)

/-- common/item_sketch_long.go:45-82 and common/item_sketch_double.go:46-83 (`w = 8`),
common/item_sketch_float.go:37-76 (`w = 4`) -/
def fixed (w : Nat) : Serde Nat where
  sizeOf _ := w
  sizeOfMany _ _ n := .ok (n * w)
  one v := toLE w v
  many vs := vs.flatMap (toLE w)
  deser := fixedDeser w

/-- `ItemSketchLongSerDe`, `ItemSketchDoubleSerDe` -/
def longs : Serde Nat := fixed 8

/-- `ItemSketchFloatSerDe` -/
def floats : Serde Nat := fixed 4

end Verif.Items
