import Verif.Murmur3Model
import Verif.ThetaModel

/-!
# What the `Update...` methods hash

The methods of theta sketches (theta/update_sketch.go l.255-393; tuple/update_sketch.go l.325-498
and tuple/arrayofnumbers_update_sketch.go are the same word for word, with a value besides the
key) and the float methods of CPC sketches and Bloom filters.  A `float64` is its 64 bits.
-/

namespace Verif.Items

open Murmur3

/-- Go's `value == 0.0`: true of both zeros. -/
def isZero (b : Word) : Bool := b &&& 0x7fffffffffffffff#64 == 0

/-- `math.IsNaN` -/
def isNaN (b : Word) : Bool :=
  (b &&& 0x7ff0000000000000#64) == 0x7ff0000000000000#64 && (b &&& 0x000fffffffffffff#64) != 0

/-- `math.IsInf(f, 1)` and `math.IsInf(f, -1)` -/
def isInf (neg : Bool) (b : Word) : Bool :=
  b == if neg then 0xfff0000000000000#64 else 0x7ff0000000000000#64

/-- theta/update_sketch.go l.336-343, tuple/update_sketch.go l.432-439 `canonicalDouble` -/
def canonicalDouble (b : Word) : Word :=
  if isZero b then 0 else if isNaN b then 0x7ff8000000000000#64 else b

/-- cpc/cpc_sketch.go l.153-163: the bits `UpdateFloat64` hashes. -/
def cpcCanonical (b : Word) : Word :=
  let b := if isZero b then 0 else b
  if (b &&& 0x7ff0000000000000#64) == 0x7ff0000000000000#64 &&
    (b &&& 0x000fffffffffffff#64) != 0 then 0x7ff8000000000000#64 else b

/-- filters/bloom_filter.go l.280-295 (and l.334-349, l.388-403): the bits `UpdateFloat64`,
`QueryFloat64` and `QueryAndUpdateFloat64` hash. -/
def bloomCanonical (b : Word) : Word :=
  if isZero b then 0
  else if isNaN b then 0x7ff8000000000000#64
  else if isInf false b then 0x7ff0000000000000#64
  else if isInf true b then 0xfff0000000000000#64
  else b

/-- `binary.LittleEndian.PutUint64` -/
def putUint64 (x : Word) : List Byte :=
  (List.range 8).map fun i => (x >>> (8 * i)).setWidth 8

/-- filters/bloom_filter.go l.297-299: the bytes `UpdateFloat64` hashes. -/
def bloomFloatBytes (b : Word) : List Byte := putUint64 (bloomCanonical b)

/-- filters/bloom_filter.go l.437-448 (and l.473-484, l.509-520): the bytes `UpdateFloat64Array`,
`QueryFloat64Array` and `QueryAndUpdateFloat64Array` hash, `none` for an empty array (ignored). -/
def bloomFloatArrayBytes (xs : List Word) : Option (List Byte) :=
  if xs.length = 0 then none else some (xs.flatMap putUint64)

/-- The argument of an update of a theta sketch, by method. -/
inductive Arg where
  | int64 (x : Word)
  | uint64 (x : Word)
  | int32 (x : I32)
  | uint32 (x : I32)
  | int16 (x : BitVec 16)
  | uint16 (x : BitVec 16)
  | int8 (x : Byte)
  | uint8 (x : Byte)
  | float64 (b : Word)
  | str (s : List Byte)
  | bytes (s : List Byte)
  deriving DecidableEq, Repr

/-- theta/hashtable.go l.104-158: the first word of the hash, `none` for `UpdateString("")`
(theta/update_sketch.go l.354-356). -/
def thetaHash (seed : Word) : Arg → Outcome (Option Word)
  | .int64 x => do let h ← hashInt64s [x] 0 1 seed; .ok (some h.1)
  | .uint64 x => do let h ← hashInt64s [x] 0 1 seed; .ok (some h.1)
  | .uint32 x => do let h ← hashInt64s [x.setWidth 64] 0 1 seed; .ok (some h.1)
  | .int32 x => do let h ← hashInt32s [x] 0 1 seed; .ok (some h.1)
  | .uint16 x => do let h ← hashInt32s [x.setWidth 32] 0 1 seed; .ok (some h.1)
  | .int16 x => do let h ← hashInt32s [x.signExtend 32] 0 1 seed; .ok (some h.1)
  | .uint8 x => do let h ← hashInt32s [x.setWidth 32] 0 1 seed; .ok (some h.1)
  | .int8 x => do let h ← hashInt32s [x.signExtend 32] 0 1 seed; .ok (some h.1)
  | .float64 b => do let h ← hashInt64s [canonicalDouble b] 0 1 seed; .ok (some h.1)
  | .str s => if s = [] then .ok none else do let h ← hashChars s 0 s.length seed; .ok (some h.1)
  | .bytes s => do let h ← hashBytes s 0 s.length seed; .ok (some h.1)

/-- theta/update_sketch.go l.255-393: the update methods of a sketch built with `seed`. -/
def thetaUpdate (seed : Word) (t : Theta.Tbl) (a : Arg) : Outcome (Theta.Tbl × Theta.Status) := do
  match ← thetaHash seed a with
  | none => Theta.updateEmptyString t
  | some h => Theta.update t h.toNat

end Verif.Items
