import Verif.HllModel
import Verif.ReservoirModel
import Verif.Buf
import Verif.Ints

/-!
# HLL: serialization

`hll/to_slice_impl.go`, `hll/preamble_utils.go`, `hll/hll_sketch.go` (NewHllSketchFromSlice),
`hll/utils.go` (checkPreamble), `hll/coupon_list.go`, `hll/coupon_hash_set.go`,
`hll/hll_{4,6,8}array.go`, `hll/aux_hash_map.go` (the `deserialize…` functions), `hll/union.go`
(ToCompactSlice, ToUpdatableSlice, NewUnionFromSlice).

* The three float fields are written through arbitrary functions `Bits` (the model has no float64).
* The writes into a zeroed slice at fixed, ascending offsets are modelled by the concatenation of the
  fields.
* A slice has capacity equal to its length, allocation never fails.
* Images with `lgK > 60` in HLL mode, or with type bits `3` in LIST or SET mode, are outside the
  model (`.err "not modelled"`), and so are tables of `2^63` or more entries.
* `fromSlice` returns the contents of the sketch; that the register array of the result *is* a part of
  the argument slice is modelled separately (`sharedUpdate`).
-/

namespace Verif.Hll

open Probe

variable {H : Type}

/-- `math.Float64bits` and `math.Float64frombits` for the HIP accumulator and for the two KxQ
accumulators (integers in units of `2^-63`) -/
structure Bits (H : Type) where
  hipTo : H → Nat
  hipOf : Nat → H
  kTo : Int → Nat
  kOf : Nat → Int

/-- `TgtHllType` as a number, hll/utils.go l.92-94 -/
def Typ.id : Typ → Nat
  | .hll4 => 0
  | .hll6 => 1
  | .hll8 => 2

/-- hll/preamble_utils.go l.220-238, 252-260, 282-290: the flags byte (starting from zero) -/
def flagsOf (empty compact ooo rebuild : Bool) : Nat :=
  (if empty then 4 else 0) ||| (if compact then 8 else 0) ||| (if ooo then 16 else 0) |||
    (if rebuild then 32 else 0)

/-- hll/preamble_utils.go l.240-250 -/
def modeOf (cur : Nat) (typ : Typ) : Nat := (cur &&& 3) ||| ((typ.id <<< 2) &&& 12)

/-- the first eight bytes, hll/preamble_utils.go l.199-218 -/
def preamble (preInts lgK lgArr flags b6 mode : Nat) : List Nat :=
  toLE 1 (preInts &&& 63) ++ (toLE 1 1 ++ (toLE 1 7 ++ (toLE 1 lgK ++ (toLE 1 lgArr ++
    (toLE 1 flags ++ (toLE 1 b6 ++ toLE 1 mode))))))

/-- a sequence of 32-bit integers -/
def ints (l : List Nat) : List Nat := l.flatMap (toLE 4)

/-- the loops hll/to_slice_impl.go l.61-70 and l.83-86: `l` written into room for `n` integers -/
def intsIn (n : Nat) (l : List Nat) : Outcome (List Nat) :=
  if l.length ≤ n then .ok (ints l ++ List.replicate (4 * (n - l.length)) 0) else .panic

/-- the coupons in the image, hll/to_slice_impl.go l.57-70 and l.80-86 -/
def coupData (c : Coup) (compact : Bool) : Outcome (List Nat) :=
  if compact then intsIn c.count (c.arr.filter (fun e => decide (e ≠ 0))) else intsIn (2 ^ c.lg) c.arr

/-- hll/to_slice_impl.go l.49-106 `toCouponSlice`, `copyCommonListAndSet` -/
def coupSlice (isList : Bool) (c : Coup) (compact : Bool) : Outcome (List Nat) := do
  let d ← coupData c compact
  let flags := flagsOf (c.count == 0) compact false false
  if isList then .ok (preamble 2 c.lgK c.lg flags c.count (modeOf 0 c.typ) ++ d)
  else .ok (preamble 3 c.lgK c.lg flags 0 (modeOf 1 c.typ) ++ (toLE 4 c.count ++ d))

/-- the exception map in the image: `auxCount`, `lgArr`, the integers.  hll/to_slice_impl.go l.26-42
and l.137-168 `insertAux`; hll/aux_hash_map.go l.101-107 -/
def auxSlice (lgK : Nat) (o : Option Aux) (compact : Bool) : Outcome (Nat × Nat × List Nat) :=
  match o with
  | none =>
    if compact then .ok (0, 0, [])
    else match lgAuxTable[lgK]? with
      | none => .panic
      | some lg => .ok (0, 0, List.replicate (4 <<< lg) 0)
  | some m =>
    if compact then do
      let d ← intsIn m.count (m.arr.filter (fun e => decide (e ≠ 0)))
      if (m.arr.filter (fun e => decide (e ≠ 0))).length ≠ m.count then .err "corruption, should not happen"
      else .ok (m.count, m.lg, d)
    else if m.arr.length < 2 ^ m.lg then .panic
    else .ok (m.count, m.lg, ints (m.arr.take (2 ^ m.lg)))

/-- only HLL4 arrays have an exception map -/
def auxImage (a : Arr H) (compact : Bool) : Outcome (Nat × Nat × List Nat) :=
  match a.typ with
  | .hll4 => auxSlice a.lgK a.aux compact
  | _ => .ok (0, 0, [])

/-- hll/to_slice_impl.go l.25-47, 108-135 `toHllByteArr`, `insertHll`, `insertCommonHll`.  The place
`auxStart` of the exceptions follows the array. -/
def arrSlice (B : Bits H) (a : Arr H) (compact : Bool) : Outcome (List Nat) := do
  let x ← auxImage a compact
  .ok (preamble 10 a.lgK x.2.1 (flagsOf false compact a.ooo a.rebuild) a.curMin (modeOf 2 a.typ) ++
    (toLE 8 (B.hipTo a.hip) ++ (toLE 8 (B.kTo a.kxq0) ++ (toLE 8 (B.kTo a.kxq1) ++
    (toLE 4 (toU 4 a.num) ++ (toLE 4 x.1 ++ (a.bytes ++ x.2.2)))))))

/-- `ToCompactSlice` (`compact = true`) and `ToUpdatableSlice`: hll/hll_sketch.go l.291-297,
coupon_list.go l.54-60, coupon_hash_set.go l.54-60, hll_4array.go l.49-55; the 6- and 8-bit arrays
have one form only (hll_6array.go l.61-67, hll_8array.go l.58-64) -/
def Sk.toSlice (B : Bits H) (s : Sk H) (compact : Bool) : Outcome (List Nat) :=
  match s with
  | .list c => coupSlice true c compact
  | .set c => coupSlice false c compact
  | .hll a => arrSlice B a (compact && a.typ == .hll4)

/-- `GetUpdatableSerializationBytes`: hll/coupon_list.go l.50-52, coupon_hash_set.go l.50-52,
hll_4array.go l.57-66, hll_array.go l.125-127 -/
def Sk.updatableBytes (s : Sk H) : Outcome Nat :=
  match s with
  | .list c => .ok (8 + (4 <<< c.lg))
  | .set c => .ok (12 + (4 <<< c.lg))
  | .hll a =>
    match a.typ with
    | .hll4 =>
      match a.aux with
      | none =>
        match lgAuxTable[a.lgK]? with
        | none => .panic
        | some lg => .ok (40 + a.bytes.length + (4 <<< lg))
      | some m => .ok (40 + a.bytes.length + (4 <<< m.lg))
    | _ => .ok (40 + a.bytes.length)

/-! ## Reading -/

/-- byte `i` of the slice -/
def byteAt (data : List Nat) (i : Nat) : Outcome Nat := getLE data i 1

/-- hll/utils.go l.145-181 `checkPreamble`: the current mode -/
def checkPreamble (data : List Nat) : Outcome Nat :=
  if data.length = 0 then .err "preamble cannot be nil or empty"
  else do
    let p ← byteAt data 0
    let pre := p &&& 63
    if data.length < pre * 4 then .err "preamble length mismatch"
    else do
      let ver ← byteAt data 1
      let fam ← byteAt data 2
      let m ← byteAt data 7
      let mode := m &&& 3
      if fam ≠ 7 then .err "Invalid Family"
      else if ver ≠ 1 then .err "Invalid Serialization Version"
      else if pre ≠ 2 ∧ pre ≠ 3 ∧ pre ≠ 10 then .err "Invalid Preamble Ints"
      else if mode = 0 ∧ pre ≠ 2 then .err "Invalid Preamble Ints"
      else if mode = 1 ∧ pre ≠ 3 then .err "Invalid Preamble Ints"
      else if mode = 2 ∧ pre ≠ 10 then .err "Invalid Preamble Ints"
      else .ok mode

/-- `n` 32-bit integers from offset `o` -/
def readInts (data : List Nat) : Nat → Nat → Outcome (List Nat)
  | 0, _ => .ok []
  | n + 1, o => do
    let x ← getLE data o 4
    let xs ← readInts data n (o + 4)
    .ok (x :: xs)

/-- hll/preamble_utils.go l.108-111 for LIST and SET images -/
def couponTyp (data : List Nat) : Outcome Typ := do
  let m ← byteAt data 7
  match (m &&& 12) >>> 2 with
  | 0 => .ok .hll4
  | 1 => .ok .hll6
  | 2 => .ok .hll8
  | _ => .err "not modelled: type 3"

/-- hll/coupon_list.go l.184-201 `deserializeCouponList` (a count above 8 runs out of the array: the
loop panics there or, before, at the end of the slice) -/
def listOf (data : List Nat) : Outcome (Sk H) := do
  let lgK ← byteAt data 3
  let typ ← couponTyp data
  let n ← byteAt data 6
  let xs ← readInts data n 8
  if n ≤ 8 then .ok (.list ⟨lgK, typ, 3, n, xs ++ List.replicate (8 - n) 0⟩) else .panic

/-- internal/utils.go l.65-74 `CeilPowerOf2` (the float computation is exact for such arguments:
`math.Log2` of a power of two is exact, and below `2^30` the logarithms of other numbers are not
rounded to integers) -/
def ceilPow2 (n : Nat) : Nat := Reservoir.ceilPow2 n

/-- hll/preamble_utils.go l.166-184 `computeLgArr` for `mode ≠ LIST`; internal/utils.go l.76-81
`ExactLog2` of a power of two -/
def computeLgArr (mode count lgK : Nat) : Outcome Nat :=
  let p := ceilPow2 count
  let p := if 4 * count > 3 * p then p <<< 1 else p
  if mode = 1 then .ok (max 5 (Nat.log2 p))
  else match lgAuxTable[lgK]? with
    | none => .panic
    | some t => .ok (max t (Nat.log2 p))

/-- `couponUpdate` on a set whose returned state is discarded (hll/coupon_hash_set.go l.233): after a
promotion the receiver keeps the coupon in its full table -/
def setKeep (F : Fl H) (c : Coup) (cpn : Nat) : Outcome Coup := do
  match ← setUpdate F c cpn with
  | .set c => .ok c
  | _ =>
    match ← findCoupon c.arr c.lg cpn with
    | .empty i => .ok { c with arr := c.arr.set i cpn, count := c.count + 1 }
    | _ => .panic

/-- hll/coupon_hash_set.go l.224-230 -/
def setLg (mode lgArr count lgK : Nat) : Outcome Nat :=
  if lgArr < 5 then computeLgArr mode count lgK else .ok lgArr

/-- one step of the loop hll/coupon_hash_set.go l.232-234 -/
def setReadStep (F : Fl H) (data : List Nat) (offset : Nat) (c : Coup) (i : Nat) : Outcome Coup := do
  let x ← getLE data (offset + 4 * i) 4
  setKeep F c x

/-- hll/coupon_hash_set.go l.214-217 -/
def memArrStart (mode : Nat) : Nat := if mode = 1 then 12 else 8

/-- hll/coupon_hash_set.go l.209-248 `deserializeCouponHashSet` -/
def setOf (F : Fl H) (mode : Nat) (data : List Nat) : Outcome (Sk H) := do
  let lgK ← byteAt data 3
  let typ ← couponTyp data
  let set ← newSet lgK typ
  let fl ← byteAt data 5
  let count ← getLE data 8 4
  let lgArr ← byteAt data 4
  let lg ← setLg mode lgArr count lgK
  if fl &&& 8 > 0 then do
    let c ← (List.range count).foldlM (setReadStep F data (memArrStart mode)) set
    .ok (.set c)
  else if lg ≥ 63 then .err "not modelled"
  else do
    let arr ← readInts data (2 ^ lg) 12
    .ok (.set ⟨lgK, typ, lg, count, arr⟩)

/-- one step of the loops hll/aux_hash_map.go l.70-78 and l.81-92 -/
def auxReadStep (data : List Nat) (offset lgK : Nat) (compact : Bool) (m : Aux) (i : Nat) :
    Outcome Aux := do
  let p ← getLE data (offset + 4 * i) 4
  if compact = false ∧ p = 0 then .ok m
  else m.mustAdd (pairLow p &&& (2 ^ lgK - 1)) (pairVal p)

/-- hll/aux_hash_map.go l.51-95 `deserializeAuxHashMap` -/
def auxOf (data : List Nat) (offset lgK count : Nat) (compact : Bool) : Outcome Aux :=
  if compact then do
    let lg ← computeLgArr 2 count lgK
    (List.range count).foldlM (auxReadStep data offset lgK true) (newAux lg lgK)
  else do
    let lg ← byteAt data 4
    if lg ≥ 63 then .err "not modelled"
    else (List.range (2 ^ lg)).foldlM (auxReadStep data offset lgK false) (newAux lg lgK)

/-- hll/hll_4array.go l.113-119 -/
def auxPart (data : List Nat) (lgK count : Nat) (compact : Bool) : Outcome (Option Aux) :=
  if count > 0 then do
    let m ← auxOf data (40 + 2 ^ (lgK - 1)) lgK count compact
    .ok (some m)
  else .ok none

/-- hll/hll_array.go l.311-321 `extractCommonHll` on a new array.  `putOutOfOrder` runs first, so the
HIP accumulator it clears is then overwritten. -/
def commonOf (F : Fl H) (B : Bits H) (lgK : Nat) (typ : Typ) (data : List Nat) : Outcome (Arr H) := do
  let fl ← byteAt data 5
  let curMin ← byteAt data 6
  let hip ← getLE data 8 8
  let k0 ← getLE data 16 8
  let k1 ← getLE data 24 8
  let num ← getLE data 32 4
  let bytes ← slice data 40 (40 + arrBytes lgK typ)
  .ok { (newArr F lgK typ).putOoo F (fl &&& 16 > 0) with
    curMin := curMin, hip := B.hipOf hip, kxq0 := B.kOf k0, kxq1 := B.kOf k1, num := (num : Int),
    rebuild := fl &&& 32 > 0, bytes := bytes }

/-- hll/hll_4array.go l.109-121 -/
def withAux (data : List Nat) (lgK : Nat) (typ : Typ) (a : Arr H) : Outcome (Arr H) :=
  match typ with
  | .hll4 => do
    let n ← getLE data 36 4
    let fl ← byteAt data 5
    let x ← auxPart data lgK n (fl &&& 8 > 0)
    .ok { a with aux := x }
  | _ => .ok a

/-- `deserializeHll4`, `deserializeHll6`, `deserializeHll8`: hll/hll_4array.go l.104-122,
hll_6array.go l.86-91, hll_8array.go l.83-88 (`1 << (lgK - 1)` panics for `lgK = 0`) -/
def arrOf (F : Fl H) (B : Bits H) (typ : Typ) (data : List Nat) : Outcome (Arr H) := do
  let lgK ← byteAt data 3
  if lgK = 0 then .panic
  else if lgK > 60 then .err "not modelled"
  else do
    let a ← commonOf F B lgK typ data
    withAux data lgK typ a

/-- hll/hll_sketch.go l.189-208 -/
def hllOf (F : Fl H) (B : Bits H) (data : List Nat) (check : Bool) : Outcome (Sk H) := do
  let m ← byteAt data 7
  match (m &&& 12) >>> 2 with
  | 0 => do
    let a ← arrOf F B .hll4 data
    .ok (.hll a)
  | 1 => do
    let a ← arrOf F B .hll6 data
    .ok (.hll a)
  | _ => do
    let a ← arrOf F B .hll8 data
    if check then checkRebuild (.hll a) else .ok (.hll a)

/-- hll/hll_sketch.go l.181-222 `NewHllSketchFromSlice` -/
def fromSlice (F : Fl H) (B : Bits H) (data : List Nat) (check : Bool) : Outcome (Sk H) :=
  if data.length < 8 then .err "input array too small"
  else do
    let mode ← checkPreamble data
    if mode = 2 then hllOf F B data check
    else if mode = 0 then listOf data
    else setOf F mode data

/-- hll/union.go l.178-192 `ToCompactSlice`, `ToUpdatableSlice`; they also update the gadget -/
def Union.toSlice (B : Bits H) (u : Union H) (compact : Bool) : Outcome (Union H × List Nat) := do
  let g ← checkRebuild u.gadget
  let b ← g.toSlice B compact
  .ok ({ u with gadget := g }, b)

/-- hll/union.go l.110-125 `NewUnionFromSlice` -/
def unionFromSlice (F : Fl H) (B : Bits H) (data : List Nat) : Outcome (Union H) := do
  let lgK ← byteAt data 3
  if ¬ (4 ≤ lgK ∧ lgK ≤ 21) then .err "log K must be between 4 and 21, inclusive"
  else do
    let s ← fromSlice F B data false
    let u ← newUnion lgK
    u.updateSketch F s

/-! ## The slice stays in use

`extractCommonHll` does not copy: `a.hllByteArr = byteArr[40 : 40+len]` (hll/hll_array.go l.320).  All
updates of an array write in place (`putNibble`, `put6Bit`, `hllByteArr[i] = …`). -/

/-- the array `a` read from `data`, as it is when the slice holds `data` -/
def Arr.onSlice (a : Arr H) (data : List Nat) : Arr H :=
  { a with bytes := (data.drop 40).take (arrBytes a.lgK a.typ) }

/-- `couponUpdate` on an array read from the slice: the new contents of the slice and the array -/
def sharedUpdate (F : Fl H) (data : List Nat) (a : Arr H) (c : Nat) :
    Outcome (List Nat × Arr H) := do
  let a ← (a.onSlice data).couponUpdate F c
  .ok (data.take 40 ++ a.bytes ++ data.drop (40 + a.bytes.length), a)

end Verif.Hll
