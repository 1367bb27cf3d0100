import Verif.Outcome
import Verif.Probe

/-!
# Model of the HLL sketch (`/repo/hll`)

* Go `int` values that are coupons, slot numbers, table entries or register values are `Nat`
  (they never become negative in the code modelled); `numAtCurMin` is an `Int`.
* `[]byte` and `[]int` are `List Nat`; an access outside the slice is `Outcome.panic`, a returned
  `error` is `Outcome.err`, a failed pointer dereference is `Outcome.panic`.
* The `float64` registers `kxq0`, `kxq1` are modelled by integers in units of `2^-63`.  As long as
  they are sums of `2^-v` with `v < 32` (`kxq0`), `32 ≤ v ≤ 63` (`kxq1`) and at most `2^21` summands
  every intermediate value has at most 53 significant bits, so the float additions are exact.
  (After `checkRebuildCurMinNumKxQ` `kxq1` may hold values the float would round.)
* The HIP accumulator is an arbitrary type `H` with arbitrary step function (`Fl`), so no assumption
  on float arithmetic is made there.
* A returned error ends the modelled execution (in Go the sketch may be left half-updated).
-/

namespace Verif.Hll

open Probe

/-- `TgtHllType` (hll/utils.go l.92-94) -/
inductive Typ where
  | hll4 | hll6 | hll8
  deriving DecidableEq, Repr

/-- The float computations that are left abstract: `step lgK kxq0 kxq1 hip` is
`hip + 2^lgK / (kxq0 + kxq1)` (hll/hll_array.go l.270), `est n` is `getEstimate` of a coupon
list or set with `n` coupons (hll/coupon.go l.75-79). -/
structure Fl (H : Type) where
  zero : H
  step : Nat → Int → Int → H → H
  est : Nat → H

/-! ## Coupons and pairs -/

/-- `bits.LeadingZeros64` -/
def lz64 (x : Nat) : Nat := if x = 0 then 64 else 63 - Nat.log2 x

/-- hll/hll_sketch.go l.328-333 `coupon` -/
def coupon (hashLo hashHi : Nat) : Nat :=
  ((min (lz64 hashHi) 62 + 1) <<< 26) ||| (hashLo &&& (2 ^ 26 - 1))

/-- hll/utils.go l.117-119 `pair` -/
def pair (slotNo value : Nat) : Nat := (value <<< 26) ||| (slotNo &&& (2 ^ 26 - 1))

/-- hll/utils.go l.127-129 `getPairLow26` -/
def pairLow (p : Nat) : Nat := p &&& (2 ^ 26 - 1)

/-- hll/utils.go l.133-135 `getPairValue` -/
def pairVal (p : Nat) : Nat := p >>> 26

/-! ## The 4-bit and the 6-bit packed arrays -/

/-- hll/hll_array.go l.221-228 `getNibble` -/
def getNibble (bytes : List Nat) (slotNo : Nat) : Outcome Nat :=
  match bytes[slotNo >>> 1]? with
  | none => .panic
  | some b => .ok ((if slotNo &&& 1 > 0 then b >>> 4 else b) &&& 15)

/-- hll/hll_array.go l.231-239 `putNibble` (`value` is a byte: `value << 4` is truncated) -/
def putNibble (bytes : List Nat) (slotNo value : Nat) : Outcome (List Nat) :=
  match bytes[slotNo >>> 1]? with
  | none => .panic
  | some old =>
    if slotNo &&& 1 = 0 then .ok (bytes.set (slotNo >>> 1) ((old &&& 0xf0) ||| (value &&& 15)))
    else .ok (bytes.set (slotNo >>> 1) ((old &&& 15) ||| ((value <<< 4 % 256) &&& 0xf0)))

/-- internal/utils.go l.46-48 `GetShortLE` -/
def getShort (arr : List Nat) (o : Nat) : Outcome Nat :=
  match arr[o]?, arr[o + 1]? with
  | some b0, some b1 => .ok ((b0 &&& 255) ||| ((b1 &&& 255) <<< 8))
  | _, _ => .panic

/-- internal/utils.go l.51-54 `PutShortLE` -/
def putShort (arr : List Nat) (o v : Nat) : Outcome (List Nat) :=
  if o + 1 < arr.length then .ok ((arr.set o (v % 256)).set (o + 1) (v >>> 8 % 256)) else .panic

/-- hll/hll_6array.go l.122-127 `get6Bit` (`offsetBytes = 0` in all uses) -/
def get6Bit (arr : List Nat) (slotNo : Nat) : Outcome Nat := do
  let s ← getShort arr ((slotNo * 6) >>> 3)
  .ok ((s >>> ((slotNo * 6) &&& 7)) &&& 0x3F)

/-- hll/hll_6array.go l.129-137 `put6Bit`; `x & ^m` for a 16-bit `x` is `x &&& (0xFFFF ^^^ m)`
on the low 16 bits, which are all that `PutShortLE` stores. -/
def put6Bit (arr : List Nat) (slotNo newValue : Nat) : Outcome (List Nat) := do
  let shift := (slotNo * 6) &&& 7
  let byteIdx := (slotNo * 6) >>> 3
  let s ← getShort arr byteIdx
  let curMasked := s &&& (0xFFFF ^^^ (63 <<< shift))
  putShort arr byteIdx (curMasked ||| ((newValue &&& 0x3F) <<< shift))

/-! ## Auxiliary hash map (exceptions of the 4-bit array) -/

/-- hll/aux_hash_map.go l.26-31 -/
structure Aux where
  lgK : Nat
  lg : Nat
  count : Nat
  arr : List Nat
  deriving DecidableEq, Repr

/-- hll/utils.go l.101-105 `lgAuxArrInts` -/
def lgAuxTable : List Nat :=
  [0, 2, 2, 2, 2, 2, 2, 3, 3, 3, 4, 4, 5, 5, 6, 7, 8, 9, 10, 11, 12, 13, 14, 15, 16, 17, 18]

/-- hll/aux_hash_map.go l.41-48 `newAuxHashMap` -/
def newAux (lg lgK : Nat) : Aux := ⟨lgK, lg, 0, List.replicate (2 ^ lg) 0⟩

/-- hll/hll_array.go l.207-209 `getNewAuxHashMap` -/
def getNewAux (lgK : Nat) : Outcome Aux :=
  match lgAuxTable[lgK]? with
  | none => .panic
  | some lg => .ok (newAux lg lgK)

/-- the "create if nil" pattern of hll/hll_4update.go l.92-94, l.202-204 and hll_4array.go l.153-156 -/
def auxOrNew (lgK : Nat) : Option Aux → Outcome Aux
  | none => getNewAux lgK
  | some m => .ok m

/-- hll/aux_hash_map.go l.197-218 `findAuxHashMap` -/
def findAux (arr : List Nat) (lg lgK slotNo : Nat) : Outcome Res :=
  if lg ≥ lgK then .err "lgAuxArrInts >= lgConfigK"
  else
    match findLoop (fun e => e == 0) (fun e => e &&& (2 ^ lgK - 1) == slotNo)
      (fun p => (p + ((slotNo >>> lg) ||| 1)) &&& (2 ^ lg - 1)) (slotNo &&& (2 ^ lg - 1)) arr
      (2 ^ lg) (slotNo &&& (2 ^ lg - 1)) with
    | .full => .err "key not found and no empty slots"
    | .panic => .panic
    | .found i => .ok (.found i)
    | .empty i => .ok (.empty i)

/-- hll/aux_hash_map.go l.109-118 `mustFindValueFor` -/
def Aux.mustFind (m : Aux) (slotNo : Nat) : Outcome Nat := do
  match ← findAux m.arr m.lg m.lgK slotNo with
  | .found i => (Outcome.ofOption m.arr[i]?) >>= fun p => .ok (pairVal p)
  | _ => .err "SlotNo not found"

/-- hll/aux_hash_map.go l.120-131 `mustReplace` -/
def Aux.mustReplace (m : Aux) (slotNo value : Nat) : Outcome Aux := do
  match ← findAux m.arr m.lg m.lgK slotNo with
  | .found i => .ok { m with arr := m.arr.set i (pair slotNo value) }
  | _ => .err "pair not found"

/-- one step of the loop of hll/aux_hash_map.go l.179-188 -/
def growStep (lg lgK : Nat) (arr : List Nat) (fetched : Nat) : Outcome (List Nat) :=
  if fetched ≠ 0 then do
    match ← findAux arr lg lgK (fetched &&& (2 ^ lgK - 1)) with
    | .empty i => .ok (arr.set i fetched)
    | _ => .panic
  else .ok arr

/-- hll/aux_hash_map.go l.174-190 `growAuxSpace` -/
def Aux.grow (m : Aux) : Outcome Aux := do
  let arr ← m.arr.foldlM (growStep (m.lg + 1) m.lgK) (List.replicate (2 ^ (m.lg + 1)) 0)
  .ok { m with lg := m.lg + 1, arr := arr }

/-- hll/aux_hash_map.go l.136-149, 166-171 `mustAdd`, `checkGrow` -/
def Aux.mustAdd (m : Aux) (slotNo value : Nat) : Outcome Aux := do
  match ← findAux m.arr m.lg m.lgK slotNo with
  | .empty i =>
    let m := { m with arr := m.arr.set i (pair slotNo value), count := m.count + 1 }
    if 4 * m.count ≤ 3 * m.arr.length then .ok m else m.grow
  | _ => .err "found a slotNo that should not be there"

/-! ## Register arrays -/

/-- hll/hll_array.go l.52-66 `hllArrayImpl` (the fields `slotNoMask`, `auxStart` are functions of
`lgConfigK`) -/
structure Arr (H : Type) where
  lgK : Nat
  typ : Typ
  ooo : Bool
  rebuild : Bool
  curMin : Nat
  num : Int
  hip : H
  kxq0 : Int
  kxq1 : Int
  bytes : List Nat
  aux : Option Aux

variable {H : Type}

/-- number of bytes of the packed array: hll/hll_4array.go l.97, hll_6array.go l.79,
hll_8array.go l.76 -/
def arrBytes (lgK : Nat) : Typ → Nat
  | .hll4 => 2 ^ (lgK - 1)
  | .hll6 => ((2 ^ lgK * 3) >>> 2) + 1
  | .hll8 => 2 ^ lgK

/-- `newHll4Array`, `newHll6Array`, `newHll8Array` (hll/hll_4array.go l.88-101,
hll_6array.go l.70-83, hll_8array.go l.67-80) -/
def newArr (F : Fl H) (lgK : Nat) (typ : Typ) : Arr H :=
  { lgK := lgK, typ := typ, ooo := false, rebuild := false, curMin := 0, num := 2 ^ lgK,
    hip := F.zero, kxq0 := 2 ^ lgK * 2 ^ 63, kxq1 := 0,
    bytes := List.replicate (arrBytes lgK typ) 0, aux := none }

/-- internal/utils.go l.57-62 `InvPow2` in units of `2^-63`.  The Go function accepts exponents up
to 1023; exponents above 63 do not occur (six-bit values) and are out of the model. -/
def invPow2 (e : Nat) : Outcome Int := if e ≤ 63 then .ok (2 ^ (63 - e)) else .panic

/-- hll/hll_array.go l.263-308 `hipAndKxQIncrementalUpdate`, `incrementalUpdateKxQ` -/
def hipAndKxQ (F : Fl H) (a : Arr H) (oldValue newValue : Nat) : Outcome (Arr H) :=
  if oldValue ≥ newValue then .err "oldValue >= newValue"
  else do
    let a := { a with hip := F.step a.lgK a.kxq0 a.kxq1 a.hip }
    let vo ← invPow2 oldValue
    let a := if oldValue < 32 then { a with kxq0 := a.kxq0 - vo } else { a with kxq1 := a.kxq1 - vo }
    let vn ← invPow2 newValue
    .ok (if newValue < 32 then { a with kxq0 := a.kxq0 + vn } else { a with kxq1 := a.kxq1 + vn })

/-- one step of the loop hll/hll_4update.go l.145-162; state: bytes, numAtNewCurMin, numAuxTokens -/
def shiftStep (hasAux : Bool) (st : List Nat × Nat × Nat) (i : Nat) :
    Outcome (List Nat × Nat × Nat) := do
  let n ← getNibble st.1 i
  if n = 0 then .err "array slots cannot be 0 at this point"
  else if n < 15 then do
    let bytes ← putNibble st.1 i (n - 1)
    .ok (bytes, if n - 1 = 0 then st.2.1 + 1 else st.2.1, st.2.2)
  else if hasAux then .ok (st.1, st.2.1, st.2.2 + 1)
  else .err "auxHashMap cannot be nil at this point"

/-- one step of the loop hll/hll_4update.go l.179-210; state: bytes, newAuxMap, numAuxTokens -/
def shiftAuxStep (lgK newCurMin : Nat) (st : List Nat × Option Aux × Int) (p : Nat) :
    Outcome (List Nat × Option Aux × Int) :=
  if p = 0 then .ok st
  else do
    let slotNum := pairLow p &&& (2 ^ lgK - 1)
    let val := pairVal p
    if val < newCurMin then .err "newShiftedVal < 0"
    else do
      let n ← getNibble st.1 slotNum
      if n ≠ 15 then .err "Array slot != AUX_TOKEN"
      else if val - newCurMin < 15 then
        if val - newCurMin ≠ 14 then .err "newShiftedVal != 14"
        else do
          let bytes ← putNibble st.1 slotNum (val - newCurMin)
          .ok (bytes, st.2.1, st.2.2 - 1)
      else do
        let m ← auxOrNew lgK st.2.1
        let m ← m.mustAdd slotNum val
        .ok (st.1, some m, st.2.2)

/-- the walk over the old exception map, hll/hll_4update.go l.165-220 -/
def shiftAux (lgK newCurMin : Nat) (bytes : List Nat) (tokens : Nat) :
    Option Aux → Outcome (List Nat × Option Aux)
  | none => if tokens ≠ 0 then .err "numAuxTokens != 0" else .ok (bytes, none)
  | some old => do
    let st ← old.arr.foldlM (shiftAuxStep lgK newCurMin) (bytes, none, (tokens : Int))
    match st.2.1 with
    | none => .ok (st.1, none)
    | some m =>
      if (m.count : Int) ≠ st.2.2 then .err "newAuxMap.getAuxCount() != numAuxTokens"
      else .ok (st.1, some m)

/-- hll/hll_4update.go l.128-225 `shiftToBiggerCurMin` -/
def shiftToBigger (a : Arr H) : Outcome (Arr H) := do
  let st ← (List.range (2 ^ a.lgK)).foldlM (shiftStep a.aux.isSome) (a.bytes, 0, 0)
  let r ← shiftAux a.lgK (a.curMin + 1) st.1 st.2.2 a.aux
  .ok { a with bytes := r.1, aux := r.2, curMin := a.curMin + 1, num := st.2.1 }

/-- the loop hll/hll_4update.go l.110-117; the fuel bound is never reached (`shiftWhile_spec`) -/
def shiftWhile : Nat → Arr H → Outcome (Arr H)
  | 0, _ => .panic
  | fuel + 1, a => if a.num = 0 then shiftToBigger a >>= shiftWhile fuel else .ok a

/-- hll/hll_4update.go l.105-119 -/
def hll4Finish (a : Arr H) (actualOld curMin : Nat) : Outcome (Arr H) :=
  if actualOld = curMin then
    if a.num < 1 then .err "h.numAtCurMin < 1"
    else shiftWhile 100 { a with num := a.num - 1 }
  else .ok a

/-- hll/hll_4update.go l.56-79: the old value is an exception -/
def hll4UpdateAux (F : Fl H) (a : Arr H) (slotNo newValue : Nat) : Outcome (Arr H) :=
  match a.aux with
  | none => .err "auxHashMap must already exist"
  | some m => do
    let old ← m.mustFind slotNo
    if newValue ≤ old then .ok a
    else do
      let a1 ← hipAndKxQ F a old newValue
      if newValue < a.curMin then .err "shiftedNewValue < 0"
      else if newValue - a.curMin ≥ 15 then do
        let m ← m.mustReplace slotNo newValue
        hll4Finish { a1 with aux := some m } old a.curMin
      else hll4Finish a1 old a.curMin

/-- hll/hll_4update.go l.79-102: the old value is stored in the nibble -/
def hll4UpdateNib (F : Fl H) (a : Arr H) (slotNo newValue old : Nat) : Outcome (Arr H) := do
  let a1 ← hipAndKxQ F a old newValue
  if newValue < a.curMin then .err "shiftedNewValue < 0"
  else if newValue - a.curMin ≥ 15 then do
    let bytes ← putNibble a1.bytes slotNo 15
    let m ← auxOrNew a1.lgK a1.aux
    let m ← m.mustAdd slotNo newValue
    hll4Finish { a1 with bytes := bytes, aux := some m } old a.curMin
  else do
    let bytes ← putNibble a1.bytes slotNo (newValue - a.curMin)
    hll4Finish { a1 with bytes := bytes } old a.curMin

/-- hll/hll_4update.go l.25-120 `internalHll4Update` -/
def hll4Update (F : Fl H) (a : Arr H) (slotNo newValue : Nat) : Outcome (Arr H) := do
  let raw ← getNibble a.bytes slotNo
  if newValue ≤ raw + a.curMin then .ok a
  else if raw = 15 then hll4UpdateAux F a slotNo newValue
  else hll4UpdateNib F a slotNo newValue (raw + a.curMin)

/-- the tail shared by hll/hll_6array.go l.104-113 and hll_8array.go l.130-139 -/
def kxqTail (F : Fl H) (a : Arr H) (oldValue newValue : Nat) : Outcome (Arr H) := do
  let a ← hipAndKxQ F a oldValue newValue
  if oldValue = 0 then
    if a.num - 1 < 0 then .err "numAtCurMin < 0" else .ok { a with num := a.num - 1 }
  else .ok a

/-- hll/hll_6array.go l.100-116 `updateSlotWithKxQ` -/
def hll6Update (F : Fl H) (a : Arr H) (slotNo newValue : Nat) : Outcome (Arr H) := do
  let old ← get6Bit a.bytes slotNo
  if newValue > old then do
    let bytes ← put6Bit a.bytes slotNo newValue
    kxqTail F { a with bytes := bytes } old newValue
  else .ok a

/-- hll/hll_8array.go l.126-142 `updateSlotWithKxQ` -/
def hll8Update (F : Fl H) (a : Arr H) (slotNo newValue : Nat) : Outcome (Arr H) := do
  let b ← Outcome.ofOption a.bytes[slotNo]?
  let old := b &&& 63
  if newValue > old then
    kxqTail F { a with bytes := a.bytes.set slotNo (newValue &&& 63) } old newValue
  else .ok a

/-- `couponUpdate` of the three arrays: hll/hll_4array.go l.173-178, hll_6array.go l.93-98,
hll_8array.go l.119-124 -/
def Arr.couponUpdate (F : Fl H) (a : Arr H) (c : Nat) : Outcome (Arr H) :=
  let newValue := c >>> 26
  let slotNo := c &&& (2 ^ a.lgK - 1)
  match a.typ with
  | .hll4 => hll4Update F a slotNo newValue
  | .hll6 => hll6Update F a slotNo newValue
  | .hll8 => hll8Update F a slotNo newValue

/-- The value an iterator (`nextAll`/`getValue`) or `getSlotValue` yields at index `i`:
hll/hll_4array.go l.29-37 and l.209-211 (nil map: dereference panics), hll_6array.go l.198-202
(`bitOffset = 6 * i`), hll_8array.go l.171-173 -/
def Arr.value (a : Arr H) (i : Nat) : Outcome Nat :=
  match a.typ with
  | .hll4 => do
    let n ← getNibble a.bytes i
    if n = 15 then
      match a.aux with
      | none => .panic
      | some m => m.mustFind i
    else .ok (n + a.curMin)
  | .hll6 => do
    let s ← getShort a.bytes (6 * i / 8)
    .ok ((s >>> ((6 * i % 8) &&& 7)) &&& 63)
  | .hll8 => do
    let b ← Outcome.ofOption a.bytes[i]?
    .ok (b &&& 63)

/-- hll/hll_array.go l.169-174 `putOutOfOrder` -/
def Arr.putOoo (F : Fl H) (a : Arr H) (b : Bool) : Arr H :=
  { a with hip := if b then F.zero else a.hip, ooo := b }

/-! ## Conversions between the array types -/

/-- one step of the loops hll/hll_6array.go l.145-161 and hll_8array.go l.96-112; state: target
array and `numZeros` -/
def convStep (F : Fl H) (src : Arr H) (st : Arr H × Int) (i : Nat) : Outcome (Arr H × Int) := do
  let v ← src.value i
  if v ≠ 0 then do
    let t ← st.1.couponUpdate F (pair i v)
    .ok (t, st.2 - 1)
  else .ok st

/-- hll/hll_6array.go l.139-166 `convertToHll6` and hll_8array.go l.90-117 `convertToHll8` -/
def convert68 (F : Fl H) (typ : Typ) (src : Arr H) : Outcome (Arr H) := do
  let st ← (List.range (2 ^ src.lgK)).foldlM (convStep F src)
    ((newArr F src.lgK typ).putOoo F src.ooo, (2 ^ src.lgK : Int))
  .ok { st.1 with num := st.2, hip := src.hip, rebuild := false }

/-- one step of the loop hll/hll_4array.go l.184-198; state `(curMin, numAtCurMin)` -/
def minStep (src : Arr H) (st : Nat × Nat) (i : Nat) : Outcome (Nat × Nat) := do
  let v ← src.value i
  if v > st.1 then .ok st
  else if v < st.1 then .ok (v, 1)
  else .ok (st.1, st.2 + 1)

/-- hll/hll_4array.go l.180-200 `curMinAndNum` -/
def curMinAndNum (src : Arr H) : Outcome Nat := do
  let st ← (List.range (2 ^ src.lgK)).foldlM (minStep src) (64, 0)
  .ok (pair st.2 st.1)

/-- one step of the loop hll/hll_4array.go l.141-164.  `nextValid` skips the zero registers; it
yields the same values as `getValue` (hll_6array.go l.185-196, hll_8array.go l.160-169). -/
def conv4Step (F : Fl H) (src : Arr H) (curMin : Nat) (t : Arr H) (i : Nat) : Outcome (Arr H) := do
  let v ← src.value i
  if v = 0 then .ok t
  else do
    let t ← hipAndKxQ F t 0 v
    if v ≥ curMin + 15 then do
      let bytes ← putNibble t.bytes i 15
      let m ← auxOrNew t.lgK t.aux
      let m ← m.mustAdd i v
      .ok { t with bytes := bytes, aux := some m }
    else do
      let bytes ← putNibble t.bytes i (v - curMin)
      .ok { t with bytes := bytes }

/-- hll/hll_4array.go l.124-170 `convertToHll4` (only called on HLL6 and HLL8 arrays; the HLL4
iterator has no `nextValid`) -/
def convert4 (F : Fl H) (src : Arr H) : Outcome (Arr H) := do
  let p ← curMinAndNum src
  let t ← (List.range (2 ^ src.lgK)).foldlM (conv4Step F src (pairVal p))
    ((newArr F src.lgK .hll4).putOoo F src.ooo)
  .ok { t with curMin := pairVal p, num := pairLow p, hip := src.hip, rebuild := false }

/-- `copyAs`: hll/hll_4array.go l.68-79, hll_6array.go l.42-53, hll_8array.go l.39-50; the same type
is a plain copy (hll_array.go l.245-255) -/
def Arr.copyAs (F : Fl H) (a : Arr H) (typ : Typ) : Outcome (Arr H) :=
  if typ = a.typ then .ok a
  else match typ with
    | .hll4 => convert4 F a
    | .hll6 => convert68 F .hll6 a
    | .hll8 => convert68 F .hll8 a

/-! ## Coupon list and coupon hash set -/

/-- hll/coupon.go l.28-32 with the configuration (`hll_config.go`) -/
structure Coup where
  lgK : Nat
  typ : Typ
  lg : Nat
  count : Nat
  arr : List Nat
  deriving DecidableEq, Repr

/-- The state of a sketch: the dynamic type of `hllSketchState.sketch` (hll/hll_sketch.go l.141) -/
inductive Sk (H : Type) where
  | list (c : Coup)
  | set (c : Coup)
  | hll (a : Arr H)

/-- hll/coupon_list.go l.163-181 `newCouponList` in LIST mode -/
def newList (lgK : Nat) (typ : Typ) : Coup := ⟨lgK, typ, 3, 0, List.replicate (2 ^ 3) 0⟩

/-- hll/coupon_hash_set.go l.197-206 `newCouponHashSet` -/
def newSet (lgK : Nat) (typ : Typ) : Outcome Coup :=
  if lgK ≤ 7 then .err "lgConfigK must be > 7 for SET mode"
  else .ok ⟨lgK, typ, 5, 0, List.replicate (2 ^ 5) 0⟩

/-- `NewHllSketch` (hll/hll_sketch.go l.160-171, utils.go l.109-114) -/
def newSketch (lgK : Nat) (typ : Typ) : Outcome (Sk H) :=
  if 4 ≤ lgK ∧ lgK ≤ 21 then .ok (.list (newList lgK typ))
  else .err "log K must be between 4 and 21, inclusive"

/-- hll/coupon_hash_set.go l.176-192 `findCoupon` -/
def findCoupon (arr : List Nat) (lg c : Nat) : Outcome Res :=
  match findLoop (fun e => e == 0) (fun e => e == c)
    (fun p => (p + (((c &&& (2 ^ 26 - 1)) >>> lg) ||| 1)) &&& (arr.length - 1))
    (c &&& (arr.length - 1)) arr arr.length (c &&& (arr.length - 1)) with
  | .full => .err "key not found and no empty slots"
  | .panic => .panic
  | .found i => .ok (.found i)
  | .empty i => .ok (.empty i)

/-- one step of the loop hll/coupon_hash_set.go l.130-142 -/
def growSetStep (lg : Nat) (arr : List Nat) (fetched : Nat) : Outcome (List Nat) :=
  if fetched ≠ 0 then do
    match ← findCoupon arr lg fetched with
    | .empty i => .ok (arr.set i fetched)
    | _ => .err "growHashSet, found duplicate"
  else .ok arr

/-- hll/coupon_hash_set.go l.128-144 `growHashSet` -/
def growSet (arr : List Nat) (lg : Nat) : Outcome (List Nat) :=
  arr.foldlM (growSetStep lg) (List.replicate (2 ^ lg) 0)

/-- the loops hll/coupon_list.go l.125-134 and coupon_hash_set.go l.152-161 -/
def promoteStep (F : Fl H) (a : Arr H) (p : Nat) : Outcome (Arr H) :=
  if p ≠ 0 then a.couponUpdate F p else .ok a

/-- `promoteListToHll`, `promoteSetToHll` (hll/coupon_list.go l.120-142, coupon_hash_set.go
l.147-169) -/
def promoteToHll (F : Fl H) (c : Coup) : Outcome (Arr H) := do
  let t := { newArr F c.lgK c.typ with kxq0 := 2 ^ c.lgK * 2 ^ 63 }
  let a ← c.arr.foldlM (promoteStep F) t
  .ok (({ a with hip := F.est c.count }).putOoo F false)

/-- hll/coupon_hash_set.go l.63-81, 114-125 `couponUpdate`, `checkGrowOrPromote` -/
def setUpdate (F : Fl H) (c : Coup) (cpn : Nat) : Outcome (Sk H) := do
  match ← findCoupon c.arr c.lg cpn with
  | .empty i =>
    let c := { c with arr := c.arr.set i cpn, count := c.count + 1 }
    if 4 * c.count ≤ 3 * 2 ^ c.lg then .ok (.set c)
    else if c.lg + 3 = c.lgK then do
      let a ← promoteToHll F c
      .ok (.hll a)
    else do
      let arr ← growSet c.arr (c.lg + 1)
      .ok (.set { c with lg := c.lg + 1, arr := arr })
  | _ => .ok (.set c)

/-- `couponUpdate` on a set whose returned state is discarded (hll/coupon_list.go l.153); after a
promotion the receiver would keep the coupon but that does not occur there, see
`promoteListToSet` -/
def setUpdateKeep (F : Fl H) (c : Coup) (cpn : Nat) : Outcome Coup := do
  match ← setUpdate F c cpn with
  | .set c => .ok c
  | _ => .panic

/-- hll/coupon_list.go l.145-160 `promoteListToSet` (the first `couponCount` cells) -/
def promoteToSet (F : Fl H) (c : Coup) : Outcome Coup := do
  let s ← newSet c.lgK c.typ
  (c.arr.take c.count).foldlM (setUpdateKeep F) s

/-- hll/coupon_list.go l.64-86 `couponUpdate`; `i` is the loop index -/
def listLoop (F : Fl H) (c : Coup) (cpn : Nat) : Nat → Nat → Outcome (Sk H)
  | 0, _ => .err "array invalid: no empties & no duplicates"
  | n + 1, i => do
    let e ← Outcome.ofOption c.arr[i]?
    if e = 0 then
      let c := { c with arr := c.arr.set i cpn, count := c.count + 1 }
      if c.count ≥ 2 ^ c.lg then
        if c.lgK < 8 then do
          let a ← promoteToHll F c
          .ok (.hll a)
        else do
          let s ← promoteToSet F c
          .ok (.set s)
      else .ok (.list c)
    else if e = cpn then .ok (.list c)
    else listLoop F c cpn n (i + 1)

/-- hll/coupon_list.go l.64 -/
def listUpdate (F : Fl H) (c : Coup) (cpn : Nat) : Outcome (Sk H) := listLoop F c cpn (2 ^ c.lg) 0

/-- `hllSketchStateI.couponUpdate` -/
def Sk.couponUpdate (F : Fl H) (s : Sk H) (cpn : Nat) : Outcome (Sk H) :=
  match s with
  | .list c => listUpdate F c cpn
  | .set c => setUpdate F c cpn
  | .hll a => do
    let a ← a.couponUpdate F cpn
    .ok (.hll a)

/-- hll/hll_sketch.go l.335-342 `couponUpdate` of the sketch -/
def Sk.update (F : Fl H) (s : Sk H) (cpn : Nat) : Outcome (Sk H) :=
  if cpn >>> 26 = 0 then .ok s else s.couponUpdate F cpn

/-- `UpdateUInt64`, `UpdateSlice` and so on (hll/hll_sketch.go l.264-285) for an item with the
128-bit hash `(lo, hi)` -/
def Sk.updateHash (F : Fl H) (s : Sk H) (h : Nat × Nat) : Outcome (Sk H) :=
  s.update F (coupon h.1 h.2)

/-- `CopyAs` (hll/hll_sketch.go l.232; coupon_list.go l.101, coupon_hash_set.go l.95) -/
def Sk.copyAs (F : Fl H) (s : Sk H) (typ : Typ) : Outcome (Sk H) :=
  match s with
  | .list c => .ok (.list { c with typ := typ })
  | .set c => .ok (.set { c with typ := typ })
  | .hll a => do
    let a ← a.copyAs F typ
    .ok (.hll a)

def Sk.lgK : Sk H → Nat
  | .list c => c.lgK
  | .set c => c.lgK
  | .hll a => a.lgK

def Sk.typ : Sk H → Typ
  | .list c => c.typ
  | .set c => c.typ
  | .hll a => a.typ

/-- `IsEmpty` (hll/coupon.go l.34, hll_array.go l.85) -/
def Sk.isEmpty : Sk H → Bool
  | .list c => c.count == 0
  | .set c => c.count == 0
  | .hll _ => false

/-- `Reset` (hll/hll_sketch.go l.311-322) -/
def Sk.reset (s : Sk H) : Outcome (Sk H) := newSketch s.lgK s.typ

/-! ## Union -/

/-- hll/union.go l.57-60 -/
structure Union (H : Type) where
  lgMaxK : Nat
  gadget : Sk H

/-- hll/union.go l.99-108 `NewUnion` -/
def newUnion (lgMaxK : Nat) : Outcome (Union H) := do
  let s ← newSketch lgMaxK .hll8
  .ok ⟨lgMaxK, s⟩

/-- hll/coupon.go l.103-119 `mergeCouponTo` (calls the state's `couponUpdate` directly) -/
def mergeCoupons (F : Fl H) (src : List Nat) (dest : Sk H) : Outcome (Sk H) :=
  src.foldlM (fun d p => if p ≠ 0 then d.couponUpdate F p else .ok d) dest

/-- hll/hll_8array.go l.144-147 `updateSlotNoKxQ` (`byte(max(..))`) -/
def updNoKxQ (bytes : List Nat) (slotNo newValue : Nat) : Outcome (List Nat) := do
  let b ← Outcome.ofOption bytes[slotNo]?
  .ok (bytes.set slotNo (max newValue (b &&& 63) % 256))

/-- one step of the loop hll/union.go l.382-386 -/
def merge8Step (src : List Nat) (tgt : List Nat) (i : Nat) : Outcome (List Nat) := do
  let sv ← Outcome.ofOption src[i]?
  let tv ← Outcome.ofOption tgt[i]?
  if sv > tv then .ok (tgt.set i sv) else .ok tgt

/-- the lookup in hll/union.go l.400-409 and l.411-420 -/
def merge4Val (src : Arr H) (value j : Nat) : Outcome Nat :=
  if value = 15 then
    match src.aux with
    | none => .panic
    | some m => m.mustFind j
  else .ok (value + src.curMin)

/-- one iteration of the loop hll/union.go l.397-422 (byte `i`, slots `2i` and `2i+1`) -/
def merge4Step (src : Arr H) (tgt : List Nat) (i : Nat) : Outcome (List Nat) := do
  let b ← Outcome.ofOption src.bytes[i]?
  let v ← merge4Val src (b &&& 15) (2 * i)
  let tgt ← updNoKxQ tgt (2 * i) v
  let v ← merge4Val src (b >>> 4) (2 * i + 1)
  updNoKxQ tgt (2 * i + 1) v

/-- one iteration of the loop hll/union.go l.427-446 (bytes `3g..3g+2`, slots `4g..4g+3`) -/
def merge6Step (src : List Nat) (tgt : List Nat) (g : Nat) : Outcome (List Nat) := do
  let b1 ← Outcome.ofOption src[3 * g]?
  let b2 ← Outcome.ofOption src[3 * g + 1]?
  let b3 ← Outcome.ofOption src[3 * g + 2]?
  let tgt ← updNoKxQ tgt (4 * g) (b1 &&& 0x3f)
  let tgt ← updNoKxQ tgt (4 * g + 1) ((b1 >>> 6) ||| ((b2 &&& 0x0f) <<< 2))
  let tgt ← updNoKxQ tgt (4 * g + 2) ((b2 >>> 4) ||| ((b3 &&& 3) <<< 4))
  updNoKxQ tgt (4 * g + 3) (b3 >>> 2)

/-- the three loops of hll/union.go l.375-448; those for HLL4 and HLL6 run while `j < srcK`, in steps
of two or four slots -/
def mergeBytes (src : Arr H) (tgt : List Nat) : Outcome (List Nat) :=
  match src.typ with
  | .hll8 =>
    if src.bytes.length = 0 ∨ tgt.length < src.bytes.length then .panic
    else (List.range src.bytes.length).foldlM (merge8Step src.bytes) tgt
  | .hll4 => (List.range (2 ^ src.lgK / 2)).foldlM (merge4Step src) tgt
  | .hll6 => (List.range (2 ^ src.lgK / 4)).foldlM (merge6Step src.bytes) tgt

/-- hll/union.go l.365-455 `mergeHlltoHLLmode` -/
def mergeHll (src tgt : Arr H) : Outcome (Arr H) :=
  if src.lgK > tgt.lgK then .err "not implemented"
  else if tgt.typ ≠ .hll8 then .panic
  else do
    let bytes ← mergeBytes src tgt.bytes
    .ok { tgt with bytes := bytes, rebuild := true }

/-- hll/union.go l.231-307: the source is in HLL mode.  `bit3` is never set (l.244-246 assign 0). -/
def unionHll (F : Fl H) (u : Union H) (src : Arr H) : Outcome (Sk H) :=
  let bits12 := if u.gadget.isEmpty then 6
    else match u.gadget with
      | .list _ => 0
      | .set _ => 2
      | .hll _ => 4
  let bit4 := if src.lgK > u.lgMaxK then 16 else 0
  match bit4 + bits12 with
  | 0 | 2 => do
    let s8 ← src.copyAs F .hll8
    match u.gadget with
    | .list c => mergeCoupons F c.arr (.hll s8)
    | .set c => mergeCoupons F c.arr (.hll s8)
    | .hll _ => .err "possible Corruption, improper access"
  | 16 | 18 => .err "not implemented cas 16,18"
  | 4 | 20 =>
    match u.gadget with
    | .hll g => do
      let g ← mergeHll src g
      .ok (.hll (g.putOoo F true))
    | _ => .panic
  | 6 => do
    let s8 ← src.copyAs F .hll8
    .ok (.hll s8)
  | 22 => .err "not implemented"
  | _ => .err "impossible"

/-- hll/union.go l.151-158, 200-308 `UpdateSketch`, `unionImpl` (a nil source is like an empty one) -/
def Union.updateSketch (F : Fl H) (u : Union H) (src : Sk H) : Outcome (Union H) :=
  if u.gadget.typ ≠ .hll8 then .err "gadget must be HLL_8"
  else if src.isEmpty then .ok u
  else match src with
    | .list c => do
      let g ← mergeCoupons F c.arr u.gadget
      .ok { u with gadget := g }
    | .set c =>
      if u.gadget.isEmpty ∧ c.lgK = u.gadget.lgK then
        .ok { u with gadget := .set { c with typ := .hll8 } }
      else do
        let g ← mergeCoupons F c.arr u.gadget
        .ok { u with gadget := g }
    | .hll a => do
      let g ← unionHll F u a
      .ok { u with gadget := g }

/-- `UpdateUInt64` and so on of the union (hll/union.go l.135-149) -/
def Union.updateHash (F : Fl H) (u : Union H) (h : Nat × Nat) : Outcome (Union H) := do
  let g ← u.gadget.updateHash F h
  .ok { u with gadget := g }

/-- one step of the loop hll/union.go l.325-354; state `(kxq0, kxq1, curMin, numAtCurMin)` -/
def rebuildStep (a : Arr H) (st : Int × Int × Nat × Nat) (i : Nat) :
    Outcome (Int × Int × Nat × Nat) := do
  let v ← a.value i
  let inv ← invPow2 v
  let k0 := if v > 0 ∧ v < 32 then st.1 + (inv - 2 ^ 63) else st.1
  let k1 := if v > 0 ∧ ¬ v < 32 then st.2.1 + (inv - 2 ^ 63) else st.2.1
  if v > st.2.2.1 then .ok (k0, k1, st.2.2.1, st.2.2.2)
  else if v < st.2.2.1 then .ok (k0, k1, v, 1)
  else .ok (k0, k1, st.2.2.1, st.2.2.2 + 1)

/-- hll/union.go l.310-363 `checkRebuildCurMinNumKxQ` -/
def checkRebuild (s : Sk H) : Outcome (Sk H) :=
  match s with
  | .hll a =>
    if a.rebuild = true ∧ a.typ = .hll8 then do
      let st ← (List.range (2 ^ a.lgK)).foldlM (rebuildStep a) (2 ^ a.lgK * 2 ^ 63, 0, 64, 0)
      .ok (.hll { a with kxq0 := st.1, kxq1 := st.2.1, curMin := st.2.2.1, num := st.2.2.2,
                         rebuild := false })
    else .ok s
  | s => .ok s

/-- hll/union.go l.87-93 `GetResult`; it also updates the gadget -/
def Union.getResult (F : Fl H) (u : Union H) (typ : Typ) : Outcome (Union H × Sk H) := do
  let g ← checkRebuild u.gadget
  let r ← g.copyAs F typ
  .ok ({ u with gadget := g }, r)

end Verif.Hll
