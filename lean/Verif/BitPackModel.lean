import Verif.Outcome

/-!
# Model of theta/bit_packing.go

Bytes and 64-bit words are naturals below 256 / 2^64.  A run-time panic (index out of range) is
`none`.
-/

namespace Verif.BitPack

/-- One statement of the straight-line packing functions:
`dst[d] = uintW(((src[s] >> r) & mask) << sh)` (`isAssign`) or the same with `|=`. -/
structure Stmt where
  isAssign : Bool
  d : Nat
  s : Nat
  r : Nat
  mask : Nat
  sh : Nat
  deriving DecidableEq, Repr

/-- value of the right-hand side, truncated to `w` bits -/
def Stmt.val (st : Stmt) (w x : Nat) : Nat := (((x >>> st.r) &&& st.mask) <<< st.sh) % 2 ^ w

/-- executing one statement -/
def Stmt.exec (st : Stmt) (w : Nat) (src dst : List Nat) : Option (List Nat) :=
  match src[st.s]?, dst[st.d]? with
  | some x, some y => some (dst.set st.d (if st.isAssign then st.val w x else y ||| st.val w x))
  | _, _ => none

/-- executing a straight-line function -/
def exec (w : Nat) (src : List Nat) : List Stmt → List Nat → Option (List Nat)
  | [], dst => some dst
  | st :: l, dst =>
    match st.exec w src dst with
    | none => none
    | some dst => exec w src l dst

/-- the loop of `packBits`, theta/bit_packing.go l.44-48 -/
def packLoop (value : Nat) : Nat → Nat → List Nat → Nat → Option (List Nat × Nat × Nat)
  | 0, _, _, _ => none
  | fuel + 1, bits, bytes, idx =>
    if bits ≥ 8 then
      if idx < bytes.length then
        packLoop value fuel (bits - 8) (bytes.set idx ((value >>> (bits - 8)) % 256)) (idx + 1)
      else none
    else some (bytes, idx, bits)

/-- end of `packBits` l.50-55 -/
def packTail (value bits : Nat) (bytes : List Nat) (idx : Nat) : Option (List Nat × Nat × Nat) :=
  if bits > 0 then
    if idx < bytes.length then
      some (bytes.set idx (((value <<< (8 - bits)) % 2 ^ 64) % 256), idx, bits)
    else none
  else some (bytes, idx, 0)

def packRest (value bits : Nat) (bytes : List Nat) (idx : Nat) : Option (List Nat × Nat × Nat) :=
  match packLoop value (bits + 1) bits bytes idx with
  | none => none
  | some (bytes, idx, bits) => packTail value bits bytes idx

/-- `packBits`, theta/bit_packing.go l.29-56; returns the buffer, the new byte index and the new bit offset -/
def packBits (value bits : Nat) (bytes : List Nat) (idx offset : Nat) :
    Option (List Nat × Nat × Nat) :=
  if offset > 0 then
    let chunk := 8 - offset
    let mask := 2 ^ chunk - 1
    match bytes[idx]? with
    | none => none
    | some y =>
      if bits < chunk then
        some (bytes.set idx (y ||| ((((value <<< (chunk - bits)) % 2 ^ 64) &&& mask) % 256)), idx,
          offset + bits)
      else
        packRest value (bits - chunk)
          (bytes.set idx (y ||| (((value >>> (bits - chunk)) &&& mask) % 256))) (idx + 1)
  else packRest value bits bytes idx

/-- the loop of `unpackBits`, theta/bit_packing.go l.76-81 (uint64 shifts) -/
def unpackLoop (bytes : List Nat) : Nat → Nat → Nat → Nat → Option (Nat × Nat × Nat)
  | 0, _, _, _ => none
  | fuel + 1, bits, value, idx =>
    if bits ≥ 8 then
      match bytes[idx]? with
      | none => none
      | some y => unpackLoop bytes fuel (bits - 8) (((value <<< 8) % 2 ^ 64) ||| y) (idx + 1)
    else some (value, idx, bits)

/-- `unpackBits`, theta/bit_packing.go l.64-90; returns the value, the new byte index and the new bit offset -/
def unpackBits (bits : Nat) (bytes : List Nat) (idx offset : Nat) : Option (Nat × Nat × Nat) :=
  let avail := 8 - offset
  let chunk := min avail bits
  let mask := 2 ^ chunk - 1
  match bytes[idx]? with
  | none => none
  | some y =>
    let value := (y >>> (avail - chunk)) &&& mask
    let idx := if avail = chunk then idx + 1 else idx
    let offset := (offset + chunk) % 8
    match unpackLoop bytes (bits + 1) (bits - chunk) value idx with
    | none => none
    | some (value, idx, bits) =>
      if bits > 0 then
        match bytes[idx]? with
        | none => none
        | some y => some (((value <<< bits) % 2 ^ 64) ||| (y >>> (8 - bits)), idx, bits)
      else some (value, idx, offset)

end Verif.BitPack
