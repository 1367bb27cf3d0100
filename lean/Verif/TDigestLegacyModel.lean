import Verif.TDigestSerdeModel

/-!
# Reading t-digests from a stream, formats of the reference implementation included

`Verif.TDigest.decodeR` models `DoubleDecoder.Decode` for the current format.  Here is the whole
function, with `decodeCompat` for the two formats of the reference implementation.  `decodeCompat`
may return a digest with a mean that is NaN, which a `Digest` of the model cannot hold, so the result
is a `Loaded`: the fields of the Go struct with means that are any float64.
-/

namespace Verif.TDigest

open Verif Outcome

variable {α : Type} [Field α] [LinearOrder α]

/-- tdigest/double.go l.102-111 `Double` (the fields), with means that need not be finite. -/
structure Loaded (α : Type) where
  rev : Bool
  k : Nat
  min : Fl α
  max : Fl α
  cap : Nat
  centroids : List (Fl α × Nat)
  cw : Nat
  buffer : List α

/-- A digest of the model as it is loaded: the same fields. -/
def Digest.loaded (d : Digest α) : Loaded α :=
  { rev := d.rev, k := d.k, min := d.min, max := d.max, cap := d.cap,
    centroids := d.centroids.map fun c => (.fin c.mean, c.weight), cw := d.cw, buffer := d.buffer }

/-- `binary.Read(r, binary.BigEndian, &x)` of a field of `k` bytes. -/
def beR (k : Nat) : Rd Nat := fun r =>
  if k ≤ r.length then .ok (fromLE (r.take k).reverse, r.drop k) else .err "unexpected EOF"

/-- double_decoder.go l.589-594 `validateInf`. -/
def notInfR (x : Fl α) (name : String) : Rd Unit :=
  match x with
  | .ninf => Rd.fail (name ++ ": Inf")
  | .pinf => Rd.fail (name ++ ": Inf")
  | _ => pure ()

/-- tdigest/double.go l.137-178 `newDoubleFromInternalStates` as called by `decodeCompat`. -/
def loadR (k : Nat) (mn mx : Fl α) (cs : List (Fl α × Nat)) : Rd (Loaded α) :=
  if k < 10 then Rd.fail "ErrInvalidK"
  else pure { rev := false, k := k, min := mn, max := mx, cap := capacityOf k, centroids := cs,
              cw := (cs.map Prod.snd).sum % 2 ^ 64, buffer := [] }

/-- double_decoder.go l.231-256: a centroid of `asBytes()`. -/
def compatDR (F : Codec α) : Rd (Fl α × Nat) :=
  beR 8 >>= fun wb =>
  if F.val wb = .fin 0 then Rd.fail "centroid weight: Zero" else
  beR 8 >>= fun mb =>
  notNaNR (F.val mb) "centroid mean" >>= fun _ =>
  notInfR (F.val mb) "centroid mean" >>= fun _ =>
  pure (F.val mb, F.toU64 (F.val wb))

/-- double_decoder.go l.297-321: a centroid of `asSmallBytes()`.  The test for NaN looks at the
    weight (l.315), not at the mean. -/
def compatFR (F : Codec α) : Rd (Fl α × Nat) :=
  beR 4 >>= fun wb =>
  if F.val32 wb = .fin 0 then Rd.fail "centroid weight: Zero" else
  beR 4 >>= fun mb =>
  notInfR (F.val32 mb) "centroid mean" >>= fun _ =>
  notNaNR (F.val32 wb) "centroid mean" >>= fun _ =>
  pure (F.val32 mb, F.toU64 (F.val32 wb))

/-- double_decoder.go l.197-325 `decodeCompat`: every type but 1 is read as the compact format. -/
def compatR (F : Codec α) : Rd (Loaded α) :=
  beR 1 >>= fun typeFlag =>
  beR 8 >>= fun mnb =>
  notNaNR (F.val mnb) "min" >>= fun _ =>
  beR 8 >>= fun mxb =>
  notNaNR (F.val mxb) "max" >>= fun _ =>
  if typeFlag = 1 then
    beR 8 >>= fun kb =>
    beR 4 >>= fun n =>
    Rd.times (compatDR F) n >>= fun cs =>
    loadR (F.toU16 (F.val kb)) (F.val mnb) (F.val mxb) cs
  else
    beR 4 >>= fun kb =>
    beR 4 >>= fun _ =>
    beR 2 >>= fun n =>
    Rd.times (compatFR F) n >>= fun cs =>
    loadR (F.toU16 (F.val32 kb)) (F.val mnb) (F.val mxb) cs

/-- double_decoder.go l.46-195 `Decode`. -/
def decodeStream (F : Codec α) : Rd (Loaded α) :=
  Rd.le 1 >>= fun pl =>
  Rd.le 1 >>= fun sv =>
  Rd.le 1 >>= fun ty =>
  if ty ≠ 20 then
    if pl = 0 ∧ sv = 0 ∧ ty = 0 then compatR F else Rd.fail "sketch type mismatch"
  else currentR F pl sv >>= fun d => pure d.loaded

end Verif.TDigest
