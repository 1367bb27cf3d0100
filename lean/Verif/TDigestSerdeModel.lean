import Verif.TDigestModel
import Verif.Writer
import Verif.ByteReader

/-!
# Model of the t-digest encoders and decoders
(`/repo/tdigest/double_encoder.go`, `/repo/tdigest/double_decoder.go`)

The bit patterns of float64 values are a parameter `Codec`: `bits` is `math.Float64bits`, `val` is
`math.Float64frombits`.  Nothing is assumed of it here.  Bytes are natural numbers.
-/

namespace Verif.TDigest

/-- `math.Float64bits` and `math.Float64frombits`; the compatibility formats also use the float32
    conversions and the truncations of floats to integers. -/
structure Codec (α : Type) where
  bits : Fl α → Nat
  val : Nat → Fl α
  /-- `float64(math.Float32frombits(b))` -/
  val32 : Nat → Fl α
  /-- `uint16(f)` -/
  toU16 : Fl α → Nat
  /-- `uint64(f)` -/
  toU64 : Fl α → Nat

variable {α : Type} [Field α] [LinearOrder α]

/-- tdigest/double.go l.559-561 `isSingleValue`. -/
def Digest.isSingle (d : Digest α) : Bool := d.totalWeight = 1

/-- tdigest/double.go l.552-557 `preambleLongs`. -/
def Digest.preambleLongs (d : Digest α) : Nat := if d.isEmpty || d.isSingle then 1 else 2

/-- tdigest/double.go l.488-501: the size computed by `SerializedSizeBytes` (after the compression
    of l.484-486). -/
def sizeOf (d : Digest α) (withBuffer : Bool) : Nat :=
  let size := d.preambleLongs * 8
  if d.isEmpty then size
  else if d.isSingle then size + 8
  else size + 16 + 16 * d.centroids.length + (if withBuffer then 8 * d.buffer.length else 0)

/-- tdigest/double.go l.483-502 `SerializedSizeBytes`. -/
def serializedSizeBytes (ln : α → α) (d : Digest α) (withBuffer : Bool) :
    Outcome (Digest α × Nat) :=
  (if withBuffer then .ok d else compress ln d) >>= fun d => .ok (d, sizeOf d withBuffer)

/-- double_encoder.go l.153-162 (l.64-73): the flags byte. -/
def flagsOf (d : Digest α) : Nat :=
  (if d.isEmpty then 1 else 0) + (if d.isSingle then 2 else 0) + (if d.rev then 4 else 0)

/-- One centroid: double_encoder.go l.191-196 (l.111-119). -/
def cenBytes (F : Codec α) (c : Cen α) : List Nat := toLE 8 (F.bits (.fin c.mean)) ++ toLE 8 c.weight

/-- double_encoder.go l.43-130 `Encode`, after the compression of l.44-46: the bytes written to the
    stream, field after field. -/
def streamBytes (F : Codec α) (d : Digest α) : List Nat :=
  toLE 1 d.preambleLongs ++ toLE 1 1 ++ toLE 1 20 ++ toLE 2 d.k ++ toLE 1 (flagsOf d) ++ toLE 2 0 ++
  (if d.isEmpty then []
   else if d.isSingle then toLE 8 (F.bits d.min)
   else toLE 4 d.centroids.length ++ toLE 4 d.buffer.length ++ toLE 8 (F.bits d.min) ++
     toLE 8 (F.bits d.max) ++ (d.centroids.map (cenBytes F)).flatten ++
     (d.buffer.map fun v => toLE 8 (F.bits (.fin v))).flatten)

/-- double_encoder.go l.43-130 `Encode`. -/
def encodeStream (ln : α → α) (F : Codec α) (d : Digest α) (withBuffer : Bool) :
    Outcome (Digest α × List Nat) :=
  (if withBuffer then .ok d else compress ln d) >>= fun d => .ok (d, streamBytes F d)

/-- double_encoder.go l.191-196: the loop over the centroids. -/
def putCens (F : Codec α) (cs : List (Cen α)) (c : Cursor) : Outcome Cursor :=
  cs.foldlM (fun cur x =>
    wr (toLE 8 (F.bits (.fin x.mean))) cur >>= fun cur => wr (toLE 8 x.weight) cur) c

/-- double_encoder.go l.198-203: the loop over the buffer. -/
def putBuf (F : Codec α) (vs : List α) (c : Cursor) : Outcome Cursor :=
  vs.foldlM (fun cur v => wr (toLE 8 (F.bits (.fin v))) cur) c

/-- double_encoder.go l.138-205: `EncodeDouble` after the compression of l.134-136 (the second
    compression inside `SerializedSizeBytes` finds an empty buffer). -/
def encodeBuf (F : Codec α) (d : Digest α) (withBuffer : Bool) : Outcome (List Nat) :=
  let c : Cursor := (List.replicate (sizeOf d withBuffer) 0, 0)
  wr (toLE 1 d.preambleLongs) c >>= fun c =>
  wr (toLE 1 1) c >>= fun c =>
  wr (toLE 1 20) c >>= fun c =>
  wr (toLE 2 d.k) c >>= fun c =>
  wr (toLE 1 (flagsOf d)) c >>= fun c =>
  skip 2 c >>= fun c =>
  if d.isEmpty then .ok c.1
  else if d.isSingle then wr (toLE 8 (F.bits d.min)) c >>= fun c => .ok c.1
  else
    wr (toLE 4 d.centroids.length) c >>= fun c =>
    wr (toLE 4 d.buffer.length) c >>= fun c =>
    wr (toLE 8 (F.bits d.min)) c >>= fun c =>
    wr (toLE 8 (F.bits d.max)) c >>= fun c =>
    putCens F d.centroids c >>= fun c =>
    putBuf F d.buffer c >>= fun c => .ok c.1

/-- double_encoder.go l.133-206 `EncodeDouble`. -/
def encodeDouble (ln : α → α) (F : Codec α) (d : Digest α) (withBuffer : Bool) :
    Outcome (Digest α × List Nat) :=
  (if withBuffer then .ok d else compress ln d) >>= fun d =>
  encodeBuf F d withBuffer >>= fun bs => .ok (d, bs)

/-! ### Decoding -/

/-- tdigest/double.go l.137-178 `newDoubleFromInternalStates`. -/
def fromStates (rev : Bool) (k : Nat) (mn mx : Fl α) (cs : List (Cen α)) (weight : Nat)
    (buffer : List α) : Outcome (Digest α) :=
  if k < 10 then .err "ErrInvalidK"
  else .ok { rev := rev, k := k, min := mn, max := mx, cap := capacityOf k, centroids := cs,
             cw := weight, buffer := buffer }

/-- double_decoder.go l.582-594: `validateNaN` and `validateInf`; the finite value otherwise. -/
def finite (x : Fl α) (name : String) : Outcome α :=
  match x with
  | .nan => .err (name ++ ": NaN")
  | .ninf => .err (name ++ ": Inf")
  | .pinf => .err (name ++ ": Inf")
  | .fin v => .ok v

/-- double_decoder.go l.582-587 `validateNaN`. -/
def notNaN (x : Fl α) (name : String) : Outcome Unit :=
  match x with
  | .nan => .err (name ++ ": NaN")
  | _ => .ok ()

/-- double_decoder.go l.421-442: the loop over the centroids, `n` of them from the offset `o`. -/
def getCens (F : Codec α) (data : List Nat) : Nat → Nat → Outcome (List (Cen α))
  | 0, _ => .ok []
  | n + 1, o =>
    getLE data o 8 >>= fun mb =>
    finite (F.val mb) "centroid mean" >>= fun m =>
    getLE data (o + 8) 8 >>= fun w =>
    if w = 0 then .err "centroid weight: Zero" else
    getCens F data n (o + 16) >>= fun cs => .ok ({ mean := m, weight := w } :: cs)

/-- double_decoder.go l.444-456: the loop over the buffered values. -/
def getBuf (F : Codec α) (data : List Nat) : Nat → Nat → Outcome (List α)
  | 0, _ => .ok []
  | n + 1, o =>
    getLE data o 8 >>= fun vb =>
    finite (F.val vb) "buffered value" >>= fun v =>
    getBuf F data n (o + 8) >>= fun vs => .ok (v :: vs)

/-- A big-endian field at an offset of the slice. -/
def getBE (buf : List Nat) (o k : Nat) : Outcome Nat :=
  if o + k ≤ buf.length then .ok (fromLE ((buf.drop o).take k).reverse) else .panic

/-- double_decoder.go l.502-522: the centroids of the reference implementation's `asBytes()`. -/
def getCompatD (F : Codec α) (data : List Nat) : Nat → Nat → Outcome (List (Cen α))
  | 0, _ => .ok []
  | n + 1, o =>
    getBE data o 8 >>= fun wb =>
    if F.val wb = .fin 0 then .err "centroid weight: Zero" else
    getBE data (o + 8) 8 >>= fun mb =>
    finite (F.val mb) "centroid mean" >>= fun m =>
    getCompatD F data n (o + 16) >>= fun cs =>
    .ok ({ mean := m, weight := F.toU64 (F.val wb) } :: cs)

/-- double_decoder.go l.557-577: the centroids of `asSmallBytes()`. -/
def getCompatF (F : Codec α) (data : List Nat) : Nat → Nat → Outcome (List (Cen α))
  | 0, _ => .ok []
  | n + 1, o =>
    getBE data o 4 >>= fun wb =>
    if F.val32 wb = .fin 0 then .err "centroid weight: Zero" else
    getBE data (o + 4) 4 >>= fun mb =>
    finite (F.val32 mb) "centroid mean" >>= fun m =>
    getCompatF F data n (o + 8) >>= fun cs =>
    .ok ({ mean := m, weight := F.toU64 (F.val32 wb) } :: cs)

/-- The sum of the decoded weights in `uint64` arithmetic. -/
def totalOf (cs : List (Cen α)) : Nat := (cs.map Cen.weight).sum % 2 ^ 64

/-- double_decoder.go l.461-580 `decodeDoubleCompat`. -/
def decodeCompat (F : Codec α) (data : List Nat) : Outcome (Digest α) :=
  if data.length < 1 then .err "insufficient data" else
  getLE data 0 1 >>= fun typeFlag =>
  if typeFlag ≠ 1 ∧ typeFlag ≠ 2 then .err "unexpected preamble" else
  if typeFlag = 1 then
    if data.length < 1 + 28 then .err "insufficient data" else
    getBE data 1 8 >>= fun mnb =>
    notNaN (F.val mnb) "min" >>= fun _ =>
    getBE data 9 8 >>= fun mxb =>
    notNaN (F.val mxb) "max" >>= fun _ =>
    getBE data 17 8 >>= fun kb =>
    getBE data 25 4 >>= fun n =>
    if data.length < 29 + n * 16 then .err "insufficient data" else
    getCompatD F data n 29 >>= fun cs =>
    fromStates false (F.toU16 (F.val kb)) (F.val mnb) (F.val mxb) cs (totalOf cs) []
  else
    if data.length < 1 + 24 then .err "insufficient data" else
    getBE data 1 8 >>= fun mnb =>
    notNaN (F.val mnb) "min" >>= fun _ =>
    getBE data 9 8 >>= fun mxb =>
    notNaN (F.val mxb) "max" >>= fun _ =>
    getBE data 17 4 >>= fun kb =>
    getBE data 25 2 >>= fun n =>
    if data.length < 27 + n * 8 then .err "insufficient data" else
    getCompatF F data n 27 >>= fun cs =>
    fromStates false (F.toU16 (F.val32 kb)) (F.val mnb) (F.val mxb) cs (totalOf cs) []

/-- double_decoder.go l.395-458: the image of a digest with at least two values. -/
def decodeMany (F : Codec α) (data : List Nat) (k : Nat) (rev : Bool) : Outcome (Digest α) :=
  if data.length < 8 + 8 then .err "insufficient data" else
  getLE data 8 4 >>= fun nc =>
  getLE data 12 4 >>= fun nb =>
  if data.length < 16 + 16 + nc * 16 + nb * 8 then .err "insufficient data" else
  getLE data 16 8 >>= fun mnb =>
  notNaN (F.val mnb) "min" >>= fun _ =>
  getLE data 24 8 >>= fun mxb =>
  notNaN (F.val mxb) "max" >>= fun _ =>
  getCens F data nc 32 >>= fun cs =>
  getBuf F data nb (32 + nc * 16) >>= fun vs =>
  fromStates rev k (F.val mnb) (F.val mxb) cs (totalOf cs) vs

/-- double_decoder.go l.330-459 `DecodeDouble`. -/
def decodeDouble (F : Codec α) (data : List Nat) : Outcome (Digest α) :=
  if data.length < 8 then .err "insufficient data" else
  getLE data 0 1 >>= fun pl =>
  getLE data 1 1 >>= fun sv =>
  getLE data 2 1 >>= fun ty =>
  if ty ≠ 20 then
    if pl = 0 ∧ sv = 0 ∧ ty = 0 then decodeCompat F (data.drop 3)
    else .err "sketch type mismatch"
  else if sv ≠ 1 then .err "serial version mismatch" else
  getLE data 3 2 >>= fun k =>
  getLE data 5 1 >>= fun flags =>
  let isEmpty := flags &&& 1 ≠ 0
  let isSingle := flags &&& 2 ≠ 0
  let rev : Bool := flags &&& 4 ≠ 0
  if pl ≠ (if isEmpty ∨ isSingle then 1 else 2) then .err "preamble longs mismatch" else
  if isEmpty then newDouble k
  else if isSingle then
    if data.length < 8 + 8 then .err "insufficient data" else
    getLE data 8 8 >>= fun vb =>
    finite (F.val vb) "value" >>= fun v =>
    fromStates rev k (F.val vb) (F.val vb) [{ mean := v, weight := 1 }] 1 []
  else decodeMany F data k rev

/-! ### Decoding from a stream -/

/-- `finite` inside a reader. -/
def finiteR (x : Fl α) (name : String) : Rd α := fun r => finite x name >>= fun v => .ok (v, r)

/-- `validateNaN` inside a reader. -/
def notNaNR (x : Fl α) (name : String) : Rd Unit := fun r => notNaN x name >>= fun v => .ok (v, r)

/-- A call that does not read, inside a reader. -/
def liftR {β : Type} (x : Outcome β) : Rd β := fun r => x >>= fun v => .ok (v, r)

/-- double_decoder.go l.149-174: one centroid.  (`Float64bits(Float64frombits(w))` is `w`.) -/
def cenR (F : Codec α) : Rd (Cen α) :=
  Rd.le 8 >>= fun mb =>
  finiteR (F.val mb) "centroid mean" >>= fun m =>
  Rd.le 8 >>= fun w =>
  if w = 0 then Rd.fail "centroid weight: Zero" else pure { mean := m, weight := w }

/-- double_decoder.go l.177-192: one buffered value. -/
def bufR (F : Codec α) : Rd α :=
  Rd.le 8 >>= fun vb => finiteR (F.val vb) "buffered value"

/-- double_decoder.go l.119-194.  The second NaN test looks at `min` again (l.143). -/
def manyR (F : Codec α) (k : Nat) (rev : Bool) : Rd (Digest α) :=
  Rd.le 4 >>= fun nc =>
  Rd.le 4 >>= fun nb =>
  Rd.le 8 >>= fun mnb =>
  notNaNR (F.val mnb) "min" >>= fun _ =>
  Rd.le 8 >>= fun mxb =>
  notNaNR (F.val mnb) "max" >>= fun _ =>
  Rd.times (cenR F) nc >>= fun cs =>
  Rd.times (bufR F) nb >>= fun vs =>
  liftR (fromStates rev k (F.val mnb) (F.val mxb) cs (totalOf cs) vs)

/-- double_decoder.go l.68-194: the current format, after the first three bytes. -/
def currentR (F : Codec α) (pl sv : Nat) : Rd (Digest α) :=
  if sv ≠ 1 then Rd.fail "serial version mismatch" else
  Rd.le 2 >>= fun k =>
  Rd.le 1 >>= fun flags =>
  if pl ≠ (if flags &&& 1 ≠ 0 ∨ flags &&& 2 ≠ 0 then 1 else 2) then
    Rd.fail "preamble longs mismatch" else
  Rd.le 2 >>= fun _ =>
  if flags &&& 1 ≠ 0 then liftR (newDouble k)
  else if flags &&& 2 ≠ 0 then
    Rd.le 8 >>= fun vb =>
    finiteR (F.val vb) "single_value" >>= fun v =>
    liftR (fromStates (flags &&& 4 ≠ 0 : Bool) k (F.val vb) (F.val vb)
      [{ mean := v, weight := 1 }] 1 [])
  else manyR F k (flags &&& 4 ≠ 0 : Bool)

/-- double_decoder.go l.46-195 `Decode` without the compatibility format (l.63-65), which is
    answered with an error here; the whole function is `decodeStream`. -/
def decodeR (F : Codec α) : Rd (Digest α) :=
  Rd.le 1 >>= fun pl =>
  Rd.le 1 >>= fun sv =>
  Rd.le 1 >>= fun ty =>
  if ty ≠ 20 then Rd.fail "sketch type mismatch" else currentR F pl sv

end Verif.TDigest
