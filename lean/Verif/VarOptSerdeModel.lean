import Verif.VarOptUnionModel
import Verif.ItemSerdeModel

/-!
# VarOpt sketch and union: encoders and decoders

`sampling/varopt_items_sketch_encoder.go`, `varopt_items_sketch_decoder.go`,
`varopt_items_union_encoder.go`, `varopt_items_union_decoder.go`, with the simplifications of
`Verif.VarOptModel`.

* The model of the sketch has no resize factor; it is an argument of the encoder and a result of the
  decoder.
* Weights are rationals.  `math.Float64bits` and `math.Float64frombits` are the two functions of a
  `Codec`; `none` stands for NaN and the infinities.  Where the code would accept such a number the
  model stops with an error "not modelled".
* The writer never fails.
-/

namespace Verif.VarOpt

open Verif.Items

variable {T : Type}

/-- `math.Float64bits` and `math.Float64frombits` -/
structure Codec where
  bits : ℚ → Nat
  val : Nat → Option ℚ

/-! ## Sketch encoder -/

/-- The bytes of the marks, varopt_items_sketch_encoder.go l.132-151: `i` is the index of the next
mark, `val` the byte under construction. -/
def writeMarks : List Bool → Nat → Nat → List Nat
  | [], i, val => if i &&& 7 > 0 then toLE 1 val else []
  | b :: bs, i, val =>
    let val := if b then val ||| (1 <<< (i &&& 7)) else val
    if i &&& 7 = 7 then toLE 1 val ++ writeMarks bs (i + 1) 0
    else writeMarks bs (i + 1) val

/-- `Encode`, varopt_items_sketch_encoder.go l.57-177 (l.58-60, the nil sketch, is left out) -/
def encode (F : Codec) (sd : Serde T) (rf : Nat) (s : Sk T) : Outcome (List Nat) :=
  let isEmpty := s.n = 0 ∧ s.r = 0
  let pre := if isEmpty then 1 else if s.r = 0 then 3 else 4
  let flags := (if s.gadget then 128 else 0) ||| (if isEmpty then 4 else 0)
  let head := toLE 1 ((pre &&& 0x3F) ||| (rf <<< 6)) ++ (toLE 1 2 ++ (toLE 1 13 ++
    (toLE 1 flags ++ toLE 4 s.k)))
  if isEmpty then .ok head
  else
    let counts := toLE 8 s.n ++ (toLE 4 s.h ++ (toLE 4 s.r ++
      if s.r > 0 then toLE 8 (F.bits s.totalWeightR) else []))
    if s.h > s.slots.length then .err "invalid weights array size"
    else
      let hs := s.slots.take s.h
      let weights := hs.flatMap fun x => toLE 8 (F.bits x.weight)
      let marks := if s.gadget then writeMarks (hs.map Slot.mark) 0 0 else []
      let expected := if s.r > 0 then s.h + (s.r + 1) else s.h
      if s.slots.length ≠ expected then .err "invalid data array size"
      else
        let rs := if s.r > 0 then (s.slots.drop (s.h + 1)).take s.r else []
        .ok (head ++ (counts ++ (weights ++ (marks ++ (sd.many (hs.map Slot.item) ++
          if s.r > 0 then sd.many (rs.map Slot.item) else [])))))

/-! ## Sketch decoder -/

/-- `validateBuffer`, varopt_items_sketch_decoder.go l.281-286 -/
def checkLen (data : List Nat) (e : Nat) : Outcome Unit :=
  if data.length < e then .err "unexpected EOF" else .ok ()

/-- `validateVarOptItemsSketchPreambleLongs`, l.216-225 -/
def checkPre (pre : Nat) (isEmpty : Prop) [Decidable isEmpty] : Outcome Unit :=
  if isEmpty then if pre ≠ 1 then .err "invalid preamble longs: expected empty" else .ok ()
  else if pre ≠ 3 ∧ pre ≠ 4 then .err "invalid preamble longs: expected warmup or full"
  else .ok ()

/-- `computeVarOptItemsSketchDataSize`, l.238-279; `h+r` is a sum of `uint32` -/
def dataSize (pre k n h r rf : Nat) : Outcome Nat :=
  if k = 0 ∨ k > 2 ^ 31 - 2 then .err "k must be at least 1 and less than 2^31 - 1"
  else if n ≤ k then
    if pre ≠ 3 then .err "invalid preamble longs: expected warmup"
    else if n ≠ h then .err "invalid state in warmup mode: expected n==h"
    else if r > 0 then .err "invalid state in warmup mode: expected r==0"
    else
      let a := Reservoir.adjustedSize k (2 ^ Reservoir.startingSubMultiple
        (Nat.log2 (Reservoir.ceilPow2 k)) rf (Nat.log2 (Reservoir.ceilPow2 h)))
      .ok (if a = k then a + 1 else a)
  else if pre ≠ 4 then .err "invalid preamble longs: expected full"
  else if (h + r) % 2 ^ 32 ≠ k then .err "invalid state in full mode: expected h+r==k"
  else .ok (k + 1)

/-- The weights of H, l.126-135 -/
def readWeights (F : Codec) (data : List Nat) : Nat → Nat → Outcome (List ℚ)
  | 0, _ => .ok []
  | h + 1, index => do
    let b ← getLE data index 8
    match F.val b with
    | none => .err "not modelled: weight is not a finite number"
    | some w =>
      if w ≤ 0 then .err "non-positive weight"
      else do
        let ws ← readWeights F data h (index + 8)
        .ok (w :: ws)

/-- The marks of H, l.146-161: marks left, index of the mark, position, current byte; with the
position after the marks. -/
def readMarks (data : List Nat) : Nat → Nat → Nat → Nat → Outcome (List Bool × Nat)
  | 0, _, index, _ => .ok ([], index)
  | left + 1, i, index, val => do
    let p ← if i &&& 7 = 0 then do
        checkLen data (index + 1)
        let v ← getLE data index 1
        .ok (v, index + 1)
      else .ok (val, index)
    let q ← readMarks data left (i + 1) p.2 p.1
    .ok (decide ((p.1 >>> (i &&& 7)) &&& 1 = 1) :: q.1, q.2)

/-- Items of one region, l.166-177 and l.181-192, with the position after them -/
def readItems (sd : Serde T) (data : List Nat) (index cnt : Nat) : Outcome (List T × Nat) := do
  let bytes ← sd.sizeOfMany data index cnt
  checkLen data (index + bytes)
  let items ← sd.deser data index cnt
  .ok (items, index + bytes)

/-- The marks of a gadget, l.137-162 -/
def marksPart (gadget : Bool) (data : List Nat) (h index : Nat) : Outcome (List Bool × Nat) :=
  if gadget then readMarks data h 0 index 0 else .ok ([], index)

/-- The items of R, l.180-195 -/
def rPart (sd : Serde T) (data : List Nat) (index r : Nat) : Outcome (List T × Nat) :=
  if r > 0 then readItems sd data index r else .ok ([], index)

/-- The weight of R and the position after it, l.101-114 -/
def readTotal (F : Codec) (data : List Nat) (pre r : Nat) : Outcome (ℚ × Nat) :=
  if pre = 4 then do
    checkLen data 32
    let b ← getLE data 24 8
    match F.val b with
    | none => .err "data is corrupt in full mode, or not modelled: infinite"
    | some t => if r = 0 ∨ t ≤ 0 then .err "data is corrupt in full mode" else .ok (t, 32)
  else .ok (0, 24)

/-- The slices as filled by l.116-195: `zero` is the zero value of the item type.  (A serializer that
returns fewer items than asked for leaves zeros.) -/
def mkSlots (zero : T) (h r : Nat) (ws : List ℚ) (marks : List Bool) (hs rs : List T) : List (Slot T) :=
  (List.range h).map (fun i => ⟨(hs[i]?).getD zero, (ws[i]?).getD 0, (marks[i]?).getD false⟩) ++
    if r > 0 then
      ⟨zero, -1, false⟩ :: (List.range r).map (fun i => ⟨(rs[i]?).getD zero, -1, false⟩)
    else []

/-- The part of the decoder for sketches with samples, l.76-213.  In l.157, 178 and 194 the slices
are indexed up to `h+r`; that this is more than their length needs an image of more than 32 GB (`h`
close to `2^32`), and is a panic here.  A number `n` of `2^63` or more becomes negative in the code
and is not modelled. -/
def decodeFull (F : Codec) (sd : Serde T) (zero : T) (data : List Nat) (pre rf k : Nat)
    (gadget : Bool) : Outcome (Sk T × Nat) := do
  checkLen data 16
  let n ← getLE data 8 8
  checkLen data 20
  let h ← getLE data 16 4
  checkLen data 24
  let r ← getLE data 20 4
  let alloc ← dataSize pre k n h r rf
  let tot ← readTotal F data pre r
  let sliceLen := if r = 0 then h else alloc
  if sliceLen > alloc then .panic
  else do
    checkLen data (tot.2 + h * 8)
    let ws ← readWeights F data h tot.2
    if r > 0 ∧ sliceLen < h + 1 + r then .panic
    else do
      let marks ← marksPart gadget data h (tot.2 + h * 8)
      let hItems ← readItems sd data marks.2 h
      let rItems ← rPart sd data hItems.2 r
      if n ≥ 2 ^ 63 then .err "not modelled: negative n"
      else
        .ok ({ slots := mkSlots zero h r ws marks.1 hItems.1 rItems.1, gadget := gadget, k := k, n := n,
               h := h, m := if r > 0 then 1 else 0, r := r, totalWeightR := tot.1,
               numMarksInH := marks.1.countP id }, rf)

/-- `DecodeVarOptItemsSketch`, varopt_items_sketch_decoder.go l.35-214 -/
def decode (F : Codec) (sd : Serde T) (zero : T) (data : List Nat) : Outcome (Sk T × Nat) :=
  if data.length < 8 then .err "data too short"
  else do
    let b0 ← getLE data 0 1
    let ver ← getLE data 1 1
    let fam ← getLE data 2 1
    let flags ← getLE data 3 1
    let k ← getLE data 4 4
    checkPre (b0 &&& 0x3F) (flags &&& 4 ≠ 0)
    if fam ≠ 13 then .err "invalid family ID"
    else if ver ≠ 2 then .err "invalid serialization version"
    else if flags &&& 4 ≠ 0 then do
      let s ← (new k (decide (flags &&& 128 ≠ 0)) : Outcome (Sk T))
      .ok (s, (b0 >>> 6) &&& 3)
    else
      decodeFull F sd zero data (b0 &&& 0x3F) ((b0 >>> 6) &&& 3) k (decide (flags &&& 128 ≠ 0))

/-! ## Union -/

/-- `VarOptItemsUnionEncoder.Encode`, varopt_items_union_encoder.go l.51-114; `rf` is the resize
factor of the gadget, `int32(union.k)` truncates -/
def Un.encode (F : Codec) (sd : Serde T) (rf : Nat) (u : Un T) : Outcome (List Nat) :=
  if u.gadget.numSamples = 0 then
    .ok (toLE 1 1 ++ (toLE 1 2 ++ (toLE 1 14 ++ (toLE 1 4 ++ toLE 4 u.k))))
  else do
    let g ← VarOpt.encode F sd rf u.gadget
    .ok (toLE 1 4 ++ (toLE 1 2 ++ (toLE 1 14 ++ (toLE 1 0 ++ (toLE 4 u.k ++ (toLE 8 u.n ++
      (toLE 8 (F.bits u.outerTauNumer) ++ (toLE 8 u.outerTauDenom ++ g))))))))

/-- `DecodeVarOptItemsUnion`, varopt_items_union_decoder.go l.33-121, with the resize factor of the
gadget.  Numbers of `2^63` or more become negative in the code and are not modelled. -/
def unionDecode (F : Codec) (sd : Serde T) (zero : T) (data : List Nat) : Outcome (Un T × Nat) := do
  checkLen data 1
  let pre ← getLE data 0 1
  if pre ≠ 1 ∧ pre ≠ 4 then .err "invalid preLongs"
  else do
    checkLen data 2
    let ver ← getLE data 1 1
    if ver ≠ 2 then .err "invalid serial version"
    else do
      checkLen data 3
      let fam ← getLE data 2 1
      if fam ≠ 14 then .err "invalid family ID"
      else do
        checkLen data 4
        let flags ← getLE data 3 1
        checkLen data 8
        let maxK ← getLE data 4 4
        if flags &&& 4 ≠ 0 then do
          let u ← (newUnion maxK : Outcome (Un T))
          let g ← (new maxK true : Outcome (Sk T))
          .ok ({ u with gadget := g }, 3)
        else do
          checkLen data 16
          let n ← getLE data 8 8
          checkLen data 24
          let t ← getLE data 16 8
          checkLen data 32
          let den ← getLE data 24 8
          let rest ← slice data 32 data.length
          let g ← decode F sd zero rest
          match F.val t with
          | none => .err "not modelled: outer tau is not a finite number"
          | some t =>
            if n ≥ 2 ^ 63 ∨ den ≥ 2 ^ 63 then .err "not modelled: negative number"
            else .ok (⟨g.1, maxK, n, t, den⟩, g.2)

end Verif.VarOpt
