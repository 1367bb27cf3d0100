import Verif.FreqProps
import Verif.ItemSerdeModel

/-!
# Frequency sketches: serialization

`frequencies/preamble_utils.go`, `LongsSketch.ToSlice` l.488-535, `NewLongsSketchFromSlice`
l.101-174, `ItemsSketch.ToSlice` l.436-486, `NewFrequencyItemsSketchFromSlice` l.112-186.

The keys of the long sketch are represented by their bit patterns; its serializer is
`Items.longs` (`binary.LittleEndian.PutUint64`).  `int64` words are `BitVec 64`.  The serde of the
item sketch is not nil.
-/

namespace Verif.Freq

open Verif.Items

variable {κ : Type} [DecidableEq κ]

/-- preamble_utils.go:56-94: the functions `insert...`, with their shift and mask -/
def insertField (shift : Nat) (mask v pre : BitVec 64) : BitVec 64 :=
  ((v &&& mask) <<< shift) ||| (~~~(mask <<< shift) &&& pre)

/-- preamble_utils.go:96-134: the functions `extract...`.  The shift of the code is arithmetic; the
bits kept by the mask are the same, since none comes from beyond bit 47. -/
def extractField (shift : Nat) (mask pre : BitVec 64) : Nat := ((pre >>> shift) &&& mask).toNat

/-- longs_sketch.go:500-507, 512; items_sketch.go:455-465 -/
def pre0 (preLongs lgMax lgCur flags : Nat) : BitVec 64 :=
  insertField 40 255 (BitVec.ofNat 64 flags)
    (insertField 32 255 (BitVec.ofNat 64 lgCur)
      (insertField 24 255 (BitVec.ofNat 64 lgMax)
        (insertField 16 255 10 (insertField 8 255 1
          (insertField 0 63 (BitVec.ofNat 64 preLongs) 0)))))

/-- longs_sketch.go:525-527 and 530-532, items_sketch.go:480-482: `n` words at offset `o` -/
def putWords (b : List Nat) (o n : Nat) (words : List (List Nat)) : Outcome (List Nat) :=
  (List.range n).foldlM (fun b i => do
    let w ← Outcome.ofOption words[i]?
    put b (o + 8 * i) w) b

/-- longs_sketch.go:488-535, items_sketch.go:436-486 -/
def Sketch.toSlice (kd : Kind) (sd : Serde κ) (s : Sketch κ) : Outcome (List Nat) :=
  let n := s.map.num
  if n = 0 then
    put (List.replicate 8 0) 0 (toLE 8 (pre0 1 s.lgMax s.map.lg 5).toNat)
  else do
    let keys := (active s.map.slots).map Prod.fst
    let vals := (active s.map.slots).map Prod.snd
    let total := match kd with
      | .longs => (4 + 2 * n) * 8
      | .items => (4 + n) * 8 + (sd.many keys).length
    let b ← put (List.replicate total 0) 0 (toLE 8 (pre0 4 s.lgMax s.map.lg 0).toNat)
    let b ← put b 8 (toLE 8 (insertField 0 0xFFFFFFFF (BitVec.ofNat 64 n) 0).toNat)
    let b ← put b 16 (toLE 8 (toU 8 s.weight))
    let b ← put b 24 (toLE 8 (toU 8 s.offset))
    let b ← putWords b 32 n (vals.map fun v => toLE 8 (toU 8 v))
    match kd with
    | .longs => putWords b (32 + 8 * n) n (keys.map sd.one)
    | .items => copyAt b (32 + 8 * n) (sd.many keys)

/-- longs_sketch.go:381-386 `GetStorageBytes` -/
def storageBytes (s : Sketch κ) : Nat := if s.isEmpty then 8 else 4 * 8 + 16 * s.map.num

/-- `n` consecutive words -/
def readWords (mem : List Nat) (o n : Nat) : Outcome (List Nat) :=
  (List.range n).mapM fun i => getLE mem (o + 8 * i) 8

/-- longs_sketch.go:150, items_sketch.go:164: the smallest length accepted; the items of the item
sketch are not counted -/
def required : Kind → Nat → Nat → Nat
  | .longs, preBytes, n => preBytes + 2 * n * 8
  | .items, preBytes, n => preBytes + n * 8

/-- longs_sketch.go:159-163, items_sketch.go:172-173 -/
def readKeys (sd : Serde κ) (mem : List Nat) (o n : Nat) : Kind → Outcome (List κ)
  | .longs => sd.deser mem o n
  | .items => do
    let rest ← slice mem o mem.length
    sd.deser rest 0 n

/-- longs_sketch.go:133-173, items_sketch.go:146-185: after the checks of the preamble.  A map size
of `2^63` or more is refused by `ExactLog2`. -/
def readFull (kd : Kind) (sd : Serde κ) (hash : κ → Nat) (z : κ) (mem : List Nat)
    (preLongs lgMax lgCur : Nat) : Outcome (Sketch κ) := do
  let pre ← readWords mem 0 preLongs
  if 63 ≤ max lgCur 3 then .err "mapSize"
  else do
    let offset ← Outcome.ofOption pre[3]?
    let pre1 ← Outcome.ofOption pre[1]?
    let n := extractField 0 0xFFFFFFFF (BitVec.ofNat 64 pre1)
    let preBytes := preLongs * 8
    if mem.length < required kd preBytes n then .err "possible Corruption: Insufficient bytes in array"
    else do
      let counts ← readWords mem preBytes n
      let keys ← readKeys sd mem (preBytes + 8 * n) n kd
      if keys.length < n then .panic
      else do
        let s ← updateAll (cfg kd hash) z ((keys.take n).zip (counts.map (toS 8)))
          { newSketch kd z lgMax lgCur with offset := toS 8 offset }
        let weight ← Outcome.ofOption pre[2]?
        .ok { s with weight := toS 8 weight }

/-- longs_sketch.go:101-174, items_sketch.go:112-186 with checkPreambleSize preamble_utils.go:43-54
(the item sketch ignores the error of `checkPreambleSize`, but then goes on with `pre0 = 0`, which
is refused) -/
def fromSlice (kd : Kind) (sd : Serde κ) (hash : κ → Nat) (z : κ) (mem : List Nat) :
    Outcome (Sketch κ) :=
  if mem.length < 8 then .err "preamble is too small"
  else do
    let w ← getLE mem 0 8
    let p := BitVec.ofNat 64 w
    let preLongs := extractField 0 63 p
    if mem.length < max (preLongs * 8) 8 then .err "preamble is too small"
    else
      let lgMax := extractField 24 255 p
      let lgCur := extractField 32 255 p
      let empty : Bool := (extractField 40 255 p &&& 5) != 0
      if preLongs ≠ 1 ∧ preLongs ≠ 4 then .err "PreLongs must be 1 or 4"
      else if extractField 8 255 p ≠ 1 then .err "Ser Ver must be 1"
      else if extractField 16 255 p ≠ 10 then .err "FamilyID must be 10"
      else if empty ∧ preLongs ≠ 1 then .err "Empty Flag set incorrectly"
      else if empty then
        match kd with
        | .longs => .ok (newSketch .longs z lgMax 3)
        | .items => .ok (newSketch .items z 3 3)
      else readFull kd sd hash z mem preLongs lgMax lgCur

end Verif.Freq
