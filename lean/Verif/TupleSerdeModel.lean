import Verif.ByteReader
import Verif.TupleModel

/-!
# Model of the serialization of tuple sketches

`tuple/encoder.go`, `decoder.go`, `arrayofnumbers_sketch_encoder.go`,
`arrayofnumbers_sketch_decoder.go` and the string summaries of `arrayofstrings_sketch.go`.

The sketches here carry the contents of the summaries (`σ`), whether they are stored inline or behind
pointers: writers only read them and readers create new ones.  `enc.w` accepts all bytes; `Encode`
returns the bytes handed to it.  The seed hash of the decoder's seed is the parameter `seedHash`
(`none`: `ComputeSeedHash` fails).  Not modelled: running out of memory when the number of entries in
a damaged header is huge (`make` before reading).
-/

namespace Verif.Tuple

open Theta (maxTheta)

/-- A user's `SummaryWriter` (encoder.go l.33) and `SummaryReader` (decoder.go l.36). -/
structure Codec (σ : Type) where
  write : σ → Outcome (List Nat)
  read : Rd σ

variable {σ : Type}

/-- `FamilyEnum.Tuple.Id` internal/family.go l.66-69 -/
def familyTuple : Nat := 9

/-- `IsEstimationMode` compact_sketch.go l.150-152 -/
def Compact.isEstimation (c : Compact σ) : Bool := decide (c.theta < maxTheta) && !c.isEmpty

/-- `preambleLongs` compact_sketch.go l.314-322 -/
def Compact.preLongs (c : Compact σ) : Nat :=
  if c.isEstimation then 3
  else if c.isEmpty || c.entries.length == 1 then 1
  else 2

/-- flags encoder.go l.71-79 (bit 1 read-only, 2 empty, 3 compact, 4 ordered; compact_sketch.go
l.35-41) -/
def flagsOf (c : Compact σ) : Nat :=
  (1 <<< 3) ||| (1 <<< 1) ||| (if c.isEmpty then 1 <<< 2 else 0) |||
    (if c.isOrdered then 1 <<< 4 else 0)

/-- the loop encoder.go l.108-116 -/
def writeEntries (C : Codec σ) : List (Entry σ) → Outcome (List Nat)
  | [] => .ok []
  | e :: es => do
    let s ← C.write e.2
    let rest ← writeEntries C es
    pure (toLE 8 e.1 ++ s ++ rest)

/-- `Encode` encoder.go l.47-118 -/
def encode (C : Codec σ) (c : Compact σ) : Outcome (List Nat) := do
  let es ← writeEntries C c.entries
  pure (toLE 1 c.preLongs ++ (toLE 1 3 ++ (toLE 1 familyTuple ++ (toLE 1 1 ++ (toLE 1 0 ++
    (toLE 1 (flagsOf c) ++ (toLE 2 c.seedHash ++
    ((if c.preLongs > 1 then toLE 4 (c.entries.length % 2 ^ 32) ++ toLE 4 0 else []) ++
    ((if c.isEstimation then toLE 8 c.theta else []) ++ es)))))))))

/-- one entry decoder.go l.137-147 -/
def readEntry (C : Codec σ) : Rd (Entry σ) := do
  let h ← Rd.le 8
  let s ← C.read
  pure (h, s)

/-- number of entries and theta, decoder.go l.112-133 -/
def readCounts (isEmpty : Bool) (preLongs : Nat) : Rd (Nat × Nat) :=
  if isEmpty then pure (0, maxTheta)
  else if preLongs = 1 then pure (1, maxTheta)
  else do
    let n ← Rd.le 4
    let _ ← Rd.le 4
    if preLongs > 2 then do
      let th ← Rd.le 8
      pure (n, th)
    else pure (n, maxTheta)

/-- the check decoder.go l.101-110 -/
def checkSeed (needed : Bool) (seedHash : Option Nat) (sh : Nat) : Rd Unit :=
  if needed then
    match seedHash with
    | none => Rd.fail "seed hash of zero"
    | some expected => if sh ≠ expected then Rd.fail "seed hash mismatch" else pure ()
  else pure ()

/-- `Decode` decoder.go l.53-154 -/
def decode (C : Codec σ) (seedHash : Option Nat) : Rd (Compact σ) := do
  let preLongs ← Rd.le 1
  let serVer ← Rd.le 1
  let family ← Rd.le 1
  let sketchType ← Rd.le 1
  let _ ← Rd.le 1
  let flags ← Rd.le 1
  let sh ← Rd.le 2
  if serVer ≠ 3 ∧ serVer ≠ 1 then Rd.fail "serial version mismatch"
  else if family ≠ familyTuple then Rd.fail "sketch family mismatch"
  else if sketchType ≠ 1 ∧ sketchType ≠ 5 then Rd.fail "sketch type mismatch"
  else do
    checkSeed (!flags.testBit 2) seedHash sh
    let (n, th) ← readCounts (flags.testBit 2) preLongs
    let es ← Rd.times (readEntry C) n
    pure (compactFromEntries (flags.testBit 2) (flags.testBit 4) sh th es)

/-! ## Arrays of numbers -/

/-- `ArrayOfNumbersCompactSketch` arrayofnumbers_compact_sketch.go l.48-55: a compact sketch and the
number of values per summary; a summary is the list of its values. -/
structure ANCompact where
  sketch : Compact (List Nat)
  numValues : Nat
  deriving DecidableEq

/-- flags arrayofnumbers_sketch_encoder.go l.70-79, arrayofnumbers_compact_sketch.go l.34-40 -/
def anFlags (c : ANCompact) : Nat :=
  (if c.sketch.isEmpty then 1 <<< 2 else 0) |||
    (if c.sketch.entries.length % 2 ^ 32 > 0 then 1 <<< 3 else 0) |||
    (if c.sketch.isOrdered then 1 <<< 4 else 0)

/-- `Encode` arrayofnumbers_sketch_encoder.go l.49-124 with the writer l.37-44.  `w` is the size of a
value in bytes; values are their bit patterns. -/
def anEncode (w : Nat) (c : ANCompact) : List Nat :=
  toLE 1 1 ++ (toLE 1 1 ++ (toLE 1 familyTuple ++ (toLE 1 3 ++ (toLE 1 (anFlags c) ++
    (toLE 1 c.numValues ++ (toLE 2 c.sketch.seedHash ++ (toLE 8 c.sketch.theta ++
    (if c.sketch.entries.length % 2 ^ 32 > 0 then
      toLE 4 (c.sketch.entries.length % 2 ^ 32) ++ (toLE 4 0 ++
        (c.sketch.entries.flatMap (fun e => toLE 8 e.1) ++
          c.sketch.entries.flatMap (fun e => e.2.flatMap (toLE w))))
    else []))))))))

/-- entries, arrayofnumbers_sketch_decoder.go l.120-154 with the reader l.39-51 -/
def anEntries (w numValues : Nat) (hasEntries : Bool) : Rd (List (Entry (List Nat))) :=
  if hasEntries then do
    let n ← Rd.le 4
    let _ ← Rd.le 4
    let hs ← Rd.times (Rd.le 8) n
    let ss ← Rd.times (Rd.times (Rd.le w) numValues) n
    pure (hs.zip ss)
  else pure []

/-- `Decode` arrayofnumbers_sketch_decoder.go l.56-162 -/
def anDecode (w : Nat) (seedHash : Option Nat) : Rd ANCompact := do
  let _ ← Rd.le 1
  let serVer ← Rd.le 1
  let family ← Rd.le 1
  let sketchType ← Rd.le 1
  let flags ← Rd.le 1
  let numValues ← Rd.le 1
  let sh ← Rd.le 2
  if serVer ≠ 1 then Rd.fail "serial version mismatch"
  else if family ≠ familyTuple then Rd.fail "sketch family mismatch"
  else if sketchType ≠ 3 then Rd.fail "sketch type mismatch"
  else do
    checkSeed (flags.testBit 3) seedHash sh
    let th ← Rd.le 8
    let es ← anEntries w numValues (flags.testBit 3)
    pure ⟨compactFromEntries (flags.testBit 2) (flags.testBit 4) sh th es, numValues⟩

/-! ## Arrays of strings -/

/-- a Go string: its bytes -/
abbrev Str := List Nat

/-- `computeStringsTotalBytes` arrayofstrings_sketch.go l.116-122 (uint32 arithmetic) -/
def stringsTotalBytes (vs : List Str) : Nat :=
  vs.foldl (fun t v => (t + v.length % 2 ^ 32) % 2 ^ 32) ((4 + 1 + vs.length * 4) % 2 ^ 32)

/-- `writeStrings` l.88-114 -/
def writeStrings (vs : List Str) : Outcome (List Nat) :=
  if vs.length > 127 then .err "string slice length must be <= 127"
  else .ok (toLE 4 (stringsTotalBytes vs) ++ (toLE 1 vs.length ++
    vs.flatMap (fun v => toLE 4 (v.length % 2 ^ 32) ++ v)))

/-- one string, l.157-167 -/
def readString : Rd Str := do
  let n ← Rd.le 4
  Rd.bytes n

/-- `readStrings` l.141-171 -/
def readStrings : Rd (List Str) := do
  let _ ← Rd.le 4
  let n ← Rd.le 1
  if n > 127 then Rd.fail "string slice length must be <= 127"
  else Rd.times readString n

/-- `ArrayOfStringsSummaryWriter` l.84-86, `ArrayOfStringsSummaryReader` l.130-139 (also the inline
variants l.213-215, l.223-232) -/
def strings : Codec (List Str) := ⟨writeStrings, readStrings⟩

/-- the bytes hashed by `GenerateHashKeyFromStrings` l.40-49 -/
def keyBytes : List Str → List Nat
  | [] => []
  | [v] => v
  | v :: v' :: vs => v ++ [44] ++ keyBytes (v' :: vs)

end Verif.Tuple
