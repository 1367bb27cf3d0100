import Verif.FreqProps

/-!
# Model of the text form of the long sketch

`LongsSketch.ToString` longs_sketch.go l.469-485, `NewLongsSketchFromString` l.180-255 and
`serializeToString`, `deserializeFromStringArray` reverse_purge_long_hash_map.go l.170-179, l.281-306.

A text is the list of its characters.  Keys are the int64 values themselves.  Of the two errors of the
number parsers ("invalid syntax", "value out of range") the model reports the second one only for
well-formed numbers; the code also reports it when the overflow precedes the first bad character.
Memory limits are not modelled.
-/

namespace Verif.Freq

/-- `fmt` verb `%d` -/
def fmtInt (x : Int) : List Char :=
  if x < 0 then '-' :: Nat.toDigits 10 x.natAbs else Nat.toDigits 10 x.natAbs

/-- a number with the comma after it -/
def field (x : Int) : List Char := fmtInt x ++ [',']

/-- `serializeToString` l.170-179 -/
def Map.toText (m : Map Int) : List Char :=
  field m.num ++ field m.slots.length ++
    (m.slots.filter (fun s => !decide (s.st = 0))).flatMap (fun s => field s.key ++ field s.val)

/-- `ToString` longs_sketch.go l.469-485; `_SER_VER` is 1, the family id 10, `_EMPTY_FLAG_MASK` 5 -/
def Sketch.toText (s : Sketch Int) : List Char :=
  field 1 ++ field 10 ++ field s.lgMax ++ field (if s.map.num = 0 then 5 else 0) ++ field s.weight ++
    field s.offset ++ s.map.toText

/-- `strings.Split(str, ",")` -/
def splitText : List Char → List (List Char)
  | [] => [[]]
  | ch :: r =>
    if ch = ',' then [] :: splitText r
    else
      match splitText r with
      | [] => [[ch]]
      | t :: ts => (ch :: t) :: ts

/-- `strconv.ParseUint(s, 10, bits)` -/
def parseUint (bits : Nat) (s : List Char) : Outcome Nat :=
  if s = [] then .err "invalid syntax"
  else if s.all Char.isDigit then
    if Nat.ofDigitChars 10 s 0 < 2 ^ bits then .ok (Nat.ofDigitChars 10 s 0)
    else .err "value out of range"
  else .err "invalid syntax"

/-- `strconv.ParseInt(s, 10, bits)` -/
def parseInt (bits : Nat) (s : List Char) : Outcome Int :=
  match s with
  | '-' :: r => (parseUint bits r).bind fun n =>
      if 2 ^ (bits - 1) < n then .err "value out of range" else .ok (-(n : Int))
  | '+' :: r => (parseUint bits r).bind fun n =>
      if 2 ^ (bits - 1) ≤ n then .err "value out of range" else .ok (n : Int)
  | s => (parseUint bits s).bind fun n =>
      if 2 ^ (bits - 1) ≤ n then .err "value out of range" else .ok (n : Int)

/-- `bits.TrailingZeros64` for fuel 64 -/
def trailingZeros : Nat → Nat → Nat
  | 0, _ => 0
  | fuel + 1, n => if n % 2 = 0 then trailingZeros fuel (n / 2) + 1 else 0

/-- the token at a position; running past the end panics -/
def token (ts : List (List Char)) (i : Nat) : Outcome (List Char) := Outcome.ofOption ts[i]?

/-- `n, _ := strconv.ParseUint(...)` of a well-formed number in range; otherwise 0, which is what
`ParseUint` returns beside a syntax error -/
def parseOrZero (s : List Char) : Nat :=
  match parseUint 32 s with
  | .ok n => n
  | _ => 0

/-- `adjustOrPutValue` l.100-130 on a map that may be full: when every slot is taken by another key
the probing loop l.106-112 goes round until the drift limit of 1024 -/
def putText (c : Cfg Int) (m : Map Int) (k a : Int) : Outcome (Map Int) :=
  if m.slots.all (fun s => decide (s.st ≠ 0 ∧ s.key ≠ k)) then .err "drift >= driftLimit"
  else adjustOrPut c m k a

/-- loop of `deserializeFromStringArray` l.290-304, from token `j` on -/
def readPairs (c : Cfg Int) (ts : List (List Char)) : Nat → Nat → Map Int → Outcome (Map Int)
  | 0, _, m => .ok m
  | n + 1, j, m => do
    let key ← (token ts j).bind (parseUint 64)
    let value ← (token ts (j + 1)).bind (parseUint 64)
    let m ← putText c m (toS 8 key) (toS 8 value)
    readPairs c ts n (j + 2) m

/-- `deserializeFromStringArray` l.281-306 with the check of `newReversePurgeLongHashMap` l.61-64 -/
def readMap (c : Cfg Int) (ts : List (List Char)) : Outcome (Map Int) := do
  let t6 ← token ts 6
  let t7 ← token ts 7
  let len := parseOrZero t7
  if len = 0 ∨ len &&& (len - 1) ≠ 0 then .err "mapSize"
  else readPairs c ts (parseOrZero t6) 8 (newMap 0 (Nat.log2 len))

/-- `NewLongsSketch` l.61-80 for any `lgMax` (a shift by 64 or more gives 0) and `lgCur` below 63,
with the fields set l.247-252 -/
def textSketch (lgMax : Int) (lgCur : Nat) (weight offset : Int) (m : Map Int) : Sketch Int :=
  let lg := (max lgMax 3).toNat
  ⟨lg, capOf (2 ^ max lgCur 3), offset, weight, min 1024 (if lg < 64 then capOf (2 ^ lg) else 0), m⟩

/-- checks and construction l.228-254 -/
def buildText (c : Cfg Int) (ts : List (List Char)) (serVer family lgMax flags weight offset num : Int)
    (lgCur : Nat) : Outcome (Sketch Int) :=
  if serVer ≠ 1 then .err "possible Corruption: Bad SerVer"
  else if family ≠ 10 then .err "possible Corruption: Bad Family"
  else if ¬ flags > 0 ∧ num = 0 then .err "Possible Corruption: !Empty && NumActive=0"
  else if 2 * num ≠ (ts.length : Int) - 6 - 2 then .err "possible Corruption: Incorrect # of tokens"
  else if 63 ≤ max lgCur 3 then .err "mapSize"
  else (readMap c ts).bind fun m => .ok (textSketch lgMax lgCur weight offset m)

/-- parsing of the tokens l.193-226 -/
def readTokens (c : Cfg Int) (ts : List (List Char)) : Outcome (Sketch Int) := do
  let serVer ← (token ts 0).bind (parseInt 32)
  let family ← (token ts 1).bind (parseInt 32)
  let lgMax ← (token ts 2).bind (parseInt 32)
  let flags ← (token ts 3).bind (parseInt 32)
  let weight ← (token ts 4).bind (parseInt 64)
  let offset ← (token ts 5).bind (parseInt 64)
  let num ← (token ts 6).bind (parseInt 32)
  let len ← (token ts 7).bind (parseUint 32)
  buildText c ts serVer family lgMax flags weight offset num (trailingZeros 64 len)

/-- `NewLongsSketchFromString` l.180-255 -/
def fromText (hash : Int → Nat) (str : List Char) : Outcome (Sketch Int) :=
  if str = [] then .err "string is empty"
  else
    let ts := splitText (if str.getLast? = some ',' then str.dropLast else str)
    if ts.length < 8 then .err "string not long enough"
    else readTokens (cfg .longs hash) ts

end Verif.Freq
