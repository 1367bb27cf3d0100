import Verif.HashTableModel
import Verif.SortedLists

/-!
# Model of the theta update sketch, compact sketch and set operations

`theta/update_sketch.go`, `theta/compact_sketch.go` (l.74-112), `theta/union.go`,
`theta/intersection.go`, `theta/a_not_b.go`.  The hash function is a parameter of the histories; the
seed hash is a parameter of the set operations.
-/

namespace Verif.Theta

open Probe HashTable

/-- theta stores bare hashes; `Reset` writes 0 (theta/hashtable.go l.275-277) -/
def elem : Elem Nat := ⟨id, 0, fun _ => 0, rfl, fun _ => rfl⟩

/-- `MaxTheta` constants.go l.40 -/
def maxTheta : Nat := 2 ^ 63 - 1

abbrev Tbl := Table Nat

/-- `NewQuickSelectUpdateSketch` update_sketch.go l.86-115; `startTheta` stands for
`startingThetaFromP(p)` of a `p` in (0,1] (utils.go l.54-59, a float computation).  `NewUnion`
union.go l.79-112 performs the same checks and builds the same table. -/
def newTable (lgK rf startTheta : Nat) : Outcome Tbl :=
  if lgK < 5 then .err "lg_k must not be less than 5"
  else if lgK > 26 then .err "lg_k must not be greater than 26"
  else .ok (Table.new elem (startingSubMultiple (lgK + 1) 5 rf) lgK rf startTheta startTheta true)

/-- Result of an update call (nil error = `inserted`). -/
inductive Status where
  | inserted
  | duplicate
  | exceedsTheta
  | zeroHash
  | tableFull
  | emptyString
  deriving DecidableEq, Repr

/-- `UpdateInt64` l.261-277, `UpdateInt32` l.287-303, `UpdateBytes` l.377-393 and `UpdateString`
l.353-373 for a non-empty string; `h1` is the first word of the hash, `hash = h1 >> 1`. -/
def update (t : Tbl) (h1 : Nat) : Outcome (Tbl × Status) :=
  let t := { t with isEmpty := false }
  let hash := h1 >>> 1
  match t.screen hash with
  | .exceedsTheta => .ok (t, .exceedsTheta)
  | .zeroHash => .ok (t, .zeroHash)
  | .pass =>
    match t.find elem hash with
    | .empty i => do
      let t ← t.insert elem i hash
      pure (t, .inserted)
    | .found _ => .ok (t, .duplicate)
    | .full => .ok (t, .tableFull)
    | .panic => .panic

/-- `UpdateString("")` l.354-356 -/
def updateEmptyString (t : Tbl) : Outcome (Tbl × Status) := .ok (t, .emptyString)

/-- `Theta64` l.129-134 -/
def theta64 (t : Tbl) : Nat := if t.isEmpty then maxTheta else t.theta

/-- `NumRetained` l.137-139 -/
def numRetained (t : Tbl) : Nat := t.numEntries

/-- `All` l.406-416 -/
def all (t : Tbl) : List Nat := t.entries.filter (fun e => e != 0)

/-- `IsOrdered` l.124-126 -/
def isOrdered (t : Tbl) : Bool := decide (t.numEntries ≤ 1)

/-- `IsEstimationMode` l.179-181 -/
def isEstimationMode (t : Tbl) : Bool := decide (theta64 t < maxTheta) && !t.isEmpty

/-- The interface `Sketch` (theta/sketch.go) seen by the set operations. -/
structure View where
  isEmpty : Bool
  isOrdered : Bool
  theta : Nat
  seedHash : Nat
  numRetained : Nat
  all : List Nat
  deriving DecidableEq, Repr

/-- an update sketch as seen through the interface -/
def viewOf (t : Tbl) (seedHash : Nat) : View :=
  ⟨t.isEmpty, isOrdered t, theta64 t, seedHash, numRetained t, all t⟩

/-- `CompactSketch` compact_sketch.go l.65-71 -/
structure Compact where
  entries : List Nat
  theta : Nat
  seedHash : Nat
  isEmpty : Bool
  isOrdered : Bool
  deriving DecidableEq, Repr

/-- the compact sketch through the interface, l.116-138, l.236-244 -/
def Compact.view (c : Compact) : View :=
  ⟨c.isEmpty, c.isOrdered, c.theta, c.seedHash, c.entries.length, c.entries⟩

/-- `NewCompactSketch` l.74-98 -/
def newCompact (v : View) (ordered : Bool) : Compact :=
  let entries :=
    if !v.isEmpty then
      if ordered && !v.isOrdered then sortN v.all else v.all
    else []
  ⟨entries, v.theta, v.seedHash, v.isEmpty, v.isOrdered || ordered⟩

/-- `newCompactSketchFromEntries` l.100-112 -/
def compactFromEntries (isEmpty isOrdered : Bool) (seedHash theta : Nat) (entries : List Nat) :
    Compact :=
  ⟨entries, theta, seedHash, isEmpty, if entries.length ≤ 1 then true else isOrdered⟩

/-! ## Union -/

/-- `Union` union.go l.29-33 (the policy is the no-op policy) -/
structure Union where
  table : Tbl
  theta : Nat
  deriving DecidableEq, Repr

/-- `NewUnion` l.79-112 -/
def newUnion (lgK rf startTheta : Nat) : Outcome Union := do
  let t ← newTable lgK rf startTheta
  pure ⟨t, t.theta⟩

/-- the loop l.135-153 -/
def unionLoop (uTheta : Nat) (ordered : Bool) : List Nat → Tbl → Outcome Tbl
  | [], t => .ok t
  | e :: es, t =>
    if e < uTheta ∧ e < t.theta then
      match t.find elem e with
      | .empty i => do
        let t ← t.insert elem i e
        unionLoop uTheta ordered es t
      | .found _ => unionLoop uTheta ordered es t
      | .full => .err "key not found and no empty slots"
      | .panic => .panic
    else if ordered then .ok t
    else unionLoop uTheta ordered es t

/-- `Update` l.115-157; `seedHash = none` models an error of `ComputeSeedHash` -/
def Union.update (u : Union) (seedHash : Option Nat) (v : View) : Outcome Union :=
  if v.isEmpty then .ok u
  else
    match seedHash with
    | none => .err "seed hash of zero"
    | some sh =>
      if sh ≠ v.seedHash then .err "seed hash mismatch"
      else
        let t := { u.table with isEmpty := false }
        let th := min u.theta v.theta
        do
          let t ← unionLoop th v.isOrdered v.all t
          pure ⟨t, min th t.theta⟩

/-- `Result` l.160-204 -/
def Union.result (u : Union) (seedHash : Option Nat) (ordered : Bool) : Outcome Compact :=
  match seedHash with
  | none => .err "seed hash of zero"
  | some sh =>
    if u.table.isEmpty then .ok (compactFromEntries true true sh u.theta [])
    else
      let theta := min u.theta u.table.theta
      let nominal := 2 ^ u.table.lgNom
      let entries :=
        if u.theta ≥ u.table.theta then u.table.entries.filter (fun e => e != 0)
        else u.table.entries.filter (fun e => e != 0 && decide (e < theta))
      let cut : Outcome (List Nat × Nat) :=
        if entries.length > nominal then
          match QuickSelect.quickSelect (ltKey elem) entries 0 ((entries.length : Int) - 1) nominal with
          | none => .panic
          | some (es, _) =>
            match es[nominal]? with
            | none => .panic
            | some th => .ok (es.take nominal, th)
        else .ok (entries, theta)
      do
        let (entries, theta) ← cut
        let entries := if ordered then sortN entries else entries
        pure (compactFromEntries u.table.isEmpty ordered sh theta entries)

/-- `Reset` l.213-216 -/
def Union.reset (u : Union) : Union :=
  let t := u.table.reset elem
  ⟨t, t.theta⟩

/-! ## Intersection -/

/-- `Intersection` intersection.go l.49-53; the table's `isEmpty`, `theta` are its fields. -/
structure Inter where
  table : Tbl
  isValid : Bool
  deriving DecidableEq, Repr

/-- `NewIntersection` l.56-72 -/
def newInter : Inter := ⟨Table.new elem 0 0 0 maxTheta maxTheta false, false⟩

/-- `internal.Log2Floor` internal/utils.go l.128-133 and `LgSizeFromCount` l.135-145 with load factor
15/16 (float product of a power of two, exact); uint32 arithmetic, counts below 2^31. -/
def lgSizeFromCount (n : Nat) : Nat :=
  let lgN := Nat.log2 n
  if n > 2 ^ (lgN + 1) * 15 / 16 then lgN + 2 else lgN + 1

/-- loop l.117-124 of the first update -/
def interCopy : List Nat → Tbl → Outcome Tbl
  | [], t => .ok t
  | e :: es, t =>
    match t.find elem e with
    | .found _ => .err "duplicate key, possibly corrupted input sketch"
    | .empty i => do let t ← t.insert elem i e; interCopy es t
    | .full => do let t ← t.insert elem 0 e; interCopy es t
    | .panic => .panic

/-- loop l.140-159: returns the matches (in order) and `count` -/
def interMatch (t : Tbl) (ordered : Bool) (maxMatches : Nat) :
    List Nat → List Nat → Nat → Outcome (List Nat × Nat)
  | [], ms, count => .ok (ms, count)
  | e :: es, ms, count =>
    if e < t.theta then
      match t.find elem e with
      | .found i =>
        if ms.length = maxMatches then .err "max matches exceeded, possibly corrupted input sketch"
        else
          match t.entries[i]? with
          | none => .panic
          | some x => interMatch t ordered maxMatches es (ms ++ [x]) (count + 1)
      | .empty _ => interMatch t ordered maxMatches es ms (count + 1)
      | .full => interMatch t ordered maxMatches es ms (count + 1)
      | .panic => .panic
    else if ordered then .ok (ms, count)
    else interMatch t ordered maxMatches es ms (count + 1)

/-- loop l.178-185 -/
def interFill : List Nat → Tbl → Outcome Tbl
  | [], t => .ok t
  | e :: es, t =>
    match t.find elem e with
    | .full => .err "key not found and no empty slots"
    | .found i => do let t ← t.insert elem i e; interFill es t
    | .empty i => do let t ← t.insert elem i e; interFill es t
    | .panic => .panic

/-- `lgSize - 1` in uint8 -/
def pred8 (n : Nat) : Nat := (n + 255) % 256

/-- `Update` l.75-188 -/
def Inter.update (s : Inter) (seedHash : Option Nat) (v : View) : Outcome Inter :=
  if s.table.isEmpty then .ok s
  else
    match seedHash with
    | none => .err "seed hash of zero"
    | some sh =>
      if !v.isEmpty && v.seedHash != sh then .err "seed hash mismatch"
      else
        let em := s.table.isEmpty || v.isEmpty
        let th := if em then maxTheta else min s.table.theta v.theta
        let t := { s.table with isEmpty := em, theta := th }
        if s.isValid && t.numEntries == 0 then .ok ⟨t, s.isValid⟩
        else if v.numRetained = 0 then
          .ok ⟨Table.new elem 0 0 0 maxTheta th em, true⟩
        else if !s.isValid then do
          let lg := lgSizeFromCount v.numRetained
          let t ← interCopy v.all (Table.new elem lg (pred8 lg) 0 maxTheta th em)
          if t.numEntries ≠ v.numRetained then
            .err "num entries mismatch, possibly corrupted input sketch"
          else pure ⟨t, true⟩
        else do
          let maxMatches := min t.numEntries v.numRetained
          let (ms, count) ← interMatch t v.isOrdered maxMatches v.all [] 0
          if count > v.numRetained then .err "more keys than expected, possibly corrupted input sketch"
          else if !v.isOrdered && decide (count < v.numRetained) then
            .err "fewer keys than expected, possibly corrupted input sketch"
          else if ms.length = 0 then
            let t := Table.new elem 0 0 0 maxTheta th em
            pure ⟨if t.theta = maxTheta then { t with isEmpty := true } else t, s.isValid⟩
          else do
            let lg := lgSizeFromCount ms.length
            let t ← interFill ms (Table.new elem lg (pred8 lg) 0 maxTheta th em)
            pure ⟨t, s.isValid⟩

/-- `Result` l.191-221 -/
def Inter.result (s : Inter) (seedHash : Option Nat) (ordered : Bool) : Outcome Compact :=
  if !s.isValid then .err "calling get_result() before calling update() is undefined"
  else
    let entries :=
      if s.table.numEntries > 0 then
        let es := s.table.entries.filter (fun e => e != 0)
        if ordered then sortN es else es
      else []
    match seedHash with
    | none => .err "seed hash of zero"
    | some sh => .ok (compactFromEntries s.table.isEmpty ordered sh s.table.theta entries)

/-! ## A-not-B -/

/-- `computeSortBased` a_not_b.go l.93-110 (a Go map used as a set) -/
def computeSortBased (a b : View) (theta : Nat) : List Nat :=
  a.all.filter (fun e => !b.all.contains e && decide (e < theta))

/-- first loop of `computeHashBased` l.117-128 -/
def hashB (theta : Nat) (ordered : Bool) : List Nat → Tbl → Outcome Tbl
  | [], t => .ok t
  | e :: es, t =>
    if e < theta then
      match t.find elem e with
      | .full => .err "key not found and no empty slots"
      | .found i => do let t ← t.insert elem i e; hashB theta ordered es t
      | .empty i => do let t ← t.insert elem i e; hashB theta ordered es t
      | .panic => .panic
    else if ordered then .ok t
    else hashB theta ordered es t

/-- second loop of `computeHashBased` l.132-141 -/
def scanA (t : Tbl) (theta : Nat) (ordered : Bool) : List Nat → List Nat → Outcome (List Nat)
  | [], acc => .ok acc
  | e :: es, acc =>
    if e < theta then
      match t.find elem e with
      | .empty _ => scanA t theta ordered es (acc ++ [e])
      | .found _ => scanA t theta ordered es acc
      | .full => scanA t theta ordered es acc
      | .panic => .panic
    else if ordered then .ok acc
    else scanA t theta ordered es acc

/-- `computeHashBased` l.112-144 -/
def computeHashBased (a b : View) (theta : Nat) : Outcome (List Nat) := do
  let lg := lgSizeFromCount b.numRetained
  let t ← hashB theta b.isOrdered b.all (Table.new elem lg lg 0 0 0 false)
  scanA t theta a.isOrdered a.all []

/-- choice of the algorithm in `ANotB` l.59-73 -/
def aNotBEntries (a b : View) (theta : Nat) : Outcome (List Nat) :=
  if b.numRetained = 0 then .ok (a.all.filter (fun e => decide (e < theta)))
  else if a.isOrdered && b.isOrdered then .ok (computeSortBased a b theta)
  else computeHashBased a b theta

/-- `ANotB` l.28-91 -/
def aNotB (a b : View) (seedHash : Option Nat) (ordered : Bool) : Outcome Compact :=
  match seedHash with
  | none => .err "seed hash of zero"
  | some sh =>
    if a.isEmpty then .ok (newCompact a ordered)
    else if a.numRetained > 0 && b.isEmpty then .ok (newCompact a ordered)
    else if a.seedHash ≠ sh then .err "sketch A seed hash mismatch"
    else if b.seedHash ≠ sh then .err "sketch B seed hash mismatch"
    else
      let theta := min a.theta b.theta
      do
        let entries ← aNotBEntries a b theta
        let isEmpty := if entries.length = 0 ∧ theta = maxTheta then true else a.isEmpty
        let entries := if ordered && !a.isOrdered then sortN entries else entries
        pure (compactFromEntries isEmpty (a.isOrdered || ordered) sh theta entries)

end Verif.Theta
