import Verif.Outcome
import Verif.Probe
import Verif.QuickSelectModel

/-!
# Model of `theta/hashtable.go` and `tuple/hashtable.go`

The two files contain the same algorithm; theta stores bare hashes, tuple stores
`entry{Hash, Summary}`.  The model is generic in the entry type: `Elem α` says how to read the hash
of an entry (`0` = free slot), what a freshly allocated slot contains, and how `Reset` clears a slot.

Simplifications: `numEntries` (uint32) is a `Nat` (it never exceeds the table size, at most 2^27);
`seed` and `p` are not stored, `startTheta` is the value of `startingThetaFromP(p)` (a float
computation that is not modelled).
-/

namespace Verif.HashTable

open Probe

/-- Entry type: theta `uint64`, tuple `entry[S]` (tuple/hashtable.go l.47-62). -/
structure Elem (α : Type) where
  key : α → Nat
  zero : α
  clear : α → α
  key_zero : key zero = 0
  key_clear : ∀ e, key (clear e) = 0

/-- `Hashtable` theta/hashtable.go l.46-56; tuple/hashtable.go l.64-76 -/
structure Table (α : Type) where
  entries : List α
  theta : Nat
  numEntries : Nat
  lgCur : Nat
  lgNom : Nat
  rf : Nat
  startTheta : Nat
  isEmpty : Bool
  deriving DecidableEq, Repr

variable {α : Type} (E : Elem α)

/-- `NewHashtable` theta l.59-78, tuple l.78-105 (`entries` is nil for `lgCurSize = 0`) -/
def Table.new (lgCur lgNom rf startTheta theta : Nat) (isEmpty : Bool) : Table α :=
  ⟨if lgCur > 0 then List.replicate (2 ^ lgCur) E.zero else [], theta, 0, lgCur, lgNom, rf,
    startTheta, isEmpty⟩

/-- `computeStride` theta l.189-192, tuple l.192-195 -/
def computeStride (key lg : Nat) : Nat := 2 * ((key >>> lg) &&& 127) + 1

/-- `find` theta l.166-186, tuple l.169-189: index arithmetic in uint32 -/
def scheme (lg : Nat) : Scheme α where
  emp := fun e => E.key e == 0
  key := E.key
  size := 2 ^ lg
  start := fun k => (k % 2 ^ 32) &&& (2 ^ lg - 1)
  next := fun k i => ((i + computeStride k lg) % 2 ^ 32) &&& (2 ^ lg - 1)

/-- `find(entries, lgSize, key)` -/
def findIn (entries : List α) (lg key : Nat) : Res := (scheme E lg).find entries key

/-- `Find` theta l.162-164 -/
def Table.find (t : Table α) (key : Nat) : Res := findIn E t.entries t.lgCur key

/-- `computeCapacity` theta l.208-216, tuple l.211-219.  `fraction * 2^lg` is exact in float64, so
the floor is integer division. -/
def computeCapacity (lgCur lgNom : Nat) : Nat :=
  if lgCur ≤ lgNom then 2 ^ lgCur / 2 else 15 * 2 ^ lgCur / 16

/-- `index, _ := find(...); entries[index] = e` (theta l.228-229, l.253-254): the error is ignored
and the index is 0 when the table is full. -/
def place (lg : Nat) (entries : List α) (e : α) : Outcome (List α) :=
  match findIn E entries lg (E.key e) with
  | .found i => .ok (entries.set i e)
  | .empty i => .ok (entries.set i e)
  | .full => if 0 < entries.length then .ok (entries.set 0 e) else .panic
  | .panic => .panic

/-- loop over the entries to be re-inserted (theta l.224-231 with the test `key != 0`; l.252-255
the test is vacuous there, the entries are non-zero) -/
def placeAll (lg : Nat) : List α → List α → Outcome (List α)
  | entries, [] => .ok entries
  | entries, e :: es =>
    if E.key e ≠ 0 then do
      let entries ← place E lg entries e
      placeAll lg entries es
    else placeAll lg entries es

/-- loop of `rebuild` l.252-255: no test for zero -/
def placeEach (lg : Nat) : List α → List α → Outcome (List α)
  | entries, [] => .ok entries
  | entries, e :: es => do
    let entries ← place E lg entries e
    placeEach lg entries es

/-- `resize` theta l.218-235, tuple l.221-238 (uint8 arithmetic for the new size) -/
def Table.resize (t : Table α) : Outcome (Table α) :=
  let lgNew := min ((t.lgCur + t.rf) % 256) ((t.lgNom + 1) % 256)
  if t.entries.length < 2 ^ t.lgCur then .panic
  else do
    let es ← placeAll E lgNew (List.replicate (2 ^ lgNew) E.zero) (t.entries.take (2 ^ t.lgCur))
    pure { t with entries := es, lgCur := lgNew }

/-- first loop of `consolidateNonEmpty` theta l.287-290 -/
def firstEmpty (entries : List α) (size : Nat) : Nat → Nat → Outcome Nat
  | 0, _ => .panic
  | fuel + 1, i =>
    if i < size then
      match entries[i]? with
      | none => .panic
      | some e => if E.key e ≠ 0 then firstEmpty entries size fuel (i + 1) else .ok i
    else .ok i

/-- second loop of `consolidateNonEmpty` theta l.293-302 -/
def consolidateLoop (size num : Nat) : Nat → List α → Nat → Nat → Outcome (List α)
  | 0, _, _, _ => .panic
  | fuel + 1, entries, i, j =>
    if j < size then
      match entries[j]? with
      | none => .panic
      | some e =>
        if E.key e ≠ 0 then
          let entries := (entries.set i e).set j E.zero
          if i + 1 = num then .ok entries
          else consolidateLoop size num fuel entries (i + 1) (j + 1)
        else consolidateLoop size num fuel entries i (j + 1)
    else .ok entries

/-- `consolidateNonEmpty` theta l.285-303, tuple l.288-306 -/
def consolidateNonEmpty (entries : List α) (size num : Nat) : Outcome (List α) := do
  let i ← firstEmpty E entries size (size + 1) 0
  consolidateLoop E size num (size + 1) entries i (i + 1)

/-- comparison used by QuickSelect: by hash -/
def ltKey (a b : α) : Bool := decide (E.key a < E.key b)

/-- `rebuild` theta l.237-256, tuple l.240-259 -/
def Table.rebuild (t : Table α) : Outcome (Table α) := do
  let nominal := 2 ^ t.lgNom
  let es ← consolidateNonEmpty E t.entries (2 ^ t.lgCur) t.numEntries
  if es.length < t.numEntries then .panic  -- slicing t.entries[:t.numEntries]
  else
    match QuickSelect.quickSelect (ltKey E) (es.take t.numEntries) 0 ((t.numEntries : Int) - 1) nominal with
    | none => .panic
    | some (pre, _) =>
      let es := pre ++ es.drop t.numEntries
      match es[nominal]? with
      | none => .panic
      | some pivot => do
        let new ← placeEach E t.lgCur (List.replicate (2 ^ t.lgCur) E.zero) (es.take nominal)
        pure { t with entries := new, numEntries := nominal, theta := E.key pivot }

/-- `Insert` theta l.195-206, tuple l.198-209 -/
def Table.insert (t : Table α) (index : Nat) (e : α) : Outcome (Table α) :=
  if index < t.entries.length then
    let t := { t with entries := t.entries.set index e, numEntries := t.numEntries + 1 }
    if t.numEntries > computeCapacity t.lgCur t.lgNom then
      if t.lgCur ≤ t.lgNom then t.resize E else t.rebuild E
    else .ok t
  else .panic

/-- `Trim` theta l.259-263, tuple l.262-266 -/
def Table.trim (t : Table α) : Outcome (Table α) :=
  if t.numEntries > 2 ^ t.lgNom then t.rebuild E else .ok t

/-- `startingSubMultiple` theta/utils.go l.62-70, tuple/hashtable.go l.319-327 -/
def startingSubMultiple (lgTgt lgMin lgRf : Nat) : Nat :=
  if lgTgt ≤ lgMin then lgMin
  else if lgRf = 0 then lgTgt
  else (lgTgt - lgMin) % lgRf + lgMin

/-- `Reset` theta l.266-283, tuple l.269-286; MinLgK = 5 -/
def Table.reset (t : Table α) : Table α :=
  let lg := startingSubMultiple (t.lgNom + 1) 5 t.rf
  { t with
    entries := if lg ≠ t.lgCur then List.replicate (2 ^ lg) E.zero
               else t.entries.map (fun e => if E.key e ≠ 0 then E.clear e else e)
    lgCur := lg, numEntries := 0, theta := t.startTheta, isEmpty := true }

/-- Outcome of screening a hash, `Hash*AndScreen` theta l.105-158, tuple l.108-161 -/
inductive Screen where
  | pass
  | exceedsTheta
  | zeroHash
  deriving DecidableEq, Repr

/-- screening of `hash = h1 >> 1` -/
def Table.screen (t : Table α) (hash : Nat) : Screen :=
  if hash ≥ t.theta then .exceedsTheta
  else if hash = 0 then .zeroHash
  else .pass

end Verif.HashTable
