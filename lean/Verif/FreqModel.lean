import Verif.Ints
import Verif.QuickSelectModel

/-!
# Model of `frequencies/reverse_purge_long_hash_map.go`, `reverse_purge_item_hash_map.go`,
`longs_sketch.go`, `items_sketch.go`

The two maps contain the same algorithm and differ in three points, which are the fields of `Cfg`:
the key type with its hash function, the drift limit (1024 in the long map, none in the item map),
and whether the second clean-up loop also visits the slot `firstProbe`.

The three parallel arrays `keys`, `values`, `states` are one list of slots (they always have the same
length).  `values` are int64 (`wrap 8`), `states` int16 (`wrap 2`).  `lg` stands for `lgLength`;
`loadThreshold` is always `3 * 2^lg / 4` and is not stored.  Memory limits are not modelled.
-/

namespace Verif.Freq

/-- parameters of a map -/
structure Cfg (κ : Type) where
  /-- `hashFn(key)` (utils.go l.60-68) as a uint64, resp. `hasher.Hash(key)` -/
  hash : κ → Nat
  /-- `reversePurgeLongHashMapDriftLimit` l.52; the item map has no limit -/
  limit : Option Nat
  /-- item map l.216 `probe > firstProbe`; long map l.207 `probe-1 > firstProbe` -/
  visitFirst : Bool

/-- `drift >= driftLimit` -/
def Cfg.over {κ : Type} (c : Cfg κ) (drift : Nat) : Bool :=
  match c.limit with
  | none => false
  | some l => decide (l ≤ drift)

/-- one index of the three arrays -/
structure Slot (κ : Type) where
  key : κ
  val : Int
  st : Int
  deriving DecidableEq, Repr

/-- `reversePurgeLongHashMap` l.30-37 -/
structure Map (κ : Type) where
  lg : Nat
  slots : List (Slot κ)
  num : Nat
  deriving DecidableEq, Repr

variable {κ : Type} [DecidableEq κ] (c : Cfg κ)

/-- `int(float64(size) * 0.75)` for a power of two: exact -/
def capOf (size : Nat) : Nat := 3 * size / 4

/-- `newReversePurgeLongHashMap(1 << lg)` l.60-76; `z` is the zero value of the key type -/
def newMap (z : κ) (lg : Nat) : Map κ := ⟨lg, List.replicate (2 ^ lg) ⟨z, 0, 0⟩, 0⟩

/-- loop of `hashProbe` long l.338-345, item l.282-290: the final `probe` -/
def hashProbeLoop (t : List (Slot κ)) (k : κ) : Nat → Nat → Outcome Nat
  | 0, _ => .panic
  | fuel + 1, probe =>
    match t[probe]? with
    | none => .panic
    | some s =>
      if s.st > 0 ∧ s.key ≠ k then hashProbeLoop t k fuel ((probe + 1) &&& (t.length - 1))
      else .ok probe

/-- `get` long l.78-87, item l.80-94 -/
def get (t : List (Slot κ)) (k : κ) : Outcome Int := do
  let p ← hashProbeLoop t k t.length (c.hash k &&& (t.length - 1))
  let s ← Outcome.ofOption t[p]?
  if s.st > 0 then
    if s.key = k then pure s.val else .err "key not found"
  else pure 0

/-- probing loop of `adjustOrPutValue` long l.106-112, item l.113-118: final `probe` and `drift` -/
def adjustLoop (t : List (Slot κ)) (k : κ) : Nat → Nat → Nat → Outcome (Nat × Nat)
  | 0, _, _ => .panic
  | fuel + 1, probe, drift =>
    match t[probe]? with
    | none => .panic
    | some s =>
      if s.st ≠ 0 ∧ s.key ≠ k then
        if c.over (drift + 1) then .err "drift >= driftLimit"
        else adjustLoop t k fuel ((probe + 1) &&& (t.length - 1)) (drift + 1)
      else .ok (probe, drift)

/-- `adjustOrPutValue` long l.100-130, item l.106-137 -/
def adjustOrPut (m : Map κ) (k : κ) (a : Int) : Outcome (Map κ) := do
  let (p, drift) ← adjustLoop c m.slots k m.slots.length (c.hash k &&& (m.slots.length - 1)) 1
  let s ← Outcome.ofOption m.slots[p]?
  if s.st = 0 then
    if m.num > capOf (2 ^ m.lg) then .err "numActive >= loadThreshold"
    else pure { m with slots := m.slots.set p ⟨k, a, wrap 2 drift⟩, num := m.num + 1 }
  else if s.key ≠ k then .err "keys[probe] != key"
  else pure { m with slots := m.slots.set p { s with val := wrap 8 (s.val + a) } }

/-- loop of `resize` long l.143-147, item l.149-156 -/
def resizeLoop : List (Slot κ) → Map κ → Outcome (Map κ)
  | [], m => .ok m
  | s :: ss, m =>
    if s.st > 0 then do
      let m ← adjustOrPut c m s.key s.val
      resizeLoop ss m
    else resizeLoop ss m

/-- `resize(2 * len(keys))` long l.132-149, item l.139-158 -/
def resize (z : κ) (m : Map κ) : Outcome (Map κ) := resizeLoop c m.slots (newMap z (m.lg + 1))

/-- loop of `hashDelete` long l.224-241, item l.234-249.  In the long map the limit makes the
function return early with an error that the callers ignore (l.202, l.210). -/
def deleteLoop : Nat → List (Slot κ) → Nat → Nat → Nat → Outcome (List (Slot κ))
  | 0, _, _, _, _ => .panic
  | fuel + 1, t, del, probe, drift =>
    match t[probe]? with
    | none => .panic
    | some s =>
      if s.st ≠ 0 then
        let mv : Bool := decide (s.st > wrap 2 drift)
        let t' := if mv then
            (t.set del ⟨s.key, s.val, wrap 2 (s.st - wrap 2 drift)⟩).set probe { s with st := 0 }
          else t
        let del' := if mv then probe else del
        let drift' := (if mv then 0 else drift) + 1
        if c.over drift' then .ok t'
        else deleteLoop fuel t' del' ((probe + 1) &&& (t.length - 1)) drift'
      else .ok t

/-- `hashDelete` long l.216-243, item l.225-250 -/
def hashDelete (t : List (Slot κ)) (del : Nat) : Outcome (List (Slot κ)) := do
  let s ← Outcome.ofOption t[del]?
  deleteLoop c t.length (t.set del { s with st := 0 }) del ((del + 1) &&& (t.length - 1)) 1

/-- `adjustAllValuesBy` long l.183-188, item l.191-196 -/
def adjustAll (t : List (Slot κ)) (a : Int) : List (Slot κ) :=
  t.map (fun s => { s with val := wrap 8 (s.val + a) })

/-- first loop of `keepOnlyPositiveCounts` long l.192-195: the argument is `firstProbe + 1`;
a negative index panics -/
def findFirst (t : List (Slot κ)) : Nat → Outcome Nat
  | 0 => .panic
  | p + 1 =>
    match t[p]? with
    | none => .panic
    | some s => if s.st > 0 then findFirst t p else .ok p

/-- body of the two clean-up loops, long l.201-204, l.209-212, over the visited positions -/
def cleanLoop : List Nat → List (Slot κ) → Nat → Outcome (List (Slot κ) × Nat)
  | [], t, num => .ok (t, num)
  | p :: ps, t, num =>
    match t[p]? with
    | none => .panic
    | some s =>
      if s.st > 0 ∧ s.val ≤ 0 then do
        let t ← hashDelete c t p
        cleanLoop ps t (num - 1)
      else cleanLoop ps t num

/-- positions visited by the loops l.197-205 and l.207-213 (item: l.208-222), in order -/
def cleanOrder (visitFirst : Bool) (first len : Nat) : List Nat :=
  (List.range first).reverse ++
    (List.range' (first + 1) (len - (first + 1))).reverse ++ (if visitFirst then [first] else [])

/-- `keepOnlyPositiveCounts` long l.190-214, item l.198-223 -/
def keepOnlyPositive (t : List (Slot κ)) (num : Nat) : Outcome (List (Slot κ) × Nat) := do
  let first ← findFirst t t.length
  cleanLoop c (cleanOrder c.visitFirst first t.length) t num

/-- sampling loop of `purge` long l.156-162, item l.165-171: the first `limit` active values;
running past the end of the arrays panics -/
def sampleLoop : List (Slot κ) → Nat → Outcome (List Int)
  | _, 0 => .ok []
  | [], _ + 1 => .panic
  | s :: ss, limit + 1 =>
    if s.st > 0 then do
      let r ← sampleLoop ss limit
      pure (s.val :: r)
    else sampleLoop ss (limit + 1)

def ltInt (a b : Int) : Bool := decide (a < b)

/-- `purge` long l.151-168, item l.160-176 -/
def purge (m : Map κ) (sampleSize : Nat) : Outcome (Map κ × Int) := do
  let limit := min sampleSize m.num
  let samples ← sampleLoop m.slots limit
  match QuickSelect.quickSelect ltInt samples 0 ((samples.length : Int) - 1) (limit / 2) with
  | none => .panic
  | some (_, val) => do
    let (t, num) ← keepOnlyPositive c (adjustAll m.slots (wrap 8 (-1 * val))) m.num
    pure ({ m with slots := t, num := num }, val)

/-- `getActiveKeys`/`getActiveValues` long l.308-332, item l.252-276, zipped -/
def active (t : List (Slot κ)) : List (κ × Int) :=
  (t.filter (fun s => decide (s.st > 0))).map (fun s => (s.key, s.val))

/-- iterator long l.360-393, item l.305-337: `next` until it returns false.  `stride` is
`int(uint64(float64(len)*InverseGolden) | 1)`, a parameter of which only oddness is used. -/
def iterLoop (t : List (Slot κ)) (stride num : Nat) : Nat → Nat → Nat → Outcome (List (κ × Int))
  | 0, _, _ => .panic
  | fuel + 1, i, count =>
    if count < num then
      match t[i]? with
      | none => .panic
      | some s =>
        if s.st > 0 then do
          let r ← iterLoop t stride num fuel ((i + stride) &&& (t.length - 1)) (count + 1)
          pure ((s.key, s.val) :: r)
        else iterLoop t stride num fuel ((i + stride) &&& (t.length - 1)) count
    else .ok []

/-- all pairs produced by the iterator (the first index is `(-stride + stride) & mask = 0`) -/
def iterate (m : Map κ) (stride : Nat) : Outcome (List (κ × Int)) :=
  iterLoop m.slots stride m.num (m.slots.length + 1) 0 0

/-! ## the sketch -/

/-- `LongsSketch` l.32-47, `ItemsSketch` l.40-55 -/
structure Sketch (κ : Type) where
  lgMax : Nat
  curCap : Nat
  offset : Int
  weight : Int
  sampleSize : Nat
  map : Map κ
  deriving DecidableEq, Repr

/-- `NewLongsSketch` l.61-80: `lgMaxMapSize`, `lgCurMapSize` not negative -/
def newLongs (z : κ) (lgMax lgCur : Nat) : Sketch κ :=
  let lgMax := max lgMax 3
  let lgCur := max lgCur 3
  ⟨lgMax, capOf (2 ^ lgCur), 0, 0, min 1024 (capOf (2 ^ lgMax)), newMap z lgCur⟩

/-- `NewFrequencyItemsSketch` l.65-84: the sample size is computed from the unclamped argument -/
def newItems (z : κ) (lgMax lgCur : Nat) : Sketch κ :=
  let lgMax' := max lgMax 3
  let lgCur := max lgCur 3
  ⟨lgMax', capOf (2 ^ lgCur), 0, 0, min 1024 (capOf (2 ^ lgMax)), newMap z lgCur⟩

/-- `UpdateMany` long l.412-443, item l.352-381 (for a non-nil item) -/
def Sketch.update (z : κ) (s : Sketch κ) (k : κ) (count : Int) : Outcome (Sketch κ) :=
  if count = 0 then .ok s
  else if count < 0 then .err "count may not be negative"
  else do
    let m ← adjustOrPut c s.map k count
    let s := { s with weight := wrap 8 (s.weight + count), map := m }
    if m.num > s.curCap then
      if m.lg < s.lgMax then do
        let m ← resize c z m
        pure { s with map := m, curCap := capOf (2 ^ m.lg) }
      else do
        let (m, v) ← purge c m s.sampleSize
        if m.num > capOf (2 ^ s.lgMax) then .err "purge did not reduce active items"
        else pure { s with map := m, offset := wrap 8 (s.offset + v) }
    else pure s

/-- `GetLowerBound` long l.308-311, item l.238-240 -/
def Sketch.lowerBound (s : Sketch κ) (k : κ) : Outcome Int := get c s.map.slots k

/-- `GetUpperBound` long l.319-325, item l.245-249; also `GetEstimate` of the long sketch l.293-299 -/
def Sketch.upperBound (s : Sketch κ) (k : κ) : Outcome Int := do
  let v ← get c s.map.slots k
  pure (wrap 8 (v + s.offset))

/-- `GetEstimate` of the item sketch l.224-232 -/
def Sketch.itemEstimate (s : Sketch κ) (k : κ) : Outcome Int := do
  let v ← get c s.map.slots k
  if v > 0 then pure (wrap 8 (v + s.offset)) else pure 0

/-- `IsEmpty` long l.395-397, item l.327-329 -/
def Sketch.isEmpty (s : Sketch κ) : Bool := s.map.num == 0

/-- loop of `Merge` -/
def updateAll (z : κ) : List (κ × Int) → Sketch κ → Outcome (Sketch κ)
  | [], s => .ok s
  | (k, v) :: r, s => do
    let s ← s.update c z k v
    updateAll z r s

/-- `Merge` long l.451-466, item l.393-410; `other` is a different sketch.  `stride` is that of the
iterator over `other`. -/
def Sketch.merge (z : κ) (s other : Sketch κ) (stride : Nat) : Outcome (Sketch κ) :=
  if other.isEmpty then .ok s
  else do
    let items ← iterate other.map stride
    let s' ← updateAll c z items s
    pure { s' with offset := wrap 8 (s'.offset + other.offset),
                   weight := wrap 8 (s.weight + other.weight) }

/-- `Reset` long l.538-544, item l.489-499 -/
def Sketch.reset (z : κ) (s : Sketch κ) : Sketch κ :=
  { s with curCap := capOf (2 ^ 3), offset := 0, weight := 0, map := newMap z 3 }

/-- a row of the result of `GetFrequentItems` (row.go l.24-36) -/
structure Row (κ : Type) where
  item : κ
  est : Int
  ub : Int
  lb : Int
  deriving DecidableEq, Repr

/-- selection loop of `sortItems` long l.561-583, item l.516-538; `itemEst` selects the estimate of
the item sketch -/
def selectRows (s : Sketch κ) (itemEst noFalseNeg : Bool) (threshold : Int) :
    List (κ × Int) → Outcome (List (Row κ))
  | [] => .ok []
  | (k, _) :: r => do
    let v ← get c s.map.slots k
    let ub := wrap 8 (v + s.offset)
    let est := if itemEst then (if v > 0 then ub else 0) else ub
    let rest ← selectRows s itemEst noFalseNeg threshold r
    if (if noFalseNeg then ub else v) ≥ threshold then pure (⟨k, est, ub, v⟩ :: rest)
    else pure rest

/-- `GetFrequentItemsWithThreshold` long l.345-351, item l.286-292.  `slices.SortFunc` by decreasing
estimate is modelled by a merge sort (the order of equal estimates is unspecified in Go). -/
def Sketch.frequentItems (s : Sketch κ) (stride : Nat) (itemEst noFalseNeg : Bool)
    (threshold : Int) : Outcome (List (Row κ)) := do
  let items ← iterate s.map stride
  let rows ← selectRows c s itemEst noFalseNeg (max threshold s.offset) items
  pure (rows.mergeSort (fun a b => decide (a.est ≥ b.est)))

end Verif.Freq
