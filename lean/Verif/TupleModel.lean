import Verif.ThetaModel

/-!
# Model of the tuple sketch (`tuple/`): update sketch, compact sketch, filter and set operations

A tuple sketch stores a summary with every retained hash.  Summaries are user types behind the
interface `Summary`; in Go they are either pointers to mutable objects (`Update`, `Reset` and
`Policy.Apply` write through the pointer) or plain values (constructors `...WithSummaryUpdateFunc`,
`...WithSummaryMergeFunc`).  The model therefore threads a memory `H` through every operation and is
parameterised by a `Kind`: what the summary operations do to the memory and to the stored summary.
`pointers` and `values` below are the two kinds of the package.

Simplifications: user functions are deterministic and terminate, `Update`/`Apply`/`Reset` write only
to their receiver (first argument), `Clone` succeeds and has the dynamic type `S` (the type assertion
never fails).  Hash functions and seed hashes are parameters as in `ThetaModel`.
-/

namespace Verif.Tuple

open Probe HashTable

/-- The summary operations of a sketch: a memory `H`, stored summaries `S`, update values `V`. -/
structure Kind (H S V : Type) where
  /-- content of a never used slot (Go zero value) -/
  nil : S
  /-- `newSummary()` -/
  make : H → S × H
  /-- `updateFunc(s, v)` or `s.Update(v)`, update_sketch.go l.502-518 -/
  update : H → S → V → S × H
  /-- `applyFunc(internal, incoming)` or `policy.Apply(internal, incoming)`, union.go l.213-217,
  intersection.go l.186-190 -/
  merge : H → S → S → S × H
  /-- `s.Clone()` -/
  clone : H → S → S × H
  /-- `entry.reset`, hashtable.go l.52-62 -/
  clear : H → S → S × H

/-- Summaries behind pointers: the memory is the list of the objects, a summary is the position of
its object.  `zero` is the state `Reset` restores. -/
def pointers {σ V : Type} (new zero : σ) (upd : σ → V → σ) (app : σ → σ → σ) :
    Kind (List σ) Nat V where
  nil := 0
  make h := (h.length, h ++ [new])
  update h s v := (s, h.modify s (fun x => upd x v))
  merge h a b := (a, match h[b]? with
    | some y => h.modify a (fun x => app x y)
    | none => h)
  clone h s := (h.length, match h[s]? with
    | some x => h ++ [x]
    | none => h)
  clear h s := (s, h.modify s (fun _ => zero))

/-- Summaries stored in the entries themselves. -/
def values {σ V : Type} (new : σ) (upd : σ → V → σ) (app : σ → σ → σ) : Kind Unit σ V where
  nil := new
  make _ := (new, ())
  update _ s v := (upd s v, ())
  merge _ a b := (app a b, ())
  clone _ s := (s, ())
  clear _ _ := (new, ())

variable {H S V : Type} (K : Kind H S V)

/-- `entry[S]` hashtable.go l.47-50 -/
abbrev Entry (S : Type) := Nat × S

/-- slots of the table: hash and summary -/
def elem : Elem (Entry S) :=
  ⟨Prod.fst, (0, K.nil), fun e => (0, e.2), rfl, fun _ => rfl⟩

abbrev Tbl (S : Type) := Table (Entry S)

/-- `NewUpdateSketch` update_sketch.go l.95-133 (also `NewUpdateSketchWithSummaryUpdateFunc`
l.139-149, `NewUnion` union.go l.96-131, `NewUnionWithSummaryMergeFunc` l.135-172): the same checks and
the same table as in theta. -/
def newTable (lgK rf startTheta : Nat) : Outcome (Tbl S) :=
  if lgK < 5 then .err "lg_k must not be less than 5"
  else if lgK > 26 then .err "lg_k must not be greater than 26"
  else .ok (Table.new (elem K) (startingSubMultiple (lgK + 1) 5 rf) lgK rf startTheta startTheta true)

open Theta (Status maxTheta)

/-- `UpdateInt64` l.334-351, `UpdateInt32` l.367-384, `UpdateBytes` l.483-500, `UpdateString` l.455-476
for a non-empty key, with `insertOrUpdate` l.502-518; `h1` is the first word of the hash.
Unlike theta, a known key is not an error: its summary is updated. -/
def update (t : Tbl S) (h : H) (h1 : Nat) (v : V) : Outcome (Tbl S × H × Status) :=
  let t := { t with isEmpty := false }
  let hash := h1 >>> 1
  match t.screen hash with
  | .exceedsTheta => .ok (t, h, .exceedsTheta)
  | .zeroHash => .ok (t, h, .zeroHash)
  | .pass =>
    match t.find (elem K) hash with
    | .empty i => do
      let (s, h) := K.make h
      let (s, h) := K.update h s v
      let t ← t.insert (elem K) i (hash, s)
      pure (t, h, .inserted)
    | .found i =>
      match t.entries[i]? with
      | none => .panic
      | some e =>
        let (s, h) := K.update h e.2 v
        .ok ({ t with entries := t.entries.set i (e.1, s) }, h, .duplicate)
    | .full => .ok (t, h, .tableFull)
    | .panic => .panic

/-- loop of `Reset` hashtable.go l.278-280 -/
def clearAll : List (Entry S) → H → List (Entry S) × H
  | [], h => ([], h)
  | e :: es, h =>
    if e.1 ≠ 0 then
      let (s, h) := K.clear h e.2
      let (es, h) := clearAll es h
      ((0, s) :: es, h)
    else
      let (es, h) := clearAll es h
      (e :: es, h)

/-- `Reset` hashtable.go l.269-286 -/
def reset (t : Tbl S) (h : H) : Tbl S × H :=
  let lg := startingSubMultiple (t.lgNom + 1) 5 t.rf
  let (es, h) :=
    if lg ≠ t.lgCur then (List.replicate (2 ^ lg) (elem K).zero, h) else clearAll K t.entries h
  ({ t with entries := es, lgCur := lg, numEntries := 0, theta := t.startTheta, isEmpty := true }, h)

/-- `Theta64` l.276-281 -/
def theta64 (t : Tbl S) : Nat := if t.isEmpty then maxTheta else t.theta

/-- `All` l.298-308 -/
def all (t : Tbl S) : List (Entry S) := t.entries.filter (fun e => e.1 != 0)

/-- The interface `Sketch[S]` (tuple/sketch.go l.35-95) seen by the set operations. -/
structure View (S : Type) where
  isEmpty : Bool
  isOrdered : Bool
  theta : Nat
  seedHash : Nat
  numRetained : Nat
  all : List (Entry S)
  deriving DecidableEq, Repr

/-- an update sketch through the interface: `IsEmpty` l.266, `IsOrdered` l.271, `Theta64` l.276,
`NumRetained` l.284 -/
def viewOf (t : Tbl S) (seedHash : Nat) : View S :=
  ⟨t.isEmpty, decide (t.numEntries ≤ 1), theta64 t, seedHash, t.numEntries, all t⟩

/-- `CompactSketch` compact_sketch.go l.44-50 -/
structure Compact (S : Type) where
  entries : List (Entry S)
  theta : Nat
  seedHash : Nat
  isEmpty : Bool
  isOrdered : Bool
  deriving DecidableEq, Repr

/-- the compact sketch through the interface, l.240-275 (`All` skips entries with hash 0) -/
def Compact.view (c : Compact S) : View S :=
  ⟨c.isEmpty, c.isOrdered, c.theta, c.seedHash, c.entries.length,
    c.entries.filter (fun e => e.1 != 0)⟩

/-- `slices.SortFunc` by hash (l.75-82, l.114-121; union.go l.268; intersection.go l.252;
a_not_b.go l.85-92): ascending by hash; the hashes of a sketch are distinct, so every correct sort
gives this list. -/
def sortE (l : List (Entry S)) : List (Entry S) := l.mergeSort (fun a b => decide (a.1 ≤ b.1))

/-- the copying loops l.61-71, l.290-302, a_not_b.go l.61-68, intersection.go l.242-249 -/
def cloneAll : List (Entry S) → H → List (Entry S) × H
  | [], h => ([], h)
  | e :: es, h =>
    let (s, h) := K.clone h e.2
    let (es, h) := cloneAll es h
    ((e.1, s) :: es, h)

/-- `NewCompactSketch` l.54-92 -/
def newCompact (v : View S) (h : H) (ordered : Bool) : Compact S × H :=
  let (es, h) := cloneAll K v.all h
  let es := if ordered && !v.isOrdered then sortE es else es
  (⟨es, v.theta, v.seedHash, v.isEmpty, v.isOrdered || ordered⟩, h)

/-- `newCompactSketch` l.133-146 -/
def compactFromEntries (isEmpty isOrdered : Bool) (seedHash theta : Nat) (entries : List (Entry S)) :
    Compact S :=
  ⟨entries, theta, seedHash, isEmpty, if entries.length ≤ 1 then true else isOrdered⟩

/-- `NewCompactSketchFromThetaSketch` l.96-131: every entry gets the same summary, without `Clone` -/
def compactFromTheta (v : Theta.View) (s : S) (ordered : Bool) : Compact S :=
  let es := v.all.map (fun k => (k, s))
  let es := if ordered && !v.isOrdered then sortE es else es
  ⟨es, v.theta, v.seedHash, v.isEmpty, v.isOrdered || ordered⟩

/-- `IsEstimationMode` update_sketch.go l.153-155, compact_sketch.go l.150-152 -/
def View.isEstimation (v : View S) : Bool := decide (v.theta < maxTheta) && !v.isEmpty

/-- `Filter` update_sketch.go l.537-539, compact_sketch.go l.279-312.  The predicate is a function of
the summary and of the memory it may point into. -/
def filter (v : View S) (h : H) (p : H → S → Bool) : Compact S × H :=
  let (es, h') := cloneAll K (v.all.filter (fun e => p h e.2)) h
  (compactFromEntries (!v.isEstimation && decide (es.length = 0)) v.isOrdered v.seedHash v.theta es, h')

/-! ## Union -/

/-- `Union` union.go l.30-36 -/
structure Union (S : Type) where
  table : Tbl S
  theta : Nat
  deriving DecidableEq, Repr

/-- `NewUnion` l.96-131 -/
def newUnion (lgK rf startTheta : Nat) : Outcome (Union S) := do
  let t ← newTable K lgK rf startTheta
  pure ⟨t, t.theta⟩

/-- the loop l.199-224; the inserted summary is the one of the input, not a clone -/
def unionLoop (uTheta : Nat) (ordered : Bool) : List (Entry S) → Tbl S → H → Outcome (Tbl S × H)
  | [], t, h => .ok (t, h)
  | e :: es, t, h =>
    if e.1 < uTheta ∧ e.1 < t.theta then
      match t.find (elem K) e.1 with
      | .empty i => do
        let t ← t.insert (elem K) i e
        unionLoop uTheta ordered es t h
      | .found i =>
        match t.entries[i]? with
        | none => .panic
        | some x =>
          let (s, h) := K.merge h x.2 e.2
          unionLoop uTheta ordered es { t with entries := t.entries.set i (x.1, s) } h
      | .full => .err "key not found and no empty slots"
      | .panic => .panic
    else if ordered then .ok (t, h)
    else unionLoop uTheta ordered es t h

/-- `Update` l.179-228 -/
def Union.update (u : Union S) (h : H) (seedHash : Option Nat) (v : View S) :
    Outcome (Union S × H) :=
  if v.isEmpty then .ok (u, h)
  else
    match seedHash with
    | none => .err "seed hash of zero"
    | some sh =>
      if sh ≠ v.seedHash then .err "seed hash mismatch"
      else
        let t := { u.table with isEmpty := false }
        let th := min u.theta v.theta
        do
          let (t, h) ← unionLoop K th v.isOrdered v.all t h
          pure (⟨t, min th t.theta⟩, h)

/-- `Result` l.231-277; the summaries of the result are those of the union, not clones -/
def Union.result (u : Union S) (seedHash : Option Nat) (ordered : Bool) : Outcome (Compact S) :=
  match seedHash with
  | none => .err "seed hash of zero"
  | some sh =>
    if u.table.isEmpty then .ok (compactFromEntries true true sh u.theta [])
    else
      let theta := min u.theta u.table.theta
      let nominal := 2 ^ u.table.lgNom
      let entries :=
        if u.theta ≥ u.table.theta then u.table.entries.filter (fun e => e.1 != 0)
        else u.table.entries.filter (fun e => e.1 != 0 && decide (e.1 < theta))
      let cut : Outcome (List (Entry S) × Nat) :=
        if entries.length > nominal then
          match QuickSelect.quickSelect (ltKey (elem K)) entries 0 ((entries.length : Int) - 1)
              nominal with
          | none => .panic
          | some (es, _) =>
            match es[nominal]? with
            | none => .panic
            | some e => .ok (es.take nominal, e.1)
        else .ok (entries, theta)
      do
        let (entries, theta) ← cut
        let entries := if ordered then sortE entries else entries
        pure (compactFromEntries u.table.isEmpty ordered sh theta entries)

/-- `Reset` l.286-289 -/
def Union.reset (u : Union S) (h : H) : Union S × H :=
  let (t, h) := Tuple.reset K u.table h
  (⟨t, t.theta⟩, h)

/-! ## Intersection -/

/-- `Intersection` intersection.go l.42-48 -/
structure Inter (S : Type) where
  table : Tbl S
  isValid : Bool
  deriving DecidableEq, Repr

/-- `NewIntersection` l.51-74, `NewIntersectionWithSummaryMergeFunc` l.78-103 -/
def newInter : Inter S := ⟨Table.new (elem K) 0 0 0 maxTheta maxTheta false, false⟩

open Theta (lgSizeFromCount pred8)

/-- loop l.152-162 of the first update; the stored summaries are those of the input, not clones -/
def interCopy : List (Entry S) → Tbl S → Outcome (Tbl S)
  | [], t => .ok t
  | e :: es, t =>
    match t.find (elem K) e.1 with
    | .found _ => .err "duplicate key, possibly corrupted input sketch"
    | .empty i => do let t ← t.insert (elem K) i e; interCopy es t
    | .full => do let t ← t.insert (elem K) 0 e; interCopy es t
    | .panic => .panic

/-- loop l.178-201: the matches in order, `count`, the table with the merged summaries -/
def interMatch (ordered : Bool) (maxMatches : Nat) :
    List (Entry S) → Tbl S → H → List (Entry S) → Nat → Outcome (List (Entry S) × Nat × H)
  | [], _, h, ms, count => .ok (ms, count, h)
  | e :: es, t, h, ms, count =>
    if e.1 < t.theta then
      match t.find (elem K) e.1 with
      | .found i =>
        if ms.length = maxMatches then .err "max matches exceeded, possibly corrupted input sketch"
        else
          match t.entries[i]? with
          | none => .panic
          | some x =>
            let (s, h) := K.merge h x.2 e.2
            interMatch ordered maxMatches es { t with entries := t.entries.set i (x.1, s) } h
              (ms ++ [(x.1, s)]) (count + 1)
      | .empty _ => interMatch ordered maxMatches es t h ms (count + 1)
      | .full => interMatch ordered maxMatches es t h ms (count + 1)
      | .panic => .panic
    else if ordered then .ok (ms, count, h)
    else interMatch ordered maxMatches es t h ms (count + 1)

/-- loop l.222-229 -/
def interFill : List (Entry S) → Tbl S → Outcome (Tbl S)
  | [], t => .ok t
  | e :: es, t =>
    match t.find (elem K) e.1 with
    | .full => .err "key not found and no empty slots"
    | .found i => do let t ← t.insert (elem K) i e; interFill es t
    | .empty i => do let t ← t.insert (elem K) i e; interFill es t
    | .panic => .panic

/-- `Update` l.110-232 -/
def Inter.update (s : Inter S) (h : H) (seedHash : Option Nat) (v : View S) :
    Outcome (Inter S × H) :=
  if s.table.isEmpty then .ok (s, h)
  else
    match seedHash with
    | none => .err "seed hash of zero"
    | some sh =>
      if !v.isEmpty && v.seedHash != sh then .err "seed hash mismatch"
      else
        let em := s.table.isEmpty || v.isEmpty
        let th := if em then maxTheta else min s.table.theta v.theta
        let t := { s.table with isEmpty := em, theta := th }
        if s.isValid && t.numEntries == 0 then .ok (⟨t, s.isValid⟩, h)
        else if v.numRetained = 0 then
          .ok (⟨Table.new (elem K) 0 0 0 maxTheta th em, true⟩, h)
        else if !s.isValid then do
          let lg := lgSizeFromCount v.numRetained
          let t ← interCopy K v.all (Table.new (elem K) lg (pred8 lg) 0 maxTheta th em)
          if t.numEntries ≠ v.numRetained then
            .err "num entries mismatch, possibly corrupted input sketch"
          else pure (⟨t, true⟩, h)
        else do
          let maxMatches := min t.numEntries v.numRetained
          let (ms, count, h) ← interMatch K v.isOrdered maxMatches v.all t h [] 0
          if count > v.numRetained then .err "more keys than expected, possibly corrupted input sketch"
          else if !v.isOrdered && decide (count < v.numRetained) then
            .err "fewer keys than expected, possibly corrupted input sketch"
          else if ms.length = 0 then
            let t := Table.new (elem K) 0 0 0 maxTheta th em
            pure (⟨if t.theta = maxTheta then { t with isEmpty := true } else t, s.isValid⟩, h)
          else do
            let lg := lgSizeFromCount ms.length
            let t ← interFill K ms (Table.new (elem K) lg (pred8 lg) 0 maxTheta th em)
            pure (⟨t, s.isValid⟩, h)

/-- `Result` l.235-268: the summaries are cloned -/
def Inter.result (s : Inter S) (h : H) (seedHash : Option Nat) (ordered : Bool) :
    Outcome (Compact S × H) :=
  if !s.isValid then .err "calling get_result() before calling update() is undefined"
  else
    let (entries, h) :=
      if s.table.numEntries > 0 then
        let (es, h) := cloneAll K (s.table.entries.filter (fun e => e.1 != 0)) h
        (if ordered then sortE es else es, h)
      else ([], h)
    match seedHash with
    | none => .err "seed hash of zero"
    | some sh => .ok (compactFromEntries s.table.isEmpty ordered sh s.table.theta entries, h)

/-! ## A-not-B

`ANotB` a_not_b.go l.29-161 and `TupleANotThetaB` l.164-296 are the same function; `b` is only read
through its hashes, so the model takes the theta view of `b`. -/

/-- `computeSortBased` l.104-124, l.239-259: the retained entries of `a`, before cloning -/
def computeSortBased (a : View S) (b : Theta.View) (theta : Nat) : List (Entry S) :=
  a.all.filter (fun e => !b.all.contains e.1 && decide (e.1 < theta))

/-- second loop of `computeHashBased` l.146-158, l.281-293; the table holds the hashes of `b`
(a theta table) -/
def scanA (t : Theta.Tbl) (theta : Nat) (ordered : Bool) :
    List (Entry S) → List (Entry S) → Outcome (List (Entry S))
  | [], acc => .ok acc
  | e :: es, acc =>
    if e.1 < theta then
      match t.find Theta.elem e.1 with
      | .empty _ => scanA t theta ordered es (acc ++ [e])
      | .found _ => scanA t theta ordered es acc
      | .full => scanA t theta ordered es acc
      | .panic => .panic
    else if ordered then .ok acc
    else scanA t theta ordered es acc

/-- `computeHashBased` l.126-161, l.261-296 -/
def computeHashBased (a : View S) (b : Theta.View) (theta : Nat) : Outcome (List (Entry S)) := do
  let lg := lgSizeFromCount b.numRetained
  let t ← Theta.hashB theta b.isOrdered b.all (Table.new Theta.elem lg lg 0 0 0 false)
  scanA t theta a.isOrdered a.all []

/-- choice of the algorithm l.60-77, l.195-212 -/
def aNotBEntries (a : View S) (b : Theta.View) (theta : Nat) : Outcome (List (Entry S)) :=
  if b.numRetained = 0 then .ok (a.all.filter (fun e => decide (e.1 < theta)))
  else if a.isOrdered && b.isOrdered then .ok (computeSortBased a b theta)
  else computeHashBased a b theta

/-- `ANotB` l.29-102, `TupleANotThetaB` l.164-237; the kept summaries are cloned one by one when they
are appended, here together at the end (cloning allocates a copy and touches nothing else) -/
def aNotB (a : View S) (b : Theta.View) (h : H) (seedHash : Option Nat) (ordered : Bool) :
    Outcome (Compact S × H) :=
  match seedHash with
  | none => .err "seed hash of zero"
  | some sh =>
    if a.isEmpty then .ok (newCompact K a h ordered)
    else if a.numRetained > 0 && b.isEmpty then .ok (newCompact K a h ordered)
    else if a.seedHash ≠ sh then .err "sketch A seed hash mismatch"
    else if b.seedHash ≠ sh then .err "sketch B seed hash mismatch"
    else
      let theta := min a.theta b.theta
      do
        let entries ← aNotBEntries a b theta
        let (entries, h) := cloneAll K entries h
        let isEmpty := if entries.length = 0 ∧ theta = maxTheta then true else a.isEmpty
        let entries := if ordered && !a.isOrdered then sortE entries else entries
        pure (compactFromEntries isEmpty (a.isOrdered || ordered) sh theta entries, h)

end Verif.Tuple
