import Verif.Outcome
import Verif.Rand
import Verif.ViewModel
import Mathlib.Data.List.Sort

/-!
# Model of the REQ sketch

Models `req/compactor.go` and `req/sketch.go` (construction, `Update`, `Merge`, `Reset`, the sorted
view and its cache, `MinItem`, `MaxItem`, `All`, `NumRetained`, rank bounds).  Serialization of a
compactor (`Marshal`) is not modelled.

Conventions.

* The item type is a linear order: `float32` without NaN (NaN updates are ignored by the code, they
  are the argument `none` of `update`; `-0` and `+0` are one value).  A NaN in `minItem`/`maxItem`
  is `none`.
* `slices.Sort` is insertion sort: for a linear order there is only one sorted permutation.
* The item arrays are modelled as they are, with the unused cells; `cap(items)` equals `len(items)`
  for every slice the code creates.
* `sectionSizeFlt` is a rational number.  `float32(float64(x) / math.Sqrt2)` is a parameter
  `divSqrt2`, about which the theorems assume that the relative error of its square is at most
  1/1000.
* `numSections` and `lgWeight` are bytes (`% 256`); `state` is a natural number.  A shift by 64 or
  more gives 0, a shift by 63 the smallest int64 (`shl1`).
* Counts are natural numbers; where the code subtracts, a negative result is a panic here.
* `rand.IntN(2)` is `Rand.draw 2`.
* The field `log` is a ghost: it lists the compactions so far, with the compactor before and after.
  No modelled function reads it.
-/

namespace Verif.Req

open Verif Verif.View

structure Env (α : Type) where
  zero : α
  divSqrt2 : ℚ → ℚ

/-- `l[i]` -/
def rd {β : Type} (l : List β) (i : Nat) : Outcome β := Outcome.ofOption l[i]?

/-- `l[i]` with an index that may be negative -/
def rdI {β : Type} (l : List β) (i : Int) : Outcome β := if i < 0 then .panic else rd l i.toNat

/-- `l[i] = v` -/
def wr {β : Type} (l : List β) (i : Nat) (v : β) : Outcome (List β) :=
  if i < l.length then .ok (l.set i v) else .panic

/-- `a - b`, see the header -/
def sub (a b : Nat) : Outcome Nat := if b ≤ a then .ok (a - b) else .panic

/-- req/compactor.go:38-50 -/
structure Compactor (α : Type) where
  items : List α
  count : Nat
  hra : Bool
  sorted : Bool
  numSections : Nat
  coin : Bool
  sectionSizeFlt : ℚ
  state : Nat
  sectionSize : Nat
  delta : Nat
  lgWeight : Nat

variable {α : Type} [LinearOrder α]

/-- req/compactor.go:160-162; `nomCapMul` is 2 -/
def nomCapacity (c : Compactor α) : Nat := 2 * c.numSections * c.sectionSize

/-- req/compactor.go:52-68; `initNumberOfSections` is 3 -/
def newCompactor (env : Env α) (lgWeight : Nat) (hra : Bool) (sectionSize : Nat) : Compactor α :=
  let nomCap := 2 * 3 * sectionSize
  ⟨List.replicate (2 * nomCap) env.zero, 0, hra, true, 3, false, sectionSize, 0, sectionSize,
    nomCap, lgWeight % 256⟩

/-- req/compactor.go:114-116: `bits.TrailingZeros64(^v)` -/
def trailingOnes : Nat → Nat → Nat
  | 0, _ => 0
  | fuel + 1, v => if v % 2 = 1 then trailingOnes fuel (v / 2) + 1 else 0

/-- `int64(1) << e` -/
def shl1 (e : Nat) : Int := if e < 63 then 2 ^ e else if e = 63 then -2 ^ 63 else 0

/-- req/compactor.go:246-248 -/
def nearestEven (x : ℚ) : Int := 2 * goRound (x / 2)

/-- req/compactor.go:551-563 -/
def ensureCapacity (env : Env α) (c : Compactor α) (newCapacity : Nat) : Outcome (Compactor α) :=
  let oldCapacity := c.items.length
  if oldCapacity < newCapacity then
    if oldCapacity < c.count then .panic
    else
      let out := List.replicate newCapacity env.zero
      if c.hra then
        let srcPos := oldCapacity - c.count
        let destPos := newCapacity - c.count
        .ok { c with
          items := out.take destPos ++ (c.items.drop srcPos).take c.count ++
            out.drop (destPos + c.count) }
      else
        .ok { c with
          items := c.items.take c.count ++ out.drop c.count }
  else .ok c

/-- req/compactor.go:544-549 -/
def ensureSpace (env : Env α) (c : Compactor α) (space : Nat) : Outcome (Compactor α) :=
  if c.items.length < c.count + space then ensureCapacity env c (c.count + space + c.delta)
  else .ok c

/-- req/compactor.go:214-227; `minK` is 4 -/
def ensureEnoughSections (env : Env α) (c : Compactor α) : Outcome (Bool × Compactor α) :=
  if shl1 ((c.numSections + 255) % 256) ≤ c.state ∧ 4 < c.sectionSize then
    let szf := env.divSqrt2 c.sectionSizeFlt
    let ne := nearestEven szf
    if 4 ≤ ne then do
      let c' := { c with
        sectionSizeFlt := szf
        sectionSize := ne.toNat
        numSections := (c.numSections * 2) % 256 }
      let c'' ← ensureCapacity env c' (2 * nomCapacity c')
      .ok (true, c'')
    else .ok (false, c)
  else .ok (false, c)

/-- req/compactor.go:196-197: `for c.ensureEnoughSections() {}` -/
def ensureLoop (env : Env α) : Nat → Compactor α → Outcome (Compactor α)
  | 0, _ => .panic
  | fuel + 1, c => do
    let r ← ensureEnoughSections env c
    if r.1 then ensureLoop env fuel r.2 else .ok r.2

/-- req/compactor.go:229-244 -/
def computeCompactionRange (c : Compactor α) (secsToCompact : Nat) : Int :=
  let cnt : Int := c.count
  let nonCompact : Int := ((nomCapacity c / 2 : Nat) : Int) +
    ((c.numSections : Int) - secsToCompact) * c.sectionSize
  let nonCompact := if (cnt - nonCompact) % 2 = 1 then nonCompact + 1 else nonCompact
  if c.hra then (cnt - nonCompact) * 2 ^ 32 + 0 else cnt * 2 ^ 32 + nonCompact

/-- req/compactor.go:358-375 -/
def sort (c : Compactor α) : Outcome (Compactor α) :=
  if c.sorted then .ok c
  else if c.items.length < c.count then .panic
  else if c.hra then
    let start := c.items.length - c.count
    .ok { c with
      items := c.items.take start ++ (c.items.drop start).insertionSort (· ≤ ·)
      sorted := true }
  else
    .ok { c with
      items := (c.items.take c.count).insertionSort (· ≤ ·) ++ c.items.drop c.count
      sorted := true }

/-- req/compactor.go:284-295 -/
def append (env : Env α) (c : Compactor α) (item : α) : Outcome (Compactor α) := do
  let c ← ensureSpace env c 1
  let index ← if c.hra then sub c.items.length (c.count + 1) else .ok c.count
  let items ← wr c.items index item
  .ok { c with
    items := items
    count := c.count + 1
    sorted := false }

/-- One round of the loop req/compactor.go:447-464 -/
def mergeRoundHra (other : List α) (currCap otherCap tgtStart : Nat) (st : List α × Nat × Nat)
    (r : Nat) : Outcome (List α × Nat × Nat) :=
  let k := tgtStart + r
  if st.2.1 < currCap ∧ st.2.2 < otherCap then do
    let x ← rd st.1 st.2.1
    let y ← rd other st.2.2
    if x ≤ y then do
      let items ← wr st.1 k x
      .ok (items, st.2.1 + 1, st.2.2)
    else do
      let items ← wr st.1 k y
      .ok (items, st.2.1, st.2.2 + 1)
  else if st.2.1 < currCap then do
    let x ← rd st.1 st.2.1
    let items ← wr st.1 k x
    .ok (items, st.2.1 + 1, st.2.2)
  else if st.2.2 < otherCap then do
    let y ← rd other st.2.2
    let items ← wr st.1 k y
    .ok (items, st.2.1, st.2.2 + 1)
  else .ok st

/-- One round of the loop req/compactor.go:468-486; `r` counts the rounds, `k = totLen - 1 - r` -/
def mergeRoundLra (other : List α) (totLen : Nat) (st : List α × Int × Int) (r : Nat) :
    Outcome (List α × Int × Int) :=
  let k := totLen - 1 - r
  if 0 ≤ st.2.1 ∧ 0 ≤ st.2.2 then do
    let x ← rdI st.1 st.2.1
    let y ← rdI other st.2.2
    if y ≤ x then do
      let items ← wr st.1 k x
      .ok (items, st.2.1 - 1, st.2.2)
    else do
      let items ← wr st.1 k y
      .ok (items, st.2.1, st.2.2 - 1)
  else if 0 ≤ st.2.1 then do
    let x ← rdI st.1 st.2.1
    let items ← wr st.1 k x
    .ok (items, st.2.1 - 1, st.2.2)
  else if 0 ≤ st.2.2 then do
    let y ← rdI other st.2.2
    let items ← wr st.1 k y
    .ok (items, st.2.1, st.2.2 - 1)
  else .ok st

/-- req/compactor.go:432-493; only the fields `items`, `count` and `sorted` of `other` are read -/
def mergeSortIn (env : Env α) (c : Compactor α) (oItems : List α) (oCount : Nat) (oSorted : Bool) :
    Outcome (Compactor α) :=
  if c.sorted = false ∨ oSorted = false then .err "not sorted"
  else do
    let c ← ensureSpace env c oCount
    let totLen := c.count + oCount
    if c.hra then do
      let currCap := c.items.length
      let otherCap := oItems.length
      let tgtStart ← sub currCap totLen
      let i ← sub currCap c.count
      let j ← sub otherCap oCount
      let st ← (List.range (currCap - tgtStart)).foldlM
        (mergeRoundHra oItems currCap otherCap tgtStart) (c.items, i, j)
      .ok { c with
        items := st.1
        count := c.count + oCount
        sorted := true }
    else do
      let st ← (List.range totLen).foldlM (mergeRoundLra oItems totLen)
        (c.items, (c.count : Int) - 1, (oCount : Int) - 1)
      .ok { c with
        items := st.1
        count := c.count + oCount
        sorted := true }

/-- The loop req/compactor.go:519-523 -/
def promoteLoop (env : Env α) (items : List α) (start end' odd promoteCount : Nat) :
    Outcome (List α) :=
  (List.range ((end' - (start + odd) + 1) / 2)).foldlM (fun promoted j => do
    let x ← rd items (start + odd + 2 * j)
    wr promoted j x) (List.replicate promoteCount env.zero)

/-- req/compactor.go:495-536: the compactor itself, the next one and the number of items promoted -/
def promoteEvensOrOddsInto (env : Env α) (c next : Compactor α) (startOffset endOffset : Nat)
    (odds : Bool) : Outcome (Compactor α × Compactor α × Nat) := do
  let base ← if c.hra then sub c.items.length c.count else .ok 0
  let start := base + startOffset
  let end' := base + endOffset
  let c ← sort c
  let rangeSize ← sub endOffset startOffset
  if rangeSize % 2 = 1 then .err "odd range"
  else do
    let promoteCount := rangeSize / 2
    let promoted ← promoteLoop env c.items start end' (if odds then 1 else 0) promoteCount
    let next ← mergeSortIn env next promoted promoteCount true
    .ok (c, next, promoteCount)

/-- req/compactor.go:119-135: start and end of the compaction -/
def chooseRange (c : Compactor α) : Outcome (Nat × Nat) :=
  let t := trailingOnes 64 c.state + 1
  let secsToCompact := if c.numSections < t then c.numSections else t
  let range := computeCompactionRange c secsToCompact
  let compactionStart := range % 2 ^ 32
  let compactionEnd := range / 2 ^ 32
  if compactionEnd - compactionStart < 2 then .err "range too small"
  else if compactionEnd < 0 then .panic
  else .ok (compactionStart.toNat, compactionEnd.toNat)

/-- req/compactor.go:143-154, after the coin is known: both compactors, and how much the number of
retained items and the nominal size change -/
def compactWith (env : Env α) (c next : Compactor α) (range : Nat × Nat) (coin : Bool) :
    Outcome ((Compactor α × Compactor α) × Int × Int) := do
  let startRetItems := c.count
  let startNomCap := nomCapacity c
  let r ← promoteEvensOrOddsInto env { c with coin := coin } next range.1 range.2 coin
  let newCount ← sub r.1.count (range.2 - range.1)
  let c := { r.1 with
    count := if newCount < r.1.count then newCount else r.1.count
    state := r.1.state + 1 }
  let e ← ensureEnoughSections env c
  .ok ((e.2, r.2.1), ((e.2.count : Int) - startRetItems) + r.2.2,
    (nomCapacity e.2 : Int) - startNomCap)

/-- req/compactor.go:137-141 -/
def flipCoin (c : Compactor α) : Rand Bool :=
  if c.state % 2 = 1 then Rand.ret (!c.coin)
  else do
    let b ← Rand.draw 2
    Rand.ret (b == 1)

/-- req/compactor.go:118-154 -/
def compact (env : Env α) (c next : Compactor α) :
    Rand ((Compactor α × Compactor α) × Int × Int) := do
  let range ← Rand.ofOutcome (chooseRange c)
  let coin ← flipCoin c
  Rand.ofOutcome (compactWith env c next range coin)

/-- req/compactor.go:190-212.  `copyCompactor` (70-86) copies every field. -/
def mergeCompactor (env : Env α) (c other : Compactor α) : Outcome (Compactor α) :=
  if c.lgWeight ≠ other.lgWeight then .err "weights"
  else do
    let c ← ensureLoop env 300 { c with state := c.state ||| other.state }
    let c ← sort c
    let o ← sort other
    if c.count < o.count then
      mergeSortIn env { c with
        items := o.items
        count := o.count
        delta := o.delta } c.items c.count o.sorted
    else mergeSortIn env c o.items o.count o.sorted

/-! ## The sketch -/

/-- A compaction (ghost) -/
structure Event (α : Type) where
  level : Nat
  before : Compactor α
  after : Compactor α

/-- req/sketch.go:61-71 -/
structure Sketch (α : Type) where
  n : Nat
  compactors : List (Compactor α)
  numRetained : Int
  maxNomSize : Int
  minItem : Option α
  maxItem : Option α
  view : Option (NumericView α)
  k : Nat
  hra : Bool
  /-- ghost -/
  log : List (Event α)

/-- req/sketch.go:105-111 -/
def computeMaxNomSize (cs : List (Compactor α)) : Int :=
  cs.foldl (fun capacity comp => capacity + (nomCapacity comp : Int)) 0

/-- req/sketch.go:694-700 -/
def computeRetainedItems (cs : List (Compactor α)) : Int :=
  cs.foldl (fun count comp => count + (comp.count : Int)) 0

/-- req/sketch.go:98-102 -/
def grow (env : Env α) (s : Sketch α) : Sketch α :=
  let cs := s.compactors ++ [newCompactor env s.compactors.length s.hra s.k]
  { s with
    compactors := cs
    maxNomSize := computeMaxNomSize cs }

/-- req/sketch.go:73-96: `minItem` and `maxItem` of a new sketch are the zero value 0 -/
def newSketch (env : Env α) (k : Nat) (hra : Bool) : Outcome (Sketch α) :=
  if k % 2 = 1 ∨ k < 4 ∨ 1024 < k then .err "k"
  else .ok (grow env ⟨0, [], 0, 0, some env.zero, some env.zero, none, k, hra, []⟩)

/-- req/sketch.go:594-603 -/
def reset (env : Env α) (s : Sketch α) : Sketch α :=
  grow env { s with
    n := 0
    numRetained := 0
    maxNomSize := 0
    minItem := none
    maxItem := none
    view := none
    compactors := []
    log := [] }

/-- req/sketch.go:707-709: a full top level gets a level above -/
def growTop (env : Env α) (s : Sketch α) (i : Nat) : Sketch α :=
  if s.compactors.length ≤ i + 1 then grow env s else s

/-- req/sketch.go:711-720 -/
def compactLevel (env : Env α) (s : Sketch α) (i : Nat) (comp : Compactor α) : Rand (Sketch α) := do
  let next ← Rand.ofOutcome (rd s.compactors (i + 1))
  let r ← compact env comp next
  Rand.ret { s with
    compactors := (s.compactors.set i r.1.1).set (i + 1) r.1.2
    numRetained := s.numRetained + r.2.1
    maxNomSize := s.maxNomSize + r.2.2
    log := ⟨i, comp, r.1.1⟩ :: s.log }

/-- req/sketch.go:702-724: the loop from `i` on -/
def compressFrom (env : Env α) : Nat → Nat → Sketch α → Rand (Sketch α)
  | 0, _, _ => Rand.panic
  | fuel + 1, i, s =>
    match s.compactors[i]? with
    | none => Rand.ret { s with view := none }
    | some comp =>
      if nomCapacity comp ≤ comp.count then do
        let s ← compactLevel env (growTop env s i) i comp
        compressFrom env fuel (i + 1) s
      else compressFrom env fuel (i + 1) s

/-- req/sketch.go:702-726 -/
def compress (env : Env α) (s : Sketch α) : Rand (Sketch α) :=
  compressFrom env (s.compactors.length + s.numRetained.toNat + 1) 0 s

/-- `min(item, s.minItem)` with NaN -/
def minN (x : α) : Option α → Option α
  | none => none
  | some y => some (min x y)

def maxN (x : α) : Option α → Option α
  | none => none
  | some y => some (max x y)

/-- req/sketch.go:639-645 -/
def updateExtremes (s : Sketch α) (item : α) : Sketch α :=
  if s.n = 0 then { s with
    minItem := some item
    maxItem := some item }
  else { s with
    minItem := minN item s.minItem
    maxItem := maxN item s.maxItem }

/-- req/sketch.go:639-650 -/
def updateItems (env : Env α) (s : Sketch α) (item : α) : Outcome (Sketch α) := do
  let s := updateExtremes s item
  let comp ← rd s.compactors 0
  let comp ← append env comp item
  .ok { s with
    compactors := s.compactors.set 0 comp
    numRetained := s.numRetained + 1
    n := s.n + 1 }

/-- req/sketch.go:652: `comp.Sort()` -/
def sortZero (s : Sketch α) : Outcome (Sketch α) := do
  let comp ← rd s.compactors 0
  let comp ← sort comp
  .ok { s with compactors := s.compactors.set 0 comp }

/-- req/sketch.go:634-661 -/
def update (env : Env α) (s : Sketch α) : Option α → Rand (Sketch α)
  | none => Rand.ret s
  | some item => do
    let s ← Rand.ofOutcome (updateItems env s item)
    if s.maxNomSize ≤ s.numRetained then do
      let s ← Rand.ofOutcome (sortZero s)
      let s ← compress env s
      Rand.ret { s with view := none }
    else Rand.ret { s with view := none }

/-- req/sketch.go:555-557: `IsNaN(s.minItem) || other.minItem < s.minItem` -/
def mergeMin (a b : Option α) : Option α :=
  match a, b with
  | none, b => b
  | some x, none => some x
  | some x, some y => if y < x then some y else some x

/-- req/sketch.go:558-560 -/
def mergeMax (a b : Option α) : Option α :=
  match a, b with
  | none, b => b
  | some x, none => some x
  | some x, some y => if x < y then some y else some x

/-- req/sketch.go:563-565 -/
def growTo (env : Env α) : Nat → Sketch α → Sketch α
  | 0, s => s
  | d + 1, s => growTo env d (grow env s)

/-- req/sketch.go:553-575 -/
def mergeItems (env : Env α) (s other : Sketch α) : Outcome (Sketch α) := do
  let s := { s with
    n := s.n + other.n
    minItem := mergeMin s.minItem other.minItem
    maxItem := mergeMax s.maxItem other.maxItem
    log := other.log ++ s.log }
  let s := growTo env (other.compactors.length - s.compactors.length) s
  let cs ← (List.range other.compactors.length).foldlM (fun cs i => do
    let c ← rd cs i
    let o ← rd other.compactors i
    let c ← mergeCompactor env c o
    wr cs i c) s.compactors
  .ok { s with
    compactors := cs
    maxNomSize := computeMaxNomSize cs
    numRetained := computeRetainedItems cs }

/-- req/sketch.go:576-580 -/
def compressIfFull (env : Env α) (s : Sketch α) : Rand (Sketch α) :=
  if s.maxNomSize ≤ s.numRetained then compress env s else Rand.ret s

/-- req/sketch.go:582-590 -/
def finishMerge (s : Sketch α) : Outcome (Sketch α) :=
  if s.maxNomSize ≤ s.numRetained then .err "invalid state" else .ok { s with view := none }

/-- req/sketch.go:544-591 -/
def merge (env : Env α) (s other : Sketch α) : Rand (Sketch α) :=
  if other.n = 0 then Rand.ret s
  else if s.hra ≠ other.hra then Rand.err "hra"
  else do
    let s ← Rand.ofOutcome (mergeItems env s other)
    let s ← compressIfFull env s
    Rand.ofOutcome (finishMerge s)

/-- req/sketch.go:248-253 -/
def minItem (s : Sketch α) : Outcome (Option α) := if s.n = 0 then .err "empty" else .ok s.minItem

/-- req/sketch.go:240-245 -/
def maxItem (s : Sketch α) : Outcome (Option α) := if s.n = 0 then .err "empty" else .ok s.maxItem

/-! ## The sorted view -/

/-- One round of the loop req/sketch.go:193-218 over the two arrays in tandem; `k = totalLength-1-r`
-/
def viewRound (items : List α) (weight : Int) (totalLength : Nat)
    (st : List (α × Int) × Int × Int × Int) (r : Nat) : Outcome (List (α × Int) × Int × Int × Int) :=
  let k := totalLength - 1 - r
  let i := st.2.1
  let j := st.2.2.1
  let h := st.2.2.2
  if 0 ≤ i ∧ 0 ≤ j then do
    let x ← rdI st.1 i
    let y ← rdI items h
    if y ≤ x.1 then do
      let a ← wr st.1 k x
      .ok (a, i - 1, j, h)
    else do
      let a ← wr st.1 k (y, weight)
      .ok (a, i, j - 1, h - 1)
  else if 0 ≤ i then do
    let x ← rdI st.1 i
    let a ← wr st.1 k x
    .ok (a, i - 1, j, h)
  else if 0 ≤ j then do
    let y ← rdI items h
    let a ← wr st.1 k (y, weight)
    .ok (a, i, j - 1, h - 1)
  else .ok st

/-- req/sketch.go:174-219: the sorted compactor and the arrays -/
def viewMergeIn (hra : Bool) (comp : Compactor α) (a : List (α × Int)) (weight : Int) (count : Nat) :
    Outcome (Compactor α × List (α × Int)) := do
  let comp ← sort comp
  let h : Int := if hra then (comp.items.length : Int) - 1 else (comp.count : Int) - 1
  let st ← (List.range (count + comp.count)).foldlM
    (viewRound comp.items weight (count + comp.count))
    (a, (count : Int) - 1, (comp.count : Int) - 1, h)
  .ok (comp, st.1)

/-- State of the loop req/sketch.go:150-157 -/
structure ViewState (α : Type) where
  done : List (Compactor α)
  arr : List (α × Int)
  count : Nat

/-- req/sketch.go:150-157 -/
def viewLoop (hra : Bool) (st : ViewState α) (comp : Compactor α) : Outcome (ViewState α) := do
  let r ← viewMergeIn hra comp st.arr (2 ^ comp.lgWeight) st.count
  .ok ⟨st.done ++ [r.1], r.2, st.count + r.1.count⟩

/-- req/sketch.go:221-230 -/
def accumulateNativeRanks (n : Nat) (w : List Int) : Outcome (List Int) := do
  let w ← (List.range (w.length - 1)).foldlM (fun w i => do
    let a ← rd w (i + 1)
    let b ← rd w i
    wr w (i + 1) (a + b)) w
  if 0 < n then do
    let l ← rdI w ((w.length : Int) - 1)
    if l ≠ n then .err "sum of weights" else .ok w
  else .ok w

/-- A NaN extreme does not occur in a sketch that is not empty (theorem); the model panics there. -/
def need (x : Option α) : Outcome α := Outcome.ofOption x

/-- req/sketch.go:141-169 -/
def refreshSortedView (env : Env α) (s : Sketch α) : Outcome (NumericView α × Sketch α) :=
  match s.view with
  | some v => .ok (v, s)
  | none =>
    if s.n = 0 then .err "empty"
    else do
      let st ← s.compactors.foldlM (viewLoop s.hra)
        ⟨[], List.replicate s.numRetained.toNat (env.zero, 0), 0⟩
      let cw ← accumulateNativeRanks s.n (st.arr.map Prod.snd)
      let mx ← need s.maxItem
      let mn ← need s.minItem
      let v ← newNumericView (st.arr.map Prod.fst) cw s.n mx mn
      .ok (v, { s with
        compactors := st.done
        view := some v })

/-! ## Iteration -/

/-- req/compactor.go:302-310 -/
def item (c : Compactor α) (offset : Nat) : Outcome α :=
  if c.hra then do
    let b ← sub c.items.length c.count
    rd c.items (b + offset)
  else rd c.items offset

/-- The loop req/sketch.go:517-538 -/
def allLoop (cs : List (Compactor α)) : Nat → Nat → Nat → List (α × Int) → Outcome (List (α × Int))
  | 0, _, _, _ => .panic
  | fuel + 1, ci, ii, acc => do
    let c ← rd cs ci
    let q ← item c ii
    let acc := acc ++ [(q, 2 ^ ci)]
    if (ii : Int) = (c.count : Int) - 1 then
      if cs.length ≤ ci + 1 then .ok acc else allLoop cs fuel (ci + 1) 0 acc
    else allLoop cs fuel ci (ii + 1) acc

/-- req/sketch.go:506-541 -/
def all (s : Sketch α) : Outcome (List (α × Int)) :=
  if s.numRetained = 0 then .ok [] else allLoop s.compactors (s.numRetained.toNat + 1) 0 0 []

/-! ## Rank bounds -/

/-- req/sketch.go:750-762 -/
def isExactRank (k levels : Nat) (rank : ℚ) (hra : Bool) (n : Nat) : Bool :=
  let baseCap := k * 3
  if levels = 1 ∨ n ≤ baseCap then true
  else
    let t : ℚ := (baseCap : ℚ) / n
    if hra then decide (1 - t ≤ rank) else decide (rank ≤ t)

/-- req/sketch.go:728-748; `relRSE` stands for `relRSEFactor`, the square root of 0.0512/3 -/
def rankLowerBound (relRSE : ℚ) (k levels : Nat) (rank : ℚ) (numStdDev : Int) (hra : Bool) (n : Nat) :
    ℚ :=
  if isExactRank k levels rank hra n then rank
  else
    let relative := relRSE / k * (if hra then 1 - rank else rank)
    let fixed := (84 / 1000 : ℚ) / k
    max (rank - numStdDev * relative) (rank - numStdDev * fixed)

/-- req/sketch.go:764-784 -/
def rankUpperBound (relRSE : ℚ) (k levels : Nat) (rank : ℚ) (numStdDev : Int) (hra : Bool) (n : Nat) :
    ℚ :=
  if isExactRank k levels rank hra n then rank
  else
    let relative := relRSE / k * (if hra then 1 - rank else rank)
    let fixed := (84 / 1000 : ℚ) / k
    min (rank + numStdDev * relative) (rank + numStdDev * fixed)

/-! ## Queries -/

/-- Make the view, then ask it; the empty sketch is refused. -/
def ask {β : Type} (env : Env α) (s : Sketch α) (f : NumericView α → Outcome β) :
    Outcome (β × Sketch α) :=
  if s.n = 0 then .err "empty"
  else do
    let r ← refreshSortedView env s
    let x ← f r.1
    .ok (x, r.2)

/-- req/sketch.go:450-474, for a finite `q` -/
def rank (env : Env α) (s : Sketch α) (q : α) (incl : Bool) : Outcome (ℚ × Sketch α) :=
  ask env s fun v => v.rank q incl

/-- req/sketch.go:302-320 -/
def quantile (env : Env α) (s : Sketch α) (r : ℚ) (incl : Bool) : Outcome (α × Sketch α) :=
  ask env s fun v => v.quantile r incl

/-- req/sketch.go:276-294 -/
def pmf (env : Env α) (s : Sketch α) (sp : List α) (incl : Bool) : Outcome (List ℚ × Sketch α) :=
  ask env s fun v => v.pmf sp incl

/-- req/sketch.go:120-134 -/
def cdf (env : Env α) (s : Sketch α) (sp : List α) (incl : Bool) : Outcome (List ℚ × Sketch α) :=
  ask env s fun v => v.cdf sp incl

/-- req/sketch.go:390-404, `Sketch.RankLowerBound` -/
def sketchRankLB (relRSE : ℚ) (s : Sketch α) (r : ℚ) (numStdDev : Int) : ℚ :=
  rankLowerBound relRSE s.k s.compactors.length r numStdDev s.hra s.n

/-- req/sketch.go:433-447, `Sketch.RankUpperBound` -/
def sketchRankUB (relRSE : ℚ) (s : Sketch α) (r : ℚ) (numStdDev : Int) : ℚ :=
  rankUpperBound relRSE s.k s.compactors.length r numStdDev s.hra s.n

/-- req/sketch.go:373-381 -/
def quantileLowerBound (relRSE : ℚ) (env : Env α) (s : Sketch α) (r : ℚ) (numStdDev : Int) :
    Outcome (α × Sketch α) :=
  quantile env s (sketchRankLB relRSE s r numStdDev) true

/-- req/sketch.go:416-424 -/
def quantileUpperBound (relRSE : ℚ) (env : Env α) (s : Sketch α) (r : ℚ) (numStdDev : Int) :
    Outcome (α × Sketch α) :=
  quantile env s (sketchRankUB relRSE s r numStdDev) true

end Verif.Req
