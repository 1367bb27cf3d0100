import Verif.Outcome
import Verif.Rand

/-!
# Model of the KLL items sketch

Models `kll/items_sketch.go` (construction, `Update`, `Merge`, `Reset`, `GetMinItem`, `GetMaxItem`,
`GetNumRetained`) and the parts of `kll/utils.go` it uses.  The sorted view is in
`KllViewModel.lean`; serialization is not modelled here.

Conventions.

* The item type is an arbitrary type `α`; a nil item of the Go code is the argument `none` of
  `updateItem`.  `compareFn` is an arbitrary function `lt`; the zero value of the item type (the
  content of a fresh slice) is `zero`.
* `slices.SortFunc` and `sort.Slice` are parameters; the theorems assume only that they return a
  sorted permutation of their argument.
* The one flat item array with its level boundaries is modelled as it is: `levels` holds the
  boundaries (length `numLevels + 1`), `items` the whole array including the unused cells.
* Indices are `uint32`, level numbers `uint8`, in the code.  Every subtraction that could wrap is
  checked here and ends in `panic`; additions do not overflow because the array never has more than
  `62 · 65535` cells (the invariant contains `items.length ≤ k · numLevels`).
* `rand.Intn(2)` is `Rand.draw 2`; the functions that use it are split into a part without
  randomness that takes the offset as an argument and the draw.  `deterministicOffsetForTest` is
  not modelled.
* The field `log` is a ghost: it lists the levels of the compactions performed so far.  No
  modelled function reads it.
-/

namespace Verif.Kll

open Verif

/-- `l[i]` -/
def rd {β : Type} (l : List β) (i : Nat) : Outcome β := Outcome.ofOption l[i]?

/-- `l[i] = v` -/
def wr {β : Type} (l : List β) (i : Nat) (v : β) : Outcome (List β) :=
  if i < l.length then .ok (l.set i v) else .panic

/-- `a - b` on indices; wrapping around is treated as a panic (see the header) -/
def sub (a b : Nat) : Outcome Nat := if b ≤ a then .ok (a - b) else .panic

structure Env (α : Type) where
  zero : α
  /-- `compareFn` -/
  lt : α → α → Bool
  /-- `slices.SortFunc` with `compareFn` -/
  sort : List α → List α
  /-- `sort.Slice` with `compareFn` -/
  sortSlice : List α → List α

/-- kll/items_sketch.go:39-60; `sortedView`, `serde` and the test switch are left out -/
structure Sketch (α : Type) where
  k : Nat
  m : Nat
  minK : Nat
  numLevels : Nat
  isLevelZeroSorted : Bool
  n : Nat
  levels : List Nat
  items : List α
  minItem : α
  maxItem : α
  hasMinMax : Bool
  /-- ghost -/
  log : List Nat

variable {α : Type}

/-- kll/items_sketch.go:85-102; `m` is not checked -/
def newSketch (env : Env α) (k m : Nat) : Outcome (Sketch α) :=
  if k < 8 ∨ 65535 < k then .err "k"
  else .ok ⟨k, m, k, 1, false, 0, [k, k], List.replicate k env.zero, env.zero, env.zero, false, []⟩

/-- kll/items_sketch.go:477-488 (`minK` is not reset) -/
def reset (env : Env α) (s : Sketch α) : Sketch α :=
  ⟨s.k, s.m, s.minK, 1, false, 0, [s.k, s.k], List.replicate s.k env.zero, env.zero, env.zero,
    false, []⟩

/-- kll/items_sketch.go:200-202 -/
def isEmpty (s : Sketch α) : Bool := s.n == 0

/-- kll/items_sketch.go:215-217 -/
def getNumRetained (s : Sketch α) : Outcome Nat := do
  let a ← rd s.levels s.numLevels
  let b ← rd s.levels 0
  sub a b

/-- kll/items_sketch.go:220-225 -/
def getMinItem (s : Sketch α) : Outcome α :=
  if isEmpty s then .err "empty" else .ok s.minItem

/-- kll/items_sketch.go:228-233 -/
def getMaxItem (s : Sketch α) : Outcome α :=
  if isEmpty s then .err "empty" else .ok s.maxItem

/-- kll/items_sketch.go:236-238 -/
def isEstimationMode (s : Sketch α) : Bool := decide (1 < s.numLevels)

/-- kll/items_sketch.go:243-250 -/
def getTotalItemsArray (env : Env α) (s : Sketch α) : List α :=
  if s.n = 0 then List.replicate s.k env.zero else s.items

/-! ## Capacities -/

/-- kll/items_sketch.go:1023-1031.  `k << 1` is computed in `uint16`; the table `powersOfThree` has
the 31 entries `3^0 .. 3^30`. -/
def intCapAuxAux (k depth : Nat) : Outcome Nat :=
  if 30 < depth then .panic
  else
    let twok := (k * 2) % 65536
    let tmp := twok * 2 ^ depth / 3 ^ depth
    let result := (tmp + 1) / 2
    .ok (if result ≤ k then result else k)

/-- kll/items_sketch.go:1013-1021 -/
def intCapAux (k depth : Nat) : Outcome Nat :=
  if depth ≤ 30 then intCapAuxAux k depth
  else do
    let tmp ← intCapAuxAux k (depth / 2)
    intCapAuxAux (tmp % 65536) (depth - depth / 2)

/-- kll/items_sketch.go:1008-1011 -/
def levelCapacity (k numLevels level m : Nat) : Outcome Nat := do
  let depth ← sub numLevels (level + 1)
  let c ← intCapAux k depth
  .ok (max m c)

/-- kll/items_sketch.go:1000-1006 -/
def computeTotalItemCapacity (k m numLevels : Nat) : Outcome Nat :=
  (List.range numLevels).foldlM (fun total level => do
    let c ← levelCapacity k numLevels level m
    .ok (total + c)) 0

/-- kll/items_sketch.go:988-998.  `fuel` bounds the number of rounds; the loop of the code has no
bound of its own and ends with an index panic. -/
def findLevelFrom (k m numLevels : Nat) (levels : List Nat) : Nat → Nat → Outcome Nat
  | 0, _ => .panic
  | fuel + 1, level => do
    let e ← rd levels (level + 1)
    let b ← rd levels level
    let pop ← sub e b
    let capacity ← levelCapacity k numLevels level m
    if capacity ≤ pop then .ok level else findLevelFrom k m numLevels levels fuel (level + 1)

def findLevelToCompact (k m numLevels : Nat) (levels : List Nat) : Outcome Nat :=
  findLevelFrom k m numLevels levels levels.length 0

/-- kll/utils.go:102-105; `FloorPowerOf2` (internal/utils.go:95-101) keeps the highest set bit, so
the number of trailing zeros is `⌊log2 n⌋` -/
def ubOnNumLevels (n : Nat) : Nat := 1 + Nat.log2 n

/-- kll/utils.go:107-109 -/
def getNumRetainedAboveLevelZero (numLevels : Nat) (levels : List Nat) : Outcome Nat := do
  let a ← rd levels numLevels
  let b ← rd levels 1
  sub a b

/-- kll/utils.go:111-116 -/
def currentLevelSizeItems (level numLevels : Nat) (levels : List Nat) : Outcome Nat :=
  if numLevels ≤ level then .ok 0
  else do
    let e ← rd levels (level + 1)
    let b ← rd levels level
    sub e b

/-! ## Array loops -/

/-- `for i := 0; i < cnt; i++ { dst[dstPos+i] = src[srcPos+i] }`, two different slices -/
def copyItems {β : Type} (dst : List β) (dstPos : Nat) (src : List β) (srcPos cnt : Nat) :
    Outcome (List β) :=
  (List.range cnt).foldlM (fun dst i => do
    let v ← rd src (srcPos + i)
    wr dst (dstPos + i) v) dst

/-- The same loop within one slice, upwards. -/
def moveDown {β : Type} (buf : List β) (dstPos srcPos cnt : Nat) : Outcome (List β) :=
  (List.range cnt).foldlM (fun buf i => do
    let v ← rd buf (srcPos + i)
    wr buf (dstPos + i) v) buf

/-- kll/items_sketch.go:923-929: the same loop within one slice, downwards. -/
def moveUp {β : Type} (buf : List β) (dstPos srcPos cnt : Nat) : Outcome (List β) :=
  (List.range cnt).foldlM (fun buf r => do
    let v ← rd buf (srcPos + (cnt - r) - 1)
    wr buf (dstPos + (cnt - r) - 1) v) buf

/-- `slices.SortFunc(buf[start:start+length], ...)` -/
def sortRange (env : Env α) (buf : List α) (start length : Nat) : Outcome (List α) :=
  if start + length ≤ buf.length then
    .ok (buf.take start ++ env.sort ((buf.drop start).take length) ++ buf.drop (start + length))
  else .panic

/-- kll/items_sketch.go:1033-1044.  Round `r` has `i = start+length-1-r`, `j = start+length-1-
offset-2r`.  With `start + length/2 = 0` the loop condition is always true and the first index is
`2^32-1`. -/
def halveUp (buf : List α) (start length offset : Nat) : Outcome (List α) :=
  if start + length / 2 = 0 then .panic
  else (List.range (length - length / 2)).foldlM (fun buf r => do
    let j ← sub (start + length) (1 + offset + 2 * r)
    let v ← rd buf j
    wr buf (start + length - 1 - r) v) buf

/-- kll/items_sketch.go:1046-1057 -/
def halveDown (buf : List α) (start length offset : Nat) : Outcome (List α) :=
  (List.range (length / 2)).foldlM (fun buf r => do
    let v ← rd buf (start + offset + 2 * r)
    wr buf (start + r) v) buf

/-- One round of the loop kll/items_sketch.go:1070-1084; the state is `a`, `b` and `bufC`. -/
def mergeRound (lt : α → α → Bool) (readA readB : List α → List α) (limA limB startC : Nat)
    (st : Nat × Nat × List α) (i : Nat) : Outcome (Nat × Nat × List α) :=
  let a := st.1
  let b := st.2.1
  let buf := st.2.2
  let c := startC + i
  if a = limA then do
    let v ← rd (readB buf) b
    let buf ← wr buf c v
    .ok (a, b + 1, buf)
  else if b = limB then do
    let v ← rd (readA buf) a
    let buf ← wr buf c v
    .ok (a + 1, b, buf)
  else do
    let va ← rd (readA buf) a
    let vb ← rd (readB buf) b
    if lt va vb then do
      let buf ← wr buf c va
      .ok (a + 1, b, buf)
    else do
      let buf ← wr buf c vb
      .ok (a, b + 1, buf)

/-- kll/items_sketch.go:1059-1085.  `readA buf` and `readB buf` are the current contents of the
first and second slice when the third one is `buf`: constants if the slices are different,
`buf` itself if all three are the same slice. -/
def mergeSorted (lt : α → α → Bool) (readA : List α → List α) (startA lenA : Nat)
    (readB : List α → List α) (startB lenB : Nat) (bufC : List α) (startC : Nat) :
    Outcome (List α) := do
  let st ← (List.range (lenA + lenB)).foldlM
    (mergeRound lt readA readB (startA + lenA) (startB + lenB) startC) (startA, startB, bufC)
  .ok st.2.2

/-- kll/items_sketch.go:892-900 and 1182-1190 -/
def sortIf (env : Env α) (doSort : Bool) (buf : List α) (start length : Nat) : Outcome (List α) :=
  if doSort then sortRange env buf start length else .ok buf

/-- kll/items_sketch.go:892-909 and 1182-1200 (the same statements in both places): sort if
required, halve the even part of the level, and merge into the level above if that is not empty. -/
def compactSegment (env : Env α) (buf : List α) (adjBeg adjPop rawEnd popAbove : Nat)
    (doSort : Bool) (offset : Nat) : Outcome (List α) := do
  let buf ← sortIf env doSort buf adjBeg adjPop
  if popAbove = 0 then halveUp buf adjBeg adjPop offset
  else do
    let buf ← halveDown buf adjBeg adjPop offset
    mergeSorted env.lt id adjBeg (adjPop / 2) id rawEnd popAbove buf (adjBeg + adjPop / 2)

/-! ## Update -/

/-- `for lvl := 0; lvl < cnt; lvl++ { levels[lvl] += x }` -/
def addToLevels (lv : List Nat) (cnt x : Nat) : Outcome (List Nat) :=
  (List.range cnt).foldlM (fun lv l => do
    let v ← rd lv l
    wr lv l (v + x)) lv

/-- kll/items_sketch.go:937-986 -/
def addEmptyTopLevel (env : Env α) (s : Sketch α) : Outcome (Sketch α) := do
  let total ← rd s.levels s.numLevels
  let delta ← levelCapacity s.k (s.numLevels + 1) 0 s.m
  let newTotal := total + delta
  let grow := decide (s.levels.length < s.numLevels + 2)
  let lv := if grow then s.levels ++ List.replicate (s.numLevels + 2 - s.levels.length) 0
    else s.levels
  let newNum := if grow then s.numLevels + 1 else s.numLevels
  let lv ← addToLevels lv newNum delta
  let lv ← wr lv newNum newTotal
  let it ← copyItems (List.replicate newTotal env.zero) delta s.items 0 total
  .ok { s with
    numLevels := newNum
    levels := lv
    items := it }

/-- kll/items_sketch.go:864-872: choose the level and add a level on top if it is the last one -/
def compressPrepare (env : Env α) (s : Sketch α) : Outcome (Nat × Sketch α) := do
  let level ← findLevelToCompact s.k s.m s.numLevels s.levels
  if level = s.numLevels - 1 then do
    let s ← addEmptyTopLevel env s
    .ok (level, s)
  else .ok (level, s)

/-- `x` or `x - 1` (kll/items_sketch.go:913-918 for the boundary of the compacted level) -/
def subIf (c : Bool) (x : Nat) : Outcome Nat := if c then sub x 1 else .ok x

/-- kll/items_sketch.go:915: the left-over item -/
def keepLeftover (c : Bool) (buf : List α) (src dst : Nat) : Outcome (List α) :=
  if c then (do
    let v ← rd buf src
    wr buf dst v)
  else .ok buf

/-- kll/items_sketch.go:920-930: shift the levels below -/
def shiftBelow (level : Nat) (buf : List α) (rawBeg base half : Nat) : Outcome (List α) :=
  if 0 < level then (do
    let amount ← sub rawBeg base
    moveUp buf (base + half) base amount)
  else .ok buf

/-- kll/items_sketch.go:873-935, given the level and the result of `rand.Intn(2)` -/
def compressLevel (env : Env α) (s : Sketch α) (level offset : Nat) : Outcome (Sketch α) := do
  let rawBeg ← rd s.levels level
  let rawEnd ← rd s.levels (level + 1)
  let aboveEnd ← rd s.levels (level + 2)
  let popAbove ← sub aboveEnd rawEnd
  let rawPop ← sub rawEnd rawBeg
  let oddPop := rawPop % 2 == 1
  let adjBeg := if oddPop then rawBeg + 1 else rawBeg
  let adjPop := if oddPop then rawPop - 1 else rawPop
  let half := adjPop / 2
  let it ← compactSegment env s.items adjBeg adjPop rawEnd popAbove (level == 0) offset
  let newIndex ← sub rawEnd half
  let lv ← wr s.levels (level + 1) newIndex
  let cur ← subIf oddPop newIndex
  let lv ← wr lv level cur
  let it ← keepLeftover oddPop it rawBeg cur
  let base ← rd lv 0
  let it ← shiftBelow level it rawBeg base half
  let lv ← addToLevels lv level half
  .ok { s with
    levels := lv
    items := it
    log := level :: s.log }

/-- kll/items_sketch.go:864-935 -/
def compressWhileUpdating (env : Env α) (s : Sketch α) : Rand (Sketch α) := do
  let p ← Rand.ofOutcome (compressPrepare env s)
  let offset ← Rand.draw 2
  Rand.ofOutcome (compressLevel env p.2 p.1 offset)

/-- kll/items_sketch.go:710-721 -/
def noteMinMax (env : Env α) (s : Sketch α) (x : α) : Sketch α :=
  if s.hasMinMax then
    { s with
      minItem := if env.lt x s.minItem then x else s.minItem
      maxItem := if env.lt s.maxItem x then x else s.maxItem }
  else
    { s with
      minItem := x
      maxItem := x
      hasMinMax := true }

/-- kll/items_sketch.go:727-731 -/
def storeItem (s : Sketch α) (x : α) : Outcome (Sketch α) := do
  let level0space ← rd s.levels 0
  let nextPos ← sub level0space 1
  let lv ← wr s.levels 0 nextPos
  let it ← wr s.items nextPos x
  .ok { s with
    n := s.n + 1
    isLevelZeroSorted := false
    levels := lv
    items := it }

/-- kll/items_sketch.go:722-726 -/
def makeRoom (env : Env α) (s : Sketch α) : Rand (Sketch α) := do
  let level0space ← Rand.ofOutcome (rd s.levels 0)
  if level0space = 0 then compressWhileUpdating env s else Rand.ret s

/-- kll/items_sketch.go:706-732 for an item that is not nil -/
def updateSome (env : Env α) (s : Sketch α) (x : α) : Rand (Sketch α) := do
  let s ← makeRoom env (noteMinMax env s x)
  Rand.ofOutcome (storeItem s x)

/-- kll/items_sketch.go:458-461 and 706-732 -/
def update (env : Env α) (s : Sketch α) (x : Option α) : Rand (Sketch α) :=
  match x with
  | none => Rand.ret s
  | some x => updateSome env s x

/-! ## Merge -/

/-- kll/items_sketch.go:1100-1119, one level; the state is `workbuf` and `worklevels` -/
def populateLevel (env : Env α) (myNum : Nat) (myLevels : List Nat) (myItems : List α)
    (otherNum : Nat) (otherLevels : List Nat) (otherItems : List α)
    (st : List α × List Nat) (lvl : Nat) : Outcome (List α × List Nat) := do
  let selfPop ← currentLevelSizeItems lvl myNum myLevels
  let otherPop ← currentLevelSizeItems lvl otherNum otherLevels
  let at' ← rd st.2 lvl
  let wl ← wr st.2 (lvl + 1) (at' + selfPop + otherPop)
  if 0 < selfPop ∧ otherPop = 0 then do
    let p ← rd myLevels lvl
    let wb ← copyItems st.1 at' myItems p selfPop
    .ok (wb, wl)
  else if selfPop = 0 ∧ 0 < otherPop then do
    let p ← rd otherLevels lvl
    let wb ← copyItems st.1 at' otherItems p otherPop
    .ok (wb, wl)
  else if 0 < selfPop ∧ 0 < otherPop then do
    let p ← rd myLevels lvl
    let q ← rd otherLevels lvl
    let wb ← mergeSorted env.lt (fun _ => myItems) p selfPop (fun _ => otherItems) q otherPop
      st.1 at'
    .ok (wb, wl)
  else .ok (st.1, wl)

/-- kll/items_sketch.go:1087-1120 -/
def populateWorkArrays (env : Env α) (workbuf : List α) (worklevels : List Nat) (provisional : Nat)
    (myNum : Nat) (myLevels : List Nat) (myItems : List α)
    (otherNum : Nat) (otherLevels : List Nat) (otherItems : List α) :
    Outcome (List α × List Nat) := do
  let wl ← wr worklevels 0 0
  let selfPopZero ← currentLevelSizeItems 0 myNum myLevels
  let p ← rd myLevels 0
  let wb ← copyItems workbuf 0 myItems p selfPopZero
  let wl ← wr wl 1 selfPopZero
  (List.range (provisional - 1)).foldlM (fun st i =>
    populateLevel env myNum myLevels myItems otherNum otherLevels otherItems st (i + 1)) (wb, wl)

/-- The loop state of `generalItemsCompress`: the one buffer, both boundary arrays and the local
variables (`log` is the ghost list of compactions). -/
structure GC (α : Type) where
  buf : List α
  inLevels : List Nat
  outLevels : List Nat
  numLevels : Nat
  cur : Nat
  target : Nat
  log : List Nat

/-- kll/items_sketch.go:1143-1147 -/
def gcTop (g : GC α) (c : Nat) : Outcome (GC α) :=
  if c + 1 = g.numLevels then do
    let v ← rd g.inLevels (c + 1)
    let il ← wr g.inLevels (c + 2) v
    .ok { g with inLevels := il }
  else .ok g

/-- The condition of kll/items_sketch.go:1149-1153; the result is `true` if the level is only
copied -/
def gcKeeps (k m : Nat) (g : GC α) (c : Nat) : Outcome Bool := do
  let rawBeg ← rd g.inLevels c
  let rawLim ← rd g.inLevels (c + 1)
  let rawPop ← sub rawLim rawBeg
  if g.cur < g.target then .ok true
  else do
    let capacity ← levelCapacity k g.numLevels c m
    .ok (decide (rawPop < capacity))

/-- kll/items_sketch.go:1154-1157 -/
def gcCopy (g : GC α) (c : Nat) : Outcome (GC α) := do
  let rawBeg ← rd g.inLevels c
  let rawLim ← rd g.inLevels (c + 1)
  let rawPop ← sub rawLim rawBeg
  let out ← rd g.outLevels c
  let buf ← moveDown g.buf out rawBeg rawPop
  let ol ← wr g.outLevels (c + 1) (out + rawPop)
  .ok { g with
    buf := buf
    outLevels := ol }

/-- kll/items_sketch.go:1174-1179: the left-over item -/
def gcLeftover (c : Bool) (buf : List α) (out rawBeg : Nat) : Outcome (List α) :=
  if c then moveDown buf out rawBeg 1 else .ok buf

/-- kll/items_sketch.go:1210-1213: the capacity of the new bottom level -/
def gcDelta (k m numLevels c : Nat) : Outcome Nat :=
  if c + 1 = numLevels then levelCapacity k (numLevels + 1) 0 m else .ok 0

/-- kll/items_sketch.go:1162-1213, given the result of `rand.Intn(2)` -/
def gcCompact (env : Env α) (k m : Nat) (levelZeroSorted : Bool) (g : GC α) (c offset : Nat) :
    Outcome (GC α) := do
  let rawBeg ← rd g.inLevels c
  let rawLim ← rd g.inLevels (c + 1)
  let aboveLim ← rd g.inLevels (c + 2)
  let popAbove ← sub aboveLim rawLim
  let rawPop ← sub rawLim rawBeg
  let oddPop := rawPop % 2 == 1
  let adjBeg := if oddPop then rawBeg + 1 else rawBeg
  let adjPop := if oddPop then rawPop - 1 else rawPop
  let half := adjPop / 2
  let out ← rd g.outLevels c
  let buf ← gcLeftover oddPop g.buf out rawBeg
  let ol ← wr g.outLevels (c + 1) (if oddPop then out + 1 else out)
  let buf ← compactSegment env buf adjBeg adjPop rawLim popAbove (c == 0 && !levelZeroSorted) offset
  let cur ← sub g.cur half
  let newLim ← sub rawLim half
  let il ← wr g.inLevels (c + 1) newLim
  let delta ← gcDelta k m g.numLevels c
  .ok { buf := buf
        inLevels := il
        outLevels := ol
        numLevels := if c + 1 = g.numLevels then g.numLevels + 1 else g.numLevels
        cur := cur
        target := g.target + delta
        log := c :: g.log }

/-- One round of the loop kll/items_sketch.go:1140-1220 -/
def gcRound (env : Env α) (k m : Nat) (levelZeroSorted : Bool) (g : GC α) (c : Nat) :
    Rand (GC α) := do
  let g ← Rand.ofOutcome (gcTop g c)
  let keep ← Rand.ofOutcome (gcKeeps k m g c)
  if keep then Rand.ofOutcome (gcCopy g c)
  else do
    let offset ← Rand.draw 2
    Rand.ofOutcome (gcCompact env k m levelZeroSorted g c offset)

/-- kll/items_sketch.go:1140-1220; `fuel` bounds the number of rounds -/
def gcLoop (env : Env α) (k m : Nat) (levelZeroSorted : Bool) : Nat → GC α → Nat → Rand (GC α)
  | 0, _, _ => Rand.panic
  | fuel + 1, g, c => do
    let g ← gcRound env k m levelZeroSorted g c
    if c + 1 = g.numLevels then Rand.ret g
    else gcLoop env k m levelZeroSorted fuel g (c + 1)

/-- kll/items_sketch.go:1134-1138 -/
def gcInit (k m numLevels : Nat) (workbuf : List α) (worklevels outlevels : List Nat)
    (log : List Nat) : Outcome (GC α) := do
  let a ← rd worklevels numLevels
  let b ← rd worklevels 0
  let cur ← sub a b
  let target ← computeTotalItemCapacity k m numLevels
  let ol ← wr outlevels 0 0
  .ok ⟨workbuf, worklevels, ol, numLevels, cur, target, log⟩

/-- kll/items_sketch.go:801-826: the new item array and the new boundaries -/
def finishMerge (env : Env α) (myItems : List α) (myLevelsLen : Nat) (g : GC α) :
    Outcome (List α × List Nat) := do
  let base := if g.target = myItems.length then myItems else List.replicate g.target env.zero
  let free ← sub g.target g.cur
  let out0 ← rd g.outLevels 0
  let it ← copyItems base free g.buf out0 g.cur
  let theShift ← sub free out0
  let len := if myLevelsLen < g.numLevels + 1 then g.numLevels + 1 else myLevelsLen
  let lv ← (List.range (g.numLevels + 1)).foldlM (fun lv lvl => do
    let v ← rd g.outLevels lvl
    wr lv lvl (v + theShift)) (List.replicate len 0)
  .ok (it, lv)

/-- kll/items_sketch.go:777-830: the higher levels of the other sketch -/
def mergeHigher (env : Env α) (s other : Sketch α) (finalN : Nat) (log : List Nat) :
    Rand (Sketch α) := do
  let myItems := getTotalItemsArray env s
  let otherItems := getTotalItemsArray env other
  let r ← Rand.ofOutcome (getNumRetained s)
  let r' ← Rand.ofOutcome (getNumRetainedAboveLevelZero other.numLevels other.levels)
  let ub := ubOnNumLevels finalN
  let provisional := max s.numLevels other.numLevels
  let w ← Rand.ofOutcome (populateWorkArrays env (List.replicate (r + r') env.zero)
    (List.replicate (ub + 2) 0) provisional s.numLevels s.levels myItems
    other.numLevels other.levels otherItems)
  let g ← Rand.ofOutcome (gcInit s.k s.m provisional w.1 w.2 (List.replicate (ub + 2) 0) log)
  let g ← gcLoop env s.k s.m s.isLevelZeroSorted (ub + 1) g 0
  let f ← Rand.ofOutcome (finishMerge env myItems s.levels.length g)
  Rand.ret { s with
    numLevels := g.numLevels
    levels := f.2
    items := f.1
    log := g.log }

/-- kll/items_sketch.go:832-861; `s` is the sketch after the items were merged, `s0` before -/
def mergePreamble (env : Env α) (s0 other s : Sketch α) : Sketch α :=
  { s with
    n := s0.n + other.n
    minK := if isEstimationMode other then min s0.minK other.minK else s.minK
    minItem := if isEmpty s0 then other.minItem
      else if env.lt s0.minItem other.minItem then s0.minItem else other.minItem
    maxItem := if isEmpty s0 then other.maxItem
      else if env.lt other.maxItem s0.maxItem then s0.maxItem else other.maxItem
    hasMinMax := if isEmpty s0 then other.hasMinMax else true }

/-- kll/items_sketch.go:760-764: level zero of the other sketch -/
def mergeLevelZero (env : Env α) (s other : Sketch α) : Rand (Sketch α) := do
  let b ← Rand.ofOutcome (rd other.levels 0)
  let e ← Rand.ofOutcome (rd other.levels 1)
  (List.range (e - b)).foldlM (fun s i => do
    let x ← Rand.ofOutcome (rd (getTotalItemsArray env other) (b + i))
    updateSome env s x) s

/-- kll/items_sketch.go:777-830: the higher levels, if any -/
def mergeUpper (env : Env α) (s other : Sketch α) (finalN : Nat) : Rand (Sketch α) :=
  if 1 < other.numLevels then mergeHigher env s other finalN (s.log ++ other.log)
  else Rand.ret { s with items := getTotalItemsArray env s }

/-- kll/items_sketch.go:468-474 and 734-862; `other` is a different sketch (see DESIGN.md for
merging a sketch into itself) -/
def merge (env : Env α) (s other : Sketch α) : Rand (Sketch α) :=
  if isEmpty other then Rand.ret s
  else do
    let t ← mergeLevelZero env s other
    let t ← mergeUpper env t other (s.n + other.n)
    Rand.ret (mergePreamble env s other t)

end Verif.Kll
