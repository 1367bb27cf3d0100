import Verif.KllModel
import Verif.ViewModel

/-!
# Model of the KLL sorted view

Models `kll/items_sketch_sorted_view.go`, `convertToCumulative`, `checkItems` and
`evenlySpacedDoubles` of `kll/utils.go`, and the query functions of `kll/items_sketch.go` with the
cached view.

Conventions as in `KllModel.lean` and `ViewModel.lean`; in addition

* the item type is a linear order and `compareFn` is its `<` (field `lt` of the environment, the
  theorems assume the two agree).  The code mixes `compareFn` and `==`, so it needs a comparison
  for which equivalent items are equal;
* the two arrays that `blockyTandemMergeSort` moves in tandem (same indices in every statement) are
  one array of pairs;
* split points are not nil.
-/

namespace Verif.Kll

open Verif Verif.View Verif.Inequality

variable {α : Type} [LinearOrder α]

/-- kll/items_sketch_sorted_view.go:29-36 -/
structure SView (α : Type) where
  quantiles : List α
  cumWeights : List Int
  totalN : Nat
  maxItem : α
  minItem : α

/-- kll/utils.go:37-44 -/
def convertToCumulative (subtotal : Int) : List Int → List Int
  | [] => []
  | w :: ws => (subtotal + w) :: convertToCumulative (subtotal + w) ws

/-- kll/items_sketch_sorted_view.go:275-286.  `fuel` bounds the number of rounds. -/
def tandemLoop (lt : α → α → Bool) (src : List (α × Int)) (to1 to2 : Nat) :
    Nat → Nat × Nat × Nat × List (α × Int) → Outcome (Nat × Nat × Nat × List (α × Int))
  | 0, _ => .panic
  | fuel + 1, (i1, i2, d, dst) =>
    if i1 < to1 ∧ i2 < to2 then do
      let x ← rd src i1
      let y ← rd src i2
      if lt x.1 y.1 ∨ x.1 = y.1 then do
        let dst ← wr dst d x
        tandemLoop lt src to1 to2 fuel (i1 + 1, i2, d + 1, dst)
      else do
        let dst ← wr dst d y
        tandemLoop lt src to1 to2 fuel (i1, i2 + 1, d + 1, dst)
    else .ok (i1, i2, d, dst)

/-- `copy(dst[d:], src[from:to])` -/
def copySlice {β : Type} (dst : List β) (d : Nat) (src : List β) (from' to' : Nat) :
    Outcome (List β) :=
  if d ≤ dst.length ∧ from' ≤ to' ∧ to' ≤ src.length then
    let seg := ((src.take to').drop from').take (dst.length - d)
    .ok (dst.take d ++ seg ++ dst.drop (d + seg.length))
  else .panic

/-- kll/items_sketch_sorted_view.go:287-293 -/
def tandemRest (src : List (α × Int)) (to1 to2 : Nat) (st : Nat × Nat × Nat × List (α × Int)) :
    Outcome (List (α × Int)) :=
  if st.1 < to1 then copySlice st.2.2.2 st.2.2.1 src st.1 to1
  else if st.2.1 < to2 then copySlice st.2.2.2 st.2.2.1 src st.2.1 to2
  else .ok st.2.2.2

/-- kll/items_sketch_sorted_view.go:266-294 -/
def tandemMerge (lt : α → α → Bool) (src dst : List (α × Int)) (levels : List Nat)
    (startingLevel1 numLevels1 startingLevel2 numLevels2 : Nat) : Outcome (List (α × Int)) := do
  let from1 ← rd levels startingLevel1
  let to1 ← rd levels (startingLevel1 + numLevels1)
  let from2 ← rd levels startingLevel2
  let to2 ← rd levels (startingLevel2 + numLevels2)
  let st ← tandemLoop lt src to1 to2 (src.length + 1) (from1, from2, from1, dst)
  tandemRest src to1 to2 st

/-- kll/items_sketch_sorted_view.go:252-264; the result is the pair `(src, dst)` afterwards.  With
zero levels the recursion of the code does not end. -/
def blockyRec (lt : α → α → Bool) (levels : List Nat) :
    Nat → List (α × Int) → List (α × Int) → Nat → Nat → Outcome (List (α × Int) × List (α × Int))
  | 0, _, _, _, _ => .panic
  | fuel + 1, src, dst, startingLevel, numLevels =>
    if numLevels = 1 then .ok (src, dst)
    else do
      let numLevels1 := numLevels / 2
      let numLevels2 := numLevels - numLevels1
      let startingLevel2 := startingLevel + numLevels1
      let r1 ← blockyRec lt levels fuel dst src startingLevel numLevels1
      let r2 ← blockyRec lt levels fuel r1.1 r1.2 startingLevel2 numLevels2
      let dst ← tandemMerge lt r2.2 r2.1 levels startingLevel numLevels1 startingLevel2 numLevels2
      .ok (r2.2, dst)

/-- kll/items_sketch_sorted_view.go:238-250 -/
def blockyTandemMergeSort (lt : α → α → Bool) (a : List (α × Int)) (levels : List Nat)
    (numLevels : Nat) : Outcome (List (α × Int)) :=
  if numLevels = 1 then .ok a
  else do
    let r ← blockyRec lt levels (numLevels + 1) a a 0 numLevels
    .ok r.2

/-- State of the loop kll/items_sketch_sorted_view.go:218-231 -/
structure PopState where
  cumWeights : List Int
  myLevels : List Nat
  dstLevel : Nat
  weight : Int

/-- One round of the loop kll/items_sketch_sorted_view.go:218-231 -/
def populateRound (levels : List Nat) (offset : Nat) (st : PopState) (srcLevel : Nat) :
    Outcome PopState := do
  let b ← rd levels srcLevel
  let fromIndex ← sub b offset
  let e ← rd levels (srcLevel + 1)
  let toIndex ← sub e offset
  if fromIndex < toIndex then do
    let cw ← (List.range (toIndex - fromIndex)).foldlM
      (fun cw i => wr cw (fromIndex + i) st.weight) st.cumWeights
    let ml ← wr st.myLevels st.dstLevel fromIndex
    let ml ← wr ml (st.dstLevel + 1) toIndex
    .ok ⟨cw, ml, st.dstLevel + 1, st.weight * 2⟩
  else .ok ⟨st.cumWeights, st.myLevels, st.dstLevel, st.weight * 2⟩

/-- kll/items_sketch_sorted_view.go:207-236 -/
def populateFromSketch (lt : α → α → Bool) (zero : α) (srcQuantiles : List α) (levels : List Nat)
    (numLevels numQuantiles : Nat) : Outcome (List α × List Int) := do
  let offset ← rd levels 0
  let quantiles ← copyItems (List.replicate numQuantiles zero) 0 srcQuantiles offset numQuantiles
  let st ← (List.range numLevels).foldlM (populateRound levels offset)
    ⟨List.replicate numQuantiles 0, List.replicate (numLevels + 1) 0, 0, 1⟩
  let a ← blockyTandemMergeSort lt (quantiles.zip st.cumWeights) st.myLevels st.dstLevel
  .ok (a.map Prod.fst, convertToCumulative 0 (a.map Prod.snd))

/-- kll/items_sketch_sorted_view.go:43 and 58-64: the copy of the item array with level zero
sorted -/
def viewSource (env : Env α) (s : Sketch α) : Outcome (List α) := do
  let src := getTotalItemsArray env s
  if s.isLevelZeroSorted then .ok src
  else do
    let b ← rd s.levels 0
    let e ← rd s.levels 1
    if b ≤ e ∧ e ≤ src.length then
      .ok (src.take b ++ env.sortSlice ((src.take e).drop b) ++ src.drop e)
    else .panic

/-- kll/items_sketch_sorted_view.go:38-76 -/
def newSortedView (env : Env α) (s : Sketch α) : Outcome (SView α) :=
  if isEmpty s then .err "empty"
  else do
    let maxItem ← getMaxItem s
    let minItem ← getMinItem s
    let src ← viewSource env s
    let e ← rd s.levels s.numLevels
    let b ← rd s.levels 0
    let numQuantiles ← sub e b
    let r ← populateFromSketch env.lt env.zero src s.levels s.numLevels numQuantiles
    .ok ⟨r.1, r.2, s.n, maxItem, minItem⟩

namespace SView

/-- kll/items_sketch_sorted_view.go:78-95 -/
def getRank (v : SView α) (item : α) (inclusive : Bool) : Outcome ℚ :=
  if v.totalN = 0 then .err "empty"
  else do
    let index ← findWithInequality v.quantiles 0 (v.quantiles.length - 1) item
      (if inclusive then .LE else .LT)
    if index = -1 then .ok 0
    else do
      let c ← getI v.cumWeights index
      .ok ((c : ℚ) / (v.totalN : ℚ))

/-- kll/items_sketch_sorted_view.go:157-174 -/
def getQuantileIndex (v : SView α) (r : ℚ) (inclusive : Bool) : Outcome Int := do
  let length := v.quantiles.length
  let naturalRank := computeNaturalRank r v.totalN inclusive
  let index ← findWithInequality v.cumWeights 0 (length - 1) naturalRank
    (if inclusive then .GE else .GT)
  if index = -1 then .ok ((length : Int) - 1) else .ok index

/-- kll/items_sketch_sorted_view.go:97-113 -/
def getQuantile (v : SView α) (r : ℚ) (inclusive : Bool) : Outcome α :=
  if v.totalN = 0 then .err "empty"
  else do
    let _ ← validateNormalizedRankBounds r
    let index ← v.getQuantileIndex r inclusive
    getI v.quantiles index

end SView

/-- kll/utils.go:60-72 -/
def checkItems (lt : α → α → Bool) : List α → Outcome Unit
  | [] => .ok ()
  | [_] => .ok ()
  | a :: b :: l => if lt a b then checkItems lt (b :: l) else .err "items"

namespace SView

/-- kll/items_sketch_sorted_view.go:134-151 -/
def getCDF (lt : α → α → Bool) (v : SView α) (splitPoints : List α) (inclusive : Bool) :
    Outcome (List ℚ) :=
  if v.totalN = 0 then .err "empty"
  else do
    let _ ← checkItems lt splitPoints
    let buckets ← splitPoints.foldlM (fun acc p => do
      let r ← v.getRank p inclusive
      .ok (acc ++ [r])) []
    .ok (buckets ++ [1])

/-- kll/items_sketch_sorted_view.go:115-132 -/
def getPMF (lt : α → α → Bool) (v : SView α) (splitPoints : List α) (inclusive : Bool) :
    Outcome (List ℚ) :=
  if v.totalN = 0 then .err "empty"
  else do
    let _ ← checkItems lt splitPoints
    let buckets ← v.getCDF lt splitPoints inclusive
    differences buckets

end SView

/-- kll/utils.go:125-143 with `value1 = 0`, `value2 = 1` -/
def evenlySpacedDoubles (num : Nat) : Outcome (List ℚ) :=
  if num < 2 then .err "num"
  else .ok ((List.range num).map fun i => if i = num - 1 then 1 else (i : ℚ) * (1 / ((num : ℚ) - 1)))

namespace SView

/-- kll/items_sketch_sorted_view.go:184-187: the four writes into the view -/
def pinEnds (v : SView α) : Outcome (SView α) := do
  let cw ← wr v.cumWeights 0 1
  let cw ← wr cw (cw.length - 1) (v.totalN : Int)
  let qs ← wr v.quantiles 0 v.minItem
  let qs ← wr qs (qs.length - 1) v.maxItem
  .ok { v with
    cumWeights := cw
    quantiles := qs }

/-- kll/items_sketch_sorted_view.go:180-205: boundaries, natural ranks and the view afterwards -/
def getPartitionBoundaries (v : SView α) (numEquallySized : Nat) (inclusive : Bool) :
    Outcome ((List α × List Int) × SView α) :=
  if v.totalN = 0 then .err "empty"
  else do
    let v ← v.pinEnds
    let norm ← evenlySpacedDoubles (numEquallySized + 1)
    let out ← norm.foldlM (fun acc r => do
      let index ← v.getQuantileIndex r inclusive
      let q ← getI v.quantiles index
      let c ← getI v.cumWeights index
      .ok (acc.1 ++ [q], acc.2 ++ [c])) (([], []) : List α × List Int)
    .ok (out, v)

end SView

/-! ## The sketch with its cached view -/

/-- The sketch together with `sortedView` -/
structure Cached (α : Type) where
  sk : Sketch α
  view : Option (SView α)

/-- The queries of kll/items_sketch.go that use the view. -/
inductive Query (α : Type) where
  | rank (item : α) (inclusive : Bool)
  | quantile (r : ℚ) (inclusive : Bool)
  | pmf (splitPoints : List α) (inclusive : Bool)
  | cdf (splitPoints : List α) (inclusive : Bool)

/-- What a query returns. -/
inductive Answer (α : Type) where
  | num (r : ℚ)
  | item (x : α)
  | nums (l : List ℚ)

/-- kll/items_sketch.go:695-704 -/
def setupSortedView (env : Env α) (c : Cached α) : Outcome (SView α) :=
  match c.view with
  | some v => .ok v
  | none => newSortedView env c.sk

/-- kll/items_sketch.go:254-263, 288-300, 354-363, 390-399, after the set-up of the view -/
def askView (lt : α → α → Bool) (v : SView α) : Query α → Outcome (Answer α)
  | .rank x i => do
    let r ← v.getRank x i
    .ok (.num r)
  | .quantile r i => do
    let x ← v.getQuantile r i
    .ok (.item x)
  | .pmf sp i => do
    let l ← v.getPMF lt sp i
    .ok (.nums l)
  | .cdf sp i => do
    let l ← v.getCDF lt sp i
    .ok (.nums l)

/-- kll/items_sketch.go:292-294 -/
def preCheck : Query α → Outcome Unit
  | .quantile r _ => validateNormalizedRankBounds r
  | _ => .ok ()

/-- kll/items_sketch.go:254-263, 288-300, 354-363, 390-399: the result and the sketch afterwards
(the view stays cached also if the query itself fails) -/
def ask (env : Env α) (c : Cached α) (q : Query α) : Outcome (Answer α) × Cached α :=
  if isEmpty c.sk then (.err "empty", c)
  else match preCheck q with
    | .ok _ => match setupSortedView env c with
      | .ok v => (askView env.lt v q, { c with view := some v })
      | .err e => (.err e, c)
      | .panic => (.panic, c)
    | .err e => (.err e, c)
    | .panic => (.panic, c)

/-- kll/items_sketch.go:458-461 -/
def cUpdate (env : Env α) (c : Cached α) (x : Option α) : Rand (Cached α) := do
  let s ← update env c.sk x
  Rand.ret ⟨s, none⟩

/-- kll/items_sketch.go:468-474 -/
def cMerge (env : Env α) (c d : Cached α) : Rand (Cached α) :=
  if isEmpty d.sk then Rand.ret c
  else do
    let s ← merge env c.sk d.sk
    Rand.ret ⟨s, none⟩

/-- kll/items_sketch.go:477-488 -/
def cReset (env : Env α) (c : Cached α) : Cached α := ⟨reset env c.sk, none⟩

/-- kll/items_sketch.go:429-439 -/
def cPartition (env : Env α) (c : Cached α) (num : Nat) (inclusive : Bool) :
    Outcome ((List α × List Int) × Cached α) :=
  if isEmpty c.sk then .err "empty"
  else do
    let v ← setupSortedView env c
    let r ← v.getPartitionBoundaries num inclusive
    .ok (r.1, { c with view := some r.2 })

end Verif.Kll
