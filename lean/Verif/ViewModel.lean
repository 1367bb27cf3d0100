import Verif.InequalityModel
import Mathlib.Algebra.Order.Floor.Ring
import Mathlib.Data.Rat.Floor

/-!
# Model of the shared quantile code

Models `internal/quantiles/utils.go`, `internal/quantiles/sorted_view.go` and
`common/quantiles/numeric_sorted_view.go`.

Conventions.

* The item type is a linear order; for `float32`/`float64` this leaves out NaN (the REQ sketch
  ignores NaN updates).
* Normalized ranks are exact rationals; the rounding of `float64` operations is not modelled.
* `int64` weights are `Int`; they stay below the stream length.
* Slices of one view are never shared with other data, so values are lists.
-/

namespace Verif.View

open Verif Verif.Inequality

/-- `math.Round`: half away from zero -/
def goRound (x : ℚ) : Int := if 0 ≤ x then ⌊x + 1 / 2⌋ else ⌈x - 1 / 2⌉

/-- internal/quantiles/utils.go:49-54 -/
def validateNormalizedRankBounds (r : ℚ) : Outcome Unit :=
  if r < 0 ∨ 1 < r then .err "rank" else .ok ()

/-- internal/quantiles/utils.go:56-66; `tailRoundingFactor` is `1e7` -/
def computeNaturalRank (r : ℚ) (n : Nat) (inclusive : Bool) : Int :=
  let x := r * n
  let x := if n ≤ 10000000 then (goRound (x * 10000000) : ℚ) / 10000000 else x
  if inclusive then ⌈x⌉ else ⌊x⌋

/-- internal/quantiles/utils.go:37-47; NaN is not modelled -/
def validateSplitPoints {α : Type} [LinearOrder α] : List α → Outcome Unit
  | [] => .ok ()
  | [_] => .ok ()
  | a :: b :: l => if ¬ a < b then .err "split points" else validateSplitPoints (b :: l)

variable {α : Type} [LinearOrder α]

/-- `quantiles[i]`, `cumWeights[i]` -/
def get {β : Type} (l : List β) (i : Nat) : Outcome β := Outcome.ofOption l[i]?

/-- The index type of `FindWithInequality`'s result used as a slice index: negative panics. -/
def getI {β : Type} (l : List β) (i : Int) : Outcome β :=
  if i < 0 then .panic else get l i.toNat

/-- internal/quantiles/sorted_view.go:40-46 and 54-61, 63-66: the list with the minimum put in
front if it is missing -/
def addLow {β : Type} (adj : Bool) (x : β) (l : List β) : List β := if adj then x :: l else l

/-- internal/quantiles/sorted_view.go:31-78.  `adj[adjLen-1] = …; adj[adjLen-2] = …` -/
def includeMinMax (quantiles : List α) (cumWeights : List Int) (maxItem minItem : α) :
    Outcome (List α × List Int) := do
  let lenIn := cumWeights.length
  let q0 ← get quantiles 0
  let ql ← if lenIn = 0 then .panic else get quantiles (lenIn - 1)
  let adjLow : Bool := decide (q0 ≠ minItem)
  let adjHigh : Bool := decide (ql ≠ maxItem)
  let qs := addLow adjLow minItem (quantiles.take lenIn)
  let cs := addLow adjLow 1 cumWeights
  if adjHigh then do
    let last ← get cumWeights (lenIn - 1)
    .ok (qs ++ [maxItem], cs.set (cs.length - 1) (last - 1) ++ [last])
  else .ok (qs, cs)

/-- common/quantiles/numeric_sorted_view.go:41-45 -/
structure NumericView (α : Type) where
  quantiles : List α
  cumWeights : List Int
  n : Nat

/-- common/quantiles/numeric_sorted_view.go:48-57 -/
def newNumericView (quantiles : List α) (cumWeights : List Int) (n : Nat) (maxItem minItem : α) :
    Outcome (NumericView α) := do
  let r ← includeMinMax quantiles cumWeights maxItem minItem
  .ok ⟨r.1, r.2, n⟩

namespace NumericView

/-- common/quantiles/numeric_sorted_view.go:90-110 -/
def rank (s : NumericView α) (q : α) (isInclusive : Bool) : Outcome ℚ :=
  if s.n = 0 then .err "empty"
  else do
    let index ← findWithInequality s.quantiles 0 (s.quantiles.length - 1) q
      (if isInclusive then .LE else .LT)
    if index = -1 then .ok 0
    else do
      let c ← getI s.cumWeights index
      .ok ((c : ℚ) / (s.n : ℚ))

/-- common/quantiles/numeric_sorted_view.go:125-150 -/
def quantile (s : NumericView α) (r : ℚ) (isInclusive : Bool) : Outcome α :=
  if s.n = 0 then .err "empty"
  else do
    let _ ← validateNormalizedRankBounds r
    let naturalRank := computeNaturalRank r s.n isInclusive
    let length := s.cumWeights.length
    let index ← findWithInequality s.cumWeights 0 (length - 1) naturalRank
      (if isInclusive then .GE else .GT)
    if index = -1 then getI s.quantiles ((length : Int) - 1)
    else getI s.quantiles index

/-- common/quantiles/numeric_sorted_view.go:155-160 -/
def minItem (s : NumericView α) : Outcome α :=
  if s.n = 0 then .err "empty" else get s.quantiles 0

/-- common/quantiles/numeric_sorted_view.go:165-170 -/
def maxItem (s : NumericView α) : Outcome α :=
  if s.n = 0 then .err "empty" else getI s.quantiles ((s.quantiles.length : Int) - 1)

/-- common/quantiles/numeric_sorted_view.go:194-211: the loop over the split points fills
`buckets` from the left -/
def cdf (s : NumericView α) (splitPoints : List α) (isInclusive : Bool) : Outcome (List ℚ) := do
  let _ ← validateSplitPoints splitPoints
  let buckets ← splitPoints.foldlM (fun acc p => do
    let r ← s.rank p isInclusive
    .ok (acc ++ [r])) []
  .ok (buckets ++ [1])

end NumericView

/-- common/quantiles/numeric_sorted_view.go:242-244 and kll/items_sketch_sorted_view.go:127-130:
`for i := len-1; i > 0; i-- { b[i] -= b[i-1] }`, each entry minus the old value of its left
neighbour (the loop runs downwards, so the left neighbour has not been changed yet) -/
def differences (b : List ℚ) : Outcome (List ℚ) :=
  (List.range (b.length - 1)).foldlM (fun b r => do
    let i := b.length - 1 - r
    let x ← get b i
    let y ← get b (i - 1)
    if i < b.length then .ok (b.set i (x - y)) else .panic) b

/-- common/quantiles/numeric_sorted_view.go:236-246 -/
def NumericView.pmf (s : NumericView α) (splitPoints : List α) (isInclusive : Bool) :
    Outcome (List ℚ) := do
  let buckets ← s.cdf splitPoints isInclusive
  differences buckets

end Verif.View
