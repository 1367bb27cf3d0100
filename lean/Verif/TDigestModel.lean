import Mathlib.Algebra.Order.Field.Basic
import Mathlib.Data.List.Sort
import Verif.Outcome

/-!
# Model of the t-digest (`/repo/tdigest/double.go`)

Numbers.  The finite float64 values are modelled by the elements of an ordered field `α` (the
theorems hold for every ordered field, in particular ℚ and ℝ); rounding is not modelled.  The
special values NaN and ±Inf, which the code tests for, are kept: a float64 argument is an `Fl α`.
Weights (`uint64` in the code) are natural numbers: wrapping beyond 2^64 is not modelled.
`math.Log` is the parameter `ln`.

Slices are lists; the capacities given to `make` are not observable and are left out.
-/

namespace Verif.TDigest

/-- A float64: NaN, the two infinities, or a finite value. -/
inductive Fl (α : Type) where
  | nan
  | ninf
  | fin (x : α)
  | pinf
  deriving DecidableEq, Repr

variable {α : Type} [Field α] [LinearOrder α]

/-- The Go comparison `a < b` of floats (false as soon as one side is NaN). -/
def Fl.lt : Fl α → Fl α → Bool
  | .nan, _ => false
  | _, .nan => false
  | .ninf, .ninf => false
  | .ninf, _ => true
  | .fin _, .ninf => false
  | .fin x, .fin y => decide (x < y)
  | .fin _, .pinf => true
  | .pinf, _ => false

/-- `math.Min` and the builtin `min` (NaN if one of the arguments is NaN). -/
def Fl.min : Fl α → Fl α → Fl α
  | .nan, _ => .nan
  | _, .nan => .nan
  | a, b => if b.lt a then b else a

/-- `math.Max` and the builtin `max`. -/
def Fl.max : Fl α → Fl α → Fl α
  | .nan, _ => .nan
  | _, .nan => .nan
  | a, b => if a.lt b then b else a

/-- tdigest/double.go l.70-73 `doublePrecisionCentroid`. -/
structure Cen (α : Type) where
  mean : α
  weight : Nat
  deriving DecidableEq, Repr

/-- tdigest/double.go l.75-78 `add`: the weights are added first, then the mean moves by
    `(other.mean - c.mean) * other.weight / newWeight`. -/
def Cen.add (c o : Cen α) : Cen α :=
  { weight := c.weight + o.weight
    mean := c.mean + (o.mean - c.mean) * (o.weight : α) / ((c.weight + o.weight : Nat) : α) }

/-- tdigest/double.go l.93-95 `scaleFunction.z`. -/
def sfZ (ln : α → α) (compression n : α) : α := 4 * ln (n / compression) + 24

/-- tdigest/double.go l.89-91 `scaleFunction.normalizer`. -/
def sfNormalizer (ln : α → α) (compression n : α) : α := compression / sfZ ln compression n

/-- tdigest/double.go l.85-87 `scaleFunction.max`. -/
def sfMax (q normalizer : α) : α := q * (1 - q) / normalizer

/-- tdigest/double.go l.102-111 `Double`. -/
structure Digest (α : Type) where
  min : Fl α
  max : Fl α
  centroids : List (Cen α)
  buffer : List α
  cw : Nat
  cap : Nat
  k : Nat
  rev : Bool
  deriving DecidableEq, Repr

/-- tdigest/double.go l.119-123 and l.150-154: the capacity for a given `k`. -/
def capacityOf (k : Nat) : Nat := 2 * k + (if k < 30 then 30 else 10)

/-- tdigest/double.go l.114-135 `NewDouble`. -/
def newDouble (k : Nat) : Outcome (Digest α) :=
  if k < 10 then .err "ErrInvalidK"
  else .ok { min := .pinf, max := .ninf, centroids := [], buffer := [], cw := 0,
             cap := capacityOf k, k := k, rev := false }

/-- tdigest/double.go l.233-235 `IsEmpty`. -/
def Digest.isEmpty (d : Digest α) : Bool := d.centroids.isEmpty && d.buffer.isEmpty

/-- tdigest/double.go l.254-256 `TotalWeight`. -/
def Digest.totalWeight (d : Digest α) : Nat := d.cw + d.buffer.length

/-- tdigest/double.go l.238-243 `MinValue`. -/
def Digest.minValue (d : Digest α) : Outcome (Fl α) :=
  if d.isEmpty then .err "ErrEmpty" else .ok d.min

/-- tdigest/double.go l.246-251 `MaxValue`. -/
def Digest.maxValue (d : Digest α) : Outcome (Fl α) :=
  if d.isEmpty then .err "ErrEmpty" else .ok d.max

/-- tdigest/double.go l.508 with l.61-68: `slices.SortStableFunc` by mean.  Insertion sort is
    stable; a stable sort is unique, so the algorithm used by Go does not matter. -/
def sortCens (l : List (Cen α)) : List (Cen α) :=
  l.insertionSort (fun a b => a.mean ≤ b.mean)

/-- tdigest/double.go l.524-531 without the index test: may a centroid be grown to
    `proposed` when the closed centroids before it weigh `wsf`? -/
def addThis (ln : α → α) (k : Nat) (W : Nat) (wsf proposed : α) : Bool :=
  let q0 := wsf / (W : α)
  let q2 := (wsf + proposed) / (W : α)
  let normalizer := sfNormalizer ln (2 * (k : α)) (W : α)
  decide (proposed ≤ (W : α) * Min.min (sfMax q0 normalizer) (sfMax q2 normalizer))

/-- tdigest/double.go l.523-538: the merging loop from index `i` on.  `n = len(buffer)`, `cur` is
    the last centroid appended so far, `wsf = weightSoFar`, the list is `buffer[i:]`; the result is
    `cur` and everything appended after it. -/
def mergeLoop (ok : α → α → Bool) (n : Nat) : Nat → Cen α → α → List (Cen α) → List (Cen α)
  | _, cur, _, [] => [cur]
  | i, cur, wsf, b :: bs =>
    if i ≠ 1 ∧ i ≠ n - 1 ∧ ok wsf ((cur.weight : α) + (b.weight : α)) = true then
      mergeLoop ok n (i + 1) (cur.add b) wsf bs
    else cur :: mergeLoop ok n (i + 1) b (wsf + (cur.weight : α)) bs

/-- tdigest/double.go l.504-550 `merge`.  `buffer[0]` on an empty slice (l.518) is a panic. -/
def merge (ln : α → α) (d : Digest α) (buf : List (Cen α)) (weight : Nat) : Outcome (Digest α) :=
  let s := sortCens (buf ++ d.centroids)
  let s := if d.rev then s.reverse else s
  let W := d.cw + weight
  match s with
  | [] => .panic
  | b :: bs =>
    let cs := mergeLoop (addThis ln d.k W) s.length 1 b 0 bs
    let cs := if d.rev then cs.reverse else cs
    match cs.head?, cs.getLast? with
    | some f, some l =>
      .ok { d with
            min := d.min.min (.fin f.mean), max := d.max.max (.fin l.mean)
            centroids := cs, buffer := [], cw := W, rev := !d.rev }
    | _, _ => .panic

/-- The buffered values as centroids of weight one (l.208-213, l.226-228). -/
def singles (l : List α) : List (Cen α) := l.map fun v => { mean := v, weight := 1 }

/-- tdigest/double.go l.221-230 `compress`. -/
def compress (ln : α → α) (d : Digest α) : Outcome (Digest α) :=
  if d.buffer.isEmpty then .ok d
  else merge ln d (singles d.buffer) d.buffer.length

/-- tdigest/double.go l.33 `bufferMultiplier`. -/
def bufferMultiplier : Nat := 4

/-- tdigest/double.go l.183-199 `Update`. -/
def update (ln : α → α) (d : Digest α) (value : Fl α) : Outcome (Digest α) :=
  match value with
  | .nan => .err "ErrNaN"
  | .ninf => .err "ErrInfinity"
  | .pinf => .err "ErrInfinity"
  | .fin x =>
    (if d.buffer.length = d.cap * bufferMultiplier then compress ln d else .ok d) >>= fun d =>
    .ok { d with buffer := d.buffer ++ [x], min := d.min.min (.fin x), max := d.max.max (.fin x) }

/-- tdigest/double.go l.202-219 `Merge`: only the receiver changes. -/
def mergeWith (ln : α → α) (d other : Digest α) : Outcome (Digest α) :=
  if other.isEmpty then .err "ErrEmpty"
  else merge ln d (singles d.buffer ++ singles other.buffer ++ other.centroids)
    (d.buffer.length + other.totalWeight)

/-! ### Rank -/

/-- `sort.Search(n, f)` of the Go library: binary search on `[i, j)`. -/
def search (f : Nat → Outcome Bool) (i j : Nat) : Outcome Nat :=
  if i < j then
    f ((i + j) / 2) >>= fun b =>
      if b then search f i ((i + j) / 2) else search f ((i + j) / 2 + 1) j
  else .ok i
termination_by j - i

/-- `d.centroids[i].mean` with the bounds check. -/
def meanAt (cs : List (Cen α)) (i : Nat) : Outcome α := Outcome.ofOption (cs[i]?.map Cen.mean)

/-- `float64(d.centroids[i].weight)` with the bounds check. -/
def weightAt (cs : List (Cen α)) (i : Nat) : Outcome α :=
  Outcome.ofOption (cs[i]?.map fun c => (c.weight : α))

/-- The loops of l.329-332 and l.335-338: the sum of the weights at the indexes `[i, j)`. -/
def sumWeights (cs : List (Cen α)) (i j : Nat) : Outcome α :=
  (List.range' i (j - i)).foldlM (fun acc t => weightAt cs t >>= fun w => .ok (acc + w)) 0

/-- tdigest/double.go l.308-345: the part of `Rank` for a value between the first and the last
    mean. -/
def rankInner (cs : List (Cen α)) (W : Nat) (value : α) : Outcome α :=
  search (fun i => meanAt cs i >>= fun m => .ok (decide (value ≤ m))) 0 cs.length >>= fun lo =>
  if lo = cs.length then .err "value is greater than all centroids" else
  search (fun i => meanAt cs i >>= fun m => .ok (decide (value < m))) 0 cs.length >>= fun up =>
  if up = 0 then .err "value is smaller than all centroids" else
  meanAt cs lo >>= fun ml =>
  let lo := if value < ml ∧ 0 < lo then lo - 1 else lo
  (if up = cs.length then .ok (up - 1)
   else meanAt cs (up - 1) >>= fun m => .ok (if ¬ m < value then up - 1 else up)) >>= fun up =>
  sumWeights cs 0 lo >>= fun below =>
  weightAt cs lo >>= fun wl =>
  sumWeights cs lo up >>= fun delta =>
  weightAt cs up >>= fun wu =>
  meanAt cs lo >>= fun ml =>
  meanAt cs up >>= fun mu =>
  let below := below + wl / 2
  let delta := delta - wl / 2 + wu / 2
  if 0 < mu - ml then .ok ((below + delta * (value - ml) / (mu - ml)) / (W : α))
  else .ok ((below + delta / 2) / (W : α))

/-- tdigest/double.go l.284-306: the left and right tails, then `rankInner`.  `mn` and `mx` are the
    fields `min` and `max`. -/
def rankTails (cs : List (Cen α)) (W : Nat) (mn mx value : α) : Outcome α :=
  match cs.head?, cs.getLast? with
  | some f, some l =>
    if value < f.mean then
      if 0 < f.mean - mn then
        if value = mn then .ok (1 / 2 / (W : α))
        else .ok ((1 + (value - mn) / (f.mean - mn) * ((f.weight : α) / 2 - 1)) / (W : α))
      else .ok 0
    else if l.mean < value then
      if 0 < mx - l.mean then
        if value = mx then .ok (1 - 1 / 2 / (W : α))
        else .ok (1 - (1 + (mx - value) / (mx - l.mean) * ((l.weight : α) / 2 - 1)) / (W : α))
      else .ok 1
    else rankInner cs W value
  | _, _ => .panic

/-- tdigest/double.go l.264-346 `Rank`: the digest afterwards (the buffer may have been compressed)
    and the rank.  Digests with an infinite `min` or `max` beside data come only from crafted
    bytes; what `Rank` computes for them between the bounds is not modelled. -/
def rank (ln : α → α) (d : Digest α) (value : Fl α) : Outcome (Digest α × α) :=
  if d.isEmpty then .err "ErrEmpty" else
  if value = .nan then .err "ErrNaN" else
  if value.lt d.min then .ok (d, 0) else
  if d.max.lt value then .ok (d, 1) else
  if d.centroids.length + d.buffer.length = 1 then .ok (d, 1 / 2) else
  compress ln d >>= fun d =>
  match value, d.min, d.max with
  | .fin v, .fin mn, .fin mx => rankTails d.centroids d.cw mn mx v >>= fun r => .ok (d, r)
  | _, _, _ => .err "not modelled"

/-! ### Quantile -/

/-- tdigest/double.go l.563-565 `weightedAverage`. -/
def weightedAverage (x1 w1 x2 w2 : α) : α := (x1 * w1 + x2 * w2) / (w1 + w2)

/-- tdigest/double.go l.387-404: the target weight lies between the middles of the adjacent
    centroids `c` and `c'`; `wsf = weightSoFar` is the weight up to the middle of `c`. -/
def quantileStep (weight wsf : α) (c c' : Cen α) : α :=
  let dw := ((c.weight : α) + (c'.weight : α)) / 2
  if c.weight = 1 ∧ weight - wsf < 1 / 2 then c.mean
  else
    let leftWeight : α := if c.weight = 1 then 1 / 2 else 0
    if c'.weight = 1 ∧ wsf + dw - weight ≤ 1 / 2 then c'.mean
    else
      let rightWeight : α := if c'.weight = 1 then 1 / 2 else 0
      let w1 := weight - wsf - leftWeight
      let w2 := wsf + dw - weight - rightWeight
      weightedAverage c.mean w1 c'.mean w2

/-- tdigest/double.go l.383-411: the loop over adjacent centroids from `c` on with
    `weightSoFar = wsf`, and what follows the loop. -/
def quantileLoop (W : Nat) (mx weight : α) : α → Cen α → List (Cen α) → α
  | _, c, [] =>
    let w1 := weight - (W : α) - (c.weight : α) / 2
    let w2 := (c.weight : α) / 2 - w1
    weightedAverage c.mean w1 mx w2
  | wsf, c, c' :: cs =>
    let dw := ((c.weight : α) + (c'.weight : α)) / 2
    if weight < wsf + dw then quantileStep weight wsf c c'
    else quantileLoop W mx weight (wsf + dw) c' cs

/-- tdigest/double.go l.364-411: `Quantile` of a digest with at least two centroids
    (`c` first, `cs` the others). -/
def quantileMany (W : Nat) (mn mx r : α) (c : Cen α) (cs : List (Cen α)) : α :=
  let weight := r * (W : α)
  let l := (c :: cs).getLast (by simp)
  if weight < 1 then mn
  else if (W : α) - 1 < weight then mx
  else if (1 : α) < c.weight ∧ weight < (c.weight : α) / 2 then
    mn + (weight - 1) / ((c.weight : α) / 2 - 1) * (c.mean - mn)
  else if (1 : α) < l.weight ∧ (W : α) - weight ≤ (l.weight : α) / 2 then
    mx + ((W : α) - weight - 1) / ((l.weight : α) / 2 - 1) * (mx - l.mean)
  else quantileLoop W mx weight ((c.weight : α) / 2) c cs

/-- tdigest/double.go l.349-412 `Quantile`.  For a NaN rank neither test of l.353 holds and every
    later comparison is false: the result is NaN (unless there is one centroid). -/
def quantile (ln : α → α) (d : Digest α) (r : Fl α) : Outcome (Digest α × Fl α) :=
  if d.isEmpty then .err "ErrEmpty" else
  if r.lt (.fin 0) ∨ (Fl.fin 1).lt r then .err "ErrInvalidRank" else
  compress ln d >>= fun d =>
  match d.centroids with
  | [] => .panic
  | [c] => .ok (d, .fin c.mean)
  | c :: cs =>
    match r, d.min, d.max with
    | .fin r, .fin mn, .fin mx => .ok (d, .fin (quantileMany d.cw mn mx r c cs))
    | .nan, _, _ => .ok (d, .nan)
    | _, _, _ => .err "not modelled"

/-! ### CDF and PMF -/

/-- internal/quantiles/utils.go l.37-47 `ValidateSplitPoints`. -/
def validateSplitPoints : List (Fl α) → Outcome Unit
  | [] => .ok ()
  | [v] => if v = .nan then .err "ErrNanInSplitPoints" else .ok ()
  | v :: w :: vs =>
    if v = .nan then .err "ErrNanInSplitPoints"
    else if ¬ v.lt w then .err "ErrInvalidSplitPoints"
    else validateSplitPoints (w :: vs)

/-- tdigest/double.go l.434-441: the ranks of the split points, one after the other (each call may
    compress the digest). -/
def rankAll (ln : α → α) : Digest α → List (Fl α) → Outcome (Digest α × List α)
  | d, [] => .ok (d, [])
  | d, v :: vs =>
    rank ln d v >>= fun p => rankAll ln p.1 vs >>= fun q => .ok (q.1, p.2 :: q.2)

/-- tdigest/double.go l.429-445 `CDF`. -/
def cdf (ln : α → α) (d : Digest α) (sp : List (Fl α)) : Outcome (Digest α × List α) :=
  validateSplitPoints sp >>= fun _ =>
  rankAll ln d sp >>= fun p => .ok (p.1, p.2 ++ [1])

/-- tdigest/double.go l.421-423: `buckets[i] -= buckets[i-1]` for `i` from the last down to 1. -/
def differences : List α → List α
  | [] => []
  | x :: xs => x :: List.zipWith (fun a b => b - a) (x :: xs) xs

/-- tdigest/double.go l.416-425 `PMF`. -/
def pmf (ln : α → α) (d : Digest α) (sp : List (Fl α)) : Outcome (Digest α × List α) :=
  cdf ln d sp >>= fun p => .ok (p.1, differences p.2)

end Verif.TDigest
