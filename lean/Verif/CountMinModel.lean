import Verif.Ints

/-!
# Model of `count/count_min_sketch.go`

int64 counters are `Int` with explicit wrap-around `wrap 8`.  The hash function
`HashByteArrMurmur3(item, seed)` (first word) and the seed expansion `rng.Int() + seed` are
parameters, as is `ComputeSeedHash`.
-/

namespace Verif.CountMin

/-- Primitives that are parameters of the model. -/
structure Prims where
  /-- murmur3 of the item with a row seed, a uint64 -/
  hash : List Nat → Int → Nat
  /-- row seeds derived from the sketch seed (l.54-58), `n` of them -/
  seeds : Int → Nat → List Int
  seeds_length : ∀ s n, (seeds s n).length = n
  /-- internal.ComputeSeedHash, `none` = error -/
  seedHash : Int → Option Int

/-- `CountMinSketch` l.33-40 -/
structure Sketch where
  numBuckets : Int
  numHashes : Int
  slice : List Int
  seed : Int
  totalWeight : Int
  hashSeeds : List Int
  deriving DecidableEq, Repr

/-- `NewCountMinSketch` l.45-70.  `numHashes` is an int8, `numBuckets` an int32; the products are
int32 products.  `make` with a negative length panics. -/
def new (P : Prims) (numHashes numBuckets seed : Int) : Outcome Sketch :=
  if numBuckets < 3 then .err "fewer than 3 buckets"
  else if wrap 4 (numBuckets * numHashes) ≥ 2 ^ 30 then .err "exceeds 2^30 elements"
  else if numHashes < 0 then .panic
  else if wrap 4 (numBuckets * numHashes) < 0 then .panic
  else .ok { numBuckets := numBuckets, numHashes := numHashes,
             slice := List.replicate (wrap 4 (numBuckets * numHashes)).toNat 0, seed := seed,
             totalWeight := 0, hashSeeds := P.seeds seed numHashes.toNat }

/-- `getHashes` l.96-106, for the rows from `i` on -/
def locsFrom (P : Prims) (c : Sketch) (item : List Nat) : Nat → List Int → List Nat
  | _, [] => []
  | i, s :: ss =>
    (i * c.numBuckets.toNat + P.hash item s % c.numBuckets.toNat) :: locsFrom P c item (i + 1) ss

/-- `getHashes` l.96-106 -/
def Sketch.getHashes (P : Prims) (c : Sketch) (item : List Nat) : List Nat :=
  locsFrom P c item 0 c.hashSeeds

/-- loop l.120-122 -/
def addAll (w : Int) : List Nat → List Int → Outcome (List Int)
  | [], sl => .ok sl
  | h :: hs, sl =>
    match sl[h]? with
    | none => .panic
    | some v => addAll w hs (sl.set h (wrap 8 (v + w)))

/-- `Update` l.108-124 -/
def Sketch.update (P : Prims) (c : Sketch) (item : List Nat) (w : Int) : Outcome Sketch :=
  if item.length = 0 then .ok c
  else
    let total := if w < 0 then wrap 8 (c.totalWeight + wrap 8 (-w)) else wrap 8 (c.totalWeight + w)
    do
      let sl ← addAll w (c.getHashes P item) c.slice
      pure { c with slice := sl, totalWeight := total }

/-- loop l.147-149 -/
def minAll (sl : List Int) : List Nat → Int → Outcome Int
  | [], e => .ok e
  | h :: hs, e =>
    match sl[h]? with
    | none => .panic
    | some v => minAll sl hs (min e v)

/-- `GetEstimate` l.140-151; also `GetLowerBound` l.176-178 -/
def Sketch.getEstimate (P : Prims) (c : Sketch) (item : List Nat) : Outcome Int :=
  if item.length = 0 then .ok 0
  else minAll c.slice (c.getHashes P item) (2 ^ 63 - 1)

/-- `GetLowerBound` l.176-178 -/
def Sketch.getLowerBound (P : Prims) (c : Sketch) (item : List Nat) : Outcome Int :=
  c.getEstimate P item

/-- loop l.199-201 -/
def addSlices : List Int → List Int → Outcome (List Int)
  | [], _ => .ok []
  | _ :: _, [] => .panic
  | a :: as, b :: bs => do
    let r ← addSlices as bs
    pure (wrap 8 (a + b) :: r)

/-- `Merge` l.186-205; `same` says whether the two pointers are equal. -/
def Sketch.merge (same : Bool) (c d : Sketch) : Outcome Sketch :=
  if same then .err "cannot merge sketch with itself"
  else if c.numHashes = d.numHashes ∧ c.numBuckets = d.numBuckets ∧ c.seed = d.seed then do
    let sl ← addSlices c.slice d.slice
    pure { c with slice := sl, totalWeight := wrap 8 (c.totalWeight + d.totalWeight) }
  else .err "sketches are incompatible"

/-- `Serialize` l.207-270, PreambleLongsShort = 2, SerialVersion1 = 1, family 18, IsEmpty bit 0. -/
def Sketch.serialize (P : Prims) (c : Sketch) : Outcome (List Nat) :=
  let empty : Bool := c.totalWeight == 0
  match P.seedHash c.seed with
  | none => .err "seed hash is zero"
  | some sh =>
    let header := toLE 1 2 ++ toLE 1 1 ++ toLE 1 18 ++ toLE 1 (if empty then 1 else 0) ++ toLE 4 0 ++
      toLE 4 (toU 4 c.numBuckets) ++ toLE 1 (toU 1 c.numHashes) ++ toLE 2 (toU 2 sh) ++ toLE 1 0
    if empty then .ok header
    else .ok (header ++ toLE 8 (toU 8 c.totalWeight) ++
      c.slice.flatMap (fun v => toLE 8 (toU 8 v)))

/-- `binary.Read` of a `k`-byte integer: error when fewer than `k` bytes remain. -/
def readK (k : Nat) (r : List Nat) : Outcome (Nat × List Nat) :=
  if k ≤ r.length then .ok (fromLE (r.take k), r.drop k) else .err "EOF"

/-- loop l.354-361: read counters until the reader is exhausted -/
def readCounters : Nat → List Nat → Nat → List Int → Outcome (List Int)
  | 0, _, _, _ => .panic
  | fuel + 1, r, i, sl =>
    if r.length > 0 then do
      let (v, r) ← readK 8 r
      if i < sl.length then readCounters fuel r (i + 1) (sl.set i (toS 8 v)) else .panic
    else .ok sl

/-- `Deserialize` l.272-364 (`checkHeaderValidity` accepts everything, utils.go l.39-41). -/
def deserialize (P : Prims) (b : List Nat) (seed : Int) : Outcome Sketch := do
  let (_, r) ← readK 1 b
  let (_, r) ← readK 1 r
  let (_, r) ← readK 1 r
  let (flag, r) ← readK 1 r
  -- r.Read(unused32): error only if nothing remains
  if r.length = 0 then .err "EOF"
  else
    let r := r.drop 4
    let (nb, r) ← readK 4 r
    let (nh, r) ← readK 1 r
    let (_, r) ← readK 2 r
    let (_, r) ← readK 1 r
    let cms ← new P (toS 1 nh) (toS 4 nb) seed
    if flag &&& 1 > 0 then .ok cms
    else
      let (tw, r) ← readK 8 r
      let sl ← readCounters (r.length + 1) r 0 cms.slice
      .ok { cms with totalWeight := toS 8 tw, slice := sl }

end Verif.CountMin
