import Verif.Outcome
import Mathlib.Data.Rat.Defs
import Mathlib.Algebra.Order.Field.Rat

/-!
# Model of the CPC sketch: `cpc/pair_table.go`, `cpc/cpc_sketch.go`, `cpc/cpc_union.go`

Conventions.

* A coupon is the number `row * 64 + col` ("rowCol" in the code).  A slot of the pair table, an `int`
  in the code with `-1` for free, is an `Option Nat` here: no stored item is negative.
* Rows of the bit matrix are `BitVec 64`, bytes of the window `BitVec 8`; a nil slice or a nil
  pointer is `none`.
* `kxp` and `hipEstAccum` are `float64` in the code and rational numbers here (exact arithmetic).
* The hash function is outside the model: an update gets the two hash words.
* `int` and `uint64` counters are `Nat`; the largest is below `64 * 2^26`, so nothing wraps.
* When a call returns an error the state left behind is not described.
-/

namespace Verif.Cpc

open Outcome

/-! ## The pair table -/

/-- cpc/pair_table.go l.32-37 -/
structure PT where
  lg : Nat
  vb : Nat
  num : Nat
  slots : List (Option Nat)
  deriving DecidableEq, Repr

/-- cpc/utils.go l.144-149 `checkLgSizeInts` -/
def checkLg (lg : Nat) : Outcome Unit :=
  if lg < 2 ∨ lg > 26 then .err "illegal LgSizeInts" else .ok ()

/-- cpc/pair_table.go l.39-51 `NewPairTable` -/
def newPT (lg vb : Nat) : Outcome PT := do
  checkLg lg
  .ok ⟨lg, vb, 0, List.replicate (2 ^ lg) none⟩

/-- cpc/pair_table.go l.53-58 `clear` -/
def PT.clear (p : PT) : PT := { p with slots := p.slots.map (fun _ => none), num := 0 }

/-- The probing loop l.70-73 (the same in `maybeInsert`, `maybeDelete`, `mustInsert`): the final
`probe`.  There is no check for a full table in the code: it would loop for ever, here the fuel runs
out. -/
def probeLoop (slots : List (Option Nat)) (mask item : Nat) : Nat → Nat → Outcome Nat
  | 0, _ => .panic
  | fuel + 1, probe =>
    match slots[probe]? with
    | none => .panic
    | some fetched =>
      if fetched ≠ some item ∧ fetched ≠ none then
        probeLoop slots mask item fuel ((probe + 1) &&& mask)
      else .ok probe

/-- l.62-73: first index and probing.  A negative shift count panics. -/
def locate (p : PT) (item : Nat) : Outcome Nat :=
  if p.vb < p.lg then .panic
  else probeLoop p.slots (2 ^ p.lg - 1) item (2 ^ p.lg) (item >>> (p.vb - p.lg))

/-- One turn of the loops l.185-194 and l.126-131: insert, whether new or not -/
def insStep (ins : PT → Nat → Outcome (PT × Bool)) (q : PT) (s : Option Nat) : Outcome PT :=
  match s with
  | none => .ok q
  | some item => do
    let (q, _) ← ins q item
    .ok q

/-- cpc/pair_table.go l.167-196 `rebuild`, given the insertion it calls -/
def rebuildWith (ins : PT → Nat → Outcome (PT × Bool)) (p : PT) (newLg : Nat) : Outcome PT := do
  checkLg newLg
  if 2 ^ newLg ≤ p.num then .err "newSize <= numPairs" else
  (p.slots.take (2 ^ p.lg)).foldlM (insStep ins) ⟨newLg, p.vb, 0, List.replicate (2 ^ newLg) none⟩

/-- l.81-86: the loop that enlarges the table -/
def growLoop (rb : PT → Nat → Outcome PT) : Nat → PT → Outcome PT
  | 0, _ => .panic
  | fuel + 1, p =>
    if 4 * p.num > 3 * 2 ^ p.lg then do
      let p ← rb p (p.lg + 1)
      growLoop rb fuel p
    else .ok p

/-- cpc/pair_table.go l.60-88 `maybeInsert`; it calls itself through `rebuild`, the first argument
bounds the nesting -/
def maybeInsertF : Nat → PT → Nat → Outcome (PT × Bool)
  | 0, _, _ => .panic
  | fuel + 1, p, item => do
    let probe ← locate p item
    if p.slots[probe]? = some (some item) then .ok (p, false) else
    let p := { p with slots := p.slots.set probe (some item), num := p.num + 1 }
    let p ← growLoop (rebuildWith (maybeInsertF fuel)) 64 p
    .ok (p, true)

/-- `maybeInsert` (a rebuild inside a rebuild is impossible, see `maybeInsert_spec`) -/
def maybeInsert (p : PT) (item : Nat) : Outcome (PT × Bool) := maybeInsertF 2 p item

/-- `rebuild` -/
def rebuild (p : PT) (newLg : Nat) : Outcome PT := rebuildWith maybeInsert p newLg

/-- l.113-120: empties the slots from `probe` to the next free one and returns their items -/
def drainLoop (mask : Nat) : Nat → Nat → PT → List Nat → Outcome (PT × List Nat)
  | 0, _, _, _ => .panic
  | fuel + 1, probe, p, acc =>
    match p.slots[probe]? with
    | none => .panic
    | some none => .ok (p, acc)
    | some (some it) =>
      drainLoop mask fuel ((probe + 1) &&& mask)
        { p with slots := p.slots.set probe none, num := p.num - 1 } (acc ++ [it])

/-- l.134-138: the loop that makes the table smaller -/
def shrinkLoop : Nat → PT → Outcome PT
  | 0, _ => .panic
  | fuel + 1, p =>
    if 4 * p.num < 2 ^ p.lg ∧ p.lg > 2 then do
      let p ← rebuild p (p.lg - 1)
      shrinkLoop fuel p
    else .ok p

/-- cpc/pair_table.go l.90-140 `maybeDelete` -/
def maybeDelete (p : PT) (item : Nat) : Outcome (PT × Bool) := do
  let probe ← locate p item
  if p.slots[probe]? = some none then .ok (p, false) else
  let mask := 2 ^ p.lg - 1
  let p := { p with slots := p.slots.set probe none, num := p.num - 1 }
  let (p, its) ← drainLoop mask (2 ^ p.lg) ((probe + 1) &&& mask) p []
  let p ← (its.map some).foldlM (insStep maybeInsert) p
  let p ← shrinkLoop 64 p
  .ok (p, true)

/-- cpc/pair_table.go l.142-165 `mustInsert` -/
def mustInsert (p : PT) (item : Nat) : Outcome PT := do
  let probe ← locate p item
  if p.slots[probe]? = some (some item) then .err "PairTable mustInsert() failed" else
  .ok { p with slots := p.slots.set probe (some item) }

/-! ## The sketch -/

/-- cpc/cpc_sketch.go l.58-76 (the scratch buffer is left out) -/
structure Sk where
  seed : Nat
  lgK : Nat
  num : Nat
  merged : Bool
  fiCol : Nat
  off : Nat
  win : Option (List (BitVec 8))
  pt : Option PT
  kxp : ℚ
  hip : ℚ
  deriving DecidableEq, Repr

/-- cpc/cpc_sketch.go l.82-92 `NewCpcSketch`, cpc/utils.go l.137-142 `checkLgK` -/
def newSk (lgK seed : Nat) : Outcome Sk :=
  if lgK < 4 ∨ lgK > 26 then .err "LgK"
  else .ok ⟨seed, lgK, 0, false, 0, 0, none, none, 2 ^ lgK, 0⟩

/-- internal/utils.go l.57-62 `InvPow2` -/
def invPow2 (e : Nat) : ℚ := 1 / 2 ^ e

/-- cpc/cpc_sketch.go l.365-372 `updateHIP` -/
def updateHIP (c : Sk) (rowCol : Nat) : Sk :=
  { c with hip := c.hip + 2 ^ c.lgK / c.kxp, kxp := c.kxp - invPow2 (rowCol % 64 + 1) }

/-- cpc/utils.go l.259-273 `makeKxpByteLookup`, the entry for the byte `b` -/
def kxpByte (b : BitVec 8) : ℚ :=
  (List.range 8).foldl (fun s col => if b.getLsbD col then s else s + invPow2 (col + 1)) 0

/-- cpc/cpc_sketch.go l.485-502 `refreshKXP`: the new value of `kxp` -/
def refreshKXP (m : List (BitVec 64)) : ℚ :=
  let byteSum (j : Nat) : ℚ := m.foldl (fun s (row : BitVec 64) => s + kxpByte ((row >>> (8 * j)).setWidth 8)) 0
  ((List.range 7).reverse).foldl (fun t j => t + invPow2 (8 * j) * byteSum j) 0

/-- One step of l.531-541: flip the bit of a stored pair.  An index out of range panics. -/
def flipPair (m : List (BitVec 64)) (s : Option Nat) : Outcome (List (BitVec 64)) :=
  match s with
  | none => .ok m
  | some rc =>
    match m[rc >>> 6]? with
    | none => .panic
    | some row => .ok (m.set (rc >>> 6) (row ^^^ (1#64 <<< (rc &&& 63))))

/-- l.520-524: the bits of the window -/
def orWindow (off : Nat) (m : List (BitVec 64)) : List (BitVec 8) → Nat → Outcome (List (BitVec 64))
  | [], _ => .ok m
  | v :: vs, i =>
    match m[i]? with
    | none => .panic
    | some row => orWindow off (m.set i (row ||| (v.setWidth 64 <<< off))) vs (i + 1)

/-- cpc/cpc_sketch.go l.504-543 `bitMatrixOfSketch` -/
def bitMatrix (c : Sk) : Outcome (List (BitVec 64)) :=
  if c.off > 56 then .err "offset" else
  if c.num = 0 then .ok (List.replicate (2 ^ c.lgK) 0#64) else do
  let m := List.replicate (2 ^ c.lgK) ((1#64 <<< c.off) - 1#64)
  let m ← match c.win with
    | none => .ok m
    | some w => orWindow c.off m w 0
  match c.pt with
  | none => .err "table == nil"
  | some t => (t.slots.take (2 ^ t.lg)).foldlM flipPair m

/-- `bits.TrailingZeros64` -/
def ctz (x : BitVec 64) : Nat := ((List.range 64).find? (fun i => x.getLsbD i)).getD 64

/-- `bits.LeadingZeros64` of a word -/
def clz (x : BitVec 64) : Nat := ((List.range 64).find? (fun i => x.getLsbD (63 - i))).getD 64

/-- `bits.OnesCount64` -/
def ones (x : BitVec 64) : Nat := ((List.range 64).filter (fun i => x.getLsbD i)).length

/-- One turn of the inner loop l.464-475 for row `i`; the result `none` is the early `return nil`
of l.472-474 -/
def insertPattern (i : Nat) : Nat → BitVec 64 → PT → Outcome (Option PT)
  | 0, _, _ => .panic
  | fuel + 1, pattern, t =>
    if pattern = 0#64 then .ok (some t) else do
    let col := ctz pattern
    let (t, novel) ← maybeInsert t ((i <<< 6) ||| col)
    if !novel then .ok none
    else insertPattern i fuel (pattern ^^^ (1#64 <<< col)) t

/-- The pattern of l.461-462: the row without the window and with the early zone inverted -/
def surprisesOf (off : Nat) (row : BitVec 64) : BitVec 64 :=
  (row &&& ~~~(0xFF#64 <<< off)) ^^^ ((1#64 <<< off) - 1#64)

/-- The window byte of l.460 -/
def windowOf (off : Nat) (row : BitVec 64) : BitVec 8 := (row >>> off).setWidth 8

/-- The outer loop l.458-476: rows, next row index, window built so far, table, OR of the
surprises.  `none` as above. -/
def splitRows (off : Nat) : List (BitVec 64) → Nat → List (BitVec 8) → PT → BitVec 64 →
    Outcome (Option (List (BitVec 8) × PT × BitVec 64))
  | [], _, w, t, ored => .ok (some (w, t, ored))
  | row :: rows, i, w, t, ored => do
    let pattern := surprisesOf off row
    match ← insertPattern i 65 pattern t with
    | none => .ok none
    | some t => splitRows off rows (i + 1) (w ++ [windowOf off row]) t (ored ||| pattern)

/-- cpc/cpc_sketch.go l.436-483 `modifyOffset`.  On the early `return nil` (l.473) the code has
changed the window and the table but not the offset; here that is a panic, shown impossible. -/
def modifyOffset (c : Sk) (newOff : Nat) : Outcome Sk :=
  if newOff > 56 then .err "newOffset > 56" else
  if newOff ≠ c.off + 1 then .err "newOffset != windowOffset + 1" else
  match c.win, c.pt with
  | some _, some t => do
    let m ← bitMatrix c
    let c := if newOff % 8 = 0 then { c with kxp := refreshKXP m } else c
    match ← splitRows newOff m 0 [] t.clear 0#64 with
    | none => .panic
    | some (w, t, ored) =>
      .ok { c with win := some w, pt := some t, off := newOff, fiCol := min (ctz ored) newOff }
  | _, _ => .err "slidingWindow == nil || pairTable == nil"

/-- One step of l.382-399 -/
def promoteStep (st : List (BitVec 8) × PT) (s : Option Nat) : Outcome (List (BitVec 8) × PT) :=
  match s with
  | none => .ok st
  | some rc =>
    if rc &&& 63 < 8 then
      match st.1[rc >>> 6]? with
      | none => .panic
      | some b => .ok (st.1.set (rc >>> 6) (b ||| (1#8 <<< (rc &&& 63))), st.2)
    else do
      let (t, novel) ← maybeInsert st.2 rc
      if !novel then .err "unexpected collision" else .ok (st.1, t)

/-- cpc/cpc_sketch.go l.374-405 `promoteSparseToWindowed` -/
def promoteSparse (c : Sk) : Outcome Sk :=
  match c.pt with
  | none => .panic
  | some old => do
    let t ← newPT 2 (6 + c.lgK)
    let (w, t) ← (old.slots.take (2 ^ old.lg)).foldlM promoteStep
      (List.replicate (2 ^ c.lgK) 0#8, t)
    .ok { c with win := some w, pt := some t }

/-- cpc/cpc_sketch.go l.246-272 `updateSparse` -/
def updateSparse (c : Sk) (rowCol : Nat) : Outcome Sk :=
  if 32 * c.num ≥ 3 * 2 ^ c.lgK then .err "C >= 3K/32" else
  match c.pt with
  | none => .err "pairTable is nil"
  | some t => do
    let (t, novel) ← maybeInsert t rowCol
    let c := { c with pt := some t }
    if novel then
      let c := updateHIP { c with num := c.num + 1 } rowCol
      if 32 * c.num ≥ 3 * 2 ^ c.lgK then promoteSparse c else .ok c
    else .ok c

/-- l.289-311: where the coupon goes, and whether it is new -/
def windowedStore (c : Sk) (rowCol : Nat) : Outcome (Sk × Bool) :=
  let col := rowCol &&& 63
  if col < c.off then
    match c.pt with
    | none => .panic
    | some t => do
      let (t, novel) ← maybeDelete t rowCol
      .ok ({ c with pt := some t }, novel)
  else if col < c.off + 8 then
    match c.win with
    | none => .panic
    | some w =>
      match w[rowCol >>> 6]? with
      | none => .panic
      | some oldBits =>
        let newBits := oldBits ||| (1#8 <<< (col - c.off))
        if newBits ≠ oldBits then .ok ({ c with win := some (w.set (rowCol >>> 6) newBits) }, true)
        else .ok (c, false)
  else
    match c.pt with
    | none => .panic
    | some t => do
      let (t, novel) ← maybeInsert t rowCol
      .ok ({ c with pt := some t }, novel)

/-- cpc/cpc_sketch.go l.274-332 `updateWindowed` -/
def updateWindowed (c : Sk) (rowCol : Nat) : Outcome Sk :=
  if c.off > 56 then .err "windowOffset" else
  if 32 * c.num < 3 * 2 ^ c.lgK then .err "C < 3K/32" else
  if 8 * c.num ≥ (27 + 8 * c.off) * 2 ^ c.lgK then .err "C >= (K * 27/8) + (K * windowOffset)" else do
  let (c, novel) ← windowedStore c rowCol
  if novel then
    let c := updateHIP { c with num := c.num + 1 } rowCol
    if 8 * c.num ≥ (27 + 8 * c.off) * 2 ^ c.lgK then do
      let c ← modifyOffset c (c.off + 1)
      if c.off < 1 ∨ c.off > 56 then .err "windowOffset" else
      if 8 * c.num ≥ (27 + 8 * c.off) * 2 ^ c.lgK then .err "C" else .ok c
    else .ok c
  else .ok c

/-- cpc/cpc_sketch.go l.237-244 `promoteEmptyToSparse` -/
def promoteEmpty (c : Sk) : Outcome Sk := do
  let t ← newPT 2 (6 + c.lgK)
  .ok { c with pt := some t }

/-- cpc/cpc_sketch.go l.418-434 `rowColUpdate` -/
def rowColUpdate (c : Sk) (rowCol : Nat) : Outcome Sk :=
  if rowCol &&& 63 < c.fiCol then .ok c else do
  let c ← if c.num = 0 then promoteEmpty c else .ok c
  if 32 * c.num < 3 * 2 ^ c.lgK then updateSparse c rowCol else updateWindowed c rowCol

/-- cpc/cpc_sketch.go l.203-235 `hashUpdate`.  The exception of l.224-226 (`rowCol64 == -1`) never
applies, `rowCol64` being non-negative. -/
def hashUpdate (c : Sk) (h0 h1 : BitVec 64) : Outcome Sk :=
  let col := clz h1
  if col < c.fiCol then .ok c else
  let col := if col > 63 then 63 else col
  do
  let c ← if c.num = 0 then promoteEmpty c else .ok c
  let row := h0.toNat &&& (2 ^ c.lgK - 1)
  let rowCol := (row <<< 6) ||| col
  if 32 * c.num < 3 * 2 ^ c.lgK then updateSparse c rowCol else updateWindowed c rowCol

/-- cpc/cpc_sketch.go l.407-416 `reset` -/
def reset (c : Sk) : Sk :=
  { c with num := 0, merged := false, fiCol := 0, off := 0, win := none, pt := none,
           kxp := 2 ^ c.lgK, hip := 0 }

/-- cpc/cpc_sketch.go l.580-622 `Copy`, cpc/pair_table.go l.256-269 `copy`: a deep copy; without
aliasing in the model only the checks and the failing copy of a table (l.604-606) are visible. -/
def copySk (c : Sk) : Outcome Sk := do
  let _ ← newSk c.lgK c.seed
  match c.pt with
  | none => .ok c
  | some t =>
    match newPT t.lg t.vb with
    | .ok _ => .ok c
    | _ => .ok { c with pt := none }

/-- cpc/utils.go l.227-233 `countBitsSetInMatrix` -/
def countBits (m : List (BitVec 64)) : Nat := m.foldl (fun n row => n + ones row) 0

/-- cpc/cpc_sketch.go l.570-577 `validate` -/
def validate (c : Sk) : Outcome Bool := do
  let m ← bitMatrix c
  .ok (countBits m == c.num)

/-- The five flavors, cpc/utils.go l.44-50 -/
inductive Flavor where
  | empty | sparse | hybrid | pinned | sliding
  deriving DecidableEq, Repr

/-- cpc/utils.go l.181-200 `determineFlavor` -/
def flavor (lgK num : Nat) : Flavor :=
  if num = 0 then .empty
  else if 32 * num < 3 * 2 ^ lgK then .sparse
  else if 2 * num < 2 ^ lgK then .hybrid
  else if 8 * num < 27 * 2 ^ lgK then .pinned
  else .sliding

/-- cpc/utils.go l.471-479 `determineCorrectOffset` -/
def correctOffset (lgK num : Nat) : Nat :=
  if 8 * num < 19 * 2 ^ lgK then 0 else (8 * num - 19 * 2 ^ lgK) >>> (lgK + 3)

/-! ## The union -/

/-- cpc/cpc_union.go l.27-38 -/
structure Un where
  seed : Nat
  lgK : Nat
  matrix : Option (List (BitVec 64))
  acc : Option Sk
  deriving DecidableEq, Repr

/-- cpc/cpc_union.go l.40-52 `NewCpcUnionSketch` -/
def newUn (lgK seed : Nat) : Outcome Un := do
  let a ← newSk lgK seed
  .ok ⟨seed, lgK, none, some a⟩

/-- `int(InverseGolden * float64(2^lg))`: the constant is the `float64` nearest to
0.6180339887498949025, which is 5566755282872656 / 2^53; multiplying by a power of two is exact.
internal/utils.go l.28, cpc/utils.go l.240-243 -/
def walkStride (lg : Nat) : Nat :=
  let s := 5566755282872656 * 2 ^ lg / 2 ^ 53
  if s = s >>> 1 <<< 1 then s + 1 else s

/-- l.245-254: the loop, `j` masked at the start of each turn -/
def walkLoop (slots : List (Option Nat)) (numSlots stride destMask : Nat) :
    Nat → Nat → Sk → Outcome Sk
  | 0, _, dest => .ok dest
  | n + 1, j, dest =>
    match slots[j &&& (numSlots - 1)]? with
    | none => .panic
    | some none => walkLoop slots numSlots stride destMask n ((j &&& (numSlots - 1)) + stride) dest
    | some (some rc) => do
      let dest ← rowColUpdate dest (rc &&& destMask)
      walkLoop slots numSlots stride destMask n ((j &&& (numSlots - 1)) + stride) dest

/-- cpc/utils.go l.235-257 `walkTableUpdatingSketch` -/
def walkTable (dest : Sk) (t : PT) : Outcome Sk :=
  walkLoop t.slots (2 ^ t.lg) (walkStride t.lg) (((2 ^ dest.lgK - 1) <<< 6) ||| 63) (2 ^ t.lg) 0 dest

/-- cpc/cpc_union.go l.233-252 `checkUnionState` -/
def checkUn (u : Un) : Outcome Unit :=
  match u.acc, u.matrix with
  | some _, some _ => .err "both valid"
  | none, none => .err "both nil"
  | none, some _ => .ok ()
  | some a, none =>
    if a.num > 0 ∧ (a.win.isSome ∨ a.pt.isNone) then .err "accumulator must be SPARSE"
    else if u.lgK ≠ a.lgK then .err "union LgK must equal accumulator LgK"
    else .ok ()

/-- cpc/utils.go l.219-225 and cpc/cpc_union.go l.328-339 `orMatrixIntoMatrix` -/
def orMatrix (dest : List (BitVec 64)) (destLgK : Nat) :
    List (BitVec 64) → Nat → Outcome (List (BitVec 64))
  | [], _ => .ok dest
  | row :: src, i =>
    match dest[i &&& (2 ^ destLgK - 1)]? with
    | none => .panic
    | some d => orMatrix (dest.set (i &&& (2 ^ destLgK - 1)) (d ||| row)) destLgK src (i + 1)

/-- cpc/cpc_union.go l.300-311 `orWindowIntoMatrix` with `srcOffset = 0` (the only use) -/
def orWindowInto (dest : List (BitVec 64)) (destLgK : Nat) :
    List (BitVec 8) → Nat → Outcome (List (BitVec 64))
  | [], _ => .ok dest
  | v :: src, i =>
    match dest[i &&& (2 ^ destLgK - 1)]? with
    | none => .panic
    | some d =>
      orWindowInto (dest.set (i &&& (2 ^ destLgK - 1)) (d ||| v.setWidth 64)) destLgK src (i + 1)

/-- One step of l.317-325 -/
def orPair (destLgK : Nat) (m : List (BitVec 64)) (s : Option Nat) : Outcome (List (BitVec 64)) :=
  match s with
  | none => .ok m
  | some rc =>
    match m[(rc >>> 6) &&& (2 ^ destLgK - 1)]? with
    | none => .panic
    | some row =>
      .ok (m.set ((rc >>> 6) &&& (2 ^ destLgK - 1)) (row ||| (1#64 <<< (rc &&& 63))))

/-- cpc/cpc_union.go l.313-326 `orTableIntoMatrix` -/
def orTable (m : List (BitVec 64)) (destLgK : Nat) (t : PT) : Outcome (List (BitVec 64)) :=
  (t.slots.take (2 ^ t.lg)).foldlM (orPair destLgK) m

/-- cpc/cpc_union.go l.254-298 `reduceUnionK` -/
def reduceUn (u : Un) (newLgK : Nat) : Outcome Un :=
  if newLgK < u.lgK then
    match u.matrix with
    | some m => do
      let m ← orMatrix (List.replicate (2 ^ newLgK) 0#64) newLgK (m.take (2 ^ u.lgK)) 0
      .ok { u with matrix := some m, lgK := newLgK }
    | none =>
      match u.acc with
      | none => .panic
      | some a =>
        if a.num = 0 then do
          let a ← newSk newLgK a.seed
          .ok { u with acc := some a, lgK := newLgK }
        else do
          let n ← newSk newLgK a.seed
          match a.pt with
          | none => .panic
          | some t =>
            let n ← walkTable n t
            if flavor n.lgK n.num = .sparse then .ok { u with acc := some n, lgK := newLgK }
            else do
              let m ← bitMatrix n
              .ok { u with matrix := some m, lgK := newLgK, acc := none }
  else .ok u

/-- l.84-91 and l.115-122: an accumulator beyond the sparse mode is replaced by its bit matrix -/
def toMatrix (u : Un) : Outcome Un :=
  match u.acc with
  | none => .ok u
  | some a => do
    let m ← bitMatrix a
    .ok { u with matrix := some m, acc := none }

/-- The pair table of a source: a nil table panics -/
def ptOf (c : Sk) : Outcome PT :=
  match c.pt with
  | none => .panic
  | some t => .ok t

/-- cpc/cpc_union.go l.123-137: cases B, C and D of `Update` -/
def orSource (u : Un) (m : List (BitVec 64)) (src : Sk) : Outcome Un :=
  match flavor src.lgK src.num with
  | .sparse => do
    let t ← ptOf src
    let m ← orTable m u.lgK t
    .ok { u with matrix := some m }
  | .hybrid | .pinned => do
    if u.lgK > src.lgK then .err "destLgK <= srcLgK" else
    match src.win with
    | none => .panic
    | some w => do
      let m ← orWindowInto m u.lgK (w.take (2 ^ src.lgK)) 0
      let t ← ptOf src
      let m ← orTable m u.lgK t
      .ok { u with matrix := some m }
  | .sliding => do
    let sm ← bitMatrix src
    if u.lgK > src.lgK then .err "destLgK <= srcLgK" else
    let m ← orMatrix m u.lgK (sm.take (2 ^ src.lgK)) 0
    .ok { u with matrix := some m }
  | .empty => .err "illegal Union state"

/-- cpc/cpc_union.go l.98-122: case A of `Update` -/
def accSource (u : Un) (a src : Sk) : Outcome Un :=
  if a.lgK = 0 then .err "union accumulator cannot be nil" else
  if flavor a.lgK a.num = .empty ∧ u.lgK = src.lgK then do
    let cp ← copySk src
    .ok { u with acc := some cp }
  else do
    let t ← ptOf src
    let a ← walkTable a t
    let u := { u with acc := some a }
    if flavor a.lgK a.num ≠ .empty ∧ flavor a.lgK a.num ≠ .sparse then toMatrix u else .ok u

/-- l.76-82: the union never has a greater `lgK` than its sources -/
def reduceFor (u : Un) (src : Sk) : Outcome Un :=
  if src.lgK < u.lgK then reduceUn u src.lgK else .ok u

/-- l.84-91 -/
def prepareFor (u : Un) (src : Sk) : Outcome Un :=
  if flavor src.lgK src.num ≠ .sparse then toMatrix u else .ok u

/-- l.93-141 -/
def addSource (u : Un) (src : Sk) : Outcome Un :=
  match u.matrix, u.acc with
  | some m, _ => orSource u m src
  | none, some a =>
    if flavor src.lgK src.num = .sparse then accSource u a src else .err "illegal Union state"
  | none, none => if flavor src.lgK src.num = .sparse then .panic else .err "illegal Union state"

/-- cpc/cpc_union.go l.62-142 `Update` -/
def Un.update (u : Un) (src : Sk) : Outcome Un :=
  if u.seed ≠ src.seed then .err "incompatible seeds" else
  if flavor src.lgK src.num = .empty then .ok u else do
  checkUn u
  let u ← reduceFor u src
  let u ← prepareFor u src
  addSource u src

/-- cpc/cpc_union.go l.144-231 `GetResult` -/
def Un.result (u : Un) : Outcome Sk := do
  checkUn u
  match u.acc with
  | some a =>
    if a.num = 0 then do
      let r ← newSk u.lgK a.seed
      .ok { r with merged := true }
    else if flavor a.lgK a.num ≠ .sparse then .err "accumulator must be SPARSE"
    else do
      let r ← copySk a
      .ok { r with merged := true }
  | none =>
    match u.matrix with
    | none => .panic
    | some m => do
      let r ← newSk u.lgK u.seed
      let num := countBits m
      if flavor u.lgK num = .empty ∨ flavor u.lgK num = .sparse then
        .err "flavor must be greater than SPARSE" else
      let off := correctOffset u.lgK num
      let t ← newPT (max (u.lgK - 4) 2) (6 + u.lgK)
      match ← splitRows off (m.take (2 ^ u.lgK)) 0 [] t 0#64 with
      | none => .err "isNovel must be true"
      | some (w, t, ored) =>
        .ok { r with num := num, off := off, win := some w, pt := some t,
                     fiCol := min (ctz ored) off, merged := true }

/-- cpc/cpc_union.go l.348-365 `GetBitMatrix` -/
def Un.bitMatrix (u : Un) : Outcome (List (BitVec 64)) := do
  checkUn u
  match u.matrix, u.acc with
  | some m, _ => .ok m
  | none, some a => Cpc.bitMatrix a
  | none, none => .err "invalid union state"

/-- cpc/cpc_union.go l.341-346 `getNumCoupons` -/
def Un.numCoupons (u : Un) : Outcome Nat :=
  match u.matrix, u.acc with
  | some m, _ => .ok (countBits m)
  | none, some a => .ok a.num
  | none, none => .panic

end Verif.Cpc
