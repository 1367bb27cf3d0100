import Verif.Outcome
import Mathlib.Order.Basic
import Mathlib.Order.Defs.LinearOrder

/-!
# Model of `internal/inequality_search.go`

`compareFn(a, b)` is Go's "a is less than b" callback (common.CompareFn), here `a < b` of a linear
order on the item type; `==`/`!=` is item equality.  Go `int` indices are modelled by `Nat`
(callers pass `low ≥ 0`), slice reads are checked.
-/

namespace Verif.Inequality

/-- `Inequality` constants, inequality_search.go l.27-34.  `other` is any other int64 value. -/
inductive Crit | LT | LE | GE | GT | other
  deriving DecidableEq, Repr

variable {α : Type} [LinearOrder α]

/-- `arr[i]` with bounds check. -/
def rd (arr : List α) (i : Nat) : Outcome α := Outcome.ofOption arr[i]?

/-- `resolve`, inequality_search.go l.71-144. -/
def resolve (arr : List α) (lo hi : Nat) (v : α) : Crit → Outcome Int
  | .LT =>
    if lo = hi then do
      let x ← rd arr hi
      if ¬ v < x ∧ v ≠ x then pure (lo : Int) else pure (-1)
    else do
      let x ← rd arr hi
      if ¬ v < x ∧ v ≠ x then pure (hi : Int)
      else do
        let y ← rd arr lo
        if ¬ v < y ∧ v ≠ y then pure (lo : Int) else pure (-1)
  | .LE =>
    if lo = hi then do
      let x ← rd arr lo
      if ¬ v < x then pure (lo : Int) else pure (-1)
    else do
      let x ← rd arr hi
      if ¬ v < x then pure (hi : Int)
      else do
        let y ← rd arr lo
        if ¬ v < y then pure (lo : Int) else pure (-1)
  | .GE =>
    if lo = hi then do
      let x ← rd arr lo
      if v < x ∨ v = x then pure (lo : Int) else pure (-1)
    else do
      let x ← rd arr lo
      if v < x ∨ v = x then pure (lo : Int)
      else do
        let y ← rd arr hi
        if v < y ∨ v = y then pure (hi : Int) else pure (-1)
  | .GT =>
    if lo = hi then do
      let x ← rd arr lo
      if v < x then pure (lo : Int) else pure (-1)
    else do
      let x ← rd arr lo
      if v < x then pure (lo : Int)
      else do
        let y ← rd arr hi
        if v < y then pure (hi : Int) else pure (-1)
  | .other => .err "unknown inequality"

/-- `compare`, inequality_search.go l.146-169. -/
def compare (arr : List α) (a b : Nat) (v : α) : Crit → Outcome Int
  | .LT | .GE => do
    let x ← rd arr a
    if v < x ∨ x = v then pure (-1)
    else do
      let y ← rd arr b
      if y < v then pure 1 else pure 0
  | .LE | .GT => do
    let x ← rd arr a
    if v < x then pure (-1)
    else do
      let y ← rd arr b
      if y < v ∨ y = v then pure 1 else pure 0
  | .other => .err "unknown inequality"

/-- `getIndex`, inequality_search.go l.171-182. -/
def getIndex (a b : Nat) : Crit → Outcome Int
  | .LT | .LE => pure (a : Int)
  | .GE | .GT => pure (b : Int)
  | .other => .err "unknown inequality"

/-- Loop of `FindWithInequality`, inequality_search.go l.49-68; `fuel` bounds the iterations. -/
def findLoop (arr : List α) (v : α) (crit : Crit) : Nat → Nat → Nat → Outcome Int
  | 0, _, _ => .panic
  | fuel + 1, lo, hi =>
    if lo ≤ hi then
      if hi - lo ≤ 1 then resolve arr lo hi v crit
      else do
        let mid := lo + (hi - lo) / 2
        let ret ← compare arr mid (mid + 1) v crit
        if ret = -1 then findLoop arr v crit fuel lo mid
        else if ret = 1 then findLoop arr v crit fuel (mid + 1) hi
        else getIndex mid (mid + 1) crit
    else pure (-1)

/-- `FindWithInequality`, inequality_search.go l.43-69. -/
def findWithInequality (arr : List α) (low high : Nat) (v : α) (crit : Crit) : Outcome Int :=
  if arr.length = 0 then .err "empty array"
  else findLoop arr v crit (high - low + 1) low high

end Verif.Inequality
