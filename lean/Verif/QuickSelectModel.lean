/-!
# Model of `internal/quick_select.go`

`lt a b` stands for Go's `a < b` (`QuickSelect`, l.22-63) or for
`compare(a, b) < 0` (`QuickSelectFunc`, l.70-111); both functions have the same
body otherwise.  `none` models an index-out-of-range panic *or* a loop that
does not finish within the fuel; the theorems show that it never occurs.
-/

namespace Verif.QuickSelect

variable {α : Type}

/-- Go `arr[i], arr[j] = arr[j], arr[i]` (quick_select.go l.59, l.61, l.107, l.109). -/
def swap (arr : List α) (i j : Nat) : Option (List α) :=
  match arr[i]?, arr[j]? with
  | some x, some y => some ((arr.set i y).set j x)
  | _, _ => none

/-- Inner loop quick_select.go l.42-47 (l.90-95):
`for arr[i+1] < v { i++; if i == hi { break } }`; the result is the final `i`. -/
def scanUp (lt : α → α → Bool) (arr : List α) (v : α) (hi : Nat) : Nat → Nat → Option Nat
  | 0, _ => none
  | fuel + 1, i =>
    match arr[i + 1]? with
    | none => none
    | some x =>
      if lt x v then
        if i + 1 = hi then some (i + 1) else scanUp lt arr v hi fuel (i + 1)
      else some i

/-- Inner loop quick_select.go l.49-54 (l.97-102):
`for v < arr[j-1] { j--; if j == lo { break } }`; the result is the final `j`.
`j = 0` would make Go index `-1`, a panic. -/
def scanDown (lt : α → α → Bool) (arr : List α) (v : α) (lo : Nat) : Nat → Nat → Option Nat
  | 0, _ => none
  | _ + 1, 0 => none
  | fuel + 1, j + 1 =>
    match arr[j]? with
    | none => none
    | some x =>
      if lt v x then
        if j = lo then some j else scanDown lt arr v lo fuel j
      else some (j + 1)

/-- Outer loop quick_select.go l.41-60 (l.89-108).  Returns the array and the final `j`. -/
def partitionLoop (lt : α → α → Bool) (v : α) (lo hi : Nat) :
    Nat → List α → Nat → Nat → Option (List α × Nat)
  | 0, _, _, _ => none
  | fuel + 1, arr, i, j =>
    match scanUp lt arr v hi (arr.length + 1) i with
    | none => none
    | some i' =>
      match scanDown lt arr v lo (arr.length + 1) j with
      | none => none
      | some 0 => none          -- `j--` gives -1; never reached
      | some (j1 + 1) =>
        let i1 := i' + 1
        if i1 ≥ j1 then some (arr, j1)
        else
          match swap arr i1 j1 with
          | none => none
          | some arr' => partitionLoop lt v lo hi fuel arr' i1 j1

/-- `partition` quick_select.go l.37-63 / `partitionFunc` l.85-111. -/
def partition (lt : α → α → Bool) (arr : List α) (lo hi : Nat) : Option (List α × Nat) :=
  match arr[lo]? with
  | none => none
  | some v =>
    match partitionLoop lt v lo hi (arr.length + 1) arr lo (hi + 1) with
    | none => none
    | some (arr1, j) =>
      match swap arr1 lo j with
      | none => none
      | some arr2 => some (arr2, j)

/-- `QuickSelect` loop quick_select.go l.22-35 / `QuickSelectFunc` l.70-83.
`hi` is a Go `int`; `hi = j - 1` may become `-1` when `j = 0`, hence `Int`. -/
def quickSelectLoop (lt : α → α → Bool) (pivot : Nat) :
    Nat → List α → Nat → Int → Option (List α × α)
  | 0, _, _, _ => none
  | fuel + 1, arr, lo, hi =>
    if hi > (lo : Int) then
      match partition lt arr lo hi.toNat with
      | none => none
      | some (arr', j) =>
        if j = pivot then (arr'[pivot]?).map (fun x => (arr', x))
        else if j > pivot then quickSelectLoop lt pivot fuel arr' lo ((j : Int) - 1)
        else quickSelectLoop lt pivot fuel arr' (j + 1) hi
    else (arr[pivot]?).map (fun x => (arr, x))

/-- `QuickSelect(arr, lo, hi, pivot)`: the mutated slice and the returned element. -/
def quickSelect (lt : α → α → Bool) (arr : List α) (lo : Nat) (hi : Int) (pivot : Nat) :
    Option (List α × α) :=
  quickSelectLoop lt pivot (arr.length + 1) arr lo hi

end Verif.QuickSelect
