/-!
# Outcome of a Go call

`ok a`   : normal return with result `a`
`err e`  : the function returned a non-nil `error` (the string names which)
`panic`  : run-time panic (index out of range, nil dereference, division by zero, ...) or a loop
           that does not finish within the fuel of its model.
-/

namespace Verif

inductive Outcome (α : Type) where
  | ok (a : α)
  | err (e : String)
  | panic
  deriving DecidableEq, Repr

namespace Outcome

variable {α β : Type}

def bind (x : Outcome α) (f : α → Outcome β) : Outcome β :=
  match x with
  | ok a => f a
  | err e => err e
  | panic => panic

instance : Monad Outcome where
  pure := ok
  bind := bind

/-- Turn a checked slice access into an outcome. -/
def ofOption (x : Option α) : Outcome α :=
  match x with
  | some a => ok a
  | none => panic

@[simp] theorem ok_bind (a : α) (f : α → Outcome β) : (ok a >>= f) = f a := rfl
@[simp] theorem err_bind (e : String) (f : α → Outcome β) : (err e >>= f) = err e := rfl
@[simp] theorem panic_bind (f : α → Outcome β) : ((panic : Outcome α) >>= f) = panic := rfl
@[simp] theorem pure_eq (a : α) : (pure a : Outcome α) = ok a := rfl
@[simp] theorem ofOption_some (a : α) : ofOption (some a) = ok a := rfl
@[simp] theorem ofOption_none : ofOption (none : Option α) = panic := rfl

theorem bind_eq_ok {x : Outcome α} {f : α → Outcome β} {b : β} :
    (x >>= f) = ok b ↔ ∃ a, x = ok a ∧ f a = ok b := by
  cases x <;> simp

end Outcome
end Verif
