import Verif.Outcome
import Mathlib.Algebra.BigOperators.Group.Finset.Basic
import Mathlib.Algebra.BigOperators.Ring.Finset
import Mathlib.Algebra.BigOperators.Field
import Mathlib.Algebra.Order.Field.Rat
import Mathlib.Tactic.Ring
import Mathlib.Tactic.Linarith
import Mathlib.Tactic.FieldSimp

/-!
# Programs that draw random numbers

A Go function that calls `math/rand` is modelled as a tree: each call of `rand.Intn(n)` /
`rand.Int63n(n)` is a node with one branch per result in `0 .. n-1`, and each call of
`rand.Float64()` is a node with one branch per rational number in `[0,1)`.

* `Rand.All P t`: whatever the generator returns, the program returns normally with a value in `P`
  (so it neither panics nor returns an error).  This does not depend on any probability.
* `Rand.HasE f t x`: the expected value of `f` of the result is `x` when the draws are independent
  and uniform.  The expectation of a `Float64` node is the integral of a step function over `[0,1]`
  (Go's generator returns a multiple of `2^-53`; the model uses the ideal uniform distribution, so
  the probabilities of the model are those of the code up to `2^-53` per draw).
-/

namespace Verif

inductive Rand (α : Type) where
  | ret (a : α)
  | err (e : String)
  | panic
  /-- `rand.Intn(n)` -/
  | intn (n : Nat) (k : Nat → Rand α)
  /-- `rand.Float64()`; with `nz` the call is repeated until the result is not zero -/
  | unif (nz : Bool) (k : ℚ → Rand α)

namespace Rand

variable {α β γ : Type}

def bind : Rand α → (α → Rand β) → Rand β
  | ret a, f => f a
  | err e, _ => err e
  | panic, _ => panic
  | intn n k, f => intn n fun i => bind (k i) f
  | unif nz k, f => unif nz fun u => bind (k u) f

instance : Monad Rand where
  pure := ret
  bind := bind

@[simp] theorem ret_bind (a : α) (f : α → Rand β) : (ret a >>= f) = f a := rfl
@[simp] theorem pure_eq (a : α) : (pure a : Rand α) = ret a := rfl
@[simp] theorem err_bind (e : String) (f : α → Rand β) : (err e >>= f) = err e := rfl
@[simp] theorem panic_bind (f : α → Rand β) : ((panic : Rand α) >>= f) = panic := rfl
@[simp] theorem intn_bind (n : Nat) (k : Nat → Rand α) (f : α → Rand β) :
    (intn n k >>= f) = intn n fun i => k i >>= f := rfl
@[simp] theorem unif_bind (nz : Bool) (k : ℚ → Rand α) (f : α → Rand β) :
    (unif nz k >>= f) = unif nz fun u => k u >>= f := rfl

theorem bind_ret (t : Rand α) : (t >>= ret) = t := by
  induction t with
  | ret a => rfl
  | err e => rfl
  | panic => rfl
  | intn n k ih => simp only [intn_bind, ih]
  | unif nz k ih => simp only [unif_bind, ih]

theorem bind_assoc (t : Rand α) (f : α → Rand β) (g : β → Rand γ) :
    (t >>= f >>= g) = (t >>= fun a => f a >>= g) := by
  induction t with
  | ret a => rfl
  | err e => rfl
  | panic => rfl
  | intn n k ih => simp only [intn_bind, ih]
  | unif nz k ih => simp only [unif_bind, ih]

instance : LawfulMonad Rand := LawfulMonad.mk'
  (id_map := fun x => bind_ret x)
  (pure_bind := fun _ _ => rfl)
  (bind_assoc := bind_assoc)

/-- A computation without draws. -/
def ofOutcome : Outcome α → Rand α
  | .ok a => ret a
  | .err e => err e
  | .panic => panic

@[simp] theorem ofOutcome_ok (a : α) : ofOutcome (.ok a) = ret a := rfl
@[simp] theorem ofOutcome_err (e : String) : (ofOutcome (.err e) : Rand α) = err e := rfl
@[simp] theorem ofOutcome_panic : (ofOutcome .panic : Rand α) = panic := rfl

/-- `rand.Intn(n)`, `rand.Int63n(n)`: panics for `n ≤ 0`. -/
def draw (n : Nat) : Rand Nat := if n = 0 then panic else intn n ret

/-- `rand.Float64()` -/
def float : Rand ℚ := unif false ret

/-- `rand.Float64()` repeated until the result is not zero -/
def floatNonZero : Rand ℚ := unif true ret

/-- The program returns normally with a result in `P`, whatever the generator returns. -/
def All (P : α → Prop) : Rand α → Prop
  | ret a => P a
  | err _ => False
  | panic => False
  | intn n k => 0 < n ∧ ∀ i, i < n → All P (k i)
  | unif nz k => ∀ u, 0 ≤ u → u < 1 → (nz = true → u ≠ 0) → All P (k u)

theorem All.mono {P Q : α → Prop} {t : Rand α} (h : All P t) (hpq : ∀ a, P a → Q a) : All Q t := by
  induction t with
  | ret a => exact hpq a h
  | err e => exact h
  | panic => exact h
  | intn n k ih => exact ⟨h.1, fun i hi => ih i (h.2 i hi)⟩
  | unif nz k ih => exact fun u h0 h1 h2 => ih u (h u h0 h1 h2)

theorem All.and {P Q : α → Prop} {t : Rand α} (h : All P t) (h' : All Q t) :
    All (fun a => P a ∧ Q a) t := by
  induction t with
  | ret a => exact ⟨h, h'⟩
  | err e => exact h
  | panic => exact h
  | intn n k ih => exact ⟨h.1, fun i hi => ih i (h.2 i hi) (h'.2 i hi)⟩
  | unif nz k ih => exact fun u h0 h1 h2 => ih u (h u h0 h1 h2) (h' u h0 h1 h2)

theorem All.bind {P : α → Prop} {Q : β → Prop} {t : Rand α} {f : α → Rand β}
    (h : All P t) (hf : ∀ a, P a → All Q (f a)) : All Q (t >>= f) := by
  induction t with
  | ret a => exact hf a h
  | err e => exact h
  | panic => exact h
  | intn n k ih => exact ⟨h.1, fun i hi => ih i (h.2 i hi)⟩
  | unif nz k ih => exact fun u h0 h1 h2 => ih u (h u h0 h1 h2)

theorem All.of_bind {Q : β → Prop} {t : Rand α} {f : α → Rand β}
    (h : All Q (t >>= f)) : All (fun a => All Q (f a)) t := by
  induction t with
  | ret a => exact h
  | err e => exact h
  | panic => exact h
  | intn n k ih => exact ⟨h.1, fun i hi => ih i (h.2 i hi)⟩
  | unif nz k ih => exact fun u h0 h1 h2 => ih u (h u h0 h1 h2)

theorem All.draw {P : Nat → Prop} {n : Nat} (hn : 0 < n) (h : ∀ i, i < n → P i) :
    All P (draw n) := by
  unfold Rand.draw
  rw [if_neg (by omega)]
  exact ⟨hn, h⟩

/-- `StepInt R a b x`: `[a,b]` splits into finitely many pieces on the inside of each of which
`R u v` holds for one `v`; `x` is the sum of the lengths times the `v`. -/
inductive StepInt (R : ℚ → ℚ → Prop) : ℚ → ℚ → ℚ → Prop
  | piece (a b v : ℚ) (hab : a ≤ b) (h : ∀ u, a < u → u < b → R u v) : StepInt R a b ((b - a) * v)
  | split (a c b x y : ℚ) (h₁ : StepInt R a c x) (h₂ : StepInt R c b y) : StepInt R a b (x + y)

/-- The expected value of `f` of the result is `x` (and the program returns normally almost
surely). -/
def HasE (f : α → ℚ) : Rand α → ℚ → Prop
  | ret a, x => x = f a
  | err _, _ => False
  | panic, _ => False
  | intn n k, x => 0 < n ∧ ∃ v : Nat → ℚ, (∀ i, i < n → HasE f (k i) (v i)) ∧
      x = (∑ i ∈ Finset.range n, v i) / n
  | unif _ k, x => StepInt (fun u v => HasE f (k u) v) 0 1 x

/-! ## Expectations are unique -/

theorem StepInt.le {R : ℚ → ℚ → Prop} {a b x : ℚ} (h : StepInt R a b x) : a ≤ b := by
  induction h with
  | piece a b v hab h => exact hab
  | split a c b x y h₁ h₂ ih₁ ih₂ => exact le_trans ih₁ ih₂

theorem StepInt.mono {R S : ℚ → ℚ → Prop} {a b x : ℚ} (h : StepInt R a b x)
    (hrs : ∀ u v, a < u → u < b → R u v → S u v) : StepInt S a b x := by
  induction h with
  | piece a b v hab h => exact .piece a b v hab fun u h1 h2 => hrs u v h1 h2 (h u h1 h2)
  | split a c b x y h₁ h₂ ih₁ ih₂ =>
    exact .split a c b x y
      (ih₁ fun u v h1 h2 => hrs u v h1 (lt_of_lt_of_le h2 h₂.le))
      (ih₂ fun u v h1 h2 => hrs u v (lt_of_le_of_lt h₁.le h1) h2)

theorem StepInt.cut {R : ℚ → ℚ → Prop} {a b x : ℚ} (h : StepInt R a b x) {c : ℚ} (hac : a ≤ c)
    (hcb : c ≤ b) : ∃ y z, StepInt R a c y ∧ StepInt R c b z ∧ x = y + z := by
  induction h generalizing c with
  | piece a b v hab h =>
    refine ⟨_, _, .piece a c v hac fun u h1 h2 => h u h1 (lt_of_lt_of_le h2 hcb),
      .piece c b v hcb fun u h1 h2 => h u (lt_of_le_of_lt hac h1) h2, by ring⟩
  | split a d b x y h₁ h₂ ih₁ ih₂ =>
    rcases le_total c d with hcd | hcd
    · obtain ⟨y', z', h1, h2, rfl⟩ := ih₁ hac hcd
      exact ⟨y', z' + y, h1, .split _ _ _ _ _ h2 h₂, by ring⟩
    · obtain ⟨y', z', h1, h2, rfl⟩ := ih₂ hcd hcb
      exact ⟨x + y', z', .split _ _ _ _ _ h₁ h1, h2, by ring⟩

/-- A step function that is constant has the obvious integral. -/
theorem StepInt.const {R : ℚ → ℚ → Prop} {a b x v : ℚ} (h : StepInt R a b x)
    (hu : ∀ u v w, a < u → u < b → R u v → R u w → v = w)
    (hv : ∀ u, a < u → u < b → R u v) : x = (b - a) * v := by
  induction h with
  | piece a b w hab h =>
    rcases eq_or_lt_of_le hab with rfl | hlt
    · ring
    · have hm1 : a < (a + b) / 2 := by linarith
      have hm2 : (a + b) / 2 < b := by linarith
      rw [hu _ _ _ hm1 hm2 (h _ hm1 hm2) (hv _ hm1 hm2)]
  | split a c b x y h₁ h₂ ih₁ ih₂ =>
    rw [ih₁ (fun u v w h1 h2 => hu u v w h1 (lt_of_lt_of_le h2 h₂.le))
        (fun u h1 h2 => hv u h1 (lt_of_lt_of_le h2 h₂.le)),
      ih₂ (fun u v w h1 h2 => hu u v w (lt_of_le_of_lt h₁.le h1) h2)
        (fun u h1 h2 => hv u (lt_of_le_of_lt h₁.le h1) h2)]
    ring

theorem StepInt.unique {R : ℚ → ℚ → Prop} {a b x y : ℚ} (h : StepInt R a b x)
    (h' : StepInt R a b y) (hu : ∀ u v w, a < u → u < b → R u v → R u w → v = w) : x = y := by
  induction h generalizing y with
  | piece a b v hab h => exact (h'.const hu h).symm
  | split a c b x1 x2 h₁ h₂ ih₁ ih₂ =>
    obtain ⟨y1, y2, k1, k2, rfl⟩ := h'.cut h₁.le h₂.le
    rw [ih₁ k1 (fun u v w h1 h2 => hu u v w h1 (lt_of_lt_of_le h2 h₂.le)),
      ih₂ k2 (fun u v w h1 h2 => hu u v w (lt_of_le_of_lt h₁.le h1) h2)]

/-- A program has at most one expected value. -/
theorem HasE.unique {f : α → ℚ} {t : Rand α} {x y : ℚ} (h : HasE f t x) (h' : HasE f t y) :
    x = y := by
  induction t generalizing x y with
  | ret a => exact h.trans h'.symm
  | err e => exact h.elim
  | panic => exact h.elim
  | intn n k ih =>
    obtain ⟨_, v, hv, rfl⟩ := h
    obtain ⟨_, w, hw, rfl⟩ := h'
    congr 1
    exact Finset.sum_congr rfl fun i hi =>
      ih i (hv i (Finset.mem_range.1 hi)) (hw i (Finset.mem_range.1 hi))
  | unif nz k ih => exact StepInt.unique h h' fun u v w _ _ h1 h2 => ih u h1 h2

/-! ## Calculating with expectations -/

/-- Tower property. -/
theorem HasE.bind {g : β → ℚ} {h : α → ℚ} {t : Rand α} {f : α → Rand β} {x : ℚ}
    (ht : HasE h t x) (hf : All (fun a => HasE g (f a) (h a)) t) : HasE g (t >>= f) x := by
  induction t generalizing x with
  | ret a =>
    have : x = h a := ht
    subst this
    exact hf
  | err e => exact ht
  | panic => exact ht
  | intn n k ih =>
    obtain ⟨hn, v, hv, hx⟩ := ht
    exact ⟨hn, v, fun i hi => ih i (hv i hi) (hf.2 i hi), hx⟩
  | unif nz k ih =>
    exact StepInt.mono ht fun u v h0 h1 hu => ih u hu (hf u (le_of_lt h0) h1 fun _ => ne_of_gt h0)

theorem StepInt.affine {R S : ℚ → ℚ → Prop} {a b x c d : ℚ} (h : StepInt R a b x)
    (hrs : ∀ u v, a < u → u < b → R u v → S u (c * v + d)) :
    StepInt S a b (c * x + (b - a) * d) := by
  induction h with
  | piece a b v hab h =>
    have := StepInt.piece (R := S) a b (c * v + d) hab fun u h1 h2 => hrs u v h1 h2 (h u h1 h2)
    have he : (b - a) * (c * v + d) = c * ((b - a) * v) + (b - a) * d := by ring
    rwa [he] at this
  | split a e b x y h₁ h₂ ih₁ ih₂ =>
    have := StepInt.split a e b _ _
      (ih₁ fun u v h1 h2 => hrs u v h1 (lt_of_lt_of_le h2 h₂.le))
      (ih₂ fun u v h1 h2 => hrs u v (lt_of_le_of_lt h₁.le h1) h2)
    have he : c * x + (e - a) * d + (c * y + (b - e) * d) = c * (x + y) + (b - a) * d := by ring
    rwa [he] at this

theorem HasE.affine {f : α → ℚ} {t : Rand α} {x : ℚ} (h : HasE f t x) (c d : ℚ) :
    HasE (fun a => c * f a + d) t (c * x + d) := by
  induction t generalizing x with
  | ret a =>
    have : x = f a := h
    subst this
    rfl
  | err e => exact h
  | panic => exact h
  | intn n k ih =>
    obtain ⟨hn, v, hv, rfl⟩ := h
    refine ⟨hn, fun i => c * v i + d, fun i hi => ih i (hv i hi), ?_⟩
    have hn' : (n : ℚ) ≠ 0 := by exact_mod_cast (by omega : n ≠ 0)
    rw [Finset.sum_add_distrib, ← Finset.mul_sum, Finset.sum_const, Finset.card_range,
      nsmul_eq_mul, add_div, mul_div_assoc]
    field_simp
  | unif nz k ih =>
    have := StepInt.affine (c := c) (d := d) h
      (S := fun u v => HasE (fun a => c * f a + d) (k u) v)
      fun u v _ _ huv => ih u huv
    rwa [sub_zero, one_mul] at this

/-- Only the values of `f` on possible results matter. -/
theorem HasE.congr {f g : α → ℚ} {t : Rand α} {x : ℚ} (h : HasE f t x)
    (hfg : All (fun a => f a = g a) t) : HasE g t x := by
  induction t generalizing x with
  | ret a =>
    have : x = f a := h
    subst this
    exact hfg
  | err e => exact h
  | panic => exact h
  | intn n k ih =>
    obtain ⟨hn, v, hv, hx⟩ := h
    exact ⟨hn, v, fun i hi => ih i (hv i hi) (hfg.2 i hi), hx⟩
  | unif nz k ih =>
    exact StepInt.mono h fun u v h0 h1 hu => ih u hu (hfg u (le_of_lt h0) h1 fun _ => ne_of_gt h0)

theorem HasE.const {t : Rand α} {x c : ℚ} {f : α → ℚ} (h : HasE f t x)
    (hfc : All (fun a => f a = c) t) : x = c := by
  have h0 : HasE (fun _ => c) t x := h.congr hfc
  have : HasE (fun _ => c) t c := by
    have := h.affine 0 c
    simpa using this
  exact h0.unique this

theorem HasE.ret {f : α → ℚ} {a : α} : HasE f (ret a) (f a) := rfl

theorem HasE.draw {f : Nat → ℚ} {n : Nat} (hn : 0 < n) :
    HasE f (draw n) ((∑ i ∈ Finset.range n, f i) / n) := by
  unfold Rand.draw
  rw [if_neg (by omega)]
  exact ⟨hn, f, fun _ _ => rfl, rfl⟩

/-- A biased coin made from `Float64()`: value `v₁` below the threshold, `v₂` above. -/
theorem HasE.coin {nz : Bool} {f : α → ℚ} {k : ℚ → Rand α} {p v₁ v₂ : ℚ} (hp0 : 0 ≤ p) (hp1 : p ≤ 1)
    (h1 : ∀ u, 0 < u → u < p → HasE f (k u) v₁) (h2 : ∀ u, p < u → u < 1 → HasE f (k u) v₂) :
    HasE f (unif nz k) (p * v₁ + (1 - p) * v₂) := by
  have := StepInt.split (R := fun u v => HasE f (k u) v) 0 p 1 _ _ (.piece 0 p v₁ hp0 h1)
    (.piece p 1 v₂ hp1 h2)
  rwa [sub_zero] at this

theorem StepInt.add {R S Q : ℚ → ℚ → Prop} {a b x y : ℚ} (h : StepInt R a b x)
    (h' : StepInt S a b y) (hq : ∀ u v w, a < u → u < b → R u v → S u w → Q u (v + w)) :
    StepInt Q a b (x + y) := by
  induction h generalizing y with
  | piece a b v hab h =>
    have := StepInt.affine (c := 1) (d := v) h' (S := Q) fun u w h1 h2 hw => by
      have := hq u v w h1 h2 (h u h1 h2) hw
      rwa [add_comm, ← one_mul w] at this
    have he : 1 * y + (b - a) * v = (b - a) * v + y := by ring
    rwa [he] at this
  | split a c b x1 x2 h₁ h₂ ih₁ ih₂ =>
    obtain ⟨y1, y2, k1, k2, rfl⟩ := h'.cut h₁.le h₂.le
    have := StepInt.split a c b _ _
      (ih₁ k1 fun u v w h1 h2 => hq u v w h1 (lt_of_lt_of_le h2 h₂.le))
      (ih₂ k2 fun u v w h1 h2 => hq u v w (lt_of_le_of_lt h₁.le h1) h2)
    have he : x1 + y1 + (x2 + y2) = x1 + x2 + (y1 + y2) := by ring
    rwa [he] at this

theorem HasE.add {f g : α → ℚ} {t : Rand α} {x y : ℚ} (h : HasE f t x) (h' : HasE g t y) :
    HasE (fun a => f a + g a) t (x + y) := by
  induction t generalizing x y with
  | ret a =>
    have h1 : x = f a := h
    have h2 : y = g a := h'
    subst h1; subst h2
    rfl
  | err e => exact h
  | panic => exact h
  | intn n k ih =>
    obtain ⟨hn, v, hv, rfl⟩ := h
    obtain ⟨_, w, hw, rfl⟩ := h'
    refine ⟨hn, fun i => v i + w i, fun i hi => ih i (hv i hi) (hw i hi), ?_⟩
    rw [Finset.sum_add_distrib, add_div]
  | unif nz k ih => exact StepInt.add h h' fun u v w _ _ h1 h2 => ih u h1 h2

theorem StepInt.constI {R : ℚ → ℚ → Prop} {v : ℚ} (h : ∀ u, 0 < u → u < 1 → R u v) :
    StepInt R 0 1 v := by
  have := StepInt.piece (R := R) 0 1 v zero_le_one h
  rwa [sub_zero, one_mul] at this

/-- A constant has itself as expected value when the program cannot fail. -/
theorem HasE.constI {t : Rand α} {c : ℚ} {f : α → ℚ} (h : All (fun a => f a = c) t) :
    HasE f t c := by
  induction t with
  | ret a => exact Eq.symm h
  | err e => exact h
  | panic => exact h
  | intn n k ih =>
    refine ⟨h.1, fun _ => c, fun i hi => ih i (h.2 i hi), ?_⟩
    have hn' : (n : ℚ) ≠ 0 := by exact_mod_cast (by have := h.1; omega : n ≠ 0)
    rw [Finset.sum_const, Finset.card_range, nsmul_eq_mul]
    field_simp
  | unif nz k ih => exact StepInt.constI fun u h0 h1 => ih u (h u (le_of_lt h0) h1 fun _ => ne_of_gt h0)

theorem HasE.sum {ι : Type} {t : Rand α} {f : ι → α → ℚ} {x : ι → ℚ} (l : List ι)
    (h : ∀ i ∈ l, HasE (f i) t (x i)) (hall : All (fun _ => True) t) :
    HasE (fun a => (l.map fun i => f i a).sum) t (l.map x).sum := by
  induction l with
  | nil =>
    simp only [List.map_nil, List.sum_nil]
    exact HasE.constI (hall.mono fun _ _ => rfl)
  | cons i l ih =>
    simp only [List.map_cons, List.sum_cons]
    exact (h i (by simp)).add (ih fun j hj => h j (by simp [hj]))

theorem HasE.finsum {ι : Type} [DecidableEq ι] {t : Rand α} {f : ι → α → ℚ} {x : ι → ℚ}
    (l : Finset ι) (h : ∀ i ∈ l, HasE (f i) t (x i)) (hall : All (fun _ => True) t) :
    HasE (fun a => ∑ i ∈ l, f i a) t (∑ i ∈ l, x i) := by
  induction l using Finset.induction_on with
  | empty =>
    simp only [Finset.sum_empty]
    exact HasE.constI (hall.mono fun _ _ => rfl)
  | insert i l hi ih =>
    simp only [Finset.sum_insert hi]
    exact (h i (Finset.mem_insert_self i l)).add (ih fun j hj => h j (Finset.mem_insert_of_mem hj))

/-! ## Loops -/

variable {σ ι : Type}

theorem foldlM_all {step : σ → ι → Rand σ} (I : List ι → σ → Prop)
    (h : ∀ i l s, I (i :: l) s → All (I l) (step s i)) :
    ∀ l s, I l s → All (I []) (l.foldlM step s) := by
  intro l
  induction l with
  | nil => intro s hs; exact hs
  | cons i l ih =>
    intro s hs
    rw [List.foldlM_cons]
    exact (h i l s hs).bind fun s' hs' => ih s' hs'

/-- A quantity that grows by `gain i` on average in each round. -/
theorem foldlM_E {step : σ → ι → Rand σ} (I : List ι → σ → Prop) (f : σ → ℚ) (gain : ι → ℚ)
    (h : ∀ i l s, I (i :: l) s → All (I l) (step s i))
    (hE : ∀ i l s, I (i :: l) s → HasE f (step s i) (f s + gain i)) :
    ∀ l s, I l s → HasE f (l.foldlM step s) (f s + (l.map gain).sum) := by
  intro l
  induction l with
  | nil =>
    intro s hs
    have : f s + (List.map gain ([] : List ι)).sum = f s := by simp
    rw [this]
    exact rfl
  | cons i l ih =>
    intro s hs
    rw [List.foldlM_cons]
    have h1 := (hE i l s hs).affine 1 (l.map gain).sum
    have he : 1 * (f s + gain i) + (l.map gain).sum = f s + ((i :: l).map gain).sum := by
      rw [List.map_cons, List.sum_cons]; ring
    rw [he] at h1
    refine h1.bind ((h i l s hs).mono fun s' hs' => ?_)
    have := ih s' hs'
    rwa [one_mul]

/-- The probability of an event: the expected value of its indicator. -/
def HasProb (P : α → Prop) [DecidablePred P] (t : Rand α) (p : ℚ) : Prop :=
  HasE (fun a => if P a then 1 else 0) t p

/-! ## Non-vacuity -/

example : HasProb (fun n => n = 3) (draw 10) (1 / 10) := by
  have h := HasE.draw (f := fun i => if i = 3 then (1 : ℚ) else 0) (n := 10) (by decide)
  have e : (∑ i ∈ Finset.range 10, (if i = 3 then (1 : ℚ) else 0)) / ((10 : Nat) : ℚ) = 1 / 10 := by
    norm_num [Finset.sum_range_succ]
  unfold HasProb
  rwa [e] at h

end Rand
end Verif
