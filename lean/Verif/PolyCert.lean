import Mathlib.Data.Real.Basic
import Mathlib.Tactic.Linarith
import Mathlib.Tactic.Ring
import Mathlib.Tactic.LinearCombination
import Mathlib.Tactic.Positivity
import Mathlib.Tactic.NormNum

/-!
# Certificates of strict growth for polynomials with integer coefficients

A polynomial is the list of its coefficients, the constant one first.  `check steps p` cuts
`[0, sum of steps]` into intervals; on each of them it bounds the slope from below.
-/

namespace Verif.PolyCert

/-- the value at `x` -/
noncomputable def eval : List Int → ℝ → ℝ
  | [], _ => 0
  | a :: p, x => a + x * eval p x

/-- a lower bound of the values on `[0, h]` -/
def low (h : Nat) : List Int → Int
  | [] => 0
  | a :: p => a + min 0 (h * low h p)

/-- a lower bound of the slopes on `[0, h]` -/
def slope (h : Nat) : List Int → Int
  | [] => 0
  | _ :: p => low h p + min 0 (h * slope h p)

/-- `c + (X + h) q` -/
def mulLin (h : Nat) : Int → List Int → List Int
  | c, [] => [c]
  | c, a :: q => (c + h * a) :: mulLin h a q

/-- `p (X + h)` -/
def shift (h : Nat) : List Int → List Int
  | [] => []
  | a :: p => mulLin h a (shift h p)

def check : List Nat → List Int → Bool
  | [], _ => true
  | h :: hs, p => 0 < slope h p && check hs (shift h p)

theorem low_le (h : Nat) (p : List Int) {x : ℝ} (h0 : 0 ≤ x) (h1 : x ≤ h) :
    (low h p : ℝ) ≤ eval p x := by
  induction p with
  | nil => simp [low, eval]
  | cons a p ih =>
    unfold low eval
    push_cast
    have hm : min (0 : ℝ) (h * low h p) ≤ x * eval p x := by
      have h2 : x * (low h p : ℝ) ≤ x * eval p x := mul_le_mul_of_nonneg_left ih h0
      refine le_trans ?_ h2
      rcases le_total 0 (low h p : ℝ) with hl | hl
      · exact le_trans (min_le_left _ _) (mul_nonneg h0 hl)
      · exact le_trans (min_le_right _ _) (mul_le_mul_of_nonpos_right h1 hl)
    linarith

theorem slope_le (h : Nat) (p : List Int) {s t : ℝ} (h0 : 0 ≤ s) (hst : s ≤ t) (h1 : t ≤ h) :
    (t - s) * (slope h p : ℝ) ≤ eval p t - eval p s := by
  induction p with
  | nil => simp [slope, eval]
  | cons a p ih =>
    unfold slope eval
    push_cast
    have hd : 0 ≤ t - s := by linarith
    have hl : (low h p : ℝ) ≤ eval p t := low_le h p (by linarith) h1
    have h3 : min (0 : ℝ) (h * slope h p) ≤ s * slope h p := by
      rcases le_total 0 (slope h p : ℝ) with hl | hl
      · exact le_trans (min_le_left _ _) (mul_nonneg h0 hl)
      · exact le_trans (min_le_right _ _) (mul_le_mul_of_nonpos_right (by linarith) hl)
    have h4 : (t - s) * (low h p : ℝ) ≤ (t - s) * eval p t := mul_le_mul_of_nonneg_left hl hd
    have h5 : (t - s) * min (0 : ℝ) (h * slope h p) ≤ s * (eval p t - eval p s) := by
      refine le_trans (mul_le_mul_of_nonneg_left h3 hd) ?_
      calc (t - s) * (s * (slope h p : ℝ)) = s * ((t - s) * slope h p) := by ring
        _ ≤ _ := mul_le_mul_of_nonneg_left ih h0
    nlinarith

theorem eval_mulLin (h : Nat) (q : List Int) : ∀ (c : Int) (x : ℝ),
    eval (mulLin h c q) x = c + (x + h) * eval q x := by
  induction q with
  | nil => intro c x; simp [mulLin, eval]
  | cons a q ih =>
    intro c x
    unfold mulLin
    rw [eval, ih, eval]
    push_cast
    ring

theorem eval_shift (h : Nat) (p : List Int) (x : ℝ) : eval (shift h p) x = eval p (x + h) := by
  induction p with
  | nil => rfl
  | cons a p ih => rw [shift, eval_mulLin, ih, eval]

/-- a checked polynomial grows strictly -/
theorem check_lt (steps : List Nat) : ∀ {p : List Int}, check steps p = true → ∀ {s t : ℝ},
    0 ≤ s → s < t → t ≤ (steps.sum : Nat) → eval p s < eval p t := by
  induction steps with
  | nil =>
    intro p _ s t h0 hst ht
    simp at ht
    linarith
  | cons h hs ih =>
    intro p hc s t h0 hst ht
    unfold check at hc
    rw [Bool.and_eq_true] at hc
    have hsl : (0 : ℝ) < slope h p := by exact_mod_cast of_decide_eq_true hc.1
    rw [List.sum_cons] at ht
    push_cast at ht
    have hin : ∀ {s t : ℝ}, 0 ≤ s → s < t → t ≤ h → eval p s < eval p t := by
      intro s t h0 hst h1
      have := slope_le h p h0 hst.le h1
      have := mul_pos (sub_pos.mpr hst) hsl
      linarith
    have hout : ∀ {s t : ℝ}, (h : ℝ) ≤ s → s < t → t ≤ h + (hs.sum : Nat) → eval p s < eval p t := by
      intro s t h0 hst h1
      have := ih (p := shift h p) hc.2 (s := s - h) (t := t - h) (by linarith) (by linarith)
        (by linarith)
      rwa [eval_shift, eval_shift, sub_add_cancel, sub_add_cancel] at this
    rcases le_or_gt t h with h1 | h1
    · exact hin h0 hst h1
    · rcases le_or_gt (h : ℝ) s with h2 | h2
      · exact hout h2 hst ht
      · exact lt_trans (hin h0 h2 le_rfl) (hout le_rfl h1 ht)

/-! ## Operations -/

theorem eval_append (p q : List Int) (x : ℝ) :
    eval (p ++ q) x = eval p x + x ^ p.length * eval q x := by
  induction p with
  | nil => simp [eval]
  | cons a p ih =>
    rw [List.cons_append, eval, ih, eval, List.length_cons]
    ring

/-- `p + q` -/
def add : List Int → List Int → List Int
  | [], q => q
  | p, [] => p
  | a :: p, b :: q => (a + b) :: add p q

theorem eval_add (p : List Int) : ∀ (q : List Int) (x : ℝ), eval (add p q) x = eval p x + eval q x := by
  induction p with
  | nil => intro q x; simp [add, eval]
  | cons a p ih =>
    intro q x
    cases q with
    | nil => simp [add, eval]
    | cons b q =>
      rw [add, eval, ih, eval, eval]
      push_cast
      ring

/-- `a p` -/
def smul (a : Int) (p : List Int) : List Int := p.map (a * ·)

theorem eval_smul (a : Int) (p : List Int) (x : ℝ) : eval (smul a p) x = a * eval p x := by
  induction p with
  | nil => simp [smul, eval]
  | cons b p ih =>
    have : smul a (b :: p) = (a * b) :: smul a p := rfl
    rw [this, eval, ih, eval]
    push_cast
    ring

/-- `m ^ (n - 1) p (X / m)`, `n` the number of coefficients -/
def rescale (m : Nat) : List Int → List Int
  | [] => []
  | a :: p => a * (m : Int) ^ p.length :: rescale m p

theorem eval_rescale {m : Nat} (hm : 0 < m) (p : List Int) (x : ℝ) :
    m * eval (rescale m p) (m * x) = m ^ p.length * eval p x := by
  induction p with
  | nil => simp [rescale, eval]
  | cons a p ih =>
    rw [rescale, eval, eval, List.length_cons]
    push_cast
    rw [pow_succ]
    linear_combination (m : ℝ) * x * ih

/-- the value at a rational point -/
def evalQ : List Int → ℚ → ℚ
  | [], _ => 0
  | a :: p, x => a + x * evalQ p x

theorem evalQ_cast (p : List Int) (x : ℚ) : ((evalQ p x : ℚ) : ℝ) = eval p x := by
  induction p with
  | nil => simp [evalQ, eval]
  | cons a p ih => rw [evalQ, eval, ← ih]; push_cast; rfl

end Verif.PolyCert
