import Verif.RandMirror
import Verif.RandSim
import Mathlib.Algebra.Order.Ring.Abs

/-!
# The expectation as a linear functional
-/

namespace Verif.Rand

variable {α : Type}

/-- Every function of the outcome has an expectation. -/
def Total (t : Rand α) : Prop := ∀ f : α → ℚ, ∃ x, HasE f t x

noncomputable def ex {t : Rand α} (h : Total t) (f : α → ℚ) : ℚ := (h f).choose

theorem ex_has {t : Rand α} (h : Total t) (f : α → ℚ) : HasE f t (ex h f) := (h f).choose_spec

theorem ex_eq {t : Rand α} (h : Total t) {f : α → ℚ} {x : ℚ} (hx : HasE f t x) : ex h f = x :=
  (ex_has h f).unique hx

theorem ex_add {t : Rand α} (h : Total t) (f g : α → ℚ) :
    ex h (fun a => f a + g a) = ex h f + ex h g := ex_eq h ((ex_has h f).add (ex_has h g))

theorem ex_mul {t : Rand α} (h : Total t) (c : ℚ) (f : α → ℚ) :
    ex h (fun a => c * f a) = c * ex h f := by
  have := (ex_has h f).affine c 0
  simp only [add_zero] at this
  exact ex_eq h this

theorem ex_congr {t : Rand α} (h : Total t) {f g : α → ℚ} (hfg : All (fun a => f a = g a) t) :
    ex h f = ex h g := (ex_eq h ((ex_has h f).congr hfg)).symm

theorem ex_mono {t : Rand α} (h : Total t) {f g : α → ℚ} (hfg : All (fun a => f a ≤ g a) t) :
    ex h f ≤ ex h g := ((ex_has h g).eLe.of_le hfg).le (ex_has h f)

theorem ex_const {t : Rand α} (h : Total t) (hall : All (fun _ => True) t) (c : ℚ) :
    ex h (fun _ => c) = c := ex_eq h (HasE.constI (hall.mono fun _ _ => rfl))

theorem ex_sum {ι : Type} [DecidableEq ι] {t : Rand α} (h : Total t) (hall : All (fun _ => True) t)
    (l : Finset ι) (f : ι → α → ℚ) : ex h (fun a => ∑ i ∈ l, f i a) = ∑ i ∈ l, ex h (f i) :=
  ex_eq h (HasE.finsum l (fun i _ => ex_has h (f i)) hall)

/-- The square of a sum of uncorrelated terms. -/
theorem ex_sq_sum {ι : Type} [DecidableEq ι] {t : Rand α} (h : Total t) (hall : All (fun _ => True) t)
    (l : Finset ι) (f : ι → α → ℚ)
    (ho : ∀ i ∈ l, ∀ j ∈ l, i ≠ j → ex h (fun a => f i a * f j a) = 0) :
    ex h (fun a => (∑ i ∈ l, f i a) ^ 2) = ∑ i ∈ l, ex h (fun a => f i a ^ 2) := by
  have e : (fun a => (∑ i ∈ l, f i a) ^ 2) = fun a => ∑ i ∈ l, ∑ j ∈ l, f i a * f j a := by
    funext a
    rw [sq, Finset.sum_mul_sum]
  rw [e, ex_sum h hall l fun i a => ∑ j ∈ l, f i a * f j a]
  refine Finset.sum_congr rfl fun i hi => ?_
  rw [ex_sum h hall l fun j a => f i a * f j a, Finset.sum_eq_single i]
  · simp only [sq]
  · intro j hj hji
    exact ho i hi j hj hji.symm
  · intro hc
    exact absurd hi hc

/-- Chebyshev's inequality. -/
theorem chebyshev {t : Rand α} (h : Total t) (f : α → ℚ) {v d : ℚ} (hd : 0 < d)
    (hv : ex h (fun a => f a ^ 2) ≤ v) (hall : All (fun _ => True) t) :
    ∃ x, HasProb (fun a => d ≤ |f a|) t x ∧ x ≤ v / d ^ 2 := by
  unfold HasProb
  obtain ⟨x, hx⟩ := h fun a => if d ≤ |f a| then 1 else 0
  refine ⟨x, hx, ?_⟩
  rw [le_div_iff₀ (by positivity), mul_comm, ← ex_eq h hx, ← ex_mul]
  refine le_trans (ex_mono h (hall.mono fun a _ => ?_)) hv
  split
  · rename_i ha
    rw [mul_one, ← sq_abs (f a)]
    exact pow_le_pow_left₀ hd.le ha 2
  · rw [mul_zero]
    positivity

end Verif.Rand
