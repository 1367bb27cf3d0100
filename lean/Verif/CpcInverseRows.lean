import Verif.CpcInverse

/-!
# The ICON estimate inverts the expected number of cells: the points

The polynomial of `lgK = 26` is compared with the points, the other polynomials with that one.
-/

namespace Verif.Cpc

open PolyCert

/-! ## The polynomial of `lgK = 26` at the points -/

/-- the value at an integer -/
def evalI : List Int → Int → Int
  | [], _ => 0
  | a :: p, x => a + x * evalI p x

theorem evalI_cast (p : List Int) (x : Int) : ((evalI p x : Int) : ℝ) = eval p x := by
  induction p with
  | nil => simp [evalI, eval]
  | cons a p ih => rw [evalI, eval, ← ih]; push_cast; rfl

theorem iconRef_eq : iconRef = rescale (2 ^ 17) (iconG 26) := by decide +kernel

theorem iconG_length : (iconG 26).length = 24 := by decide +kernel

theorem iconF_ref (a : Nat) :
    iconF 26 (a / 2 ^ 16) * (10 ^ 23 * 66774757 * 2 ^ 391) = 2 * ((evalI iconRef a : Int) : ℝ) := by
  have h := eval_rescale (m := 2 ^ 17) (by positivity) (iconG 26) ((a : ℝ) / 2 ^ 17)
  rw [iconG_length, ← iconRef_eq] at h
  rw [evalI_cast]
  have e0 : ((2 ^ 17 : Nat) : ℝ) = 2 ^ 17 := by norm_num
  have e1 : ((a : Int) : ℝ) = (a : ℝ) := by push_cast; rfl
  rw [e0, mul_div_cancel₀ _ (by positivity : (2 : ℝ) ^ 17 ≠ 0)] at h
  unfold iconF
  rw [e1, show (a : ℝ) / 2 ^ 16 / 2 = a / 2 ^ 17 by ring]
  have e : ((2 : ℝ) ^ 17) ^ 24 = 2 ^ 17 * 2 ^ 391 := by rw [← pow_mul, ← pow_add]
  rw [e, mul_assoc] at h
  have h' := mul_left_cancel₀ (by positivity) h
  rw [h']
  field_simp

/-- a test for all pairs of neighbours -/
def check2 (t : Nat × Nat × Nat → Nat × Nat × Nat → Bool) : List (Nat × Nat × Nat) → Bool
  | p :: q :: l => t p q && check2 t (q :: l)
  | _ => true

def lastOf : List (Nat × Nat × Nat) → Nat × Nat × Nat
  | [] => (0, 0, 0)
  | [p] => p
  | _ :: q :: l => lastOf (q :: l)

/-- a number between two points lies between two neighbours -/
theorem check2_search {t : Nat × Nat × Nat → Nat × Nat × Nat → Bool} (f : Nat × Nat × Nat → ℝ) {r : ℝ}
    (l : List (Nat × Nat × Nat)) : ∀ p, check2 t (p :: l) = true → f p ≤ r → r < f (lastOf (p :: l)) →
    ∃ x ∈ p :: l, ∃ y ∈ p :: l, t x y = true ∧ f x ≤ r ∧ r < f y := by
  induction l with
  | nil =>
    intro p _ h1 h2
    simp only [lastOf] at h2
    linarith
  | cons q l ih =>
    intro p hc h1 h2
    rw [check2, Bool.and_eq_true] at hc
    rw [lastOf] at h2
    by_cases h3 : f q ≤ r
    · obtain ⟨x, hx, y, hy, h⟩ := ih q hc.2 h3 h2
      exact ⟨x, List.mem_cons_of_mem _ hx, y, List.mem_cons_of_mem _ hy, h⟩
    · exact ⟨p, List.mem_cons_self, q, List.mem_cons_of_mem _ List.mem_cons_self, hc.1, h1, not_le.mp h3⟩

/-- the lower bound of the next point is reached -/
def upTest (p q : Nat × Nat × Nat) : Bool :=
  ((40 * q.1 * (10 ^ 23 * 66774757 * 2 ^ 371) : Nat) : Int) ≤ 81 * evalI iconRef p.2.1

/-- the upper bound of the point before is not exceeded -/
def loTest (p q : Nat × Nat × Nat) : Bool :=
  135 * evalI iconRef q.2.2 ≤ ((68 * p.1 * (10 ^ 23 * 66774757 * 2 ^ 371) : Nat) : Int)

theorem rows_up : check2 upTest icGrid = true := by
  decide +kernel

theorem rows_lo : check2 loTest icGrid = true := by
  decide +kernel

/-- the same for the exponential formula -/
def upTestE (p q : Nat × Nat × Nat) : Bool :=
  (q.1 * 64 * 10 ^ 16) ^ 512 ≤ 2 ^ p.2.1 * (65 * 7940236163830469 * 2 ^ 20) ^ 512

def loTestE (p q : Nat × Nat × Nat) : Bool :=
  2 ^ q.2.2 * (127 * 7940236163830469 * 2 ^ 20) ^ 512 ≤ (p.1 * 128 * 10 ^ 16) ^ 512

theorem exps_up : check2 upTestE icGridE = true := by
  decide +kernel

theorem exps_lo : check2 loTestE icGridE = true := by
  decide +kernel

theorem icGrid_ends : ∃ p l, icGrid = p :: l ∧ p.2.1 ≤ 2730 ∧ p.2.2 ≤ 2730 ∧
    373556 ≤ (lastOf icGrid).2.1 ∧ 373556 ≤ (lastOf icGrid).2.2 ∧
    (p :: l).all (fun q => q.2.2 ≤ 376832) = true := by
  refine ⟨_, _, rfl, ?_⟩
  decide +kernel

theorem icGridE_ends : ∃ p l, icGridE = p :: l ∧ p.2.1 ≤ 2867 ∧ p.2.2 ≤ 2867 ∧
    3380 ≤ (lastOf icGridE).2.1 ∧ 3380 ≤ (lastOf icGridE).2.2 ∧
    (p :: l).all (fun q => 2 ^ 20 * 30 ≤ q.1 && q.1 ≤ 2 ^ 20 * 90) = true := by
  refine ⟨_, _, rfl, ?_⟩
  decide +kernel

/-! ## The other polynomials -/

/-- a polynomial is not negative on `[0, sum of steps]` -/
def posCheck : List Nat → List Int → Bool
  | [], _ => true
  | h :: hs, p => 0 ≤ low h p && posCheck hs (shift h p)

theorem posCheck_ok (steps : List Nat) : ∀ {p : List Int}, posCheck steps p = true → ∀ {x : ℝ},
    0 ≤ x → x < (steps.sum : Nat) → 0 ≤ eval p x := by
  induction steps with
  | nil =>
    intro p _ x h0 hx
    simp at hx
    linarith
  | cons h hs ih =>
    intro p hc x h0 hx
    unfold posCheck at hc
    rw [Bool.and_eq_true] at hc
    rw [List.sum_cons, Nat.cast_add] at hx
    rcases le_or_gt x h with h1 | h1
    · refine le_trans ?_ (low_le h p h0 h1)
      exact_mod_cast of_decide_eq_true hc.1
    · have := ih (p := shift h p) hc.2 (x := x - h) (by linarith) (by linarith)
      rwa [eval_shift, sub_add_cancel] at this

theorem posCheck_rescale {steps : List Nat} {m : Nat} (hm : 0 < m) {p : List Int}
    (hc : posCheck steps (rescale m p) = true) {x : ℝ} (h0 : 0 ≤ x)
    (hx : m * x < (steps.sum : Nat)) : 0 ≤ eval p x := by
  have hm' : (0 : ℝ) < m := by exact_mod_cast hm
  have h1 := posCheck_ok steps hc (x := m * x) (by positivity) hx
  have h2 := eval_rescale hm p x
  have h3 : 0 ≤ (m : ℝ) ^ p.length * eval p x := by rw [← h2]; positivity
  exact nonneg_of_mul_nonneg_right h3 (by positivity)

/-- the reciprocal of the tolerance -/
def tolDen (lgK : Nat) : Nat := 2 ^ min lgK 6

/-- `80 (d + 1) G - 81 d G26` -/
def rowA (lgK : Nat) : List Int :=
  add (smul (80 * (tolDen lgK + 1)) (iconG lgK)) (smul (-(81 * tolDen lgK)) (iconG 26))

/-- `135 d (2k - 1) G26 - 136 (d - 1) 2k G` -/
def rowB (lgK : Nat) : List Int :=
  add (smul (135 * tolDen lgK * (2 * 2 ^ lgK - 1)) (iconG 26))
    (smul (-(136 * (tolDen lgK - 1) * (2 * 2 ^ lgK))) (iconG lgK))

theorem rowsA : ∀ i : Fin 23, posCheck [18, 41, 62, 62] (rescale 64 (rowA (i.val + 4))) = true := by
  decide +kernel

theorem rowsB : ∀ i : Fin 23, posCheck [18, 41, 62, 62] (rescale 64 (rowB (i.val + 4))) = true := by
  decide +kernel

theorem small_check : posCheck [1] (rescale 47 (add [0, 136 * (10 ^ 23 * 66774757)]
    (smul (-135) (iconG 26)))) = true := by
  decide +kernel

/-- the tolerance -/
noncomputable def tol (lgK : Nat) : ℝ := 1 / 2 ^ min lgK 6

theorem tol_eq (lgK : Nat) : tol lgK = 1 / (tolDen lgK : Nat) := by
  unfold tol tolDen
  push_cast
  rfl

theorem rowA_ok {lgK : Nat} (h4 : 4 ≤ lgK) (h26 : lgK ≤ 26) {r : ℝ} (h0 : 0 ≤ r) (hr : r ≤ 5.7) :
    81 / 80 * iconF 26 r ≤ (1 + tol lgK) * iconF lgK r := by
  have hc := rowsA ⟨lgK - 4, by omega⟩
  simp only [show lgK - 4 + 4 = lgK by omega] at hc
  have h := posCheck_rescale (by norm_num) hc (x := r / 2) (by linarith)
    (by norm_num at hr ⊢; linarith)
  unfold rowA at h
  rw [eval_add, eval_smul, eval_smul] at h
  push_cast at h
  have hd : (0 : ℝ) < (tolDen lgK : Nat) := by unfold tolDen; positivity
  rw [tol_eq]
  unfold iconF
  rw [← sub_nonneg]
  have e : (1 + 1 / ((tolDen lgK : Nat) : ℝ)) * (2 * eval (iconG lgK) (r / 2) / (10 ^ 23 * 66774757)) -
      81 / 80 * (2 * eval (iconG 26) (r / 2) / (10 ^ 23 * 66774757)) =
      (80 * (((tolDen lgK : Nat) : ℝ) + 1) * eval (iconG lgK) (r / 2) +
        -(81 * ((tolDen lgK : Nat) : ℝ)) * eval (iconG 26) (r / 2)) *
        (2 / (80 * (tolDen lgK : Nat) * (10 ^ 23 * 66774757))) := by
    field_simp
    ring
  rw [e]
  positivity

theorem rowB_ok {lgK : Nat} (h4 : 4 ≤ lgK) (h26 : lgK ≤ 26) {r : ℝ} (h0 : 0 ≤ r) (hr : r ≤ 5.7) :
    (1 - tol lgK) * binCorr lgK * iconF lgK r ≤ 135 / 136 * iconF 26 r := by
  have hc := rowsB ⟨lgK - 4, by omega⟩
  simp only [show lgK - 4 + 4 = lgK by omega] at hc
  have h := posCheck_rescale (by norm_num) hc (x := r / 2) (by linarith)
    (by norm_num at hr ⊢; linarith)
  unfold rowB at h
  rw [eval_add, eval_smul, eval_smul] at h
  push_cast at h
  have hd : (0 : ℝ) < (tolDen lgK : Nat) := by unfold tolDen; positivity
  have hk : (1 : ℝ) ≤ 2 ^ lgK := one_le_pow₀ (by norm_num)
  have hk2 : (0 : ℝ) < 2 * 2 ^ lgK - 1 := by linarith
  rw [tol_eq]
  unfold iconF binCorr
  rw [← sub_nonneg]
  have e : 135 / 136 * (2 * eval (iconG 26) (r / 2) / (10 ^ 23 * 66774757)) -
      (1 - 1 / ((tolDen lgK : Nat) : ℝ)) * (2 * 2 ^ lgK / (2 * 2 ^ lgK - 1)) *
        (2 * eval (iconG lgK) (r / 2) / (10 ^ 23 * 66774757)) =
      (135 * ((tolDen lgK : Nat) : ℝ) * (2 * 2 ^ lgK - 1) * eval (iconG 26) (r / 2) +
        -(136 * (((tolDen lgK : Nat) : ℝ) - 1) * (2 * 2 ^ lgK)) * eval (iconG lgK) (r / 2)) *
        (2 / (136 * (tolDen lgK : Nat) * (2 * 2 ^ lgK - 1) * (10 ^ 23 * 66774757))) := by
    field_simp
    ring
  rw [e]
  positivity

theorem small_ok {r : ℝ} (h0 : 0 ≤ r) (hr : r ≤ 1 / 24) : 135 / 136 * iconF 26 r ≤ r := by
  have h := posCheck_rescale (by norm_num) small_check (x := r / 2) (by linarith)
    (by norm_num at hr ⊢; linarith)
  rw [eval_add, eval_smul] at h
  simp only [eval] at h
  push_cast at h
  unfold iconF
  rw [← sub_nonneg]
  have e : r - 135 / 136 * (2 * eval (iconG 26) (r / 2) / (10 ^ 23 * 66774757)) =
      (0 + r / 2 * (136 * (10 ^ 23 * 66774757) + r / 2 * 0) + -135 * eval (iconG 26) (r / 2)) *
        (2 / (136 * (10 ^ 23 * 66774757))) := by
    field_simp
    ring
  rw [e]
  exact mul_nonneg (by linarith) (by positivity)

end Verif.Cpc
