import Verif.Rand
import Mathlib.Algebra.Order.BigOperators.Group.Finset

/-!
# Simulation of random programs, and upper bounds on expectations
-/

namespace Verif.Rand

variable {α β γ δ : Type}

/-- Whenever `u` returns normally, `t` makes the same draws and returns a related value. -/
def Sim (R : α → β → Prop) : Rand α → Rand β → Prop
  | _, panic => True
  | _, err _ => True
  | ret a, ret b => R a b
  | intn n k, intn n' k' => n = n' ∧ ∀ i, i < n' → Sim R (k i) (k' i)
  | unif nz k, unif nz' k' =>
    nz = nz' ∧ ∀ u, 0 ≤ u → u < 1 → (nz' = true → u ≠ 0) → Sim R (k u) (k' u)
  | _, _ => False

theorem Sim.all {R : α → β → Prop} {Q : β → Prop} {t : Rand α} {u : Rand β} (h : Sim R t u)
    (hq : All Q u) : All (fun a => ∃ b, R a b ∧ Q b) t := by
  induction u generalizing t with
  | ret b =>
    cases t with
    | ret a => exact ⟨b, h, hq⟩
    | err e => exact h
    | panic => exact h
    | intn n k => exact absurd h (by simp [Sim])
    | unif nz k => exact absurd h (by simp [Sim])
  | err e => exact absurd hq (by simp [All])
  | panic => exact absurd hq (by simp [All])
  | intn n k ih =>
    cases t with
    | ret a => exact absurd h (by simp [Sim])
    | err e => exact absurd h (by simp [Sim])
    | panic => exact absurd h (by simp [Sim])
    | intn n' k' =>
      simp only [Sim] at h
      obtain ⟨rfl, h⟩ := h
      exact ⟨hq.1, fun i hi => ih i (h i hi) (hq.2 i hi)⟩
    | unif nz k => exact absurd h (by simp [Sim])
  | unif nz k ih =>
    cases t with
    | ret a => exact absurd h (by simp [Sim])
    | err e => exact absurd h (by simp [Sim])
    | panic => exact absurd h (by simp [Sim])
    | intn n' k' => exact absurd h (by simp [Sim])
    | unif nz' k' =>
      simp only [Sim] at h
      obtain ⟨rfl, h⟩ := h
      exact fun v h0 h1 h2 => ih v (h v h0 h1 h2) (hq v h0 h1 h2)

theorem Sim.bind {R : α → β → Prop} {S : γ → δ → Prop} {Q : β → Prop} {t : Rand α} {u : Rand β}
    {f : α → Rand γ} {g : β → Rand δ} (h : Sim R t u) (hq : All Q u)
    (hf : ∀ a b, R a b → Q b → Sim S (f a) (g b)) : Sim S (t >>= f) (u >>= g) := by
  induction u generalizing t with
  | ret b =>
    cases t with
    | ret a => exact hf a b h hq
    | err e => exact absurd h (by simp [Sim])
    | panic => exact absurd h (by simp [Sim])
    | intn n k => exact absurd h (by simp [Sim])
    | unif nz k => exact absurd h (by simp [Sim])
  | err e => exact absurd hq (by simp [All])
  | panic => exact absurd hq (by simp [All])
  | intn n k ih =>
    cases t with
    | ret a => exact absurd h (by simp [Sim])
    | err e => exact absurd h (by simp [Sim])
    | panic => exact absurd h (by simp [Sim])
    | intn n' k' =>
      simp only [Sim] at h
      obtain ⟨rfl, h⟩ := h
      simp only [intn_bind, Sim]
      exact ⟨trivial, fun i hi => ih i (h i hi) (hq.2 i hi)⟩
    | unif nz k => exact absurd h (by simp [Sim])
  | unif nz k ih =>
    cases t with
    | ret a => exact absurd h (by simp [Sim])
    | err e => exact absurd h (by simp [Sim])
    | panic => exact absurd h (by simp [Sim])
    | intn n' k' => exact absurd h (by simp [Sim])
    | unif nz' k' =>
      simp only [Sim] at h
      obtain ⟨rfl, h⟩ := h
      simp only [unif_bind, Sim]
      refine ⟨trivial, fun v h0 h1 h2 => ih v (h v h0 h1 h2) (hq v h0 h1 h2)⟩

theorem Sim.ret {R : α → β → Prop} {a : α} {b : β} (h : R a b) : Sim R (ret a) (ret b) := h

theorem Sim.draw {R : α → β → Prop} {n : Nat} {f : Nat → Rand α} {g : Nat → Rand β}
    (h : ∀ i, i < n → Sim R (f i) (g i)) : Sim R (draw n >>= f) (draw n >>= g) := by
  unfold Rand.draw
  split
  · exact trivial
  · simp only [intn_bind, ret_bind, Sim]
    exact ⟨trivial, h⟩

theorem Sim.hasE {R : α → β → Prop} {f : α → ℚ} {g : β → ℚ} {t : Rand α} {u : Rand β} {x : ℚ}
    (h : Sim R t u) (hu : HasE g u x) (hfg : ∀ a b, R a b → f a = g b) : HasE f t x := by
  induction u generalizing t x with
  | ret b =>
    cases t with
    | ret a =>
      have : x = g b := hu
      show x = f a
      rw [this, hfg a b h]
    | err e => exact absurd h (by simp [Sim])
    | panic => exact absurd h (by simp [Sim])
    | intn n k => exact absurd h (by simp [Sim])
    | unif nz k => exact absurd h (by simp [Sim])
  | err e => exact hu.elim
  | panic => exact hu.elim
  | intn n k ih =>
    cases t with
    | ret a => exact absurd h (by simp [Sim])
    | err e => exact absurd h (by simp [Sim])
    | panic => exact absurd h (by simp [Sim])
    | intn n' k' =>
      simp only [Sim] at h
      obtain ⟨rfl, h⟩ := h
      obtain ⟨hn, v, hv, hx⟩ := hu
      exact ⟨hn, v, fun i hi => ih i (h i hi) (hv i hi), hx⟩
    | unif nz k => exact absurd h (by simp [Sim])
  | unif nz k ih =>
    cases t with
    | ret a => exact absurd h (by simp [Sim])
    | err e => exact absurd h (by simp [Sim])
    | panic => exact absurd h (by simp [Sim])
    | intn n' k' => exact absurd h (by simp [Sim])
    | unif nz' k' =>
      simp only [Sim] at h
      obtain ⟨rfl, h⟩ := h
      exact StepInt.mono hu fun v w h0 h1 hw =>
        ih v (h v (le_of_lt h0) h1 fun _ => ne_of_gt h0) hw

/-! ## Upper bounds on expectations -/

/-- The expected value of `f` of the result exists in the sense that it is bounded above by the
integral `x` of step functions (and the program returns normally almost surely). -/
def ELe (f : α → ℚ) : Rand α → ℚ → Prop
  | ret a, x => f a ≤ x
  | err _, _ => False
  | panic, _ => False
  | intn n k, x => 0 < n ∧ ∃ v : Nat → ℚ, (∀ i, i < n → ELe f (k i) (v i)) ∧
      (∑ i ∈ Finset.range n, v i) / n ≤ x
  | unif _ k, x => ∃ y, y ≤ x ∧ StepInt (fun u v => ELe f (k u) v) 0 1 y

theorem ELe.mono {f : α → ℚ} {t : Rand α} {x y : ℚ} (h : ELe f t x) (hxy : x ≤ y) : ELe f t y := by
  cases t with
  | ret a => exact le_trans h hxy
  | err e => exact h
  | panic => exact h
  | intn n k =>
    obtain ⟨hn, v, hv, hx⟩ := h
    exact ⟨hn, v, hv, le_trans hx hxy⟩
  | unif nz k =>
    obtain ⟨z, hz, hs⟩ := h
    exact ⟨z, le_trans hz hxy, hs⟩

theorem HasE.eLe {f : α → ℚ} {t : Rand α} {x : ℚ} (h : HasE f t x) : ELe f t x := by
  induction t generalizing x with
  | ret a => exact le_of_eq (Eq.symm h)
  | err e => exact h
  | panic => exact h
  | intn n k ih =>
    obtain ⟨hn, v, hv, hx⟩ := h
    exact ⟨hn, v, fun i hi => ih i (hv i hi), le_of_eq hx.symm⟩
  | unif nz k ih => exact ⟨x, le_refl x, StepInt.mono h fun u v _ _ huv => ih u huv⟩

theorem ELe.bind {g : β → ℚ} {h : α → ℚ} {t : Rand α} {f : α → Rand β} {x : ℚ}
    (ht : ELe h t x) (hf : All (fun a => ELe g (f a) (h a)) t) : ELe g (t >>= f) x := by
  induction t generalizing x with
  | ret a =>
    have hx : h a ≤ x := ht
    have : ELe g (f a) (h a) := hf
    exact this.mono hx
  | err e => exact ht
  | panic => exact ht
  | intn n k ih =>
    obtain ⟨hn, v, hv, hx⟩ := ht
    exact ⟨hn, v, fun i hi => ih i (hv i hi) (hf.2 i hi), hx⟩
  | unif nz k ih =>
    obtain ⟨y, hy, hs⟩ := ht
    exact ⟨y, hy, StepInt.mono hs fun u v h0 h1 hu =>
      ih u hu (hf u (le_of_lt h0) h1 fun _ => ne_of_gt h0)⟩

theorem ELe.draw {f : Nat → ℚ} {n : Nat} {x : ℚ} (hn : 0 < n)
    (hx : (∑ i ∈ Finset.range n, f i) / n ≤ x) : ELe f (draw n) x :=
  (HasE.draw hn).eLe.mono hx

/-- A smaller function has a smaller bound. -/
theorem ELe.of_le {f g : α → ℚ} {t : Rand α} {x : ℚ} (h : ELe f t x)
    (hfg : All (fun a => g a ≤ f a) t) : ELe g t x := by
  have := ELe.bind (g := g) (f := Rand.ret) h (hfg.mono fun a ha => ha)
  rwa [bind_ret] at this

/-- Bounds add up. -/
theorem ELe.add {f g : α → ℚ} {t : Rand α} {x y : ℚ} (h : ELe f t x) (h' : ELe g t y) :
    ELe (fun a => f a + g a) t (x + y) := by
  induction t generalizing x y with
  | ret a => exact add_le_add h h'
  | err e => exact h
  | panic => exact h
  | intn n k ih =>
    obtain ⟨hn, v, hv, hx⟩ := h
    obtain ⟨_, w, hw, hy⟩ := h'
    refine ⟨hn, fun i => v i + w i, fun i hi => ih i (hv i hi) (hw i hi), ?_⟩
    rw [Finset.sum_add_distrib, add_div]
    exact add_le_add hx hy
  | unif nz k ih =>
    obtain ⟨z, hz, hs⟩ := h
    obtain ⟨z', hz', hs'⟩ := h'
    exact ⟨z + z', add_le_add hz hz', StepInt.add hs hs' fun u v w _ _ h1 h2 => ih u h1 h2⟩

/-- A pointwise bound of a program that cannot fail. -/
theorem ELe.const {f : α → ℚ} {t : Rand α} {c : ℚ} (h : All (fun a => f a ≤ c) t) : ELe f t c :=
  ELe.of_le (HasE.constI (f := fun _ => c) (h.mono fun _ _ => rfl)).eLe h

/-- Bounds scale. -/
theorem ELe.scale {f : α → ℚ} {t : Rand α} {x c : ℚ} (h : ELe f t x) (hc : 0 ≤ c) :
    ELe (fun a => c * f a) t (c * x) := by
  induction t generalizing x with
  | ret a => exact mul_le_mul_of_nonneg_left h hc
  | err e => exact h
  | panic => exact h
  | intn n k ih =>
    obtain ⟨hn, v, hv, hx⟩ := h
    refine ⟨hn, fun i => c * v i, fun i hi => ih i (hv i hi), ?_⟩
    rw [← Finset.mul_sum, mul_div_assoc]
    exact mul_le_mul_of_nonneg_left hx hc
  | unif nz k ih =>
    obtain ⟨z, hz, hs⟩ := h
    refine ⟨c * z, mul_le_mul_of_nonneg_left hz hc, ?_⟩
    have := StepInt.affine (c := c) (d := 0) hs (S := fun u v => ELe (fun a => c * f a) (k u) v)
      fun u v _ _ huv => by rw [add_zero]; exact ih u huv
    rwa [mul_zero, add_zero] at this

theorem StepInt.bound {R S : ℚ → ℚ → Prop} {a b x y : ℚ} (h : StepInt R a b x)
    (h' : StepInt S a b y) (hrs : ∀ u v w, a < u → u < b → R u v → S u w → v ≤ w) : x ≤ y := by
  have key : ∀ {a b y v : ℚ}, StepInt S a b y → a ≤ b →
      (∀ u w, a < u → u < b → S u w → v ≤ w) → (b - a) * v ≤ y := by
    intro a b y v h
    induction h with
    | piece a b w hab h =>
      intro _ hv
      rcases eq_or_lt_of_le hab with rfl | hlt
      · simp
      · have hm1 : a < (a + b) / 2 := by linarith
        have hm2 : (a + b) / 2 < b := by linarith
        exact mul_le_mul_of_nonneg_left (hv _ _ hm1 hm2 (h _ hm1 hm2)) (by linarith)
    | split a c b x y h₁ h₂ ih₁ ih₂ =>
      intro _ hv
      have e1 := ih₁ h₁.le fun u w h1 h2 => hv u w h1 (lt_of_lt_of_le h2 h₂.le)
      have e2 := ih₂ h₂.le fun u w h1 h2 => hv u w (lt_of_le_of_lt h₁.le h1) h2
      have : (b - a) * v = (c - a) * v + (b - c) * v := by ring
      linarith
  induction h generalizing y with
  | piece a b v hab h => exact key h' hab fun u w h1 h2 hw => hrs u v w h1 h2 (h u h1 h2) hw
  | split a c b x1 x2 h₁ h₂ ih₁ ih₂ =>
    obtain ⟨y1, y2, k1, k2, rfl⟩ := h'.cut h₁.le h₂.le
    have e1 := ih₁ k1 fun u v w h1 h2 => hrs u v w h1 (lt_of_lt_of_le h2 h₂.le)
    have e2 := ih₂ k2 fun u v w h1 h2 => hrs u v w (lt_of_le_of_lt h₁.le h1) h2
    linarith

/-- The bound is one: an exact expectation cannot exceed it. -/
theorem ELe.le {f : α → ℚ} {t : Rand α} {x y : ℚ} (h : ELe f t x) (h' : HasE f t y) : y ≤ x := by
  induction t generalizing x y with
  | ret a =>
    have h1 : f a ≤ x := h
    have h2 : y = f a := h'
    rw [h2]; exact h1
  | err e => exact h.elim
  | panic => exact h.elim
  | intn n k ih =>
    obtain ⟨hn, v, hv, hx⟩ := h
    obtain ⟨_, w, hw, rfl⟩ := h'
    refine le_trans ?_ hx
    have hn' : (0 : ℚ) < n := by exact_mod_cast hn
    refine div_le_div_of_nonneg_right (Finset.sum_le_sum fun i hi => ?_) (le_of_lt hn')
    exact ih i (hv i (Finset.mem_range.1 hi)) (hw i (Finset.mem_range.1 hi))
  | unif nz k ih =>
    obtain ⟨z, hz, hs⟩ := h
    exact le_trans (StepInt.bound h' hs fun u v w _ _ h1 h2 => ih u h2 h1) hz

theorem Sim.eLe {R : α → β → Prop} {f : α → ℚ} {g : β → ℚ} {t : Rand α} {u : Rand β} {x : ℚ}
    (h : Sim R t u) (hu : ELe g u x) (hfg : ∀ a b, R a b → f a ≤ g b) : ELe f t x := by
  induction u generalizing t x with
  | ret b =>
    cases t with
    | ret a => exact le_trans (hfg a b h) hu
    | err e => exact absurd h (by simp [Sim])
    | panic => exact absurd h (by simp [Sim])
    | intn n k => exact absurd h (by simp [Sim])
    | unif nz k => exact absurd h (by simp [Sim])
  | err e => exact hu.elim
  | panic => exact hu.elim
  | intn n k ih =>
    cases t with
    | ret a => exact absurd h (by simp [Sim])
    | err e => exact absurd h (by simp [Sim])
    | panic => exact absurd h (by simp [Sim])
    | intn n' k' =>
      simp only [Sim] at h
      obtain ⟨rfl, h⟩ := h
      obtain ⟨hn, v, hv, hx⟩ := hu
      exact ⟨hn, v, fun i hi => ih i (h i hi) (hv i hi), hx⟩
    | unif nz k => exact absurd h (by simp [Sim])
  | unif nz k ih =>
    cases t with
    | ret a => exact absurd h (by simp [Sim])
    | err e => exact absurd h (by simp [Sim])
    | panic => exact absurd h (by simp [Sim])
    | intn n' k' => exact absurd h (by simp [Sim])
    | unif nz' k' =>
      simp only [Sim] at h
      obtain ⟨rfl, h⟩ := h
      obtain ⟨y, hy, hs⟩ := hu
      exact ⟨y, hy, StepInt.mono hs fun v w h0 h1 hw =>
        ih v (h v (le_of_lt h0) h1 fun _ => ne_of_gt h0) hw⟩

/-- A quantity that does not grow on average. -/
theorem foldlM_ELe {σ ι : Type} {step : σ → ι → Rand σ} (I : List ι → σ → Prop)
    (f : List ι → σ → ℚ)
    (h : ∀ i l s, I (i :: l) s → All (I l) (step s i))
    (hE : ∀ i l s, I (i :: l) s → ELe (f l) (step s i) (f (i :: l) s)) :
    ∀ l s, I l s → ELe (f []) (l.foldlM step s) (f l s) := by
  intro l
  induction l with
  | nil => intro s _; exact le_refl _
  | cons i l ih =>
    intro s hs
    rw [List.foldlM_cons]
    exact (hE i l s hs).bind ((h i l s hs).mono fun s' hs' => ih s' hs')

end Verif.Rand
