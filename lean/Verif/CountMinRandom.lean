import Verif.CountMinProps
import Mathlib.Analysis.SpecialFunctions.Log.Basic

/-!
# Count-min sketch with random hash words: counting lemmas
-/

namespace Verif.CountMin

open Finset

/-- fraction of the elements of a finite type that satisfy a predicate -/
noncomputable def prob (Ω : Type) [Fintype Ω] (p : Ω → Prop) : ℝ :=
  open Classical in ((univ.filter p).card : ℝ) / Fintype.card Ω

theorem prob_mono {Ω : Type} [Fintype Ω] {p q : Ω → Prop} (h : ∀ w, p w → q w) :
    prob Ω p ≤ prob Ω q := by
  classical
  unfold prob
  apply div_le_div_of_nonneg_right _ (by positivity)
  exact_mod_cast card_le_card (fun w hw => by
    rw [mem_filter] at hw ⊢; exact ⟨hw.1, h w hw.2⟩)

/-- Markov -/
theorem prob_markov {Ω : Type} [Fintype Ω] {f : Ω → ℝ} (h0 : ∀ w, 0 ≤ f w) {t : ℝ} (ht : 0 < t) :
    prob Ω (fun w => t ≤ f w) ≤ (∑ w, f w) / Fintype.card Ω / t := by
  classical
  unfold prob
  rw [div_right_comm]
  apply div_le_div_of_nonneg_right _ (by positivity)
  rw [le_div_iff₀ ht]
  calc ((univ.filter fun w => t ≤ f w).card : ℝ) * t
      = ∑ w ∈ univ.filter (fun w => t ≤ f w), t := by rw [sum_const, nsmul_eq_mul]
    _ ≤ ∑ w ∈ univ.filter (fun w => t ≤ f w), f w :=
        sum_le_sum fun w hw => (mem_filter.mp hw).2
    _ ≤ ∑ w, f w := sum_le_sum_of_subset_of_nonneg (filter_subset _ _) fun w _ _ => h0 w

/-- independent rows -/
theorem prob_rows {Ω : Type} [Fintype Ω] (d : Nat) (p : Ω → Prop) :
    prob (Fin d → Ω) (fun w => ∀ i, p (w i)) = prob Ω p ^ d := by
  classical
  unfold prob
  rw [div_pow]
  congr 1
  · rw [← Nat.cast_pow]
    congr 1
    have h1 : (Fintype.piFinset fun _ : Fin d => univ.filter p).card = (univ.filter p).card ^ d := by
      rw [Fintype.card_piFinset]
      simp
    rw [← h1]
    congr 1
    ext w
    simp
  · rw [Fintype.card_fun]
    simp

/-- redrawing the word of one item changes no sum -/
theorem sum_redraw {κ : Type} [Fintype κ] [DecidableEq κ] {W : Nat} (y : κ)
    (F : (κ → Fin W) → ℝ) :
    ∑ g : κ → Fin W, ∑ v : Fin W, F (Function.update g y v) = W * ∑ g : κ → Fin W, F g := by
  have h1 : ∑ g : κ → Fin W, ∑ v : Fin W, F (Function.update g y v) =
      ∑ p : (κ → Fin W) × Fin W, F (Function.update p.1 y p.2) :=
    (Fintype.sum_prod_type (fun p : (κ → Fin W) × Fin W => F (Function.update p.1 y p.2))).symm
  have h2 : ∑ p : (κ → Fin W) × Fin W, F (Function.update p.1 y p.2) =
      ∑ p : (κ → Fin W) × Fin W, F p.1 := by
    refine Finset.sum_nbij' (fun p => (Function.update p.1 y p.2, p.1 y))
      (fun p => (Function.update p.1 y p.2, p.1 y)) ?_ ?_ ?_ ?_ ?_
    · simp
    · simp
    · rintro ⟨g, v⟩ _; simp
    · rintro ⟨g, v⟩ _; simp
    · rintro ⟨g, v⟩ _; rfl
  rw [h1, h2, Fintype.sum_prod_type, mul_sum]
  simp

/-- at most one in `n` of the words, and one more, fall into a given bucket -/
theorem card_bucket {W n c : Nat} :
    ((univ.filter fun v : Fin W => v.val % n = c).card : ℝ) ≤ W / n + 1 := by
  have h : (univ.filter fun v : Fin W => v.val % n = c).card ≤ (range (W / n + 1)).card := by
    apply card_le_card_of_injOn (fun v => v.val / n)
    · intro v _
      rw [mem_coe, mem_range]
      have := Nat.div_le_div_right (c := n) v.isLt.le
      exact Nat.lt_succ_of_le this
    · intro a ha b hb hab
      rw [mem_coe, mem_filter] at ha hb
      apply Fin.ext
      have h1 := Nat.div_add_mod a.val n
      have h2 := Nat.div_add_mod b.val n
      have hab' : a.val / n = b.val / n := hab
      rw [← h1, ← h2, hab', ha.2, hb.2]
  rw [card_range] at h
  have h2 : (((W / n + 1 : Nat)) : ℝ) ≤ W / n + 1 := by
    push_cast
    have := @Nat.cast_div_le ℝ _ _ _ W n
    linarith
  exact le_trans (by exact_mod_cast h) h2

/-- two different items share a bucket with probability at most 1/n + 1/W -/
theorem sum_collide {κ : Type} [Fintype κ] [DecidableEq κ] {W n : Nat} (hW : 0 < W)
    {x y : κ} (hxy : y ≠ x) :
    ∑ g : κ → Fin W, (if (g y).val % n = (g x).val % n then (1 : ℝ) else 0) ≤
      Fintype.card (κ → Fin W) * (1 / n + 1 / W) := by
  have hWr : (0 : ℝ) < W := by exact_mod_cast hW
  have h := sum_redraw (W := W) y (fun g => if (g y).val % n = (g x).val % n then (1 : ℝ) else 0)
  have h2 : ∑ g : κ → Fin W, ∑ v : Fin W,
      (if (Function.update g y v y).val % n = (Function.update g y v x).val % n
        then (1 : ℝ) else 0) ≤ ∑ _g : κ → Fin W, ((W : ℝ) / n + 1) := by
    apply sum_le_sum
    intro g _
    simp only [Function.update_self, Function.update_of_ne hxy.symm]
    rw [sum_ite, sum_const, sum_const_zero, add_zero, nsmul_eq_mul, mul_one]
    exact card_bucket
  rw [h, sum_const, nsmul_eq_mul, card_univ] at h2
  have h3 : (Fintype.card (κ → Fin W) : ℝ) * (W / n + 1) =
      W * (Fintype.card (κ → Fin W) * (1 / n + 1 / W)) := by
    field_simp
  rw [h3] at h2
  exact le_of_mul_le_mul_left h2 hWr

/-- the weight of the other items in the bucket of `x` -/
noncomputable def excess {κ : Type} [Fintype κ] [DecidableEq κ] {W : Nat} (n : Nat) (f : κ → ℝ)
    (x : κ) (g : κ → Fin W) : ℝ :=
  ∑ y ∈ univ.erase x, f y * (if (g y).val % n = (g x).val % n then 1 else 0)

theorem excess_nonneg {κ : Type} [Fintype κ] [DecidableEq κ] {W : Nat} {n : Nat} {f : κ → ℝ}
    (hf : ∀ y, 0 ≤ f y) (x : κ) (g : κ → Fin W) : 0 ≤ excess n f x g := by
  unfold excess
  apply sum_nonneg
  intro y _
  apply mul_nonneg (hf y)
  split <;> norm_num

/-- a row errs by `t` or more with probability at most (1/n + 1/W) of the total weight over `t` -/
theorem prob_excess {κ : Type} [Fintype κ] [DecidableEq κ] {W n : Nat} (hW : 0 < W)
    {f : κ → ℝ} (hf : ∀ y, 0 ≤ f y) (x : κ) {t : ℝ} (ht : 0 < t) :
    prob (κ → Fin W) (fun g => t ≤ excess n f x g) ≤ (∑ y, f y) * (1 / n + 1 / W) / t := by
  refine (prob_markov (excess_nonneg hf x) ht).trans ?_
  apply div_le_div_of_nonneg_right _ ht.le
  have hc : (0 : ℝ) < Fintype.card (κ → Fin W) := by
    rw [Fintype.card_fun, Fintype.card_fin]
    have : 0 < W ^ Fintype.card κ := Nat.pow_pos hW
    exact_mod_cast this
  rw [div_le_iff₀ hc]
  unfold excess
  rw [sum_comm]
  have : ∀ y ∈ univ.erase x, ∑ g : κ → Fin W, f y *
      (if (g y).val % n = (g x).val % n then (1 : ℝ) else 0) ≤
      f y * (Fintype.card (κ → Fin W) * (1 / n + 1 / W)) := by
    intro y hy
    rw [← mul_sum]
    exact mul_le_mul_of_nonneg_left (sum_collide hW (ne_of_mem_erase hy)) (hf y)
  refine (sum_le_sum this).trans ?_
  rw [← sum_mul]
  have h1 : ∑ y ∈ univ.erase x, f y ≤ ∑ y, f y :=
    sum_le_sum_of_subset_of_nonneg (erase_subset _ _) fun y _ _ => hf y
  have h2 : (0 : ℝ) ≤ Fintype.card (κ → Fin W) * (1 / n + 1 / W) := by positivity
  calc (∑ y ∈ univ.erase x, f y) * (Fintype.card (κ → Fin W) * (1 / n + 1 / W))
      ≤ (∑ y, f y) * (Fintype.card (κ → Fin W) * (1 / n + 1 / W)) :=
        mul_le_mul_of_nonneg_right h1 h2
    _ = (∑ y, f y) * (1 / n + 1 / W) * Fintype.card (κ → Fin W) := by ring

/-- the weight of the items that satisfy `p`, item by item -/
theorem weightOf_items (X : Finset (List Nat)) : ∀ (s : Stream), (∀ e ∈ s, e.1 ∈ X) →
    ∀ p : List Nat → Bool,
    weightOf s p = ∑ y : X, weightOf s (fun x => x == y.val) * (if p y.val then 1 else 0) := by
  intro s
  induction s with
  | nil => intro _ p; simp [weightOf]
  | cons e s ih =>
    intro hX p
    have hs := ih (fun x hx => hX x (by simp [hx])) p
    rw [weightOf_cons, hs]
    simp only [weightOf_cons, add_mul, sum_add_distrib]
    congr 1
    have he := hX e (by simp)
    rw [sum_eq_single (⟨e.1, he⟩ : X)]
    · by_cases h1 : e.1 = []
      · simp [h1]
      · by_cases h2 : p e.1 = true <;> simp [h1, h2]
    · intro b _ hb
      have : e.1 ≠ b.val := fun h => hb (Subtype.ext h.symm)
      simp [this]
    · intro h; exact absurd (mem_univ _) h

end Verif.CountMin
