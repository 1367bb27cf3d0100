import Verif.ThetaMean

/-!
# First and second moments of the number of items below a threshold
-/

namespace Verif.Theta

variable {ι : Type} [Fintype ι] [DecidableEq ι]

theorem mean_sum {κ : Type} {N : Nat} (s : Finset κ) (f : κ → (ι → Nat) → ℚ) :
    mean ι N (fun h => ∑ k ∈ s, f k h) = ∑ k ∈ s, mean ι N (f k) := by
  unfold mean
  rw [Finset.sum_comm, Finset.sum_div]

theorem mean_congr {N : Nat} {f f' : (ι → Nat) → ℚ} (h : ∀ x ∈ hashings ι N, f x = f' x) :
    mean ι N f = mean ι N f' := by
  unfold mean
  rw [Finset.sum_congr rfl h]

theorem mean_mono {N : Nat} {f f' : (ι → Nat) → ℚ} (h : ∀ x ∈ hashings ι N, f x ≤ f' x) :
    mean ι N f ≤ mean ι N f' := by
  unfold mean
  exact div_le_div_of_nonneg_right (Finset.sum_le_sum h) (by positivity)

theorem mean_smul {N : Nat} (a : ℚ) (f : (ι → Nat) → ℚ) :
    mean ι N (fun h => a * f h) = a * mean ι N f := by
  unfold mean
  rw [← Finset.mul_sum, mul_div_assoc]

theorem mean_add {N : Nat} (f f' : (ι → Nat) → ℚ) :
    mean ι N (fun h => f h + f' h) = mean ι N f + mean ι N f' := by
  unfold mean
  rw [Finset.sum_add_distrib, add_div]

theorem mean_const {N : Nat} (hN : Fintype.card ι ≤ N) (a : ℚ) :
    mean ι N (fun _ => a) = a := by
  unfold mean
  have h1 : ((hashings ι N).card : ℚ) ≠ 0 := by
    have := card_hashings_pos hN
    positivity
  rw [Finset.sum_const, nsmul_eq_mul]
  field_simp

/-- the number of items of `P` below the threshold -/
def below (τ : (ι → Nat) → Nat) (P : Finset ι) (h : ι → Nat) : Nat :=
  (P.filter fun i => h i < τ h).card

theorem ht_one {τ : (ι → Nat) → Nat} {P : Finset ι} {h : ι → Nat} :
    ∑ i ∈ P, ht τ {i} h = (below τ P h : ℚ) / ((τ h - 1 : Nat) : ℚ) := by
  have : ∀ i ∈ P, ht τ {i} h = if h i < τ h then 1 / ((τ h - 1 : Nat) : ℚ) else 0 := by
    intro i _
    unfold ht
    simp
  rw [Finset.sum_congr rfl this, ← Finset.sum_filter, Finset.sum_const, nsmul_eq_mul]
  unfold below
  ring

/-- The inverse probability estimate of the size of any set `P` of items is unbiased. -/
theorem mean_below {τ : (ι → Nat) → Nat} (hs : Stops τ) (P : Finset ι) {N : Nat}
    (hlow : ∀ h, Proper h → 1 < τ h) (hhigh : ∀ h, Proper h → τ h ≤ N + 1) (hN : Fintype.card ι ≤ N) :
    mean ι N (fun h => (below τ P h : ℚ) / ((τ h - 1 : Nat) : ℚ)) = P.card / N := by
  rw [mean_congr (fun h _ => ht_one.symm), mean_sum]
  rw [Finset.sum_congr rfl (fun i _ => mean_ht hs (J := {i}) (by simpa using hlow) hhigh hN)]
  simp [div_eq_mul_inv]

theorem ht_two {τ : (ι → Nat) → Nat} {P : Finset ι} {h : ι → Nat} :
    ∑ p ∈ P.offDiag, ht τ {p.1, p.2} h =
      (below τ P h : ℚ) * ((below τ P h : ℚ) - 1) / ((τ h - 1 : Nat) * (τ h - 2 : Nat) : ℚ) := by
  have : ∀ p ∈ P.offDiag, ht τ {p.1, p.2} h =
      if h p.1 < τ h ∧ h p.2 < τ h then 1 / ((τ h - 1 : Nat) * (τ h - 2 : Nat) : ℚ) else 0 := by
    intro p hp
    rw [Finset.mem_offDiag] at hp
    have hne := hp.2.2
    unfold ht
    rw [Finset.card_pair hne]
    have : (τ h - 1).descFactorial 2 = (τ h - 1) * (τ h - 2) := by
      rw [Nat.descFactorial_succ, Nat.descFactorial_one, Nat.mul_comm, Nat.sub_sub]
    rw [this]
    push_cast
    simp
  rw [Finset.sum_congr rfl this, ← Finset.sum_filter, Finset.sum_const, nsmul_eq_mul]
  have hset : P.offDiag.filter (fun p => h p.1 < τ h ∧ h p.2 < τ h) =
      (P.filter fun i => h i < τ h).offDiag := by
    ext p
    simp only [Finset.mem_filter, Finset.mem_offDiag]
    tauto
  rw [hset, Finset.offDiag_card]
  unfold below
  generalize (P.filter fun i => h i < τ h).card = c
  rw [Nat.cast_sub (Nat.le_mul_self c)]
  push_cast
  ring

/-- second factorial moment -/
theorem mean_below_two {τ : (ι → Nat) → Nat} (hs : Stops τ) (P : Finset ι) {N : Nat}
    (hlow : ∀ h, Proper h → 2 < τ h) (hhigh : ∀ h, Proper h → τ h ≤ N + 1) (hN : Fintype.card ι ≤ N) :
    mean ι N (fun h => (below τ P h : ℚ) * ((below τ P h : ℚ) - 1) /
      ((τ h - 1 : Nat) * (τ h - 2 : Nat) : ℚ)) = P.card * (P.card - 1) / (N * (N - 1 : Nat)) := by
  rw [mean_congr (fun h _ => ht_two.symm), mean_sum]
  have : ∀ p ∈ P.offDiag, mean ι N (ht τ {p.1, p.2}) = 1 / ((N : ℚ) * (N - 1 : Nat)) := by
    intro p hp
    rw [Finset.mem_offDiag] at hp
    have hc : ({p.1, p.2} : Finset ι).card = 2 := Finset.card_pair hp.2.2
    rw [mean_ht hs (J := {p.1, p.2}) (by rw [hc]; exact hlow) hhigh hN, hc,
      Nat.descFactorial_succ, Nat.descFactorial_one]
    push_cast
    ring
  rw [Finset.sum_congr rfl this, Finset.sum_const, nsmul_eq_mul, Finset.offDiag_card,
    Nat.cast_sub (Nat.le_mul_self _)]
  push_cast
  ring

/-- If at least `k` items of `P` always lie below the threshold, the estimate of the size of `P`
has relative variance at most `1 / (k - 1)`. -/
theorem mean_square {τ : (ι → Nat) → Nat} (hs : Stops τ) (P : Finset ι) {N k : Nat} (hk : 2 ≤ k)
    (hlow : ∀ h, Proper h → 2 < τ h) (hhigh : ∀ h, Proper h → τ h ≤ N + 1) (hN : Fintype.card ι ≤ N)
    (hmany : ∀ h ∈ hashings ι N, k ≤ below τ P h) :
    mean ι N (fun h => (N * (below τ P h : ℚ) / ((τ h - 1 : Nat) : ℚ)) ^ 2) ≤
      (P.card : ℚ) ^ 2 * (1 + 1 / (k - 1)) := by
  have hkq : (2 : ℚ) ≤ k := by exact_mod_cast hk
  have hpos : (0 : ℚ) < (k : ℚ) - 1 := by linarith
  have hstep : ∀ h ∈ hashings ι N, (N * (below τ P h : ℚ) / ((τ h - 1 : Nat) : ℚ)) ^ 2 ≤
      ((N : ℚ) ^ 2 * (1 + 1 / (k - 1))) * ((below τ P h : ℚ) * ((below τ P h : ℚ) - 1) /
        ((τ h - 1 : Nat) * (τ h - 2 : Nat) : ℚ)) := by
    intro h hm
    have hpr : Proper h := by
      rw [mem_hashings] at hm
      exact ⟨hm.1, fun i => (hm.2 i).1⟩
    have h2 := hlow h hpr
    have hc : (k : ℚ) ≤ below τ P h := by exact_mod_cast hmany h hm
    have ha : (1 : ℚ) ≤ ((τ h - 2 : Nat) : ℚ) := by
      have : 1 ≤ τ h - 2 := by omega
      exact_mod_cast this
    have hab : ((τ h - 1 : Nat) : ℚ) = ((τ h - 2 : Nat) : ℚ) + 1 := by
      rw [show τ h - 1 = τ h - 2 + 1 by omega]; push_cast; ring
    rw [hab]
    generalize ((τ h - 2 : Nat) : ℚ) = a at *
    generalize (below τ P h : ℚ) = c at *
    have hN2 : (0 : ℚ) ≤ (N : ℚ) ^ 2 := by positivity
    have key : c ^ 2 / (a + 1) ^ 2 ≤ (1 + 1 / ((k : ℚ) - 1)) * (c * (c - 1) / ((a + 1) * a)) := by
      have e1 : c ^ 2 / (a + 1) ^ 2 ≤ c ^ 2 / ((a + 1) * a) := by
        apply div_le_div_of_nonneg_left (by positivity) (by nlinarith) (by nlinarith)
      have e2 : c ^ 2 ≤ (1 + 1 / ((k : ℚ) - 1)) * (c * (c - 1)) := by
        have : (1 + 1 / ((k : ℚ) - 1)) = k / (k - 1) := by field_simp; ring
        rw [this, div_mul_eq_mul_div, le_div_iff₀ hpos]
        nlinarith
      refine e1.trans ?_
      rw [← mul_div_assoc]
      exact div_le_div_of_nonneg_right e2 (by nlinarith)
    have : (N * c / (a + 1)) ^ 2 = (N : ℚ) ^ 2 * (c ^ 2 / (a + 1) ^ 2) := by
      rw [div_pow, mul_pow, mul_div_assoc]
    rw [this, mul_assoc]
    exact mul_le_mul_of_nonneg_left key hN2
  refine (mean_mono hstep).trans ?_
  rw [mean_smul, mean_below_two hs P hlow hhigh hN]
  by_cases hN1 : N ≤ 1
  · -- then there is at most one item
    have hP : P.card ≤ 1 := (Finset.card_le_univ P).trans (hN.trans hN1)
    have hz : (P.card : ℚ) * (P.card - 1) = 0 := by
      have : P.card = 0 ∨ P.card = 1 := by omega
      rcases this with e | e <;> rw [e] <;> simp
    rw [hz, zero_div, mul_zero]
    have : 0 < 1 / ((k : ℚ) - 1) := by positivity
    positivity
  · have hP : (P.card : ℚ) ≤ N := by exact_mod_cast (Finset.card_le_univ P).trans hN
    have hNq : (1 : ℚ) < N := by exact_mod_cast (show 1 < N by omega)
    have hs1 : ((N - 1 : Nat) : ℚ) = (N : ℚ) - 1 := by
      rw [Nat.cast_sub (by omega)]; simp
    rw [hs1]
    have hp0 : (0 : ℚ) ≤ P.card := by positivity
    generalize (P.card : ℚ) = p at *
    generalize (N : ℚ) = M at *
    have hf : 0 < 1 + 1 / ((k : ℚ) - 1) := by
      have : 0 < 1 / ((k : ℚ) - 1) := by positivity
      linarith
    have hM : 0 < M - 1 := by linarith
    have hM0 : 0 < M := by linarith
    have : M ^ 2 * (1 + 1 / ((k : ℚ) - 1)) * (p * (p - 1) / (M * (M - 1))) =
        (1 + 1 / ((k : ℚ) - 1)) * (p * (M * (p - 1) / (M - 1))) := by
      field_simp
    rw [this]
    have h3 : M * (p - 1) / (M - 1) ≤ p := by
      rw [div_le_iff₀ hM]; nlinarith
    have : p * (M * (p - 1) / (M - 1)) ≤ p ^ 2 := by nlinarith
    nlinarith

end Verif.Theta
