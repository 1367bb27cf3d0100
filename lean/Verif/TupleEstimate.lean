import Verif.ThetaEstimate
import Verif.TupleUpdateProps

/-!
# Weighted sums over the items below a threshold: mean and mean square

The generalisation of `Verif.ThetaMean2` from counts to sums of a number per item.
-/

namespace Verif.Theta

variable {ι : Type} [DecidableEq ι] [Fintype ι]

/-- sum of `g` over the items of `P` below the threshold -/
def wsum (τ : (ι → Nat) → Nat) (g : ι → ℚ) (P : Finset ι) (h : ι → Nat) : ℚ :=
  ∑ i ∈ P.filter (fun i => h i < τ h), g i

omit [Fintype ι] in
theorem sum_offDiag (F : Finset ι) (f g : ι → ℚ) :
    ∑ p ∈ F.offDiag, f p.1 * g p.2 = (∑ i ∈ F, f i) * (∑ i ∈ F, g i) - ∑ i ∈ F, f i * g i := by
  have h1 : ∑ p ∈ F ×ˢ F, f p.1 * g p.2 = (∑ i ∈ F, f i) * (∑ i ∈ F, g i) := by
    rw [Finset.sum_product, Finset.sum_mul_sum]
  have h2 : ∑ p ∈ F.diag, f p.1 * g p.2 = ∑ i ∈ F, f i * g i := by
    rw [Finset.sum_diag]
  rw [← h1, ← h2, ← Finset.diag_union_offDiag, Finset.sum_union (Finset.disjoint_diag_offDiag F)]
  ring

theorem wsum_ht {τ : (ι → Nat) → Nat} {g : ι → ℚ} {P : Finset ι} {h : ι → Nat} :
    ∑ i ∈ P, g i * ht τ {i} h = wsum τ g P h / ((τ h - 1 : Nat) : ℚ) := by
  have : ∀ i ∈ P, g i * ht τ {i} h = if h i < τ h then g i / ((τ h - 1 : Nat) : ℚ) else 0 := by
    intro i _
    unfold ht
    simp [div_eq_mul_inv]
  rw [Finset.sum_congr rfl this, ← Finset.sum_filter, ← Finset.sum_div]
  rfl

theorem pair_ht {τ : (ι → Nat) → Nat} {q : ι × ι → ℚ} {P : Finset ι} {h : ι → Nat} :
    ∑ p ∈ P.offDiag, q p * ht τ {p.1, p.2} h =
      (∑ p ∈ (P.filter fun i => h i < τ h).offDiag, q p) /
        ((τ h - 1 : Nat) * (τ h - 2 : Nat) : ℚ) := by
  have : ∀ p ∈ P.offDiag, q p * ht τ {p.1, p.2} h =
      if h p.1 < τ h ∧ h p.2 < τ h then q p / ((τ h - 1 : Nat) * (τ h - 2 : Nat) : ℚ) else 0 := by
    intro p hp
    rw [Finset.mem_offDiag] at hp
    unfold ht
    rw [Finset.card_pair hp.2.2]
    have : (τ h - 1).descFactorial 2 = (τ h - 1) * (τ h - 2) := by
      rw [Nat.descFactorial_succ, Nat.descFactorial_one, Nat.mul_comm, Nat.sub_sub]
    rw [this]
    push_cast
    simp [div_eq_mul_inv]
  rw [Finset.sum_congr rfl this, ← Finset.sum_filter, ← Finset.sum_div]
  congr 2
  ext p
  simp only [Finset.mem_filter, Finset.mem_offDiag]
  tauto

/-- The inverse probability estimate of a sum is unbiased. -/
theorem mean_wsum {τ : (ι → Nat) → Nat} (hs : Stops τ) (g : ι → ℚ) (P : Finset ι) {N : Nat}
    (hlow : ∀ h, Proper h → 1 < τ h) (hhigh : ∀ h, Proper h → τ h ≤ N + 1) (hN : Fintype.card ι ≤ N) :
    mean ι N (fun h => wsum τ g P h / ((τ h - 1 : Nat) : ℚ)) = (∑ i ∈ P, g i) / N := by
  rw [mean_congr (fun h _ => wsum_ht.symm), mean_sum, Finset.sum_div]
  refine Finset.sum_congr rfl fun i _ => ?_
  rw [mean_smul, mean_ht hs (J := {i}) (by simpa using hlow) hhigh hN]
  simp [div_eq_mul_inv]

/-- mean square -/
theorem mean_wsum_sq {τ : (ι → Nat) → Nat} (hs : Stops τ) (g : ι → ℚ) (P : Finset ι) {N k : Nat}
    (hk : 2 ≤ k) (hN2 : 2 ≤ N)
    (hlow : ∀ h, Proper h → 2 < τ h) (hhigh : ∀ h, Proper h → τ h ≤ N + 1) (hN : Fintype.card ι ≤ N)
    (hmany : ∀ h ∈ hashings ι N, k ≤ below τ P h) :
    mean ι N (fun h => (N * wsum τ g P h / ((τ h - 1 : Nat) : ℚ)) ^ 2) ≤
      N / (N - 1) * ((∑ i ∈ P, g i) ^ 2 - (∑ i ∈ P, g i ^ 2) +
        (∑ i ∈ P, g i ^ 2) * (P.card - 1) / (k - 1)) := by
  have hkq : (2 : ℚ) ≤ k := by exact_mod_cast hk
  have hpos : (0 : ℚ) < (k : ℚ) - 1 := by linarith
  have hNq : (2 : ℚ) ≤ N := by exact_mod_cast hN2
  set q : ι × ι → ℚ := fun p => g p.1 * g p.2 + (1 / ((k : ℚ) - 1)) * (g p.1 ^ 2 * 1) with hq
  have hsum : ∀ F : Finset ι, ∑ p ∈ F.offDiag, q p = (∑ i ∈ F, g i) ^ 2 - (∑ i ∈ F, g i ^ 2) +
      (∑ i ∈ F, g i ^ 2) * (F.card - 1) / (k - 1) := by
    intro F
    rw [hq, Finset.sum_add_distrib, ← Finset.mul_sum, sum_offDiag F g g,
      sum_offDiag F (fun i => g i ^ 2) (fun _ => 1)]
    simp only [Finset.sum_const, nsmul_eq_mul, mul_one]
    rw [Finset.sum_congr rfl (fun i _ => (pow_two (g i)).symm)]
    field_simp
  have hstep : ∀ h ∈ hashings ι N, (N * wsum τ g P h / ((τ h - 1 : Nat) : ℚ)) ^ 2 ≤
      (N : ℚ) ^ 2 * ∑ p ∈ P.offDiag, q p * ht τ {p.1, p.2} h := by
    intro h hm
    have hpr : Proper h := hashings_proper hm
    have h2 := hlow h hpr
    have hc : (k : ℚ) ≤ ((P.filter fun i => h i < τ h).card : ℚ) := by exact_mod_cast hmany h hm
    have ha : (1 : ℚ) ≤ ((τ h - 2 : Nat) : ℚ) := by
      have : 1 ≤ τ h - 2 := by omega
      exact_mod_cast this
    have hab : ((τ h - 1 : Nat) : ℚ) = ((τ h - 2 : Nat) : ℚ) + 1 := by
      rw [show τ h - 1 = τ h - 2 + 1 by omega]; push_cast; ring
    rw [pair_ht, hsum, hab]
    unfold wsum
    have hQ : 0 ≤ ∑ i ∈ P.filter (fun i => h i < τ h), g i ^ 2 :=
      Finset.sum_nonneg fun i _ => by positivity
    generalize ((τ h - 2 : Nat) : ℚ) = a at *
    generalize ((P.filter fun i => h i < τ h).card : ℚ) = c at *
    generalize ∑ i ∈ P.filter (fun i => h i < τ h), g i ^ 2 = Q at *
    generalize ∑ i ∈ P.filter (fun i => h i < τ h), g i = w at *
    have e0 : w ^ 2 ≤ w ^ 2 - Q + Q * (c - 1) / (k - 1) := by
      have : Q ≤ Q * (c - 1) / (k - 1) := by
        rw [le_div_iff₀ hpos]; nlinarith
      linarith
    have e1 : w ^ 2 / (a + 1) ^ 2 ≤ w ^ 2 / ((a + 1) * a) := by
      apply div_le_div_of_nonneg_left (by positivity) (by nlinarith) (by nlinarith)
    have : (N * w / (a + 1)) ^ 2 = (N : ℚ) ^ 2 * (w ^ 2 / (a + 1) ^ 2) := by
      rw [div_pow, mul_pow, mul_div_assoc]
    rw [this]
    refine mul_le_mul_of_nonneg_left (e1.trans ?_) (by positivity)
    exact div_le_div_of_nonneg_right e0 (by nlinarith)
  refine (mean_mono hstep).trans (le_of_eq ?_)
  rw [mean_smul, mean_sum, ← hsum P, Finset.mul_sum, Finset.mul_sum]
  refine Finset.sum_congr rfl fun p hp => ?_
  rw [Finset.mem_offDiag] at hp
  have hc : ({p.1, p.2} : Finset ι).card = 2 := Finset.card_pair hp.2.2
  rw [mean_smul, mean_ht hs (J := {p.1, p.2}) (by rw [hc]; exact hlow) hhigh hN, hc,
    Nat.descFactorial_succ, Nat.descFactorial_one]
  push_cast
  rw [Nat.cast_sub (by omega)]
  have h1 : (N : ℚ) - 1 ≠ 0 := by linarith
  have h0 : (N : ℚ) ≠ 0 := by linarith
  push_cast
  field_simp

section sampled
variable {sh : Nat} {S : (ι → Nat) → View} {P : Finset ι}

theorem Sampled.sum_unbiased (s : Sampled sh S P) (g : ι → ℚ) (hN : Fintype.card ι ≤ maxTheta) :
    mean ι maxTheta (fun h => maxTheta * wsum (fun h => (S h).theta) g P h /
      (((S h).theta - 1 : Nat) : ℚ)) = ∑ i ∈ P, g i := by
  have hb := mean_wsum s.stop g P (N := maxTheta) (fun h hp => by have := s.low h hp; omega)
    (fun h hp => (s.input h hp).valid.theta.trans (by omega)) hN
  have h0 := maxTheta_pos
  rw [mean_congr (fun h _ => mul_div_assoc _ _ _), mean_smul, hb]
  field_simp

theorem Sampled.sum_spread (s : Sampled sh S P) (g : ι → ℚ) (hN : Fintype.card ι ≤ maxTheta)
    {k : Nat} (h2 : 2 ≤ k) (m : Many k S P) (hk : k < P.card) :
    mean ι maxTheta (fun h => (maxTheta * wsum (fun h => (S h).theta) g P h /
      (((S h).theta - 1 : Nat) : ℚ) - ∑ i ∈ P, g i) ^ 2) ≤
      (maxTheta * ((∑ i ∈ P, g i ^ 2) * ((P.card - k) / (k - 1))) + (∑ i ∈ P, g i) ^ 2) /
        (maxTheta - 1) := by
  have hsq := mean_wsum_sq s.stop g P h2 (N := maxTheta) (by decide)
    (fun h hp => by have := s.low h hp; omega)
    (fun h hp => (s.input h hp).valid.theta.trans (by omega)) hN
    (fun h hm => many_items s m hk hm)
  have hu := s.sum_unbiased g hN
  have hM : (2 : ℚ) ≤ maxTheta := by
    have : 2 ≤ maxTheta := by decide
    exact_mod_cast this
  have hkq : (2 : ℚ) ≤ k := by exact_mod_cast h2
  have hexp : mean ι maxTheta (fun h => (maxTheta * wsum (fun h => (S h).theta) g P h /
      (((S h).theta - 1 : Nat) : ℚ) - ∑ i ∈ P, g i) ^ 2) =
      mean ι maxTheta (fun h => (maxTheta * wsum (fun h => (S h).theta) g P h /
      (((S h).theta - 1 : Nat) : ℚ)) ^ 2) +
        ((-2 * ∑ i ∈ P, g i) * mean ι maxTheta (fun h => maxTheta *
          wsum (fun h => (S h).theta) g P h / (((S h).theta - 1 : Nat) : ℚ)) +
          (∑ i ∈ P, g i) ^ 2) := by
    rw [← mean_smul]
    conv_rhs => rw [← mean_const (ι := ι) hN ((∑ i ∈ P, g i) ^ 2)]
    rw [← mean_add, ← mean_add]
    apply mean_congr
    intro h _
    ring
  rw [hexp, hu]
  generalize ∑ i ∈ P, g i = G at *
  generalize ∑ i ∈ P, g i ^ 2 = Q at *
  generalize (P.card : ℚ) = n at *
  generalize (maxTheta : ℚ) = M at *
  have hM1 : M - 1 ≠ 0 := by linarith
  have hk1 : (k : ℚ) - 1 ≠ 0 := by linarith
  have : M / (M - 1) * (G ^ 2 - Q + Q * (n - 1) / (k - 1)) =
      (M * (Q * ((n - k) / (k - 1))) + G ^ 2) / (M - 1) + G ^ 2 := by
    field_simp
    ring
  rw [this] at hsq
  linarith

end sampled

end Verif.Theta
