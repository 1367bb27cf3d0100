import Verif.CpcHip

/-!
# The mean of the historical estimate
-/

namespace Verif.Cpc

open Outcome

theorem mean_add (f g : BitVec 64 × BitVec 64 → ℚ) :
    mean (fun p => f p + g p) = mean f + mean g := by
  unfold mean
  simp only [Finset.sum_add_distrib]
  ring

theorem mean_const (a : ℚ) : mean (fun _ => a) = a := by
  have h := mean_coupon (lgK := 0) (by omega) (fun _ => a)
  refine h.trans ?_
  rw [pow_zero, Finset.sum_range_one, pow_zero, div_one, ← Finset.sum_mul, Finset.sum_add_distrib, geom]
  rw [Finset.sum_ite_eq' (Finset.range 64) 63 (fun _ => invPow2 64)]
  simp

theorem mean_mono {f g : BitVec 64 × BitVec 64 → ℚ} (h : ∀ p, f p ≤ g p) : mean f ≤ mean g := by
  unfold mean
  apply div_le_div_of_nonneg_right
  · exact Finset.sum_le_sum fun a _ => Finset.sum_le_sum fun b _ => h _
  · positivity

/-- the coupons of the last column that are not there -/
def freeLast (K : Nat) (S : Finset Nat) : Nat :=
  ((Finset.range K).filter fun r => 64 * r + 63 ∉ S).card

theorem freeLast_le (K : Nat) (S : Finset Nat) : freeLast K S ≤ K := by
  unfold freeLast
  exact (Finset.card_filter_le _ _).trans (by rw [Finset.card_range])

theorem freeLast_all {K : Nat} {S : Finset Nat} (h : ∀ x ∈ S, x % 64 ≠ 63) : freeLast K S = K := by
  unfold freeLast
  rw [Finset.filter_true_of_mem, Finset.card_range]
  intro r _ hcon
  exact h _ hcon (by omega)

/-- The mean of a function that is `a` for new coupons and zero for known ones. -/
theorem mean_new {lgK : Nat} (h : lgK ≤ 64) (S : Finset Nat) (a : ℚ) :
    mean (fun p => if coupon lgK p ∈ S then 0 else a) =
      (kappa (2 ^ lgK) S + freeLast (2 ^ lgK) S * invPow2 64) * a / 2 ^ lgK := by
  rw [mean_coupon h (fun x => if x ∈ S then 0 else a)]
  congr 1
  rw [kappa_cells, add_mul, Finset.sum_mul]
  have hlast : (freeLast (2 ^ lgK) S : ℚ) * invPow2 64 * a =
      ∑ r ∈ Finset.range (2 ^ lgK), if 64 * r + 63 ∈ S then 0 else invPow2 64 * a := by
    unfold freeLast
    rw [Finset.card_filter]
    push_cast
    rw [Finset.sum_mul, Finset.sum_mul]
    apply Finset.sum_congr rfl
    intro r _
    by_cases h2 : 64 * r + 63 ∈ S <;> simp [h2]
  rw [hlast, ← Finset.sum_add_distrib]
  apply Finset.sum_congr rfl
  intro r _
  rw [Finset.sum_mul]
  have h1 : ∀ c ∈ Finset.range 64, (invPow2 (c + 1) + if c = 63 then invPow2 64 else 0) *
      (if 64 * r + c ∈ S then 0 else a) =
      (if 64 * r + c ∈ S then 0 else invPow2 (c + 1)) * a +
      (if c = 63 then (if 64 * r + c ∈ S then 0 else invPow2 64 * a) else 0) := by
    intro c _
    by_cases h2 : 64 * r + c ∈ S
    · simp [h2]
    · by_cases h3 : c = 63
      · subst h3; simp only [h2, if_true, if_false]; ring
      · simp [h2, h3]
  rw [Finset.sum_congr rfl h1, Finset.sum_add_distrib]
  congr 1
  rw [Finset.sum_ite_eq' (Finset.range 64) 63]
  simp

/-- the estimate after an update, or the old one if the update fails -/
def hipAfter (c : Sk) (p : BitVec 64 × BitVec 64) : ℚ :=
  match hashUpdate c p.1 p.2 with
  | .ok c' => c'.hip
  | _ => c.hip

theorem hipAfter_eq {c : Sk} {S : Finset Nat} (h : SkInv c S)
    (hroom : ∀ x, x < 64 * 2 ^ c.lgK → Room c.lgK (insert x S)) (p : BitVec 64 × BitVec 64) :
    hipAfter c p = c.hip + if coupon c.lgK p ∈ S then 0 else 2 ^ c.lgK / c.kxp := by
  unfold hipAfter
  by_cases hx : coupon c.lgK p ∈ S
  · rw [hash_known (h0 := p.1) (h1 := p.2) h hx, if_pos hx]; simp
  · rcases hash_new (h0 := p.1) (h1 := p.2) h hx with ⟨_, c', e, _, hst⟩ | ⟨hn, _⟩
    · rw [e, if_neg hx]; exact hst.hip
    · exact absurd (hroom _ (coupon_lt _ _)) hn

theorem kappa_nonneg (K : Nat) (S : Finset Nat) : 0 ≤ kappa K S := by
  unfold kappa
  exact Finset.sum_nonneg fun x _ => (invPow2_pos _).le

theorem kxp_pos {c : Sk} {S : Finset Nat} (hk : KInv c S) (ho : c.off < 8) : 0 < c.kxp := by
  rw [hk.exact ho]
  have := kappa_nonneg (2 ^ c.lgK) S
  have h1 : (0 : ℚ) < 2 ^ c.lgK := by positivity
  have := mul_pos h1 (invPow2_pos 64)
  linarith

/-- The mean step of the estimate with a window offset below eight. -/
theorem mean_step {c : Sk} {S : Finset Nat} (h : SkInv c S) (hk : KInv c S) (ho : c.off < 8)
    (hroom : ∀ x, x < 64 * 2 ^ c.lgK → Room c.lgK (insert x S)) :
    mean (hipAfter c) =
      c.hip + 1 - (2 ^ c.lgK - freeLast (2 ^ c.lgK) S) * invPow2 64 / c.kxp := by
  have hpos := kxp_pos hk ho
  have h1 : hipAfter c = fun p => c.hip + if coupon c.lgK p ∈ S then 0 else 2 ^ c.lgK / c.kxp := by
    funext p; exact hipAfter_eq h hroom p
  rw [h1, mean_add, mean_const, mean_new (by have := h.lg26; omega)]
  have h2 := hk.exact ho
  have h3 : kappa (2 ^ c.lgK) S = c.kxp - 2 ^ c.lgK * invPow2 64 := by rw [h2]; ring
  rw [h3]
  have hK : (2 : ℚ) ^ c.lgK ≠ 0 := by positivity
  field_simp
  ring

/-- With few coupons there is enough left in the first eleven columns. -/
theorem kappa_lower {K : Nat} {S : Finset Nat} (hS : 8 * S.card ≤ 83 * K) :
    K * invPow2 12 ≤ kappa K S := by
  have hcnt : ((Finset.range (64 * K)).filter fun x => x % 64 < 11).card = 11 * K := by
    have : (Finset.range (64 * K)).filter (fun x => x % 64 < 11) =
        (Finset.range K ×ˢ Finset.range 11).image fun p => 64 * p.1 + p.2 := by
      ext x
      rw [Finset.mem_filter, Finset.mem_range, Finset.mem_image]
      constructor
      · rintro ⟨h1, h2⟩
        refine ⟨(x / 64, x % 64), ?_, by simp only []; omega⟩
        rw [Finset.mem_product, Finset.mem_range, Finset.mem_range]
        exact ⟨by simp only []; omega, h2⟩
      · rintro ⟨⟨r, c⟩, hp, rfl⟩
        rw [Finset.mem_product, Finset.mem_range, Finset.mem_range] at hp
        simp only [] at hp ⊢
        omega
    rw [this, Finset.card_image_of_injOn, Finset.card_product, Finset.card_range, Finset.card_range,
      Nat.mul_comm]
    rintro ⟨r, c⟩ hp ⟨r', c'⟩ hp' he
    rw [Finset.mem_coe, Finset.mem_product, Finset.mem_range, Finset.mem_range] at hp hp'
    simp only [] at he hp hp'
    rw [Prod.mk.injEq]
    omega
  have hsub : ((Finset.range (64 * K)).filter fun x => x % 64 < 11) \ S ⊆
      Finset.range (64 * K) \ S := Finset.sdiff_subset_sdiff (Finset.filter_subset _ _) le_rfl
  have hcard : 11 * K ≤ (((Finset.range (64 * K)).filter fun x => x % 64 < 11) \ S).card + S.card := by
    rw [← hcnt]
    have := Finset.le_card_sdiff S ((Finset.range (64 * K)).filter fun x => x % 64 < 11)
    omega
  have hge : ((((Finset.range (64 * K)).filter fun x => x % 64 < 11) \ S).card : ℚ) * invPow2 11 ≤
      kappa K S := by
    unfold kappa
    calc ((((Finset.range (64 * K)).filter fun x => x % 64 < 11) \ S).card : ℚ) * invPow2 11
        = ∑ x ∈ ((Finset.range (64 * K)).filter fun x => x % 64 < 11) \ S, invPow2 11 := by
          rw [Finset.sum_const, nsmul_eq_mul]
      _ ≤ ∑ x ∈ ((Finset.range (64 * K)).filter fun x => x % 64 < 11) \ S, invPow2 (x % 64 + 1) := by
          apply Finset.sum_le_sum
          intro x hx
          have h1 := (Finset.mem_filter.mp (Finset.mem_sdiff.mp hx).1).2
          unfold invPow2
          apply one_div_le_one_div_of_le (by positivity)
          exact pow_le_pow_right₀ (by norm_num) (by omega)
      _ ≤ _ := Finset.sum_le_sum_of_subset_of_nonneg hsub fun x _ _ => (invPow2_pos _).le
  have hq : (K : ℚ) ≤ 2 * ((((Finset.range (64 * K)).filter fun x => x % 64 < 11) \ S).card : ℚ) := by
    have : K ≤ 2 * (((Finset.range (64 * K)).filter fun x => x % 64 < 11) \ S).card := by omega
    exact_mod_cast this
  have h12 : invPow2 11 = 2 * invPow2 12 := by unfold invPow2; norm_num
  have hp := invPow2_pos 12
  rw [h12] at hge
  nlinarith

/-- the mean, over all sequences of `n` hashes, of the estimate reached from `c` -/
def meanHip : Nat → Sk → ℚ
  | 0, c => c.hip
  | n + 1, c => mean fun p =>
    match hashUpdate c p.1 p.2 with
    | .ok c' => meanHip n c'
    | _ => c.hip

theorem off_small {c : Sk} {S : Finset Nat} (h : SkInv c S) (hS : 8 * S.card < 83 * 2 ^ c.lgK) :
    c.off < 8 := by
  rcases h.mode with hm | ⟨t, hm⟩ | ⟨w, t, hm⟩
  · rw [hm.off]; omega
  · rw [hm.off]; omega
  · rcases hm.lo with h0 | h0
    · omega
    · by_contra hcon
      have : (19 + 8 * 8) * 2 ^ c.lgK ≤ (19 + 8 * c.off) * 2 ^ c.lgK :=
        Nat.mul_le_mul_right _ (by omega)
      omega

theorem meanHip_bounds : ∀ (n : Nat) {c : Sk} {S : Finset Nat}, SkInv c S → KInv c S →
    c.lgK ≤ 20 → 8 * (S.card + n) ≤ 83 * 2 ^ c.lgK →
    c.hip + n * (1 - invPow2 52) ≤ meanHip n c ∧ meanHip n c ≤ c.hip + n := by
  intro n
  induction n with
  | zero => intro c S _ _ _ _; simp [meanHip]
  | succ n ih =>
    intro c S h hk hlg hn
    have hK : ((2 ^ c.lgK : Nat) : ℚ) = 2 ^ c.lgK := by push_cast; rfl
    have hKp : (0 : ℚ) < 2 ^ c.lgK := by positivity
    have ho : c.off < 8 := off_small h (by omega)
    have hroom : ∀ x, x < 64 * 2 ^ c.lgK → Room c.lgK (insert x S) := by
      intro x _
      apply room_of_moderate hlg
      have := Finset.card_insert_le x S
      have := Nat.two_pow_pos c.lgK
      omega
    have hone := mean_step h hk ho hroom
    have hpos := kxp_pos hk ho
    have hlow := kappa_lower (K := 2 ^ c.lgK) (S := S) (by omega)
    rw [hK] at hlow
    have hfl : ((freeLast (2 ^ c.lgK) S : Nat) : ℚ) ≤ 2 ^ c.lgK := by
      rw [← hK]; exact_mod_cast freeLast_le (2 ^ c.lgK) S
    have h64 := invPow2_pos 64
    have hdef0 : 0 ≤ (2 ^ c.lgK - (freeLast (2 ^ c.lgK) S : ℚ)) * invPow2 64 / c.kxp := by
      apply div_nonneg _ hpos.le
      exact mul_nonneg (by linarith) h64.le
    have hdef1 : (2 ^ c.lgK - (freeLast (2 ^ c.lgK) S : ℚ)) * invPow2 64 / c.kxp ≤ invPow2 52 := by
      rw [div_le_iff₀ hpos]
      have hkx : 2 ^ c.lgK * invPow2 12 ≤ c.kxp := by
        rw [hk.exact ho]
        have := mul_pos hKp h64
        linarith
      have h52 : invPow2 64 = invPow2 52 * invPow2 12 := by rw [← invPow2_add]
      have hfl0 : (0 : ℚ) ≤ freeLast (2 ^ c.lgK) S := Nat.cast_nonneg _
      calc (2 ^ c.lgK - (freeLast (2 ^ c.lgK) S : ℚ)) * invPow2 64 ≤ 2 ^ c.lgK * invPow2 64 := by
            apply mul_le_mul_of_nonneg_right _ h64.le; linarith
        _ = invPow2 52 * (2 ^ c.lgK * invPow2 12) := by rw [h52]; ring
        _ ≤ invPow2 52 * c.kxp := mul_le_mul_of_nonneg_left hkx (invPow2_pos 52).le
    have hstep : ∀ p, hipAfter c p + n * (1 - invPow2 52) ≤
        (match hashUpdate c p.1 p.2 with | .ok c' => meanHip n c' | _ => c.hip) ∧
        (match hashUpdate c p.1 p.2 with | .ok c' => meanHip n c' | _ => c.hip) ≤
          hipAfter c p + n := by
      intro p
      unfold hipAfter
      by_cases hx : coupon c.lgK p ∈ S
      · rw [hash_known (h0 := p.1) (h1 := p.2) h hx]
        exact ih h hk hlg (by omega)
      · rcases hash_new (h0 := p.1) (h1 := p.2) h hx with ⟨_, c', e, hi, hst⟩ | ⟨hnr, _⟩
        · rw [e]
          refine ih hi (hk.step (coupon_lt _ _) hx hst) (by rw [hst.lgK]; exact hlg) ?_
          rw [hst.lgK]
          have : (insert (coupon c.lgK (p.1, p.2)) S).card = S.card + 1 :=
            Finset.card_insert_of_notMem hx
          omega
        · exact absurd (hroom _ (coupon_lt _ _)) hnr
    have e1 : mean (fun p => hipAfter c p + n * (1 - invPow2 52)) =
        mean (hipAfter c) + n * (1 - invPow2 52) := by rw [mean_add, mean_const]
    have e2 : mean (fun p => hipAfter c p + (n : ℚ)) = mean (hipAfter c) + n := by
      rw [mean_add, mean_const]
    have l1 := mean_mono (fun p => (hstep p).1)
    have l2 := mean_mono (fun p => (hstep p).2)
    rw [e1] at l1
    rw [e2] at l2
    constructor
    · show _ ≤ mean _
      refine le_trans ?_ l1
      rw [hone]
      push_cast
      linarith
    · show mean _ ≤ _
      refine le_trans l2 ?_
      rw [hone]
      push_cast
      linarith

end Verif.Cpc
