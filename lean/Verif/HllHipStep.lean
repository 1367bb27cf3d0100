import Verif.HllHip

/-!
# One random item, and many, in a register-mode sketch
-/

namespace Verif.Hll

open Finset

/-- the estimate, 0 if it fails -/
noncomputable def estOf (s : Sk ℚ) : ℝ :=
  match s.getEstimate with
  | .ok e => e
  | _ => 0

/-- the sketch in `x`, or `s` if `x` is a failure -/
def orElse (x : Outcome (Sk ℚ)) (s : Sk ℚ) : Sk ℚ :=
  match x with
  | .ok s' => s'
  | _ => s

/-- the sketch after one more item with the hash `p` (unchanged if the update fails) -/
def next (s : Sk ℚ) (p : Nat × Nat) : Sk ℚ := orElse (s.updateHash hipFl p) s

/-- the mean estimate after `n` more items with independent uniform hashes -/
noncomputable def meanEst : Nat → Sk ℚ → ℝ
  | 0, s => estOf s
  | n + 1, s => meanHash fun p => meanEst n (next s p)

/-- a register-mode sketch that uses its running estimate -/
structure Hip (s : Sk ℚ) (a : Arr ℚ) (S : Regs ℚ) : Prop where
  eq : s = .hll a
  rep : Rep a S
  tot : S.Total
  ooo : a.ooo = false
  typ : a.typ ≠ .hll4

theorem Hip.est_eq {s : Sk ℚ} {a : Arr ℚ} {S : Regs ℚ} (h : Hip s a S) : estOf s = (S.hip : ℝ) := by
  unfold estOf
  rw [h.eq]
  show (match a.getEstimate with | .ok e => e | _ => 0) = _
  unfold Arr.getEstimate
  rw [h.ooo, ← h.rep.hip]
  rfl

theorem update_hll {a a' : Arr ℚ} {p : Nat × Nat} (hv : ValidCoupon (coupon p.1 p.2))
    (h : a.couponUpdate hipFl (coupon p.1 p.2) = .ok a') :
    (Sk.hll a).updateHash hipFl p = .ok (.hll a') := by
  unfold Sk.updateHash
  generalize coupon p.1 p.2 = c at *
  unfold Sk.update
  rw [if_neg (valid_shift hv)]
  unfold Sk.couponUpdate
  simp only [h, Outcome.ok_bind]

theorem next_ok {s s' : Sk ℚ} {p : Nat × Nat} (h : s.updateHash hipFl p = .ok s') :
    next s p = s' := (congrArg (orElse · s) h).trans rfl

theorem Hip.next_hip {s : Sk ℚ} {a : Arr ℚ} {S : Regs ℚ} (h : Hip s a S) (p : Nat × Nat) :
    ∃ a', a'.lgK = a.lgK ∧
      Hip (next s p) a' (S.step hipFl a.lgK (p.1 % 2 ^ a.lgK) (vOf p.2)) := by
  have hv := coupon_valid p.1 p.2
  have hlg : a.lgK ≤ 26 := by have := h.rep.h21; omega
  have key : ∀ c, ValidCoupon c → ∃ a', a.couponUpdate hipFl c = .ok a' ∧
      Rep a' (S.step hipFl a.lgK (c % 2 ^ a.lgK) (c / 2 ^ 26)) ∧ Same a a' := by
    intro c hc
    rcases h.rep.couponUpdate (F := hipFl) hc.2 with ⟨_, h2⟩ | ⟨h1, _⟩
    · exact h2
    · exact absurd (fun e => absurd e h.typ) h1
  obtain ⟨a', e1, e2, e3⟩ := key _ hv
  have hs := coupon_slot hlg p.1 p.2
  have hv' := coupon_val p.1 p.2
  have e0 := update_hll hv e1
  rw [hs, hv'] at e2
  refine ⟨a', e3.1, ⟨?_, e2, ?_, ?_, ?_⟩⟩
  · rw [h.eq]
    exact next_ok e0
  · apply h.tot.step
    rw [h.rep.len]
    exact Nat.mod_lt _ (Nat.two_pow_pos _)
  · rw [e3.2.2.1]; exact h.ooo
  · rw [e3.2.1]; exact h.typ

/-! ## Sums -/

theorem list_sum_range (R : List Nat) (f : Nat → ℝ) :
    (R.map f).sum = ∑ j ∈ range R.length, f (R.getD j 0) := by
  induction R with
  | nil => simp
  | cons a R ih =>
    rw [List.map_cons, List.sum_cons, List.length_cons, sum_range_succ', ih, add_comm]
    simp

/-- the sum of `2^-register` -/
noncomputable def harm (R : List Nat) : ℝ := ∑ j ∈ range R.length, (1 : ℝ) / 2 ^ R.getD j 0

theorem cast_sum (R : List Nat) (h : ∀ v ∈ R, v ≤ 63) :
    (((R.map (fun v => (2 : Int) ^ (63 - v))).sum : Int) : ℝ) / 2 ^ 63 = harm R := by
  unfold harm
  rw [← list_sum_range R (fun v => 1 / 2 ^ v)]
  induction R with
  | nil => simp
  | cons a R ih =>
    rw [List.map_cons, List.sum_cons, List.map_cons, List.sum_cons, ← ih (fun v hv => h v (by simp [hv])),
      Int.cast_add, add_div]
    congr 1
    have ha : a ≤ 63 := h a (by simp)
    have : (2 : ℝ) ^ 63 = 2 ^ (63 - a) * 2 ^ a := by rw [← pow_add]; congr 1; omega
    rw [this]
    push_cast
    field_simp

theorem harm_pos {R : List Nat} (h : R ≠ []) : 0 < harm R := by
  unfold harm
  apply sum_pos
  · intro j _; positivity
  · rw [nonempty_range_iff]
    simpa using h

theorem harm_le (R : List Nat) : harm R ≤ R.length := by
  unfold harm
  calc _ ≤ ∑ j ∈ range R.length, (1 : ℝ) := by
        apply sum_le_sum
        intro j _
        rw [div_le_one (by positivity)]
        exact one_le_pow₀ (by norm_num)
    _ = _ := by simp

theorem getD_le63 {R : List Nat} (h : ∀ v ∈ R, v ≤ 63) (j : Nat) : R.getD j 0 ≤ 63 := by
  by_cases hj : j < R.length
  · rw [List.getD_eq_getElem _ _ hj]; exact h _ (List.getElem_mem _)
  · rw [List.getD_eq_default _ _ (by omega)]; omega

theorem sum_above_regs {R : List Nat} (h : ∀ v ∈ R, v ≤ 63) :
    ∑ j ∈ range R.length, above (R.getD j 0) = harm R - R.count 63 / 2 ^ 63 := by
  unfold harm
  rw [← list_sum_range R (fun v => 1 / 2 ^ v), ← list_sum_range R above]
  induction R with
  | nil => simp
  | cons a R ih =>
    rw [List.map_cons, List.sum_cons, List.map_cons, List.sum_cons, List.count_cons,
      ih (fun v hv => h v (by simp [hv]))]
    have ha : a ≤ 63 := h a (by simp)
    unfold above
    by_cases h1 : a ≤ 62
    · rw [if_pos h1, if_neg (by simp; omega)]
      push_cast
      ring
    · have : a = 63 := by omega
      subst this
      rw [if_neg h1, if_pos (by simp)]
      push_cast
      ring

/-! ## Means -/

theorem Hip.hip_step {s : Sk ℚ} {a : Arr ℚ} {S : Regs ℚ} (h : Hip s a S) (j v : Nat) :
    (((S.step hipFl a.lgK j v).hip : ℚ) : ℝ) =
      S.hip + if v > S.R.getD j 0 then 2 ^ a.lgK / harm S.R else 0 := by
  unfold Regs.step
  split
  · show ((S.hip + 2 ^ a.lgK / (((S.kxq0 + S.kxq1 : Int) : ℚ) / 2 ^ 63) : ℚ) : ℝ) = _
    rw [← cast_sum S.R h.rep.le63, ← h.tot]
    push_cast
    rfl
  · simp

theorem Hip.mean_step {s : Sk ℚ} {a : Arr ℚ} {S : Regs ℚ} (h : Hip s a S) :
    meanHash (fun p => estOf (next s p)) =
      S.hip + 1 - S.R.count 63 / 2 ^ 63 / harm S.R := by
  have hlg : a.lgK ≤ 26 := by have := h.rep.h21; omega
  have h1 : meanHash (fun p => estOf (next s p)) = meanHash (fun p => (S.hip : ℝ) +
      if vOf p.2 > S.R.getD (p.1 % 2 ^ a.lgK) 0 then 2 ^ a.lgK / harm S.R else 0) := by
    apply meanHash_congr
    intro lo hi _ _
    obtain ⟨a', _, hn⟩ := h.next_hip (lo, hi)
    rw [hn.est_eq, h.hip_step]
  rw [h1, meanHash_add, meanHash_const,
    mean_raise hlg (fun j => S.R.getD j 0) (getD_le63 h.rep.le63), ← h.rep.len,
    sum_above_regs h.rep.le63]
  have hne : S.R ≠ [] := by
    intro h0
    have := h.rep.len
    rw [h0, List.length_nil] at this
    have := Nat.two_pow_pos a.lgK
    omega
  have hp := harm_pos hne
  have hk : (2 : ℝ) ^ a.lgK ≠ 0 := by positivity
  have hc : ((S.R.length : Nat) : ℝ) = 2 ^ a.lgK := by rw [h.rep.len]; push_cast; rfl
  have h3 : (2 : ℝ) ^ S.R.length ≠ 0 := by positivity
  field_simp
  ring

/-! ## Many items -/

/-- a register has reached the largest value -/
noncomputable def topped (R : List Nat) : ℝ := if 63 ∈ R then 1 else 0

theorem count_div_le (R : List Nat) : R.count 63 / 2 ^ 63 / harm R ≤ topped R := by
  unfold topped
  by_cases h : 63 ∈ R
  · rw [if_pos h]
    have hne : R ≠ [] := by rintro rfl; cases h
    rw [div_le_one (harm_pos hne)]
    unfold harm
    rw [← list_sum_range R (fun v => 1 / 2 ^ v)]
    clear h hne
    induction R with
    | nil => simp
    | cons a R ih =>
      rw [List.map_cons, List.sum_cons, List.count_cons]
      have hp : (0 : ℝ) < 1 / 2 ^ a := by positivity
      by_cases h1 : a = 63
      · subst h1
        rw [if_pos (by simp)]
        push_cast
        rw [add_div]
        linarith
      · rw [if_neg (by simpa using h1)]
        push_cast
        rw [add_zero]
        linarith
  · rw [if_neg h, List.count_eq_zero.mpr h]
    simp

theorem topped_step {S : Regs ℚ} {lgK j v : Nat} :
    topped (S.step hipFl lgK j v).R ≤ topped S.R + if v > 62 then 1 else 0 := by
  unfold topped
  by_cases h : 63 ∈ S.R
  · rw [if_pos h]
    split <;> split <;> norm_num
  · rw [if_neg h, zero_add]
    by_cases hv : v > 62
    · rw [if_pos hv]
      split <;> norm_num
    · rw [if_neg hv, if_neg]
      intro hm
      unfold Regs.step at hm
      split at hm
      · rcases List.mem_or_eq_of_mem_set hm with h1 | h1
        · exact h h1
        · omega
      · exact h hm

theorem topped_nonneg (R : List Nat) : 0 ≤ topped R := by
  unfold topped; split <;> norm_num

/-- The mean estimate after `n` more items. -/
theorem Hip.mean_bounds (n : Nat) : ∀ {s : Sk ℚ} {a : Arr ℚ} {S : Regs ℚ}, Hip s a S →
    (S.hip : ℝ) + n - n * topped S.R - n * (n - 1) / 2 / 2 ^ 62 ≤ meanEst n s ∧
      meanEst n s ≤ S.hip + n := by
  induction n with
  | zero =>
    intro s a S h
    unfold meanEst
    rw [h.est_eq]
    simp
  | succ n ih =>
    intro s a S h
    unfold meanEst
    have hstep := h.mean_step
    constructor
    · have h1 : meanHash (fun p => estOf (next s p) + ((n : ℝ) - n * topped S.R -
          n * (n - 1) / 2 / 2 ^ 62 + -n * if vOf p.2 > 62 then 1 else 0)) ≤
          meanHash (fun p => meanEst n (next s p)) := by
        apply meanHash_mono
        intro lo hi _ _
        obtain ⟨a', _, hn⟩ := h.next_hip (lo, hi)
        have h2 := (ih hn).1
        have h3 := topped_step (lgK := a.lgK) (S := S) (j := lo % 2 ^ a.lgK) (v := vOf hi)
        rw [hn.est_eq]
        have h4 : (0 : ℝ) ≤ n := Nat.cast_nonneg n
        have h5 := mul_le_mul_of_nonneg_left h3 h4
        dsimp only at h2 ⊢
        linarith
      refine le_trans ?_ h1
      rw [meanHash_add, hstep, meanHash_add, meanHash_const, meanHash_mul, mean_top]
      have h6 := count_div_le S.R
      push_cast
      generalize (2 : ℝ) ^ 62 = N at *
      have : ((n : ℝ) + 1) * (n + 1 - 1) / 2 / N = n * (n - 1) / 2 / N + n * (1 / N) := by ring
      rw [this]
      nlinarith
    · have h1 : meanHash (fun p => meanEst n (next s p)) ≤
          meanHash (fun p => estOf (next s p) + (n : ℝ)) := by
        apply meanHash_mono
        intro lo hi _ _
        obtain ⟨a', _, hn⟩ := h.next_hip (lo, hi)
        have h2 := (ih hn).2
        rw [hn.est_eq]
        exact h2
      refine le_trans h1 ?_
      rw [meanHash_add, hstep, meanHash_const]
      push_cast
      have h7 : 0 ≤ (S.R.count 63 : ℝ) / 2 ^ 63 / harm S.R := by
        apply div_nonneg (div_nonneg (Nat.cast_nonneg _) (pow_nonneg (by norm_num) _))
        exact sum_nonneg fun j _ => div_nonneg zero_le_one (pow_nonneg (by norm_num) _)
      linarith

end Verif.Hll
