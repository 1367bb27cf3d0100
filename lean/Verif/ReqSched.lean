import Verif.ReqError

/-!
# The compaction schedule of a REQ sketch

The number of sections that a compaction takes follows the ruler sequence of the state.  Between two
compactions of the same size there is a larger one.  Therefore a compaction that touches the items of
interest (`p`) costs many of them, up to a constant number of compactions.
-/

namespace Verif.Req

open Verif Verif.View

/-! ## The ruler sequence -/

theorem trailingOnes_le (f : Nat) : ∀ (v j : Nat), v < 2 ^ j → trailingOnes f v ≤ j := by
  induction f with
  | zero => intro v j _; simp [trailingOnes]
  | succ f ih =>
    intro v j h
    unfold trailingOnes
    split
    · rename_i hv
      cases j with
      | zero => simp at h; omega
      | succ j =>
        have := ih (v / 2) j (by rw [pow_succ] at h; omega)
        omega
    · omega

theorem ruler (f : Nat) : ∀ (a b : Nat), a < b → b < 2 ^ f → trailingOnes f a = trailingOnes f b →
    ∃ m, a < m ∧ m < b ∧ trailingOnes f a < trailingOnes f m := by
  induction f with
  | zero => intro a b h1 h2; simp at h2; omega
  | succ f ih =>
    intro a b h1 h2 h3
    unfold trailingOnes at h3
    by_cases ha : a % 2 = 1
    · by_cases hb : b % 2 = 1
      · rw [if_pos ha, if_pos hb] at h3
        obtain ⟨m, g1, g2, g3⟩ := ih (a / 2) (b / 2) (by omega) (by rw [pow_succ] at h2; omega) (by omega)
        refine ⟨2 * m + 1, by omega, by omega, ?_⟩
        unfold trailingOnes
        rw [if_pos ha, if_pos (by omega), show (2 * m + 1) / 2 = m by omega]
        omega
      · rw [if_pos ha, if_neg hb] at h3
        omega
    · by_cases hb : b % 2 = 1
      · rw [if_neg ha, if_pos hb] at h3
        omega
      · refine ⟨a + 1, by omega, by omega, ?_⟩
        unfold trailingOnes
        rw [if_neg ha, if_pos (by omega)]
        omega

/-! ## Counting -/

/-- How many items a compaction with `ns` sections of size `ss` leaves in state `st`. -/
def keepIn (ns ss st : Nat) : Nat := ns * ss + (ns - (trailingOnes 64 st + 1)) * ss

/-- The compactions of the current division into sections: either none of them has touched an item
with the property, or the last one that did is known. -/
def Phase (ns ss st a I D m e : Nat) : Prop :=
  (ss - 1) * (m - e) ≤ I + D ∨
  ∃ st0 I0 keep, st0 < st ∧ (∀ x, st0 < x → x < st → trailingOnes 64 x < trailingOnes 64 st0) ∧
    keepIn ns ss st0 ≤ keep ∧ keep ≤ keepIn ns ss st0 + 1 ∧ I0 ≤ I ∧ a = keep + (I - I0) ∧
    (ss - 1) * (m - (e + 1)) ≤ I0 + D

/-- A level: `a` items with the property are there, `I` came in, `D` left, in `m` compactions. -/
structure Sched (k ns ss st a I D m : Nat) : Prop where
  bal : a + D = I
  big : 0 < m → 3 * k < I
  unsat : st < 2 ^ (ns - 1)
  phase : ∃ e ≤ 4, ns = 3 * 2 ^ e ∧ Phase ns ss st a I D m e

theorem Sched.fresh (k ss : Nat) : Sched k 3 ss 0 0 0 0 0 :=
  ⟨rfl, fun h => absurd h (by omega), by norm_num, 0, by omega, rfl, Or.inl (by simp)⟩

theorem Sched.insert {k ns ss st a I D m : Nat} (h : Sched k ns ss st a I D m) (d : Nat) :
    Sched k ns ss st (a + d) (I + d) D m := by
  refine ⟨by have := h.bal; omega, fun hm => by have := h.big hm; omega, h.unsat, ?_⟩
  obtain ⟨e, he, hns, hp⟩ := h.phase
  refine ⟨e, he, hns, ?_⟩
  rcases hp with h1 | ⟨st0, I0, keep, h1, h2, h3, h4, h5, h6, h7⟩
  · left; omega
  · exact Or.inr ⟨st0, I0, keep, h1, h2, h3, h4, by omega, by omega, h7⟩

theorem keepIn_lt {ns ss st st' : Nat} (h : trailingOnes 64 st < trailingOnes 64 st')
    (h' : trailingOnes 64 st' + 1 ≤ ns) : keepIn ns ss st' + ss ≤ keepIn ns ss st := by
  unfold keepIn
  have : (ns - (trailingOnes 64 st' + 1) + 1) * ss ≤ (ns - (trailingOnes 64 st + 1)) * ss :=
    Nat.mul_le_mul_right _ (by omega)
  rw [Nat.add_mul, Nat.one_mul] at this
  omega

/-- One compaction, within the division into sections. -/
theorem Phase.step {ns ss st a I D m e kp x a' : Nat} (h : Phase ns ss st a I D m e) (hs : 2 ≤ ss)
    (hI : a + D = I) (hst : st < 2 ^ 48) (hu : trailingOnes 64 st + 1 ≤ ns)
    (hu0 : ∀ y, y < st → trailingOnes 64 y + 1 ≤ ns)
    (hk : keepIn ns ss st ≤ kp) (hk' : kp ≤ keepIn ns ss st + 1)
    (hx : (x = 0 ∧ a ≤ kp ∧ a' = a) ∨ (0 < x ∧ a = kp + x ∧ a' = kp)) :
    Phase ns ss (st + 1) a' I (D + x) (m + if 0 < x then 1 else 0) e := by
  rcases hx with ⟨hx, hle, ha⟩ | ⟨hx, heq, ha⟩
  · -- no item with the property is touched
    rw [if_neg (by omega), hx, ha, Nat.add_zero, Nat.add_zero]
    rcases h with h1 | ⟨st0, I0, keep, h1, h2, h3, h4, h5, h6, h7⟩
    · exact Or.inl h1
    · refine Or.inr ⟨st0, I0, keep, by omega, ?_, h3, h4, h5, h6, h7⟩
      intro y hy hy'
      rcases Nat.lt_or_ge y st with hlt | hge
      · exact h2 y hy hlt
      · have hyst : y = st := by omega
        subst hyst
        rcases Nat.lt_trichotomy (trailingOnes 64 y) (trailingOnes 64 st0) with hlt | heq | hgt
        · exact hlt
        · obtain ⟨z, z1, z2, z3⟩ := ruler 64 st0 y h1 (by
            have : (2 : Nat) ^ 48 < 2 ^ 64 := by norm_num
            omega) heq.symm
          have := h2 z z1 z2
          omega
        · have := keepIn_lt (ss := ss) hgt hu
          omega
  · rw [if_pos hx, ha]
    right
    refine ⟨st, I, kp, by omega, fun y hy hy' => absurd hy (by omega), hk, hk', le_refl _, by omega, ?_⟩
    rcases h with h1 | ⟨st0, I0, keep, h1, h2, h3, h4, h5, h6, h7⟩
    · rw [show m + 1 - (e + 1) = m - e by omega]
      omega
    · have hgain : ss - 1 ≤ (I - I0) + x := by
        rcases Nat.lt_trichotomy (trailingOnes 64 st) (trailingOnes 64 st0) with hlt | heq' | hgt
        · have := keepIn_lt (ss := ss) hlt (hu0 st0 h1)
          omega
        · obtain ⟨z, z1, z2, z3⟩ := ruler 64 st0 st h1 (by
            have : (2 : Nat) ^ 48 < 2 ^ 64 := by norm_num
            omega) heq'.symm
          have := h2 z z1 z2
          omega
        · have := keepIn_lt (ss := ss) hgt hu
          omega
      rcases Nat.lt_or_ge m (e + 1) with hm | hm
      · rw [show m + 1 - (e + 1) = 0 by omega, Nat.mul_zero]
        exact Nat.zero_le _
      · rw [show m + 1 - (e + 1) = (m - (e + 1)) + 1 by omega, Nat.mul_add, Nat.mul_one]
        omega

/-- More sections. -/
theorem Phase.next {ns ss st a I D m e ss' : Nat} (ns' : Nat) (h : Phase ns ss st a I D m e)
    (hs : ss' ≤ ss) : Phase ns' ss' st a I D m (e + 1) := by
  left
  have hmul : ∀ y, (ss' - 1) * y ≤ (ss - 1) * y := fun y => Nat.mul_le_mul_right _ (by omega)
  rcases h with h1 | ⟨st0, I0, keep, h1, h2, h3, h4, h5, h6, h7⟩
  · have h2 : (ss - 1) * (m - (e + 1)) ≤ (ss - 1) * (m - e) := Nat.mul_le_mul_left _ (by omega)
    exact le_trans (hmul _) (le_trans h2 h1)
  · have := hmul (m - (e + 1))
    omega

theorem Sched.step {k ns ss st a I D m kp x a' ns' ss' : Nat} (h : Sched k ns ss st a I D m)
    (hs : 2 ≤ ss) (h3 : 3 * k ≤ kp) (hk : keepIn ns ss st ≤ kp) (hk' : kp ≤ keepIn ns ss st + 1)
    (hx : (x = 0 ∧ a ≤ kp ∧ a' = a) ∨ (0 < x ∧ a = kp + x ∧ a' = kp))
    (hsec : (ns' = ns ∧ ss' = ss ∧ st + 1 < 2 ^ (ns - 1)) ∨
      (ns' = 2 * ns ∧ ss' ≤ ss ∧ ns < 48 ∧ st + 1 < 2 ^ (2 * ns - 1))) :
    Sched k ns' ss' (st + 1) a' I (D + x) (m + if 0 < x then 1 else 0) := by
  obtain ⟨e, he, hns, hp⟩ := h.phase
  have hpow : ∀ y, y ≤ st → trailingOnes 64 y + 1 ≤ ns := by
    intro y hy
    have h1 := trailingOnes_le 64 y (ns - 1) (lt_of_le_of_lt hy h.unsat)
    have : 0 < 2 ^ e := by positivity
    omega
  have h48 : ns ≤ 48 := by
    have : 2 ^ e ≤ 2 ^ 4 := Nat.pow_le_pow_right (by norm_num) he
    omega
  have hst : st < 2 ^ 48 := lt_of_lt_of_le h.unsat (Nat.pow_le_pow_right (by norm_num) (by omega))
  have hp' := hp.step hs h.bal hst (hpow st (le_refl _)) (fun y hy => hpow y (by omega)) hk hk' hx
  have hbal := h.bal
  refine ⟨by omega, ?_, ?_, ?_⟩
  · intro hm
    by_cases hx0 : 0 < x
    · omega
    · rw [if_neg hx0] at hm
      exact h.big hm
  · rcases hsec with ⟨rfl, -, h1⟩ | ⟨rfl, -, -, h1⟩ <;> exact h1
  · rcases hsec with ⟨rfl, rfl, -⟩ | ⟨rfl, h1, h2, -⟩
    · exact ⟨e, he, hns, hp'⟩
    · refine ⟨e + 1, ?_, by rw [hns, pow_succ]; ring, hp'.next _ h1⟩
      by_contra hc
      have e4 : e = 4 := by omega
      rw [e4] at hns
      omega

/-- The number of compactions that matter. -/
theorem Sched.few {k ns ss st a I D m : Nat} (h : Sched k ns ss st a I D m) (hk : k ≤ 8 * (ss - 1)) :
    k * m ≤ 18 * I := by
  rcases Nat.eq_zero_or_pos m with h0 | h0
  · rw [h0]; omega
  · have h1 := h.big h0
    have h2 := h.bal
    obtain ⟨e, he, -, hp⟩ := h.phase
    have h3 : (ss - 1) * (m - 5) ≤ 2 * I := by
      rcases hp with h4 | ⟨st0, I0, keep, -, -, -, -, h5, -, h7⟩
      · have : (ss - 1) * (m - 5) ≤ (ss - 1) * (m - e) := Nat.mul_le_mul_left _ (by omega)
        omega
      · have : (ss - 1) * (m - 5) ≤ (ss - 1) * (m - (e + 1)) := Nat.mul_le_mul_left _ (by omega)
        omega
    have h4 : k * (m - 5) ≤ 16 * I := by
      have : k * (m - 5) ≤ 8 * (ss - 1) * (m - 5) := Nat.mul_le_mul_right _ hk
      have e : 8 * (ss - 1) * (m - 5) = 8 * ((ss - 1) * (m - 5)) := by ring
      omega
    rcases Nat.lt_or_ge m 5 with hm | hm
    · have : k * m ≤ k * 5 := Nat.mul_le_mul_left _ (by omega)
      omega
    · have e : k * m = k * (m - 5) + k * 5 := by
        rw [← Nat.mul_add]; congr 1; omega
      omega

end Verif.Req
