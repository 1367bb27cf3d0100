import Verif.CpcUpdate
import Mathlib.Data.Finset.Prod

/-!
# Streams of updates of the CPC sketch
-/

namespace Verif.Cpc

open Outcome

/-- a stream of hashes fed to a sketch, stopping at the first failure -/
def run (c : Sk) (hs : List (BitVec 64 × BitVec 64)) : Outcome Sk :=
  hs.foldlM (fun c h => hashUpdate c h.1 h.2) c

/-- the distinct coupons of a stream -/
def coupons (lgK : Nat) (hs : List (BitVec 64 × BitVec 64)) : Finset Nat :=
  (hs.map (coupon lgK)).toFinset

theorem coupons_cons (lgK : Nat) (h : BitVec 64 × BitVec 64) (hs : List (BitVec 64 × BitVec 64)) :
    coupons lgK (h :: hs) = insert (coupon lgK h) (coupons lgK hs) := by
  simp [coupons]

/-- One step with a hash whose coupon is known changes nothing. -/
theorem hash_known {c : Sk} {S : Finset Nat} (h : SkInv c S) {h0 h1 : BitVec 64}
    (hx : coupon c.lgK (h0, h1) ∈ S) : hashUpdate c h0 h1 = .ok c := by
  rw [hashUpdate_eq h, body_mem h (coupon_lt _ _) hx]

/-- One step with a hash whose coupon is new. -/
theorem hash_new {c : Sk} {S : Finset Nat} (h : SkInv c S) {h0 h1 : BitVec 64}
    (hx : coupon c.lgK (h0, h1) ∉ S) :
    (Room c.lgK (insert (coupon c.lgK (h0, h1)) S) ∧ ∃ c', hashUpdate c h0 h1 = .ok c' ∧
      SkInv c' (insert (coupon c.lgK (h0, h1)) S) ∧
      Stepped c c' (coupon c.lgK (h0, h1)) (insert (coupon c.lgK (h0, h1)) S)) ∨
    (¬ Room c.lgK (insert (coupon c.lgK (h0, h1)) S) ∧ ∀ r, hashUpdate c h0 h1 ≠ .ok r) := by
  rw [hashUpdate_eq h]
  exact body_new h (coupon_lt _ _) hx

theorem hash_sound {c c' : Sk} {S : Finset Nat} (h : SkInv c S) {h0 h1 : BitVec 64}
    (he : hashUpdate c h0 h1 = .ok c') :
    SkInv c' (insert (coupon c.lgK (h0, h1)) S) ∧ c'.lgK = c.lgK ∧ c'.seed = c.seed ∧
      c'.merged = c.merged := by
  by_cases hx : coupon c.lgK (h0, h1) ∈ S
  · rw [hash_known h hx] at he
    cases he
    rw [Finset.insert_eq_of_mem hx]
    exact ⟨h, rfl, rfl, rfl⟩
  · rcases hash_new h hx with ⟨_, c'', e, hi, hst⟩ | ⟨_, hf⟩
    · rw [e] at he
      cases he
      exact ⟨hi, hst.lgK, hst.seed, hst.merged⟩
    · exact absurd he (hf c')

theorem run_sound (hs : List (BitVec 64 × BitVec 64)) : ∀ {c c' : Sk} {S : Finset Nat}, SkInv c S →
    run c hs = .ok c' →
    SkInv c' (S ∪ coupons c.lgK hs) ∧ c'.lgK = c.lgK ∧ c'.seed = c.seed ∧ c'.merged = c.merged := by
  induction hs with
  | nil =>
    intro c c' S h he
    cases he
    simpa [coupons] using h
  | cons a hs ih =>
    intro c c' S h he
    unfold run at he
    rw [List.foldlM_cons] at he
    obtain ⟨c1, e1, e2⟩ := Outcome.bind_eq_ok.mp he
    obtain ⟨h1, l1, s1, m1⟩ := hash_sound h e1
    obtain ⟨h2, l2, s2, m2⟩ := ih h1 e2
    rw [l1] at h2
    refine ⟨?_, l2.trans l1, s2.trans s1, m2.trans m1⟩
    rw [coupons_cons, Finset.union_insert, ← Finset.insert_union]
    exact h2

/-- A stream is accepted exactly when there is room for the coupons of every prefix. -/
theorem run_iff (hs : List (BitVec 64 × BitVec 64)) : ∀ {c : Sk} {S : Finset Nat}, SkInv c S →
    ((∃ c', run c hs = .ok c') ↔
      ∀ n, n < hs.length → coupons c.lgK (hs.take (n + 1)) ⊆ S ∪ coupons c.lgK (hs.take n) ∨
        Room c.lgK (S ∪ coupons c.lgK (hs.take (n + 1)))) := by
  induction hs with
  | nil =>
    intro c S h
    simp only [List.length_nil, Nat.not_lt_zero, false_implies, implies_true, iff_true]
    exact ⟨c, rfl⟩
  | cons a hs ih =>
    intro c S h
    have hrun : run c (a :: hs) = hashUpdate c a.1 a.2 >>= fun c => run c hs := by
      unfold run; rw [List.foldlM_cons]
    have hsplit : (∀ n, n < (a :: hs).length →
        coupons c.lgK ((a :: hs).take (n + 1)) ⊆ S ∪ coupons c.lgK ((a :: hs).take n) ∨
        Room c.lgK (S ∪ coupons c.lgK ((a :: hs).take (n + 1)))) ↔
        (coupon c.lgK a ∈ S ∨ Room c.lgK (insert (coupon c.lgK a) S)) ∧
        (∀ n, n < hs.length →
          coupons c.lgK (hs.take (n + 1)) ⊆ insert (coupon c.lgK a) S ∪ coupons c.lgK (hs.take n) ∨
          Room c.lgK (insert (coupon c.lgK a) S ∪ coupons c.lgK (hs.take (n + 1)))) := by
      have e0 : ∀ n, S ∪ coupons c.lgK ((a :: hs).take (n + 1)) =
          insert (coupon c.lgK a) S ∪ coupons c.lgK (hs.take n) := by
        intro n
        rw [List.take_succ_cons, coupons_cons, Finset.union_insert, Finset.insert_union]
      constructor
      · intro hall
        constructor
        · have := hall 0 (by simp)
          rw [e0 0] at this
          simpa [coupons] using this
        · intro n hn
          have := hall (n + 1) (by simpa using hn)
          rw [e0 (n + 1), e0 n] at this
          rcases this with h1 | h1
          · left
            rw [List.take_succ_cons, coupons_cons] at h1
            exact (Finset.subset_insert _ _).trans h1
          · exact Or.inr h1
      · rintro ⟨h0, hall⟩ n hn
        cases n with
        | zero =>
          rw [e0 0]
          simpa [coupons] using h0
        | succ n =>
          have := hall n (by simpa using hn)
          rw [e0 (n + 1), e0 n]
          rcases this with h1 | h1
          · left
            rw [List.take_succ_cons, coupons_cons]
            intro y hy
            rcases Finset.mem_insert.mp hy with rfl | hy
            · exact Finset.mem_union_left _ (Finset.mem_insert_self _ _)
            · exact h1 hy
          · exact Or.inr h1
    rw [hsplit, hrun]
    by_cases hx : coupon c.lgK a ∈ S
    · rw [hash_known (h0 := a.1) (h1 := a.2) h hx, ok_bind, ih h, Finset.insert_eq_of_mem hx]
      exact ⟨fun hh => ⟨Or.inl hx, hh⟩, fun hh => hh.2⟩
    · rcases hash_new (h0 := a.1) (h1 := a.2) h hx with ⟨hr, c1, e, hi, hst⟩ | ⟨hr, hf⟩
      · have hih := ih hi
        rw [hst.lgK] at hih
        rw [e, ok_bind, hih]
        exact ⟨fun hh => ⟨Or.inr hr, hh⟩, fun hh => hh.2⟩
      · constructor
        · rintro ⟨c', hc⟩
          obtain ⟨c1, e1, _⟩ := Outcome.bind_eq_ok.mp hc
          exact absurd e1 (hf c1)
        · rintro ⟨h1 | h1, _⟩
          · exact absurd h1 hx
          · exact absurd h1 hr

/-! ## When there is room -/

theorem card_early (K o : Nat) :
    ((Finset.range (64 * K)).filter fun x => x % 64 < o).card ≤ K * o := by
  have hsub : ((Finset.range (64 * K)).filter fun x => x % 64 < o) ⊆
      (Finset.range K ×ˢ Finset.range o).image fun p => 64 * p.1 + p.2 := by
    intro x hx
    rw [Finset.mem_filter, Finset.mem_range] at hx
    rw [Finset.mem_image]
    refine ⟨(x / 64, x % 64), ?_, by simp only []; omega⟩
    rw [Finset.mem_product, Finset.mem_range, Finset.mem_range]
    exact ⟨by simp only []; omega, hx.2⟩
  refine (Finset.card_le_card hsub).trans (Finset.card_image_le.trans ?_)
  rw [Finset.card_product, Finset.card_range, Finset.card_range]

theorem surp_card (K o : Nat) (S : Finset Nat) : (surp K o S).card ≤ K * o + S.card := by
  have hsub : surp K o S ⊆ ((Finset.range (64 * K)).filter fun x => x % 64 < o) ∪ S := by
    intro x hx
    rw [mem_surp] at hx
    rw [Finset.mem_union, Finset.mem_filter, Finset.mem_range]
    rcases hx with ⟨h1, ⟨h2, _⟩ | ⟨_, h2⟩⟩
    · exact Or.inl ⟨h1, h2⟩
    · exact Or.inr h2
  refine (Finset.card_le_card hsub).trans ((Finset.card_union_le _ _).trans ?_)
  have := card_early K o
  omega

theorem correctOffset_mul_le (lgK n : Nat) : 2 ^ lgK * correctOffset lgK n * 8 ≤ 8 * n - 19 * 2 ^ lgK := by
  unfold correctOffset
  split
  · simp
  · rw [Nat.shiftRight_eq_div_pow, pow_add, show (2 : Nat) ^ 3 = 8 by norm_num]
    have := Nat.div_mul_le_self (8 * n - 19 * 2 ^ lgK) (2 ^ lgK * 8)
    calc 2 ^ lgK * ((8 * n - 19 * 2 ^ lgK) / (2 ^ lgK * 8)) * 8
        = (8 * n - 19 * 2 ^ lgK) / (2 ^ lgK * 8) * (2 ^ lgK * 8) := by ring
      _ ≤ _ := this

/-- With at most `2 ^ 20` rows there is room for any set of fewer than 25 coupons per row. -/
theorem room_of_moderate {lgK : Nat} {S : Finset Nat} (h20 : lgK ≤ 20)
    (hS : S.card < 25 * 2 ^ lgK) : Room lgK S := by
  have hmin : min 26 (6 + lgK) = 6 + lgK := by omega
  have hcap : ∀ n, n ≤ S.card → Cap (6 + lgK) (surp (2 ^ lgK) (correctOffset lgK n) S).card := by
    intro n hn
    unfold Cap
    rw [hmin, two6]
    have h1 := surp_card (2 ^ lgK) (correctOffset lgK n) S
    have h2 := correctOffset_mul_le lgK n
    generalize 2 ^ lgK * correctOffset lgK n = a at *
    generalize 2 ^ lgK = K at *
    omega
  exact ⟨by omega, hcap _ (Nat.sub_le _ _), hcap _ le_rfl⟩

end Verif.Cpc
