import Verif.HllHipLow

/-!
# Property C99: the running estimate of an HLL sketch

`GetEstimate` of a sketch that was only updated with items.  Items are given by their 128-bit hash; a
random item is one whose hash is uniform over all pairs of 64-bit words (`meanHash`), and
`meanEst n s` is the mean of the estimate after `n` further random items.
-/

namespace Verif.Hll

open Finset

/-- slots hit by a stream -/
def slotsHit (lgK : Nat) (hs : List (Nat × Nat)) : Nat :=
  (List.range (2 ^ lgK)).countP fun j => decide (0 < regOf lgK (coupons hs) j)

/-- slots at the largest value -/
def slotsFull (lgK : Nat) (hs : List (Nat × Nat)) : Nat :=
  (List.range (2 ^ lgK)).countP fun j => decide (regOf lgK (coupons hs) j = 63)

theorem slotsHit_eq (lgK : Nat) (hs : List (Nat × Nat)) :
    slotsHit lgK hs = hits (regsOf lgK (coupons hs)) := by
  unfold slotsHit hits
  rw [regsOf_length]
  unfold regsOf List.count
  rw [List.countP_map]
  have := List.length_eq_countP_add_countP (l := List.range (2 ^ lgK))
    (fun j => decide (0 < regOf lgK (coupons hs) j))
  rw [List.length_range] at this
  have h2 : (List.range (2 ^ lgK)).countP ((fun x => x == 0) ∘ regOf lgK (coupons hs)) =
      (List.range (2 ^ lgK)).countP (fun j => ! decide (0 < regOf lgK (coupons hs) j)) := by
    apply List.countP_congr
    intro j _
    simp
  rw [h2]
  simp only [Bool.decide_eq_false, decide_not, Bool.decide_eq_true] at this
  omega

theorem slotsFull_eq (lgK : Nat) (hs : List (Nat × Nat)) :
    slotsFull lgK hs = (regsOf lgK (coupons hs)).count 63 := by
  unfold slotsFull regsOf List.count
  rw [List.countP_map]
  apply List.countP_congr
  intro j _
  simp

theorem harm_regsOf (lgK : Nat) (cs : List Nat) :
    harm (regsOf lgK cs) = ∑ j ∈ range (2 ^ lgK), (1 : ℝ) / 2 ^ regOf lgK cs j := by
  unfold harm
  rw [regsOf_length]
  apply sum_congr rfl
  intro j hj
  rw [regsOf_getD _ (mem_range.mp hj)]

/-- a streamed sketch in register mode -/
theorem streamed_hip {lgK : Nat} {typ : Typ} (h4 : 4 ≤ lgK) (h21 : lgK ≤ 21)
    {hs : List (Nat × Nat)} {s : Sk ℚ} (h : sketchOf hipFl lgK typ hs = .ok s)
    (hm : ¬ Keeps lgK (distinct (coupons hs))) :
    ∃ a S, s = .hll a ∧ Rep a S ∧ S.Total ∧ a.ooo = false ∧ a.rebuild = false ∧ a.typ = typ ∧
      a.lgK = lgK ∧ S.R = regsOf lgK (coupons hs) ∧ ((hits S.R : Nat) : ℚ) ≤ S.hip := by
  rw [sketchOf_eq] at h
  obtain ⟨g, l, t, f⟩ := run_good h4 h21 (coupons_valid hs) h
  have hmode := absOf_mode hipFl lgK (coupons hs)
  have hof := absOf_of hipFl lgK (coupons hs)
  have href := g.ref
  cases hA : absOf hipFl lgK (coupons hs) with
  | coup D => rw [hA] at hmode; exact absurd hmode.2 hm
  | hll S =>
    have hlow := absOf_hip h21 (coupons hs) (coupons_valid hs) hA
    rw [hA] at hmode hof href
    have hmode : ¬ Keeps lgK (distinct (coupons hs)) ∧ S.Exact := hmode
    cases s with
    | list c => exact absurd href (by simp [Ref])
    | set c => exact absurd href (by simp [Ref])
    | hll a => exact ⟨a, S, rfl, href, hmode.2.total, (f a rfl).1, (f a rfl).2, t, l, hof, hlow⟩

/-- a streamed sketch in coupon mode -/
theorem streamed_coup {lgK : Nat} {typ : Typ} (h4 : 4 ≤ lgK) (h21 : lgK ≤ 21)
    {hs : List (Nat × Nat)} {s : Sk ℚ} (h : sketchOf hipFl lgK typ hs = .ok s)
    (hm : Keeps lgK (distinct (coupons hs))) :
    ∃ c : Coup, (s = .list c ∨ s = .set c) ∧ c.count = distinct (coupons hs) := by
  rw [sketchOf_eq] at h
  obtain ⟨g, l, t, f⟩ := run_good h4 h21 (coupons_valid hs) h
  have hsh := g.shows
  rw [l] at hsh
  rcases hsh.2.2 with ⟨_, c, h1, h2, _⟩ | ⟨h1, _⟩
  · exact ⟨c, h1, h2⟩
  · exact absurd hm h1

/-- **C99, coupons.** As long as the coupons themselves are kept, the estimate is the number of
different coupons, up to a thousandth above. -/
theorem C99_coupon_mode {lgK : Nat} {typ : Typ} (h4 : 4 ≤ lgK) (h21 : lgK ≤ 21)
    {hs : List (Nat × Nat)} {s : Sk ℚ} (h : sketchOf hipFl lgK typ hs = .ok s)
    (hm : Keeps lgK (distinct (coupons hs))) :
    ∃ e, s.getEstimate = .ok e ∧ (distinct (coupons hs) : ℝ) ≤ e ∧
      e ≤ distinct (coupons hs) * (1 + 1 / 1000) := by
  obtain ⟨c, hc, hn⟩ := streamed_coup h4 h21 h hm
  obtain ⟨e, e1, e2, e3⟩ := couponEst_close (n := c.count) (by
    rw [hn]; have := keeps_small h21 hm; omega)
  refine ⟨(e : ℝ), ?_, ?_, ?_⟩
  · have : toReal (couponEst c.count) = .ok (e : ℝ) := by unfold toReal; rw [e1]; rfl
    rcases hc with rfl | rfl <;> exact this
  · rw [← hn]; exact_mod_cast e2
  · rw [← hn]
    have h2 : (e : ℝ) ≤ ((c.count * (1 + 1 / 1000) : ℚ) : ℝ) := by exact_mod_cast e3
    push_cast at h2
    exact h2

/-- **C99, one item.** One random item more raises the mean of the estimate by exactly one, less the
share of the slots that hold the largest value (which no item can raise). -/
theorem C99_step {lgK : Nat} {typ : Typ} (ht : typ ≠ .hll4) (h4 : 4 ≤ lgK) (h21 : lgK ≤ 21)
    {hs : List (Nat × Nat)} {s : Sk ℚ} (h : sketchOf hipFl lgK typ hs = .ok s)
    (hm : ¬ Keeps lgK (distinct (coupons hs))) :
    meanHash (fun p => estOf (next s p)) = estOf s + 1 - (slotsFull lgK hs : ℝ) / 2 ^ 63 /
      ∑ j ∈ range (2 ^ lgK), (1 : ℝ) / 2 ^ regOf lgK (coupons hs) j := by
  obtain ⟨a, S, e1, e2, e3, e4, _, e6, e7, e8, _⟩ := streamed_hip h4 h21 h hm
  have hip : Hip s a S := ⟨e1, e2, e3, e4, by rw [e6]; exact ht⟩
  rw [hip.mean_step, hip.est_eq, e8, slotsFull_eq, harm_regsOf]

/-- **C99, many items.** `n` random items raise the mean of the estimate by `n`, up to
`n (n - 1) / 2^63`, as long as no slot holds the largest value at the start. -/
theorem C99_mean {lgK : Nat} {typ : Typ} (ht : typ ≠ .hll4) (h4 : 4 ≤ lgK) (h21 : lgK ≤ 21)
    {hs : List (Nat × Nat)} {s : Sk ℚ} (h : sketchOf hipFl lgK typ hs = .ok s)
    (hm : ¬ Keeps lgK (distinct (coupons hs))) (h0 : slotsFull lgK hs = 0) (n : Nat) :
    estOf s + n - n * (n - 1) / 2 ^ 63 ≤ meanEst n s ∧ meanEst n s ≤ estOf s + n := by
  obtain ⟨a, S, e1, e2, e3, e4, _, e6, e7, e8, _⟩ := streamed_hip h4 h21 h hm
  have hip : Hip s a S := ⟨e1, e2, e3, e4, by rw [e6]; exact ht⟩
  rw [slotsFull_eq, List.count_eq_zero] at h0
  have htop : topped S.R = 0 := by
    unfold topped
    rw [e8, if_neg h0]
  have := hip.mean_bounds n
  rw [htop] at this
  rw [hip.est_eq]
  refine ⟨le_trans (le_of_eq ?_) this.1, this.2⟩
  have h63 : (2 : ℝ) ^ 63 = 2 * 2 ^ 62 := by rw [← pow_succ']
  rw [h63]
  have : (2 : ℝ) ^ 62 ≠ 0 := by positivity
  generalize (2 : ℝ) ^ 62 = N at *
  field_simp
  ring

/-- **C99, lower end.** The estimate is at least the number of slots hit. -/
theorem C99_slots {lgK : Nat} {typ : Typ} (h4 : 4 ≤ lgK) (h21 : lgK ≤ 21)
    {hs : List (Nat × Nat)} {s : Sk ℚ} (h : sketchOf hipFl lgK typ hs = .ok s) :
    ∃ e, s.getEstimate = .ok e ∧ (slotsHit lgK hs : ℝ) ≤ e := by
  by_cases hm : Keeps lgK (distinct (coupons hs))
  · obtain ⟨e, e1, e2, _⟩ := C99_coupon_mode h4 h21 h hm
    refine ⟨e, e1, le_trans ?_ e2⟩
    rw [slotsHit_eq]
    exact_mod_cast hits_regsOf lgK (coupons hs)
  · obtain ⟨a, S, e1, e2, e3, e4, _, e6, e7, e8, e9⟩ := streamed_hip h4 h21 h hm
    refine ⟨(S.hip : ℝ), ?_, ?_⟩
    · rw [e1]
      show a.getEstimate = _
      unfold Arr.getEstimate
      rw [e4, ← e2.hip]; rfl
    · rw [slotsHit_eq, ← e8]
      exact_mod_cast e9

/-- **C99, types.** The three target types give the same estimate. -/
theorem C99_types {lgK : Nat} {t1 t2 : Typ} (h4 : 4 ≤ lgK) (h21 : lgK ≤ 21)
    {hs : List (Nat × Nat)} {s1 s2 : Sk ℚ} (h1 : sketchOf hipFl lgK t1 hs = .ok s1)
    (h2 : sketchOf hipFl lgK t2 hs = .ok s2) : s1.getEstimate = s2.getEstimate := by
  rcases C29_types_agree hipFl h4 h21 h1 h2 with ⟨c1, c2, hc, hn⟩ | ⟨a1, a2, e1, e2, _, _, e3, _, _, _, e4⟩
  · rcases hc with ⟨rfl, rfl⟩ | ⟨rfl, rfl⟩ <;>
      (show toReal (couponEst c1.count) = toReal (couponEst c2.count); rw [hn])
  · have hm : a1.ooo = false := by
      by_cases hm : Keeps lgK (distinct (coupons hs))
      · obtain ⟨c, hc, _⟩ := streamed_coup h4 h21 h1 hm
        rw [e1] at hc
        rcases hc with hc | hc <;> cases hc
      · obtain ⟨a, S, f1, _, _, f4, _⟩ := streamed_hip h4 h21 h1 hm
        rw [e1] at f1
        cases f1
        exact f4
    rw [e1, e2]
    show a1.getEstimate = a2.getEstimate
    unfold Arr.getEstimate
    rw [← e4, hm, e3]
    rfl

/-! ## Cases that meet the hypotheses -/

/-- ten items in sixteen slots: register mode, no slot full -/
example : ¬ Keeps 4 (distinct (coupons ((List.range 10).map fun i => hashFor i 2))) ∧
    slotsFull 4 ((List.range 10).map fun i => hashFor i 2) = 0 ∧
    slotsHit 4 ((List.range 10).map fun i => hashFor i 2) = 10 ∧
    (∃ s, sketchOf hipFl 4 .hll8 ((List.range 10).map fun i => hashFor i 2) = .ok s) := by
  refine ⟨by decide +kernel, by decide +kernel, by decide +kernel, ?_⟩
  obtain ⟨s, h, _⟩ := C28_never_fails hipFl (lgK := 4) (typ := .hll8) (by simp) (by omega) (by omega)
    ((List.range 10).map fun i => hashFor i 2)
  exact ⟨s, h⟩

/-- five items in a list -/
example : Keeps 12 (distinct (coupons ((List.range 5).map fun i => hashFor i 2))) ∧
    (∃ s, sketchOf hipFl 12 .hll8 ((List.range 5).map fun i => hashFor i 2) = .ok s) := by
  refine ⟨by decide +kernel, ?_⟩
  obtain ⟨s, h, _⟩ := C28_never_fails hipFl (lgK := 12) (typ := .hll8) (by simp) (by omega) (by omega)
    ((List.range 5).map fun i => hashFor i 2)
  exact ⟨s, h⟩

end Verif.Hll
