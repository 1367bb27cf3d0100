import Verif.ThetaJaccard

/-!
# C96: Jaccard similarity of theta sketches
-/

noncomputable section

namespace Verif.Theta

open HashTable

/-! ## Specification -/

/-- The hashes of a sketch. -/
def hashSet (v : View) : Finset Nat := v.all.toFinset

/-- The theta up to which both sketches have kept everything. -/
def commonTheta (a b : View) : Nat := min a.theta b.theta

/-- The hashes below the common theta that occur in either sketch. -/
def eitherBelow (a b : View) : Finset Nat :=
  (hashSet a ∪ hashSet b).filter fun h => h < commonTheta a b

/-- The hashes below the common theta that occur in both sketches. -/
def bothBelow (a b : View) : Finset Nat :=
  (hashSet a ∩ hashSet b).filter fun h => h < commonTheta a b

/-- The same sampled set. -/
def SameContent (a b : View) : Prop := a.theta = b.theta ∧ hashSet a = hashSet b

/-- Number of standard deviations used for a sampled fraction `f`: two, times the finite population
correction with a small surcharge for fractions above one half. -/
def deviations (f : ℝ) : ℝ := 2 * (Real.sqrt (1 - f) + if f ≤ 1 / 2 then 0 else (f - 1 / 2) / 100)

theorem both_le_either (a b : View) : (bothBelow a b).card ≤ (eitherBelow a b).card := by
  apply Finset.card_le_card
  intro h hh
  unfold bothBelow eitherBelow at *
  simp only [Finset.mem_filter, Finset.mem_inter, Finset.mem_union] at *
  exact ⟨Or.inl hh.1.1, hh.2⟩

theorem hacky_eq (f : ℝ) : 2.0 * hackyAdjuster f = deviations f := by
  unfold hackyAdjuster deviations
  have h1 : (1.0 : ℝ) = 1 := by norm_num
  have h2 : (2.0 : ℝ) = 2 := by norm_num
  have h5 : (0.5 : ℝ) = 1 / 2 := by norm_num
  have h01 : (0.01 : ℝ) = 1 / 100 := by norm_num
  dsimp only
  rw [h1, h2, h5, h01]
  split
  · ring
  · ring

theorem deviations_range {f : ℝ} (h0 : 0 ≤ f) (h1 : f ≤ 1) : 0 ≤ deviations f ∧ deviations f ≤ 2 := by
  unfold deviations
  have hs := Real.sqrt_nonneg (1 - f)
  by_cases c : f ≤ 1 / 2
  · rw [if_pos c]
    have : Real.sqrt (1 - f) ≤ 1 := by
      rw [Real.sqrt_le_left (by norm_num)]
      linarith
    constructor <;> linarith
  · rw [if_neg c]
    have : Real.sqrt (1 - f) ≤ 9 / 10 := by
      rw [Real.sqrt_le_left (by norm_num)]
      linarith
    constructor <;> linarith

theorem maxTheta_cast_pos : (0 : ℝ) < (maxTheta : ℝ) := by
  have : 0 < maxTheta := by decide
  exact_mod_cast this

/-- The three ratios of a union and an intersection below the same theta. -/
theorem ratios_spec {u i : View} (ht : u.theta = i.theta) (hm : u.theta ≤ maxTheta)
    (hp : u.numRetained ≠ 0 → 0 < u.theta) (hle : i.numRetained ≤ u.numRetained) :
    ∃ r, jaccardRatios u i = .ok r ∧
      0 ≤ r.lower ∧ r.lower ≤ r.estimate ∧ r.estimate ≤ r.upper ∧ r.upper ≤ 1 ∧
      (u.numRetained = 0 → r = ⟨0, 1 / 2, 1⟩) ∧
      (u.numRetained ≠ 0 → r.estimate = (i.numRetained : ℝ) / u.numRetained ∧
        (u.theta = maxTheta → r.lower = r.estimate ∧ r.upper = r.estimate) ∧
        (u.theta ≠ maxTheta →
          Proportion.lowerOnP u.numRetained i.numRetained (deviations (u.theta / maxTheta))
            = .ok r.lower ∧
          Proportion.upperOnP u.numRetained i.numRetained (deviations (u.theta / maxTheta))
            = .ok r.upper)) := by
  unfold jaccardRatios lowerSketched estimateSketched upperSketched validateThetas
  have hc : countOfA u i = u.numRetained := by unfold countOfA; rw [if_pos ht]
  rw [if_neg (by omega), hc]
  simp only [Outcome.ok_bind]
  by_cases h0 : u.numRetained = 0
  · simp only [h0, if_true, Outcome.ok_bind]
    refine ⟨_, rfl, ?_⟩
    dsimp only
    refine ⟨le_refl _, by norm_num, by norm_num, le_refl _, fun _ => ?_, fun h => absurd rfl h⟩
    norm_num
  · simp only [h0, if_false, Outcome.ok_bind]
    unfold lowerBOverA upperBOverA validateInputs lowerChecked upperChecked View.fraction
    rw [← ht]
    have hmp := maxTheta_cast_pos
    have hup : (0 : ℝ) < u.theta := by exact_mod_cast hp h0
    have hum : (u.theta : ℝ) ≤ maxTheta := by exact_mod_cast hm
    have hn : (1 : ℝ) ≤ u.numRetained := by exact_mod_cast (by omega : 1 ≤ u.numRetained)
    have hf0 : (0 : ℝ) < (u.theta : ℝ) / maxTheta := div_pos hup hmp
    have hf1 : (u.theta : ℝ) / maxTheta ≤ 1 := by rw [div_le_one hmp]; exact hum
    have h10 : (1.0 : ℝ) = 1 := by norm_num
    have h00 : (0.0 : ℝ) = 0 := by norm_num
    rw [h10, h00, if_neg (by omega), if_neg (by rw [not_or]; exact ⟨not_lt.2 hf1, not_le.2 hf0⟩)]
    simp only [Outcome.ok_bind, h0, if_false]
    by_cases hmx : u.theta = maxTheta
    · have hfe : (u.theta : ℝ) / maxTheta = 1 := by rw [hmx]; exact div_self hmp.ne'
      simp only [hfe, if_true, Outcome.ok_bind]
      refine ⟨_, rfl, ?_⟩
      dsimp only
      have hi : (i.numRetained : ℝ) ≤ u.numRetained := by exact_mod_cast hle
      refine ⟨by positivity, le_refl _, le_refl _, ?_, fun h => h.elim, fun _ =>
        ⟨rfl, fun _ => ⟨rfl, rfl⟩, fun h => absurd hmx h⟩⟩
      rw [div_le_one (by linarith)]
      exact hi
    · have hfe : ¬ (u.theta : ℝ) / maxTheta = 1 := by
        rw [div_eq_one_iff_eq hmp.ne']
        exact_mod_cast hmx
      simp only [hfe, if_false, hacky_eq]
      obtain ⟨d0, d2⟩ := deviations_range hf0.le hf1
      obtain ⟨lb, ub, e1, e2, b0, b1, b2, b3⟩ :=
        Proportion.bracket (by omega : 1 ≤ u.numRetained) hle d0 d2
      rw [e1, e2, Outcome.ok_bind, Outcome.ok_bind]
      exact ⟨_, rfl, b0, b1, b2, b3, fun h => h.elim, fun _ =>
        ⟨rfl, fun h => absurd h hmx, fun _ => ⟨rfl, rfl⟩⟩⟩

theorem card_hashSet {v : View} (h : Valid v) : (hashSet v).card = v.numRetained := by
  unfold hashSet
  rw [List.toFinset_card_of_nodup h.nodup, h.num]

theorem union_len {a b : View} (ha : a.isEmpty = false) (hb : b.isEmpty = false) :
    (unionHashes (min a.theta b.theta) [a, b]).length = (eitherBelow a b).card := by
  have h : (unionHashes (min a.theta b.theta) [a, b]).toFinset = eitherBelow a b := by
    ext x
    unfold eitherBelow hashSet commonTheta
    simp only [List.mem_toFinset, mem_union_two ha hb, Finset.mem_filter, Finset.mem_union]
    exact And.comm
  rw [← h, List.toFinset_card_of_nodup (unionHashes_nodup _ _)]

theorem eitherBelow_le {a b : View} : (eitherBelow a b).card ≤ (hashSet a).card + (hashSet b).card :=
  (Finset.card_filter_le _ _).trans (Finset.card_union_le _ _)

/-- The comparison with the union recognises equal sketches. -/
theorem identical_iff {sh : Nat} {a b : View} (va : Input sh a) (vb : Input sh b)
    {c : Compact} (vc : Valid c.view)
    (hm : ∀ h, h ∈ c.entries ↔ h < c.theta ∧ (h ∈ a.all ∨ h ∈ b.all))
    (hth : SameContent a b → c.theta = min a.theta b.theta) :
    identicalSets a b c.view = true ↔ SameContent a b := by
  unfold identicalSets
  simp only [Bool.and_eq_true, beq_iff_eq]
  constructor
  · rintro ⟨⟨⟨h1, h2⟩, h3⟩, h4⟩
    refine ⟨h3.symm.trans h4, ?_⟩
    have hA : hashSet a ⊆ hashSet c.view := by
      intro x hx
      unfold hashSet at *
      rw [List.mem_toFinset] at *
      have := (va.valid.range x hx).2
      exact (hm x).mpr ⟨by rw [show c.theta = a.theta from h3]; exact this, Or.inl hx⟩
    have hB : hashSet b ⊆ hashSet c.view := by
      intro x hx
      unfold hashSet at *
      rw [List.mem_toFinset] at *
      have := (vb.valid.range x hx).2
      exact (hm x).mpr ⟨by rw [show c.theta = b.theta from h4]; exact this, Or.inr hx⟩
    have eA := Finset.eq_of_subset_of_card_le hA (by
      rw [card_hashSet vc, card_hashSet va.valid, h1])
    have eB := Finset.eq_of_subset_of_card_le hB (by
      rw [card_hashSet vc, card_hashSet vb.valid, h2])
    rw [eA, eB]
  · intro hs
    have ht := hth hs
    obtain ⟨h1, h2⟩ := hs
    have hA : hashSet c.view = hashSet a := by
      ext x
      have hx2 : x ∈ b.all ↔ x ∈ a.all := by
        have := congrArg (x ∈ ·) h2
        simp only [hashSet, List.mem_toFinset] at this
        rw [this]
      unfold hashSet
      rw [List.mem_toFinset, List.mem_toFinset]
      show x ∈ c.entries ↔ _
      rw [hm, hx2, or_self]
      constructor
      · exact fun h => h.2
      · intro h
        have := (va.valid.range x h).2
        exact ⟨by omega, h⟩
    have e1 : c.view.numRetained = a.numRetained := by
      rw [← card_hashSet vc, hA, card_hashSet va.valid]
    have e2 : a.numRetained = b.numRetained := by
      rw [← card_hashSet va.valid, h2, card_hashSet vb.valid]
    have e3 : c.view.theta = a.theta := by
      show c.theta = a.theta
      rw [ht, h1, Nat.min_self]
    exact ⟨⟨⟨e1, e1.trans e2⟩, e3⟩, e3.trans h1⟩

theorem small {sh : Nat} {v : View} (h : Input sh v) : v.numRetained < 2 ^ 31 := by
  have := h.size
  unfold maxRetained at this
  omega

/-! ## Equality -/

/-- C96: the same object and two empty sketches are equal, an empty and a non-empty one are not. -/
theorem C96_equal_trivial (sh : Option Nat) (a b : View) :
    isExactlyEqual true sh a b = .ok true ∧
    (a.isEmpty = true → b.isEmpty = true → isExactlyEqual false sh a b = .ok true) ∧
    (a.isEmpty ≠ b.isEmpty → isExactlyEqual false sh a b = .ok false) := by
  unfold isExactlyEqual
  refine ⟨rfl, fun h1 h2 => by simp [h1, h2], fun h => ?_⟩
  cases h1 : a.isEmpty <;> cases h2 : b.isEmpty <;> simp_all

/-- C96: two sketches with something in them (of at most 2^26 hashes each) are exactly equal if and
only if they have the same theta and the same hashes, whatever their layouts. -/
theorem C96_exactly_equal {sh : Nat} {a b : View} (va : Input sh a) (vb : Input sh b)
    (ha : a.isEmpty = false) (hb : b.isEmpty = false) (hsize : a.numRetained ≤ 2 ^ 26) :
    ∃ r, isExactlyEqual false (some sh) a b = .ok r ∧ (r = true ↔ SameContent a b) := by
  obtain ⟨c, e, vc, _, _, hm, hth, _⟩ := computeUnion_spec va vb ha hb
  refine ⟨identicalSets a b c.view, ?_, identical_iff va vb vc.valid hm fun hs => hth ?_⟩
  · unfold isExactlyEqual
    simp [ha, hb, e]
  · have h1 := small va
    have h2 := small vb
    have hcard : (eitherBelow a b).card ≤ a.numRetained := by
      rw [← card_hashSet va.valid]
      refine (Finset.card_filter_le _ _).trans ?_
      rw [hs.2, Finset.union_self]
    rw [union_len ha hb]
    exact jaccardLgK_room (by omega) (by omega) (by omega)

/-! ## The index -/

/-- C96: the trivial cases of the index. -/
theorem C96_trivial (sh : Option Nat) (a b : View) :
    jaccard true sh a b = .ok ⟨1, 1, 1⟩ ∧
    (a.isEmpty = true → b.isEmpty = true → jaccard false sh a b = .ok ⟨1, 1, 1⟩) ∧
    (a.isEmpty ≠ b.isEmpty → jaccard false sh a b = .ok ⟨0, 0, 0⟩) := by
  unfold jaccard
  refine ⟨rfl, fun h1 h2 => by simp [h1, h2], fun h => ?_⟩
  cases h1 : a.isEmpty <;> cases h2 : b.isEmpty <;> simp_all

/-- C96: for two sketches with at most 2^26 hashes together `Jaccard` succeeds, the bounds lie in
`[0, 1]` around the estimate, sketches of equal content have index one, without any hash below the
common theta nothing is claimed, and otherwise the estimate is the index of the hashes below the
common theta.  If both sketches are exact, so are the bounds; otherwise they are the bounds on a
proportion (C95) for the sampled fraction. -/
theorem C96_jaccard {sh : Nat} {a b : View} (va : Input sh a) (vb : Input sh b)
    (ha : a.isEmpty = false) (hb : b.isEmpty = false) (hsize : a.numRetained + b.numRetained ≤ 2 ^ 26) :
    ∃ r, jaccard false (some sh) a b = .ok r ∧
      0 ≤ r.lower ∧ r.lower ≤ r.estimate ∧ r.estimate ≤ r.upper ∧ r.upper ≤ 1 ∧
      (SameContent a b → r = ⟨1, 1, 1⟩) ∧
      (¬ SameContent a b → eitherBelow a b = ∅ → r = ⟨0, 1 / 2, 1⟩) ∧
      (¬ SameContent a b → eitherBelow a b ≠ ∅ →
        r.estimate = ((bothBelow a b).card : ℝ) / (eitherBelow a b).card ∧
        (commonTheta a b = maxTheta → r.lower = r.estimate ∧ r.upper = r.estimate) ∧
        (commonTheta a b ≠ maxTheta →
          Proportion.lowerOnP (eitherBelow a b).card (bothBelow a b).card
            (deviations (commonTheta a b / maxTheta)) = .ok r.lower ∧
          Proportion.upperOnP (eitherBelow a b).card (bothBelow a b).card
            (deviations (commonTheta a b / maxTheta)) = .ok r.upper)) := by
  obtain ⟨c, e, vc, hce, _, hm, hth, _⟩ := computeUnion_spec va vb ha hb
  have hsum := eitherBelow_le (a := a) (b := b)
  rw [card_hashSet va.valid, card_hashSet vb.valid] at hsum
  have hct : c.theta = min a.theta b.theta := by
    apply hth
    rw [union_len ha hb]
    exact jaccardLgK_room (by omega) hsum (by omega)
  have hid := identical_iff va vb vc.valid hm fun _ => hct
  have hj : jaccard false (some sh) a b = jaccardWith (some sh) a b c.view := by
    unfold jaccard
    simp [ha, hb, e]
  rw [hj]
  unfold jaccardWith
  by_cases hs : SameContent a b
  · rw [if_pos (hid.mpr hs)]
    exact ⟨_, rfl, by norm_num, by norm_num, by norm_num, by norm_num, fun _ => rfl,
      fun h => absurd hs h, fun h => absurd hs h⟩
  · rw [if_neg (fun h => hs (hid.mp h))]
    obtain ⟨d, ed, vd, hdis, hnd⟩ := jaccardInter_spec va vb vc ha hb hce (le_of_eq hct) hm
    have hd : d.theta = c.theta ∧ ∀ h, h ∈ d.entries ↔ h < c.theta ∧ h ∈ a.all ∧ h ∈ b.all := by
      by_cases hx : DisjointExact a b
      · obtain ⟨q1, q2⟩ := hdis hx
        obtain ⟨_, _, h3, h4, h5⟩ := hx
        refine ⟨by rw [q1, hct, h3, h4, Nat.min_self], fun h => ?_⟩
        rw [q2]
        simp only [List.not_mem_nil, false_iff, not_and]
        exact fun _ h1 => h5 h h1
      · exact hnd hx
    have hU : c.view.numRetained = (eitherBelow a b).card := by
      rw [← card_hashSet vc.valid]
      congr 1
      ext x
      unfold hashSet eitherBelow commonTheta hashSet
      simp only [List.mem_toFinset, Finset.mem_filter, Finset.mem_union, Compact.view, hm, hct]
      exact And.comm
    have hI : d.view.numRetained = (bothBelow a b).card := by
      rw [← card_hashSet vd]
      congr 1
      ext x
      unfold hashSet bothBelow commonTheta hashSet
      simp only [List.mem_toFinset, Finset.mem_filter, Finset.mem_inter, Compact.view, hd.2, hct]
      exact And.comm
    have hcm : c.view.theta = commonTheta a b := hct
    obtain ⟨r, er, b0, b1, b2, b3, z, nz⟩ := ratios_spec (u := c.view) (i := d.view) hd.1.symm
      vc.valid.theta (by
        intro h
        have h1 := vc.valid.num
        rw [h1] at h
        obtain ⟨x, hx⟩ := List.exists_mem_of_ne_nil c.view.all (fun hh => h (by rw [hh]; rfl))
        have := (vc.valid.range x hx).2
        omega) (by rw [hU, hI]; exact both_le_either a b)
    rw [hU, hI, hcm] at nz
    rw [hU] at z
    refine ⟨r, by rw [ed, Outcome.ok_bind, er], b0, b1, b2, b3, fun h => absurd h hs, fun _ h => ?_,
      fun _ h => ?_⟩
    · exact z (by rw [h]; rfl)
    · exact nz (by rwa [Ne, Finset.card_eq_zero])

theorem either_comm (a b : View) : eitherBelow a b = eitherBelow b a := by
  unfold eitherBelow commonTheta; rw [Finset.union_comm, Nat.min_comm]

theorem both_comm (a b : View) : bothBelow a b = bothBelow b a := by
  unfold bothBelow commonTheta; rw [Finset.inter_comm, Nat.min_comm]

/-- C96: the index is symmetric. -/
theorem C96_symmetric {sh : Nat} {a b : View} (va : Input sh a) (vb : Input sh b)
    (hsize : a.numRetained + b.numRetained ≤ 2 ^ 26) :
    jaccard false (some sh) a b = jaccard false (some sh) b a := by
  cases ha : a.isEmpty with
  | true =>
    cases hb : b.isEmpty with
    | true => rw [(C96_trivial _ a b).2.1 ha hb, (C96_trivial _ b a).2.1 hb ha]
    | false =>
      rw [(C96_trivial _ a b).2.2 (by rw [ha, hb]; decide),
        (C96_trivial _ b a).2.2 (by rw [ha, hb]; decide)]
  | false =>
    cases hb : b.isEmpty with
    | true =>
      rw [(C96_trivial _ a b).2.2 (by rw [ha, hb]; decide),
        (C96_trivial _ b a).2.2 (by rw [ha, hb]; decide)]
    | false =>
      obtain ⟨r, e, _, _, _, _, s1, z1, n1⟩ := C96_jaccard va vb ha hb hsize
      obtain ⟨r', e', _, _, _, _, s2, z2, n2⟩ := C96_jaccard vb va hb ha (by omega)
      rw [e, e']
      congr 1
      by_cases hs : SameContent a b
      · rw [s1 hs, s2 ⟨hs.1.symm, hs.2.symm⟩]
      have hs' : ¬ SameContent b a := fun h => hs ⟨h.1.symm, h.2.symm⟩
      have hc : commonTheta b a = commonTheta a b := Nat.min_comm _ _
      rw [either_comm b a] at z2 n2
      rw [both_comm b a, hc] at n2
      by_cases hz : eitherBelow a b = ∅
      · rw [z1 hs hz, z2 hs' hz]
      obtain ⟨q1, q2, q3⟩ := n1 hs hz
      obtain ⟨q1', q2', q3'⟩ := n2 hs' hz
      have he : r.estimate = r'.estimate := q1.trans q1'.symm
      by_cases hm : commonTheta a b = maxTheta
      · obtain ⟨l1, u1⟩ := q2 hm
        obtain ⟨l2, u2⟩ := q2' hm
        cases r; cases r'
        simp_all
      · obtain ⟨l1, u1⟩ := q3 hm
        obtain ⟨l2, u2⟩ := q3' hm
        have hl := Outcome.ok.inj (l1.symm.trans l2)
        have hu := Outcome.ok.inj (u1.symm.trans u2)
        cases r; cases r'
        simp_all

/-- C96: a sketch made with another seed is refused, unless one of the sketches is empty. -/
theorem C96_seed {sh : Nat} {a b : View} (ha : a.isEmpty = false) (hb : b.isEmpty = false)
    (va : Valid a) (h : a.seedHash ≠ sh ∨ b.seedHash ≠ sh) :
    jaccard false (some sh) a b = .err "seed hash mismatch" ∧
    isExactlyEqual false (some sh) a b = .err "seed hash mismatch" := by
  have hu : computeUnion (some sh) a b = .err "seed hash mismatch" := by
    have hlg := jaccardLgK_range a.numRetained b.numRetained
    obtain ⟨u0, hnew⟩ := newUnion_ok hlg
    unfold computeUnion
    rw [hnew, Outcome.ok_bind]
    by_cases hs : a.seedHash = sh
    · have hb' : b.seedHash ≠ sh := h.resolve_left (fun h => h hs)
      obtain ⟨u1, e1, _⟩ := uupdate_inv (sh := sh) (unew_inv hnew) va (fun _ => hs)
      rw [e1, Outcome.ok_bind]
      unfold Union.update
      rw [hb]
      simp only [Bool.false_eq_true, if_false]
      rw [if_pos (Ne.symm hb')]
      rfl
    · unfold Union.update
      rw [ha]
      simp only [Bool.false_eq_true, if_false]
      rw [if_pos (Ne.symm hs)]
      rfl
  unfold jaccard isExactlyEqual
  simp [ha, hb, hu]

/-- C96: `IsSimilar` and `IsDissimilar` compare the bounds with the threshold: a pair called similar
has an estimate of at least the threshold, a pair called dissimilar of at most the threshold; for
exact sketches the two answers are about the true index of the hashes. -/
theorem C96_similar {sh : Nat} {a b : View} (va : Input sh a) (vb : Input sh b)
    (ha : a.isEmpty = false) (hb : b.isEmpty = false) (hsize : a.numRetained + b.numRetained ≤ 2 ^ 26)
    (threshold : ℝ) :
    ∃ r s d, jaccard false (some sh) a b = .ok r ∧
      isSimilar false (some sh) a b threshold = .ok s ∧
      isDissimilar false (some sh) a b threshold = .ok d ∧
      (s = true ↔ threshold ≤ r.lower) ∧ (d = true ↔ r.upper ≤ threshold) ∧
      (s = true → threshold ≤ r.estimate) ∧ (d = true → r.estimate ≤ threshold) ∧
      (¬ SameContent a b → eitherBelow a b ≠ ∅ → commonTheta a b = maxTheta →
        (s = true ↔ threshold ≤ ((bothBelow a b).card : ℝ) / (eitherBelow a b).card) ∧
        (d = true ↔ ((bothBelow a b).card : ℝ) / (eitherBelow a b).card ≤ threshold)) := by
  obtain ⟨r, e, _, b1, b2, _, _, _, n⟩ := C96_jaccard va vb ha hb hsize
  unfold isSimilar isDissimilar
  rw [e]
  refine ⟨r, _, _, rfl, rfl, rfl, by simp, by simp, ?_, ?_, ?_⟩
  · intro h
    exact (of_decide_eq_true h).trans b1
  · intro h
    exact b2.trans (of_decide_eq_true h)
  · intro h1 h2 h3
    obtain ⟨q1, q2, _⟩ := n h1 h2
    obtain ⟨l, u⟩ := q2 h3
    simp only [decide_eq_true_eq, ge_iff_le]
    rw [l, u, q1]
    exact ⟨Iff.rfl, Iff.rfl⟩

/-! ## From the streams -/

theorem presented_updates {ι : Type} : ∀ (xs acc : List ι),
    presented acc (xs.map Op.update) = acc ++ xs := by
  intro xs
  induction xs with
  | nil => intro acc; simp [presented]
  | cons x xs ih => intro acc; simp [presented, ih]

/-- A sketch that was fed a stream that fits into it. -/
theorem stream_view {ι : Type} (hash : ι → Nat) {lgK rf : Nat} {t0 : Tbl}
    (hnew : newTable lgK rf maxTheta = .ok t0) {xs : List ι} (hne : xs ≠ []) (sh : Nat)
    (hproper : ∀ x ∈ xs, hash x / 2 ≠ 0 ∧ hash x / 2 < maxTheta)
    (hcnt : (xs.map fun x => hash x / 2).dedup.length ≤ 15 * 2 ^ (lgK + 1) / 16) :
    ∃ t, run hash t0 (xs.map .update) = .ok t ∧ Input sh (viewOf t sh) ∧
      (viewOf t sh).isEmpty = false ∧ (viewOf t sh).theta = maxTheta ∧
      (viewOf t sh).numRetained = (xs.map fun x => hash x / 2).dedup.length ∧
      ∀ h, h ∈ hashSet (viewOf t sh) ↔ ∃ x ∈ xs, hash x / 2 = h := by
  have hp : presented [] (xs.map Op.update) = xs := by rw [presented_updates]; rfl
  obtain ⟨t, e, i⟩ := run_inv (xs.map .update) t0 [] (new_sinv hash hnew)
  obtain ⟨t', e', hth, _, hperm⟩ := C02_exact_until_capacity hash lgK rf t0 hnew (xs.map .update)
    (by simp) (by rw [hp]; exact hcnt) (by simp)
  obtain rfl : t = t' := by rw [e] at e'; exact Outcome.ok.inj e'
  rw [hp] at hperm i
  have hfil : ((xs.map fun x => hash x / 2).dedup.filter fun h => h != 0 && decide (h < maxTheta))
      = (xs.map fun x => hash x / 2).dedup := by
    rw [List.filter_eq_self]
    intro h hh
    rw [List.mem_dedup, List.mem_map] at hh
    obtain ⟨x, hx, rfl⟩ := hh
    obtain ⟨h1, h2⟩ := hproper x hx
    simp [h1, h2]
  rw [hfil] at hperm
  have hv := i.valid (le_refl _) sh
  have hlen : (all t).length = (xs.map fun x => hash x / 2).dedup.length := hperm.length_eq
  have hnum : (viewOf t sh).numRetained = (xs.map fun x => hash x / 2).dedup.length :=
    hv.num.trans hlen
  have hlg : lgK ≤ 26 := by have := i.tinv.lgNom; rw [i.lgk] at this; exact this
  refine ⟨t, e, ⟨hv, rfl, ?_⟩, ?_, hth, hnum, ?_⟩
  · rw [hnum]
    have : 2 ^ (lgK + 1) ≤ 2 ^ 27 := Nat.pow_le_pow_right (by omega) (by omega)
    unfold maxRetained
    omega
  · cases hc : (viewOf t sh).isEmpty with
    | false => rfl
    | true => exact absurd (i.empty.mp hc) hne
  · intro h
    unfold hashSet
    rw [List.mem_toFinset]
    show h ∈ all t ↔ _
    rw [hperm.mem_iff, List.mem_dedup, List.mem_map]

/-- C96: two sketches of streams that fit into them report, with certainty, the Jaccard index of the
two sets of items (for hashes without a collision among the items and without the excluded values). -/
theorem C96_exact_streams {ι : Type} [DecidableEq ι] (hash : ι → Nat) {lgK rf lgK' rf' : Nat}
    {t0 t0' : Tbl} (hnew : newTable lgK rf maxTheta = .ok t0)
    (hnew' : newTable lgK' rf' maxTheta = .ok t0') (sh : Nat) {xs ys : List ι}
    (hx : xs ≠ []) (hy : ys ≠ [])
    (hproper : ∀ x ∈ xs ++ ys, hash x / 2 ≠ 0 ∧ hash x / 2 < maxTheta)
    (hinj : ∀ x ∈ xs ++ ys, ∀ y ∈ xs ++ ys, hash x / 2 = hash y / 2 → x = y)
    (hcx : xs.toFinset.card ≤ 15 * 2 ^ (lgK + 1) / 16)
    (hcy : ys.toFinset.card ≤ 15 * 2 ^ (lgK' + 1) / 16)
    (hsum : xs.toFinset.card + ys.toFinset.card ≤ 2 ^ 26) :
    ∃ t t', run hash t0 (xs.map .update) = .ok t ∧ run hash t0' (ys.map .update) = .ok t' ∧
      jaccard false (some sh) (viewOf t sh) (viewOf t' sh) =
        .ok ⟨((xs.toFinset ∩ ys.toFinset).card : ℝ) / (xs.toFinset ∪ ys.toFinset).card,
          ((xs.toFinset ∩ ys.toFinset).card : ℝ) / (xs.toFinset ∪ ys.toFinset).card,
          ((xs.toFinset ∩ ys.toFinset).card : ℝ) / (xs.toFinset ∪ ys.toFinset).card⟩ := by
  have hded : ∀ zs : List ι, (∀ z ∈ zs, z ∈ xs ++ ys) →
      (zs.map fun x => hash x / 2).dedup.length = zs.toFinset.card := by
    intro zs hzs
    have h1 : (zs.map fun x => hash x / 2).dedup.toFinset = zs.toFinset.image fun x => hash x / 2 := by
      ext h; simp
    rw [← List.toFinset_card_of_nodup (List.nodup_dedup _), h1, Finset.card_image_of_injOn]
    intro x hx y hy hxy
    have hx' : x ∈ zs := by simpa using hx
    have hy' : y ∈ zs := by simpa using hy
    exact hinj x (hzs x hx') y (hzs y hy') hxy
  have hX := hded xs (fun z hz => List.mem_append_left _ hz)
  have hY := hded ys (fun z hz => List.mem_append_right _ hz)
  obtain ⟨t, e, v, hem, hth, hn, hm⟩ := stream_view hash hnew hx sh
    (fun x h => hproper x (List.mem_append_left _ h)) (by rw [hX]; exact hcx)
  obtain ⟨t', e', v', hem', hth', hn', hm'⟩ := stream_view hash hnew' hy sh
    (fun x h => hproper x (List.mem_append_right _ h)) (by rw [hY]; exact hcy)
  refine ⟨t, t', e, e', ?_⟩
  obtain ⟨r, er, _, _, _, _, s, z, n⟩ := C96_jaccard v v' hem hem' (by rw [hn, hn', hX, hY]; exact hsum)
  generalize viewOf t sh = a at *
  generalize viewOf t' sh = b at *
  have hct : commonTheta a b = maxTheta := by unfold commonTheta; rw [hth, hth', Nat.min_self]
  have hlt : ∀ x ∈ xs ++ ys, hash x / 2 < commonTheta a b := fun x h => by
    rw [hct]; exact (hproper x h).2
  have hU : (eitherBelow a b).card = (xs.toFinset ∪ ys.toFinset).card := by
    have : eitherBelow a b = (xs.toFinset ∪ ys.toFinset).image fun x => hash x / 2 := by
      ext h
      unfold eitherBelow
      simp only [Finset.mem_filter, Finset.mem_union, Finset.mem_image, hm, hm', List.mem_toFinset]
      constructor
      · rintro ⟨⟨x, hx, rfl⟩ | ⟨x, hx, rfl⟩, _⟩
        · exact ⟨x, Or.inl hx, rfl⟩
        · exact ⟨x, Or.inr hx, rfl⟩
      · rintro ⟨x, hx | hx, rfl⟩
        · exact ⟨Or.inl ⟨x, hx, rfl⟩, hlt x (List.mem_append_left _ hx)⟩
        · exact ⟨Or.inr ⟨x, hx, rfl⟩, hlt x (List.mem_append_right _ hx)⟩
    rw [this, Finset.card_image_of_injOn]
    intro x hx y hy hxy
    exact hinj x (by simpa using hx) y (by simpa using hy) hxy
  have hI : (bothBelow a b).card = (xs.toFinset ∩ ys.toFinset).card := by
    have : bothBelow a b = (xs.toFinset ∩ ys.toFinset).image fun x => hash x / 2 := by
      ext h
      unfold bothBelow
      simp only [Finset.mem_filter, Finset.mem_inter, Finset.mem_image, hm, hm', List.mem_toFinset]
      constructor
      · rintro ⟨⟨⟨x, hx, rfl⟩, ⟨y, hy, hxy⟩⟩, _⟩
        have := hinj y (List.mem_append_right _ hy) x (List.mem_append_left _ hx) hxy
        subst this
        exact ⟨y, ⟨hx, hy⟩, rfl⟩
      · rintro ⟨x, ⟨hx, hy⟩, rfl⟩
        exact ⟨⟨⟨x, hx, rfl⟩, ⟨x, hy, rfl⟩⟩, hlt x (List.mem_append_left _ hx)⟩
    rw [this, Finset.card_image_of_injOn]
    intro x hx y hy hxy
    have hx' : x ∈ xs ∧ x ∈ ys := by simpa using hx
    have hy' : y ∈ xs ∧ y ∈ ys := by simpa using hy
    exact hinj x (List.mem_append_left _ hx'.1) y (List.mem_append_left _ hy'.1) hxy
  have hUne : (xs.toFinset ∪ ys.toFinset).card ≠ 0 := by
    rw [Ne, Finset.card_eq_zero]
    intro h
    apply hx
    have : xs.toFinset = ∅ := by
      rw [Finset.union_eq_empty] at h; exact h.1
    simpa using this
  rw [er]
  congr 1
  by_cases hs : SameContent a b
  · have hxy : xs.toFinset = ys.toFinset := by
      ext x
      simp only [List.mem_toFinset]
      constructor
      · intro h
        have : hash x / 2 ∈ hashSet b := by rw [← hs.2, hm]; exact ⟨x, h, rfl⟩
        obtain ⟨y, hy, hxy⟩ := (hm' _).mp this
        have := hinj y (List.mem_append_right _ hy) x (List.mem_append_left _ h) hxy
        rwa [← this]
      · intro h
        have : hash x / 2 ∈ hashSet a := by rw [hs.2, hm']; exact ⟨x, h, rfl⟩
        obtain ⟨y, hy, hxy⟩ := (hm _).mp this
        have := hinj y (List.mem_append_left _ hy) x (List.mem_append_right _ h) hxy
        rwa [← this]
    rw [s hs]
    rw [hxy, Finset.union_self] at hUne
    have : (ys.toFinset.card : ℝ) ≠ 0 := by exact_mod_cast hUne
    rw [hxy, Finset.inter_self, Finset.union_self, div_self this]
  · obtain ⟨q1, q2, _⟩ := n hs (by rwa [Ne, ← Finset.card_eq_zero, hU])
    obtain ⟨l, u⟩ := q2 hct
    rw [hU, hI] at q1
    cases r
    simp only at l u q1
    rw [l, u, q1]

example := C96_exact_streams (hash := fun x : Nat => 2 * x + 2) (lgK := 5) (rf := 3) (lgK' := 6)
  (rf' := 0) rfl rfl 7 (xs := [1, 2, 2, 3]) (ys := [3, 4]) (by decide) (by decide) (by decide)
  (by decide) (by decide) (by decide) (by decide)

/-! ## Limits -/

/-- Finding: of two exact sketches without a common hash that have more than 2^26 hashes together
the similarity is refused (the union is cut to 2^26 hashes, but the intersection is already known to
be empty and stays at theta 1). -/
theorem C96_too_large {sh : Nat} {a b : View} (va : Input sh a) (vb : Input sh b)
    (ha : a.isEmpty = false) (hb : b.isEmpty = false) (hd : DisjointExact a b)
    (hsize : 2 ^ 26 < a.numRetained + b.numRetained) :
    jaccard false (some sh) a b = .err "theta_a must be <= theta_b" := by
  obtain ⟨c, e, vc, hce, hle, hm, _, hlt⟩ := computeUnion_spec va vb ha hb
  obtain ⟨d, ed, _, hdis, _⟩ := jaccardInter_spec va vb vc ha hb hce hle hm
  obtain ⟨q1, q2⟩ := hdis hd
  obtain ⟨_, _, h3, h4, h5⟩ := hd
  have hcard : (eitherBelow a b).card = a.numRetained + b.numRetained := by
    have h6 : eitherBelow a b = hashSet a ∪ hashSet b := by
      unfold eitherBelow commonTheta
      rw [Finset.filter_eq_self]
      intro x hx
      rw [h3, h4, Nat.min_self]
      rcases Finset.mem_union.mp hx with hx | hx
      · have := (va.valid.range x (by simpa [hashSet] using hx)).2
        omega
      · have := (vb.valid.range x (by simpa [hashSet] using hx)).2
        omega
    rw [h6, Finset.card_union_of_disjoint, card_hashSet va.valid, card_hashSet vb.valid]
    rw [Finset.disjoint_left]
    intro x hx
    unfold hashSet at *
    rw [List.mem_toFinset] at *
    exact h5 x hx
  have hc : c.theta < maxTheta := by
    have := hlt (by
      rw [union_len ha hb, hcard]
      have := (jaccardLgK_range a.numRetained b.numRetained).2
      have : 2 ^ jaccardLgK a.numRetained b.numRetained ≤ 2 ^ 26 :=
        Nat.pow_le_pow_right (by omega) this
      omega)
    rw [h3, h4, Nat.min_self] at this
    exact this
  have hj : jaccard false (some sh) a b = jaccardWith (some sh) a b c.view := by
    unfold jaccard
    simp [ha, hb, e]
  rw [hj]
  unfold jaccardWith
  have hni : identicalSets a b c.view = false := by
    unfold identicalSets
    have : (c.view.theta == a.theta) = false := by
      rw [beq_eq_false_iff_ne, h3]
      show c.theta ≠ _
      omega
    simp [this]
  rw [hni]
  simp only [Bool.false_eq_true, if_false]
  rw [ed, Outcome.ok_bind]
  unfold jaccardRatios lowerSketched validateThetas
  rw [if_pos (by show d.theta > c.theta; omega)]
  rfl

/-- Finding: two sketches that sample their input and have not kept any hash yet are taken for equal
with certainty, whatever they were fed. -/
theorem C96_no_evidence {sh : Nat} {a b : View} (va : Input sh a) (vb : Input sh b)
    (ha : a.isEmpty = false) (hb : b.isEmpty = false) (ha0 : a.all = []) (hb0 : b.all = [])
    (ht : a.theta = b.theta) :
    jaccard false (some sh) a b = .ok ⟨1, 1, 1⟩ := by
  have n1 : a.numRetained = 0 := by rw [va.valid.num, ha0]; rfl
  have n2 : b.numRetained = 0 := by rw [vb.valid.num, hb0]; rfl
  obtain ⟨r, e, _, _, _, _, s, _⟩ := C96_jaccard va vb ha hb (by omega)
  rw [e, s ⟨ht, by unfold hashSet; rw [ha0, hb0]⟩]

/-! ## Examples -/

/-- A sketch of consecutive hashes. -/
def rangeView (first n theta : Nat) : View := ⟨false, true, theta, 7, n, List.range' first n⟩

theorem rangeView_input {first n theta : Nat} (h0 : 0 < first) (h1 : first + n ≤ theta)
    (h2 : theta ≤ maxTheta) (h3 : n ≤ maxRetained) : Input 7 (rangeView first n theta) where
  valid := {
    nodup := List.nodup_range'
    range := by
      intro e he
      have := List.mem_range'_1.mp he
      constructor
      · omega
      · show e < theta
        omega
    num := by show n = (List.range' first n).length; rw [List.length_range']
    ordered := fun _ => List.pairwise_lt_range'
    theta := h2
    empty := fun h => by cases h }
  seed := rfl
  size := h3

theorem rangeView_disjoint {f n g m : Nat} (hn : 0 < n) (hm : 0 < m) (h : f + n ≤ g) :
    DisjointExact (rangeView f n maxTheta) (rangeView g m maxTheta) := by
  refine ⟨?_, ?_, rfl, rfl, ?_⟩
  · show List.range' f n ≠ []
    rw [Ne, List.range'_eq_nil_iff]; omega
  · show List.range' g m ≠ []
    rw [Ne, List.range'_eq_nil_iff]; omega
  · intro x hx hy
    have h1 := List.mem_range'_1.mp hx
    have h2 := List.mem_range'_1.mp hy
    omega

example := C96_exactly_equal (rangeView_input (first := 3) (n := 4) (theta := 1000) (by decide)
  (by decide) (by decide) (by decide)) (rangeView_input (first := 5) (n := 4) (theta := 900)
  (by decide) (by decide) (by decide) (by decide)) rfl rfl (by decide)
example := C96_jaccard (rangeView_input (first := 3) (n := 4) (theta := 1000) (by decide)
  (by decide) (by decide) (by decide)) (rangeView_input (first := 5) (n := 4) (theta := 900)
  (by decide) (by decide) (by decide) (by decide)) rfl rfl (by decide)
example := C96_similar (rangeView_input (first := 3) (n := 4) (theta := 1000) (by decide)
  (by decide) (by decide) (by decide)) (rangeView_input (first := 5) (n := 4) (theta := 900)
  (by decide) (by decide) (by decide) (by decide)) rfl rfl (by decide) (1 / 3)
example := C96_symmetric (rangeView_input (first := 3) (n := 4) (theta := 1000) (by decide)
  (by decide) (by decide) (by decide)) (rangeView_input (first := 5) (n := 4) (theta := 900)
  (by decide) (by decide) (by decide) (by decide)) (by decide)
example := C96_seed (sh := 8) (a := rangeView 3 4 1000) (b := rangeView 5 4 900) rfl rfl
  (rangeView_input (by decide) (by decide) (by decide) (by decide)).valid (Or.inl (by decide))
example := C96_no_evidence (a := rangeView 1 0 1000) (b := rangeView 1 0 1000)
  (rangeView_input (by decide) (by decide) (by decide) (by decide))
  (rangeView_input (by decide) (by decide) (by decide) (by decide)) rfl rfl rfl rfl rfl
example : eitherBelow (rangeView 3 4 1000) (rangeView 5 4 900) ≠ ∅ ∧
    ¬ SameContent (rangeView 3 4 1000) (rangeView 5 4 900) := by
  refine ⟨by decide, fun h => ?_⟩
  have := h.1
  revert this; decide

/-- Two sketches that are too large. -/
theorem large_pair {n m : Nat} (hn : 0 < n) (hm : 0 < m) (h : 2 ^ 26 < n + m) (h1 : n ≤ maxRetained)
    (h2 : m ≤ maxRetained) :
    jaccard false (some 7) (rangeView 1 n maxTheta) (rangeView (1 + n) m maxTheta)
      = .err "theta_a must be <= theta_b" := by
  have hb : maxRetained * 2 + 1 ≤ maxTheta := by decide
  exact C96_too_large (rangeView_input (by omega) (by omega) (le_refl _) h1)
    (rangeView_input (by omega) (by omega) (le_refl _) h2) rfl rfl
    (rangeView_disjoint hn hm (le_refl _)) h

example := large_pair (n := 2 ^ 26) (m := 1) (by decide) (by decide) (by decide) (by decide) (by decide)

end Verif.Theta
