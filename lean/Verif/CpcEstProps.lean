import Verif.CpcBounds
import Verif.CpcProps

/-!
# C101, C102: estimates of merged CPC sketches, bounds of CPC sketches
-/

namespace Verif.Cpc

/-! ## C101: the estimate of a merged sketch -/

/-- For every allowed `lgK` and every number of coupons there is an estimate; it is at least the number
of coupons, and equal to it for 0 and 1. -/
theorem C101_total {lgK : Nat} (h4 : 4 ≤ lgK) (h26 : lgK ≤ 26) (c : Nat) :
    ∃ e : ℝ, iconEstimate lgK c = .ok e ∧ (c : ℝ) ≤ e ∧ (c ≤ 1 → e = c) := by
  refine ⟨_, iconEstimate_val h4 h26 c, iconVal_ge lgK c, fun h => ?_⟩
  unfold iconVal
  rw [if_pos (by omega)]

/-- More coupons, a larger estimate. -/
theorem C101_strict {lgK : Nat} (h4 : 4 ≤ lgK) (h26 : lgK ≤ 26) {c d : Nat} (h : c < d) {e f : ℝ}
    (he : iconEstimate lgK c = .ok e) (hf : iconEstimate lgK d = .ok f) : e < f := by
  rw [iconEstimate_val h4 h26] at he hf
  cases he
  cases hf
  exact iconVal_lt h4 h26 h

theorem result_facts {lgK seed : Nat} {u u' : Un} {parts : List (Nat × List Hash)} {srcs : List Sk}
    (hu : newUn lgK seed = .ok u) (hb : List.Forall₂ (Built seed) parts srcs)
    (hr : unionAll u srcs = .ok u')
    (hbig : 8 * cells (lgOf lgK parts) (allItems parts) < 475 * 2 ^ lgOf lgK parts) {r : Sk}
    (he : u'.result = .ok r) :
    4 ≤ r.lgK ∧ r.lgK ≤ 26 ∧ r.lgK = lgOf lgK parts ∧ r.merged = true ∧
      r.num = cells (lgOf lgK parts) (allItems parts) := by
  obtain ⟨h, hl, _⟩ := union_inv hu hb hr
  obtain ⟨a, _, b, c, _⟩ := C65_result hu hb hr hbig he
  rw [cells_eq] at hbig
  obtain ⟨hi, _⟩ := (result_spec h (by rw [hl]; exact hbig)).2 r he
  exact ⟨hi.lg4, hi.lg26, a, b, c⟩

theorem cells_mono {lgK : Nat} {hs hs' : List Hash} (h : ∀ x ∈ hs, x ∈ hs') :
    cells lgK hs ≤ cells lgK hs' := by
  unfold cells
  apply Finset.card_le_card
  intro x
  simp only [List.mem_toFinset, List.mem_map]
  rintro ⟨y, hy, rfl⟩
  exact ⟨y, h y hy, rfl⟩

/-- Two unions with the same smallest `lgK`, the items of one among those of the other: the estimates
are ordered, and equal only if no cell is new. -/
theorem C101_union {lgK lgK' seed seed' : Nat} {u u' v v' : Un}
    {parts parts' : List (Nat × List Hash)} {srcs srcs' : List Sk}
    (hu : newUn lgK seed = .ok u) (hb : List.Forall₂ (Built seed) parts srcs)
    (hr : unionAll u srcs = .ok u')
    (hv : newUn lgK' seed' = .ok v) (hb' : List.Forall₂ (Built seed') parts' srcs')
    (hr' : unionAll v srcs' = .ok v') (hl : lgOf lgK parts = lgOf lgK' parts')
    (hbig : 8 * cells (lgOf lgK' parts') (allItems parts') < 475 * 2 ^ lgOf lgK' parts')
    (hsub : ∀ x ∈ allItems parts, x ∈ allItems parts') {r r' : Sk}
    (he : u'.result = .ok r) (he' : v'.result = .ok r') :
    ∃ e e' : ℝ, getEstimate r = .ok e ∧ getEstimate r' = .ok e' ∧ e ≤ e' ∧
      (e = e' ↔ cells (lgOf lgK parts) (allItems parts) = cells (lgOf lgK' parts') (allItems parts')) := by
  have hc := cells_mono (lgK := lgOf lgK parts) hsub
  obtain ⟨a1, a2, a3, a4, a5⟩ := result_facts hu hb hr (by rw [hl] at hc ⊢; omega) he
  obtain ⟨b1, b2, b3, b4, b5⟩ := result_facts hv hb' hr' hbig he'
  unfold getEstimate
  rw [if_pos a4, if_pos b4, iconEstimate_val a1 a2, iconEstimate_val b1 b2]
  have hle : r.lgK = r'.lgK := by rw [a3, b3, hl]
  rw [← hle, a5, b5, hl]
  rw [hl] at hc
  rcases hc.eq_or_lt with e | hlt
  · exact ⟨_, _, rfl, rfl, by rw [e], by rw [e]; simp⟩
  · have := iconVal_lt a1 a2 hlt
    exact ⟨_, _, rfl, rfl, this.le, ⟨fun h => absurd h this.ne, fun h => absurd h hlt.ne⟩⟩

/-! ## C102: bounds -/

theorem hip_bounds {lgK num : Nat} {hip : ℝ} (h4 : 4 ≤ lgK) {d : Nat}
    (h1 : 1 ≤ d) (h3 : d ≤ 3) (h0 : num ≠ 0) :
    hipLB lgK num hip d = .ok (lbOf num hip (epsOf true lgK d)) ∧
    hipUB lgK num hip d = .ok (ubOf hip (epsOf true lgK d)) := by
  unfold hipLB hipUB
  rw [if_neg h0, if_neg h0, relEps_ok true h4 h1 h3]
  exact ⟨rfl, rfl⟩

theorem icon_bounds {lgK num : Nat} (h4 : 4 ≤ lgK) (h26 : lgK ≤ 26) {d : Nat}
    (h1 : 1 ≤ d) (h3 : d ≤ 3) (h0 : num ≠ 0) :
    iconLB lgK num d = .ok (lbOf num (iconVal lgK num) (epsOf false lgK d)) ∧
    iconUB lgK num d = .ok (ubOf (iconVal lgK num) (epsOf false lgK d)) := by
  unfold iconLB iconUB
  rw [if_neg h0, if_neg h0, relEps_ok false h4 h1 h3, iconEstimate_val h4 h26]
  exact ⟨rfl, rfl⟩

/-- The three numbers of a sketch: `n` cells hit, lower bound, estimate and upper bound for `d` and `d'`
standard deviations. -/
def Bracket (s : Sk) (n d d' : Nat) : Prop :=
  ∃ est lb ub lb' ub' : ℝ, getEstimate s = .ok est ∧
    getLowerBound s d = .ok lb ∧ getUpperBound s d = .ok ub ∧
    getLowerBound s d' = .ok lb' ∧ getUpperBound s d' = .ok ub' ∧
    (n : ℝ) ≤ lb' ∧ lb' ≤ lb ∧ lb ≤ est ∧ est ≤ ub ∧ ub ≤ ub' ∧ (n = 0 → ub' = 0)

theorem bracket_of {s : Sk} {n d d' : Nat} {est : ℝ} {hip : Bool} (h4 : 4 ≤ s.lgK)
    (hn : (n : ℝ) ≤ est) (h1 : 1 ≤ d) (hd : d ≤ d') (h3 : d' ≤ 3) (h0 : n ≠ 0)
    (he : getEstimate s = .ok est)
    (hlu : ∀ i : Nat, 1 ≤ i → i ≤ 3 → getLowerBound s i = .ok (lbOf n est (epsOf hip s.lgK i)) ∧
      getUpperBound s i = .ok (ubOf est (epsOf hip s.lgK i))) : Bracket s n d d' := by
  obtain ⟨e1, e2⟩ := hlu d h1 (by omega)
  obtain ⟨e3, e4⟩ := hlu d' (by omega) h3
  have b := epsOf_bounds hip h4 h1 (by omega : d ≤ 3)
  have b' := epsOf_bounds hip h4 (by omega : 1 ≤ d') h3
  obtain ⟨_, o2, o3⟩ := bounds_order hn b.1 b.2
  obtain ⟨o1, _, _⟩ := bounds_order hn b'.1 b'.2
  obtain ⟨w1, w2⟩ := bounds_wider (num := n) (le_trans (Nat.cast_nonneg n) hn) b.1
    (epsOf_mono hip h4 h1 hd h3) b'.2
  exact ⟨_, _, _, _, _, he, e1, e2, e3, e4, o1, w1, o2, o3, w2, fun h => absurd h h0⟩

/-- A sketch fed by a stream: the bounds enclose the estimate, more standard deviations give wider
bounds, the lower bound is at least the number of cells hit. -/
theorem C102_streamed {lgK seed : Nat} {c c' : Sk} (hc : newSk lgK seed = .ok c) {hs : List Hash}
    (hr : run c hs = .ok c') (hn : 8 * cells lgK hs < 83 * 2 ^ lgK) {d d' : Nat} (h1 : 1 ≤ d)
    (hd : d ≤ d') (h3 : d' ≤ 3) : Bracket c' (cells lgK hs) d d' := by
  have hlow := C64_lower hc hr hn
  obtain ⟨hi, hl, _, hm⟩ := run_start hc hr
  have hnum : c'.num = cells lgK hs := by rw [hi.num, cells_eq]
  have hest : getEstimate c' = .ok (c'.hip : ℝ) := by
    unfold getEstimate; rw [hm]; rfl
  have hlow' : ((cells lgK hs : Nat) : ℝ) ≤ (c'.hip : ℝ) := by exact_mod_cast hlow
  have elb : ∀ i : Int, getLowerBound c' i = hipLB c'.lgK c'.num c'.hip i := by
    intro i; unfold getLowerBound; rw [hm]; rfl
  have eub : ∀ i : Int, getUpperBound c' i = hipUB c'.lgK c'.num c'.hip i := by
    intro i; unfold getUpperBound; rw [hm]; rfl
  by_cases h0 : cells lgK hs = 0
  · have hnil : hs = [] := by
      rw [cells_eq] at h0
      exact coupons_card_zero.mp h0
    subst hnil
    cases hr
    have hh := (start hc).2.2.2.2.2
    rw [hh] at hest
    have z : ∀ i : Int, getLowerBound c i = .ok 0 ∧ getUpperBound c i = .ok 0 := by
      intro i
      rw [elb, eub, hnum, h0]
      exact ⟨rfl, rfl⟩
    exact ⟨_, _, _, _, _, hest, (z _).1, (z _).2, (z _).1, (z _).2, by rw [h0]; simp⟩
  · refine bracket_of (hip := true) hi.lg4 hlow' h1 hd h3 h0 hest ?_
    intro i hi1 hi3
    rw [elb, eub, hnum]
    exact hip_bounds hi.lg4 hi1 hi3 h0

/-- The same for the result of a union. -/
theorem C102_union {lgK seed : Nat} {u u' : Un} {parts : List (Nat × List Hash)} {srcs : List Sk}
    (hu : newUn lgK seed = .ok u) (hb : List.Forall₂ (Built seed) parts srcs)
    (hr : unionAll u srcs = .ok u')
    (hbig : 8 * cells (lgOf lgK parts) (allItems parts) < 475 * 2 ^ lgOf lgK parts) {r : Sk}
    (he : u'.result = .ok r) {d d' : Nat} (h1 : 1 ≤ d) (hd : d ≤ d') (h3 : d' ≤ 3) :
    Bracket r (cells (lgOf lgK parts) (allItems parts)) d d' := by
  obtain ⟨a1, a2, a3, a4, a5⟩ := result_facts hu hb hr hbig he
  rw [← a5]
  have hest : getEstimate r = .ok (iconVal r.lgK r.num) := by
    unfold getEstimate; rw [if_pos a4, iconEstimate_val a1 a2]
  have elb : ∀ i : Int, getLowerBound r i = iconLB r.lgK r.num i := by
    intro i; unfold getLowerBound; rw [if_pos a4]
  have eub : ∀ i : Int, getUpperBound r i = iconUB r.lgK r.num i := by
    intro i; unfold getUpperBound; rw [if_pos a4]
  by_cases h0 : r.num = 0
  · have z : ∀ i : Int, getLowerBound r i = .ok 0 ∧ getUpperBound r i = .ok 0 := by
      intro i
      rw [elb, eub, h0]
      exact ⟨rfl, rfl⟩
    rw [h0] at hest
    have : iconVal r.lgK 0 = 0 := by simp [iconVal]
    rw [this] at hest
    exact ⟨_, _, _, _, _, hest, (z _).1, (z _).2, (z _).1, (z _).2, by rw [h0]; simp⟩
  · refine bracket_of (hip := false) a1 (iconVal_ge _ _) h1 hd h3 h0 hest ?_
    intro i hi1 hi3
    rw [elb, eub]
    exact icon_bounds a1 a2 hi1 hi3 h0

/-- The number of standard deviations is not checked.  In a sketch with items: at `lgK = 14` four of
them panic, at `lgK = 4` none panic, and at `lgK = 4` six of them give an upper bound below the lower
bound. -/
theorem C102_unchecked (s : Sk) (h0 : s.num ≠ 0) :
    (s.lgK = 14 → getLowerBound s 4 = .panic ∧ getUpperBound s 4 = .panic) ∧
    (s.lgK = 4 → getLowerBound s 0 = .panic ∧ getUpperBound s 0 = .panic) ∧
    (s.lgK = 4 → s.merged = false → (s.num : ℚ) ≤ s.hip → ∃ lb ub : ℝ, getLowerBound s 6 = .ok lb ∧
      getUpperBound s 6 = .ok ub ∧ ub < 0 ∧ 0 < lb) := by
  refine ⟨fun hl => ?_, fun hl => ?_, fun hl hm hh => ?_⟩
  · have e : ∀ b, relEps b 14 4 = .panic := by
      intro b
      unfold relEps errFactor
      rw [if_pos (by norm_num), if_neg (by norm_num)]
      have : (highSide b)[(3 * (((14 : Nat) : Int) - 4) + (4 - 1)).toNat]? = none := by
        cases b <;> decide
      rw [this]
      rfl
    unfold getLowerBound getUpperBound iconLB iconUB hipLB hipUB
    rw [hl, e, e]
    simp [h0]
  · have e : ∀ b, relEps b 4 0 = .panic := by
      intro b
      unfold relEps errFactor
      rw [if_pos (by norm_num), if_pos (by norm_num)]
      rfl
    unfold getLowerBound getUpperBound iconLB iconUB hipLB hipUB
    rw [hl, e, e]
    simp [h0]
  · have e : relEps true 4 6 = .ok (6 * (6923 / 10000 / 4)) := by
      unfold relEps errFactor
      rw [if_pos (by norm_num), if_neg (by norm_num)]
      have : (highSide true)[(3 * (((4 : Nat) : Int) - 4) + (6 - 1)).toNat]? = some 6923 := by decide
      rw [this, Outcome.ofOption_some, Outcome.ok_bind, Outcome.ok_bind]
      have hs : Real.sqrt (2 ^ 4) = 4 := by
        rw [show (2 : ℝ) ^ 4 = 4 ^ 2 by norm_num, Real.sqrt_sq (by norm_num)]
      rw [hs]
      norm_num
    have hnum : (0 : ℝ) < s.num := by exact_mod_cast Nat.pos_of_ne_zero h0
    have hh' : (s.num : ℝ) ≤ (s.hip : ℝ) := by exact_mod_cast hh
    have h1 : (1 : ℝ) ≤ s.num := by exact_mod_cast Nat.pos_of_ne_zero h0
    unfold getLowerBound getUpperBound hipLB hipUB
    rw [hm, hl, if_neg h0, if_neg h0, e]
    refine ⟨_, _, rfl, rfl, ?_, ?_⟩
    · unfold ubOf
      have : (⌈(s.hip : ℝ) / (1 - 6 * (6923 / 10000 / 4))⌉ : ℤ) ≤ -1 := by
        rw [Int.ceil_le]
        push_cast
        rw [div_le_iff_of_neg (by norm_num)]
        norm_num
        linarith
      have h2 : ((⌈(s.hip : ℝ) / (1 - 6 * (6923 / 10000 / 4))⌉ : ℤ) : ℝ) ≤ ((-1 : ℤ) : ℝ) := by
        exact_mod_cast this
      push_cast at h2
      linarith
    · rw [lbOf_eq]
      exact lt_of_lt_of_le hnum (le_max_left _ _)

/-! ## Non-vacuity -/

/-- a sketch of three items, at one and two standard deviations -/
example : ∃ c c' : Sk, newSk 4 9001 = .ok c ∧ run c [(5, 1), (21, 2 ^ 63), (5, 1)] = .ok c' ∧
    Bracket c' 2 1 2 := by
  have hc : newSk 4 9001 = .ok ⟨9001, 4, 0, false, 0, 0, none, none, 2 ^ 4, 0⟩ := rfl
  obtain ⟨c', hr⟩ := C63_accepts hc (by norm_num) (hs := [(5, 1), (21, 2 ^ 63), (5, 1)])
    (by decide +kernel)
  have hcells : cells 4 [(5, 1), (21, 2 ^ 63), (5, 1)] = 2 := by decide +kernel
  refine ⟨_, c', hc, hr, ?_⟩
  have := C102_streamed hc hr (by rw [hcells]; norm_num) (d := 1) (d' := 2) (by norm_num)
    (by norm_num) (by norm_num)
  rwa [hcells] at this

/-- the estimates of 91 and 92 coupons at `lgK = 4` come from the two branches -/
example : iconThreshold 4 * 2 ^ 4 < 92 ∧ (91 : ℝ) < iconThreshold 4 * 2 ^ 4 := by
  unfold iconThreshold
  norm_num

end Verif.Cpc
