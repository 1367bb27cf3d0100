import Verif.HllBounds

/-!
# Property C100: bounds and composite estimate of HLL sketches

`GetLowerBound`, `GetUpperBound`, `GetEstimate`, `GetCompositeEstimate`.  Numbers are exact (rationals
and reals instead of `float64`).
-/

namespace Verif.Hll

/-- The lower bound counts the slots hit. -/
theorem nonZeros_eq {s : Sk ℚ} {lgK : Nat} {typ : Typ} {hs : List (Nat × Nat)} {a : Arr ℚ}
    (h : Shows s lgK typ (coupons hs)) (ha : s = .hll a) (hr : a.rebuild = false) :
    a.nonZeros = slotsHit lgK hs := by
  subst ha
  obtain ⟨hl, _, ⟨_, c, hc, _⟩ | ⟨_, b, hb, _, h4⟩⟩ := h
  · rcases hc with hc | hc <;> cases hc
  · cases hb
    obtain ⟨h5, _⟩ := h4 hr
    have hl : a.lgK = lgK := hl
    have e : a.nonZeros = 2 ^ lgK - a.unhit := by
      unfold Arr.nonZeros Arr.unhit
      rw [hl]
      split <;> simp
    rw [e, h5]
    unfold slotsHit
    have := List.length_eq_countP_add_countP (l := List.range (2 ^ lgK))
      (fun j => decide (0 < regOf lgK (coupons hs) j))
    rw [List.length_range] at this
    have h2 : (List.range (2 ^ lgK)).countP (fun j => decide (regOf lgK (coupons hs) j = 0)) =
        (List.range (2 ^ lgK)).countP (fun j => ¬ decide (0 < regOf lgK (coupons hs) j)) := by
      apply List.countP_congr
      intro j _
      simp
    rw [h2]
    have h3 : ((2 ^ lgK : Nat) : Int) = 2 ^ lgK := by push_cast; rfl
    rw [← h3]
    omega

theorem shows_pos {s : Sk ℚ} {lgK : Nat} {typ : Typ} {hs : List (Nat × Nat)} {a : Arr ℚ}
    (h : Shows s lgK typ (coupons hs)) (ha : s = .hll a) (hr : a.rebuild = false) :
    0 < a.kxq0 + a.kxq1 := by
  subst ha
  obtain ⟨hl, _, ⟨_, c, hc, _⟩ | ⟨_, b, hb, _, h4⟩⟩ := h
  · rcases hc with hc | hc <;> cases hc
  · cases hb
    rw [(h4 hr).2]
    have : ∀ l : List Nat, l ≠ [] →
        0 < (l.map (fun j => (2 : Int) ^ (63 - regOf lgK (coupons hs) j))).sum := by
      intro l hl
      induction l with
      | nil => exact absurd rfl hl
      | cons x l ih =>
        rw [List.map_cons, List.sum_cons]
        have h1 : (0 : Int) < 2 ^ (63 - regOf lgK (coupons hs) x) := by positivity
        by_cases hl' : l = []
        · subst hl'
          simp
        · have := ih hl'
          omega
    apply this
    intro h0
    have := congrArg List.length h0
    rw [List.length_range, List.length_nil] at this
    have := Nat.two_pow_pos lgK
    omega

theorem toReal_ok {x : Outcome ℚ} {q : ℚ} (h : x = .ok q) : toReal x = .ok (q : ℝ) := by
  rw [h]; rfl

/-! ## Sketches of a stream -/

/-- estimate and bounds of the coupons -/
theorem coupons_bracket {n : Nat} (hn : n < 10200000) {d : Int} (h1 : 1 ≤ d) (h3 : d ≤ 3) :
    ∃ lb e ub : ℝ, toReal (couponLower n d) = .ok lb ∧ toReal (couponEst n) = .ok e ∧
      toReal (couponUpper n d) = .ok ub ∧ (n : ℝ) ≤ lb ∧ lb ≤ e ∧ e ≤ ub := by
  obtain ⟨r, e1, e2⟩ := coupon_bounds hn
  obtain ⟨e3, e4⟩ := e2 d h1 h3
  obtain ⟨c1, c2⟩ := couponRse_small h1 h3
  have hn0 : (0 : ℚ) ≤ (n : ℚ) := Nat.cast_nonneg n
  refine ⟨((max (r / (1 + d * couponRse)) n : ℚ) : ℝ), ((max r n : ℚ) : ℝ),
    ((max (r / (1 - d * couponRse)) n : ℚ) : ℝ), by rw [e3]; rfl, by rw [e1]; rfl,
    by rw [e4]; rfl, ?_, ?_, ?_⟩
  · exact_mod_cast le_max_right (r / (1 + d * couponRse)) (n : ℚ)
  · exact_mod_cast scale_down c1 hn0
  · exact_mod_cast scale_up c1 c2 hn0

/-- **C100, order of the bounds.** For a sketch of a stream and one to three standard deviations the
three numbers exist, the lower bound is at least the number of slots hit and at most the estimate,
and the estimate is at most the upper bound. -/
theorem C100_streamed {lgK : Nat} {typ : Typ} (h4 : 4 ≤ lgK) (h21 : lgK ≤ 21)
    {hs : List (Nat × Nat)} {s : Sk ℚ} (h : sketchOf hipFl lgK typ hs = .ok s) {d : Int}
    (h1 : 1 ≤ d) (h3 : d ≤ 3) :
    ∃ lb e ub : ℝ, s.lowerBound d = .ok lb ∧ s.getEstimate = .ok e ∧ s.upperBound d = .ok ub ∧
      (slotsHit lgK hs : ℝ) ≤ lb ∧ lb ≤ e ∧ e ≤ ub := by
  by_cases hm : Keeps lgK (distinct (coupons hs))
  · obtain ⟨c, hc, hn⟩ := streamed_coup h4 h21 h hm
    obtain ⟨lb, e, ub, e1, e2, e3, e4, e5, e6⟩ := coupons_bracket (n := c.count) (by
      rw [hn]; have := keeps_small h21 hm; omega) h1 h3
    have hhit : (slotsHit lgK hs : ℝ) ≤ c.count := by
      rw [slotsHit_eq, hn]
      exact_mod_cast hits_regsOf lgK (coupons hs)
    refine ⟨lb, e, ub, ?_, ?_, ?_, le_trans hhit e4, e5, e6⟩
    · rcases hc with rfl | rfl <;> exact e1
    · rcases hc with rfl | rfl <;> exact e2
    · rcases hc with rfl | rfl <;> exact e3
  · obtain ⟨a, S, e1, e2, e3, e4, e5, e6, e7, e8, e9⟩ := streamed_hip h4 h21 h hm
    have hest : a.getEstimate = .ok (S.hip : ℝ) := by
      unfold Arr.getEstimate
      rw [if_neg (by rw [e4]; simp), e2.hip]
    obtain ⟨rl, ru, _, _, l0, u0, u1, l2, u2⟩ := arr_bounds (by rw [e7]; exact h4)
      (by rw [e7]; exact h21) h1 h3 hest
    have hsh : Shows s lgK typ (coupons hs) := by
      rw [sketchOf_eq] at h
      obtain ⟨g, l, t, _⟩ := run_good h4 h21 (coupons_valid hs) h
      have := g.shows
      rw [l, t] at this
      exact this
    have hz := nonZeros_eq hsh e1 e5
    have hle : ((slotsHit lgK hs : Nat) : ℝ) ≤ (S.hip : ℝ) := by
      rw [slotsHit_eq, ← e8]
      exact_mod_cast e9
    have h0 : (0 : ℝ) ≤ (S.hip : ℝ) := le_trans (Nat.cast_nonneg _) hle
    rw [hz] at l2
    subst e1
    refine ⟨_, _, _, l2, hest, u2, ?_, ?_, le_div_one_sub h0 u0 u1⟩
    · exact_mod_cast le_max_right ((S.hip : ℝ) / (1 + rl)) ((slotsHit lgK hs : Nat) : ℝ)
    · refine max_le (div_one_add_le h0 l0) ?_
      exact_mod_cast hle

/-- **C100, width.** More standard deviations give a lower lower bound and a higher upper bound. -/
theorem C100_wider {s : Sk ℚ} {lgK : Nat} {typ : Typ} {hs : List (Nat × Nat)} (h4 : 4 ≤ lgK)
    (h21 : lgK ≤ 21) (h : Shows s lgK typ (coupons hs)) {e : ℝ} (he : s.getEstimate = .ok e)
    (h0 : 0 ≤ e) {d : Int} (h1 : 1 ≤ d) (h3 : d + 1 ≤ 3) :
    ∃ lb lb' ub ub' : ℝ, s.lowerBound d = .ok lb ∧ s.lowerBound (d + 1) = .ok lb' ∧
      s.upperBound d = .ok ub ∧ s.upperBound (d + 1) = .ok ub' ∧ lb' ≤ lb ∧ ub ≤ ub' := by
  obtain ⟨hl, _, ⟨hk, c, hc, hn, _⟩ | ⟨_, a, ha, _⟩⟩ := h
  · obtain ⟨r, e1, e2⟩ := coupon_bounds (n := c.count) (by
      rw [hn]; have := keeps_small h21 hk; omega)
    obtain ⟨e3, e4⟩ := e2 d h1 (by omega)
    obtain ⟨e5, e6⟩ := e2 (d + 1) (by omega) h3
    obtain ⟨c1, c2⟩ := couponRse_small h1 (by omega)
    obtain ⟨c3, c4⟩ := couponRse_small (d := d + 1) (by omega) h3
    have hcc : (d : ℚ) * couponRse ≤ ((d + 1 : Int) : ℚ) * couponRse := by
      apply mul_le_mul_of_nonneg_right
      · push_cast; linarith
      · unfold couponRse; norm_num
    have hn0 : (0 : ℚ) ≤ (c.count : ℚ) := Nat.cast_nonneg _
    have w1 := scale_wider (r := r) c1 hcc hn0
    have w2 := scale_wider' (r := r) c1 hcc c4 hn0
    have f3 : toReal (couponLower c.count d) = .ok _ := toReal_ok e3
    have f4 : toReal (couponUpper c.count d) = .ok _ := toReal_ok e4
    have f5 : toReal (couponLower c.count (d + 1)) = .ok _ := toReal_ok e5
    have f6 : toReal (couponUpper c.count (d + 1)) = .ok _ := toReal_ok e6
    rcases hc with rfl | rfl
    · exact ⟨_, _, _, _, f3, f5, f4, f6, by exact_mod_cast w1, by exact_mod_cast w2⟩
    · exact ⟨_, _, _, _, f3, f5, f4, f6, by exact_mod_cast w1, by exact_mod_cast w2⟩
  · subst ha
    have hl : a.lgK = lgK := hl
    rw [← hl] at h4 h21
    obtain ⟨rl, ru, l1, u1, l0, u0, u3, l2, u2⟩ := arr_bounds h4 h21 h1 (by omega) he
    obtain ⟨rl', ru', l1', u1', l0', u0', u3', l2', u2'⟩ :=
      arr_bounds h4 h21 (d := d + 1) (by omega) h3 he
    have m1 := relErr_mono h4 h21 false a.ooo h1 h3 l1 l1'
    have m2 := relErr_mono h4 h21 true a.ooo h1 h3 u1 u1'
    refine ⟨_, _, _, _, l2, l2', u2, u2', ?_, ?_⟩
    · apply max_le_max_right
      exact div_le_div_of_nonneg_left h0 (by linarith) (by linarith)
    · exact div_le_div_of_nonneg_left h0 (by linarith) (by linarith)

/-- **C100, arguments.** Any other number of standard deviations is an error, for every sketch. -/
theorem C100_deviations {d : Int} (hd : d < 1 ∨ 3 < d) (s : Sk ℚ) :
    (∃ e, s.lowerBound d = .err e) ∧ ∃ e, s.upperBound d = .err e := by
  obtain ⟨m, hm⟩ := checkDev_err hd
  cases s with
  | list c =>
    constructor
    · refine ⟨m, ?_⟩
      show toReal (couponLower c.count d) = _
      unfold toReal couponLower
      rw [hm]; rfl
    · refine ⟨m, ?_⟩
      show toReal (couponUpper c.count d) = _
      unfold toReal couponUpper
      rw [hm]; rfl
  | set c =>
    constructor
    · refine ⟨m, ?_⟩
      show toReal (couponLower c.count d) = _
      unfold toReal couponLower
      rw [hm]; rfl
    · refine ⟨m, ?_⟩
      show toReal (couponUpper c.count d) = _
      unfold toReal couponUpper
      rw [hm]; rfl
  | hll a =>
    constructor
    · refine ⟨m, ?_⟩
      show a.lowerBound d = _
      unfold Arr.lowerBound
      rw [hm]; rfl
    · refine ⟨m, ?_⟩
      show a.upperBound d = _
      unfold Arr.upperBound
      rw [hm]; rfl

/-! ## The composite estimate -/

/-- **C100, composite estimate.** It exists and is not negative, for every sketch that shows a stream
(sketches of a stream, copies, results of unions). -/
theorem C100_composite {s : Sk ℚ} {lgK : Nat} {typ : Typ} {hs : List (Nat × Nat)} (h4 : 4 ≤ lgK)
    (h21 : lgK ≤ 21) (h : Shows s lgK typ (coupons hs))
    (hr : ∀ a, s = .hll a → a.rebuild = false) :
    ∃ e, s.compositeEstimate = .ok e ∧ 0 ≤ e := by
  cases hsk : s with
  | hll a =>
    have hl : s.lgK = lgK := h.1
    rw [hsk] at hl
    have hl : a.lgK = lgK := hl
    exact compositeEst_ok (by omega) (by omega) (shows_pos h hsk (hr a hsk))
  | list c =>
    obtain ⟨_, _, ⟨hk, c', hc, hn, _⟩ | ⟨_, a, ha, _⟩⟩ := h
    · have hcc : c = c' := by rw [hsk] at hc; rcases hc with hc | hc <;> cases hc; rfl
      subst hcc
      obtain ⟨e, e1, e2⟩ := couponEst_ok (n := c.count) (by
        rw [hn]; have := keeps_small h21 hk; omega)
      refine ⟨(e : ℝ), ?_, ?_⟩
      · show toReal (couponEst c.count) = _
        rw [e1]; rfl
      · exact_mod_cast le_trans (Nat.cast_nonneg c.count) e2
    · rw [hsk] at ha; cases ha
  | set c =>
    obtain ⟨_, _, ⟨hk, c', hc, hn, _⟩ | ⟨_, a, ha, _⟩⟩ := h
    · have hcc : c = c' := by rw [hsk] at hc; rcases hc with hc | hc <;> cases hc; rfl
      subst hcc
      obtain ⟨e, e1, e2⟩ := couponEst_ok (n := c.count) (by
        rw [hn]; have := keeps_small h21 hk; omega)
      refine ⟨(e : ℝ), ?_, ?_⟩
      · show toReal (couponEst c.count) = _
        rw [e1]; rfl
      · exact_mod_cast le_trans (Nat.cast_nonneg c.count) e2
    · rw [hsk] at ha; cases ha

theorem linEst_unhit {a b : Arr ℚ} (h : a.unhit = b.unhit) (lgK : Nat) :
    linEst lgK a.curMin a.num = linEst lgK b.curMin b.num := by
  unfold Arr.unhit at h
  unfold linEst
  rw [h]

/-- **C100, composite estimate and stream.** The composite estimate depends on the items only: it is
the same for two sketches that show the same items, whatever their order, the register widths, and
whether they come from one stream, a copy or a union. -/
theorem C100_composite_same {s t : Sk ℚ} {lgK : Nat} {typ typ' : Typ} {hs ks : List (Nat × Nat)}
    (h : Shows s lgK typ (coupons hs)) (hr : ∀ a, s = .hll a → a.rebuild = false)
    (k : Shows t lgK typ' (coupons ks)) (kr : ∀ a, t = .hll a → a.rebuild = false)
    (hm : ∀ x, x ∈ hs ↔ x ∈ ks) : s.compositeEstimate = t.compositeEstimate := by
  have k' : Shows t lgK typ' (coupons hs) := k.congr (fun x => by
    unfold coupons
    simp only [List.mem_map, hm])
  obtain ⟨hl, _, ⟨h1, c, hc, hn, _⟩ | ⟨h1, a, ha, _, hf⟩⟩ := h
  · obtain ⟨_, _, ⟨_, c', hc', hn', _⟩ | ⟨k1, _⟩⟩ := k'
    · have e1 : s.compositeEstimate = toReal (couponEst (distinct (coupons hs))) := by
        rw [← hn]; rcases hc with rfl | rfl <;> rfl
      have e2 : t.compositeEstimate = toReal (couponEst (distinct (coupons hs))) := by
        rw [← hn']; rcases hc' with rfl | rfl <;> rfl
      rw [e1, e2]
    · exact absurd h1 k1
  · obtain ⟨kl, _, ⟨k1, _⟩ | ⟨_, b, hb, _, kf⟩⟩ := k'
    · exact absurd k1 h1
    · subst ha
      subst hb
      obtain ⟨f1, f2⟩ := hf (hr a rfl)
      obtain ⟨f3, f4⟩ := kf (kr b rfl)
      have hl : a.lgK = lgK := hl
      have kl : b.lgK = lgK := kl
      show a.compositeEst = b.compositeEst
      unfold Arr.compositeEst chooseEst
      simp only [linEst_unhit (f1.trans f3.symm), hl, kl, f2, f4]

/-- **C100, unions (partial).** The result of a union that merged register-mode sketches (of the
union's `lgK`): estimate and bounds exist, the lower bound is at least the number of slots hit, and
`0 ≤ estimate ≤ upper bound`.

Missing for the full statement: lower bound ≤ estimate, which is false (`C100_lower_above`). -/
theorem C100_union_partial {lgMaxK : Nat} (h4 : 4 ≤ lgMaxK) (h21 : lgMaxK ≤ 21)
    {ins : List (Input ℚ)} (hin : ∀ i ∈ ins, i.Ok hipFl lgMaxK) {u v : Union ℚ} {typ : Typ}
    {r : Sk ℚ} (hu : unionOf hipFl lgMaxK ins = .ok u) (hr : u.getResult hipFl typ = .ok (v, r))
    {a : Arr ℚ} (ha : r = .hll a) (ho : a.ooo = true) {d : Int} (h1 : 1 ≤ d) (h3 : d ≤ 3) :
    ∃ lb e ub : ℝ, r.lowerBound d = .ok lb ∧ r.getEstimate = .ok e ∧ r.upperBound d = .ok ub ∧
      (slotsHit lgMaxK (ins.flatMap Input.hashes) : ℝ) ≤ lb ∧ 0 ≤ e ∧ e ≤ ub := by
  obtain ⟨u', e1, _, e3⟩ := C30_union_partial hipFl h4 h21 hin typ
  rw [hu] at e1
  cases e1
  rcases e3 with ⟨_, v', r', f1, f2, _, f4⟩ | ⟨_, _, f1⟩
  · rw [hr] at f1
    cases f1
    obtain ⟨e, g1, g2⟩ := C100_composite h4 h21 f2 f4
    subst ha
    have hz := nonZeros_eq f2 rfl (f4 a rfl)
    have hl : a.lgK = lgMaxK := f2.1
    have hest : a.getEstimate = .ok e := by
      unfold Arr.getEstimate
      rw [if_pos ho]
      exact g1
    obtain ⟨rl, ru, _, _, l0, u0, u1, l2, u2⟩ := arr_bounds (by omega) (by omega) h1 h3 hest
    rw [hz] at l2
    refine ⟨_, _, _, l2, hest, u2, ?_, g2, le_div_one_sub g2 u0 u1⟩
    exact_mod_cast le_max_right (e / (1 + rl))
      ((slotsHit lgMaxK (ins.flatMap Input.hashes) : Nat) : ℝ)
  · rw [hr] at f1; cases f1

/-! ## The violation -/

/-- ten items that hit ten slots of sixteen with value 1, twice in the union -/
def tenItems : List (Nat × Nat) := (List.range 10).map (fun i => hashFor i 1)

/-- the result of the union of two sketches of these items -/
def tenResult : Outcome (Sk ℚ) := do
  let s ← sketchOf hipFl 4 .hll8 tenItems
  let u ← newUnion 4
  let u ← u.updateSketch hipFl s
  let u ← u.updateSketch hipFl s
  let (_, r) ← u.getResult hipFl .hll8
  .ok r

theorem ten_fields : (do
    let r ← tenResult
    match r with
    | .hll a => .ok (a.lgK, a.ooo, a.kxq0 + a.kxq1, a.curMin, a.num)
    | _ => .panic : Outcome (Nat × Bool × Int × Nat × Int)) =
    .ok (4, true, 11 * 2 ^ 63, 0, 6) := by
  decide +kernel

/-- the interpolation for these registers, with the two range checks before it -/
def tenAdj : Outcome (ℚ × Bool) := do
  let xs ← xArr 4
  let l ← Outcome.ofOption xs[0]?
  let r ← Outcome.ofOption xs[xs.length - 1]?
  let v ← usingXArrAndYStride xs 1 (rawEst 4 11)
  .ok (v, decide (¬ rawEst 4 11 < l) && decide (¬ rawEst 4 11 > r))

theorem ten_adj : (match tenAdj with
    | .ok (v, b) => b && decide (9 < v) && decide (v < 10)
    | _ => false) = true := by
  decide +kernel

theorem ten_lin : linEst 4 0 6 = 134159 / 9009 := by
  unfold linEst bitMapEst harmonicNumber
  have h6 : Int.toNat 6 = 6 := rfl
  norm_num [harmonicTab, h6]

theorem ten_composite {a : Arr ℚ} (h1 : a.lgK = 4) (h2 : a.kxq0 + a.kxq1 = 11 * 2 ^ 63)
    (h3 : a.curMin = 0) (h4 : a.num = 6) : ∃ e, a.compositeEst = .ok e ∧ e < 10 := by
  have hk := ten_adj
  unfold tenAdj at hk
  obtain ⟨t, ht, hl, hg, _⟩ := tables_ok 4 (by omega) (by omega)
  have hx : xArr 4 = .ok (scaled t) := by unfold xArr; rw [ht]; rfl
  rw [hx, Outcome.ok_bind, ofOption_getD (by rw [scaled_length, hl]; omega), Outcome.ok_bind,
    ofOption_getD (by rw [scaled_length, hl]; omega), Outcome.ok_bind] at hk
  have hs : yStride 4 = .ok 1 := by simp [yStride, yStrides, Outcome.ofOption]
  unfold Arr.compositeEst
  simp only []
  have hq : ((a.kxq0 + a.kxq1 : Int) : ℚ) / 2 ^ 63 = 11 := by rw [h2]; norm_num
  rw [hq, h1, hx, Outcome.ok_bind, hs, Outcome.ok_bind, ofOption_getD (by rw [scaled_length, hl]; omega),
    Outcome.ok_bind]
  cases hv : usingXArrAndYStride (scaled t) 1 (rawEst 4 11) with
  | err m => rw [hv] at hk; simp [Outcome.err_bind] at hk
  | panic => rw [hv] at hk; simp [Outcome.panic_bind] at hk
  | ok v =>
    rw [hv, Outcome.ok_bind] at hk
    simp only [Bool.and_eq_true, decide_eq_true_eq] at hk
    obtain ⟨⟨⟨k1, k2⟩, k3⟩, k4⟩ := hk
    rw [if_neg k1, ofOption_getD (by rw [scaled_length, hl]; omega), Outcome.ok_bind, if_neg k2,
      Outcome.ok_bind]
    refine ⟨_, rfl, ?_⟩
    have r3 : (9 : ℝ) < (v : ℝ) := by exact_mod_cast k3
    have r4 : (v : ℝ) < 10 := by exact_mod_cast k4
    unfold chooseEst
    rw [if_neg (by norm_num; linarith), h3, h4, ten_lin, if_pos]
    · exact r4
    · unfold crossOver
      norm_num
      linarith

/-- **C100 is violated** for results of unions: two sketches of the same ten items hit ten of sixteen
slots, the lower bound is at least ten, and the estimate is below ten. -/
theorem C100_lower_above : ∃ (s : Sk ℚ) (u v : Union ℚ) (r : Sk ℚ),
    sketchOf hipFl 4 .hll8 tenItems = .ok s ∧
    unionOf hipFl 4 [.sketch s 4 .hll8 tenItems, .sketch s 4 .hll8 tenItems] = .ok u ∧
    u.getResult hipFl .hll8 = .ok (v, r) ∧
    ∃ lb e : ℝ, r.lowerBound 1 = .ok lb ∧ r.getEstimate = .ok e ∧ e < 10 ∧ 10 ≤ lb := by
  have hf := ten_fields
  unfold tenResult at hf
  cases h1 : sketchOf hipFl 4 .hll8 tenItems with
  | err m => rw [h1] at hf; simp [Outcome.err_bind] at hf
  | panic => rw [h1] at hf; simp [Outcome.panic_bind] at hf
  | ok s =>
    rw [h1, Outcome.ok_bind] at hf
    cases h2 : (newUnion 4 : Outcome (Union ℚ)) with
    | err m => rw [h2] at hf; simp [Outcome.err_bind] at hf
    | panic => rw [h2] at hf; simp [Outcome.panic_bind] at hf
    | ok u0 =>
      rw [h2, Outcome.ok_bind] at hf
      cases h3 : u0.updateSketch hipFl s with
      | err m => rw [h3] at hf; simp [Outcome.err_bind] at hf
      | panic => rw [h3] at hf; simp [Outcome.panic_bind] at hf
      | ok u1 =>
        rw [h3, Outcome.ok_bind] at hf
        cases h4 : u1.updateSketch hipFl s with
        | err m => rw [h4] at hf; simp [Outcome.err_bind] at hf
        | panic => rw [h4] at hf; simp [Outcome.panic_bind] at hf
        | ok u =>
          rw [h4, Outcome.ok_bind] at hf
          cases h5 : u.getResult hipFl .hll8 with
          | err m => rw [h5] at hf; simp [Outcome.err_bind] at hf
          | panic => rw [h5] at hf; simp [Outcome.panic_bind] at hf
          | ok w =>
            obtain ⟨v, r⟩ := w
            rw [h5, Outcome.ok_bind, Outcome.ok_bind] at hf
            cases r with
            | list c => simp at hf
            | set c => simp at hf
            | hll a =>
              simp only [Outcome.ok.injEq, Prod.mk.injEq] at hf
              obtain ⟨f1, f2, f3, f4, f5⟩ := hf
              refine ⟨s, u, v, .hll a, rfl, ?_, h5, ?_⟩
              · unfold unionOf
                rw [h2, Outcome.ok_bind]
                show (u0.updateSketch hipFl s >>= fun u => u.updateSketch hipFl s >>= fun u =>
                  Outcome.ok u) = _
                rw [h3, Outcome.ok_bind, h4, Outcome.ok_bind]
              · obtain ⟨e, e1, e2⟩ := ten_composite f1 f3 f4 f5
                have hest : a.getEstimate = .ok e := by
                  unfold Arr.getEstimate
                  rw [if_pos f2, e1]
                obtain ⟨rl, ru, _, _, _, _, _, l2, _⟩ := arr_bounds (a := a) (d := 1) (by omega)
                  (by omega) (by omega) (by omega) hest
                refine ⟨_, e, l2, hest, e2, ?_⟩
                have hz : a.nonZeros = 10 := by
                  unfold Arr.nonZeros
                  rw [if_pos f4, f1, f5]
                  norm_num
                rw [hz]
                exact_mod_cast le_max_right (e / (1 + rl)) ((10 : Int) : ℝ)

/-! ## Cases that meet the hypotheses -/

/-- a sketch of ten items in register mode with its estimate and bounds; wider ones; composite -/
example : ∃ s e, sketchOf hipFl 4 .hll6 tenItems = .ok s ∧ s.getEstimate = .ok e ∧ (10 : ℝ) ≤ e ∧
    Shows s 4 .hll6 (coupons tenItems) ∧ (∀ a, s = .hll a → a.rebuild = false) ∧
    ∃ a, s = .hll a := by
  obtain ⟨s, h, hsh⟩ := C28_never_fails hipFl (lgK := 4) (typ := .hll6) (by simp) (by omega)
    (by omega) tenItems
  obtain ⟨lb, e, ub, _, h2, _, h4, h5, _⟩ := C100_streamed (by omega) (by omega) h (d := 2)
    (by omega) (by omega)
  have hm : ¬ Keeps 4 (distinct (coupons tenItems)) := by decide +kernel
  obtain ⟨a, S, e1, _, _, _, e5, _⟩ := streamed_hip (by omega) (by omega) h hm
  have hten : slotsHit 4 tenItems = 10 := by decide +kernel
  rw [hten] at h4
  refine ⟨s, e, h, h2, by push_cast at h4; linarith, hsh, ?_, a, e1⟩
  intro b hb
  rw [e1] at hb
  cases hb
  exact e5

/-- the union of the violation meets the hypotheses of the theorem on unions -/
example : ∃ s u v r a, (∀ i ∈ [Input.sketch s 4 .hll8 tenItems, .sketch s 4 .hll8 tenItems],
      i.Ok hipFl 4) ∧
    unionOf hipFl 4 [.sketch s 4 .hll8 tenItems, .sketch s 4 .hll8 tenItems] = .ok u ∧
    u.getResult hipFl .hll8 = .ok (v, r) ∧ r = .hll a := by
  obtain ⟨s, u, v, r, h1, h2, h3, _⟩ := C100_lower_above
  have hin : ∀ i ∈ [Input.sketch s 4 .hll8 tenItems, .sketch s 4 .hll8 tenItems],
      i.Ok hipFl 4 := by
    intro i hi
    have : i = .sketch s 4 .hll8 tenItems := by simpa using hi
    subst this
    exact ⟨by omega, by omega, h1, Or.inr rfl⟩
  obtain ⟨u', e1, _, e3⟩ := C30_union_partial hipFl (lgMaxK := 4) (by omega) (by omega) hin .hll8
  rw [h2] at e1
  cases e1
  rcases e3 with ⟨_, v', r', f1, f2, _⟩ | ⟨_, _, f1⟩
  · rw [h3] at f1
    cases f1
    obtain ⟨_, _, ⟨hk, _⟩ | ⟨_, a, ha, _⟩⟩ := f2
    · have hk' : Keeps 4 (distinct (coupons (tenItems ++ (tenItems ++ [])))) := hk
      exact absurd hk' (by decide +kernel)
    · exact ⟨s, u, v, r, a, hin, h2, h3, ha⟩
  · rw [h3] at f1; cases f1

end Verif.Hll
