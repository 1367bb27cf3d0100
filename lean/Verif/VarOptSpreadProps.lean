import Verif.VarOptHeavy

/-!
# C117: spread of the estimates of the VarOpt sketch

`Rand.All`: for whatever the random generator returns.  `Rand.HasE` / `Rand.HasProb`: on average
over independent uniform draws (see `Verif.Rand`).
-/

namespace Verif.VarOpt

open Rand

variable {T : Type}

/-- The field `Estimate` of `EstimateSubsetSum`. -/
def estimateOf (p : T → Bool) (s : Sk T) : ℚ :=
  match estimateSubsetSum s p with
  | .ok r => r.1
  | _ => 0

/-- Whether `All` lists the item. -/
def listed [DecidableEq T] (x : T) (s : Sk T) : Prop :=
  ∃ samples w, s.all = .ok samples ∧ (x, w) ∈ samples

theorem sample_eq_insertAll {k : Nat} (h1 : 1 ≤ k) (h2 : k ≤ 2 ^ 31 - 2) (stream : List (T × ℚ)) :
    sample k stream = insertAll false ⟨[], false, k, 0, 0, 0, 0, 0, 0⟩ stream := by
  unfold sample
  rw [new_ok h1 h2, ofOutcome_ok, ret_bind]
  rfl

/-- What is known about the sketch of a stream that does not fit. -/
theorem sample_full {k : Nat} (h1 : 1 ≤ k) (h2 : k ≤ 2 ^ 31 - 2) {stream : List (T × ℚ)}
    (hw : ∀ q ∈ stream, 0 < q.2) (hk : k < stream.length) :
    All (fun s => s.k = k ∧ Valid s ∧ Cov s stream ∧ ∃ e, EstI s stream e ∧
      e (fun _ => true) = psumOf (fun _ => true) stream) (sample k stream) := by
  have hcov : All (fun s => Cov s ([] ++ stream)) (sample k stream) := by
    rw [sample_eq_insertAll h1 h2]
    exact insertAll_cov false stream (Or.inl (new_warm (T := T) h1)) (Or.inl ⟨rfl, rfl⟩) hw
  refine ((sample_spec h1 h2 hw).1.and hcov).mono fun s hs => ?_
  obtain ⟨i, hc⟩ := hs
  rw [List.nil_append] at hc
  obtain ⟨e', hi, he⟩ := i.inv
  have hn : s.n = stream.length := by rw [i.n]; simp
  rw [List.nil_append] at hi
  have v : Valid s := hi.valid (by rw [hn])
  refine ⟨i.k, v, hc, e', ?_, by rw [he, zero_add]⟩
  rcases hi with w | h
  · exfalso
    have h3 := (i.warm w.r0).1
    have h4 := w.len
    rw [h3] at h4
    simp at h4
    have h5 := w.le
    have h6 : s.k = k := i.k
    omega
  · exact h

/-- C117: once more than `k` items were seen the threshold is the solution of
`sum of min(w, tau) = k tau`, and every item heavier than it is in the sample with its own weight. -/
theorem C117_heavy {k : Nat} (h1 : 1 ≤ k) (h2 : k ≤ 2 ^ 31 - 2) (stream : List (T × ℚ))
    (hw : ∀ q ∈ stream, 0 < q.2) (hk : k < stream.length) :
    All (fun s => ∃ tau samples,
        s.tau = some tau ∧ 0 < tau ∧
        (stream.map fun q => min q.2 tau).sum = k * tau ∧
        s.all = .ok samples ∧
        List.Subperm (stream.filter fun q => decide (tau < q.2)) samples)
      (sample k stream) := by
  refine (sample_full h1 h2 hw hk).mono fun s hs => ?_
  obtain ⟨hsk, v, hc, e, he, ht⟩ := hs
  have htau := hc.tau he ht
  rw [hsk] at htau
  refine ⟨s.totalWeightR / s.r, s.samples, ?_, htau.1, htau.2, v.all_ok, ?_⟩
  · unfold Sk.tau
    rw [if_neg he.r_ne]
  · rcases hc with h' | ⟨_, hc⟩
    · exact absurd h'.1 he.r_ne
    · refine hc.symm.subperm.trans ?_
      refine List.Subperm.trans (List.filter_sublist.subperm) ?_
      unfold Sk.samples
      exact (List.sublist_append_left _ _).subperm

/-- C117: the threshold does not depend on the draws: its equation has one solution. -/
theorem C117_threshold_unique {k : Nat} {stream : List (T × ℚ)} (hw : ∀ q ∈ stream, 0 < q.2)
    (hk : k < stream.length) {a b : ℚ} (ha : 0 < a) (hb : 0 < b)
    (ea : (stream.map fun q => min q.2 a).sum = k * a)
    (eb : (stream.map fun q => min q.2 b).sum = k * b) : a = b :=
  IsTau.unique hw hk ⟨ha, ea⟩ ⟨hb, eb⟩

/-- The terms of the squares that are not proportional to the estimate. -/
theorem sq_split (p : T → Bool) {s : Sk T} {src src' : List (T × ℚ)} {e : (T → Bool) → ℚ}
    (h : EstI s src' e) (hc : Cov s src) :
    sqOf p s.samples = s.totalWeightR / s.r * est p s
      + (src.map fun q => if p q.1 then q.2 * max (q.2 - s.totalWeightR / s.r) 0 else 0).sum := by
  rcases hc with h' | ⟨_, hc⟩
  · exact absurd h'.1 h.r_ne
  obtain ⟨H, g, R, rest, rw', c⟩ := h
  rw [c.hSlots_eq] at hc
  rw [est_psum, c.samples_eq, sqOf_append, psumOf_append, sqOf_const, psumOf_const]
  have hge : ∀ q ∈ pairs H, s.totalWeightR / s.r ≤ q.2 := by
    intro q hq
    obtain ⟨y, hy, rfl⟩ := List.mem_map.1 hq
    exact c.hge y hy
  set tau := s.totalWeightR / s.r with htau
  have h0 : ∀ q : T × ℚ, q.2 ≤ tau → (if p q.1 then q.2 * max (q.2 - tau) 0 else 0) = 0 := by
    intro q hq
    rw [max_eq_right (by linarith), mul_zero, ite_self]
  rw [sum_above (tau := tau) (l := src) fun q _ => h0 q]
  have h1 : ((above tau src).map fun q => if p q.1 then q.2 * max (q.2 - tau) 0 else 0).sum
      = ((pairs H).map fun q => if p q.1 then q.2 * max (q.2 - tau) 0 else 0).sum := by
    rw [sum_above (tau := tau) (l := pairs H) fun q _ => h0 q]
    exact ((hc.map _).sum_eq).symm
  rw [h1]
  have h2 : ∀ l : List (T × ℚ), (∀ q ∈ l, tau ≤ q.2) →
      sqOf p l = tau * psumOf p l
        + (l.map fun q => if p q.1 then q.2 * max (q.2 - tau) 0 else 0).sum := by
    intro l
    induction l with
    | nil => intro _; simp [sqOf, psumOf]
    | cons q l ih =>
      intro hl
      have h3 := hl q (by simp)
      rw [sqOf_cons, psumOf_cons, List.map_cons, List.sum_cons,
        ih fun q' h' => hl q' (by simp [h'])]
      split
      · rw [max_eq_left (by linarith)]
        ring
      · ring
  rw [h2 (pairs H) hge]
  ring

/-- The bound of the mean square. -/
theorem spread_sum (p : T → Bool) (tau : ℚ) (l : List (T × ℚ)) :
    tau * psumOf p l - sqOf p l
        + (l.map fun q => if p q.1 then q.2 * max (q.2 - tau) 0 else 0).sum
      = ((l.filter fun q => p q.1).map fun q => q.2 * max (tau - q.2) 0).sum := by
  induction l with
  | nil => simp [sqOf, psumOf]
  | cons q l ih =>
    rw [sqOf_cons, psumOf_cons, List.map_cons, List.sum_cons]
    by_cases hp : p q.1 = true
    · rw [List.filter_cons_of_pos (by exact hp), List.map_cons, List.sum_cons, ← ih, if_pos hp,
        if_pos hp, if_pos hp]
      rcases le_total q.2 tau with h | h
      · rw [max_eq_right (a := q.2 - tau) (by linarith), max_eq_left (a := tau - q.2) (by linarith)]
        ring
      · rw [max_eq_left (a := q.2 - tau) (by linarith), max_eq_right (a := tau - q.2) (by linarith)]
        ring
    · rw [List.filter_cons_of_neg (by exact hp), ← ih, if_neg hp, if_neg hp, if_neg hp]
      ring

theorem sample_total {k : Nat} (h1 : 1 ≤ k) (h2 : k ≤ 2 ^ 31 - 2) {stream : List (T × ℚ)}
    (hw : ∀ q ∈ stream, 0 < q.2) : Total (sample k stream) := by
  rw [sample_eq_insertAll h1 h2]
  exact (insertAll_prs false (fun _ => true) stream (Or.inl (new_warm (T := T) h1)) hw).2

theorem estimateOf_eq {k : Nat} (h1 : 1 ≤ k) (h2 : k ≤ 2 ^ 31 - 2) {stream : List (T × ℚ)}
    (hw : ∀ q ∈ stream, 0 < q.2) (p : T → Bool) :
    All (fun s => estimateOf p s = est p s) (sample k stream) := by
  refine (sample_spec h1 h2 hw).1.mono fun s i => ?_
  obtain ⟨e', hi, he⟩ := i.inv
  rw [List.nil_append] at hi
  have v : Valid s := hi.valid (by rw [i.n]; simp)
  unfold estimateOf
  rw [v.estimate p]

/-- C117: the mean square of the error of `EstimateSubsetSum` is at most the sum of
`w (tau - w)` over the matching items lighter than the threshold: no more than if every item were
kept or dropped on its own.  Items above the threshold contribute nothing. -/
theorem C117_spread {k : Nat} (h1 : 1 ≤ k) (h2 : k ≤ 2 ^ 31 - 2) (stream : List (T × ℚ))
    (hw : ∀ q ∈ stream, 0 < q.2) (hk : k < stream.length) (p : T → Bool) {tau : ℚ} (htau : 0 < tau)
    (heq : (stream.map fun q => min q.2 tau).sum = k * tau) :
    ∃ v, HasE (fun s => (estimateOf p s - weightOf p stream) ^ 2) (sample k stream) v ∧
      v ≤ ((stream.filter fun q => p q.1).map fun q => q.2 * max (tau - q.2) 0).sum := by
  obtain ⟨v, hv⟩ := sample_total h1 h2 hw fun s => (estimateOf p s - weightOf p stream) ^ 2
  refine ⟨v, hv, ?_⟩
  have hE := (sample_spec h1 h2 hw).2 p
  have hP : ELe (prs p) (sample k stream) (psumOf p stream ^ 2 - sqOf p stream) := by
    rw [sample_eq_insertAll h1 h2]
    have := (insertAll_prs false p stream (Or.inl (new_warm (T := T) h1)) hw).1
    refine this.mono (le_of_eq ?_)
    have e1 : est p (⟨[], false, k, 0, 0, 0, 0, 0, 0⟩ : Sk T) = 0 := rfl
    have e2 : prs p (⟨[], false, k, 0, 0, 0, 0, 0, 0⟩ : Sk T) = 0 := by
      unfold prs
      rw [e1]
      simp [sqOf, Sk.samples, Sk.hSlots]
    rw [e1, e2]
    ring
  have h3 := hP.add (hE.affine (tau - 2 * weightOf p stream)
    ((stream.map fun q => if p q.1 then q.2 * max (q.2 - tau) 0 else 0).sum
      + weightOf p stream ^ 2)).eLe
  have h4 := ELe.of_le (g := fun s => (estimateOf p s - weightOf p stream) ^ 2) h3
    (((sample_full h1 h2 hw hk).and (estimateOf_eq h1 h2 hw p)).mono fun s hs => ?_)
  · refine (h4.le hv).trans (le_of_eq ?_)
    rw [← spread_sum p tau stream, ← psumOf_eq]
    ring
  · obtain ⟨⟨hsk, v', hc, e, he, ht⟩, hes⟩ := hs
    have h5 := hc.tau he ht
    rw [hsk] at h5
    have h6 : s.totalWeightR / s.r = tau := IsTau.unique hw hk h5 ⟨htau, heq⟩
    have h7 := sq_split p he hc
    rw [h6] at h7
    rw [hes]
    unfold prs
    rw [h7]
    refine le_of_eq ?_
    ring

/-- C117: the probability that an estimate is off by `d` or more (Chebyshev). -/
theorem C117_tail {k : Nat} (h1 : 1 ≤ k) (h2 : k ≤ 2 ^ 31 - 2) (stream : List (T × ℚ))
    (hw : ∀ q ∈ stream, 0 < q.2) (hk : k < stream.length) (p : T → Bool) {tau : ℚ} (htau : 0 < tau)
    (heq : (stream.map fun q => min q.2 tau).sum = k * tau) {d : ℚ} (hd : 0 < d) :
    ∃ x, HasProb (fun s => d ≤ |estimateOf p s - weightOf p stream|) (sample k stream) x ∧
      x ≤ ((stream.filter fun q => p q.1).map fun q => q.2 * max (tau - q.2) 0).sum / d ^ 2 := by
  obtain ⟨v, hv, hle⟩ := C117_spread h1 h2 stream hw hk p htau heq
  refine chebyshev (sample_total h1 h2 hw) _ hd ?_ ((sample_full h1 h2 hw hk).mono fun _ _ => trivial)
  rw [ex_eq _ hv]
  exact hle

/-- C117: an item that occurs once, with weight `w`, is in the sample with probability
`min(1, w / tau)`. -/
theorem C117_inclusion [DecidableEq T] {k : Nat} (h1 : 1 ≤ k) (h2 : k ≤ 2 ^ 31 - 2)
    (stream : List (T × ℚ)) (hw : ∀ q ∈ stream, 0 < q.2) (hk : k < stream.length)
    {tau : ℚ} (htau : 0 < tau) (heq : (stream.map fun q => min q.2 tau).sum = k * tau)
    {x : T} {w : ℚ} (hx : (stream.filter fun q => q.1 == x) = [(x, w)])
    [DecidablePred (listed (T := T) x)] :
    HasProb (listed x) (sample k stream) (min 1 (w / tau)) := by
  have hwpos : 0 < w := by
    have : (x, w) ∈ stream := (List.mem_filter.1 (by rw [hx]; simp : (x, w) ∈ stream.filter fun q => q.1 == x)).1
    exact hw _ this
  have hmx : 0 < max w tau := lt_of_lt_of_le htau (le_max_right _ _)
  have hE := ((sample_spec h1 h2 hw).2 fun y => y == x).affine (1 / max w tau) 0
  have hwx : weightOf (fun y => y == x) stream = w := by
    unfold weightOf
    rw [hx]
    simp
  rw [hwx, add_zero] at hE
  have hval : 1 / max w tau * w = min 1 (w / tau) := by
    rcases le_total w tau with h | h
    · rw [max_eq_right h, min_eq_right (by rw [div_le_one htau]; exact h)]
      ring
    · rw [max_eq_left h, min_eq_left (by rw [le_div_iff₀ htau, one_mul]; exact h)]
      field_simp
  rw [hval] at hE
  unfold HasProb
  refine hE.congr (((C117_heavy h1 h2 stream hw hk).and
    ((C40_threshold h1 h2 stream hw hk))).mono fun s hs => ?_)
  obtain ⟨⟨t0, smp, e1, e2, e3, e4, _⟩, t1, heavy, light, g1, g2, _, g4, g5, g6⟩ := hs
  have ht0 : t0 = tau := IsTau.unique hw hk ⟨e2, e3⟩ ⟨htau, heq⟩
  rw [g1] at e1
  have ht1 : t1 = tau := by rw [← ht0]; exact (Option.some.inj e1)
  subst ht1
  rw [e4] at g2
  have hsmp : smp = heavy ++ light.map fun q => (q.1, t1) := Outcome.ok.inj g2
  have hsam : s.samples = smp := by
    unfold Sk.all at e4
    split at e4
    · exact Outcome.ok.inj e4
    · exact absurd e4 (by simp)
  have hest : est (fun y => y == x) s
      = ((heavy.filter fun q => q.1 == x).map Prod.snd).sum
        + t1 * (light.filter fun q => q.1 == x).length := by
    rw [est_eq_weightOf, hsam, hsmp]
    unfold weightOf
    rw [List.filter_append, List.map_append, List.sum_append]
    congr 1
    rw [List.filter_map, List.map_map]
    have : (Prod.snd ∘ fun q : T × ℚ => (q.1, t1)) = fun _ => t1 := rfl
    rw [this, List.map_const', List.sum_replicate, nsmul_eq_mul, mul_comm]
    rfl
  have hsub : List.Subperm (heavy.filter (fun q => q.1 == x) ++ light.filter (fun q => q.1 == x))
      [(x, w)] := by
    rw [← List.filter_append, ← hx]
    exact g4.filter _
  have hmem : ∀ q : T × ℚ, q ∈ heavy.filter (fun q => q.1 == x) ++ light.filter (fun q => q.1 == x) →
      q = (x, w) := fun q hq => List.mem_singleton.1 (hsub.subset hq)
  have hlen := hsub.length_le
  rw [List.length_append, List.length_singleton] at hlen
  have hlisted : listed x s ↔ (heavy.filter (fun q => q.1 == x) ++ light.filter fun q => q.1 == x) ≠ [] := by
    constructor
    · rintro ⟨smp', w', hs', hm'⟩
      rw [e4] at hs'
      have : smp = smp' := Outcome.ok.inj hs'
      rw [← this, hsmp] at hm'
      intro hnil
      rw [List.append_eq_nil_iff, List.filter_eq_nil_iff, List.filter_eq_nil_iff] at hnil
      rcases List.mem_append.1 hm' with hm' | hm'
      · exact hnil.1 _ hm' (by simp)
      · obtain ⟨q, hq, hq'⟩ := List.mem_map.1 hm'
        have : q.1 = x := (Prod.mk.inj hq').1
        exact hnil.2 q hq (by simp [this])
    · intro hne
      obtain ⟨q, hq⟩ := List.exists_mem_of_ne_nil _ hne
      have hqx := hmem q hq
      rcases List.mem_append.1 hq with hq | hq
      · refine ⟨smp, q.2, e4, ?_⟩
        rw [hsmp]
        have := (List.mem_filter.1 hq).1
        rw [hqx] at this ⊢
        exact List.mem_append_left _ this
      · refine ⟨smp, t1, e4, ?_⟩
        rw [hsmp]
        refine List.mem_append_right _ (List.mem_map.2 ⟨q, (List.mem_filter.1 hq).1, ?_⟩)
        rw [hqx]
  rw [hest]
  rcases hh : heavy.filter (fun q => q.1 == x) with _ | ⟨a, t⟩
  · rcases hl : light.filter (fun q => q.1 == x) with _ | ⟨b, t'⟩
    · rw [if_neg (by rw [hlisted, hh, hl]; simp), hh, hl]
      simp
    · rw [hh, hl] at hlen hmem
      have hb := hmem b (by simp)
      have ht' : t' = [] := List.length_eq_zero_iff.1 (by simp only [List.length_nil, List.length_cons] at hlen; omega)
      have hbl := g6 b (List.mem_filter.1 (by rw [hl]; simp : b ∈ light.filter fun q => q.1 == x)).1
      rw [hb] at hbl
      rw [if_pos (by rw [hlisted, hh, hl]; simp), hh, hl, ht', max_eq_right hbl]
      simp only [List.map_nil, List.sum_nil, List.length_singleton]
      field_simp
      simp
  · rw [hh] at hlen hmem
    have ha := hmem a (by simp)
    rw [List.length_cons] at hlen
    have ht : t = [] := List.length_eq_zero_iff.1 (by omega)
    have hl : light.filter (fun q => q.1 == x) = [] := List.length_eq_zero_iff.1 (by omega)
    have hah := g5 a (List.mem_filter.1 (by rw [hh]; simp : a ∈ heavy.filter fun q => q.1 == x)).1
    rw [ha] at hah
    rw [if_pos (by rw [hlisted, hh]; simp), hh, hl, ht, ha, max_eq_left hah]
    simp only [List.map_cons, List.map_nil, List.sum_cons, List.sum_nil, List.length_nil]
    have : w ≠ 0 := ne_of_gt hwpos
    field_simp
    simp

/-! ## The hypotheses can be met

Four items of weights 1, 1, 100, 2 and two samples: the threshold is 4, so the item of weight 100
stays and the other three share one sample. -/

example : (0 : ℚ) < 4 ∧ ([((1 : Nat), (1 : ℚ)), (2, 1), (3, 100), (4, 2)].map
    fun q => min q.2 (4 : ℚ)).sum = (2 : Nat) * 4 := by norm_num

example := C117_heavy (k := 2) (by decide) (by decide) _ example_weights (by decide)

example : ∃ v, HasE (fun s => (estimateOf (fun x : Nat => decide (x < 4)) s
      - weightOf (fun x : Nat => decide (x < 4)) [((1 : Nat), (1 : ℚ)), (2, 1), (3, 100), (4, 2)]) ^ 2)
    (sample 2 [((1 : Nat), (1 : ℚ)), (2, 1), (3, 100), (4, 2)]) v ∧ v ≤ 6 := by
  obtain ⟨v, h, hle⟩ := C117_spread (k := 2) (by decide) (by decide) _ example_weights (by decide)
    (fun x => decide (x < 4)) (tau := 4) (by norm_num) (by norm_num)
  refine ⟨v, h, hle.trans (le_of_eq ?_)⟩
  have : ([((1 : Nat), (1 : ℚ)), (2, 1), (3, 100), (4, 2)].filter fun q => decide (q.1 < 4))
      = [(1, 1), (2, 1), (3, 100)] := by decide
  rw [this]
  norm_num

example := C117_tail (k := 2) (by decide) (by decide) _ example_weights (by decide)
  (fun x => decide (x < 4)) (tau := 4) (by norm_num) (by norm_num) (d := 5) (by norm_num)

open Classical in
/-- The item of weight 2 is in the sample half of the time, the one of weight 100 always. -/
example : HasProb (listed (4 : Nat)) (sample 2 [((1 : Nat), (1 : ℚ)), (2, 1), (3, 100), (4, 2)]) (1 / 2) ∧
    HasProb (listed (3 : Nat)) (sample 2 [((1 : Nat), (1 : ℚ)), (2, 1), (3, 100), (4, 2)]) 1 := by
  constructor
  · have := C117_inclusion (k := 2) (by decide) (by decide) _ example_weights (by decide) (tau := 4)
      (by norm_num) (by norm_num) (x := 4) (w := 2) (by decide)
    norm_num at this
    simpa using this
  · have := C117_inclusion (k := 2) (by decide) (by decide) _ example_weights (by decide) (tau := 4)
      (by norm_num) (by norm_num) (x := 3) (w := 100) (by decide)
    norm_num at this
    simpa using this

end Verif.VarOpt
