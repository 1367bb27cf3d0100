import Verif.VarOptUnion
import Verif.ReservoirProps
import Mathlib.Tactic.NormNum

/-!
# Properties of VarOpt sampling (C40) and of its union (C47)

`Rand.All`: for whatever the random generator returns (and without an error or a panic).
`Rand.HasE`: the expected value over independent uniform draws (see `Verif.Rand`).  Weights are
rational numbers (see DESIGN.md for what this leaves out about floating point).
-/

namespace Verif.VarOpt

open Rand

variable {T : Type}

/-! ## Specification -/

/-- The weight of the pairs whose item matches. -/
def weightOf (p : T → Bool) (l : List (T × ℚ)) : ℚ := ((l.filter fun q => p q.1).map Prod.snd).sum

/-- The weight of all pairs. -/
def totalWeight (l : List (T × ℚ)) : ℚ := (l.map Prod.snd).sum

/-- A call of `Update`. -/
def add (s : Sk T) (q : T × ℚ) : Rand (Sk T) := update s { item := q.1, weight := q.2, mark := false }

/-- A caller that makes a sketch and presents a stream of items with weights. -/
def sample (k : Nat) (stream : List (T × ℚ)) : Rand (Sk T) :=
  ofOutcome (new k false) >>= fun s => stream.foldlM add s

/-! ## Observations of valid sketches -/

theorem psumOf_eq (p : T → Bool) (l : List (T × ℚ)) : psumOf p l = weightOf p l := by
  unfold psumOf weightOf
  induction l with
  | nil => rfl
  | cons q l ih =>
    rw [List.map_cons, List.sum_cons, ih]
    by_cases h : p q.1 = true
    · rw [List.filter_cons_of_pos (by exact h), List.map_cons, List.sum_cons, if_pos h]
    · rw [List.filter_cons_of_neg (by exact h), if_neg h, zero_add]

theorem weightOf_true (l : List (T × ℚ)) : weightOf (fun _ => true) l = totalWeight l := by
  unfold weightOf totalWeight
  rw [List.filter_eq_self.2 (fun _ _ => rfl)]

theorem est_eq_weightOf (p : T → Bool) (s : Sk T) : est p s = weightOf p s.samples := rfl

theorem Valid.all_ok {s : Sk T} (v : Valid s) : s.all = .ok s.samples := by
  unfold Sk.all
  rw [if_pos]
  have h1 := v.hlen
  have h2 := v.rlen
  have h3 := v.le
  unfold Sk.hSlots at h1
  unfold Sk.rSlots at h2
  rw [List.length_take] at h1
  rw [List.length_take, List.length_drop] at h2
  have h4 : s.numSamples = s.h + s.r := by unfold Sk.numSamples; omega
  rw [h4] at h2 ⊢
  omega

theorem Valid.estimate {s : Sk T} (v : Valid s) (p : T → Bool) :
    estimateSubsetSum s p = .ok (est p s, if s.r = 0 then est p s else est (fun _ => true) s) := by
  have h1 := v.hlen
  have h2 := v.rlen
  have h3 := v.le
  have h4 : s.numSamples = s.h + s.r := by unfold Sk.numSamples; omega
  have hest := est_regions v.rlen p
  have hestt := est_regions v.rlen (fun _ => true)
  unfold estimateSubsetSum
  by_cases h0 : s.n = 0
  · have hc := v.count
    have hH : s.hSlots = [] := List.length_eq_zero_iff.1 (by omega)
    have hR : s.rSlots = [] := List.length_eq_zero_iff.1 (by omega)
    rw [hH, hR] at hest hestt
    have e0 : est p s = 0 := by rw [hest]; simp [cnt]
    have e1 : est (fun _ => true) s = 0 := by rw [hestt]; simp [cnt]
    rw [if_pos h0, e0, e1, ite_self]
  · rw [if_neg h0]
    have hh : ¬ s.h > s.slots.length := by
      unfold Sk.hSlots at h1
      rw [List.length_take] at h1
      omega
    rw [if_neg hh]
    dsimp only
    have hw : (((s.slots.take s.h).filter fun x => p x.item).map fun x => x.weight).sum
        = wsum p s.hSlots := by
      have := sum_filter_pairs p s.hSlots
      rw [← this]
      unfold pairs Sk.hSlots
      rw [List.filter_map, List.map_map]
      rfl
    have hwt : ((s.slots.take s.h).map fun x => x.weight).sum = wsum (fun _ => true) s.hSlots := by
      unfold wsum Sk.hSlots
      congr 1
    rw [hw, hwt]
    by_cases hr : s.r = 0
    · have hR : s.rSlots = [] := List.length_eq_zero_iff.1 (by omega)
      rw [if_pos hr, if_pos hr, hest, hR]
      simp [cnt]
    · rw [if_neg hr, if_neg hr]
      have hfull := v.full hr
      have hrq : (0 : ℚ) < s.r := by exact_mod_cast Nat.pos_of_ne_zero hr
      have hnq : (s.r : ℚ) ≤ (s.n : ℚ) - s.h := by
        have : ((s.h + s.r : Nat) : ℚ) ≤ s.n := by exact_mod_cast v.count
        push_cast at this
        linarith
      have hden : (0 : ℚ) < (s.n : ℚ) - s.h := lt_of_lt_of_le hrq hnq
      rw [if_neg]
      · rw [if_neg]
        · have hR : (s.slots.drop (s.h + 1)).take (s.k - s.h) = s.rSlots := by
            unfold Sk.rSlots
            rw [h4, hfull]
          rw [hR, hest, hestt]
          have hc : (s.rSlots.countP fun x => p x.item) = cnt p s.rSlots := rfl
          have hct : cnt (fun _ => true) s.rSlots = s.r := by
            unfold cnt
            rw [← h2, List.countP_eq_length]
            simp
          rw [hc, hct]
          congr 2
          · ring
          · field_simp
        · unfold Sk.rSlots at h2
          rw [List.length_take, List.length_drop] at h2
          omega
      · rw [not_or]
        refine ⟨not_lt.2 (le_of_lt (div_pos hrq hden)), not_lt.2 ?_⟩
        rw [div_le_iff₀ hden, one_mul]
        exact hnq

/-! ## C40 -/

theorem new_ok {k : Nat} (h1 : 1 ≤ k) (h2 : k ≤ 2 ^ 31 - 2) :
    (new k false : Outcome (Sk T)) = .ok ⟨[], false, k, 0, 0, 0, 0, 0, 0⟩ := by
  unfold new
  rw [if_neg (by omega)]

theorem new_warm {k : Nat} (h1 : 1 ≤ k) :
    Warm (⟨[], false, k, 0, 0, 0, 0, 0, 0⟩ : Sk T) [] (fun _ => 0) :=
  ⟨h1, rfl, rfl, rfl, Nat.zero_le _, by simp, rfl, rfl, fun _ => rfl⟩

theorem sample_spec {k : Nat} (h1 : 1 ≤ k) (h2 : k ≤ 2 ^ 31 - 2) {stream : List (T × ℚ)}
    (hw : ∀ q ∈ stream, 0 < q.2) :
    All (Ins false ⟨[], false, k, 0, 0, 0, 0, 0, 0⟩ stream [] (fun _ => 0)) (sample k stream) ∧
      ∀ p, HasE (est p) (sample k stream) (weightOf p stream) := by
  unfold sample
  rw [new_ok h1 h2, ofOutcome_ok, ret_bind]
  obtain ⟨ha, hE⟩ := insertAll_spec false stream (Or.inl (new_warm (T := T) h1)) hw
  refine ⟨ha, fun p => ?_⟩
  have := hE p
  rw [zero_add, psumOf_eq] at this
  exact this

/-- C40: `NewVarOptItemsSketch` refuses `k = 0` and `k > 2^31 - 2`. -/
theorem C40_bad_k {k : Nat} (hk : k = 0 ∨ k > 2 ^ 31 - 2) (stream : List (T × ℚ)) :
    sample k stream = .err "k must be at least 1 and less than 2^31 - 1" := by
  unfold sample new
  rw [if_pos (by omega)]
  rfl

/-- C40: an item without a positive weight is refused, whatever the state of the sketch. -/
theorem C40_bad_weight (s : Sk T) (q : T × ℚ) (h : q.2 ≤ 0) :
    add s q = .err "weight must be strictly positive and finite" := by
  unfold add update
  rw [if_pos h]

/-- C40: for every stream of positive weights and whatever the generator returns, no update fails;
the sketch has seen all items, holds `min(n, k)` samples, and the weights of its samples add up to
the total weight of the stream.  Up to `k` items the samples are the stream. -/
theorem C40_sample {k : Nat} (h1 : 1 ≤ k) (h2 : k ≤ 2 ^ 31 - 2) (stream : List (T × ℚ))
    (hw : ∀ q ∈ stream, 0 < q.2) :
    All (fun s =>
        s.k = k ∧
        s.n = stream.length ∧
        s.numSamples = min stream.length k ∧
        ∃ samples, s.all = .ok samples ∧
          samples.length = min stream.length k ∧
          totalWeight samples = totalWeight stream ∧
          (∀ q ∈ samples, 0 < q.2) ∧
          List.Subperm (samples.map Prod.fst) (stream.map Prod.fst) ∧
          (stream.length ≤ k → samples = stream))
      (sample k stream) := by
  refine (sample_spec h1 h2 hw).1.mono fun s i => ?_
  obtain ⟨e', hi, he⟩ := i.inv
  have hk : s.k = k := i.k
  have hn : s.n = stream.length := by rw [i.n]; simp
  rw [List.nil_append] at hi
  have v : Valid s := hi.valid (by rw [hn])
  have hlen : s.h + s.r = min stream.length k := by
    rcases hi with w | ⟨H, g, R, rest, rw', c⟩
    · have h3 := (i.warm w.r0).1
      have h4 := w.len
      rw [h3] at h4
      simp at h4
      have := w.le; have := w.r0
      omega
    · have h3 := c.full
      have h4 := Inv.count (Or.inr ⟨H, g, R, rest, rw', c⟩)
      omega
  refine ⟨hk, hn, ?_, s.samples, v.all_ok, ?_, ?_, ?_, hi.items_sub, ?_⟩
  · unfold Sk.numSamples; omega
  · rw [v.samples_length, hlen]
  · rw [← weightOf_true, ← est_eq_weightOf, hi.est_eq, he, psumOf_eq, weightOf_true, zero_add]
  · intro q hq
    rw [v.samples_eq] at hq
    rcases List.mem_append.1 hq with hq | hq
    · obtain ⟨x, hx, rfl⟩ := List.mem_map.1 hq
      exact v.hpos x hx
    · obtain ⟨x, hx, rfl⟩ := List.mem_map.1 hq
      have hr : s.r ≠ 0 := by
        intro h0
        have : s.rSlots = [] := List.length_eq_zero_iff.1 (by rw [v.rlen, h0])
        rw [this] at hx
        simp at hx
      exact div_pos (v.tot hr) (by exact_mod_cast Nat.pos_of_ne_zero hr)
  · intro hs
    rcases hi with w | ⟨H, g, R, rest, rw', c⟩
    · rw [w.samples_eq]
    · exfalso
      -- in estimation mode more than `k` items were seen
      have h3 := i.over (by have := c.r1; omega)
      simp at h3
      omega

/-- C40: once more than `k` items were seen there is a threshold tau such that the heavy samples keep
their own weight, which is at least tau, and the other samples are presented items of at most tau
that now weigh tau. -/
theorem C40_threshold {k : Nat} (h1 : 1 ≤ k) (h2 : k ≤ 2 ^ 31 - 2) (stream : List (T × ℚ))
    (hw : ∀ q ∈ stream, 0 < q.2) (hk : k < stream.length) :
    All (fun s => ∃ tau heavy light,
        s.tau = some tau ∧
        s.all = .ok (heavy ++ light.map fun q => (q.1, tau)) ∧
        light ≠ [] ∧
        List.Subperm (heavy ++ light) stream ∧
        (∀ q ∈ heavy, tau ≤ q.2) ∧
        (∀ q ∈ light, q.2 ≤ tau))
      (sample k stream) := by
  refine (sample_spec h1 h2 hw).1.mono fun s i => ?_
  obtain ⟨e', hi, he⟩ := i.inv
  have hn : s.n = stream.length := by rw [i.n]; simp
  rw [List.nil_append] at hi
  have v : Valid s := hi.valid (by rw [hn])
  rcases hi with w | ⟨H, g, R, rest, rw', c⟩
  · exfalso
    have h3 := (i.warm w.r0).1
    have h4 := w.len
    rw [h3] at h4
    simp at h4
    have h5 := w.le
    have h6 : s.k = k := i.k
    omega
  · refine ⟨s.totalWeightR / s.r, pairs H, rw', ?_, ?_, ?_, c.sub, ?_, fun q hq => (c.light q hq).2⟩
    · unfold Sk.tau
      rw [if_neg (by have := c.r1; omega)]
    · rw [v.all_ok, c.samples_eq]
      congr 2
      have : (rw'.map Prod.fst).map (fun x => (x, s.totalWeightR / s.r))
          = (R.map Slot.item).map (fun x => (x, s.totalWeightR / s.r)) := by rw [c.items]
      rw [List.map_map, List.map_map] at this
      exact this.symm
    · intro h
      have h3 := congrArg List.length c.items
      rw [List.length_map, List.length_map, h, c.rlen, List.length_nil] at h3
      have := c.r1
      omega
    · intro q hq
      obtain ⟨x, hx, rfl⟩ := List.mem_map.1 hq
      exact c.hge x hx

/-- C40: `EstimateSubsetSum` of every predicate succeeds, its estimate is the weight of the matching
samples, and its total weight is the total weight of the stream once items were dropped. -/
theorem C40_estimate {k : Nat} (h1 : 1 ≤ k) (h2 : k ≤ 2 ^ 31 - 2) (stream : List (T × ℚ))
    (hw : ∀ q ∈ stream, 0 < q.2) (p : T → Bool) :
    All (fun s => ∃ samples estimate total,
        s.all = .ok samples ∧
        estimateSubsetSum s p = .ok (estimate, total) ∧
        estimate = weightOf p samples ∧
        (stream.length ≤ k → estimate = weightOf p stream) ∧
        (k < stream.length → total = totalWeight stream))
      (sample k stream) := by
  refine ((sample_spec h1 h2 hw).1.and (C40_sample h1 h2 stream hw)).mono fun s hs => ?_
  obtain ⟨i, _, _, _, samples, ha, _, ht, _, _, hex⟩ := hs
  obtain ⟨e', hi, he⟩ := i.inv
  have hn : s.n = stream.length := by rw [i.n]; simp
  rw [List.nil_append] at hi
  have v : Valid s := hi.valid (by rw [hn])
  have hsam : s.samples = samples := by
    have := v.all_ok
    rw [ha] at this
    exact (Outcome.ok.inj this).symm
  refine ⟨samples, _, _, ha, v.estimate p, by rw [est_eq_weightOf, hsam], ?_, ?_⟩
  · intro h
    rw [est_eq_weightOf, hsam, hex h]
  · intro h
    have hr : s.r ≠ 0 := by
      intro hr
      rcases hi with w | hi
      · have h3 := (i.warm w.r0).1
        have h4 := w.len
        rw [h3] at h4
        simp at h4
        have h5 := w.le
        have h6 : s.k = k := i.k
        omega
      · exact hi.r_ne hr
    rw [if_neg hr, est_eq_weightOf, hsam, weightOf_true, ht]

/-- C40: the expected value of the estimate is the weight of the matching items of the stream. -/
theorem C40_unbiased {k : Nat} (h1 : 1 ≤ k) (h2 : k ≤ 2 ^ 31 - 2) (stream : List (T × ℚ))
    (hw : ∀ q ∈ stream, 0 < q.2) (p : T → Bool) :
    HasE (fun s => match estimateSubsetSum s p with
        | .ok r => r.1
        | _ => 0)
      (sample k stream) (weightOf p stream) := by
  obtain ⟨ha, hE⟩ := sample_spec h1 h2 hw
  refine (hE p).congr (ha.mono fun s i => ?_)
  obtain ⟨e', hi, he⟩ := i.inv
  rw [List.nil_append] at hi
  have v : Valid s := hi.valid (by rw [i.n]; simp)
  rw [v.estimate p]

/-- C40: a sketch that was reset is a new sketch. -/
theorem C40_reset {k : Nat} (h1 : 1 ≤ k) (h2 : k ≤ 2 ^ 31 - 2) (stream : List (T × ℚ))
    (hw : ∀ q ∈ stream, 0 < q.2) :
    All (fun s => Outcome.ok (reset s) = new k false) (sample k stream) := by
  refine (sample_spec h1 h2 hw).1.mono fun s i => ?_
  have h3 : s.k = k := i.k
  have h4 : s.gadget = false := i.gadget
  rw [new_ok h1 h2]
  unfold reset
  rw [h3, h4]

/-- Finding: as long as all items are kept, the field `TotalSketchWeight` is the weight of the
matching items only, not of the sketch. -/
theorem C40_exact_total_is_wrong {k : Nat} (h1 : 1 ≤ k) (h2 : k ≤ 2 ^ 31 - 2)
    (stream : List (T × ℚ)) (hw : ∀ q ∈ stream, 0 < q.2) (hk : stream.length ≤ k) (p : T → Bool) :
    All (fun s => estimateSubsetSum s p = .ok (weightOf p stream, weightOf p stream))
      (sample k stream) := by
  refine ((sample_spec h1 h2 hw).1.and (C40_sample h1 h2 stream hw)).mono fun s hs => ?_
  obtain ⟨i, _, _, _, samples, ha, _, ht, _, _, hex⟩ := hs
  obtain ⟨e', hi, he⟩ := i.inv
  have hn : s.n = stream.length := by rw [i.n]; simp
  rw [List.nil_append] at hi
  have v : Valid s := hi.valid (by rw [hn])
  have hsam : s.samples = samples := by
    have := v.all_ok
    rw [ha] at this
    exact (Outcome.ok.inj this).symm
  have hr : s.r = 0 := by
    by_contra hr
    have h3 := i.over hr
    simp at h3
    omega
  rw [v.estimate p, if_pos hr, est_eq_weightOf, hsam, hex hk]

/-! ## C47: the union -/

/-- A program that makes a sketch of a stream: the sketch is usable, counts the stream, keeps its
total weight, samples its items, and estimates every subset without bias. -/
structure Represents (prog : Rand (Sk T)) (stream : List (T × ℚ)) : Prop where
  all : All (fun s =>
      Valid s ∧ s.n = stream.length ∧ totalWeight s.samples = totalWeight stream ∧
      List.Subperm (s.samples.map Prod.fst) (stream.map Prod.fst)) prog
  mean : ∀ p, HasE (fun s => weightOf p s.samples) prog (weightOf p stream)

/-- An input of the union: a VarOpt sketch made by some program, or a reservoir sketch of a stream. -/
inductive Input (T : Type) where
  | varopt (prog : Rand (Sk T)) (stream : List (T × ℚ))
  | reservoir (E : Reservoir.Env T) (k rf : Nat) (stream : List T)

/-- The stream an input stands for; reservoir items weigh one (nil items are not counted). -/
def Input.stream : Input T → List (T × ℚ)
  | varopt _ stream => stream
  | reservoir E _ _ stream => (stream.filter fun x => !E.isNil x).map fun x => (x, 1)

def Input.Ok : Input T → Prop
  | varopt prog stream => Represents prog stream
  | reservoir E k _ stream => E.Ok ∧ 2 ≤ k ∧ stream.length ≤ 2 ^ 48 - 1

/-- One call of the union. -/
def feed (u : Un T) : Input T → Rand (Un T)
  | .varopt prog _ => prog >>= fun s => u.update (some s)
  | .reservoir E k rf stream => Reservoir.sample E k rf stream >>= fun s => u.updateReservoir (some s)

/-- A caller that makes a union, feeds inputs to it and takes the result. -/
def unionOf (zero : T) (maxK : Nat) (inputs : List (Input T)) : Rand (Sk T) :=
  ofOutcome (newUnion maxK) >>= fun u => inputs.foldlM feed u >>= fun u => u.result zero

/-- All that was presented. -/
def allItems (inputs : List (Input T)) : List (T × ℚ) := inputs.flatMap Input.stream

/-- A program of `NewVarOptItemsSketch` and `Update` calls is such a program. -/
theorem sample_represents {k : Nat} (h1 : 1 ≤ k) (h2 : k ≤ 2 ^ 31 - 2) {stream : List (T × ℚ)}
    (hw : ∀ q ∈ stream, 0 < q.2) : Represents (sample k stream) stream := by
  refine ⟨?_, (sample_spec h1 h2 hw).2⟩
  refine ((sample_spec h1 h2 hw).1.and (C40_sample h1 h2 stream hw)).mono fun s hs => ?_
  obtain ⟨i, _, hn, _, samples, ha, _, ht, _, hsub, _⟩ := hs
  obtain ⟨e', hi, he⟩ := i.inv
  rw [List.nil_append] at hi
  have v : Valid s := hi.valid (by rw [hn])
  have hsam : s.samples = samples := by
    have := v.all_ok
    rw [ha] at this
    exact (Outcome.ok.inj this).symm
  exact ⟨v, hn, by rw [hsam, ht], by rw [hsam]; exact hsub⟩

/-- The state of a union that was fed a stream. -/
structure UAll (maxK : Nat) (stream : List (T × ℚ)) (u : Un T) : Prop where
  k : u.k = maxK
  n : u.n = stream.length
  inv : ∃ src e, UInv u src e ∧ e (fun _ => true) = totalWeight stream ∧
    List.Subperm (src.map Prod.fst) (stream.map Prod.fst)

theorem totalWeight_append (l l' : List (T × ℚ)) :
    totalWeight (l ++ l') = totalWeight l + totalWeight l' := by simp [totalWeight]

theorem weightOf_append (p : T → Bool) (l l' : List (T × ℚ)) :
    weightOf p (l ++ l') = weightOf p l + weightOf p l' := by
  rw [← psumOf_eq, ← psumOf_eq, ← psumOf_eq, psumOf_append]

theorem UAll.fed {maxK : Nat} {stream more l src : List (T × ℚ)} {e : (T → Bool) → ℚ} {u u' : Un T}
    (hk : u.k = maxK) (hn : u.n = stream.length) (ht : e (fun _ => true) = totalWeight stream)
    (hs : List.Subperm (src.map Prod.fst) (stream.map Prod.fst))
    {n : Nat} (hnm : n = more.length) (htm : totalWeight l = totalWeight more)
    (hsm : List.Subperm (l.map Prod.fst) (more.map Prod.fst)) (h : Fed u n l src e u') :
    UAll maxK (stream ++ more) u' := by
  obtain ⟨e', hu', ht'⟩ := h.inv
  refine ⟨h.k.trans hk, by rw [h.n, hn, hnm, List.length_append], src ++ l, e', hu', ?_, ?_⟩
  · rw [ht', ht, psumOf_eq, weightOf_true, htm, totalWeight_append]
  · rw [List.map_append, List.map_append]
    exact List.Subperm.append hs hsm

theorem rsamples_total {E : Reservoir.Env T} {k rf : Nat} {stream : List T} (hE : E.Ok) (hk : 2 ≤ k)
    (hm : stream.length ≤ 2 ^ 48 - 1) :
    All (fun s => RValid s ∧ s.n = (stream.filter fun x => !E.isNil x).length ∧
        totalWeight (rsamples s) = s.n ∧
        List.Subperm s.data (stream.filter fun x => !E.isNil x) ∧
        ∀ p, weightOf p (rsamples s) = (Reservoir.estimateSubsetSum s p).1)
      (Reservoir.sample E k rf stream) := by
  refine (Reservoir.C39_sample E hE hk rf stream hm).mono fun s h => ?_
  obtain ⟨hk', hn, hlen, hsub, _⟩ := h
  have hw : ∀ p, weightOf p (rsamples s)
      = (if s.n ≤ s.k then 1 else (s.n : ℚ) / s.k) * s.data.countP p := by
    intro p
    rw [← psumOf_eq]
    unfold psumOf rsamples
    rw [List.map_map]
    generalize (if s.n ≤ s.k then 1 else (s.n : ℚ) / s.k) = c
    induction s.data with
    | nil => simp
    | cons x l ih =>
      rw [List.map_cons, List.sum_cons, ih, List.countP_cons]
      show (if p x then c else 0) + _ = _
      split <;> push_cast <;> ring
  refine ⟨⟨fun h => by omega, fun h => ⟨by omega, by omega⟩⟩, hn, ?_, hsub, ?_⟩
  · rw [← weightOf_true, hw, List.countP_true, hlen]
    by_cases h : s.n ≤ s.k
    · rw [if_pos h, Nat.min_eq_left (by omega), one_mul]
    · have hkq : (s.k : ℚ) ≠ 0 := by exact_mod_cast (by omega : s.k ≠ 0)
      rw [if_neg h, Nat.min_eq_right (by omega), ← hk']
      field_simp
  · intro p
    rw [hw]
    unfold Reservoir.estimateSubsetSum
    by_cases h0 : s.n = 0
    · have : s.data = [] := List.length_eq_zero_iff.1 (by omega)
      rw [if_pos h0, this]
      simp
    · rw [if_neg h0]
      dsimp only
      by_cases h : s.n ≤ s.k
      · rw [if_pos h, if_pos h, one_mul]
      · have hnum : s.numSamples = s.k := by
          unfold Reservoir.Sk.numSamples
          omega
        rw [if_neg h, if_neg h, hnum]
        ring

theorem feed_spec {maxK : Nat} {stream : List (T × ℚ)} {u : Un T} (hu : UAll maxK stream u)
    (i : Input T) (hi : i.Ok) :
    All (UAll maxK (stream ++ i.stream)) (feed u i) ∧
      ∀ p, HasE (fun u' : Un T => est p u'.gadget) (feed u i)
        (est p u.gadget + weightOf p i.stream) := by
  obtain ⟨hk, hn, src, e, hinv, ht, hs⟩ := hu
  cases i with
  | varopt prog more =>
    have hp : Represents prog more := hi
    have hstep : ∀ s : Sk T, Valid s ∧ s.n = more.length ∧ totalWeight s.samples = totalWeight more ∧
        List.Subperm (s.samples.map Prod.fst) (more.map Prod.fst) →
        All (UAll maxK (stream ++ more)) (u.update (some s)) ∧
        ∀ p, HasE (fun u' : Un T => est p u'.gadget) (u.update (some s))
          (est p u.gadget + weightOf p s.samples) := by
      intro s ⟨v, hn1, ht1, hs1⟩
      by_cases h0 : s.n = 0
      · have hm : more = [] := List.length_eq_zero_iff.1 (by omega)
        have hsam : s.samples = [] := List.length_eq_zero_iff.1 (by
          rw [v.samples_length]
          have := v.count
          omega)
        have hret : u.update (some s) = .ret u := by
          unfold Un.update
          simp only [if_pos h0]
        rw [hret, hm, List.append_nil, hsam]
        exact ⟨⟨hk, hn, src, e, hinv, ht, hs⟩, fun p => by
          show _ = est p u.gadget
          simp [weightOf]⟩
      · obtain ⟨ha, hE⟩ := update_spec hinv v h0
        refine ⟨ha.mono fun u' h => UAll.fed hk hn ht hs hn1 ht1 hs1 h, fun p => ?_⟩
        have := hE p
        rw [← hinv.inv.est_eq p] at this
        exact this
    simp only [feed, Input.stream]
    constructor
    · exact hp.all.bind fun s h => (hstep s h).1
    · intro p
      have h1 := (hp.mean p).affine 1 (est p u.gadget)
      rw [one_mul, add_comm] at h1
      refine h1.bind (hp.all.mono fun s h => ?_)
      rw [one_mul, add_comm]
      exact (hstep s h).2 p
  | reservoir E k rf more =>
    obtain ⟨hE', hk2, hm⟩ := hi
    have hall := rsamples_total (rf := rf) hE' hk2 hm
    have hstep : ∀ s : Reservoir.Sk T, (RValid s ∧ s.n = (more.filter fun x => !E.isNil x).length ∧
        totalWeight (rsamples s) = s.n ∧
        List.Subperm s.data (more.filter fun x => !E.isNil x) ∧
        ∀ p, weightOf p (rsamples s) = (Reservoir.estimateSubsetSum s p).1) →
        All (UAll maxK (stream ++ (more.filter fun x => !E.isNil x).map fun x => (x, 1)))
          (u.updateReservoir (some s)) ∧
        ∀ p, HasE (fun u' : Un T => est p u'.gadget) (u.updateReservoir (some s))
          (est p u.gadget + (Reservoir.estimateSubsetSum s p).1) := by
      intro s ⟨v, hn1, ht1, hs1, hest⟩
      by_cases h0 : s.n = 0
      · have hm : more.filter (fun x => !E.isNil x) = [] := List.length_eq_zero_iff.1 (by omega)
        have hret : u.updateReservoir (some s) = .ret u := by
          unfold Un.updateReservoir
          simp only [if_pos h0]
        rw [hret, hm, List.map_nil, List.append_nil]
        exact ⟨⟨hk, hn, src, e, hinv, ht, hs⟩, fun p => by
          show _ = est p u.gadget
          unfold Reservoir.estimateSubsetSum
          rw [if_pos h0]
          simp⟩
      · obtain ⟨ha, hE⟩ := updateReservoir_spec hinv v h0
        refine ⟨ha.mono fun u' h => UAll.fed hk hn ht hs (by rw [hn1, List.length_map]) ?_ ?_ h,
          fun p => ?_⟩
        · rw [ht1, hn1]
          generalize more.filter (fun x => !E.isNil x) = l
          unfold totalWeight
          rw [List.map_map]
          induction l with
          | nil => simp
          | cons x l ih =>
            rw [List.map_cons, List.sum_cons, ← ih, List.length_cons]
            simp
            ring
        · unfold rsamples
          rw [List.map_map, List.map_map]
          have e1 : s.data.map (Prod.fst ∘ fun x => (x, if s.n ≤ s.k then (1 : ℚ) else (s.n : ℚ) / s.k))
              = s.data := by
            rw [show (Prod.fst ∘ fun x : T => (x, if s.n ≤ s.k then (1 : ℚ) else (s.n : ℚ) / s.k)) = id
              from rfl, List.map_id]
          have e2 : (more.filter fun x => !E.isNil x).map (Prod.fst ∘ fun x => (x, (1 : ℚ)))
              = more.filter fun x => !E.isNil x := by
            rw [show (Prod.fst ∘ fun x : T => (x, (1 : ℚ))) = id from rfl, List.map_id]
          rw [e1, e2]
          exact hs1
        · have := hE p
          rw [← hinv.inv.est_eq p, psumOf_eq, hest] at this
          exact this
    simp only [feed, Input.stream]
    constructor
    · exact hall.bind fun s h => (hstep s h).1
    · intro p
      have h1 := (Reservoir.C39_unbiased E hE' hk2 rf more hm p).affine 1 (est p u.gadget)
      have hc : (((more.filter fun x => !E.isNil x).countP p : Nat) : ℚ)
          = weightOf p ((more.filter fun x => !E.isNil x).map fun x => (x, 1)) := by
        generalize more.filter (fun x => !E.isNil x) = l
        rw [← psumOf_eq]
        unfold psumOf
        rw [List.map_map]
        induction l with
        | nil => simp
        | cons x l ih =>
          rw [List.map_cons, List.sum_cons, ← ih, List.countP_cons]
          show _ = (if p x then (1 : ℚ) else 0) + _
          split <;> push_cast <;> ring
      rw [one_mul, add_comm, hc] at h1
      refine h1.bind (hall.mono fun s h => ?_)
      rw [one_mul, add_comm]
      exact (hstep s h).2 p

theorem fold_spec {maxK : Nat} : ∀ (inputs : List (Input T)) {stream : List (T × ℚ)} {u : Un T},
    UAll maxK stream u → (∀ i ∈ inputs, i.Ok) →
    All (UAll maxK (stream ++ allItems inputs)) (inputs.foldlM feed u) ∧
      ∀ p, HasE (fun u' : Un T => est p u'.gadget) (inputs.foldlM feed u)
        (est p u.gadget + weightOf p (allItems inputs)) := by
  intro inputs
  induction inputs with
  | nil =>
    intro stream u hu _
    refine ⟨?_, fun p => ?_⟩
    · show UAll maxK (stream ++ []) u
      rw [List.append_nil]
      exact hu
    · show _ = est p u.gadget
      simp [allItems, weightOf]
  | cons i inputs ih =>
    intro stream u hu hi
    obtain ⟨ha, hE⟩ := feed_spec hu i (hi i (by simp))
    have hall : allItems (i :: inputs) = i.stream ++ allItems inputs := by simp [allItems]
    rw [hall, List.foldlM_cons]
    constructor
    · refine ha.bind fun u' hu' => ?_
      have := (ih hu' fun j hj => hi j (by simp [hj])).1
      rw [List.append_assoc] at this
      exact this
    · intro p
      have h1 := (hE p).affine 1 (weightOf p (allItems inputs))
      rw [one_mul, add_assoc, ← weightOf_append] at h1
      refine h1.bind (ha.mono fun u' hu' => ?_)
      rw [one_mul]
      exact (ih hu' fun j hj => hi j (by simp [hj])).2 p

theorem unionOf_spec (zero : T) {maxK : Nat} (h1 : 1 ≤ maxK) (h2 : maxK ≤ 2 ^ 31 - 2)
    (inputs : List (Input T)) (hi : ∀ i ∈ inputs, i.Ok) :
    All (fun s => (Valid s ∧ s.n = (allItems inputs).length ∧
        totalWeight s.samples = totalWeight (allItems inputs) ∧
        List.Subperm (s.samples.map Prod.fst) ((allItems inputs).map Prod.fst)) ∧ s.k ≤ maxK)
      (unionOf zero maxK inputs) ∧
    ∀ p, HasE (fun s => weightOf p s.samples) (unionOf zero maxK inputs)
      (weightOf p (allItems inputs)) := by
  obtain ⟨u, hu, huk, hun, hinv⟩ := UInv.new (T := T) h1 h2
  have hu0 : UAll maxK [] u := ⟨huk, hun, [], _, hinv, by simp [totalWeight], List.Subperm.refl _⟩
  have hest0 : ∀ p, est p u.gadget = 0 := fun p => hinv.inv.est_eq p
  obtain ⟨ha, hE⟩ := fold_spec inputs hu0 hi
  unfold unionOf
  rw [hu, ofOutcome_ok, ret_bind]
  rw [List.nil_append] at ha
  constructor
  · refine ha.bind fun u' hu' => ?_
    obtain ⟨hk, hn, src, e, hinv', ht, hs⟩ := hu'
    refine (result_spec zero hinv').1.mono fun s r => ?_
    refine ⟨⟨r.valid, r.n.trans hn, ?_, r.items.trans hs⟩, by rw [← hk]; exact r.k⟩
    rw [← weightOf_true, ← est_eq_weightOf, r.total, ht]
  · intro p
    have h3 := hE p
    rw [hest0, zero_add] at h3
    refine h3.bind (ha.mono fun u' hu' => ?_)
    obtain ⟨hk, hn, src, e, hinv', ht, hs⟩ := hu'
    have := (result_spec zero hinv').2 p
    rw [← hinv'.inv.est_eq p] at this
    exact this

/-- C47: the result of a union is itself a fair sketch of everything presented, so unions can be
nested. -/
theorem C47_union_represents (zero : T) {maxK : Nat} (h1 : 1 ≤ maxK) (h2 : maxK ≤ 2 ^ 31 - 2)
    (inputs : List (Input T)) (hi : ∀ i ∈ inputs, i.Ok) :
    Represents (unionOf zero maxK inputs) (allItems inputs) := by
  obtain ⟨ha, hE⟩ := unionOf_spec zero h1 h2 inputs hi
  exact ⟨ha.mono fun s h => h.1, hE⟩

/-- C47: whatever the generator returns, feeding sketches (VarOpt and reservoir, of any sizes, each
made from its own stream; also results of other unions) to a union and taking the result never
fails; the result has seen all items, holds at most `maxK` samples, which are presented items, and
their weights add up to the total weight presented. -/
theorem C47_union (zero : T) {maxK : Nat} (h1 : 1 ≤ maxK) (h2 : maxK ≤ 2 ^ 31 - 2)
    (inputs : List (Input T)) (hi : ∀ i ∈ inputs, i.Ok) :
    All (fun s =>
        s.n = (allItems inputs).length ∧
        ∃ samples, s.all = .ok samples ∧
          samples.length ≤ maxK ∧
          totalWeight samples = totalWeight (allItems inputs) ∧
          List.Subperm (samples.map Prod.fst) ((allItems inputs).map Prod.fst))
      (unionOf zero maxK inputs) := by
  refine (unionOf_spec zero h1 h2 inputs hi).1.mono fun s h => ?_
  obtain ⟨⟨v, hn, ht, hs⟩, hk⟩ := h
  refine ⟨hn, s.samples, v.all_ok, ?_, ht, hs⟩
  rw [v.samples_length]
  exact le_trans v.le hk

/-- C47: the expected value of the subset estimate of the union's result is the weight of the
matching items of all streams. -/
theorem C47_union_unbiased (zero : T) {maxK : Nat} (h1 : 1 ≤ maxK) (h2 : maxK ≤ 2 ^ 31 - 2)
    (inputs : List (Input T)) (hi : ∀ i ∈ inputs, i.Ok) (p : T → Bool) :
    HasE (fun s => match estimateSubsetSum s p with
        | .ok r => r.1
        | _ => 0)
      (unionOf zero maxK inputs) (weightOf p (allItems inputs)) := by
  obtain ⟨ha, hE⟩ := unionOf_spec zero h1 h2 inputs hi
  refine (hE p).congr (ha.mono fun s h => ?_)
  rw [h.1.1.estimate p]
  rfl

/-! ### Finding: a result that cannot be updated -/

/-- The inputs: one item of weight 1, and two items of weight 5 in a sketch with `k = 1`. -/
def stuckInputs : List (Input Nat) :=
  [.varopt (sample 10 [(1, 1)]) [(1, 1)], .varopt (sample 1 [(2, 5), (3, 5)]) [(2, 5), (3, 5)]]

theorem stuck_second : All (fun s => ∃ g b rest m, s = ⟨g :: b :: rest, false, 1, 2, 0, 0, 1, 10, m⟩)
    (sample 1 [((2 : Nat), (5 : ℚ)), (3, 5)]) := by
  have hw : ∀ q ∈ [((2 : Nat), (5 : ℚ)), (3, 5)], 0 < q.2 := by
    intro q hq
    simp at hq
    rcases hq with rfl | rfl <;> norm_num
  refine (sample_spec (k := 1) (by decide) (by decide) hw).1.mono fun s i => ?_
  obtain ⟨e', hi, he⟩ := i.inv
  have hk : s.k = 1 := i.k
  have hn : s.n = 2 := i.n
  have hg : s.gadget = false := i.gadget
  rcases hi with w | ⟨H, g, R, rest, rw', c⟩
  · exfalso
    have h3 := (i.warm w.r0).1
    have h4 := w.len
    rw [h3] at h4
    simp at h4
    have h5 := w.le
    omega
  · have h3 := c.full
    have h4 := c.r1
    have hH : H = [] := List.length_eq_zero_iff.1 (by rw [c.hlen]; omega)
    obtain ⟨b, hb⟩ : ∃ b, R = [b] := List.length_eq_one_iff.1 (by rw [c.rlen]; omega)
    subst hH hb
    have ht : s.totalWeightR = 10 := by
      have h5 := c.est fun _ => true
      have h6 : s.r = 1 := by omega
      rw [he, h6, psumOf_eq, weightOf_true] at h5
      simp [totalWeight, cnt] at h5
      linarith
    refine ⟨g, b, rest, s.numMarksInH, ?_⟩
    have e1 := c.slots
    have e2 := c.m0
    cases s
    simp only [List.nil_append, List.cons_append] at *
    simp only [Sk.mk.injEq]
    exact ⟨e1, hg, hk, hn, by omega, e2, by omega, ht, trivial⟩

theorem stuck_first : sample 10 [((1 : Nat), (1 : ℚ))] = .ret ⟨[⟨1, 1, false⟩], false, 10, 1, 1, 0, 0, 0, 0⟩ := by
  rfl

theorem stuck_feed1 :
    Un.update (T := Nat) ⟨⟨[], true, 10, 0, 0, 0, 0, 0, 0⟩, 10, 0, 0, 0⟩
      (some ⟨[⟨1, 1, false⟩], false, 10, 1, 1, 0, 0, 0, 0⟩)
    = .ret ⟨⟨[⟨1, 1, false⟩], true, 10, 1, 1, 0, 0, 0, 0⟩, 10, 1, 0, 0⟩ := by
  rfl

theorem stuck_feed2 (g b : Slot Nat) (rest : List (Slot Nat)) (m : Nat) :
    Un.update (T := Nat) ⟨⟨[⟨1, 1, false⟩], true, 10, 1, 1, 0, 0, 0, 0⟩, 10, 1, 0, 0⟩
      (some ⟨g :: b :: rest, false, 1, 2, 0, 0, 1, 10, m⟩)
    = .ret ⟨⟨[⟨1, 1, false⟩, ⟨b.item, 10, true⟩], true, 10, 2, 2, 0, 0, 0, 1⟩, 10, 3, 10, 1⟩ := by
  simp [Un.update, Sk.numSamples, Sk.hSlots, Sk.rSlots, weightCorr, insertAll, update, updateCore,
    updateWarmup, Un.noteTau]
  norm_num

theorem stuck_result (b : Nat) :
    Un.result (T := Nat) 0
      ⟨⟨[⟨1, 1, false⟩, ⟨b, 10, true⟩], true, 10, 2, 2, 0, 0, 0, 1⟩, 10, 3, 10, 1⟩
    = .ret ⟨[⟨1, 1, false⟩, ⟨0, -1, false⟩, ⟨b, -1, false⟩], false, 2, 3, 1, 0, 1, 10, 0⟩ := by
  simp [Un.result, Un.markMoving, Sk.hSlots, Sk.rSlots, Sk.numSamples, Sk.tau, ltTau, Un.movedSlots,
    heapify]
  norm_num

/-- Finding: a result of a union can have a heavy item lighter than tau (the check against this in
`Result` compares with NaN, because it is only reached in exact mode); every update of such a sketch
fails. -/
theorem C47_result_refuses_updates (q : Nat × ℚ) (hq : 0 < q.2) :
    All (fun s => add s q = .err "sketch not in valid estimation mode") (unionOf 0 10 stuckInputs) := by
  have h0 : (newUnion 10 : Outcome (Un Nat)) = .ok ⟨⟨[], true, 10, 0, 0, 0, 0, 0, 0⟩, 10, 0, 0, 0⟩ := rfl
  have h1 : unionOf 0 10 stuckInputs = (sample 1 [((2 : Nat), (5 : ℚ)), (3, 5)] >>= fun s =>
      Un.update ⟨⟨[⟨1, 1, false⟩], true, 10, 1, 1, 0, 0, 0, 0⟩, 10, 1, 0, 0⟩ (some s) >>= fun u =>
      u.result 0) := by
    unfold unionOf stuckInputs
    rw [h0, ofOutcome_ok, ret_bind]
    simp only [List.foldlM_cons, List.foldlM_nil, feed, stuck_first, ret_bind, stuck_feed1]
    rw [Rand.bind_assoc, Rand.bind_assoc]
    rfl
  rw [h1]
  refine stuck_second.bind fun s hs => ?_
  obtain ⟨g, b, rest, m, rfl⟩ := hs
  rw [stuck_feed2, ret_bind, stuck_result]
  show add _ q = _
  unfold add update updateCore
  rw [if_neg (not_le.2 hq)]
  simp [wAt]

/-! ## The hypotheses can be met -/

/-- A stream with a heavy item that is longer than `k`. -/
theorem example_weights : ∀ q ∈ [((1 : Nat), (1 : ℚ)), (2, 1), (3, 100), (4, 2)], 0 < q.2 := by
  intro q hq
  simp at hq
  rcases hq with rfl | rfl | rfl | rfl <;> norm_num

example := C40_sample (k := 2) (by decide) (by decide) _ example_weights
example := C40_threshold (k := 2) (by decide) (by decide) _ example_weights (by decide)
example := C40_estimate (k := 2) (by decide) (by decide) _ example_weights (fun x => x = 3)
example := C40_unbiased (k := 2) (by decide) (by decide) _ example_weights (fun x => x = 4)
example := C40_reset (k := 2) (by decide) (by decide) _ example_weights
example := C40_bad_k (T := Nat) (k := 0) (Or.inl rfl) []
example := C40_bad_weight (⟨[], false, 5, 0, 0, 0, 0, 0, 0⟩ : Sk Nat) (1, 0) (le_refl _)

/-- The total weight is 104 but `TotalSketchWeight` of the subset `{4}` is 2. -/
example : All (fun s => estimateSubsetSum s (fun x => x = 4) = .ok (2, 2))
    (sample 5 [((1 : Nat), (1 : ℚ)), (2, 1), (3, 100), (4, 2)]) := by
  have := C40_exact_total_is_wrong (k := 5) (by decide) (by decide) _ example_weights (by decide)
    (fun x => x = 4)
  simpa [weightOf] using this

/-- A VarOpt sketch in estimation mode, a reservoir in estimation mode and the result of another
union. -/
def exampleInputs : List (Input Nat) :=
  [.varopt (sample 2 [(1, 1), (2, 1), (3, 100), (4, 2)]) [(1, 1), (2, 1), (3, 100), (4, 2)],
   .reservoir Reservoir.natEnv 2 3 [5, 6, 7],
   .varopt (unionOf 0 10 stuckInputs) (allItems stuckInputs)]

theorem stuck_ok : ∀ i ∈ stuckInputs, i.Ok := by
  intro i hi
  simp [stuckInputs] at hi
  rcases hi with rfl | rfl
  · exact sample_represents (by decide) (by decide) (by intro q hq; simp at hq; rw [hq]; norm_num)
  · exact sample_represents (by decide) (by decide)
      (by intro q hq; simp at hq; rcases hq with rfl | rfl <;> norm_num)

theorem example_ok : ∀ i ∈ exampleInputs, i.Ok := by
  intro i hi
  simp [exampleInputs] at hi
  rcases hi with rfl | rfl | rfl
  · exact sample_represents (by decide) (by decide) example_weights
  · exact ⟨Reservoir.natEnv_ok, by decide, by decide⟩
  · exact C47_union_represents 0 (by decide) (by decide) _ stuck_ok

example := C47_union 0 (maxK := 3) (by decide) (by decide) _ example_ok
example := C47_union_unbiased 0 (maxK := 3) (by decide) (by decide) _ example_ok (fun x => x = 3)
example := C47_result_refuses_updates (7, 1) (by norm_num)

end Verif.VarOpt
