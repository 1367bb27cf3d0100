import Verif.VarOptUnionSpread
import Verif.ReservoirSpreadProps

/-!
# C119: the squares of the sampled weights bound the error, also after unions

`Rand.All`: for whatever the random generator returns.  `Rand.HasE` / `Rand.HasProb`: on average
over independent uniform draws (see `Verif.Rand`).
-/

namespace Verif.VarOpt

open Rand

variable {T : Type}

/-- What `All` lists. -/
def listing (s : Sk T) : List (T × ℚ) :=
  match s.all with
  | .ok l => l
  | _ => []

/-- The sum of the squares of the weights of the matching entries. -/
def squareSum (p : T → Bool) (l : List (T × ℚ)) : ℚ :=
  ((l.filter fun q => p q.1).map fun q => q.2 ^ 2).sum

/-- A program that makes a fair sketch of a stream, such that the squares of the listed weights of
the matching samples add up, on average, to at least the mean square of the error of
`EstimateSubsetSum` and the squares of the true weights together. -/
structure Audited (prog : Rand (Sk T)) (stream : List (T × ℚ)) : Prop where
  rep : Represents prog stream
  total : ∀ f : Sk T → ℚ, ∃ x, HasE f prog x
  error : ∀ p, ∃ v w,
    HasE (fun s => (estimateOf p s - weightOf p stream) ^ 2) prog v ∧
    HasE (fun s => squareSum p (listing s)) prog w ∧
    v + squareSum p stream ≤ w

/-- The inputs of a union, the sketches among them audited. -/
def Input.Audited : Input T → Prop
  | .varopt prog stream => VarOpt.Audited prog stream
  | .reservoir E k _ stream => E.Ok ∧ 2 ≤ k ∧ stream.length ≤ 2 ^ 48 - 1

theorem Input.Audited.ok {i : Input T} (h : i.Audited) : i.Ok := by
  cases i with
  | varopt prog stream => exact (show VarOpt.Audited prog stream from h).rep
  | reservoir E k rf stream => exact h

theorem sqOf_eq (p : T → Bool) (l : List (T × ℚ)) : sqOf p l = squareSum p l := by
  unfold sqOf squareSum
  induction l with
  | nil => rfl
  | cons q l ih =>
    rw [List.map_cons, List.sum_cons, ih]
    by_cases hp : p q.1 = true
    · rw [if_pos hp, List.filter_cons_of_pos (by exact hp), List.map_cons, List.sum_cons]
    · rw [if_neg hp, List.filter_cons_of_neg (by exact hp), zero_add]

theorem Valid.listing {s : Sk T} (v : Valid s) : VarOpt.listing s = s.samples := by
  unfold VarOpt.listing
  rw [v.all_ok]

theorem Valid.estimateOf {s : Sk T} (v : Valid s) (p : T → Bool) : VarOpt.estimateOf p s = est p s := by
  unfold VarOpt.estimateOf
  rw [v.estimate p]

/-- The two ways to say it. -/
theorem Audited.of_prs {prog : Rand (Sk T)} {stream : List (T × ℚ)} (hr : Represents prog stream)
    (ht : Total prog)
    (hp : ∀ p, ELe (prs p) prog (psumOf p stream ^ 2 - sqOf p stream)) : Audited prog stream := by
  refine ⟨hr, ht, fun p => ?_⟩
  obtain ⟨v, hv⟩ := ht fun s => (estimateOf p s - weightOf p stream) ^ 2
  obtain ⟨w, hw⟩ := ht fun s => squareSum p (listing s)
  refine ⟨v, w, hv, hw, ?_⟩
  have h1 := (hv.add (((hw.affine (-1) 0).add ((hr.mean p).affine (2 * weightOf p stream)
    (-(weightOf p stream) ^ 2)))))
  have h2 : HasE (prs p) prog _ := h1.congr (hr.all.mono fun s hs => ?_)
  · have h3 := (hp p).le h2
    rw [psumOf_eq, sqOf_eq] at h3
    linarith
  · rw [hs.1.estimateOf, hs.1.listing]
    unfold prs
    rw [← sqOf_eq, est_eq_weightOf]
    ring

theorem Audited.prs {prog : Rand (Sk T)} {stream : List (T × ℚ)} (h : Audited prog stream)
    (p : T → Bool) : ELe (VarOpt.prs p) prog (psumOf p stream ^ 2 - sqOf p stream) := by
  obtain ⟨v, w, hv, hw, hle⟩ := h.error p
  have h1 := (hv.add (((hw.affine (-1) 0).add ((h.rep.mean p).affine (2 * weightOf p stream)
    (-(weightOf p stream) ^ 2)))))
  have h2 : HasE (VarOpt.prs p) prog _ := h1.congr (h.rep.all.mono fun s hs => ?_)
  · refine h2.eLe.mono ?_
    rw [psumOf_eq, sqOf_eq]
    linarith
  · rw [hs.1.estimateOf, hs.1.listing]
    unfold VarOpt.prs
    rw [← sqOf_eq, est_eq_weightOf]
    ring

/-! ## Reservoir inputs -/

/-- No draws of floating point numbers. -/
def Discrete {α : Type} : Rand α → Prop
  | .intn _ k => ∀ i, Discrete (k i)
  | .unif _ _ => False
  | _ => True

theorem Discrete.bind {α β : Type} {t : Rand α} {f : α → Rand β} (ht : Discrete t)
    (hf : ∀ a, Discrete (f a)) : Discrete (t >>= f) := by
  induction t with
  | ret a => exact hf a
  | err e => exact trivial
  | panic => exact trivial
  | intn n k ih => exact fun i => ih i (ht i)
  | unif nz k ih => exact ht.elim

theorem Discrete.total {α : Type} {t : Rand α} (ht : Discrete t) (ha : All (fun _ => True) t) :
    Total t := by
  intro f
  induction t with
  | ret a => exact ⟨f a, rfl⟩
  | err e => exact ha.elim
  | panic => exact ha.elim
  | intn n k ih =>
    obtain ⟨hn, ha⟩ := ha
    have h := fun i (hi : i < n) => ih i (ht i) (ha i hi)
    classical
    refine ⟨_, hn, fun i => if hi : i < n then (h i hi).choose else 0, fun i hi => ?_, rfl⟩
    simp only [dif_pos hi]
    exact (h i hi).choose_spec
  | unif nz k ih => exact ht.elim

theorem reservoir_discrete (E : Reservoir.Env T) (k rf : Nat) (stream : List T) :
    Discrete (Reservoir.sample E k rf stream) := by
  unfold Reservoir.sample
  refine Discrete.bind ?_ fun s => ?_
  · cases Reservoir.new (T := T) k rf <;> exact trivial
  · unfold Reservoir.updates
    induction stream generalizing s with
    | nil => exact trivial
    | cons x l ih =>
      rw [List.foldlM_cons]
      refine Discrete.bind ?_ ih
      unfold Reservoir.update
      split
      · exact trivial
      · split
        · exact trivial
        · split
          · dsimp only
            repeat' (first | exact trivial | split)
          · refine Discrete.bind (fun i => trivial) fun j => ?_
            split
            · split <;> exact trivial
            · exact trivial

theorem rsamples_sq (p : T → Bool) (s : Reservoir.Sk T) :
    sqOf p (rsamples s) = (if s.n ≤ s.k then 1 else (s.n : ℚ) / s.k) * psumOf p (rsamples s) := by
  unfold sqOf psumOf rsamples
  rw [List.map_map, List.map_map]
  generalize (if s.n ≤ s.k then (1 : ℚ) else (s.n : ℚ) / s.k) = c
  induction s.data with
  | nil => simp
  | cons x l ih =>
    rw [List.map_cons, List.sum_cons, List.map_cons, List.sum_cons, ih]
    simp only [Function.comp]
    split <;> ring

theorem ones_psum (p : T → Bool) (l : List T) :
    psumOf p (l.map fun x => (x, 1)) = ((l.countP p : Nat) : ℚ) ∧
      sqOf p (l.map fun x => (x, 1)) = ((l.countP p : Nat) : ℚ) := by
  induction l with
  | nil => simp [psumOf, sqOf]
  | cons x l ih =>
    rw [List.map_cons, psumOf_cons, sqOf_cons, ih.1, ih.2, List.countP_cons]
    dsimp only
    by_cases hp : p x = true
    · simp only [hp, if_true]
      push_cast
      constructor <;> ring
    · simp [hp]

theorem reservoir_le {n k c : Nat} (hk : 2 ≤ k) (hkn : k < n) :
    (c : ℚ) * (n - c) * (n - k) / (k * (n - 1)) ≤ ((n : ℚ) / k - 1) * c := by
  have h1 : (1 : ℚ) < n := by exact_mod_cast (by omega : 1 < n)
  have h2 : (0 : ℚ) < k := by exact_mod_cast (by omega : 0 < k)
  have h3 : (k : ℚ) < n := by exact_mod_cast hkn
  have e : ((n : ℚ) / k - 1) * c = (c : ℚ) * (n - 1) * (n - k) / (k * (n - 1)) := by
    have : (n : ℚ) - 1 ≠ 0 := ne_of_gt (by linarith)
    field_simp
  rw [e]
  refine div_le_div_of_nonneg_right ?_ (by apply mul_nonneg h2.le; linarith)
  refine mul_le_mul_of_nonneg_right ?_ (by linarith)
  rcases Nat.eq_zero_or_pos c with rfl | hc
  · simp
  · have : (1 : ℚ) ≤ c := by exact_mod_cast hc
    exact mul_le_mul_of_nonneg_left (by linarith) (by linarith)

theorem rsample_prs {E : Reservoir.Env T} {k rf : Nat} {stream : List T} (hE : E.Ok) (hk : 2 ≤ k)
    (hm : stream.length ≤ 2 ^ 48 - 1) (p : T → Bool) :
    ELe (fun s => psumOf p (rsamples s) ^ 2 - sqOf p (rsamples s)) (Reservoir.sample E k rf stream)
      (psumOf p ((stream.filter fun x => !E.isNil x).map fun x => (x, 1)) ^ 2
        - sqOf p ((stream.filter fun x => !E.isNil x).map fun x => (x, 1))) := by
  rw [(ones_psum p _).1, (ones_psum p _).2]
  have hall := (rsamples_total (rf := rf) hE hk hm).and (Reservoir.C39_sample E hE hk rf stream hm)
  by_cases hkn : k < (stream.filter fun x => !E.isNil x).length
  · have h1 := Reservoir.C116_spread E hE hk rf stream hm p rfl rfl hkn
    have h2 := Reservoir.C39_unbiased E hE hk rf stream hm p
    set c := (stream.filter fun x => !E.isNil x).countP p with hc
    set n := (stream.filter fun x => !E.isNil x).length with hn
    have h3 := h1.add (h2.affine (2 * c - (n : ℚ) / k) (-(c : ℚ) ^ 2))
    have h4 : HasE (fun s => psumOf p (rsamples s) ^ 2 - sqOf p (rsamples s)) _ _ :=
      h3.congr (hall.mono fun s hs => ?_)
    · refine h4.eLe.mono ?_
      have := reservoir_le (c := c) hk hkn
      linarith
    · obtain ⟨⟨_, hn1, _, _, hest⟩, hk', _⟩ := hs
      rw [rsamples_sq, psumOf_eq, hest, hn1, hk', if_neg (by omega)]
      ring
  · refine ELe.const ((hall.and
      (Reservoir.C116_exact E hE hk rf stream hm p (by omega))).mono fun s hs => ?_)
    obtain ⟨⟨⟨_, hn1, _, _, hest⟩, hk', _⟩, hex⟩ := hs
    rw [rsamples_sq, psumOf_eq, hest, hex, if_pos (by omega), one_mul]

/-! ## The union -/

theorem feed_prs {maxK : Nat} {stream : List (T × ℚ)} {u : Un T} (hu : UAll maxK stream u)
    (i : Input T) (hi : i.Audited) (p : T → Bool) :
    ELe (fun u' : Un T => prs p u'.gadget) (feed u i)
        (prs p u.gadget + 2 * est p u.gadget * psumOf p i.stream
          + (psumOf p i.stream ^ 2 - sqOf p i.stream)) ∧
      Total (feed u i) := by
  obtain ⟨hk, hn, src, e, hinv, ht, hs⟩ := hu
  cases i with
  | varopt prog more =>
    have hp : VarOpt.Audited prog more := hi
    have hstep : All (fun s => ELe (fun u' : Un T => prs p u'.gadget) (u.update (some s))
        (prs p u.gadget + 2 * est p u.gadget * psumOf p s.samples
          + (psumOf p s.samples ^ 2 - sqOf p s.samples)) ∧ Total (u.update (some s))) prog := by
      refine hp.rep.all.mono fun s ⟨v, hn1, ht1, hs1⟩ => ?_
      by_cases h0 : s.n = 0
      · have hsam : s.samples = [] := List.length_eq_zero_iff.1 (by
          rw [v.samples_length]
          have := v.count
          omega)
        have hret : u.update (some s) = .ret u := by
          unfold Un.update
          simp only [if_pos h0]
        rw [hret, hsam]
        refine ⟨(HasE.ret (f := fun u' : Un T => prs p u'.gadget)).eLe.mono (le_of_eq ?_),
          fun f => ⟨_, rfl⟩⟩
        simp [psumOf, sqOf]
      · exact (update_absorbs u v h0).prs p hinv
    simp only [feed, Input.stream]
    refine ⟨?_, total_bind hp.total (hstep.mono fun s h => h.2)⟩
    have h1 := (hp.prs p).add ((hp.rep.mean p).affine (2 * est p u.gadget) (prs p u.gadget)).eLe
    refine (h1.mono (le_of_eq ?_)).bind (hstep.mono fun s h => h.1.mono (le_of_eq ?_))
    · rw [← psumOf_eq]
      ring
    · unfold VarOpt.prs
      rw [est_psum p s, psumOf_eq p s.samples]
      ring
  | reservoir E k rf more =>
    obtain ⟨hE', hk2, hm⟩ := hi
    have hall := rsamples_total (rf := rf) hE' hk2 hm
    have hstep : All (fun s => ELe (fun u' : Un T => prs p u'.gadget) (u.updateReservoir (some s))
        (prs p u.gadget + 2 * est p u.gadget * psumOf p (rsamples s)
          + (psumOf p (rsamples s) ^ 2 - sqOf p (rsamples s))) ∧
        Total (u.updateReservoir (some s))) (Reservoir.sample E k rf more) := by
      refine hall.mono fun s ⟨v, hn1, ht1, hs1, hest⟩ => ?_
      by_cases h0 : s.n = 0
      · have hret : u.updateReservoir (some s) = .ret u := by
          unfold Un.updateReservoir
          simp only [if_pos h0]
        have hd : rsamples s = [] := by
          unfold rsamples
          rw [List.length_eq_zero_iff.1 ((v.exact (by omega)).trans h0)]
          rfl
        rw [hret, hd]
        refine ⟨(HasE.ret (f := fun u' : Un T => prs p u'.gadget)).eLe.mono (le_of_eq ?_),
          fun f => ⟨_, rfl⟩⟩
        simp [psumOf, sqOf]
      · exact (updateReservoir_absorbs u v h0).prs p hinv
    have htot : Total (Reservoir.sample E k rf more) :=
      (reservoir_discrete E k rf more).total (hall.mono fun _ _ => trivial)
    simp only [feed, Input.stream]
    refine ⟨?_, total_bind htot (hstep.mono fun s h => h.2)⟩
    have h1 := (rsample_prs (rf := rf) hE' hk2 hm p).add
      ((Reservoir.C39_unbiased E hE' hk2 rf more hm p).affine (2 * est p u.gadget) (prs p u.gadget)).eLe
    refine (h1.mono (le_of_eq ?_)).bind ((hstep.and hall).mono fun s h => h.1.1.mono (le_of_eq ?_))
    · rw [(ones_psum p _).1]
      ring
    · rw [← h.2.2.2.2.2 p, ← psumOf_eq]
      ring

theorem fold_prs {maxK : Nat} (p : T → Bool) : ∀ (inputs : List (Input T)) {stream : List (T × ℚ)}
    {u : Un T}, UAll maxK stream u → (∀ i ∈ inputs, i.Audited) →
    ELe (fun u' : Un T => prs p u'.gadget) (inputs.foldlM feed u)
        (prs p u.gadget + 2 * est p u.gadget * psumOf p (allItems inputs)
          + (psumOf p (allItems inputs) ^ 2 - sqOf p (allItems inputs))) ∧
      Total (inputs.foldlM feed u) := by
  intro inputs
  induction inputs with
  | nil =>
    intro stream u hu _
    refine ⟨(HasE.ret (f := fun u' : Un T => prs p u'.gadget)).eLe.mono (le_of_eq ?_),
      fun f => ⟨_, rfl⟩⟩
    simp [allItems, psumOf, sqOf]
  | cons i inputs ih =>
    intro stream u hu hi
    obtain ⟨ha, hE⟩ := feed_spec hu i (hi i (by simp)).ok
    obtain ⟨hP, hT⟩ := feed_prs hu i (hi i (by simp)) p
    have hih := ha.mono fun u' hu' => ih hu' fun j hj => hi j (by simp [hj])
    have hall : allItems (i :: inputs) = i.stream ++ allItems inputs := by simp [allItems]
    rw [hall, List.foldlM_cons]
    refine ⟨?_, total_bind hT (hih.mono fun u' h => h.2)⟩
    have h1 := hP.add ((hE p).affine (2 * psumOf p (allItems inputs))
      (psumOf p (allItems inputs) ^ 2 - sqOf p (allItems inputs))).eLe
    refine (h1.mono (le_of_eq ?_)).bind (hih.mono fun u' h => h.1.mono (le_of_eq ?_))
    · rw [psumOf_append, sqOf_append, ← psumOf_eq]
      ring
    · ring

/-! ## C119 -/

/-- C119: a sketch of a stream of weighted items. -/
theorem C119_sketch {k : Nat} (h1 : 1 ≤ k) (h2 : k ≤ 2 ^ 31 - 2) (stream : List (T × ℚ))
    (hw : ∀ q ∈ stream, 0 < q.2) : Audited (sample k stream) stream := by
  refine Audited.of_prs (sample_represents h1 h2 hw) (sample_total h1 h2 hw) fun p => ?_
  rw [sample_eq_insertAll h1 h2]
  have := (insertAll_prs false p stream (Or.inl (new_warm (T := T) h1)) hw).1
  refine this.mono (le_of_eq ?_)
  have e1 : est p (⟨[], false, k, 0, 0, 0, 0, 0, 0⟩ : Sk T) = 0 := rfl
  have e2 : prs p (⟨[], false, k, 0, 0, 0, 0, 0, 0⟩ : Sk T) = 0 := by
    unfold prs
    rw [e1]
    simp [sqOf, Sk.samples, Sk.hSlots]
  rw [e1, e2]
  ring

/-- C119: the result of a union of sketches, of any sizes and in any order: audited sketches (so
results of other unions too) and reservoirs.  The bound refers to all that was presented. -/
theorem C119_union (zero : T) {maxK : Nat} (h1 : 1 ≤ maxK) (h2 : maxK ≤ 2 ^ 31 - 2)
    (inputs : List (Input T)) (hi : ∀ i ∈ inputs, i.Audited) :
    Audited (unionOf zero maxK inputs) (allItems inputs) := by
  have hrep := C47_union_represents zero h1 h2 inputs fun i h => (hi i h).ok
  obtain ⟨u, hu, huk, hun, hinv⟩ := UInv.new (T := T) h1 h2
  have hu0 : UAll maxK [] u := ⟨huk, hun, [], _, hinv, by simp [totalWeight], List.Subperm.refl _⟩
  have hall := (fold_spec inputs hu0 fun i h => (hi i h).ok).1
  have hfold := fun p => fold_prs p inputs hu0 hi
  have hsam : u.gadget.samples = [] := by
    rcases hinv.inv with w | h
    · rw [w.samples_eq]
    · have := hinv.over h.r_ne
      simp at this
  have hest : ∀ p, est p u.gadget = 0 := fun p => by rw [est_psum, hsam]; rfl
  have hprs : ∀ p, prs p u.gadget = 0 := fun p => by
    unfold prs
    rw [hest, hsam]
    simp [sqOf]
  have hres : ∀ p, All (fun u' : Un T => ELe (prs p) (u'.result zero) (prs p u'.gadget) ∧
      Rand.Total (u'.result zero)) (inputs.foldlM feed u) := fun p => hall.mono fun u' hu' => by
    obtain ⟨_, _, src, e, hinv', _, _⟩ := hu'
    exact result_prs p zero hinv'
  have heq : unionOf zero maxK inputs = (inputs.foldlM feed u >>= fun u => u.result zero) := by
    unfold unionOf
    rw [hu, ofOutcome_ok, ret_bind]
  refine Audited.of_prs hrep ?_ fun p => ?_
  · rw [heq]
    exact total_bind (hfold fun _ => true).2 ((hres fun _ => true).mono fun u' h => h.2)
  · rw [heq]
    refine ((hfold p).1.mono (le_of_eq ?_)).bind ((hres p).mono fun u' h => h.1)
    rw [hest, hprs]
    ring

/-- C119: the probability that an estimate is off by `d` or more is at most the mean of the listed
squares divided by `d²` (Chebyshev). -/
theorem C119_tail {prog : Rand (Sk T)} {stream : List (T × ℚ)} (h : Audited prog stream)
    (p : T → Bool) {d : ℚ} (hd : 0 < d) :
    ∃ x w, HasProb (fun s => d ≤ |estimateOf p s - weightOf p stream|) prog x ∧
      HasE (fun s => squareSum p (listing s)) prog w ∧ x ≤ w / d ^ 2 := by
  obtain ⟨v, w, hv, hw', hle⟩ := h.error p
  have hsq : 0 ≤ squareSum p stream := by
    unfold squareSum
    refine List.sum_nonneg fun y hy => ?_
    obtain ⟨q, _, rfl⟩ := List.mem_map.1 hy
    positivity
  have ht : Total prog := h.total
  obtain ⟨x, hx, hxle⟩ := chebyshev ht (fun s => estimateOf p s - weightOf p stream) (v := w) hd
    (by rw [ex_eq ht hv]; linarith) (h.rep.all.mono fun _ _ => trivial)
  exact ⟨x, w, hx, hw', hxle⟩

/-! ## The hypotheses can be met -/

theorem stuck_audited : ∀ i ∈ stuckInputs, i.Audited := by
  intro i hi
  simp [stuckInputs] at hi
  rcases hi with rfl | rfl
  · exact C119_sketch (by decide) (by decide) _ (by simp)
  · exact C119_sketch (by decide) (by decide) _ (by simp)

theorem example_audited : ∀ i ∈ exampleInputs, i.Audited := by
  intro i hi
  simp [exampleInputs] at hi
  rcases hi with rfl | rfl | rfl
  · exact C119_sketch (by decide) (by decide) _ example_weights
  · exact ⟨Reservoir.natEnv_ok, by decide, by decide⟩
  · exact C119_union 0 (by decide) (by decide) _ stuck_audited

example := C119_union 0 (maxK := 3) (by decide) (by decide) _ example_audited

example := C119_tail (C119_sketch (k := 2) (by decide) (by decide) _ example_weights)
  (fun x => x = 4) (d := 3) (by norm_num)

end Verif.VarOpt
