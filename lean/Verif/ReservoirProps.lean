import Verif.ReservoirUniform
import Verif.ReservoirUnion

/-!
# Properties of reservoir sampling (C39) and of its union (C46)

`Rand.All`: for whatever the random generator returns.  `Rand.HasE` / `Rand.HasProb`: on average
over independent uniform draws (see `Verif.Rand`).
-/

namespace Verif.Reservoir

open Rand

variable {T : Type}

/-- A caller that makes a sketch and presents a stream. -/
def sample (E : Env T) (k rf : Nat) (stream : List T) : Rand (Sk T) :=
  ofOutcome (new k rf) >>= fun s => updates E s stream

theorem sample_eq (E : Env T) {k : Nat} (hk : 2 ≤ k) (rf : Nat) (stream : List T) :
    sample E k rf stream
      = updates E { k := k, n := 0, rf := rf, data := [], cap := initialCap k rf } stream := by
  unfold sample
  rw [new_ok hk, ofOutcome_ok, ret_bind]

/-- C39: a sketch refuses a sample size below two. -/
theorem C39_small_k (E : Env T) {k : Nat} (hk : k < 2) (rf : Nat) (stream : List T) :
    sample E k rf stream = .err "k must be at least 2" := by
  unfold sample new
  rw [if_pos hk]
  rfl

/-- C39: whatever the generator returns, no update fails; `N()` is the number of (non-nil) items
presented, the sample has `min(N, k)` items, they are items of the stream at different positions,
and they are the whole stream in order as long as it has at most `k` items. -/
theorem C39_sample (E : Env T) (hE : E.Ok) {k : Nat} (hk : 2 ≤ k) (rf : Nat) (stream : List T)
    (hm : stream.length ≤ 2 ^ 48 - 1) :
    All (fun s =>
        s.k = k ∧
        s.n = (stream.filter fun x => !E.isNil x).length ∧
        s.data.length = min s.n k ∧
        List.Subperm s.data (stream.filter fun x => !E.isNil x) ∧
        (s.n ≤ k → s.data = stream.filter fun x => !E.isNil x))
      (sample E k rf stream) := by
  rw [sample_eq E hk]
  refine (updates_all hE stream (Inv.new rf hk) (by simpa [maxItemsSeen] using hm)).mono
    fun s h => ?_
  obtain ⟨i, hk', _, n, f, p⟩ := h
  simp only [zero_add, List.nil_append] at n f p
  refine ⟨hk', n, by rw [i.len, hk'], p, fun h => f ?_⟩
  rw [n] at h
  exact h

/-- C39: for a stream of distinct items every set of `k` of them is the sample with the same
probability `1 / C(n,k)`. -/
theorem C39_uniform [DecidableEq T] (E : Env T) (hE : E.Ok) {k : Nat} (hk : 2 ≤ k) (rf : Nat)
    (stream : List T) (hlive : ∀ x ∈ stream, E.isNil x = false) (hnd : stream.Nodup)
    (hm : stream.length ≤ 2 ^ 48 - 1) (hkn : k ≤ stream.length)
    (S : Finset T) (hS : ∀ x ∈ S, x ∈ stream) (hcard : S.card = k) :
    HasProb (fun s : Sk T => s.data.toFinset = S) (sample E k rf stream)
      (1 / (stream.length.choose k : ℚ)) := by
  rw [sample_eq E hk]
  exact updates_uniform hE (Inv.new rf hk) rfl stream hlive hnd
    (by simpa [maxItemsSeen] using hm) hkn S (fun x hx => List.mem_toFinset.2 (hS x hx)) hcard

/-- C39: the expected value of `EstimateSubsetSum` is the number of presented items that match the
predicate, for every stream (with or without repeated items) and every predicate. -/
theorem C39_unbiased (E : Env T) (hE : E.Ok) {k : Nat} (hk : 2 ≤ k) (rf : Nat) (stream : List T)
    (hm : stream.length ≤ 2 ^ 48 - 1) (p : T → Bool) :
    HasE (fun s => (estimateSubsetSum s p).1) (sample E k rf stream)
      ((stream.filter fun x => !E.isNil x).countP p) := by
  rw [sample_eq E hk]
  have := updates_E hE stream (Inv.new (E := E) rf hk) (by simpa [maxItemsSeen] using hm) p
  rw [est_exact (Inv.new (E := E) rf hk) (Nat.zero_le _)] at this
  have h2 : HasE (est p) (updates E { k := k, n := 0, rf := rf, data := [], cap := initialCap k rf } stream)
      ((stream.filter fun x => !E.isNil x).countP p) := by simpa [live] using this
  exact h2

/-- C39: every item of a stream of distinct items is in the sample with probability `k/n`. -/
theorem C39_inclusion [DecidableEq T] (E : Env T) (hE : E.Ok) {k : Nat} (hk : 2 ≤ k) (rf : Nat)
    (stream : List T) (hlive : ∀ x ∈ stream, E.isNil x = false) (hnd : stream.Nodup)
    (hm : stream.length ≤ 2 ^ 48 - 1) (hkn : k ≤ stream.length) {x : T} (hx : x ∈ stream) :
    HasProb (fun s : Sk T => x ∈ s.data) (sample E k rf stream) ((k : ℚ) / stream.length) := by
  have hfil : (stream.filter fun y => !E.isNil y) = stream := live_of hlive
  have h1 := (C39_unbiased E hE hk rf stream hm (fun y => y == x)).affine
    ((k : ℚ) / stream.length) 0
  rw [hfil] at h1
  have hc : stream.countP (fun y => y == x) = 1 := List.count_eq_one_of_mem hnd hx
  rw [hc, Nat.cast_one, mul_one, add_zero] at h1
  refine h1.congr ?_
  rw [sample_eq E hk]
  refine (updates_all hE stream (Inv.new (E := E) rf hk) (by simpa [maxItemsSeen] using hm)).mono
    fun s h => ?_
  obtain ⟨i, hk', _, n, f, p⟩ := h
  have hlv : live E stream = stream := hfil
  rw [hlv] at n p
  simp only [zero_add, List.nil_append] at n p hk'
  obtain ⟨l', hp, hsub⟩ := p
  have hd : s.data.Nodup := hp.nodup_iff.1 (hsub.nodup hnd)
  have hlen : s.data.length = k := by rw [i.len, hk']; omega
  have he : (estimateSubsetSum s (fun y => y == x)).1 = est (fun y => y == x) s := rfl
  rw [he, est_eq i, n, hlen, add_zero]
  have hk0 : (k : ℚ) ≠ 0 := by exact_mod_cast (by omega : k ≠ 0)
  have hn0 : (stream.length : ℚ) ≠ 0 := by exact_mod_cast (by omega : stream.length ≠ 0)
  by_cases hxs : x ∈ s.data
  · rw [if_pos hxs]
    have : s.data.countP (fun y => y == x) = 1 := List.count_eq_one_of_mem hd hxs
    rw [this]
    field_simp
    simp
  · rw [if_neg hxs]
    have : s.data.countP (fun y => y == x) = 0 := List.count_eq_zero.2 hxs
    rw [this]
    simp

/-- C39: `TotalSketchWeight` is the number of items seen. -/
theorem C39_total_weight (E : Env T) (hE : E.Ok) {k : Nat} (hk : 2 ≤ k) (rf : Nat)
    (stream : List T) (hm : stream.length ≤ 2 ^ 48 - 1) (p : T → Bool) :
    All (fun s => (estimateSubsetSum s p).2 = s.n) (sample E k rf stream) := by
  refine (C39_sample E hE hk rf stream hm).mono fun s h => ?_
  obtain ⟨hk', _, hl, _, _⟩ := h
  unfold estimateSubsetSum
  by_cases h0 : s.n = 0
  · rw [if_pos h0, h0]; simp
  · rw [if_neg h0]
    dsimp only
    by_cases h1 : s.n ≤ s.k
    · rw [if_pos h1]
      unfold Sk.numSamples
      dsimp only
      rw [hl, hk'.symm, Nat.min_eq_left h1]
    · rw [if_neg h1]

/-- C39: a sketch that was reset is a new sketch. -/
theorem C39_reset (E : Env T) (hE : E.Ok) {k : Nat} (hk : 2 ≤ k) (rf : Nat) (stream : List T)
    (hm : stream.length ≤ 2 ^ 48 - 1) :
    All (fun s => Outcome.ok (reset s) = new k rf) (sample E k rf stream) := by
  rw [sample_eq E hk]
  refine (updates_all hE stream (Inv.new rf hk) (by simpa [maxItemsSeen] using hm)).mono
    fun s h => ?_
  obtain ⟨_, hk', r, _⟩ := h
  rw [new_ok hk]
  unfold reset
  dsimp only at hk' r
  rw [hk', r]

/-! ## Union -/

/-- An input of the union: a single item, or a stream that was sampled by a sketch of its own. -/
inductive Input (T : Type) where
  | item (x : T)
  | sketch (k rf : Nat) (stream : List T)

/-- The items an input stands for. -/
def Input.items : Input T → List T
  | item x => [x]
  | sketch _ _ stream => stream

def Input.Ok : Input T → Prop
  | item _ => True
  | sketch k _ _ => 2 ≤ k

/-- One call of the union. -/
def feed (E : Env T) (u : Un T) : Input T → Rand (Un T)
  | .item x => u.update E x
  | .sketch k rf stream => sample E k rf stream >>= fun s => u.updateSketch E (some s)

/-- A caller that makes a union and feeds inputs to it. -/
def unionOf (E : Env T) (maxK : Nat) (inputs : List (Input T)) : Rand (Un T) :=
  inputs.foldlM (feed E) (newUnion maxK)

theorem feed_all {E : Env T} (hE : E.Ok) {u : Un T} (hu : UInv E u) (i : Input T) (hi : i.Ok)
    (hm : u.n + i.items.length ≤ maxItemsSeen) :
    All (UStep E u (live E i.items) (live E i.items).length) (feed E u i) := by
  cases i with
  | item x =>
    simp only [feed, Input.items]
    simp only [Input.items, List.length_singleton] at hm
    cases hx : E.isNil x with
    | true =>
      rw [live_cons_nil hx]
      unfold Un.update
      rw [if_pos hx]
      exact ⟨hu, rfl, rfl, by simp only [live, List.filter_nil, List.append_nil]; exact List.Subperm.refl _⟩
    | false =>
      rw [live_cons_live hx]
      exact unUpdate_all hE hu hx (by omega)
  | sketch k rf stream =>
    simp only [feed, Input.items]
    simp only [Input.items] at hm
    have hk : 2 ≤ k := hi
    rw [sample_eq E hk]
    refine (updates_all hE stream (Inv.new rf hk) (by dsimp only; omega)).bind fun s h => ?_
    obtain ⟨is, _, _, n, _, p⟩ := h
    simp only [zero_add, List.nil_append] at n p
    have hll : (live E stream).length ≤ stream.length := List.length_filter_le _ _
    refine (updateSketch_all hE hu is (by omega)).mono fun u' h' => ?_
    exact ⟨h'.inv, h'.maxK, by rw [h'.n, n], h'.sub.trans ((List.subperm_append_left _).2 p)⟩

theorem feed_E {E : Env T} (hE : E.Ok) {u : Un T} (hu : UInv E u) (i : Input T) (hi : i.Ok)
    (hm : u.n + i.items.length ≤ maxItemsSeen) (p : T → Bool) :
    HasE (Un.est p) (feed E u i) (u.est p + (live E i.items).countP p) := by
  cases i with
  | item x =>
    simp only [feed, Input.items]
    simp only [Input.items, List.length_singleton] at hm
    cases hx : E.isNil x with
    | true =>
      rw [live_cons_nil hx]
      unfold Un.update
      rw [if_pos hx]
      simp only [live, List.filter_nil, List.countP_nil, Nat.cast_zero, add_zero]
      exact rfl
    | false =>
      rw [live_cons_live hx]
      have := unUpdate_E hE hu hx (by omega) p
      have he : ((x :: live E []).countP p : ℚ) = ind (p x) := by
        unfold ind live
        rw [List.filter_nil, List.countP_cons, List.countP_nil]
        split <;> simp
      rwa [he]
  | sketch k rf stream =>
    simp only [feed, Input.items]
    simp only [Input.items] at hm
    have hk : 2 ≤ k := hi
    rw [sample_eq E hk]
    have hi0 : Inv E ({ k := k, n := 0, rf := rf, data := [], cap := initialCap k rf } : Sk T) :=
      Inv.new rf hk
    have hm0 : 0 + stream.length ≤ maxItemsSeen := by omega
    have h1 := (updates_E hE stream hi0 hm0 p).affine 1 (u.est p)
    rw [est_exact hi0 (Nat.zero_le _)] at h1
    have he : 1 * (((List.countP p [] : Nat) : ℚ) + (live E stream).countP p) + u.est p
        = u.est p + (live E stream).countP p := by
      rw [List.countP_nil]; push_cast; ring
    rw [he] at h1
    refine h1.bind ((updates_all hE stream hi0 hm0).mono fun s h => ?_)
    obtain ⟨is, _, _, n, _, _⟩ := h
    simp only [zero_add] at n
    have hll : (live E stream).length ≤ stream.length := List.length_filter_le _ _
    rw [one_mul, add_comm]
    exact updateSketch_E hE hu is (by omega) p

/-- All items presented to the union. -/
def allItems (inputs : List (Input T)) : List T := inputs.flatMap Input.items

theorem fold_all {E : Env T} (hE : E.Ok) (inputs : List (Input T)) {u : Un T} (hu : UInv E u)
    (hi : ∀ i ∈ inputs, i.Ok) (hm : u.n + (allItems inputs).length ≤ maxItemsSeen) :
    All (UStep E u (live E (allItems inputs)) (live E (allItems inputs)).length)
      (inputs.foldlM (feed E) u) := by
  induction inputs generalizing u with
  | nil =>
    exact ⟨hu, rfl, rfl, by
      simp only [allItems, List.flatMap_nil, live, List.filter_nil, List.append_nil]
      exact List.Subperm.refl _⟩
  | cons i inputs ih =>
    have hall : allItems (i :: inputs) = i.items ++ allItems inputs := by simp [allItems]
    have hlive : live E (allItems (i :: inputs)) = live E i.items ++ live E (allItems inputs) := by
      rw [hall]; simp [live]
    have hll : (live E i.items).length ≤ i.items.length := List.length_filter_le _ _
    rw [hall, List.length_append] at hm
    rw [hlive, List.foldlM_cons]
    refine (feed_all hE hu i (hi i (by simp)) (by omega)).bind fun u1 h1 => ?_
    refine (ih h1.inv (fun j hj => hi j (by simp [hj])) (by rw [h1.n]; omega)).mono fun u2 h2 => ?_
    refine ⟨h2.inv, by rw [h2.maxK, h1.maxK], by rw [h2.n, h1.n, List.length_append]; omega, ?_⟩
    refine h2.sub.trans ?_
    rw [← List.append_assoc]
    exact (List.subperm_append_right _).2 h1.sub

theorem fold_E {E : Env T} (hE : E.Ok) (inputs : List (Input T)) {u : Un T} (hu : UInv E u)
    (hi : ∀ i ∈ inputs, i.Ok) (hm : u.n + (allItems inputs).length ≤ maxItemsSeen) (p : T → Bool) :
    HasE (Un.est p) (inputs.foldlM (feed E) u) (u.est p + (live E (allItems inputs)).countP p) := by
  induction inputs generalizing u with
  | nil =>
    simp only [allItems, List.flatMap_nil, live, List.filter_nil, List.countP_nil, Nat.cast_zero,
      add_zero]
    exact rfl
  | cons i inputs ih =>
    have hall : allItems (i :: inputs) = i.items ++ allItems inputs := by simp [allItems]
    have hlive : live E (allItems (i :: inputs)) = live E i.items ++ live E (allItems inputs) := by
      rw [hall]; simp [live]
    have hll : (live E i.items).length ≤ i.items.length := List.length_filter_le _ _
    rw [hall, List.length_append] at hm
    rw [hlive, List.foldlM_cons, List.countP_append]
    have h1 := (feed_E hE hu i (hi i (by simp)) (by omega) p).affine 1
      ((live E (allItems inputs)).countP p)
    refine (Eq.mp (by congr 1; push_cast; ring) h1 :
      HasE (fun a => 1 * Un.est p a + ((live E (allItems inputs)).countP p : ℚ)) (feed E u i)
        (u.est p + (((live E i.items).countP p + (live E (allItems inputs)).countP p : Nat) : ℚ))).bind ?_
    refine (feed_all hE hu i (hi i (by simp)) (by omega)).mono fun u1 h1 => ?_
    have := ih h1.inv (fun j hj => hi j (by simp [hj])) (by rw [h1.n]; omega)
    rwa [one_mul]

theorem newUnion_inv (E : Env T) {maxK : Nat} (hk : 2 ≤ maxK) : UInv E (newUnion maxK : Un T) :=
  ⟨hk, fun g h => by cases h⟩

/-- C46: whatever the generator returns, feeding single items and sketches to a union never fails;
`N()` of the result is the number of all items presented (to the union or to the sketches), the
result has `min(N, k)` samples for a `k` of at most `maxK`, and they are presented items at
different positions. -/
theorem C46_union (E : Env T) (hE : E.Ok) {maxK : Nat} (hk : 2 ≤ maxK) (inputs : List (Input T))
    (hi : ∀ i ∈ inputs, i.Ok) (hm : (allItems inputs).length ≤ 2 ^ 48 - 1) :
    All (fun u => match u.result with
        | none => (allItems inputs).filter (fun x => !E.isNil x) = []
        | some s =>
          s.k ≤ maxK ∧
          s.n = ((allItems inputs).filter fun x => !E.isNil x).length ∧
          s.data.length = min s.n s.k ∧
          List.Subperm s.data ((allItems inputs).filter fun x => !E.isNil x))
      (unionOf E maxK inputs) := by
  have hn0 : (newUnion maxK : Un T).n = 0 := rfl
  refine (fold_all hE inputs (newUnion_inv E hk) hi
    (by rw [hn0]; simpa [maxItemsSeen] using hm)).mono fun u h => ?_
  have hn := h.n
  have hd := h.sub
  rw [hn0, zero_add] at hn
  have hd0 : (newUnion maxK : Un T).data = [] := rfl
  rw [hd0, List.nil_append] at hd
  unfold Un.result
  unfold Un.n at hn
  unfold Un.data at hd
  cases hg : u.gadget with
  | none =>
    simp only [hg] at hn ⊢
    exact List.length_eq_zero_iff.1 hn.symm
  | some g =>
    simp only [hg] at hn hd ⊢
    have := h.inv.gadget g hg
    refine ⟨le_trans this.2 (le_of_eq h.maxK), hn, this.1.len, hd⟩

/-- C46: the expected value of the subset estimate of the union's result is the number of presented
items that match the predicate: taking the union does not bias the sample, whatever the sizes of
the sketches and the order. -/
theorem C46_union_unbiased (E : Env T) (hE : E.Ok) {maxK : Nat} (hk : 2 ≤ maxK)
    (inputs : List (Input T)) (hi : ∀ i ∈ inputs, i.Ok)
    (hm : (allItems inputs).length ≤ 2 ^ 48 - 1) (p : T → Bool) :
    HasE (fun u => match u.result with
        | none => 0
        | some s => (estimateSubsetSum s p).1)
      (unionOf E maxK inputs)
      (((allItems inputs).filter fun x => !E.isNil x).countP p) := by
  have hn0 : (newUnion maxK : Un T).n = 0 := rfl
  have h := fold_E hE inputs (newUnion_inv E hk) hi
    (by rw [hn0]; simpa [maxItemsSeen] using hm) p
  have he : (newUnion maxK : Un T).est p = 0 := rfl
  rw [he, zero_add] at h
  refine h.congr ((fold_all hE inputs (newUnion_inv E hk) hi
    (by rw [hn0]; simpa [maxItemsSeen] using hm)).mono fun u _ => ?_)
  unfold Un.est Un.result
  cases u.gadget <;> rfl

/-- Finding: `NewReservoirItemsUnion` accepts any `maxK`; with `maxK < 2` the first `Update`
dereferences nil. -/
theorem C46_small_maxK_panics (E : Env T) {maxK : Nat} (hk : maxK < 2) {x : T}
    (hx : E.isNil x = false) : (newUnion maxK : Un T).update E x = .panic := by
  unfold Un.update Un.gadgetOrNew newUnion new
  rw [if_neg (by simp [hx])]
  simp only [if_pos hk]
  rfl

/-- Finding: `Reset` of a union that has seen nothing dereferences nil. -/
theorem C46_reset_fresh_panics (maxK : Nat) : (newUnion maxK : Un T).reset = .panic := rfl

/-- An environment for the examples: natural numbers, none of them nil. -/
def natEnv : Env Nat := { isNil := fun _ => false, grow := fun m => m }

theorem natEnv_ok : natEnv.Ok := fun m => Nat.le_refl m

/-- Finding: the documentation of the union promises at most `min(k1, k2)` samples.  Two exact
sketches with `k = 2` and `k = 3` give five samples. -/
theorem C46_more_than_min_k :
    (do
      let u ← unionOf natEnv 10 [.sketch 2 3 [1, 2], .sketch 3 3 [3, 4, 5]]
      pure (u.result.map fun s => s.data)) = Rand.ret (some [1, 2, 3, 4, 5]) := rfl

/-! ## The hypotheses can be met -/

example := C39_sample natEnv natEnv_ok (k := 2) (by decide) 3 [5, 6, 7] (by decide)

example : HasProb (fun s : Sk Nat => s.data.toFinset = {5, 7}) (sample natEnv 2 3 [5, 6, 7])
    (1 / 3) := by
  have := C39_uniform natEnv natEnv_ok (k := 2) (by decide) 3 [5, 6, 7] (fun _ _ => rfl)
    (by decide) (by decide) (by decide) {5, 7} (by decide) (by decide)
  have hc : Nat.choose [5, 6, 7].length 2 = 3 := rfl
  rw [hc] at this
  exact_mod_cast this

example : HasProb (fun s : Sk Nat => 6 ∈ s.data) (sample natEnv 2 3 [5, 6, 7]) (2 / 3) := by
  have := C39_inclusion natEnv natEnv_ok (k := 2) (by decide) 3 [5, 6, 7] (fun _ _ => rfl)
    (by decide) (by decide) (by decide) (x := 6) (by decide)
  simpa using this

/-- Streams longer than `k`, of different sizes: the weighted merge is exercised. -/
example := C46_union_unbiased natEnv natEnv_ok (maxK := 3) (by decide)
  [.sketch 2 3 [1, 2, 3, 4], .sketch 5 3 [5, 6, 7, 8, 9, 10, 11], .item 12]
  (by intro i hi; simp at hi; rcases hi with rfl | rfl | rfl <;> simp [Input.Ok]) (by decide) (fun x => x < 6)

example := C39_unbiased natEnv natEnv_ok (k := 2) (by decide) 3 [5, 6, 6] (by decide) (fun x => x = 6)
example := C39_total_weight natEnv natEnv_ok (k := 2) (by decide) 3 [5, 6, 6] (by decide) (fun x => x = 6)
example := C39_reset natEnv natEnv_ok (k := 2) (by decide) 3 [5, 6, 6] (by decide)
example := C39_small_k natEnv (k := 1) (by decide) 3 [5]
example := C46_small_maxK_panics natEnv (maxK := 1) (by decide) (x := 5) rfl
example := C46_union natEnv natEnv_ok (maxK := 3) (by decide)
  [.sketch 2 3 [1, 2, 3, 4], .sketch 5 3 [5, 6, 7, 8, 9, 10, 11], .item 12]
  (by intro i hi; simp at hi; rcases hi with rfl | rfl | rfl <;> simp [Input.Ok]) (by decide)

end Verif.Reservoir
