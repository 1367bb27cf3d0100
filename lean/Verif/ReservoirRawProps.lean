import Verif.ReservoirRaw

/-!
# C121: reservoir unions fed with raw states
-/

namespace Verif.Reservoir

open Rand

variable {T : Type}

/-- C121: `UpdateFromRaw` with the state of a sketch is `UpdateSketch` with that sketch, up to the
growth of the array. -/
theorem C121_is_sketch (E : Env T) (u : Un T) {n k : Nat} {items : List T} (spare : Nat)
    (hk : 2 ≤ k) (hl : items.length = min n k) :
    u.updateFromRaw E n k items spare =
      u.updateSketch E (some ⟨k, n, 3, items, items.length + spare⟩) :=
  updateFromRaw_eq E u spare hk hl

/-- C121: feeding items, sketches and consistent states to a union in any order never fails.  `N()`
of the result is the number of all items they stand for, the result has `min(N, k)` samples for a
`k` of at most `maxK`, and they are among the items presented and the samples given, each used at
most once. -/
theorem C121_union (E : Env T) (hE : E.Ok) {maxK : Nat} (hk : 2 ≤ maxK) (cs : List (Call T))
    (hc : ∀ c ∈ cs, c.Ok E) (hm : (cs.map Call.size).sum ≤ 2 ^ 48 - 1) :
    All (fun u => match u.result with
        | none => (cs.map (Call.count E)).sum = 0
        | some s =>
          s.k ≤ maxK ∧ s.n = (cs.map (Call.count E)).sum ∧ s.data.length = min s.n s.k ∧
          List.Subperm s.data (cs.flatMap (Call.known E)))
      (callAll E maxK cs) := by
  have hn0 : (newUnion maxK : Un T).n = 0 := rfl
  refine (calls_all hE cs (newUnion_inv E hk) hc
    (by rw [hn0]; simpa [maxItemsSeen] using hm)).mono fun u h => ?_
  have hn := h.n
  have hd := h.sub
  rw [hn0, zero_add] at hn
  have hd0 : (newUnion maxK : Un T).data = [] := rfl
  rw [hd0, List.nil_append] at hd
  unfold Un.result
  unfold Un.n at hn
  unfold Un.data at hd
  cases hg : u.gadget with
  | none =>
    simp only [hg] at hn ⊢
    exact hn.symm
  | some g =>
    simp only [hg] at hn hd ⊢
    have := h.inv.gadget g hg
    exact ⟨le_trans this.2 (le_of_eq h.maxK), hn, this.1.len, hd⟩

/-- C121: the expected subset estimate of the result is the sum over the calls of the number of
matching items: those presented directly or to a sketch whose state was shipped, and for a state
given by hand the number its samples stand for. -/
theorem C121_unbiased (E : Env T) (hE : E.Ok) {maxK : Nat} (hk : 2 ≤ maxK) (cs : List (Call T))
    (hc : ∀ c ∈ cs, c.Ok E) (hm : (cs.map Call.size).sum ≤ 2 ^ 48 - 1) (p : T → Bool) :
    HasE (fun u => match u.result with
        | none => 0
        | some s => (estimateSubsetSum s p).1)
      (callAll E maxK cs) (cs.map (Call.matching E p)).sum := by
  have hn0 : (newUnion maxK : Un T).n = 0 := rfl
  have hm' : (newUnion maxK : Un T).n + (cs.map Call.size).sum ≤ maxItemsSeen := by
    rw [hn0]; simpa [maxItemsSeen] using hm
  have h := calls_E hE cs (newUnion_inv E hk) hc hm' p
  have he : (newUnion maxK : Un T).est p = 0 := rfl
  rw [he, zero_add] at h
  refine h.congr ((calls_all hE cs (newUnion_inv E hk) hc hm').mono fun u _ => ?_)
  unfold Un.est Un.result
  cases u.gadget <;> rfl

/-- C121: a state with `k` below two, more than `k` items or fewer than `min(n, k)` items is refused
with an error.  These are all the checks, so the full claim (every inconsistent state is refused) fails,
see `C121_inconsistent_refuted`. -/
theorem C121_refused_partial (E : Env T) (u : Un T) (n : Int) (k : Nat) (items : List T) (spare : Nat) :
    ((k < 2 ∨ k < items.length ∨ (items.length : Int) < min n k) →
      ∃ m, u.updateFromRaw E n k items spare = .err m) ∧
    ((∃ r, fromStates items n 3 k = .ok r) ↔
      2 ≤ k ∧ items.length ≤ k ∧ min n k ≤ items.length) := by
  refine ⟨fun h => ?_, fromStates_ok items n 3 k⟩
  unfold Un.updateFromRaw fromStates
  by_cases h1 : k < 2
  · rw [if_pos h1]; exact ⟨_, rfl⟩
  rw [if_neg h1]
  by_cases h2 : k < items.length
  · rw [if_pos h2]; exact ⟨_, rfl⟩
  rw [if_neg h2, if_pos (by omega)]
  exact ⟨_, rfl⟩

/-- Finding: a count smaller than the number of items is accepted, and so is a negative one.  The
result of the union then says it has seen one item and has three samples. -/
theorem C121_inconsistent_refuted :
    ((do
      let u ← (newUnion 4 : Un Nat).updateFromRaw natEnv 1 4 [7, 8, 9] 0
      pure (u.result.map fun s => (s.n, s.data))) = Rand.ret (some (1, [7, 8, 9]))) ∧
    ∃ r, fromStates [7, 8, 9] (-5) 3 4 = .ok r := ⟨rfl, _, rfl⟩

/-- Finding: an empty state in a slice without room, given first and with `k = maxK`, blocks the
union: every later `Update` returns the error for a full sketch, although nothing was seen. -/
theorem C121_empty_blocks (E : Env T) {maxK : Nat} (hk : 2 ≤ maxK) {x : T}
    (hx : E.isNil x = false) :
    ((newUnion maxK : Un T).updateFromRaw E 0 maxK [] 0 >>= fun u => u.update E x) =
      .err "sketch exceeds max capacity" := by
  have h := updateFromRaw_eq E (newUnion maxK : Un T) (n := 0) (k := maxK) (items := []) 0 hk
    (by simp)
  have h1 : (newUnion maxK : Un T).updateSketch E (some ⟨maxK, 0, 3, [], 0⟩) =
      Rand.ret ⟨maxK, some ⟨maxK, 0, 3, [], 0⟩⟩ := by
    unfold Un.updateSketch Un.prepare Un.absorb newUnion createNewGadget
    simp only [gt_iff_lt, lt_irrefl, if_false, Rand.ret_bind, false_and]
  have h2 : (newUnion maxK : Un T).updateFromRaw E 0 maxK [] 0 =
      Rand.ret ⟨maxK, some ⟨maxK, 0, 3, [], 0⟩⟩ := h.trans h1
  rw [h2, Rand.ret_bind]
  unfold Un.update Un.gadgetOrNew
  rw [if_neg (by simp [hx])]
  simp only [Rand.ret_bind]
  unfold update
  have hp : (0 : Nat) < maxK := by omega
  simp only [if_neg (show ¬ (0 : Nat) = maxItemsSeen by decide), if_neg (show ¬ E.isNil x = true by
    simp [hx]), if_pos hp]
  have hg : (growReservoir E ⟨maxK, 0, 3, [], 0⟩).cap = 0 := by
    unfold growReservoir growSlice adjustedSize
    simp
  rw [if_pos (Nat.zero_le _), if_pos (by rw [hg])]
  rfl

/-- Two items, a sketch of a stream, a state standing for a hundred items and a shipped sample. -/
def someCalls : List (Call Nat) :=
  [.input (.item 1), .input (.sketch 4 3 [1, 2, 3, 4, 5, 6]), .raw 100 3 [7, 8, 9] 0,
    .shipped 5 3 [10, 11, 12, 13, 14, 15, 16, 17] 3]

theorem someCalls_ok : ∀ c ∈ someCalls, c.Ok natEnv := by
  intro c hc
  simp only [someCalls, List.mem_cons, List.not_mem_nil, or_false] at hc
  rcases hc with rfl | rfl | rfl | rfl
  · trivial
  · show 2 ≤ 4; omega
  · exact ⟨by omega, rfl, by decide, fun _ _ => rfl⟩
  · exact ⟨by omega, by omega⟩

example := C121_union natEnv natEnv_ok (maxK := 4) (by decide) someCalls someCalls_ok (by decide)

example : (someCalls.map (Call.count natEnv)).sum = 115 := rfl

end Verif.Reservoir
