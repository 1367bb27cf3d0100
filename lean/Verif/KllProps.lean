import Verif.KllRun

/-!
# Properties of the KLL items sketch (C32, C33, C34, C48)

`run env ops`: any program of creations, updates, merges and resets over any number of sketches
(`Verif.Kll.Op`).  `streams ops`: the items each sketch stands for.  `Valid ops`: `k` between 8 and
65535, `m` between 2 and `k`, no sketch merged into itself, streams below `2^60` items.
`Rand.All`: whatever the coin shows.  `Rand.HasE`, `Rand.ELe`: (an upper bound of) the expected
value over independent fair coins.
-/

namespace Verif.Kll

open Verif

variable {α : Type}

theorem ks_of_valid {ops : List (Op α)} (hv : Valid ops) : ∀ op ∈ ops, Ks False 1 op := by
  intro o ho
  cases o with
  | new k m =>
    obtain ⟨pre, post, he⟩ := List.append_of_mem ho
    have := hv pre _ post he
    exact ⟨by have := this.1; omega, fun h => h.elim⟩
  | _ => exact trivial

/-- C32: no valid program fails, whatever the coin shows; `GetN` is the number of items presented,
the weights `2^level` of the retained items add up to it, and `GetNumRetained` counts the items of
all levels. -/
theorem C32_weight (env : Env α) (hs : ∀ l, (env.sort l).Perm l) (ops : List (Op α))
    (hv : Valid ops) :
    Rand.All (fun st => st.length = (streams ops).length ∧ ∀ i s, st[i]? = some s →
        s.n = ((streams ops).getD i []).length ∧
        weightOf (fun _ => true) s = s.n ∧
        getNumRetained s = .ok (((List.range s.numLevels).map fun h => (levelItems s h).length).sum))
      (run env ops) := by
  refine (run_link hs (by omega) ops hv (ks_of_valid hv)).mono fun st hst => ⟨hst.len, ?_⟩
  intro i s hi
  obtain ⟨a, hr, hinv, _⟩ := hst.link i s hi
  refine ⟨by rw [hr.n, hinv.core.len], ?_, ?_⟩
  · rw [hr.weightOf, hr.n, ← hinv.core.weight]; rfl
  · have h1 : getNumRetained s = .ok (size a.Ls) := by
      unfold getNumRetained
      rw [hr.levels, hr.numLevels, rd_offs _ _ (Nat.le_refl _), Outcome.ok_bind,
        rd_offs _ _ (Nat.zero_le _), Outcome.ok_bind, List.take_length, sub_ok (by simp)]
      simp
    rw [h1, hr.numLevels]
    congr 1
    have h2 : ((List.range a.Ls.length).map fun h => (levelItems s h).length) =
        (List.range a.Ls.length).map fun h => (a.Ls.getD h []).length :=
      List.map_congr_left fun h hh => by rw [hr.levelItems (List.mem_range.1 hh)]
    rw [h2]
    clear h1 h2 hr hinv
    generalize a.Ls = Ls
    induction Ls with
    | nil => rfl
    | cons l ls ih =>
      rw [List.length_cons, List.range_succ_eq_map]
      simp only [List.map_cons, List.map_map, List.sum_cons, size_cons]
      rw [ih]
      rfl

/-- C33: `GetMinItem` / `GetMaxItem` return items of the stream such that no item of the stream is
smaller / larger; on an empty stream they are errors. -/
theorem C33_min_max (env : Env α) (hs : ∀ l, (env.sort l).Perm l) (ho : IsOrd env.lt)
    (ops : List (Op α)) (hv : Valid ops) :
    Rand.All (fun st => ∀ i s, st[i]? = some s →
        (getMinItem s = .err "empty" ∧ getMaxItem s = .err "empty" ∧ (streams ops).getD i [] = []) ∨
        (∃ lo hi, getMinItem s = .ok lo ∧ getMaxItem s = .ok hi ∧
          lo ∈ (streams ops).getD i [] ∧ hi ∈ (streams ops).getD i [] ∧
          ∀ y ∈ (streams ops).getD i [], env.lt y lo = false ∧ env.lt hi y = false))
      (run env ops) := by
  refine (run_link hs (by omega) ops hv (ks_of_valid hv)).mono fun st hst => ?_
  intro i s hi
  obtain ⟨a, hr, hinv, _⟩ := hst.link i s hi
  have hmm := hinv.mm ho
  by_cases h0 : (streams ops).getD i [] = []
  · left
    have hn : s.n = 0 := by rw [hr.n, ← hinv.core.len, h0]; rfl
    exact ⟨by simp [getMinItem, isEmpty, hn], by simp [getMaxItem, isEmpty, hn], h0⟩
  · right
    have hn : s.n ≠ 0 := by
      rw [hr.n, ← hinv.core.len]
      exact fun h => h0 (List.eq_nil_of_length_eq_zero h)
    refine ⟨s.minItem, s.maxItem, by simp [getMinItem, isEmpty, hn],
      by simp [getMaxItem, isEmpty, hn], ?_, ?_, fun y hy => ⟨?_, ?_⟩⟩
    · rw [hr.minItem]; exact hmm.minMem h0
    · rw [hr.maxItem]; exact hmm.maxMem h0
    · rw [hr.minItem]; exact hmm.minLe y hy
    · rw [hr.maxItem]; exact hmm.maxGe y hy

/-- C33: every retained item was presented. -/
theorem C33_retained (env : Env α) (hs : ∀ l, (env.sort l).Perm l) (ops : List (Op α))
    (hv : Valid ops) :
    Rand.All (fun st => ∀ i s, st[i]? = some s → ∀ h < s.numLevels, ∀ x ∈ levelItems s h,
        x ∈ (streams ops).getD i [])
      (run env ops) := by
  refine (run_link hs (by omega) ops hv (ks_of_valid hv)).mono fun st hst => ?_
  intro i s hi h hh x hx
  obtain ⟨a, hr, hinv, _⟩ := hst.link i s hi
  rw [hr.numLevels] at hh
  rw [hr.levelItems hh] at hx
  apply hinv.core.mem x
  rw [List.mem_flatten]
  refine ⟨a.Ls.getD h [], ?_, hx⟩
  rw [List.getD_eq_getElem?_getD, List.getElem?_eq_getElem hh]
  exact List.getElem_mem hh

/-- C34: for every item `q` the weight of the retained items below `q` differs from the number of
presented items below `q` by at most the sum of `2^h` over the compactions of level `h` performed;
the same for "at or below". -/
theorem C34_rank_error (env : Env α) (ho : IsOrd env.lt) (hso : Sorts env) (ops : List (Op α))
    (hv : Valid ops) :
    Rand.All (fun st => ∀ i s, st[i]? = some s → ∀ q,
        ((weightOf (fun y => env.lt y q) s : Int) -
            (((streams ops).getD i []).countP fun y => env.lt y q : Nat)).natAbs
          ≤ (s.log.map fun h => 2 ^ h).sum ∧
        ((weightOf (fun y => !env.lt q y) s : Int) -
            (((streams ops).getD i []).countP fun y => !env.lt q y : Nat)).natAbs
          ≤ (s.log.map fun h => 2 ^ h).sum)
      (run env ops) := by
  refine (run_link hso.perm (by omega) ops hv (ks_of_valid hv)).mono fun st hst => ?_
  intro i s hi q
  obtain ⟨a, hr, hinv, _⟩ := hst.link i s hi
  have herr := (hinv.srt ho hso).err
  have e : (s.log.map fun h => 2 ^ h).sum = q2 a.log := by rw [hr.log]; rfl
  rw [e, hr.weightOf, hr.weightOf]
  refine ⟨?_, ?_⟩
  · have := herr _ (down_lt ho q)
    omega
  · have := herr _ (down_le ho q)
    omega

/-- C34: as long as the sketch is not in estimation mode all ranks are exact. -/
theorem C34_exact (env : Env α) (ho : IsOrd env.lt) (hso : Sorts env) (ops : List (Op α))
    (hv : Valid ops) :
    Rand.All (fun st => ∀ i s, st[i]? = some s → isEstimationMode s = false → ∀ q,
        weightOf (fun y => env.lt y q) s = ((streams ops).getD i []).countP (fun y => env.lt y q) ∧
        weightOf (fun y => !env.lt q y) s = ((streams ops).getD i []).countP (fun y => !env.lt q y))
      (run env ops) := by
  refine (run_link hso.perm (by omega) ops hv (ks_of_valid hv)).mono fun st hst => ?_
  intro i s hi he q
  obtain ⟨a, hr, hinv, _⟩ := hst.link i s hi
  have herr := (hinv.srt ho hso).err
  have h1 : a.Ls.length = 1 := by
    have h2 := List.length_pos_of_ne_nil hinv.core.ne
    have h3 : ¬ 1 < s.numLevels := by simpa [isEstimationMode] using he
    rw [hr.numLevels] at h3
    omega
  have hl := hinv.core.one h1
  rw [hr.weightOf, hr.weightOf]
  refine ⟨?_, ?_⟩
  · have := herr _ (down_lt ho q)
    rw [hl, q2_nil] at this
    omega
  · have := herr _ (down_le ho q)
    rw [hl, q2_nil] at this
    omega

/-- C34: a sketch with fewer items than the smallest `k` involved is not in estimation mode. -/
theorem C34_small (env : Env α) (hs : ∀ l, (env.sort l).Perm l) (ops : List (Op α)) (hv : Valid ops)
    {κ : Nat} (h0 : 0 < κ) (hk : ∀ k m, Op.new k m ∈ ops → κ ≤ k ∧ k ≤ 32767) :
    Rand.All (fun st => ∀ i s, st[i]? = some s → ((streams ops).getD i []).length < κ →
      isEstimationMode s = false) (run env ops) := by
  refine (run_link (K := True) (κ := κ) hs h0 ops hv (by
    intro o ho
    cases o with
    | new k m => exact ⟨(hk k m ho).1, fun _ => (hk k m ho).2⟩
    | _ => exact trivial)).mono fun st hst => ?_
  intro i s hi hlt
  obtain ⟨a, hr, hinv, hκ⟩ := hst.link i s hi
  obtain ⟨_, hpot⟩ := hinv.pot trivial
  have h1 : a.Ls.length = 1 := by
    rcases hpot.top with h | h
    · exact h
    · rw [← hinv.core.len] at h
      have h3 : 1 ≤ 2 ^ (a.Ls.length - 2) := Nat.one_le_two_pow
      have h4 := Nat.mul_le_mul_left a.minK h3
      omega
  simp [isEstimationMode, hr.numLevels, h1]

/-- A stream into a fresh sketch. -/
def streamProg (k m : Nat) (xs : List α) : List (Op α) :=
  .new k m :: xs.map fun x => .update 0 (some x)

/-- C48: the weight of the retained items with any property has as expected value the number of
presented items with the property, for every sketch of every program. -/
theorem C48_unbiased (env : Env α) (hs : ∀ l, (env.sort l).Perm l) (ops : List (Op α))
    (hv : Valid ops) (p : α → Bool) (i : Nat) :
    Rand.HasE (fun st => (st[i]?.map fun s => (weightOf p s : ℚ)).getD 0) (run env ops)
      (((streams ops).getD i []).countP p) := by
  have h := (run_mean (env := env) hs ops hv p i).affine 1 (((streams ops).getD i []).countP p : ℚ)
  rw [mul_zero, zero_add] at h
  refine h.congr ((run_link hs (by omega) ops hv (ks_of_valid hv)).mono fun st _ => ?_)
  unfold eAt wAt
  ring

/-- C48: the mean squared rank error.  `κ` is a lower bound of the `k` of all sketches; sketch `i`
must be one whose coins are independent of the others (`live`), which is the case unless a sketch
that went into it has also gone into another sketch that went into it, or the like. -/
theorem C48_mean_square (env : Env α) (ho : IsOrd env.lt) (hso : Sorts env) (ops : List (Op α))
    (hv : Valid ops) {κ : Nat} (h0 : 0 < κ)
    (hk : ∀ k m, Op.new k m ∈ ops → κ ≤ k ∧ k ≤ 32767) {p : α → Bool}
    (hp : ∃ q, p = (fun y => env.lt y q) ∨ p = fun y => !env.lt q y) (i : Nat)
    (hi : (live ops).getD i false = true) :
    Rand.ELe (fun st => ((st[i]?.map fun s => (weightOf p s : ℚ)).getD 0 -
        ((streams ops).getD i []).countP p) ^ 2) (run env ops)
      (21 / 2 * ((((streams ops).getD i []).length : ℚ) / κ) ^ 2) := by
  have hd : Down env.lt p := by
    obtain ⟨q, rfl | rfl⟩ := hp
    · exact down_lt ho q
    · exact down_le ho q
  have hl := run_link (K := True) (κ := κ) hso.perm h0 ops hv (by
    intro o ho
    cases o with
    | new k m => exact ⟨(hk k m ho).1, fun _ => (hk k m ho).2⟩
    | _ => exact trivial)
  have h1 := (run_sq (env := env) ho hso ops hv hd).1 i hi
  set n := ((streams ops).getD i []).length with hn
  have hq : Rand.All (fun st => qAt st i ≤ 21 / 2 * ((n : ℚ) / κ) ^ 2) (run env ops) := by
    refine hl.mono fun st hst => ?_
    cases hg : st[i]? with
    | none =>
      unfold qAt
      rw [hg]
      show (0 : ℚ) ≤ _
      positivity
    | some s =>
      rw [qAt_some hg]
      obtain ⟨a, hr, hinv, hκ⟩ := hst.link i s hg
      obtain ⟨_, hpot⟩ := hinv.pot trivial
      have h2 := hpot.final hinv.core.ne hinv.core.weight hinv.core.one
      rw [hr.log]
      refine le_trans h2 ?_
      rw [← hinv.core.len, ← hn]
      have hκ' : (κ : ℚ) ≤ a.minK := by exact_mod_cast hκ
      have hκ0 : (0 : ℚ) < κ := by exact_mod_cast h0
      have h3 : (n : ℚ) / a.minK ≤ n / κ :=
        div_le_div_of_nonneg_left (by positivity) hκ0 hκ'
      have h4 : (0 : ℚ) ≤ (n : ℚ) / a.minK := by positivity
      nlinarith
  have h2 := h1.add (Rand.ELe.const hq)
  rw [zero_add] at h2
  refine h2.of_le (hl.mono fun st _ => le_of_eq ?_)
  show _ = eAt p (streams ops) i st ^ 2 - qAt st i + qAt st i
  unfold eAt wAt
  ring

/-- C48: the probability that the rank of a fixed item is off by `ε·n` or more is at most
`10.5 / (ε·κ)^2`. -/
theorem C48_tail (env : Env α) (ho : IsOrd env.lt) (hso : Sorts env) (ops : List (Op α))
    (hv : Valid ops) {κ : Nat} (h0 : 0 < κ)
    (hk : ∀ k m, Op.new k m ∈ ops → κ ≤ k ∧ k ≤ 32767) {p : α → Bool}
    (hp : ∃ q, p = (fun y => env.lt y q) ∨ p = fun y => !env.lt q y) (i : Nat)
    (hi : (live ops).getD i false = true) {ε : ℚ} (hε : 0 < ε)
    (hn : 0 < ((streams ops).getD i []).length) :
    Rand.ELe (fun st => if ε * ((streams ops).getD i []).length ≤
        |(st[i]?.map fun s => (weightOf p s : ℚ)).getD 0 - ((streams ops).getD i []).countP p|
        then 1 else 0) (run env ops)
      (21 / 2 / (ε * κ) ^ 2) := by
  have h1 := C48_mean_square env ho hso ops hv h0 hk hp i hi
  have hl := run_link hso.perm (by omega) ops hv (ks_of_valid hv)
  have hn' : (0 : ℚ) < ((streams ops).getD i []).length := by exact_mod_cast hn
  set n : ℚ := (((streams ops).getD i []).length : ℚ) with hnn
  have hpos : (0 : ℚ) < (ε * n) ^ 2 := by positivity
  have h2 := h1.scale (c := 1 / (ε * n) ^ 2) (by positivity)
  have hκ : (0 : ℚ) < κ := by exact_mod_cast h0
  have e : 1 / (ε * n) ^ 2 * (21 / 2 * (n / κ) ^ 2) = 21 / 2 / (ε * κ) ^ 2 := by
    field_simp
  rw [e] at h2
  refine h2.of_le (hl.mono fun st _ => ?_)
  split
  · rename_i hle
    rw [one_div, ← div_eq_inv_mul, le_div_iff₀ hpos, one_mul]
    have h3 : (0 : ℚ) ≤ ε * n := by positivity
    calc (ε * n) ^ 2 ≤ |_| ^ 2 := pow_le_pow_left₀ h3 hle 2
      _ = _ := sq_abs _
  · positivity

/-! ## The hypotheses can be met -/

theorem Valid.nil : Valid ([] : List (Op α)) := by
  intro pre op post h
  simp at h

theorem Valid.of_snoc {ops : List (Op α)} {op : Op α} (h : Valid ops) (ha : Allowed (streams ops) op) :
    Valid (ops ++ [op]) := by
  intro pre o post he
  rcases List.eq_nil_or_concat post with rfl | ⟨post', o', rfl⟩
  · have := List.append_inj' he rfl
    obtain ⟨rfl, h2⟩ := this
    cases h2
    exact ha
  · rw [List.concat_eq_append, show pre ++ o :: (post' ++ [o']) = (pre ++ o :: post') ++ [o'] by simp]
      at he
    exact h pre o post' (List.append_inj' he rfl).1

theorem streamProg_streams (k m : Nat) (xs : List α) : streams (streamProg k m xs) = [xs] := by
  induction xs using List.reverseRecOn with
  | nil => rfl
  | append_singleton xs x ih =>
    rw [show streamProg k m (xs ++ [x]) = streamProg k m xs ++ [.update 0 (some x)] by
      simp [streamProg], streams_snoc, ih]
    simp [streamStep]

/-- Any stream into any sketch with parameters in range is a valid program. -/
theorem streamProg_valid {k m : Nat} (h8 : 8 ≤ k) (hk : k ≤ 65535) (hm : 2 ≤ m) (hmk : m ≤ k)
    (xs : List α) (hn : xs.length < 2 ^ 60) : Valid (streamProg k m xs) := by
  induction xs using List.reverseRecOn with
  | nil => exact Valid.nil.of_snoc ⟨h8, hk, hm, hmk⟩
  | append_singleton xs x ih =>
    rw [List.length_append, List.length_singleton] at hn
    rw [show streamProg k m (xs ++ [x]) = streamProg k m xs ++ [.update 0 (some x)] by
      simp [streamProg]]
    refine (ih (by omega)).of_snoc ?_
    rw [streamProg_streams]
    exact ⟨by simp, by simpa using hn⟩

/-- Two sketches of different `k` filled and merged, then one more item and a reset of the other. -/
def twoSketches (xs ys : List α) (z : α) : List (Op α) :=
  streamProg 200 8 xs ++ [.new 50 4] ++ ys.map (fun y => .update 1 (some y)) ++
    [.merge 0 1] ++ [.update 0 (some z)] ++ [.reset 1]

theorem twoSketches_valid (xs ys : List α) (z : α) (hn : xs.length + ys.length < 2 ^ 59) :
    Valid (twoSketches xs ys z) ∧ streams (twoSketches xs ys z) = [xs ++ ys ++ [z], []] ∧
      live (twoSketches xs ys z) = [true, true] := by
  have hlive : ∀ (k m : Nat) (xs : List α), live (streamProg k m xs) = [true] := by
    intro k m xs
    induction xs using List.reverseRecOn with
    | nil => rfl
    | append_singleton xs x ih =>
      rw [show streamProg k m (xs ++ [x]) = streamProg k m xs ++ [.update 0 (some x)] by
        simp [streamProg], live_snoc, ih]
      rfl
  have h1 := streamProg_valid (k := 200) (m := 8) (by omega) (by omega) (by omega) (by omega) xs
    (by omega)
  have h2 : Valid (streamProg 200 8 xs ++ [.new 50 4]) ∧
      streams (streamProg 200 8 xs ++ [.new 50 4]) = [xs, []] ∧
      live (streamProg 200 8 xs ++ [.new 50 4]) = [true, true] := by
    refine ⟨h1.of_snoc ⟨by omega, by omega, by omega, by omega⟩, ?_, ?_⟩
    · rw [streams_snoc, streamProg_streams]; rfl
    · rw [live_snoc, hlive]; rfl
  have h3 : Valid (streamProg 200 8 xs ++ [.new 50 4] ++ ys.map (fun y => .update 1 (some y))) ∧
      streams (streamProg 200 8 xs ++ [.new 50 4] ++ ys.map (fun y => .update 1 (some y))) = [xs, ys] ∧
      live (streamProg 200 8 xs ++ [.new 50 4] ++ ys.map (fun y => .update 1 (some y))) =
        [true, true] := by
    induction ys using List.reverseRecOn with
    | nil => simpa using h2
    | append_singleton ys y ih =>
      rw [List.length_append, List.length_singleton] at hn
      obtain ⟨i1, i2, i3⟩ := ih (by omega)
      rw [List.map_append, List.map_singleton, ← List.append_assoc]
      refine ⟨i1.of_snoc ?_, ?_, ?_⟩
      · rw [i2]
        exact ⟨by simp, by simp; omega⟩
      · rw [streams_snoc, i2]; simp [streamStep]
      · rw [live_snoc, i3]; rfl
  obtain ⟨a1, a2, a3⟩ := h3
  have h4 := a1.of_snoc (op := .merge 0 1) (by
    rw [a2]
    exact ⟨by simp, by simp, by omega, by simp; omega⟩)
  have e4 := streams_snoc (streamProg 200 8 xs ++ [.new 50 4] ++ ys.map (fun y => .update 1 (some y)))
    (.merge 0 1)
  have l4 := live_snoc (streamProg 200 8 xs ++ [.new 50 4] ++ ys.map (fun y => .update 1 (some y)))
    (.merge 0 1)
  rw [a2] at e4
  rw [a3] at l4
  have h5 := h4.of_snoc (op := .update 0 (some z)) (by
    rw [e4]
    exact ⟨by simp [streamStep], by simp [streamStep]; omega⟩)
  have e5 := streams_snoc (streamProg 200 8 xs ++ [.new 50 4] ++
    ys.map (fun y => .update 1 (some y)) ++ [.merge 0 1]) (.update 0 (some z))
  have l5 := live_snoc (streamProg 200 8 xs ++ [.new 50 4] ++
    ys.map (fun y => .update 1 (some y)) ++ [.merge 0 1]) (.update 0 (some z))
  rw [e4] at e5
  rw [l4] at l5
  have h6 := h5.of_snoc (op := .reset 1) (by
    rw [e5]
    show 1 < _
    simp [streamStep])
  refine ⟨h6, ?_, ?_⟩
  · unfold twoSketches
    rw [streams_snoc, e5]
    simp [streamStep]
  · unfold twoSketches
    rw [live_snoc, l5]
    rfl

/-- The natural numbers with their order and merge sort. -/
def natEnv : Env Nat :=
  ⟨0, fun a b => decide (a < b), fun l => l.mergeSort, fun l => l.mergeSort⟩

theorem natEnv_ord : IsOrd natEnv.lt := by
  constructor
  · intro a b h
    simp [natEnv] at h ⊢
    omega
  · intro a b c h1 h2
    simp [natEnv] at h1 h2 ⊢
    omega

theorem natEnv_sorts : Sorts natEnv := by
  have hs : ∀ l : List Nat, Sorted natEnv.lt l.mergeSort := by
    intro l
    have := List.pairwise_mergeSort (le := fun a b : Nat => decide (a ≤ b))
      (by intro a b c h1 h2; simp at *; omega) (by intro a b; simp; omega) l
    refine this.imp ?_
    intro a b h
    simp [natEnv] at h ⊢
    exact h
  exact ⟨fun l => List.mergeSort_perm _ _, hs, fun l => List.mergeSort_perm _ _, hs⟩

/-- All hypotheses of the theorems hold for the merge of two streams of natural numbers. -/
example (xs ys : List Nat) (z q : Nat) (hn : xs.length + ys.length < 2 ^ 59) :
    Rand.ELe (fun st => ((st[0]?.map fun s => (weightOf (fun y => natEnv.lt y q) s : ℚ)).getD 0 -
        (xs ++ ys ++ [z]).countP (fun y => natEnv.lt y q)) ^ 2) (run natEnv (twoSketches xs ys z))
      (21 / 2 * (((xs ++ ys ++ [z]).length : ℚ) / 50) ^ 2) := by
  obtain ⟨h1, h2, h3⟩ := twoSketches_valid xs ys z hn
  have := C48_mean_square natEnv natEnv_ord natEnv_sorts _ h1 (κ := 50) (by omega) (by
    intro k m hm
    simp [twoSketches, streamProg] at hm
    rcases hm with ⟨rfl, rfl⟩ | ⟨rfl, rfl⟩ <;> omega) ⟨q, Or.inl rfl⟩ 0 (by rw [h3]; rfl)
  rw [h2] at this
  exact this

/-- C32: the constructor accepts exactly the `k` from 8 to 65535. -/
theorem C32_k_range {α : Type} (env : Env α) (k m : Nat) :
    (∃ s, newSketch env k m = .ok s ∧ s.n = 0 ∧ s.k = k) ↔ 8 ≤ k ∧ k ≤ 65535 := by
  unfold newSketch
  constructor
  · rintro ⟨s, hs, _⟩
    by_contra hc
    rw [if_pos (by omega)] at hs
    cases hs
  · intro h
    rw [if_neg (by omega)]
    exact ⟨_, rfl, rfl, rfl⟩

/-! ## Findings: parameters the constructor accepts but the sketch cannot handle -/

/-- The result along one outcome of all draws (always 0) -/
def zeroPath {β : Type} : Nat → Rand β → Option β
  | _, .ret a => some a
  | _, .err _ => none
  | _, .panic => none
  | 0, _ => none
  | n + 1, .intn _ k => zeroPath n (k 0)
  | _ + 1, .unif _ _ => none

def intnDepth {β : Type} : Nat → Rand β → Bool
  | _, .ret _ => true
  | _, .err _ => true
  | _, .panic => true
  | 0, _ => false
  | n + 1, .intn _ k => intnDepth n (k 0)
  | _ + 1, .unif _ _ => false

theorem zeroPath_none {β : Type} (n : Nat) (t : Rand β) (hd : intnDepth n t = true)
    (h : zeroPath n t = none) {P : β → Prop} : ¬ Rand.All P t := by
  induction n generalizing t with
  | zero =>
    cases t with
    | ret a => simp [zeroPath] at h
    | err e => exact fun h => h
    | panic => exact fun h => h
    | intn n k => simp [intnDepth] at hd
    | unif nz k => simp [intnDepth] at hd
  | succ n ih =>
    cases t with
    | ret a => simp [zeroPath] at h
    | err e => exact fun h => h
    | panic => exact fun h => h
    | intn m k =>
      simp only [zeroPath] at h
      simp only [intnDepth] at hd
      intro ha
      exact ih (k 0) hd h (ha.2 0 ha.1)
    | unif nz k => simp [intnDepth] at hd

/-- items that carry no information -/
def unitEnv : Env Unit := ⟨(), fun _ _ => false, id, id⟩

/-- Finding: `m` is not checked against `k`.  With `k = 8`, `m = 9` the ninth update panics. -/
theorem C32_m_above_k_panics :
    ¬ Rand.All (fun _ => True) (run unitEnv (streamProg 8 9 (List.replicate 9 ()))) :=
  zeroPath_none 100 _ (by decide +kernel) (by decide +kernel)

/-- Finding: `m` below 2 is accepted and a later update panics (a level of one item is "full"). -/
theorem C32_m_below_two_panics :
    ¬ Rand.All (fun _ => True) (run unitEnv (streamProg 8 1 (List.replicate 272 ()))) :=
  zeroPath_none 1000 _ (by decide +kernel) (by decide +kernel)

/-- Finding: `k << 1` is computed in 16 bits, so that for `k ≥ 32768` the capacity of the top level
is not `k`; for `k = 32768` it is 8.  The accuracy theorems therefore assume `k ≤ 32767`. -/
theorem C48_k_overflow :
    levelCapacity 32767 1 0 8 = .ok 32767 ∧ levelCapacity 32768 1 0 8 = .ok 8 ∧
      levelCapacity 40000 1 0 8 = .ok 7232 := by
  decide +kernel

end Verif.Kll
