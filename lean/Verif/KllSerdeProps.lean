import Verif.KllSerde
import Verif.KllProps
import Verif.ItemSerdeProps

/-!
# Properties of the serialization of KLL items sketches (C79)

`run env ops`: any program of creations, updates, merges and resets (see `Verif.KllProps`).
`Lawful sd P`: the serializer reads back lists of items satisfying `P` and announces sizes correctly
(`strings_lawful`, `fixed_lawful`).
-/

namespace Verif.Kll

open Verif
open Verif.Items

variable {α : Type}

/-- The sketch `t` read back is the sketch `s`: everything but the unused slots of the item array
(and `minK` of a sketch with fewer than two items, which is not written). -/
structure Same (s t : Sketch α) : Prop where
  k : t.k = s.k
  m : t.m = s.m
  n : t.n = s.n
  minK : t.minK = if s.n ≤ 1 then s.k else s.minK
  numLevels : t.numLevels = s.numLevels
  levels : t.levels = s.levels
  sorted : t.isLevelZeroSorted = s.isLevelZeroSorted
  min : getMinItem t = getMinItem s
  max : getMaxItem t = getMaxItem s
  has : t.hasMinMax = s.hasMinMax
  itemsLen : t.items.length = s.items.length
  level : ∀ h, h < s.numLevels → levelItems t h = levelItems s h

theorem link_zero {env : Env α} {K : Prop} {S : List α} {a : Abs α} (hi : Inv env K S a)
    (h0 : a.n = 0) : S = [] ∧ a.Ls = [[]] ∧ a.free = a.k := by
  refine ⟨List.eq_nil_of_length_eq_zero (by rw [hi.core.len, h0]), ?_, hi.fresh h0⟩
  have h1 : a.Ls.length = 1 := by
    rcases hi.core.top with h | h
    · exact h
    · have := Nat.one_le_two_pow (n := a.Ls.length - 1); omega
  obtain ⟨l, hl⟩ := List.length_eq_one_iff.1 h1
  have hw := hi.core.weight
  rw [hl] at hw ⊢
  have : l.length = 0 := by simpa [wt, rk, h0] using hw
  rw [List.eq_nil_of_length_eq_zero this]

theorem link_one {env : Env α} {K : Prop} {S : List α} {a : Abs α} (hi : Inv env K S a)
    (h1 : a.n = 1) (hk : a.k ≤ 32767) (ho : IsOrd env.lt) :
    ∃ x, S = [x] ∧ a.Ls = [[x]] ∧ a.free + 1 = a.k ∧ a.minItem = x ∧ a.maxItem = x ∧
      a.hasMinMax = true := by
  have hL : a.Ls.length = 1 := by
    rcases hi.core.top with h | h
    · exact h
    · by_contra hc
      have : 2 ^ 1 ≤ 2 ^ (a.Ls.length - 1) := by
        apply Nat.pow_le_pow_right (by omega)
        have := List.length_pos_of_ne_nil hi.core.ne
        omega
      omega
  obtain ⟨l, hl⟩ := List.length_eq_one_iff.1 hL
  have hw := hi.core.weight
  have hm := hi.core.mem
  have hf := hi.shape.full hk
  rw [hl] at hw hm hf
  have hll : l.length = 1 := by simpa [wt, rk, h1] using hw
  obtain ⟨x, hx⟩ := List.length_eq_one_iff.1 hll
  obtain ⟨y, hy⟩ := List.length_eq_one_iff.1 (show S.length = 1 by rw [hi.core.len, h1])
  subst hx hy
  have hxy : x = y := by simpa using hm x (by simp)
  subst hxy
  have hmm := hi.mm ho
  have hmin : a.minItem = x := by simpa using hmm.minMem (by simp)
  have hmax : a.maxItem = x := by simpa using hmm.maxMem (by simp)
  refine ⟨x, rfl, hl, ?_, hmin, hmax, hmm.has.2 (by simp)⟩
  have e : a.k * 2 % 65536 = a.k * 2 := Nat.mod_eq_of_lt (by omega)
  have e2 : icapA a.k 0 = a.k := by
    unfold icapA
    rw [e]
    simp only [pow_zero, Nat.mul_one, Nat.div_one]
    rw [if_pos (by omega)]
    omega
  have hml := hi.shape.mle
  simp [tot, cap, icap, e2] at hf
  omega

/-- One sketch. -/
theorem round_trip_link {env : Env α} {sd : Serde α} {P : α → Prop} (hl : Lawful sd P)
    (ho : IsOrd env.lt) {K : Prop} {κ : Nat} {s : Sketch α} {S : List α}
    (h : Link env K κ s S) (hk : s.k ≤ 32767) (hm : s.m = 2 ∨ s.m = 4 ∨ s.m = 6 ∨ s.m = 8)
    (hn : S.length < 2 ^ 58) (hP : ∀ x ∈ S, P x)
    (h1 : ∀ x, S = [x] → sd.one x = sd.many [x] ∨
      (sd.one x = [] ∧ ∃ j, sd.many [x] = List.replicate j 0))
    (h2 : 2 ≤ S.length → sd.one s.minItem = sd.many [s.minItem] ∧
      sd.one s.maxItem = sd.many [s.maxItem]) :
    ∃ bytes t, toSlice sd s = .ok bytes ∧ serializedSize sd s = .ok bytes.length ∧
      fromSlice sd env bytes = .ok t ∧ Same s t ∧ toSlice sd t = .ok bytes := by
  obtain ⟨a, hr, hi, hκ⟩ := h
  have hak : a.k ≤ 32767 := by rw [← hr.k]; exact hk
  have ham : a.m = 2 ∨ a.m = 4 ∨ a.m = 6 ∨ a.m = 8 := by rw [← hr.m]; exact hm
  have hml := hi.shape.mle
  have hlen := hi.core.len
  rcases Nat.lt_trichotomy a.n 1 with hn1 | hn1 | hn1
  · have h0 : a.n = 0 := by omega
    obtain ⟨hS, hLs, hfree⟩ := link_zero hi h0
    obtain ⟨e1, e2⟩ := toSlice_empty (sd := sd) hr h0
    have e3 := readEmpty_ok (sd := sd) env a h0 (by omega) ham hml
    have hr' : Rep ⟨a.k, a.m, a.k, 1, a.zs, 0, [a.k, a.k], List.replicate a.k env.zero, env.zero,
        env.zero, false, []⟩
        (⟨a.k, a.m, a.k, a.zs, 0, a.k, [[]], env.zero, env.zero, false, []⟩ : Abs α) :=
      { k := rfl, m := rfl, minK := rfl, zs := rfl, n := rfl, numLevels := rfl, levels := rfl
        items := ⟨List.replicate a.k env.zero, by simp, by simp⟩
        minItem := rfl, maxItem := rfl, hasMinMax := rfl, log := rfl }
    obtain ⟨_, e4⟩ := toSlice_empty (sd := sd) hr' rfl
    refine ⟨_, _, e2, ?_, e3, ?_, ?_⟩
    · rw [e1]; simp [imgHead_length]
    · obtain ⟨G, hG, hit⟩ := hr.items
      refine ⟨hr.k.symm, hr.m.symm, by rw [hr.n, h0], ?_, ?_, ?_, hr.zs.symm, ?_, ?_, ?_, ?_, ?_⟩
      · rw [if_pos (by rw [hr.n]; omega), hr.k]
      · rw [hr.numLevels, hLs]; rfl
      · rw [hr.levels, hLs, hfree]; simp [offs]
      · simp [getMinItem, isEmpty, hr.n, h0]
      · simp [getMaxItem, isEmpty, hr.n, h0]
      · rw [hr.hasMinMax]
        have := (hi.mm ho).has
        rw [hS] at this
        simpa using this
      · rw [hit, hLs]; simp [hG, hfree]
      · intro j hj
        rw [hr.levelItems (by rw [← hr.numLevels]; exact hj), hLs]
        rw [hr.numLevels, hLs] at hj
        have hj0 : j = 0 := by simpa using hj
        subst hj0
        rw [hr'.levelItems (by simp)]
    · rw [e4]
      simp [imgHead, h0]
  · obtain ⟨x, hS, hLs, hfree, hmin, hmax, hhas⟩ := link_one hi hn1 hak ho
    obtain ⟨e1, e2⟩ := toSlice_single hl hr hn1 hLs hfree (h1 x hS)
    have e3 := readSingle_ok hl env a hn1 (by omega) ham hml (x := x) (hP x (by simp [hS]))
    have hr' : Rep ⟨a.k, a.m, a.k, 1, a.zs, 1, [a.k - 1, a.k],
        List.replicate (a.k - 1) env.zero ++ [x], x, x, true, []⟩
        (⟨a.k, a.m, a.k, a.zs, 1, a.k - 1, [[x]], x, x, true, []⟩ : Abs α) :=
      { k := rfl, m := rfl, minK := rfl, zs := rfl, n := rfl, numLevels := rfl
        levels := by simp [offs]; omega
        items := ⟨List.replicate (a.k - 1) env.zero, by simp, by simp⟩
        minItem := rfl, maxItem := rfl, hasMinMax := rfl, log := rfl }
    obtain ⟨_, e4⟩ := toSlice_single hl hr' rfl rfl (by show a.k - 1 + 1 = a.k; omega) (h1 x hS)
    refine ⟨_, _, e2, ?_, e3, ?_, ?_⟩
    · rw [e1]
      simp [imgHead_length]
      omega
    · obtain ⟨G, hG, hit⟩ := hr.items
      refine ⟨hr.k.symm, hr.m.symm, by rw [hr.n, hn1], ?_, ?_, ?_, hr.zs.symm, ?_, ?_, ?_, ?_, ?_⟩
      · rw [if_pos (by rw [hr.n]; omega), hr.k]
      · rw [hr.numLevels, hLs]; rfl
      · rw [hr.levels, hLs]; simp [offs]; omega
      · simp [getMinItem, isEmpty, hr.n, hn1, hr.minItem, hmin]
      · simp [getMaxItem, isEmpty, hr.n, hn1, hr.maxItem, hmax]
      · rw [hr.hasMinMax, hhas]
      · rw [hit, hLs]; simp [hG]; omega
      · intro j hj
        rw [hr.levelItems (by rw [← hr.numLevels]; exact hj), hLs]
        rw [hr.numLevels, hLs] at hj
        have hj0 : j = 0 := by simpa using hj
        subst hj0
        rw [hr'.levelItems (by simp)]
    · rw [e4]
      simp [imgHead, hn1]
  · have hL : a.Ls.length ≤ 58 := by
      rcases hi.core.top with h | h
      · omega
      · by_contra hc
        have : 2 ^ 58 ≤ 2 ^ (a.Ls.length - 1) := Nat.pow_le_pow_right (by omega) (by omega)
        omega
    obtain ⟨o1, o2⟩ := h2 (by omega)
    rw [hr.minItem] at o1
    rw [hr.maxItem] at o2
    have hSne : S ≠ [] := by
      rintro rfl
      simp at hlen
      omega
    have hmm := hi.mm ho
    have hPP : ∀ x ∈ a.minItem :: a.maxItem :: a.Ls.flatten, P x := by
      intro x hx
      rw [List.mem_cons, List.mem_cons] at hx
      rcases hx with rfl | rfl | hx
      · exact hP _ (hmm.minMem hSne)
      · exact hP _ (hmm.maxMem hSne)
      · exact hP _ (hi.core.mem x hx)
    have e1 := toSlice_full hl hr (by omega) hL o1 o2
    have e2 := serializedSize_full hl hr (by omega : 2 ≤ a.n)
    have e3 := readFull_ok hl env a (by omega) (by omega) hL (by omega)
      (by have := hi.kappa; omega) ham hml (hi.shape.full hak) hPP
    have hhas := hmm.has.2 hSne
    have hr' := readFull_rep env a hhas
    have e4 := toSlice_full hl hr' (show 2 ≤ a.n by omega) hL o1 o2
    refine ⟨_, _, e1, ?_, e3, ?_, e4⟩
    · rw [e2]
      simp [imgHead_length, imgPre_length, imgLevels_length]
      omega
    · obtain ⟨G, hG, hit⟩ := hr.items
      refine ⟨hr.k.symm, hr.m.symm, hr.n.symm, ?_, hr.numLevels.symm, hr.levels.symm, hr.zs.symm,
        ?_, ?_, ?_, ?_, ?_⟩
      · rw [if_neg (by rw [hr.n]; omega)]; exact hr.minK.symm
      · simp [getMinItem, isEmpty, hr.n, hr.minItem, back]
      · simp [getMaxItem, isEmpty, hr.n, hr.maxItem, back]
      · rw [hr.hasMinMax, hhas]; rfl
      · rw [hit]; simp [back, hG]
      · intro j hj
        have hj' : j < a.Ls.length := by rw [← hr.numLevels]; exact hj
        rw [hr.levelItems hj', hr'.levelItems hj']

/-- C79, partially: serializing any sketch of any program and reading it back gives the same sketch,
the announced size is the number of bytes, and serializing again gives the same bytes; for `k` at
most 32767, `m` one of 2, 4, 6, 8, fewer than `2^58` items, and items whose one-item form is their
list form.  What is missing: larger `k` (`C79_large_k`), other `m` (`C79_other_m`), and strings when
the minimum is the empty string (`C79_empty_string`), where the claim is false. -/
theorem C79_round_trip_partial (env : Env α) (hs : ∀ l, (env.sort l).Perm l) (ho : IsOrd env.lt)
    {sd : Serde α} {P : α → Prop} (hl : Lawful sd P) (ops : List (Op α)) (hv : Valid ops) :
    Rand.All (fun st => ∀ i s, st[i]? = some s →
        s.k ≤ 32767 → (s.m = 2 ∨ s.m = 4 ∨ s.m = 6 ∨ s.m = 8) →
        ((streams ops).getD i []).length < 2 ^ 58 → (∀ x ∈ (streams ops).getD i [], P x) →
        (∀ x, (streams ops).getD i [] = [x] → sd.one x = sd.many [x] ∨
          (sd.one x = [] ∧ ∃ j, sd.many [x] = List.replicate j 0)) →
        (2 ≤ ((streams ops).getD i []).length → sd.one s.minItem = sd.many [s.minItem] ∧
          sd.one s.maxItem = sd.many [s.maxItem]) →
        ∃ bytes t, toSlice sd s = .ok bytes ∧ serializedSize sd s = .ok bytes.length ∧
          fromSlice sd env bytes = .ok t ∧ Same s t ∧ toSlice sd t = .ok bytes)
      (run env ops) := by
  refine (run_link hs (by omega) ops hv (ks_of_valid hv)).mono fun st hst => ?_
  intro i s hi hk hm hn hP h1 h2
  exact round_trip_link hl ho (hst.link i s hi) hk hm hn hP h1 h2

/-- C79 for `int64`, `float64` (`w = 8`) and `float32` (`w = 4`) items. -/
theorem C79_numbers_partial (w : Nat) (env : Env Nat) (hs : ∀ l, (env.sort l).Perm l)
    (ho : IsOrd env.lt) (ops : List (Op Nat)) (hv : Valid ops) :
    Rand.All (fun st => ∀ i s, st[i]? = some s →
        s.k ≤ 32767 → (s.m = 2 ∨ s.m = 4 ∨ s.m = 6 ∨ s.m = 8) →
        ((streams ops).getD i []).length < 2 ^ 58 →
        (∀ x ∈ (streams ops).getD i [], x < 256 ^ w) →
        ∃ bytes t, toSlice (fixed w) s = .ok bytes ∧
          serializedSize (fixed w) s = .ok bytes.length ∧
          fromSlice (fixed w) env bytes = .ok t ∧ Same s t ∧ toSlice (fixed w) t = .ok bytes)
      (run env ops) :=
  (C79_round_trip_partial env hs ho (fixed_lawful w) ops hv).mono
    fun _ h i s hi hk hm hn hP => h i s hi hk hm hn hP
      (fun x _ => Or.inl (by simp [fixed])) (fun _ => ⟨by simp [fixed], by simp [fixed]⟩)

/-- C79 for strings: as long as the extremes are not the empty string, or there is only one item. -/
theorem C79_strings_partial (env : Env (List Nat)) (hs : ∀ l, (env.sort l).Perm l)
    (ho : IsOrd env.lt) (ops : List (Op (List Nat))) (hv : Valid ops) :
    Rand.All (fun st => ∀ i s, st[i]? = some s →
        s.k ≤ 32767 → (s.m = 2 ∨ s.m = 4 ∨ s.m = 6 ∨ s.m = 8) →
        ((streams ops).getD i []).length < 2 ^ 58 →
        (∀ x ∈ (streams ops).getD i [], x.length < 4294967296) →
        (2 ≤ ((streams ops).getD i []).length →
          getMinItem s ≠ .ok [] ∧ getMaxItem s ≠ .ok []) →
        ∃ bytes t, toSlice strings s = .ok bytes ∧ serializedSize strings s = .ok bytes.length ∧
          fromSlice strings env bytes = .ok t ∧ Same s t ∧ toSlice strings t = .ok bytes)
      (run env ops) := by
  refine (run_link hs (by omega) ops hv (ks_of_valid hv)).mono fun st hst => ?_
  intro i s hi hk hm hn hP hne
  refine round_trip_link strings_lawful ho (hst.link i s hi) hk hm hn hP ?_ ?_
  · intro x _
    by_cases hx : x = []
    · subst hx
      exact Or.inr ⟨rfl, 4, rfl⟩
    · exact Or.inl ((C78_one_string x).1 hx).1
  · intro h2
    obtain ⟨a, hr, hinv, _⟩ := hst.link i s hi
    have hn0 : s.n ≠ 0 := by
      rw [hr.n, ← hinv.core.len]; omega
    obtain ⟨m1, m2⟩ := hne h2
    have hmin : s.minItem ≠ [] := fun h => m1 (by simp [getMinItem, isEmpty, hn0, h])
    have hmax : s.maxItem ≠ [] := fun h => m2 (by simp [getMaxItem, isEmpty, hn0, h])
    exact ⟨((C78_one_string _).1 hmin).1, ((C78_one_string _).1 hmax).1⟩

/-! ## Where the claim is false -/

theorem refuse_m {sd : Serde α} {env : Env α} (a : Abs α) {R : List Nat} (hk : a.k < 65536)
    (hm : a.m < 256) (hbad : ¬ (a.m = 2 ∨ a.m = 4 ∨ a.m = 6 ∨ a.m = 8)) {st : Structure}
    (hst : getSketchStructure (preInts a.n) (serVer a.n) = .ok st) :
    fromSlice sd env (imgHead a ++ (toLE 1 0 ++ R)) = .err "M must be >= 2, <= 8 and even" := by
  obtain ⟨data, hd⟩ : ∃ d, d = imgHead a ++ (toLE 1 0 ++ R) := ⟨_, rfl⟩
  have hp : preInts a.n < 256 := by unfold preInts; split <;> omega
  have hs : serVer a.n < 256 := by unfold serVer; split <;> omega
  have hf : flagBits a.n a.zs < 256 := by unfold flagBits; split <;> split <;> split <;> omega
  have e0 : getLE data 0 1 = .ok (preInts a.n) := by
    rw [hd]; simp only [imgHead, List.append_assoc]; readLE
  have e1 : getLE data 1 1 = .ok (serVer a.n) := by
    rw [hd]; simp only [imgHead, List.append_assoc]; readLE
  have e2 : getLE data 2 1 = .ok 15 := by
    rw [hd]; simp only [imgHead, List.append_assoc]; readLE
  have e3 : getLE data 3 1 = .ok (flagBits a.n a.zs) := by
    rw [hd]; simp only [imgHead, List.append_assoc]; readLE
  have e4 : getLE data 4 2 = .ok a.k := by
    rw [hd]; simp only [imgHead, List.append_assoc]; readLE
  have e6 : getLE data 6 1 = .ok a.m := by
    rw [hd]; simp only [imgHead, List.append_assoc]; readLE
  rw [← hd]
  unfold fromSlice newMemVal
  rw [if_neg (by rw [hd]; simp [imgHead_length]; omega), e0, Outcome.ok_bind, e1, Outcome.ok_bind,
    hst, Outcome.ok_bind, e2, Outcome.ok_bind, if_neg (by simp), e3, Outcome.ok_bind, e4,
    Outcome.ok_bind, e6, Outcome.ok_bind]
  have hc : checkKM a.k a.m = .err "M must be >= 2, <= 8 and even" := by
    unfold checkKM
    rw [if_pos (by omega)]
  rw [hc, Outcome.err_bind, Outcome.err_bind]

/-- C79 fails for `m` other than 2, 4, 6, 8: the constructor takes every `m`, such a sketch is
written without an error, and is never read back. -/
theorem C79_other_m (w : Nat) (env : Env Nat) (hs : ∀ l, (env.sort l).Perm l)
    (ho : IsOrd env.lt) (ops : List (Op Nat)) (hv : Valid ops) :
    Rand.All (fun st => ∀ i s, st[i]? = some s →
        s.k ≤ 32767 → s.m < 256 → ¬ (s.m = 2 ∨ s.m = 4 ∨ s.m = 6 ∨ s.m = 8) →
        ((streams ops).getD i []).length < 2 ^ 58 →
        ∃ bytes e, toSlice (fixed w) s = .ok bytes ∧ fromSlice (fixed w) env bytes = .err e)
      (run env ops) := by
  refine (run_link hs (by omega) ops hv (ks_of_valid hv)).mono fun st hst => ?_
  intro i s hsi hk hm hbad hn
  obtain ⟨a, hr, hi, _⟩ := hst.link i s hsi
  have hlen := hi.core.len
  rw [hr.k] at hk
  rw [hr.m] at hm hbad
  have ho1 : ∀ x, (fixed w).one x = (fixed w).many [x] := by simp [fixed]
  rcases Nat.lt_trichotomy a.n 1 with hn1 | hn1 | hn1
  · have h0 : a.n = 0 := by omega
    exact ⟨_, _, (toSlice_empty hr h0).2, refuse_m a (by omega) hm hbad (st := .empty)
      (by rw [h0]; rfl)⟩
  · obtain ⟨x, hS, hLs, hfree, hmin, hmax, hhas⟩ := link_one hi hn1 hk ho
    exact ⟨_, _, (toSlice_single (fixed_lawful w) hr hn1 hLs hfree (Or.inl (ho1 x))).2,
      refuse_m a (by omega) hm hbad (st := .single) (by rw [hn1]; rfl)⟩
  · have hL : a.Ls.length ≤ 58 := by
      rcases hi.core.top with h | h
      · omega
      · by_contra hc
        have : 2 ^ 58 ≤ 2 ^ (a.Ls.length - 1) := Nat.pow_le_pow_right (by omega) (by omega)
        omega
    have hst2 : getSketchStructure (preInts a.n) (serVer a.n) = .ok .full := by
      unfold preInts serVer
      rw [if_neg (by omega), if_neg (by omega)]
      rfl
    refine ⟨_, "M must be >= 2, <= 8 and even",
      toSlice_full (fixed_lawful w) hr (by omega) hL (ho1 _) (ho1 _), ?_⟩
    rw [show imgPre a ++ (imgLevels a ++ imgItems (fixed w) a) = toLE 1 0 ++
      (toLE 8 a.n ++ (toLE 2 a.minK ++ (toLE 1 a.Ls.length ++ (toLE 1 0 ++
        (imgLevels a ++ imgItems (fixed w) a))))) by simp [imgPre]]
    exact refuse_m a (by omega) hm hbad hst2

theorem stream_small (env : Env α) (hs : ∀ l, (env.sort l).Perm l) {k m : Nat} (h8 : 8 ≤ k)
    (hk : k ≤ 65535) (hm : 2 ≤ m) (hmk : m ≤ k) (xs : List α) (hx : xs.length ≤ k) :
    Rand.All (fun st => ∃ s a, st = [s] ∧ Rep s a ∧ Inv env False xs a ∧ a.k = k ∧ a.m = m ∧
      a.Ls.length = 1 ∧ a.free + xs.length = k) (run env (streamProg k m xs)) := by
  induction xs using List.reverseRecOn with
  | nil =>
    show Rand.All _ (run env [.new k m])
    have : run env [.new k m] = Rand.ret [⟨k, m, k, 1, false, 0, [k, k],
        List.replicate k env.zero, env.zero, env.zero, false, []⟩] := by
      show ((Rand.ofOutcome (newSketch env k m) >>= fun s => Rand.ret ([] ++ [s])) >>=
        fun st => Rand.ret st) = _
      rw [new_ok env h8 hk]
      rfl
    rw [this]
    exact ⟨_, _, rfl, empty_rep env k m k,
      emptyAbs_inv env hk hm hmk (Nat.le_refl _) (by omega) (fun h => h.elim), rfl, rfl, rfl, rfl⟩
  | append_singleton xs x ih =>
    rw [List.length_append, List.length_singleton] at hx
    rw [show streamProg k m (xs ++ [x]) = streamProg k m xs ++ [.update 0 (some x)] by
      simp [streamProg], run_snoc]
    refine Rand.All.bind (ih (by omega)) ?_
    rintro st ⟨s, a, rfl, hr, hi, hak, ham, hL, hfree⟩
    have hn := hi.core.len
    have hf : 0 < a.free := by omega
    show Rand.All _ (Rand.ofOutcome (rd [s] 0) >>= fun s => update env s (some x) >>= fun s' =>
      Rand.ret ([s].set 0 s'))
    rw [show rd [s] 0 = .ok s from rfl, Rand.ofOutcome_ok, Rand.ret_bind]
    have hsim := updateSome_sim hs hr hi.shape hi.core (by omega) x
    rcases aUpdate_form (env := env) hi.shape hi.core.ne x with ⟨h0, hu⟩ | ⟨h0, _⟩
    · have h1 := aUpdate_inv hs hi x
      rw [hu] at hsim h1
      have h1 : Inv env False (xs ++ [x]) (aStore (aNote env a x) x) ∧ _ := h1
      refine Rand.All.bind (hsim.all (Q := fun b => b = aStore (aNote env a x) x) rfl) ?_
      rintro s' ⟨b, hb, rfl⟩
      refine ⟨s', _, rfl, hb, h1.1, by simp [aStore, hak], by simp [aStore, ham], ?_, ?_⟩
      · simp [aStore, consHead_length, hL]
      · simp [aStore]; omega
    · omega

theorem read_large (w : Nat) (hw : 0 < w) (env : Env Nat) (a : Abs Nat)
    (hn : 2 ≤ a.n) (hn' : a.n < 2 ^ 64) (hL : a.Ls.length = 1) (hk : a.k < 65536)
    (hminK : a.minK < 65536) (hm : a.m = 2 ∨ a.m = 4 ∨ a.m = 6 ∨ a.m = 8) (hk1 : 32768 ≤ a.k)
    (hfree : a.free + size a.Ls = a.k) (hf : a.k < a.free + 32760)
    (hP : ∀ x ∈ a.minItem :: a.maxItem :: a.Ls.flatten, x < 256 ^ w) :
    fromSlice (fixed w) env (imgHead a ++ (imgPre a ++ (imgLevels a ++ imgItems (fixed w) a))) =
      .panic := by
  have hl := fixed_lawful w
  obtain ⟨sd, hsd⟩ : ∃ sd, sd = fixed w := ⟨_, rfl⟩
  rw [← hsd] at hl ⊢
  obtain ⟨R, hR⟩ : ∃ R, R = toLE 8 a.n ++ (toLE 2 a.minK ++ (toLE 1 a.Ls.length ++
    (toLE 1 0 ++ (imgLevels a ++ imgItems sd a)))) := ⟨_, rfl⟩
  obtain ⟨data, hd⟩ : ∃ d, d = imgHead a ++ (imgPre a ++ (imgLevels a ++ imgItems sd a)) := ⟨_, rfl⟩
  have hd1 : data = imgHead a ++ (toLE 1 0 ++ R) := by
    rw [hd, hR]; simp only [imgPre, List.append_assoc]
  have hlow : size a.Ls = a.Ls.flatten.length := rfl
  obtain ⟨T, hT, hTlt⟩ : ∃ T, tot a.k a.m a.Ls.length = T ∧ T < a.free := by
    refine ⟨_, rfl, ?_⟩
    have e : a.k * 2 % 65536 = a.k * 2 - 65536 := by omega
    have e2 : icapA a.k 0 = a.k - 32768 := by
      unfold icapA
      rw [e]
      simp only [pow_zero, Nat.mul_one, Nat.div_one]
      rw [if_pos (by omega)]
      omega
    rw [hL]
    simp [tot, cap, icap, e2]
    omega
  have hst : getSketchStructure (preInts a.n) (serVer a.n) = .ok .full := by
    unfold preInts serVer
    rw [if_neg (by omega), if_neg (by omega)]
    rfl
  have e8 : getLE data 8 8 = .ok a.n := by
    rw [hd]; simp only [imgHead, imgPre, List.append_assoc]; readLE
  have e16 : getLE data 16 2 = .ok a.minK := by
    rw [hd]; simp only [imgHead, imgPre, List.append_assoc]; readLE
  have e18 : getLE data 18 1 = .ok a.Ls.length := by
    rw [hd]; simp only [imgHead, imgPre, List.append_assoc]; readLE
  have elv : readLevels data a.Ls.length = .ok (starts a.free a.Ls ++ [0]) := by
    have := readLevels_ok a (by omega) (by omega) (H := imgHead a ++ imgPre a)
      (R := imgItems sd a) (by simp [imgHead_length, imgPre_length])
    rw [hd, ← this]
    simp
  have ewr : wr (starts a.free a.Ls ++ [0]) a.Ls.length T = .ok (starts a.free a.Ls ++ [T]) :=
    wr_mid _ _ _ _ (by rw [starts_length])
  have elo : rd (starts a.free a.Ls ++ [T]) 0 = .ok a.free := by
    obtain ⟨l, hl⟩ := List.length_eq_one_iff.1 hL
    rw [hl]; rfl
  have ehi : rd (starts a.free a.Ls ++ [T]) a.Ls.length = .ok T :=
    rd_mid _ _ _ (by rw [starts_length])
  have esub : sub32 T a.free = T + 4294967296 - a.free := by
    unfold sub32
    omega
  obtain ⟨A, hA⟩ : ∃ A, A = imgHead a ++ (imgPre a ++ imgLevels a) := ⟨_, rfl⟩
  have hAl : A.length = 20 + a.Ls.length * 4 := by
    rw [hA]; simp [imgHead_length, imgPre_length, imgLevels_length]; omega
  have hdA : data = A ++ (sd.many (a.minItem :: a.maxItem :: a.Ls.flatten) ++ []) := by
    rw [hd, hA, hl.cons, hl.cons a.maxItem]
    simp [imgItems]
  have esz : ∀ (o j : Nat), sd.sizeOfMany data o j = .ok (j * w) := by intro o j; rw [hsd]; rfl
  have hval : newMemVal sd data = .ok ⟨.full, a.k, a.m, a.zs, a.n, a.minK, a.Ls.length,
      starts a.free a.Ls ++ [T]⟩ := by
    rw [hd1, newMemVal_ok a hk hm (by omega) hst, ← hd1]
    show validateFull sd data a.k a.m (flagBits a.n a.zs) = _
    unfold validateFull
    have hfl : ¬ flagBits a.n a.zs % 2 = 1 := by
      unfold flagBits
      split <;> split <;> split <;> omega
    rw [if_neg hfl, e8, Outcome.ok_bind, e16, Outcome.ok_bind, e18, Outcome.ok_bind, elv,
      Outcome.ok_bind, computeTotal_ok (by omega) (by omega), Outcome.ok_bind, hT, ewr,
      Outcome.ok_bind, elo, Outcome.ok_bind, esz, Outcome.ok_bind, flagBits_zs]
  have d1 : sd.deser data (20 + a.Ls.length * 4) 1 = .ok [a.minItem] := by
    have := hl.deser [a.minItem] A (sd.many (a.maxItem :: a.Ls.flatten)) (by
      intro x hx; exact hP x (by simp at hx; simp [hx]))
    rw [hAl] at this
    rw [← hl.cons, ← List.append_nil (sd.many _), ← hdA] at this
    exact this
  have d2 : sd.deser data (20 + a.Ls.length * 4 + sd.sizeOf a.minItem) 1 = .ok [a.maxItem] := by
    have := hl.deser [a.maxItem] (A ++ sd.many [a.minItem]) (sd.many a.Ls.flatten) (by
      intro x hx; exact hP x (by simp at hx; simp [hx]))
    rw [List.length_append, hAl, ← hl.size, ← hl.cons, List.append_assoc, ← hl.cons,
      ← List.append_nil (sd.many _), ← hdA] at this
    exact this
  have hsz : ∀ x, sd.sizeOf x = w := by intro x; rw [hsd]; rfl
  have d3 : sd.deser data (20 + a.Ls.length * 4 + sd.sizeOf a.minItem + sd.sizeOf a.maxItem)
      (T + 4294967296 - a.free) = .panic := by
    have hdl : data.length = 20 + a.Ls.length * 4 + (a.Ls.flatten.length + 2) * w := by
      rw [hdA, hsd]
      show (A ++ ((a.minItem :: a.maxItem :: a.Ls.flatten).flatMap (toLE w) ++ [])).length = _
      rw [List.append_nil, List.length_append, hAl, flatMap_toLE_length]
      simp
    rw [hsz, hsz, hsd]
    refine fixedDeser_panic w data _ _ (by omega) ?_
    rw [hdl]
    have : a.Ls.flatten.length < T + 4294967296 - a.free := by omega
    have := Nat.mul_lt_mul_of_pos_right this hw
    rw [Nat.add_mul]
    omega
  rw [← hd]
  unfold fromSlice
  rw [hval, Outcome.ok_bind]
  show readFull sd env data _ = _
  unfold readFull
  simp only
  have hmod : (20 + a.Ls.length * 4) % 256 = 20 + a.Ls.length * 4 := Nat.mod_eq_of_lt (by omega)
  rw [ehi, Outcome.ok_bind, elo, Outcome.ok_bind, hmod, d1, Outcome.ok_bind]
  rw [show rd [a.minItem] 0 = .ok a.minItem from rfl, Outcome.ok_bind, d2, Outcome.ok_bind]
  rw [show rd [a.maxItem] 0 = .ok a.maxItem from rfl, Outcome.ok_bind, esub, d3, Outcome.panic_bind]

/-- C79 fails for `k` above 32767, which the constructor accepts: a sketch of numbers with two or
more (but not very many) items is written without an error, and reading it panics. -/
theorem C79_large_k (w : Nat) (hw : 0 < w) (env : Env Nat) (hs : ∀ l, (env.sort l).Perm l)
    (ho : IsOrd env.lt) {k m : Nat} (hk : 32768 ≤ k) (hk' : k ≤ 65535)
    (hm : m = 2 ∨ m = 4 ∨ m = 6 ∨ m = 8) (xs : List Nat) (h2 : 2 ≤ xs.length)
    (hx : xs.length < 32760) (hP : ∀ x ∈ xs, x < 256 ^ w) :
    Rand.All (fun st => ∃ s bytes, st = [s] ∧ toSlice (fixed w) s = .ok bytes ∧
        fromSlice (fixed w) env bytes = .panic)
      (run env (streamProg k m xs)) := by
  have h8 : 8 ≤ k := by omega
  refine (stream_small env hs h8 hk' (m := m) (by omega) (by omega) xs (by omega)).mono ?_
  rintro st ⟨s, a, rfl, hr, hi, hak, ham, hL, hfree⟩
  have hn : a.n = xs.length := hi.core.len.symm
  have hSne : xs ≠ [] := by rintro rfl; simp at h2
  have hmm := hi.mm ho
  have hPP : ∀ x ∈ a.minItem :: a.maxItem :: a.Ls.flatten, x < 256 ^ w := by
    intro x hx
    rw [List.mem_cons, List.mem_cons] at hx
    rcases hx with rfl | rfl | hx
    · exact hP _ (hmm.minMem hSne)
    · exact hP _ (hmm.maxMem hSne)
    · exact hP _ (hi.core.mem x hx)
  have ho1 : ∀ x, (fixed w).one x = (fixed w).many [x] := by simp [fixed]
  refine ⟨s, _, rfl, toSlice_full (fixed_lawful w) hr (by omega) (by omega) (ho1 _) (ho1 _), ?_⟩
  exact read_large w hw env a (by omega) (by omega) hL (by omega) (by have := hi.kappa; omega)
    (by rw [ham]; exact hm) (by omega) (by
      have hsz : size a.Ls = a.n := by
        obtain ⟨l, hl⟩ := List.length_eq_one_iff.1 hL
        have hw := hi.core.weight
        rw [hl] at hw ⊢
        simpa [wt, rk, size] using hw
      omega) (by omega) hPP

/-- Byte-wise comparison of strings, as `ItemSketchStringComparator(false)`. -/
def strLt : List Nat → List Nat → Bool
  | [], [] => false
  | [], _ :: _ => true
  | _ :: _, [] => false
  | a :: as, b :: bs => if a < b then true else if b < a then false else strLt as bs

deriving instance DecidableEq for Sketch

def strEnv : Env (List Nat) := ⟨[], strLt, id, id⟩

/-- C79 fails for strings when the empty string is the minimum of two or more items: after `""` and
`"b"` the sketch is written and read back without an error, but the minimum read back is `"b"`. -/
theorem C79_empty_string :
    ∃ s bytes t, run strEnv (streamProg 8 2 [[], [98]]) = Rand.ret [s] ∧
      toSlice strings s = .ok bytes ∧ fromSlice strings strEnv bytes = .ok t ∧
      getMinItem s = .ok [] ∧ getMinItem t = .ok [98] ∧ levelItems s 0 = [[98], []] ∧
      levelItems t 0 = [[], []] := by
  refine ⟨⟨8, 2, 8, 1, false, 2, [6, 8], [[], [], [], [], [], [], [98], []], [], [98], true, []⟩,
    [5, 1, 15, 0, 8, 0, 2, 0, 2, 0, 0, 0, 0, 0, 0, 0, 8, 0, 1, 0, 6, 0, 0, 0, 1, 0, 0, 0, 98,
      1, 0, 0, 0, 98, 0, 0, 0, 0, 0, 0, 0, 0],
    ⟨8, 2, 8, 1, false, 2, [6, 8], [[], [], [], [], [], [], [], []], [98], [98], true, []⟩,
    rfl, by decide +kernel, ?_, rfl, rfl, rfl, rfl⟩
  decide +kernel

/-- Reading panics on eight bytes that are not a sketch. -/
theorem C79_decoder_panics (sd : Serde α) (env : Env α) :
    fromSlice sd env (List.replicate 8 0) = .panic := rfl

/-! ## The hypotheses can be met -/

theorem strLt_ord : IsOrd strLt where
  asymm := by
    intro a
    induction a with
    | nil => intro b h; cases b <;> simp_all [strLt]
    | cons x a ih =>
      intro b h
      cases b with
      | nil => simp [strLt] at h
      | cons y b =>
        simp only [strLt] at h ⊢
        split at h
        · rename_i h1; rw [if_neg (by omega), if_pos h1]
        · split at h
          · simp at h
          · rename_i h1 h2; rw [if_neg h2, if_neg h1]; exact ih b h
  trans := by
    intro a
    induction a with
    | nil => intro b c h1 h2; cases c <;> simp [strLt]
    | cons x a ih =>
      intro b c h1 h2
      cases b with
      | nil => simp [strLt] at h1
      | cons y b =>
        cases c with
        | nil => simp [strLt] at h2
        | cons z c =>
          simp only [strLt] at h1 h2 ⊢
          split at h1
          · simp at h1
          · split at h2
            · simp at h2
            · split
              · omega
              · split
                · rfl
                · split at h1
                  · omega
                  · split at h2
                    · omega
                    · exact ih b c h1 h2

/-- Two streams of numbers, merged. -/
example (xs ys : List Nat) (hx : ∀ x ∈ xs ++ ys, x < 256 ^ 8) (hn : xs.length + ys.length < 2 ^ 57) :
    Rand.All (fun st => ∀ (i : Nat) s, st[i]? = some s → s.k ≤ 32767 →
    (s.m = 2 ∨ s.m = 4 ∨ s.m = 6 ∨ s.m = 8) →
    ∃ bytes t, toSlice (fixed 8) s = .ok bytes ∧ serializedSize (fixed 8) s = .ok bytes.length ∧
      fromSlice (fixed 8) natEnv bytes = .ok t ∧ Same s t ∧ toSlice (fixed 8) t = .ok bytes)
    (run natEnv (twoSketches xs ys 7)) := by
  obtain ⟨h1, h2, _⟩ := twoSketches_valid xs ys 7 (by omega)
  refine (C79_numbers_partial 8 natEnv natEnv_sorts.perm natEnv_ord _ h1).mono fun st h => ?_
  intro i s hi hk hm
  refine h i s hi hk hm ?_ ?_
  · rw [h2]
    rcases i with _ | _ | i <;> simp
    omega
  · rw [h2]
    intro x hx'
    rcases i with _ | _ | i
    · simp only [List.getD_cons_zero, List.mem_append, List.mem_singleton] at hx'
      rcases hx' with h | rfl
      · exact hx x (by simpa using h)
      · omega
    · simp at hx'
    · simp at hx'

/-- Two strings. -/
example : Rand.All (fun st => ∀ (i : Nat) s, st[i]? = some s → getMinItem s ≠ .ok [] ∧
    getMaxItem s ≠ .ok [] →  ∃ bytes t, s.k ≤ 32767 → s.m = 2 →
      toSlice strings s = .ok bytes ∧ fromSlice strings strEnv bytes = .ok t ∧ Same s t)
    (run strEnv (streamProg 8 2 [[97], [98, 99]])) := by
  have hv := streamProg_valid (k := 8) (m := 2) (by omega) (by omega) (by omega) (by omega)
    [[97], [98, 99]] (by simp)
  refine (C79_strings_partial strEnv (fun l => .refl l) strLt_ord _ hv).mono fun st h => ?_
  intro i s hi hne
  by_cases hk : s.k ≤ 32767 ∧ s.m = 2
  · obtain ⟨b, t, e1, _, e2, e3, _⟩ := h i s hi hk.1 (Or.inl hk.2) (by
      rw [streamProg_streams]; rcases i with _ | i <;> simp) (by
      rw [streamProg_streams]
      intro x hx
      rcases i with _ | i
      · simp at hx
        rcases hx with rfl | rfl <;> simp
      · simp at hx) (fun _ => hne)
    exact ⟨b, t, fun _ _ => ⟨e1, e2, e3⟩⟩
  · exact ⟨[], s, fun h1 h2 => absurd ⟨h1, h2⟩ hk⟩

/-- Three numbers into a sketch with a large `k`. -/
example (k : Nat) (hk : 32768 ≤ k) (hk' : k ≤ 65535) :
    Rand.All (fun st => ∃ s bytes, st = [s] ∧ toSlice (fixed 8) s = .ok bytes ∧
      fromSlice (fixed 8) natEnv bytes = .panic) (run natEnv (streamProg k 8 [5, 3, 9])) :=
  C79_large_k 8 (by omega) natEnv natEnv_sorts.perm natEnv_ord hk hk'
    (by omega) [5, 3, 9] (by simp) (by simp) (by simp)

end Verif.Kll
