import Verif.KllPartition

/-!
# C108: boundaries of equally sized partitions

`GetPartitionBoundaries` (kll/items_sketch.go:412-439) over every program of creations, updates,
merges and resets.
-/

namespace Verif.Kll

open Verif Verif.View Verif.Inequality

variable {α : Type} [LinearOrder α]

/-- The loop over the normalized ranks. -/
theorem fold_pairs {β γ : Type} (f : ℚ → Outcome (β × γ)) (g : ℚ → β × γ)
    (hf : ∀ r, f r = .ok (g r)) (l : List ℚ) (A : List β) (B : List γ) :
    l.foldlM (fun acc r => f r >>= fun p => Outcome.ok (acc.1 ++ [p.1], acc.2 ++ [p.2])) (A, B) =
      .ok (A ++ l.map (fun r => (g r).1), B ++ l.map (fun r => (g r).2)) := by
  induction l generalizing A B with
  | nil => simp
  | cons r l ih =>
    rw [List.foldlM_cons, hf, Outcome.ok_bind]
    show (List.foldlM _ (A ++ [(g r).1], B ++ [(g r).2]) l) = _
    rw [ih]
    simp

/-- The normalized rank of boundary `j` of `num`. -/
theorem evenly_get {num j : Nat} (h1 : 1 ≤ num) (hj : j < num + 1) :
    ((List.range (num + 1)).map fun i => if i = num + 1 - 1 then (1 : ℚ) else
      (i : ℚ) * (1 / (((num + 1 : Nat) : ℚ) - 1)))[j]? = some ((j : ℚ) / num) := by
  have h0 : (num : ℚ) ≠ 0 := by
    have : num ≠ 0 := by omega
    exact_mod_cast this
  rw [List.getElem?_map, List.getElem?_range hj, Option.map_some]
  congr 1
  split
  · next h =>
    have : j = num := by omega
    subst this
    field_simp
  · push_cast
    rw [add_sub_cancel_right]
    ring

/-- The call on the view. -/
theorem PinOk.boundaries {s : Sketch α} {v : SView α} {Z : List (α × Int)} (h : PinOk s v Z)
    {num : Nat} (h1 : 1 ≤ num) (incl : Bool) :
    ∃ bs cs w, v.getPartitionBoundaries num incl = .ok ((bs, cs), w) ∧ v.pinEnds = .ok w ∧
      bs.length = num + 1 ∧
      ∀ j ≤ num, ∃ i, bs[j]? = some (pinItem s Z i) ∧
        EndsAt Z incl (computeNaturalRank ((j : ℚ) / num) s.n incl) i := by
  obtain ⟨w, hw, a1, a2, a3, a4, a5, a6, a7⟩ := h.pinEnds
  choose I hI hE using fun r : ℚ => h.search a1 a4 a5 a6 r incl
  have hf : ∀ r : ℚ, (w.getQuantileIndex r incl >>= fun index => getI w.quantiles index >>= fun q =>
      getI w.cumWeights index >>= fun c => Outcome.ok (q, c)) =
      .ok (pinItem s Z (I r), pinCum Z (I r)) := by
    intro r
    rw [hI, Outcome.ok_bind]
    unfold getI View.get
    rw [if_neg (by omega), if_neg (by omega)]
    rw [Int.toNat_natCast, a7 _ (hE r).1, a6 _ (hE r).1]
    rfl
  have hfold := fold_pairs _ _ hf ((List.range (num + 1)).map fun i =>
    if i = num + 1 - 1 then (1 : ℚ) else (i : ℚ) * (1 / (((num + 1 : Nat) : ℚ) - 1))) [] []
  rw [List.nil_append, List.nil_append] at hfold
  refine ⟨((List.range (num + 1)).map fun i => if i = num + 1 - 1 then (1 : ℚ) else
    (i : ℚ) * (1 / (((num + 1 : Nat) : ℚ) - 1))).map fun r => pinItem s Z (I r),
    ((List.range (num + 1)).map fun i => if i = num + 1 - 1 then (1 : ℚ) else
    (i : ℚ) * (1 / (((num + 1 : Nat) : ℚ) - 1))).map fun r => pinCum Z (I r), w, ?_, hw, ?_, ?_⟩
  · unfold SView.getPartitionBoundaries
    rw [if_neg (by rw [h.view.totalN]; exact h.n), hw, Outcome.ok_bind]
    unfold evenlySpacedDoubles
    rw [if_neg (by omega), Outcome.ok_bind]
    have e : ∀ (acc : List α × List Int) (r : ℚ),
        (w.getQuantileIndex r incl >>= fun index => getI w.quantiles index >>= fun q =>
          getI w.cumWeights index >>= fun c => Outcome.ok (acc.1 ++ [q], acc.2 ++ [c])) =
        ((w.getQuantileIndex r incl >>= fun index => getI w.quantiles index >>= fun q =>
          getI w.cumWeights index >>= fun c => Outcome.ok (q, c)) >>= fun p =>
            Outcome.ok (acc.1 ++ [p.1], acc.2 ++ [p.2])) := by
      intro acc r
      rw [hf r, Outcome.ok_bind]
      rw [hI, Outcome.ok_bind]
      unfold getI View.get
      rw [if_neg (by omega), if_neg (by omega)]
      rw [Int.toNat_natCast, a7 _ (hE r).1, a6 _ (hE r).1]
      rfl
    simp only [e]
    rw [hfold, Outcome.ok_bind]
  · simp
  · intro j hj
    refine ⟨I ((j : ℚ) / num), ?_, hE _⟩
    rw [List.getElem?_map, evenly_get h1 (by omega)]
    rfl

/-- Every sketch of a program that is not empty has such a view; its extremes are those of the
stream. -/
theorem run_pin (env : Env α) (hlt : ∀ a b, env.lt a b = decide (a < b)) (hso : Sorts env)
    (ops : List (Op α)) (hv : Valid ops) :
    Rand.All (fun st => ∀ (i : Nat) (s : Sketch α), st[i]? = some s →
      (streams ops).getD i [] ≠ [] →
      ∃ v Z, newSortedView env s = .ok v ∧ PinOk s v Z ∧
        s.minItem ∈ (streams ops).getD i [] ∧ s.maxItem ∈ (streams ops).getD i [] ∧
        (∀ y ∈ (streams ops).getD i [], s.minItem ≤ y ∧ y ≤ s.maxItem) ∧
        s.n = ((streams ops).getD i []).length) (run env ops) := by
  refine (run_link hso.perm (by omega) ops hv (ks_of_valid hv)).mono fun st hst => ?_
  intro i s hi hS
  obtain ⟨a, hr, hinv, _⟩ := hst.link i s hi
  have hmm := hinv.mm (ord_of hlt)
  have hlen := hinv.core.len
  rw [← hr.n] at hlen
  have hn : s.n ≠ 0 := by
    have := List.length_pos_of_ne_nil hS
    omega
  obtain ⟨v, Z, hnv, hZ⟩ := newSortedView_ok hlt hso hr hinv hn
  have hmin := hmm.minMem hS
  have hmax := hmm.maxMem hS
  rw [← hr.minItem] at hmin
  rw [← hr.maxItem] at hmax
  have hall : ∀ y ∈ (streams ops).getD i [], s.minItem ≤ y ∧ y ≤ s.maxItem := by
    intro y hy
    have e1 := hmm.minLe y hy
    have e2 := hmm.maxGe y hy
    rw [hlt, ← hr.minItem] at e1
    rw [hlt, ← hr.maxItem] at e2
    simp only [decide_eq_false_iff_not, not_lt] at e1 e2
    exact ⟨e1, e2⟩
  have hmem : ∀ z ∈ Z, z.1 ∈ (streams ops).getD i [] := by
    intro z hz
    obtain ⟨h, hh, hx⟩ := (hZ.mem z.1).1 ⟨z, hz, rfl⟩
    rw [hr.numLevels] at hh
    rw [hr.levelItems hh, List.getD_eq_getElem?_getD, List.getElem?_eq_getElem hh] at hx
    exact hinv.core.mem _ (List.mem_flatten.2 ⟨_, List.getElem_mem hh, hx⟩)
  refine ⟨v, Z, hnv, ⟨hZ, hn, ?_, fun z hz => (hall _ (hmem z hz)).1,
    fun z hz => (hall _ (hmem z hz)).2, ?_⟩, hmin, hmax, hall, hlen.symm⟩
  · have h1 := hZ.weight (fun _ => true)
    rw [wsum_all (fun _ _ => rfl)] at h1
    rw [h1, hr.weightOf, hr.n, ← hinv.core.weight]
    rfl
  · intro h1
    rw [h1] at hlen
    obtain ⟨x, hx⟩ := List.length_eq_one_iff.1 hlen
    rw [hx] at hmin hmax
    simp only [List.mem_singleton] at hmin hmax
    rw [hmin, hmax]

/-- C108: for every positive number `num` of partitions there are `num + 1` boundaries in ascending
order; the first one is the smallest item of the stream and the last one the largest, exactly; and
the `j`-th one stands close to the rank `j/num`: in the sketch's own rank (the weight of the retained
items) at least `j·n/num - 3` of the weight is at or below it, and at most `j·n/num + 2^L + 2` is
strictly below it, where `L` is the number of levels of the sketch (an item of the highest level has
the weight `2^(L-1)`). -/
theorem C108_boundaries (env : Env α) (hlt : ∀ a b, env.lt a b = decide (a < b)) (hso : Sorts env)
    (ops : List (Op α)) (hv : Valid ops) :
    Rand.All (fun st => ∀ (i : Nat) (s : Sketch α), st[i]? = some s → (streams ops).getD i [] ≠ [] →
      ∀ (num : Nat) (incl : Bool), 1 ≤ num →
      ∃ v bs cs w mn mx, newSortedView env s = .ok v ∧
        v.getPartitionBoundaries num incl = .ok ((bs, cs), w) ∧
        bs.length = num + 1 ∧ bs.Pairwise (· ≤ ·) ∧
        bs[0]? = some mn ∧ bs[num]? = some mx ∧
        mn ∈ (streams ops).getD i [] ∧ mx ∈ (streams ops).getD i [] ∧
        (∀ y ∈ (streams ops).getD i [], mn ≤ y ∧ y ≤ mx) ∧
        ∀ (j : Nat) (b : α), bs[j]? = some b →
          (j : ℚ) * ((streams ops).getD i []).length / num - 3 ≤
            weightOf (fun y => decide (y ≤ b)) s ∧
          (weightOf (fun y => decide (y < b)) s : ℚ) ≤
            (j : ℚ) * ((streams ops).getD i []).length / num + 2 ^ s.numLevels + 2)
      (run env ops) := by
  refine (run_pin env hlt hso ops hv).mono fun st hst => ?_
  intro i s hi hS num incl h1
  obtain ⟨v, Z, hnv, hp, hmin, hmax, hall, hlen⟩ := hst i s hi hS
  obtain ⟨bs, cs, w, hb, _, hbl, hbj⟩ := hp.boundaries h1 incl
  have hnum : (0 : ℚ) < num := by exact_mod_cast h1
  have hrank : ∀ j ≤ num, 0 ≤ (j : ℚ) / num ∧ (j : ℚ) / num ≤ 1 := by
    intro j hj
    refine ⟨by positivity, ?_⟩
    rw [div_le_one hnum]
    exact_mod_cast hj
  refine ⟨v, bs, cs, w, s.minItem, s.maxItem, hnv, hb, hbl, ?_, ?_, ?_, hmin, hmax, hall, ?_⟩
  · rw [List.pairwise_iff_getElem]
    intro x y hx hy hxy
    obtain ⟨a, ha, ea⟩ := hbj x (by omega)
    obtain ⟨b, hb, eb⟩ := hbj y (by omega)
    rw [List.getElem?_eq_getElem hx, Option.some.injEq] at ha
    rw [List.getElem?_eq_getElem hy, Option.some.injEq] at hb
    rw [ha, hb]
    refine hp.item_mono (ea.mono eb (naturalRank_mono ?_ _ _)) eb.1
    rw [div_le_div_iff_of_pos_right hnum]
    exact_mod_cast le_of_lt hxy
  · obtain ⟨a, ha, ea⟩ := hbj 0 (by omega)
    have e0 := naturalRank_exact (r := ((0 : Nat) : ℚ) / num) (n := s.n) (c := 0) (by simp) incl
    rw [e0] at ea
    have := ea.zero
    subst this
    rw [ha]
    unfold pinItem
    split
    · next h0 => rw [hp.one (hp.single (by have := hp.len; omega))]
    · rfl
  · obtain ⟨a, ha, ea⟩ := hbj num (le_refl _)
    have e1 := naturalRank_exact (r := (num : ℚ) / num) (n := s.n) (c := s.n)
      (by rw [div_self hnum.ne']; simp) incl
    rw [e1] at ea
    rw [ha, ea.last hp]
    simp [pinItem]
  · intro j b hjb
    have hj : j ≤ num := by
      have := (List.getElem?_eq_some_iff.1 hjb).1
      omega
    obtain ⟨a, ha, ea⟩ := hbj j hj
    rw [hjb, Option.some.injEq] at ha
    subst ha
    obtain ⟨r0, r1⟩ := hrank j hj
    obtain ⟨n0, n1⟩ := naturalRank_range r0 r1 s.n incl
    obtain ⟨w1, w2⟩ := hp.near ea n0 n1
    have hnear : (j : ℚ) / num * s.n - 2 ≤ computeNaturalRank ((j : ℚ) / num) s.n incl ∧
        (computeNaturalRank ((j : ℚ) / num) s.n incl : ℚ) ≤ (j : ℚ) / num * s.n + 2 := by
      obtain ⟨⟨a1, a2⟩, a3, a4⟩ := naturalRank_near ((j : ℚ) / num) s.n
      cases incl
      · constructor <;> linarith
      · constructor <;> linarith
    rw [← hlen, mul_div_right_comm]
    have w1' : (computeNaturalRank ((j : ℚ) / num) s.n incl : ℚ) ≤
        (weightOf (fun y => decide (y ≤ pinItem s Z a)) s : ℚ) + 1 := by exact_mod_cast w1
    have w2' : (weightOf (fun y => decide (y < pinItem s Z a)) s : ℚ) ≤
        (computeNaturalRank ((j : ℚ) / num) s.n incl : ℚ) + 2 ^ s.numLevels := by exact_mod_cast w2
    constructor <;> linarith [hnear.1, hnear.2]

/-- C108: asking again gives the same answer (the call writes into the view it keeps, but the writes
are the same each time), for every number of partitions and either criterion. -/
theorem C108_repeat (env : Env α) (hlt : ∀ a b, env.lt a b = decide (a < b)) (hso : Sorts env)
    (ops : List (Op α)) (hv : Valid ops) :
    Rand.All (fun st => ∀ (i : Nat) (s : Sketch α), st[i]? = some s → (streams ops).getD i [] ≠ [] →
      ∀ (num num' : Nat) (incl incl' : Bool), 1 ≤ num → 1 ≤ num' →
      ∃ r c r', cPartition env ⟨s, none⟩ num incl = .ok (r, c) ∧
        cPartition env c num' incl' = .ok (r', c) ∧
        cPartition env ⟨s, none⟩ num' incl' = .ok (r', c))
      (run env ops) := by
  refine (run_pin env hlt hso ops hv).mono fun st hst => ?_
  intro i s hi hS num num' incl incl' h1 h2
  obtain ⟨v, Z, hnv, hp, hmin, hmax, hall, hlen⟩ := hst i s hi hS
  obtain ⟨bs, cs, w, hb, hw, -⟩ := hp.boundaries h1 incl
  obtain ⟨bs', cs', w', hb', hw', -⟩ := hp.boundaries h2 incl'
  have hww : w' = w := by rw [hw] at hw'; cases hw'; rfl
  subst hww
  have he : isEmpty s = false := by simp [isEmpty, hp.n]
  have hidem : w'.pinEnds = .ok w' := by
    obtain ⟨u, hu, a1, a2, a3, a4, a5, a6, a7⟩ := hp.pinEnds
    rw [hw] at hu
    cases hu
    have hl := hp.len
    have g1 : w'.cumWeights.set 0 1 = w'.cumWeights := by
      apply List.ext_getElem? 
      intro k
      rw [List.getElem?_set]
      split
      · next h0 =>
        subst h0
        rw [if_pos (by omega), a6 0 hl]
        rfl
      · rfl
    have g2 : w'.cumWeights.set (w'.cumWeights.length - 1) (w'.totalN : Int) = w'.cumWeights := by
      apply List.ext_getElem?
      intro k
      rw [List.getElem?_set]
      split
      · next h0 =>
        subst h0
        rw [if_pos (by omega), a6 _ (by omega), a5, a1, hp.pin_last]
      · rfl
    have g3 : (w'.quantiles.set 0 w'.minItem).set (w'.quantiles.length - 1) w'.maxItem =
        w'.quantiles := by
      apply List.ext_getElem?
      intro k
      rw [List.getElem?_set, List.getElem?_set, List.length_set]
      split
      · next h0 =>
        subst h0
        rw [if_pos (by omega), a7 _ (by omega), a3, a4]
        simp [pinItem]
      · next h0 =>
        split
        · next h3 =>
          subst h3
          rw [if_pos (by omega), a7 0 hl, a2]
          unfold pinItem
          rw [if_neg (by omega), if_pos rfl]
        · rfl
    unfold SView.pinEnds
    rw [wr_ok _ (by omega), Outcome.ok_bind, g1, wr_ok _ (by omega), Outcome.ok_bind, g2,
      wr_ok _ (by omega), Outcome.ok_bind, List.length_set, wr_ok _ (by simp; omega),
      Outcome.ok_bind, g3]
  have hsame : w'.getPartitionBoundaries num' incl' = v.getPartitionBoundaries num' incl' := by
    unfold SView.getPartitionBoundaries
    obtain ⟨u, hu, a1, -⟩ := hp.pinEnds
    rw [hw] at hu
    cases hu
    rw [a1, hp.view.totalN, hidem, hw]
  refine ⟨(bs, cs), ⟨s, some w'⟩, (bs', cs'), ?_, ?_, ?_⟩
  · unfold cPartition setupSortedView
    simp only [he, Bool.false_eq_true, if_false]
    rw [hnv, Outcome.ok_bind, hb, Outcome.ok_bind]
  · unfold cPartition setupSortedView
    simp only [he, Bool.false_eq_true, if_false]
    rw [Outcome.ok_bind, hsame, hb', Outcome.ok_bind]
  · unfold cPartition setupSortedView
    simp only [he, Bool.false_eq_true, if_false]
    rw [hnv, Outcome.ok_bind, hb', Outcome.ok_bind]

/-- C108: an empty sketch, or zero partitions, is an error (never a panic). -/
theorem C108_rejected (env : Env α) (hlt : ∀ a b, env.lt a b = decide (a < b)) (hso : Sorts env)
    (ops : List (Op α)) (hv : Valid ops) :
    Rand.All (fun st => ∀ (i : Nat) (s : Sketch α), st[i]? = some s → ∀ (num : Nat) (incl : Bool),
      ((streams ops).getD i [] = [] ∨ num = 0) → ∃ e, cPartition env ⟨s, none⟩ num incl = .err e)
      (run env ops) := by
  refine ((run_link hso.perm (by omega) ops hv (ks_of_valid hv)).and
    (run_pin env hlt hso ops hv)).mono ?_
  rintro st ⟨hst, hpin⟩ i s hi num incl h
  unfold cPartition
  by_cases hS : (streams ops).getD i [] = []
  · obtain ⟨a, hr, hinv, _⟩ := hst.link i s hi
    have hlen := hinv.core.len
    rw [hS, ← hr.n] at hlen
    have hn : s.n = 0 := hlen.symm
    rw [if_pos (by simp [isEmpty, hn])]
    exact ⟨_, rfl⟩
  · rcases h with h | rfl
    · exact absurd h hS
    · obtain ⟨v, Z, hnv, hp, -⟩ := hpin i s hi hS
      have he : isEmpty s = false := by simp [isEmpty, hp.n]
      obtain ⟨w, hw, -⟩ := hp.pinEnds
      unfold setupSortedView
      simp only [he, Bool.false_eq_true, if_false]
      rw [hnv, Outcome.ok_bind]
      unfold SView.getPartitionBoundaries
      rw [if_neg (by rw [hp.view.totalN]; exact hp.n), hw, Outcome.ok_bind]
      unfold evenlySpacedDoubles
      rw [if_pos (by omega)]
      exact ⟨_, rfl⟩

/-! ## The hypotheses are satisfiable -/

example (xs ys : List Nat) (z : Nat) (hn : xs.length + ys.length < 2 ^ 59) :=
  C108_boundaries natEnv natEnv_lt natEnv_sorts _ (twoSketches_valid xs ys z hn).1

example (xs ys : List Nat) (z : Nat) (hn : xs.length + ys.length < 2 ^ 59) :
    (streams (twoSketches xs ys z)).getD 0 [] ≠ [] := by
  rw [(twoSketches_valid xs ys z hn).2.1]
  simp

end Verif.Kll
