import Verif.ViewQueries

/-!
# The numeric sorted view

`Z`: retained items with their weights, in order.  `newNumericView` adds the minimum and the maximum
of the stream if they are not retained; the result is described by another such list `Z'`.
-/

namespace Verif.View

open Verif Verif.Inequality

variable {α : Type} [LinearOrder α]

/-- The view `v` shows the weighted items `Z`. -/
structure Shows (v : NumericView α) (Z : List (α × Int)) : Prop where
  quantiles : v.quantiles = Z.map Prod.fst
  cumWeights : v.cumWeights = cums 0 (Z.map Prod.snd)
  wf : Wf Z
  ne : Z ≠ []
  total : wsum (fun _ => true) Z = v.n
  pos : v.n ≠ 0

namespace Shows

variable {v : NumericView α} {Z : List (α × Int)}

theorem rank (h : Shows v Z) (q : α) (incl : Bool) :
    v.rank q incl = .ok ((wsum (below incl q) Z : ℚ) / v.n) := by
  unfold NumericView.rank
  rw [if_neg h.pos, h.quantiles, h.cumWeights, rank_expr h.wf h.ne]

theorem quantile (h : Shows v Z) {r : ℚ} (h0 : 0 ≤ r) (h1 : r ≤ 1) (incl : Bool) :
    ∃ x, v.quantile r incl = .ok x ∧ IsQuantile Z (computeNaturalRank r v.n incl) incl x := by
  obtain ⟨x, hx, hq⟩ := quantile_expr h.wf h.ne (computeNaturalRank r v.n incl) incl
  refine ⟨x, ?_, hq⟩
  rw [← hx]
  unfold NumericView.quantile validateNormalizedRankBounds
  rw [if_neg h.pos, if_neg (by intro hc; rcases hc with hc | hc <;> linarith),
    Outcome.ok_bind, h.quantiles, h.cumWeights, cums_length, List.length_map]

theorem cdf (h : Shows v Z) {sp : List α} (hsp : sp.Pairwise (· < ·)) (incl : Bool) :
    v.cdf sp incl = .ok (sp.map (fun q => (wsum (below incl q) Z : ℚ) / v.n) ++ [1]) := by
  unfold NumericView.cdf
  rw [(validateSplitPoints_iff sp).1.2 hsp, Outcome.ok_bind,
    map_fold _ (fun q => (wsum (below incl q) Z : ℚ) / v.n) _ (fun q _ => h.rank q incl)]
  rfl

theorem pmf (h : Shows v Z) {sp : List α} (hsp : sp.Pairwise (· < ·)) (incl : Bool) :
    v.pmf sp incl = .ok ((intervals incl none sp).map fun p => (wsum p Z : ℚ) / v.n) := by
  unfold NumericView.pmf
  rw [h.cdf hsp, Outcome.ok_bind, differences_ok]
  have hd := diffs_intervals incl (Z := Z) (n := v.n) h.total h.pos none hsp (by simp)
  simp only [loW, Int.cast_zero, zero_div] at hd
  rw [hd]

theorem pmf_sum (h : Shows v Z) {sp : List α} (hsp : sp.Pairwise (· < ·)) (incl : Bool) :
    ((intervals incl none sp).map fun p => (wsum p Z : ℚ) / v.n).sum = 1 := by
  have hd := diffs_intervals incl (Z := Z) (n := v.n) h.total h.pos none hsp (by simp)
  simp only [loW, Int.cast_zero, zero_div] at hd
  rw [← hd, diffs_sum, sub_zero]

theorem minItem (h : Shows v Z) : v.minItem = .ok (Z.head h.ne).1 := by
  unfold NumericView.minItem
  rw [if_neg h.pos, h.quantiles]
  have hne := h.ne
  cases Z with
  | nil => exact absurd rfl hne
  | cons z Z => rfl

theorem maxItem (h : Shows v Z) : v.maxItem = .ok (Z.getLast h.ne).1 := by
  unfold NumericView.maxItem
  have hpos : 0 < Z.length := List.length_pos_of_ne_nil h.ne
  have e : ((Z.length : Int) - 1).toNat = Z.length - 1 := by omega
  rw [if_neg h.pos, h.quantiles]
  unfold getI
  rw [List.length_map, if_neg (by omega), e, get, List.getElem?_map,
    List.getElem?_eq_getElem (show Z.length - 1 < Z.length by omega), List.getLast_eq_getElem]
  rfl

end Shows

/-! ## Adding the minimum and the maximum -/

theorem cums_append (a : Int) (u w : List Int) : cums a (u ++ w) = cums a u ++ cums (a + u.sum) w := by
  induction u generalizing a with
  | nil => simp [cums]
  | cons x u ih => simp [cums, ih, add_assoc]

/-- The minimum put in front takes weight 1 from the first item. -/
def lowZ (adj : Bool) (m : α) : List (α × Int) → List (α × Int)
  | [] => []
  | z :: Z => if adj then (m, 1) :: (z.1, z.2 - 1) :: Z else z :: Z

/-- The maximum put at the end takes weight 1 from the last item. -/
def highZ (adj : Bool) (m : α) (Z : List (α × Int)) : List (α × Int) :=
  if h : Z = [] then []
  else if adj then Z.dropLast ++ [((Z.getLast h).1, (Z.getLast h).2 - 1), (m, 1)] else Z

theorem highZ_snoc (adj : Bool) (m : α) (Z : List (α × Int)) (z : α × Int) :
    highZ adj m (Z ++ [z]) = if adj then Z ++ [(z.1, z.2 - 1), (m, 1)] else Z ++ [z] := by
  simp [highZ]

theorem get_last {β : Type} (l : List β) (x : β) : get (l ++ [x]) l.length = .ok x := by
  simp [get]

/-- `includeMinMax` in terms of weighted items. -/
theorem includeMinMax_ok (z0 : α × Int) (Z : List (α × Int)) (maxItem minItem : α) :
    ∃ adjLow adjHigh : Bool,
      adjLow = decide (z0.1 ≠ minItem) ∧
      adjHigh = decide (((z0 :: Z).getLast (by simp)).1 ≠ maxItem) ∧
      includeMinMax ((z0 :: Z).map Prod.fst) (cums 0 ((z0 :: Z).map Prod.snd)) maxItem minItem =
        .ok ((highZ adjHigh maxItem (lowZ adjLow minItem (z0 :: Z))).map Prod.fst,
          cums 0 ((highZ adjHigh maxItem (lowZ adjLow minItem (z0 :: Z))).map Prod.snd)) := by
  refine ⟨_, _, rfl, rfl, ?_⟩
  obtain ⟨I, l, hI⟩ : ∃ I l, z0 :: Z = I ++ [l] :=
    ⟨(z0 :: Z).dropLast, (z0 :: Z).getLast (by simp), (List.dropLast_append_getLast (by simp)).symm⟩
  have hlen : (cums 0 ((z0 :: Z).map Prod.snd)).length = (z0 :: Z).length := by simp
  have hgl : (z0 :: Z).getLast (by simp) = l := by simp [hI]
  have hL : (z0 :: Z).length - 1 = I.length := by rw [hI]; simp
  have hcl : cums 0 ((z0 :: Z).map Prod.snd) =
      cums 0 (I.map Prod.snd) ++ [(I.map Prod.snd).sum + l.2] := by
    rw [hI, List.map_append, cums_append]; simp [cums]
  unfold includeMinMax
  have hg0 : get ((z0 :: Z).map Prod.fst) 0 = .ok z0.1 := by simp [get]
  have hgL : get ((z0 :: Z).map Prod.fst) ((z0 :: Z).length - 1) = .ok l.1 := by
    rw [hL, hI, List.map_append]
    have := get_last (I.map Prod.fst) l.1
    rw [List.length_map] at this
    exact this
  have hcL : get (cums 0 ((z0 :: Z).map Prod.snd)) ((z0 :: Z).length - 1) =
      .ok ((I.map Prod.snd).sum + l.2) := by
    rw [hL, hcl]
    have := get_last (cums 0 (I.map Prod.snd)) ((I.map Prod.snd).sum + l.2)
    rw [cums_length, List.length_map] at this
    exact this
  simp only [hlen, hg0, Outcome.ok_bind, hgL, hcL, if_neg (show ¬ (z0 :: Z).length = 0 by simp),
    hgl]
  have htake : ((z0 :: Z).map Prod.fst).take (z0 :: Z).length = (z0 :: Z).map Prod.fst := by
    apply List.take_of_length_le; simp
  rw [htake]
  -- the list with the minimum
  have hlow1 : addLow (decide (z0.1 ≠ minItem)) minItem ((z0 :: Z).map Prod.fst) =
      (lowZ (decide (z0.1 ≠ minItem)) minItem (z0 :: Z)).map Prod.fst := by
    unfold addLow lowZ
    split <;> simp
  have hlow2 : addLow (decide (z0.1 ≠ minItem)) 1 (cums 0 ((z0 :: Z).map Prod.snd)) =
      cums 0 ((lowZ (decide (z0.1 ≠ minItem)) minItem (z0 :: Z)).map Prod.snd) := by
    unfold addLow lowZ
    split
    · simp [cums]
    · rfl
  rw [hlow1, hlow2]
  -- its last entry
  obtain ⟨J, w, hJ, hw1, hsum⟩ : ∃ J w, lowZ (decide (z0.1 ≠ minItem)) minItem (z0 :: Z) = J ++ [w] ∧
      w.1 = l.1 ∧ (J.map Prod.snd).sum + w.2 = (I.map Prod.snd).sum + l.2 := by
    simp only [lowZ]
    split
    · cases I with
      | nil =>
        simp only [List.nil_append, List.cons.injEq] at hI
        obtain ⟨rfl, rfl⟩ := hI
        exact ⟨[(minItem, 1)], (z0.1, z0.2 - 1), by simp, rfl, by simp⟩
      | cons i I =>
        simp only [List.cons_append, List.cons.injEq] at hI
        obtain ⟨rfl, rfl⟩ := hI
        exact ⟨(minItem, 1) :: (z0.1, z0.2 - 1) :: I, l, by simp, rfl, by simp; ring⟩
    · exact ⟨I, l, hI, rfl, rfl⟩
  rw [hJ, highZ_snoc]
  split
  · congr 2
    · simp [hw1]
    · rw [← hsum]
      simp only [List.map_append, cums_append, List.map_cons, List.map_nil, cums, zero_add]
      rw [show ((cums 0 (J.map Prod.snd) ++ [(J.map Prod.snd).sum + w.2]).length - 1) =
        (cums 0 (J.map Prod.snd)).length by simp, List.set_append_right _ _ (le_refl _)]
      simp only [Nat.sub_self, List.set_cons_zero, List.append_assoc, List.cons_append,
        List.nil_append]
      rw [show (J.map Prod.snd).sum + w.2 - 1 = (J.map Prod.snd).sum + (w.2 - 1) by ring,
        show (J.map Prod.snd).sum + w.2 = (J.map Prod.snd).sum + (w.2 - 1) + 1 by ring]
  · rfl

/-- The added items: weights stay, up to one below any item. -/
theorem lowZ_ok {adj : Bool} {m : α} {Z : List (α × Int)} (hs : Z.Pairwise fun a b => a.1 ≤ b.1)
    (hw : ∀ z ∈ Z, 1 ≤ z.2) (hm : ∀ z ∈ Z, m ≤ z.1) :
    (lowZ adj m Z).Pairwise (fun a b => a.1 ≤ b.1) ∧ (∀ z ∈ lowZ adj m Z, 0 ≤ z.2) ∧
    (∀ z ∈ lowZ adj m Z, z.1 = m ∨ ∃ y ∈ Z, y.1 = z.1) ∧
    (∀ y ∈ Z, ∃ z ∈ lowZ adj m Z, z.1 = y.1) ∧
    wsum (fun _ => true) (lowZ adj m Z) = wsum (fun _ => true) Z ∧
    ∀ q incl, wsum (below incl q) Z ≤ wsum (below incl q) (lowZ adj m Z) ∧
      wsum (below incl q) (lowZ adj m Z) ≤ wsum (below incl q) Z + 1 := by
  cases Z with
  | nil => simp [lowZ]
  | cons z Z =>
    have hnn : ∀ y ∈ z :: Z, 0 ≤ y.2 := fun y hy => by have := hw y hy; omega
    simp only [lowZ]
    split
    · rw [List.pairwise_cons] at hs
      refine ⟨?_, ?_, ?_, ?_, ?_, ?_⟩
      · rw [List.pairwise_cons, List.pairwise_cons]
        refine ⟨?_, hs.1, hs.2⟩
        intro y hy
        rcases List.mem_cons.1 hy with rfl | hy
        · exact hm z (by simp)
        · exact hm y (by simp [hy])
      · intro y hy
        have h1 := hw z (by simp)
        rcases List.mem_cons.1 hy with rfl | hy
        · simp
        · rcases List.mem_cons.1 hy with rfl | hy
          · simp; omega
          · exact hnn y (by simp [hy])
      · intro y hy
        rcases List.mem_cons.1 hy with rfl | hy
        · exact Or.inl rfl
        · rcases List.mem_cons.1 hy with rfl | hy
          · exact Or.inr ⟨z, by simp, rfl⟩
          · exact Or.inr ⟨y, by simp [hy], rfl⟩
      · intro y hy
        rcases List.mem_cons.1 hy with rfl | hy
        · exact ⟨(y.1, y.2 - 1), by simp, rfl⟩
        · exact ⟨y, by simp [hy], rfl⟩
      · simp only [wsum_cons, if_true]; omega
      · intro q incl
        simp only [wsum_cons]
        have : below incl q z.1 = true → below incl q m = true := below_mono (hm z (by simp))
        split <;> split <;> first | omega | (rename_i h1 h2; exact absurd (this h1) h2) |
          (rename_i h1 h2; exact absurd (this h2) h1)
    · exact ⟨hs, hnn, fun y hy => Or.inr ⟨y, hy, rfl⟩, fun y hy => ⟨y, hy, rfl⟩, rfl,
        fun q incl => ⟨le_refl _, by omega⟩⟩

theorem highZ_ok {adj : Bool} {m : α} {Z : List (α × Int)} {l : α × Int}
    (hs : (Z ++ [l]).Pairwise fun a b => a.1 ≤ b.1)
    (hw : ∀ z ∈ Z, 0 ≤ z.2) (hl : 0 ≤ l.2) (hadj : adj = true → 1 ≤ l.2)
    (hm : ∀ z ∈ Z ++ [l], z.1 ≤ m) :
    (highZ adj m (Z ++ [l])).Pairwise (fun a b => a.1 ≤ b.1) ∧
    (∀ z ∈ highZ adj m (Z ++ [l]), 0 ≤ z.2) ∧
    (∀ z ∈ highZ adj m (Z ++ [l]), z.1 = m ∨ ∃ y ∈ Z ++ [l], y.1 = z.1) ∧
    (∀ y ∈ Z ++ [l], ∃ z ∈ highZ adj m (Z ++ [l]), z.1 = y.1) ∧
    wsum (fun _ => true) (highZ adj m (Z ++ [l])) = wsum (fun _ => true) (Z ++ [l]) ∧
    ∀ q incl, wsum (below incl q) (Z ++ [l]) - 1 ≤ wsum (below incl q) (highZ adj m (Z ++ [l])) ∧
      wsum (below incl q) (highZ adj m (Z ++ [l])) ≤ wsum (below incl q) (Z ++ [l]) := by
  rw [highZ_snoc]
  split
  · rename_i ha
    have hl1 := hadj ha
    rw [List.pairwise_append] at hs
    refine ⟨?_, ?_, ?_, ?_, ?_, ?_⟩
    · rw [List.pairwise_append]
      refine ⟨hs.1, ?_, ?_⟩
      · simp only [List.pairwise_cons, List.mem_singleton, forall_eq, List.not_mem_nil,
          false_imp_iff, implies_true, List.Pairwise.nil, and_true]
        exact hm l (by simp)
      · intro a ha b hb
        simp only [List.mem_cons, List.not_mem_nil, or_false] at hb
        rcases hb with rfl | rfl
        · exact hs.2.2 a ha l (by simp)
        · exact hm a (by simp [ha])
    · intro z hz
      simp only [List.mem_append, List.mem_cons, List.not_mem_nil, or_false] at hz
      rcases hz with hz | rfl | rfl
      · exact hw z hz
      · simp; omega
      · simp
    · intro z hz
      simp only [List.mem_append, List.mem_cons, List.not_mem_nil, or_false] at hz
      rcases hz with hz | rfl | rfl
      · exact Or.inr ⟨z, by simp [hz], rfl⟩
      · exact Or.inr ⟨l, by simp, rfl⟩
      · exact Or.inl rfl
    · intro y hy
      rcases List.mem_append.1 hy with hy | hy
      · exact ⟨y, by simp [hy], rfl⟩
      · rw [List.mem_singleton] at hy
        subst hy
        exact ⟨(y.1, y.2 - 1), by simp, rfl⟩
    · simp only [wsum_append, wsum_cons, wsum_nil, if_true]; omega
    · intro q incl
      simp only [wsum_append, wsum_cons, wsum_nil]
      have : below incl q m = true → below incl q l.1 = true := below_mono (hm l (by simp))
      split <;> split <;> first | omega | (rename_i h1 h2; exact absurd (this h1) h2) |
          (rename_i h1 h2; exact absurd (this h2) h1)
  · refine ⟨hs, ?_, fun y hy => Or.inr ⟨y, hy, rfl⟩, fun y hy => ⟨y, hy, rfl⟩, rfl,
      fun q incl => ⟨by omega, le_refl _⟩⟩
    intro z hz
    rcases List.mem_append.1 hz with hz | hz
    · exact hw z hz
    · rw [List.mem_singleton] at hz; rw [hz]; exact hl

theorem lowZ_below {adj : Bool} {m : α} {z : α × Int} {Z : List (α × Int)} (hm : m ≤ z.1) (q : α)
    (incl : Bool) (h : below incl q z.1 = true ∨ below incl q m = false) :
    wsum (below incl q) (lowZ adj m (z :: Z)) = wsum (below incl q) (z :: Z) := by
  simp only [lowZ]
  split
  · have hmono : below incl q z.1 = true → below incl q m = true := below_mono hm
    simp only [wsum_cons]
    rcases h with h | h
    · rw [h, hmono h]; simp only [if_true]; omega
    · have hz : below incl q z.1 = false := by
        by_contra hc
        rw [Bool.not_eq_false] at hc
        rw [hmono hc] at h
        simp at h
      rw [h, hz]; simp
  · rfl

theorem highZ_below {adj : Bool} {m : α} {Z : List (α × Int)} {l : α × Int} (hm : l.1 ≤ m) (q : α)
    (incl : Bool) (h : below incl q l.1 = false ∨ below incl q m = true) :
    wsum (below incl q) (highZ adj m (Z ++ [l])) = wsum (below incl q) (Z ++ [l]) := by
  rw [highZ_snoc]
  split
  · have hmono : below incl q m = true → below incl q l.1 = true := below_mono hm
    simp only [wsum_append, wsum_cons, wsum_nil]
    rcases h with h | h
    · have hz : below incl q m = false := by
        by_contra hc
        rw [Bool.not_eq_false] at hc
        rw [hmono hc] at h
        simp at h
      rw [h, hz]; simp
    · rw [h, hmono h]; simp
  · rfl

/-- Weight below an item: none if the first is not below, all if the last is. -/
theorem below_first {z : α × Int} {Z : List (α × Int)} (hs : (z :: Z).Pairwise fun a b => a.1 ≤ b.1)
    {q : α} {incl : Bool} (h : below incl q z.1 = false) : wsum (below incl q) (z :: Z) = 0 := by
  apply wsum_none
  intro y hy
  by_contra hc
  rw [Bool.not_eq_false] at hc
  rcases List.mem_cons.1 hy with rfl | hy
  · rw [h] at hc; simp at hc
  · rw [below_mono ((List.pairwise_cons.1 hs).1 y hy) hc] at h
    simp at h

theorem below_last {l : α × Int} {Z : List (α × Int)} (hs : (Z ++ [l]).Pairwise fun a b => a.1 ≤ b.1)
    {q : α} {incl : Bool} (h : below incl q l.1 = true) :
    wsum (below incl q) (Z ++ [l]) = wsum (fun _ => true) (Z ++ [l]) := by
  have h1 : ∀ y ∈ Z ++ [l], below incl q y.1 = true := by
    intro y hy
    rcases List.mem_append.1 hy with hy | hy
    · exact below_mono ((List.pairwise_append.1 hs).2.2 y hy l (by simp)) h
    · rw [List.mem_singleton] at hy
      rw [hy]; exact h
  rw [wsum_all h1, wsum_all fun _ _ => rfl]

/-- The weight below `q` that a view shows, if the retained weight below `q` is `w` of `n`. -/
def shown (incl : Bool) (q minItem maxItem : α) (n w : Int) : Int :=
  if w = 0 then (if below incl q minItem then 1 else 0)
  else if w = n then (if below incl q maxItem then n else n - 1)
  else w

/-- The view built from the retained items `Z` of a stream of length `n` with extremes `minItem`
and `maxItem`. -/
theorem newNumericView_ok {Z : List (α × Int)} {n : Nat} {minItem maxItem : α}
    (hs : Z.Pairwise fun a b => a.1 ≤ b.1) (hw : ∀ z ∈ Z, 1 ≤ z.2) (hne : Z ≠ [])
    (hmin : ∀ z ∈ Z, minItem ≤ z.1) (hmax : ∀ z ∈ Z, z.1 ≤ maxItem)
    (htot : wsum (fun _ => true) Z = n) (h1 : n = 1 → ∃ z ∈ Z, z.1 = minItem ∨ z.1 = maxItem) :
    ∃ v Z', newNumericView (Z.map Prod.fst) (cums 0 (Z.map Prod.snd)) n maxItem minItem = .ok v ∧
      v.n = n ∧ Shows v Z' ∧ v.minItem = .ok minItem ∧ v.maxItem = .ok maxItem ∧
      (∀ x, (∃ z ∈ Z', z.1 = x) ↔ x = minItem ∨ x = maxItem ∨ ∃ z ∈ Z, z.1 = x) ∧
      (∀ q incl, |wsum (below incl q) Z' - wsum (below incl q) Z| ≤ 1) ∧
      (∀ q incl, wsum (below incl q) Z' =
        shown incl q minItem maxItem n (wsum (below incl q) Z)) ∧
      ((∃ z ∈ Z, z.1 = minItem) → (∃ z ∈ Z, z.1 = maxItem) → Z' = Z) := by
  cases Z with
  | nil => exact absurd rfl hne
  | cons z0 Z =>
    obtain ⟨aL, aH, hL, hH, he⟩ := includeMinMax_ok z0 Z maxItem minItem
    obtain ⟨l1, l2, l3, l4, l5, l6⟩ := lowZ_ok (adj := aL) hs hw hmin
    have hnpos : 0 < n := by
      have h0 := hw z0 (by simp)
      have : 0 ≤ wsum (fun _ => true) Z := wsum_nonneg fun z hz => by
        have := hw z (by simp [hz]); omega
      rw [wsum_cons] at htot
      simp only [if_true] at htot
      omega
    -- the list with the minimum, split at its last entry
    obtain ⟨J, w, hJ, hw1, hwpos⟩ : ∃ J w, lowZ aL minItem (z0 :: Z) = J ++ [w] ∧
        w.1 = ((z0 :: Z).getLast (by simp)).1 ∧ (aH = true → 1 ≤ w.2) := by
      rcases List.eq_nil_or_concat Z with rfl | ⟨I, l, rfl⟩
      · by_cases ha : aL = true
        · refine ⟨[(minItem, 1)], (z0.1, z0.2 - 1), by simp [lowZ, ha], rfl, fun hh => ?_⟩
          rw [ha] at hL
          rw [hh] at hH
          have hL' := of_decide_eq_true hL.symm
          have hH' := of_decide_eq_true hH.symm
          simp only [List.getLast_singleton] at hH'
          have hz : z0.2 = n := by rw [← htot, wsum_cons]; simp
          by_contra hc
          have hn1 : n = 1 := by
            have := hw z0 (by simp)
            simp only at hc
            omega
          obtain ⟨z, hz, h1⟩ := h1 hn1
          rw [List.mem_singleton] at hz
          rw [hz] at h1
          exact h1.elim hL' hH'
        · exact ⟨[], z0, by simp [lowZ, ha], rfl, fun _ => hw z0 (by simp)⟩
      · have hlast : (z0 :: (I ++ [l])).getLast (by simp) = l := by
          rw [List.getLast_cons (by simp)]; simp
        simp only [List.concat_eq_append] at *
        rw [hlast]
        by_cases ha : aL = true
        · exact ⟨(minItem, 1) :: (z0.1, z0.2 - 1) :: I, l, by simp [lowZ, ha], rfl,
            fun _ => hw l (by simp)⟩
        · exact ⟨z0 :: I, l, by simp [lowZ, ha], rfl, fun _ => hw l (by simp)⟩
    rw [hJ] at l1 l2 l3 l4 l5 l6 he
    have hminmax : minItem ≤ maxItem := le_trans (hmin z0 (by simp)) (hmax z0 (by simp))
    obtain ⟨k1, k2, k3, k4, k5, k6⟩ := highZ_ok (adj := aH) (m := maxItem) l1
      (fun z hz => l2 z (by simp [hz])) (l2 w (by simp)) hwpos (by
        intro z hz
        rcases l3 z hz with h | ⟨y, hy, h⟩
        · rw [h]; exact hminmax
        · rw [← h]; exact hmax y hy)
    have hZne : highZ aH maxItem (J ++ [w]) ≠ [] := by
      rw [highZ_snoc]; split <;> simp
    have hshow : Shows (⟨(highZ aH maxItem (J ++ [w])).map Prod.fst,
        cums 0 ((highZ aH maxItem (J ++ [w])).map Prod.snd), n⟩ : NumericView α)
        (highZ aH maxItem (J ++ [w])) :=
      ⟨rfl, rfl, ⟨k1, k2⟩, hZne, by rw [k5, l5, htot], by simp only; omega⟩
    -- the extremes are in
    have hmn : ∃ z ∈ J ++ [w], z.1 = minItem := by
      rw [← hJ]
      by_cases ha : aL = true
      · exact ⟨(minItem, 1), by simp [lowZ, ha], rfl⟩
      · rw [Bool.not_eq_true] at ha
        rw [ha] at hL
        have hL' := of_decide_eq_false hL.symm
        exact ⟨z0, by simp [lowZ, ha], not_not.1 hL'⟩
    have hmx : ∃ z ∈ highZ aH maxItem (J ++ [w]), z.1 = maxItem := by
      rw [highZ_snoc]
      by_cases ha : aH = true
      · exact ⟨(maxItem, 1), by simp [ha], rfl⟩
      · rw [Bool.not_eq_true] at ha
        rw [ha] at hH
        have hH' := of_decide_eq_false hH.symm
        refine ⟨w, by simp [ha], ?_⟩
        rw [hw1]
        exact not_not.1 hH'
    have hmn' : ∃ z ∈ highZ aH maxItem (J ++ [w]), z.1 = minItem := by
      obtain ⟨y, hy, hy1⟩ := hmn
      obtain ⟨z, hz, hz1⟩ := k4 y hy
      exact ⟨z, hz, by rw [hz1, hy1]⟩
    have hbounds : ∀ z ∈ highZ aH maxItem (J ++ [w]), minItem ≤ z.1 ∧ z.1 ≤ maxItem := by
      intro z hz
      rcases k3 z hz with h | ⟨y, hy, h⟩
      · rw [h]; exact ⟨hminmax, le_refl _⟩
      · rcases l3 y hy with h' | ⟨x, hx, h'⟩
        · rw [← h, h']; exact ⟨le_refl _, hminmax⟩
        · rw [← h, ← h']; exact ⟨hmin x hx, hmax x hx⟩
    refine ⟨_, _, ?_, rfl, hshow, ?_, ?_, ?_, ?_, ?_, ?_⟩
    · unfold newNumericView
      rw [he]
      rfl
    · rw [hshow.minItem]
      congr 1
      apply le_antisymm
      · obtain ⟨z, hz, h⟩ := hmn'
        rw [← h]
        obtain ⟨i, hi⟩ := List.mem_iff_getElem?.1 hz
        refine hshow.wf.le (i := 0) (j := i) ?_ hi (by omega)
        rw [← List.head?_eq_getElem?, List.head?_eq_some_head]
      · exact (hbounds _ (List.head_mem _)).1
    · rw [hshow.maxItem]
      congr 1
      apply le_antisymm
      · exact (hbounds _ (List.getLast_mem _)).2
      · obtain ⟨z, hz, h⟩ := hmx
        refine le_trans (le_of_eq h.symm) ?_
        obtain ⟨i, hi⟩ := List.mem_iff_getElem?.1 hz
        have hil := (List.getElem?_eq_some_iff.1 hi).1
        refine hshow.wf.le (i := i)
          (j := (highZ aH maxItem (J ++ [w])).length - 1) hi ?_ (by omega)
        rw [← List.getLast?_eq_getElem?, List.getLast?_eq_some_getLast]
    · intro x
      constructor
      · rintro ⟨z, hz, rfl⟩
        rcases k3 z hz with h | ⟨y, hy, h⟩
        · exact Or.inr (Or.inl h)
        · rcases l3 y hy with h' | ⟨u, hu, h'⟩
          · left; rw [← h, h']
          · right; right; exact ⟨u, hu, by rw [h', h]⟩
      · rintro (rfl | rfl | ⟨z, hz, rfl⟩)
        · exact hmn'
        · exact hmx
        · obtain ⟨y, hy, h⟩ := l4 z hz
          obtain ⟨u, hu, h'⟩ := k4 y hy
          exact ⟨u, hu, by rw [h', h]⟩
    · intro q incl
      have a := k6 q incl
      have b := l6 q incl
      rw [abs_le]
      omega
    · intro q incl
      have hwle : w.1 ≤ maxItem := by
        rw [hw1]
        exact hmax _ (List.getLast_mem _)
      have hlast : below incl q w.1 = true → wsum (below incl q) (z0 :: Z) = n := by
        intro hb
        rw [hw1] at hb
        rw [← htot]
        have e := List.dropLast_append_getLast (l := z0 :: Z) (by simp)
        rw [← e] at hs ⊢
        exact below_last hs hb
      have hnl : below incl q w.1 = false → wsum (below incl q) (z0 :: Z) ≠ n := by
        intro hb hc
        rw [← htot] at hc
        have e := List.dropLast_append_getLast (l := z0 :: Z) (by simp)
        rw [hw1] at hb
        rw [← e, wsum_append, wsum_append, wsum_cons, wsum_cons, hb] at hc
        simp only [Bool.false_eq_true, if_false, wsum_nil, if_true] at hc
        have a1 := hw _ (List.getLast_mem (l := z0 :: Z) (by simp))
        have a2 := wsum_mono (p := below incl q) (q := fun _ => true) (Z := (z0 :: Z).dropLast)
          (fun z hz => by have := hw z (List.dropLast_subset _ hz); omega) (fun z _ _ => rfl)
        omega
      have hfirst : below incl q z0.1 = true → wsum (below incl q) (z0 :: Z) ≠ 0 := by
        intro hb
        rw [wsum_cons, hb]
        have a1 := hw z0 (by simp)
        have a2 : 0 ≤ wsum (below incl q) Z := wsum_nonneg fun z hz => by
          have := hw z (by simp [hz]); omega
        simp only [if_true]
        omega
      unfold shown
      by_cases hz0 : below incl q z0.1 = true
      · rw [if_neg (hfirst hz0)]
        have hlow := lowZ_below (adj := aL) (Z := Z) (hmin z0 (by simp)) q incl (Or.inl hz0)
        rw [hJ] at hlow
        by_cases hw0 : below incl q w.1 = true
        · rw [if_pos (hlast hw0)]
          by_cases hmx0 : below incl q maxItem = true
          · rw [if_pos hmx0, highZ_below hwle q incl (Or.inr hmx0), hlow, hlast hw0]
          · rw [if_neg hmx0]
            have haH : aH = true := by
              rw [hH]
              apply decide_eq_true
              rw [← hw1]
              intro hc
              rw [hc] at hw0
              exact hmx0 hw0
            have e := hlast hw0
            rw [← hlow] at e
            rw [highZ_snoc, haH, if_pos rfl]
            rw [Bool.not_eq_true] at hmx0
            simp only [wsum_append, wsum_cons, wsum_nil, hw0, hmx0, if_true, Bool.false_eq_true,
              if_false] at e ⊢
            omega
        · rw [Bool.not_eq_true] at hw0
          rw [if_neg (hnl hw0), highZ_below hwle q incl (Or.inl hw0), hlow]
      · rw [Bool.not_eq_true] at hz0
        rw [if_pos (below_first hs hz0)]
        have hw0 : below incl q w.1 = false := by
          by_contra hc
          rw [Bool.not_eq_false] at hc
          have a1 := hlast hc
          rw [below_first hs hz0] at a1
          omega
        rw [highZ_below hwle q incl (Or.inl hw0)]
        by_cases hmn0 : below incl q minItem = true
        · rw [if_pos hmn0]
          have haL : aL = true := by
            rw [hL]
            apply decide_eq_true
            intro hc
            rw [hc, hmn0] at hz0
            simp at hz0
          rw [← hJ, haL]
          have a1 := below_first hs hz0
          rw [wsum_cons, hz0] at a1
          simp only [lowZ, if_true, wsum_cons, hmn0, hz0, Bool.false_eq_true, if_false] at a1 ⊢
          omega
        · rw [if_neg hmn0]
          rw [Bool.not_eq_true] at hmn0
          have hlow := lowZ_below (adj := aL) (Z := Z) (hmin z0 (by simp)) q incl (Or.inr hmn0)
          rw [← hJ, hlow]
          exact below_first hs hz0
    · rintro ⟨z, hz, hz1⟩ ⟨y, hy, hy1⟩
      have haL : aL = false := by
        rw [hL]
        apply decide_eq_false
        rw [not_not]
        apply le_antisymm _ (hmin z0 (by simp))
        rw [← hz1]
        obtain ⟨i, hi⟩ := List.mem_iff_getElem?.1 hz
        exact Wf.le ⟨hs, fun z hz => by have := hw z hz; omega⟩ (i := 0) (j := i) (by simp) hi (by omega)
      have haH : aH = false := by
        rw [hH]
        apply decide_eq_false
        rw [not_not]
        apply le_antisymm (hmax _ (List.getLast_mem _))
        rw [← hy1]
        obtain ⟨i, hi⟩ := List.mem_iff_getElem?.1 hy
        have hil := (List.getElem?_eq_some_iff.1 hi).1
        refine Wf.le ⟨hs, fun z hz => by have := hw z hz; omega⟩ (i := i)
          (j := (z0 :: Z).length - 1) hi ?_ (by omega)
        rw [← List.getLast?_eq_getElem?, List.getLast?_eq_some_getLast]
      rw [highZ_snoc, haH]
      simp only [Bool.false_eq_true, if_false]
      rw [← hJ, haL]
      simp [lowZ]

end Verif.View
