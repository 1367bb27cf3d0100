import Verif.KllView
import Verif.KllProps

/-!
# Properties of the KLL queries (C36)

`weightOf p s`: weight of the retained items of `s` with property `p`, an item of level `h` counts
`2^h` (`KllRun.lean`).  `below incl q`: the items `≤ q` / `< q`.  The comparison function of the
sketch is assumed to be the strict order of a linear order.
-/

namespace Verif.Kll

open Verif Verif.View Verif.Inequality

variable {α : Type} [LinearOrder α]

theorem ViewOf.getRank {s : Sketch α} {v : SView α} {Z : List (α × Int)} (h : ViewOf s v Z)
    (hn : s.n ≠ 0) (q : α) (incl : Bool) :
    v.getRank q incl = .ok ((weightOf (below incl q) s : ℚ) / s.n) := by
  unfold SView.getRank
  rw [h.totalN, if_neg hn, h.quantiles, h.cumWeights, rank_expr h.wf h.ne, h.weight]
  push_cast
  rfl

theorem ViewOf.getQuantile {s : Sketch α} {v : SView α} {Z : List (α × Int)} (h : ViewOf s v Z)
    (hn : s.n ≠ 0) {r : ℚ} (h0 : 0 ≤ r) (h1 : r ≤ 1) (incl : Bool) :
    ∃ x, v.getQuantile r incl = .ok x ∧ IsQuantile Z (computeNaturalRank r s.n incl) incl x := by
  obtain ⟨x, hx, hq⟩ := quantile_expr h.wf h.ne (computeNaturalRank r s.n incl) incl
  refine ⟨x, ?_, hq⟩
  rw [← hx]
  unfold SView.getQuantile SView.getQuantileIndex validateNormalizedRankBounds
  rw [h.totalN, if_neg hn, if_neg (by intro hc; rcases hc with hc | hc <;> linarith),
    Outcome.ok_bind, h.quantiles, h.cumWeights, List.length_map]
  obtain ⟨r', hr', _⟩ := quantile_search h.wf h.ne (computeNaturalRank r s.n incl) incl
  simp only []
  rw [hr', Outcome.ok_bind, Outcome.ok_bind]
  split <;> rfl

theorem checkItems_ok {lt : α → α → Bool} (hlt : ∀ a b, lt a b = decide (a < b)) (sp : List α) :
    (sp.Pairwise (· < ·) → checkItems lt sp = .ok ()) ∧
    (¬ sp.Pairwise (· < ·) → checkItems lt sp = .err "items") := by
  rw [← List.isChain_iff_pairwise]
  induction sp with
  | nil => simp [checkItems]
  | cons a l ih =>
    cases l with
    | nil => simp [checkItems]
    | cons b l =>
      simp only [checkItems, List.isChain_cons_cons, hlt]
      by_cases hab : a < b
      · simp only [hab, decide_true, if_true, true_and]; exact ih
      · simp [hab]

theorem ViewOf.getCDF {lt : α → α → Bool} (hlt : ∀ a b, lt a b = decide (a < b)) {s : Sketch α}
    {v : SView α} {Z : List (α × Int)} (h : ViewOf s v Z) (hn : s.n ≠ 0) {sp : List α}
    (hsp : sp.Pairwise (· < ·)) (incl : Bool) :
    v.getCDF lt sp incl = .ok (sp.map (fun q => (weightOf (below incl q) s : ℚ) / s.n) ++ [1]) := by
  unfold SView.getCDF
  rw [h.totalN, if_neg hn, (checkItems_ok hlt sp).1 hsp, Outcome.ok_bind,
    map_fold _ (fun q => (weightOf (below incl q) s : ℚ) / s.n) _
      (fun q _ => h.getRank hn q incl)]
  rfl

theorem ViewOf.getPMF {lt : α → α → Bool} (hlt : ∀ a b, lt a b = decide (a < b)) {s : Sketch α}
    {v : SView α} {Z : List (α × Int)} (h : ViewOf s v Z) (hn : s.n ≠ 0)
    (hw : weightOf (fun _ => true) s = s.n) {sp : List α}
    (hsp : sp.Pairwise (· < ·)) (incl : Bool) :
    v.getPMF lt sp incl =
      .ok ((intervals incl none sp).map fun p => (weightOf p s : ℚ) / s.n) := by
  unfold SView.getPMF
  rw [h.totalN, if_neg hn, (checkItems_ok hlt sp).1 hsp, Outcome.ok_bind, h.getCDF hlt hn hsp,
    Outcome.ok_bind, differences_ok]
  have hd := diffs_intervals incl (Z := Z) (n := s.n) (by rw [h.weight, hw]) hn none hsp (by simp)
  simp only [h.weight, loW, Int.cast_natCast, Int.cast_zero, zero_div] at hd
  rw [hd]

/-- The items a sketch retains. -/
def Retained (s : Sketch α) (x : α) : Prop := ∃ h < s.numLevels, x ∈ levelItems s h

theorem ord_of {lt : α → α → Bool} (hlt : ∀ a b, lt a b = decide (a < b)) : IsOrd lt := by
  constructor
  · intro x y h
    rw [hlt] at h ⊢
    simp only [decide_eq_true_eq, decide_eq_false_iff_not] at h ⊢
    exact not_lt.2 (le_of_lt h)
  · intro x y z h1 h2
    rw [hlt] at h1 h2 ⊢
    simp only [decide_eq_false_iff_not, not_lt] at h1 h2 ⊢
    exact le_trans h1 h2

/-- Every sketch that is not empty has a view. -/
theorem run_view (env : Env α) (hlt : ∀ a b, env.lt a b = decide (a < b)) (hso : Sorts env)
    (ops : List (Op α)) (hv : Valid ops) :
    Rand.All (fun st => ∀ (i : Nat) (s : Sketch α), st[i]? = some s → s.n ≠ 0 → weightOf (fun _ => true) s = s.n ∧
      ∃ v Z, newSortedView env s = .ok v ∧ ViewOf s v Z) (run env ops) := by
  refine (run_link hso.perm (by omega) ops hv (ks_of_valid hv)).mono fun st hst => ?_
  intro i s hi hn
  obtain ⟨a, hr, hinv, _⟩ := hst.link i s hi
  refine ⟨?_, newSortedView_ok hlt hso hr hinv hn⟩
  rw [hr.weightOf, hr.n, ← hinv.core.weight]
  rfl

/-- C36: `GetRank` is the weight of the retained items below (at or below) the item, divided by `n`.
-/
theorem C36_rank (env : Env α) (hlt : ∀ a b, env.lt a b = decide (a < b)) (hso : Sorts env)
    (ops : List (Op α)) (hv : Valid ops) :
    Rand.All (fun st => ∀ (i : Nat) (s : Sketch α), st[i]? = some s → s.n ≠ 0 → ∃ v, newSortedView env s = .ok v ∧
      ∀ q, v.getRank q false = .ok ((weightOf (fun y => decide (y < q)) s : ℚ) / s.n) ∧
        v.getRank q true = .ok ((weightOf (fun y => decide (y ≤ q)) s : ℚ) / s.n))
      (run env ops) := by
  refine (run_view env hlt hso ops hv).mono fun st hst => ?_
  intro i s hi hn
  obtain ⟨_, v, Z, hv, hZ⟩ := hst i s hi hn
  exact ⟨v, hv, fun q => ⟨hZ.getRank hn q false, hZ.getRank hn q true⟩⟩

theorem weight_le {s : Sketch α} {v : SView α} {Z : List (α × Int)} (h : ViewOf s v Z)
    {p q : α → Bool} (hpq : ∀ y, p y = true → q y = true) :
    (weightOf p s : ℚ) ≤ weightOf q s := by
  have := wsum_mono h.wf.nonneg (fun z _ => hpq z.1)
  rw [h.weight, h.weight] at this
  exact_mod_cast this

/-- C36: ranks lie in `[0, 1]`, do not decrease with the item, the exclusive rank is at most the
inclusive one, and the inclusive rank of an item is at most the exclusive rank of a larger one. -/
theorem C36_rank_monotone (env : Env α) (hlt : ∀ a b, env.lt a b = decide (a < b)) (hso : Sorts env)
    (ops : List (Op α)) (hv : Valid ops) :
    Rand.All (fun st => ∀ (i : Nat) (s : Sketch α), st[i]? = some s → s.n ≠ 0 → ∃ v, newSortedView env s = .ok v ∧
      (∀ q incl, ∃ r, v.getRank q incl = .ok r ∧ 0 ≤ r ∧ r ≤ 1) ∧
      (∀ q q' incl r r', q ≤ q' → v.getRank q incl = .ok r → v.getRank q' incl = .ok r' → r ≤ r') ∧
      (∀ q r r', v.getRank q false = .ok r → v.getRank q true = .ok r' → r ≤ r') ∧
      (∀ q q' r r', q < q' → v.getRank q true = .ok r → v.getRank q' false = .ok r' → r ≤ r'))
      (run env ops) := by
  refine (run_view env hlt hso ops hv).mono fun st hst => ?_
  intro i s hi hn
  obtain ⟨hw, v, Z, hv, hZ⟩ := hst i s hi hn
  have hn0 : (0 : ℚ) < s.n := by exact_mod_cast Nat.pos_of_ne_zero hn
  have key : ∀ q q' i i' r r', (∀ y, below i q y = true → below i' q' y = true) →
      v.getRank q i = .ok r → v.getRank q' i' = .ok r' → r ≤ r' := by
    intro q q' i i' r r' himp h1 h2
    rw [hZ.getRank hn] at h1 h2
    cases h1; cases h2
    exact div_le_div_of_nonneg_right (weight_le hZ himp) hn0.le
  refine ⟨v, hv, ?_, ?_, ?_, ?_⟩
  · intro q incl
    refine ⟨_, hZ.getRank hn q incl, by positivity, ?_⟩
    rw [div_le_iff₀ hn0, one_mul]
    calc (weightOf (below incl q) s : ℚ) ≤ weightOf (fun _ => true) s := weight_le hZ fun _ _ => rfl
      _ = s.n := by rw [hw]
  · intro q q' incl r r' hq
    refine key q q' incl incl r r' fun y hy => ?_
    cases incl <;> simp only [below, Bool.false_eq_true, if_false, if_true, decide_eq_true_eq] at *
    · exact lt_of_lt_of_le hy hq
    · exact le_trans hy hq
  · intro q r r'
    refine key q q false true r r' fun y hy => ?_
    simp only [below, Bool.false_eq_true, if_false, if_true, decide_eq_true_eq] at *
    exact le_of_lt hy
  · intro q q' r r' hq
    refine key q q' true false r r' fun y hy => ?_
    simp only [below, Bool.false_eq_true, if_false, if_true, decide_eq_true_eq] at *
    exact lt_of_le_of_lt hy hq

/-- C36: `GetQuantile(r)` is a retained item.  Inclusive: it is the smallest one whose weight at or
below reaches the natural rank `N`.  Exclusive: the smallest one whose weight at or below exceeds
`N`, the largest retained item if there is none (then `N = n`).  `N` is `r·n` rounded up (down), up
to the tolerance of `5·10⁻⁸`, and it is `r·n` itself if that is a whole number. -/
theorem C36_quantile (env : Env α) (hlt : ∀ a b, env.lt a b = decide (a < b)) (hso : Sorts env)
    (ops : List (Op α)) (hv : Valid ops) :
    Rand.All (fun st => ∀ (i : Nat) (s : Sketch α), st[i]? = some s → s.n ≠ 0 → ∃ v, newSortedView env s = .ok v ∧
      ∀ r : ℚ, 0 ≤ r → r ≤ 1 →
        (∃ N : Nat, ∃ x, v.getQuantile r true = .ok x ∧ Retained s x ∧
          N ≤ weightOf (fun y => decide (y ≤ x)) s ∧
          (∀ y, Retained s y → N ≤ weightOf (fun z => decide (z ≤ y)) s → x ≤ y) ∧
          r * s.n - 1 / 20000000 ≤ N ∧ (N : ℚ) < r * s.n + 1 + 1 / 20000000 ∧
          ∀ m : Nat, r * s.n = m → N = m) ∧
        (∃ N : Nat, ∃ x, v.getQuantile r false = .ok x ∧ Retained s x ∧
          ((N < weightOf (fun y => decide (y ≤ x)) s ∧
            ∀ y, Retained s y → N < weightOf (fun z => decide (z ≤ y)) s → x ≤ y) ∨
           (N = s.n ∧ ∀ y, Retained s y → y ≤ x)) ∧
          r * s.n - 1 - 1 / 20000000 < N ∧ (N : ℚ) ≤ r * s.n + 1 / 20000000 ∧
          ∀ m : Nat, r * s.n = m → N = m))
      (run env ops) := by
  refine (run_view env hlt hso ops hv).mono fun st hst => ?_
  intro i s hi hn
  obtain ⟨hw, v, Z, hv, hZ⟩ := hst i s hi hn
  refine ⟨v, hv, fun r h0 h1 => ?_⟩
  obtain ⟨⟨a1, a2⟩, a3, a4⟩ := naturalRank_near r s.n
  have hlast : ∃ z ∈ Z, wsum (below true z.1) Z = s.n := by
    refine ⟨Z.getLast hZ.ne, List.getLast_mem _, ?_⟩
    rw [← hw, ← hZ.weight]
    unfold wsum
    congr 2
    apply List.filter_congr
    intro z hz
    simp only [below, if_true, decide_eq_true_eq]
    obtain ⟨j, hj⟩ := List.mem_iff_getElem?.1 hz
    have hjl := (List.getElem?_eq_some_iff.1 hj).1
    have hl : Z[Z.length - 1]? = some (Z.getLast hZ.ne) := by
      rw [List.getLast_eq_getElem, List.getElem?_eq_getElem]
    exact hZ.wf.le hj hl (by omega)
  obtain ⟨zl, hzl, hzlw⟩ := hlast
  constructor
  · obtain ⟨b1, b2⟩ := naturalRank_range h0 h1 s.n true
    obtain ⟨x, hx, hmem, hq⟩ := hZ.getQuantile hn h0 h1 true
    obtain ⟨N, hN⟩ := Int.eq_ofNat_of_zero_le b1
    rw [hN] at hq b2 a1 a2
    refine ⟨N, x, hx, (hZ.mem x).1 hmem, ?_⟩
    have hmin : (N : Int) ≤ wsum (below true x) Z ∧
        ∀ y ∈ Z, (N : Int) ≤ wsum (below true y.1) Z → x ≤ y.1 := by
      rcases hq with hq | ⟨hq, _⟩
      · simpa [reach] using hq
      · exact absurd (by simp only [reach, if_true]; omega) (hq zl hzl)
    refine ⟨?_, ?_, by exact_mod_cast a1, by exact_mod_cast a2, ?_⟩
    · have := hmin.1
      rw [hZ.weight] at this
      exact_mod_cast this
    · intro y hy hle
      obtain ⟨z, hz, rfl⟩ := (hZ.mem y).2 hy
      apply hmin.2 z hz
      rw [hZ.weight]
      exact_mod_cast hle
    · intro m hm
      have := naturalRank_exact (r := r) (n := s.n) (c := m) (by exact_mod_cast hm) true
      omega
  · obtain ⟨b1, b2⟩ := naturalRank_range h0 h1 s.n false
    obtain ⟨x, hx, hmem, hq⟩ := hZ.getQuantile hn h0 h1 false
    obtain ⟨N, hN⟩ := Int.eq_ofNat_of_zero_le b1
    rw [hN] at hq b2 a3 a4
    refine ⟨N, x, hx, (hZ.mem x).1 hmem, ?_, by exact_mod_cast a3, by exact_mod_cast a4, ?_⟩
    · rcases hq with ⟨h3, h4⟩ | ⟨h3, h4⟩
      · left
        simp only [reach, Bool.false_eq_true, if_false] at h3 h4
        rw [hZ.weight] at h3
        refine ⟨by exact_mod_cast h3, fun y hy hle => ?_⟩
        obtain ⟨z, hz, rfl⟩ := (hZ.mem y).2 hy
        apply h4 z hz
        rw [hZ.weight]
        exact_mod_cast hle
      · right
        have := h3 zl hzl
        simp only [reach, Bool.false_eq_true, if_false] at this
        refine ⟨by omega, fun y hy => ?_⟩
        obtain ⟨z, hz, rfl⟩ := (hZ.mem y).2 hy
        exact h4 z hz
    · intro m hm
      have := naturalRank_exact (r := r) (n := s.n) (c := m) (by exact_mod_cast hm) false
      omega

/-- C36: `GetQuantile(GetRank(x))` is `x` again, for every retained item `x`. -/
theorem C36_quantile_of_rank (env : Env α) (hlt : ∀ a b, env.lt a b = decide (a < b))
    (hso : Sorts env) (ops : List (Op α)) (hv : Valid ops) :
    Rand.All (fun st => ∀ (i : Nat) (s : Sketch α), st[i]? = some s → s.n ≠ 0 → ∃ v, newSortedView env s = .ok v ∧
      ∀ x, Retained s x → ∀ incl, ∃ r, v.getRank x incl = .ok r ∧ v.getQuantile r incl = .ok x)
      (run env ops) := by
  refine (run_view env hlt hso ops hv).mono fun st hst => ?_
  intro i s hi hn
  obtain ⟨hw, v, Z, hv, hZ⟩ := hst i s hi hn
  refine ⟨v, hv, fun x hx incl => ⟨_, hZ.getRank hn x incl, ?_⟩⟩
  have hn0 : (0 : ℚ) < s.n := by exact_mod_cast Nat.pos_of_ne_zero hn
  have hle1 : (weightOf (below incl x) s : ℚ) / s.n ≤ 1 := by
    rw [div_le_iff₀ hn0, one_mul]
    calc (weightOf (below incl x) s : ℚ) ≤ weightOf (fun _ => true) s := weight_le hZ fun _ _ => rfl
      _ = s.n := by rw [hw]
  obtain ⟨y, hy, hq⟩ := hZ.getQuantile hn (r := (weightOf (below incl x) s : ℚ) / s.n)
    (by positivity) hle1 incl
  rw [hy]
  congr 1
  have hN : computeNaturalRank ((weightOf (below incl x) s : ℚ) / s.n) s.n incl =
      wsum (below incl x) Z := by
    rw [hZ.weight]
    apply naturalRank_exact
    rw [div_mul_cancel₀ _ hn0.ne']
    push_cast
    rfl
  rw [hN] at hq
  obtain ⟨zx, hzx, hzx1⟩ := (hZ.mem x).2 hx
  -- strictly larger items have a strictly larger weight at or below
  have hstrict : ∀ a b : α, (∃ z ∈ Z, z.1 = b) → a < b →
      wsum (below true a) Z < wsum (below true b) Z := by
    intro a b ⟨z, hz, hzb⟩ hab
    obtain ⟨A, B, rfl⟩ := List.append_of_mem hz
    rw [wsum_append, wsum_append, wsum_cons, wsum_cons]
    have h1 : ∀ C : List (α × Int), (∀ c ∈ C, 0 ≤ c.2) →
        wsum (below true a) C ≤ wsum (below true b) C := by
      intro C hC
      apply wsum_mono hC
      intro c _ hc
      simp only [below, if_true, decide_eq_true_eq] at hc ⊢
      exact le_trans hc hab.le
    have hA := h1 A fun c hc => hZ.wf.nonneg c (by simp [hc])
    have hB := h1 B fun c hc => hZ.wf.nonneg c (by simp [hc])
    have hz0 := hZ.pos z hz
    have e1 : below true a z.1 = false := by
      simp only [below, if_true, decide_eq_false_iff_not, not_le]; rw [hzb]; exact hab
    have e2 : below true b z.1 = true := by simp [below, hzb]
    rw [e1, e2]
    simp only [Bool.false_eq_true, if_false, if_true]
    omega
  have hz0 := hZ.pos zx hzx
  have hsplit : wsum (below false x) Z < wsum (below true x) Z := by
    obtain ⟨A, B, rfl⟩ := List.append_of_mem hzx
    rw [wsum_append, wsum_append, wsum_cons, wsum_cons]
    have h1 : ∀ C : List (α × Int), (∀ c ∈ C, 0 ≤ c.2) →
        wsum (below false x) C ≤ wsum (below true x) C := by
      intro C hC
      apply wsum_mono hC
      intro c _ hc
      simp only [below, Bool.false_eq_true, if_false, if_true, decide_eq_true_eq] at hc ⊢
      exact hc.le
    have hA := h1 A fun c hc => hZ.wf.nonneg c (by simp [hc])
    have hB := h1 B fun c hc => hZ.wf.nonneg c (by simp [hc])
    have e1 : below false x zx.1 = false := by simp [below, hzx1]
    have e2 : below true x zx.1 = true := by simp [below, hzx1]
    rw [e1, e2]
    simp only [Bool.false_eq_true, if_false, if_true]
    omega
  have hx' : IsQuantile Z (wsum (below incl x) Z) incl x := by
    refine ⟨⟨zx, hzx, hzx1⟩, Or.inl ?_⟩
    cases incl
    · simp only [reach, Bool.false_eq_true, if_false]
      refine ⟨hsplit, fun w hw hlt' => ?_⟩
      by_contra hc
      have hc' : w.1 < x := not_le.1 hc
      have : wsum (below true w.1) Z ≤ wsum (below false x) Z := by
        apply wsum_mono hZ.wf.nonneg
        intro c _ hcc
        simp only [below, Bool.false_eq_true, if_false, if_true, decide_eq_true_eq] at hcc ⊢
        exact lt_of_le_of_lt hcc hc'
      omega
    · simp only [reach, if_true]
      refine ⟨le_refl _, fun w hw hle => ?_⟩
      by_contra hc
      have := hstrict w.1 x ⟨zx, hzx, hzx1⟩ (not_le.1 hc)
      omega
  exact isQuantile_unique hq hx'

/-- C36: the cumulative distribution of strictly increasing split points consists of their ranks and
`1`; the probability masses are the weights of the retained items in the intervals between the split
points, divided by `n`; every item lies in exactly one interval, and the masses add up to `1`. -/
theorem C36_cdf_pmf (env : Env α) (hlt : ∀ a b, env.lt a b = decide (a < b)) (hso : Sorts env)
    (ops : List (Op α)) (hv : Valid ops) :
    Rand.All (fun st => ∀ (i : Nat) (s : Sketch α), st[i]? = some s → s.n ≠ 0 → ∃ v, newSortedView env s = .ok v ∧
      ∀ (sp : List α) (incl : Bool), sp.Pairwise (· < ·) →
        (∃ rs : List ℚ, v.getCDF env.lt sp incl = .ok (rs ++ [1]) ∧
          rs.map Outcome.ok = sp.map fun q => v.getRank q incl) ∧
        v.getPMF env.lt sp incl =
          .ok ((intervals incl none sp).map fun p => (weightOf p s : ℚ) / s.n) ∧
        (∀ y, ((intervals incl none sp).countP fun p => p y) = 1) ∧
        ((intervals incl none sp).map fun p => (weightOf p s : ℚ) / s.n).sum = 1)
      (run env ops) := by
  refine (run_view env hlt hso ops hv).mono fun st hst => ?_
  intro i s hi hn
  obtain ⟨hw, v, Z, hv, hZ⟩ := hst i s hi hn
  refine ⟨v, hv, fun sp incl hsp => ⟨⟨_, hZ.getCDF hlt hn hsp incl, ?_⟩,
    hZ.getPMF hlt hn hw hsp incl, fun y => ?_, ?_⟩⟩
  · rw [List.map_map]
    exact List.map_congr_left fun q _ => (hZ.getRank hn q incl).symm
  · have := intervals_count incl none hsp (by simp) y
    rw [this]; rfl
  · have hd := diffs_intervals incl (Z := Z) (n := s.n) (by rw [hZ.weight, hw]) hn none hsp (by simp)
    simp only [hZ.weight, loW, Int.cast_natCast, Int.cast_zero, zero_div] at hd
    rw [← hd, diffs_sum, sub_zero]

/-- C36: split points that do not increase strictly are rejected. -/
theorem C36_split_points_rejected (env : Env α) (hlt : ∀ a b, env.lt a b = decide (a < b))
    (v : SView α) (hn : v.totalN ≠ 0) {sp : List α} (hsp : ¬ sp.Pairwise (· < ·)) (incl : Bool) :
    v.getCDF env.lt sp incl = .err "items" ∧ v.getPMF env.lt sp incl = .err "items" := by
  constructor
  · unfold SView.getCDF
    rw [if_neg hn, (checkItems_ok hlt sp).2 hsp]; rfl
  · unfold SView.getPMF
    rw [if_neg hn, (checkItems_ok hlt sp).2 hsp]; rfl

/-- C36: ranks outside `[0, 1]` and queries of an empty sketch are rejected, whatever is cached. -/
theorem C36_rejected (env : Env α) (c : Cached α) :
    (c.sk.n = 0 → ∀ q, (ask env c q).1 = .err "empty") ∧
    (c.sk.n ≠ 0 → ∀ r : ℚ, r < 0 ∨ 1 < r → ∀ incl, (ask env c (.quantile r incl)).1 = .err "rank") := by
  constructor
  · intro h q
    simp [ask, isEmpty, h]
  · intro h r hr incl
    simp [ask, isEmpty, h, preCheck, validateNormalizedRankBounds, hr]

/-- C36 with C34: `GetRank` differs from the fraction of the stream below (at or below) the item by
at most the sum of `2^h` over the compactions, divided by `n`. -/
theorem C36_rank_error (env : Env α) (hlt : ∀ a b, env.lt a b = decide (a < b)) (hso : Sorts env)
    (ops : List (Op α)) (hv : Valid ops) :
    Rand.All (fun st => ∀ (i : Nat) (s : Sketch α), st[i]? = some s → s.n ≠ 0 → ∃ v, newSortedView env s = .ok v ∧
      ∀ q, ∃ r r', v.getRank q false = .ok r ∧ v.getRank q true = .ok r' ∧
        |r - (((streams ops).getD i []).countP fun y => decide (y < q) : Nat) /
            (((streams ops).getD i []).length : ℚ)| ≤
          ((s.log.map fun h => 2 ^ h).sum : Nat) / (((streams ops).getD i []).length : ℚ) ∧
        |r' - (((streams ops).getD i []).countP fun y => decide (y ≤ q) : Nat) /
            (((streams ops).getD i []).length : ℚ)| ≤
          ((s.log.map fun h => 2 ^ h).sum : Nat) / (((streams ops).getD i []).length : ℚ))
      (run env ops) := by
  refine (((run_view env hlt hso ops hv).and
    (C34_rank_error env (ord_of hlt) hso ops hv)).and (C32_weight env hso.perm ops hv)).mono
    fun st hst => ?_
  obtain ⟨⟨hst, herr⟩, hwt⟩ := hst
  intro i s hi hn
  obtain ⟨_, v, Z, hv, hZ⟩ := hst i s hi hn
  have hlen := ((hwt.2 i s hi).1).symm
  rw [hlen]
  refine ⟨v, hv, fun q => ⟨_, _, hZ.getRank hn q false, hZ.getRank hn q true, ?_, ?_⟩⟩
  all_goals
    have hn0 : (0 : ℚ) < s.n := by exact_mod_cast Nat.pos_of_ne_zero hn
    obtain ⟨e1, e2⟩ := herr i s hi q
    simp only [hlt] at e1 e2
    have hb : (fun y : α => !decide (q < y)) = fun y => decide (y ≤ q) := by
      funext y; rw [← decide_not]; simp
    rw [hb] at e2
    rw [← sub_div, abs_div, abs_of_pos hn0]
    apply div_le_div_of_nonneg_right _ hn0.le
    generalize (s.log.map fun h => 2 ^ h).sum = L at e1 e2 ⊢
  · have : |((weightOf (fun y => decide (y < q)) s : Int) -
        (((streams ops).getD i []).countP fun y => decide (y < q) : Nat) : Int)| ≤
        (L : Nat) := by
      rw [Int.abs_eq_natAbs]; exact_mod_cast e1
    have h2 := (Int.cast_le (R := ℚ)).2 this
    push_cast at h2 ⊢
    exact h2
  · have : |((weightOf (fun y => decide (y ≤ q)) s : Int) -
        (((streams ops).getD i []).countP fun y => decide (y ≤ q) : Nat) : Int)| ≤
        (L : Nat) := by
      rw [Int.abs_eq_natAbs]; exact_mod_cast e2
    have h2 := (Int.cast_le (R := ℚ)).2 this
    push_cast at h2 ⊢
    exact h2

/-! ## The cached view -/

/-- A program with queries; `ask` on a sketch that does not exist does nothing. -/
inductive COp (α : Type) where
  | op (o : Op α)
  | ask (i : Nat) (q : Query α)

/-- What a program has produced: the sketches with their cached views, and the answers so far. -/
abbrev CState (α : Type) := List (Cached α) × List (Outcome (Answer α))

def cpair (st : List (Cached α)) (i j : Nat) : Outcome (Cached α × Cached α) := do
  let s ← rd st i
  let o ← rd st j
  .ok (s, o)

/-- One call on sketches with cached views. -/
def cStep (env : Env α) (x : CState α) : COp α → Rand (CState α)
  | .op (.new k m) => Rand.ofOutcome (newSketch env k m) >>= fun s =>
      Rand.ret (x.1 ++ [⟨s, none⟩], x.2)
  | .op (.update i y) => Rand.ofOutcome (rd x.1 i) >>= fun c =>
      cUpdate env c y >>= fun c' => Rand.ret (x.1.set i c', x.2)
  | .op (.merge i j) => Rand.ofOutcome (cpair x.1 i j) >>= fun q =>
      cMerge env q.1 q.2 >>= fun c' => Rand.ret (x.1.set i c', x.2)
  | .op (.reset i) => Rand.ofOutcome (rd x.1 i) >>= fun c => Rand.ret (x.1.set i (cReset env c), x.2)
  | .ask i q => match x.1[i]? with
    | none => Rand.ret x
    | some c => Rand.ret (x.1.set i (ask env c q).2, x.2 ++ [(ask env c q).1])

def cRun (env : Env α) (ops : List (COp α)) : Rand (CState α) := ops.foldlM (cStep env) ([], [])

/-- Specification: the query answered from a view built for this query. -/
def freshAsk (env : Env α) (s : Sketch α) (q : Query α) : Outcome (Answer α) :=
  if isEmpty s then .err "empty"
  else do
    let _ ← preCheck q
    let v ← newSortedView env s
    askView env.lt v q

/-- Specification: the same program without caches. -/
def fStep (env : Env α) (x : List (Sketch α) × List (Outcome (Answer α))) :
    COp α → Rand (List (Sketch α) × List (Outcome (Answer α)))
  | .op o => step env x.1 o >>= fun st => Rand.ret (st, x.2)
  | .ask i q => match x.1[i]? with
    | none => Rand.ret x
    | some s => Rand.ret (x.1, x.2 ++ [freshAsk env s q])

def fRun (env : Env α) (ops : List (COp α)) : Rand (List (Sketch α) × List (Outcome (Answer α))) :=
  ops.foldlM (fStep env) ([], [])

/-- Cached views are those that would be built now. -/
def Current (env : Env α) (st : List (Cached α)) : Prop :=
  ∀ c ∈ st, ∀ v, c.view = some v → newSortedView env c.sk = .ok v

def strip (x : CState α) : List (Sketch α) × List (Outcome (Answer α)) := (x.1.map Cached.sk, x.2)

theorem Current.set {env : Env α} {st : List (Cached α)} (h : Current env st) (i : Nat)
    {c : Cached α} (hc : ∀ v, c.view = some v → newSortedView env c.sk = .ok v) :
    Current env (st.set i c) := by
  intro d hd
  rcases List.mem_or_eq_of_mem_set hd with h1 | rfl
  · exact h d h1
  · exact hc

theorem ask_sk (env : Env α) (c : Cached α) (q : Query α) : (ask env c q).2.sk = c.sk := by
  unfold ask
  split
  · rfl
  · split
    · split <;> rfl
    · rfl
    · rfl

theorem ask_ok {env : Env α} {c : Cached α}
    (h : ∀ v, c.view = some v → newSortedView env c.sk = .ok v) (q : Query α) :
    (ask env c q).1 = freshAsk env c.sk q ∧
    (∀ v, (ask env c q).2.view = some v → newSortedView env (ask env c q).2.sk = .ok v) := by
  have hset : setupSortedView env c = newSortedView env c.sk := by
    unfold setupSortedView
    split
    · rename_i v hv
      exact (h v hv).symm
    · rfl
  unfold ask freshAsk
  by_cases he : isEmpty c.sk = true
  · rw [if_pos he, if_pos he]; exact ⟨rfl, h⟩
  · rw [if_neg he, if_neg he]
    rw [hset]
    cases hp : preCheck q with
    | ok u =>
      simp only [Outcome.ok_bind]
      cases hv : newSortedView env c.sk with
      | ok v =>
        refine ⟨rfl, ?_⟩
        intro w hw
        simp only [Option.some.injEq] at hw
        rw [← hw]; exact hv
      | err e => exact ⟨rfl, h⟩
      | panic => exact ⟨rfl, h⟩
    | err e => exact ⟨rfl, h⟩
    | panic => exact ⟨rfl, h⟩

theorem map_set_sk (st : List (Cached α)) (i : Nat) (c : Cached α) :
    (st.set i c).map Cached.sk = (st.map Cached.sk).set i c.sk := by
  rw [List.map_set]

/-- One step, followed by anything. -/
theorem cStep_sim {γ : Type} {env : Env α} {x : CState α} (h : Current env x.1) (o : COp α)
    {F : CState α → Rand γ} {G : List (Sketch α) × List (Outcome (Answer α)) → Rand γ}
    (hFG : ∀ y, Current env y.1 → F y = G (strip y)) :
    (cStep env x o >>= F) = (fStep env (strip x) o >>= G) := by
  have hrd : ∀ i, rd (x.1.map Cached.sk) i = (rd x.1 i >>= fun c => .ok c.sk) := by
    intro i
    unfold rd
    rw [List.getElem?_map]
    cases x.1[i]? <;> rfl
  cases o with
  | op o =>
    cases o with
    | new k m =>
      simp only [cStep, fStep, step, strip, Rand.bind_assoc]
      congr 1
      funext s
      simp only [Rand.ret_bind]
      rw [hFG]
      · simp [strip]
      · intro c hc
        rcases List.mem_append.1 hc with h1 | h1
        · exact h c h1
        · simp only [List.mem_singleton] at h1
          subst h1
          intro v hv
          simp at hv
    | update i y =>
      simp only [cStep, fStep, step, strip, Rand.bind_assoc, hrd]
      cases hc : rd x.1 i with
      | ok c =>
        simp only [Outcome.ok_bind, Rand.ofOutcome_ok, Rand.ret_bind, cUpdate, Rand.bind_assoc]
        congr 1
        funext s
        rw [hFG]
        · simp [strip, List.map_set]
        · exact h.set i (by simp)
      | err e => rfl
      | panic => rfl
    | merge i j =>
      have hp : pair (x.1.map Cached.sk) i j =
          (cpair x.1 i j >>= fun q => .ok (q.1.sk, q.2.sk)) := by
        unfold pair cpair
        rw [hrd, hrd]
        cases rd x.1 i with
        | ok c =>
          simp only [Outcome.ok_bind]
          cases rd x.1 j <;> rfl
        | err e => rfl
        | panic => rfl
      simp only [cStep, fStep, step, strip, Rand.bind_assoc, hp]
      cases hc : cpair x.1 i j with
      | ok q =>
        simp only [Outcome.ok_bind, Rand.ofOutcome_ok, Rand.ret_bind, cMerge]
        have hq : x.1[i]? = some q.1 := by
          unfold cpair rd at hc
          cases h1 : x.1[i]? with
          | none => rw [h1] at hc; simp at hc
          | some c =>
            cases h2 : x.1[j]? with
            | none => rw [h1, h2] at hc; simp at hc
            | some d => rw [h1, h2] at hc; simp at hc; rw [← hc]
        by_cases he : isEmpty q.2.sk = true
        · rw [if_pos he]
          simp only [merge, if_pos he, Rand.ret_bind]
          rw [hFG]
          · simp [strip, List.map_set]
          · exact h.set i (h q.1 (List.mem_of_getElem? hq))
        · rw [if_neg he]
          simp only [Rand.bind_assoc]
          congr 1
          funext s
          simp only [Rand.ret_bind]
          rw [hFG]
          · simp [strip, List.map_set]
          · exact h.set i (by simp)
      | err e => rfl
      | panic => rfl
    | reset i =>
      simp only [cStep, fStep, step, strip, Rand.bind_assoc, hrd]
      cases hc : rd x.1 i with
      | ok c =>
        simp only [Outcome.ok_bind, Rand.ofOutcome_ok, Rand.ret_bind]
        rw [hFG]
        · simp [strip, List.map_set, cReset]
        · exact h.set i (by simp [cReset])
      | err e => rfl
      | panic => rfl
  | ask i q =>
    simp only [cStep, fStep, strip, List.getElem?_map]
    cases hc : x.1[i]? with
    | none =>
      simp only [Option.map_none, Rand.ret_bind]
      rw [hFG x h]
      rfl
    | some c =>
      simp only [Option.map_some, Rand.ret_bind]
      obtain ⟨h1, h2⟩ := ask_ok (h c (List.mem_of_getElem? hc)) q
      rw [hFG _ (h.set i h2)]
      congr 1
      simp only [strip, h1, List.map_set, ask_sk]
      congr 1
      have : (x.1.map Cached.sk)[i]? = some c.sk := by simp [hc]
      obtain ⟨hl, he⟩ := List.getElem?_eq_some_iff.1 this
      rw [← he, List.set_getElem_self]

/-- C36: the cached view is invisible.  For every program of creations, updates, merges, resets and
queries, and whatever the coin shows, the sketches and all answers are those of the program that
builds the view anew for every query. -/
theorem C36_cache (env : Env α) (ops : List (COp α)) :
    (cRun env ops >>= fun x => Rand.ret (strip x)) = fRun env ops := by
  have key : ∀ (ops : List (COp α)) (x : CState α), Current env x.1 →
      (ops.foldlM (cStep env) x >>= fun x => Rand.ret (strip x)) =
        ops.foldlM (fStep env) (strip x) := by
    intro ops
    induction ops with
    | nil => intro x _; rfl
    | cons o ops ih =>
      intro x hx
      rw [List.foldlM_cons, List.foldlM_cons, Rand.bind_assoc]
      exact cStep_sim hx o ih
  exact key ops ([], []) (by intro c hc; simp at hc)

/-- C36: queries do not change the sketches. -/
theorem C36_queries_readonly (env : Env α) (ops : List (COp α)) :
    (fRun env ops >>= fun x => Rand.ret x.1) =
      run env (ops.filterMap fun | .op o => some o | .ask _ _ => none) := by
  have key : ∀ (ops : List (COp α)) (x : List (Sketch α) × List (Outcome (Answer α))),
      (ops.foldlM (fStep env) x >>= fun x => Rand.ret x.1) =
        (ops.filterMap fun | .op o => some o | .ask _ _ => none).foldlM (step env) x.1 := by
    intro ops
    induction ops with
    | nil => intro x; rfl
    | cons o ops ih =>
      intro x
      cases o with
      | op o =>
        rw [List.foldlM_cons, List.filterMap_cons, Rand.bind_assoc]
        simp only [List.foldlM_cons, fStep, Rand.bind_assoc, Rand.ret_bind]
        congr 1
        funext st
        exact ih (st, x.2)
      | ask i q =>
        rw [List.foldlM_cons, List.filterMap_cons, Rand.bind_assoc]
        simp only [fStep]
        cases x.1[i]? with
        | none => simp only [Rand.ret_bind]; exact ih x
        | some s => simp only [Rand.ret_bind]; exact ih (x.1, _)
  exact key ops ([], [])

/-! ## The hypotheses are satisfiable -/

theorem natEnv_lt (a b : Nat) : natEnv.lt a b = decide (a < b) := rfl

/-- The merge of two streams of natural numbers, queried. -/
example (xs ys : List Nat) (z : Nat) (hn : xs.length + ys.length < 2 ^ 59) :=
  C36_quantile natEnv natEnv_lt natEnv_sorts _ (twoSketches_valid xs ys z hn).1

example (xs ys : List Nat) (z : Nat) (hn : xs.length + ys.length < 2 ^ 59) :=
  C36_rank_error natEnv natEnv_lt natEnv_sorts _ (twoSketches_valid xs ys z hn).1

/-! ## Finding: `GetPartitionBoundaries` writes into the cached view -/

/-- A sketch with the items 3 and 5 at level 1, minimum 1 and maximum 6. -/
def pinned : Cached Nat :=
  ⟨⟨8, 8, 8, 2, true, 4, [6, 6, 8], [0, 0, 0, 0, 0, 0, 3, 5], 1, 6, true, [0]⟩, none⟩

/-- Finding: the rank of 3 is `1/2`, but after a call of `GetPartitionBoundaries`, and until the next
update, it is `1/4`. -/
theorem C36_partition_changes_rank :
    (match (ask natEnv pinned (.rank 3 true)).1 with | .ok (.num r) => r | _ => 0) = 1 / 2 ∧
    (match cPartition natEnv pinned 2 true with
      | .ok (_, c) => match (ask natEnv c (.rank 3 true)).1 with | .ok (.num r) => r | _ => 0
      | _ => 0) = 1 / 4 := by
  decide +kernel

end Verif.Kll
