import Verif.NumericView

/-!
# Properties of the numeric sorted view (C36)

`Z` lists the retained items of a stream of `n` items with their weights, in order; `wsum p Z` is the
weight of the items with property `p`.
-/

namespace Verif.View

open Verif Verif.Inequality

variable {α : Type} [LinearOrder α]

/-- C36: the numeric view.  The weighted items `Z'` it shows are those of `Z` and the extremes of the
stream; the weight below any item differs from that in `Z` by at most 1, and not at all if the
extremes are retained or if some but not all of the retained items are below.  `Rank` is the weight of the items below (at or below) divided by `n`,
`Quantile` is the smallest item whose weight reaches (exceeds) the natural rank, `CDF` lists the
ranks and 1, `PMF` the weights of the intervals divided by `n`. -/
theorem C36_numeric_view {Z : List (α × Int)} {n : Nat} {minItem maxItem : α}
    (hs : Z.Pairwise fun a b => a.1 ≤ b.1) (hw : ∀ z ∈ Z, 1 ≤ z.2) (hne : Z ≠ [])
    (hmin : ∀ z ∈ Z, minItem ≤ z.1) (hmax : ∀ z ∈ Z, z.1 ≤ maxItem)
    (htot : wsum (fun _ => true) Z = n) (h1 : n = 1 → ∃ z ∈ Z, z.1 = minItem ∨ z.1 = maxItem) :
    ∃ v Z', newNumericView (Z.map Prod.fst) (cums 0 (Z.map Prod.snd)) n maxItem minItem = .ok v ∧
      (∀ x, (∃ z ∈ Z', z.1 = x) ↔ x = minItem ∨ x = maxItem ∨ ∃ z ∈ Z, z.1 = x) ∧
      wsum (fun _ => true) Z' = n ∧
      (∀ q incl, |wsum (below incl q) Z' - wsum (below incl q) Z| ≤ 1) ∧
      (∀ q incl, 0 < wsum (below incl q) Z → wsum (below incl q) Z < n →
        wsum (below incl q) Z' = wsum (below incl q) Z) ∧
      ((∃ z ∈ Z, z.1 = minItem) → (∃ z ∈ Z, z.1 = maxItem) → Z' = Z) ∧
      v.minItem = .ok minItem ∧ v.maxItem = .ok maxItem ∧
      (∀ q incl, v.rank q incl = .ok ((wsum (below incl q) Z' : ℚ) / n)) ∧
      (∀ r : ℚ, 0 ≤ r → r ≤ 1 → ∀ incl, ∃ x, v.quantile r incl = .ok x ∧
        IsQuantile Z' (computeNaturalRank r n incl) incl x) ∧
      (∀ r : ℚ, r < 0 ∨ 1 < r → ∀ incl, v.quantile r incl = .err "rank") ∧
      (∀ sp : List α, sp.Pairwise (· < ·) → ∀ incl,
        v.cdf sp incl = .ok (sp.map (fun q => (wsum (below incl q) Z' : ℚ) / n) ++ [1]) ∧
        v.pmf sp incl = .ok ((intervals incl none sp).map fun p => (wsum p Z' : ℚ) / n) ∧
        ((intervals incl none sp).map fun p => (wsum p Z' : ℚ) / n).sum = 1) ∧
      (∀ sp : List α, ¬ sp.Pairwise (· < ·) → ∀ incl,
        v.cdf sp incl = .err "split points" ∧ v.pmf sp incl = .err "split points") := by
  obtain ⟨v, Z', hv, hn, hsh, hmn, hmx, hmem, hdiff, hsw, heq⟩ :=
    newNumericView_ok hs hw hne hmin hmax htot h1
  refine ⟨v, Z', hv, hmem, by rw [hsh.total, hn], hdiff, ?_, heq, hmn, hmx, ?_, ?_, ?_, ?_, ?_⟩
  · intro q incl h0 h1
    rw [hsw, shown, if_neg (by omega), if_neg (by omega)]
  · intro q incl; rw [hsh.rank, hn]
  · intro r h0 h1 incl
    have := hsh.quantile h0 h1 incl
    rw [hn] at this
    exact this
  · intro r hr incl
    unfold NumericView.quantile validateNormalizedRankBounds
    rw [if_neg hsh.pos, if_pos hr]
    rfl
  · intro sp hsp incl
    have h1 := hsh.cdf hsp incl
    have h2 := hsh.pmf hsp incl
    have h3 := hsh.pmf_sum hsp incl
    rw [hn] at h1 h2 h3
    exact ⟨h1, h2, h3⟩
  · intro sp hsp incl
    have h : v.cdf sp incl = .err "split points" := by
      unfold NumericView.cdf
      rw [(validateSplitPoints_iff sp).2 hsp]
      rfl
    refine ⟨h, ?_⟩
    unfold NumericView.pmf
    rw [h]
    rfl

/-- The natural rank: `r·n` rounded up (inclusive) or down (exclusive), up to `5·10⁻⁸`. -/
theorem C36_natural_rank (r : ℚ) (n : Nat) :
    (r * n - 1 / 20000000 ≤ computeNaturalRank r n true ∧
      (computeNaturalRank r n true : ℚ) < r * n + 1 + 1 / 20000000) ∧
    (r * n - 1 - 1 / 20000000 < computeNaturalRank r n false ∧
      (computeNaturalRank r n false : ℚ) ≤ r * n + 1 / 20000000) ∧
    ∀ m : Int, r * n = m → ∀ incl, computeNaturalRank r n incl = m :=
  ⟨(naturalRank_near r n).1, (naturalRank_near r n).2, fun _ h incl => naturalRank_exact h incl⟩

/-- The hypotheses hold for a stream of 7 items of which 3 and 5 are retained. -/
example := C36_numeric_view (Z := [((3 : ℕ), 4), (5, 3)]) (n := 7) (minItem := 1) (maxItem := 9)
  (by simp) (by simp) (by simp) (by simp) (by simp) (by rfl) (by omega)

end Verif.View
