import Verif.TDigestSize
import Verif.TDigestSerde

/-!
# Properties of the t-digest (C71–C77)

`Built ln d xs`: the digest `d` was obtained from `NewDouble` by `Update`, `Merge` (also of a digest
with itself) and the compression that queries and encoders perform, and `xs` lists the values given
to it, directly or through the digests merged into it.  The values are elements of an arbitrary
ordered field, `ln` is the logarithm used by the size limit: an arbitrary function unless a
hypothesis says more.
-/

namespace Verif.TDigest

set_option linter.unusedSectionVars false

variable {α : Type} [Field α] [LinearOrder α] [IsStrictOrderedRing α]

/-! ### C71: weight, extremes and sum -/

/-- C71.  The total weight is the number of values, the extremes are the smallest and the largest
value, and the stored means add up, with their weights, to the sum of the values. -/
theorem C71_summary {ln : α → α} {d : Digest α} {xs : List α} (h : Built ln d xs) :
    d.totalWeight = xs.length ∧ (d.isEmpty = true ↔ xs = []) ∧
    (xs = [] → d.minValue = .err "ErrEmpty" ∧ d.maxValue = .err "ErrEmpty") ∧
    (xs ≠ [] → ∃ mn mx, d.minValue = .ok (.fin mn) ∧ d.maxValue = .ok (.fin mx) ∧
      mn ∈ xs ∧ mx ∈ xs ∧ ∀ x ∈ xs, mn ≤ x ∧ x ≤ mx) ∧
    (d.centroids.map fun c => (c.weight : α) * c.mean).sum + d.buffer.sum = xs.sum ∧
    (∀ c ∈ d.centroids, 0 < c.weight) := by
  have hI := built_inv h
  have hE := inv_empty_iff hI
  obtain ⟨ys, hp, hS, hw⟩ := hI.split
  refine ⟨inv_total hI, hE, fun h0 => ?_, fun h0 => ?_, ?_, hS.pos⟩
  · have := hE.2 h0
    simp [Digest.minValue, Digest.maxValue, this]
  · have he : ¬ d.isEmpty = true := fun h1 => h0 (hE.1 h1)
    obtain ⟨mn, e1, m1, l1⟩ := hI.mn.2 h0
    obtain ⟨mx, e2, m2, l2⟩ := hI.mx.2 h0
    refine ⟨mn, mx, ?_, ?_, m1, m2, fun x hx => ⟨l1 x hx, l2 x hx⟩⟩
    · rw [Digest.minValue, if_neg he, e1]
    · rw [Digest.maxValue, if_neg he, e2]
  · have h1 : msum d.centroids = ys.sum := hS.m
    have h2 := hp.sum_eq
    rw [List.sum_append] at h2
    rw [← h2, ← h1]
    rfl

/-- C71.  `Update` accepts every finite value and refuses NaN and the infinities. -/
theorem C71_update {ln : α → α} {d : Digest α} {xs : List α} (h : Built ln d xs) :
    (∀ x, ∃ d', update ln d (.fin x) = .ok d' ∧ Built ln d' (xs ++ [x]) ∧ d'.k = d.k) ∧
    update ln d .nan = .err "ErrNaN" ∧ update ln d .pinf = .err "ErrInfinity" ∧
    update ln d .ninf = .err "ErrInfinity" := by
  refine ⟨fun x => ?_, rfl, rfl, rfl⟩
  obtain ⟨d', e, _, hk⟩ := update_inv ln (built_inv h) x
  exact ⟨d', e, .update x h e, hk⟩

/-- C71.  `Merge` adds all values of a non-empty digest, and refuses an empty one. -/
theorem C71_merge {ln : α → α} {d o : Digest α} {xs zs : List α} (h : Built ln d xs)
    (ho : Built ln o zs) :
    (zs = [] → mergeWith ln d o = .err "ErrEmpty") ∧
    (zs ≠ [] → ∃ d', mergeWith ln d o = .ok d' ∧ Built ln d' (xs ++ zs) ∧ d'.k = d.k) := by
  refine ⟨fun h0 => ?_, fun h0 => ?_⟩
  · rw [mergeWith, if_pos ((inv_empty_iff (built_inv ho)).2 h0)]
  · obtain ⟨d', e, _, _, hk⟩ := merge_with_inv ln (built_inv h) (built_inv ho) h0
    exact ⟨d', e, .merge h ho e, hk⟩

/-- C71.  Queries leave the digest with the same values. -/
theorem C71_queries {ln : α → α} {d d' : Digest α} {xs : List α} (h : Built ln d xs) :
    (∀ v r, rank ln d v = .ok (d', r) → Built ln d' xs) ∧
    (∀ v r, quantile ln d v = .ok (d', r) → Built ln d' xs) := by
  have hI := built_inv h
  constructor
  · intro v r hr
    have hne : xs ≠ [] := by
      intro h0
      rw [rank, if_pos ((inv_empty_iff hI).2 h0)] at hr; simp at hr
    have hv : v ≠ .nan := by
      rintro rfl
      rw [rank, if_neg (fun h0 => hne ((inv_empty_iff hI).1 h0)), if_pos rfl] at hr; simp at hr
    obtain ⟨e, he, _, _, _⟩ := compress_inv ln hI
    obtain ⟨d1, r1, e1, hd, _⟩ := rank_spec ln hI hne he v hv
    rw [e1] at hr; cases hr
    rcases hd with rfl | rfl
    · exact h
    · exact .compress h he
  · intro v r hr
    obtain ⟨e, he, _, _, _⟩ := compress_inv ln hI
    have : d' = e := by
      unfold quantile at hr
      rw [he] at hr
      split at hr
      · simp at hr
      · split at hr
        · simp at hr
        · simp only [Outcome.ok_bind] at hr
          split at hr
          · simp at hr
          · simp only [Outcome.ok.injEq, Prod.mk.injEq] at hr; exact hr.1.symm
          · split at hr
            · simp only [Outcome.ok.injEq, Prod.mk.injEq] at hr; exact hr.1.symm
            · simp only [Outcome.ok.injEq, Prod.mk.injEq] at hr; exact hr.1.symm
            · simp at hr
    rw [this]
    exact .compress h he

/-! ### C72: Rank, CDF and PMF -/

/-- C72.  `Rank` answers every value that is not NaN, with a number in `[0, 1]`, and is monotone:
also across the compression done by the first call. -/
theorem C72_rank {ln : α → α} {d : Digest α} {xs : List α} (h : Built ln d xs) (hne : xs ≠ [])
    {v w : Fl α} (hv : v ≠ .nan) (hw : w ≠ .nan) (hvw : ¬ w.lt v = true) :
    ∃ d' d'' r s, rank ln d v = .ok (d', r) ∧ rank ln d w = .ok (d'', s) ∧
      (∃ d3, rank ln d' w = .ok (d3, s)) ∧ (∃ d4, rank ln d'' v = .ok (d4, r)) ∧
      0 ≤ r ∧ r ≤ s ∧ s ≤ 1 := by
  have hI := built_inv h
  obtain ⟨e, he, hi, hb, _⟩ := compress_inv ln hI
  have hF := flat_of hi hb
  have hg := flat_good hF
  have hwm := hF.sums.w
  have hvw' : w.lt v = false := by simpa using hvw
  obtain ⟨d1, r, e1, hd1, R1⟩ := rank_spec ln hI hne he v hv
  obtain ⟨d2, s, e2, hd2, R2⟩ := rank_spec ln hI hne he w hw
  obtain ⟨hI1, hc1⟩ := compress_same ln hI he hd1
  obtain ⟨hI2, hc2⟩ := compress_same ln hI he hd2
  obtain ⟨d3, s', e3, _, R3⟩ := rank_spec ln hI1 hne hc1 w hw
  obtain ⟨d4, r', e4, _, R4⟩ := rank_spec ln hI2 hne hc2 v hv
  have hs : s' = s := le_antisymm (rankVal_mono hne hg hwm (flt_irrefl w) R3 R2)
    (rankVal_mono hne hg hwm (flt_irrefl w) R2 R3)
  have hr : r' = r := le_antisymm (rankVal_mono hne hg hwm (flt_irrefl v) R4 R1)
    (rankVal_mono hne hg hwm (flt_irrefl v) R1 R4)
  subst hs hr
  exact ⟨d1, d2, r', s', e1, e2, ⟨d3, e3⟩, ⟨d4, e4⟩, (rankVal_range hg hwm R1).1,
    rankVal_mono hne hg hwm hvw' R1 R2, (rankVal_range hg hwm R2).2⟩

/-- C72.  Below the minimum the rank is 0, above the maximum it is 1; empty digests and NaN are
refused. -/
theorem C72_rank_ends {ln : α → α} {d : Digest α} {xs : List α} (h : Built ln d xs) :
    (xs = [] → ∀ v, rank ln d v = .err "ErrEmpty") ∧
    (xs ≠ [] → rank ln d .nan = .err "ErrNaN") ∧
    (xs ≠ [] → ∀ v : α, (∀ x ∈ xs, v < x) → rank ln d (.fin v) = .ok (d, 0)) ∧
    (xs ≠ [] → ∀ v : α, (∀ x ∈ xs, x < v) → rank ln d (.fin v) = .ok (d, 1)) := by
  have hI := built_inv h
  have hE := inv_empty_iff hI
  refine ⟨fun h0 v => ?_, fun h0 => ?_, fun h0 v hv => ?_, fun h0 v hv => ?_⟩
  · rw [rank, if_pos (hE.2 h0)]
  · rw [rank, if_neg (fun h1 => h0 (hE.1 h1)), if_pos rfl]
  · obtain ⟨mn, e1, m1, -⟩ := hI.mn.2 h0
    rw [rank, if_neg (fun h1 => h0 (hE.1 h1)), if_neg (by simp),
      if_pos (by rw [e1]; simpa [Fl.lt] using hv mn m1)]
  · obtain ⟨mn, e1, m1, -⟩ := hI.mn.2 h0
    obtain ⟨mx, e2, m2, -⟩ := hI.mx.2 h0
    rw [rank, if_neg (fun h1 => h0 (hE.1 h1)), if_neg (by simp),
      if_neg (by rw [e1]; simpa [Fl.lt] using (hv mn m1).le),
      if_pos (by rw [e2]; simpa [Fl.lt] using hv mx m2)]

/-- C72.  For increasing split points that are not NaN, `CDF` is the list of their ranks followed by
1, nondecreasing and in `[0, 1]`; `PMF` has nonnegative entries that add up to 1. -/
theorem C72_cdf_pmf {ln : α → α} {d : Digest α} {xs : List α} (h : Built ln d xs) (hne : xs ≠ [])
    {sp : List (Fl α)} (h1 : ∀ v ∈ sp, v ≠ .nan) (h2 : sp.Pairwise fun a b => a.lt b = true) :
    ∃ d' rs ps, cdf ln d sp = .ok (d', rs ++ [1]) ∧ pmf ln d sp = .ok (d', ps) ∧
      List.Forall₂ (fun v r => ∃ d1, rank ln d v = .ok (d1, r)) sp rs ∧
      (rs ++ [1]).Pairwise (· ≤ ·) ∧ (∀ r ∈ rs, 0 ≤ r ∧ r ≤ 1) ∧
      ps.length = sp.length + 1 ∧ (∀ p ∈ ps, 0 ≤ p) ∧ ps.sum = 1 := by
  have hI := built_inv h
  obtain ⟨e, he, hi, hb, _⟩ := compress_inv ln hI
  have hF := flat_of hi hb
  have hg := flat_good hF
  have hwm := hF.sums.w
  obtain ⟨d', rs, e1, hd, hall⟩ := rankAll_spec ln hI hne he sp h1
  have hcdf : cdf ln d sp = .ok (d', rs ++ [1]) := by
    unfold cdf
    rw [validate_ok sp h1 h2, Outcome.ok_bind, e1]
    rfl
  have hrange : ∀ r ∈ rs, 0 ≤ r ∧ r ≤ 1 := by
    intro r hr
    obtain ⟨i, hi, rfl⟩ := List.getElem_of_mem hr
    have hl := hall.length_eq
    exact rankVal_range hg hwm ((List.forall₂_iff_get.1 hall).2 i (by omega) hi)
  have hsorted : (rs ++ [1]).Pairwise (· ≤ ·) := by
    rw [List.pairwise_append]
    refine ⟨forall2_pairwise ?_ hall h2, by simp, fun a ha b hb => ?_⟩
    · intro a b x y hx hy hab
      refine rankVal_mono hne hg hwm ?_ hx hy
      by_contra hc
      have := flt_trans hab (by simpa using hc)
      rw [flt_irrefl] at this
      simp at this
    · simp only [List.mem_singleton] at hb
      rw [hb]; exact (hrange a ha).2
  refine ⟨d', rs, differences (rs ++ [1]), hcdf, ?_, ?_, hsorted, hrange, ?_, ?_, ?_⟩
  · unfold pmf; rw [hcdf]; rfl
  · refine List.forall₂_iff_get.2 ⟨hall.length_eq, fun i a b => ?_⟩
    have hR := (List.forall₂_iff_get.1 hall).2 i a b
    obtain ⟨d1, r, e2, _, R2⟩ := rank_spec ln hI hne he (sp.get ⟨i, a⟩) (h1 _ (List.get_mem _ _))
    refine ⟨d1, ?_⟩
    rw [e2, le_antisymm (rankVal_mono hne hg hwm (flt_irrefl _) R2 hR)
      (rankVal_mono hne hg hwm (flt_irrefl _) hR R2)]
  · rw [differences_length, List.length_append, hall.length_eq]; rfl
  · cases rs with
    | nil => simp [differences]
    | cons r rs =>
      exact differences_nonneg r (rs ++ [1]) (hrange r (by simp)).1 (by simpa using hsorted)
  · cases rs with
    | nil => simp [differences]
    | cons r rs =>
      have := differences_sum r (rs ++ [1])
      rw [List.cons_append, this]
      simp

/-- C72.  Split points out of order, equal, or NaN are refused. -/
theorem C72_split_points {ln : α → α} {d : Digest α} {sp : List (Fl α)}
    (h : (∃ v ∈ sp, v = .nan) ∨ ¬ sp.Pairwise fun a b => a.lt b = true) :
    ∀ p, cdf ln d sp ≠ .ok p ∧ pmf ln d sp ≠ .ok p := by
  have hc : ∀ p, cdf ln d sp ≠ .ok p := by
    intro p hp
    unfold cdf at hp
    rw [Outcome.bind_eq_ok] at hp
    obtain ⟨u, hu, _⟩ := hp
    obtain ⟨a, b⟩ := validate_spec sp hu
    rcases h with ⟨v, hv, h0⟩ | h
    · exact a v hv h0
    · exact h b
  refine fun p => ⟨hc p, fun hp => ?_⟩
  unfold pmf at hp
  rw [Outcome.bind_eq_ok] at hp
  obtain ⟨u, hu, _⟩ := hp
  exact hc u hu

/-! ### C73: small streams are exact -/

/-- C73.  While three times the number of values is below twice `k`, nothing is approximated: the
rank of a value of the stream is the fraction of smaller values plus half the fraction of equal
ones, and the rank of any other number is off by at most half a value. -/
theorem C73_rank {ln : α → α} (hln : ∀ x, x ≤ 1 → ln x ≤ 0) {k : Nat} {d : Digest α} {xs : List α}
    (h : BuiltK ln k d xs) (hk : 3 * xs.length < 2 * k) (hne : xs ≠ []) (v : α) :
    ∃ d' r, rank ln d (.fin v) = .ok (d', r) ∧
      (v ∈ xs → r = ((xs.countP (· < v) : α) + (xs.countP (· ≤ v) : α)) / (2 * (xs.length : α))) ∧
      |r - ((xs.countP (· < v) : α) + (xs.countP (· ≤ v) : α)) / (2 * (xs.length : α))|
        ≤ 1 / (2 * (xs.length : α)) := by
  have hP := builtK_plain hln h hk
  obtain ⟨e, he, hi, hb, _⟩ := compress_inv ln hP.inv
  have hL := listing_of (compress_plain ln hln hP hk he) hb
  obtain ⟨d', r, e1, _, R⟩ := rank_spec ln hP.inv hne he (.fin v) (by simp)
  exact ⟨d', r, e1, listing_rank hL hne R⟩

/-- C73.  `Quantile(r)` of a small stream of `n` values is its element number `⌊r n⌋` in sorted
order, counted from 0 (the last one for `r = 1`). -/
theorem C73_quantile {ln : α → α} (hln : ∀ x, x ≤ 1 → ln x ≤ 0) {k : Nat} {d : Digest α}
    {xs : List α} (h : BuiltK ln k d xs) (hk : 3 * xs.length < 2 * k) (hne : xs ≠ []) {r : α}
    (h0 : 0 ≤ r) (h1 : r ≤ 1) :
    ∃ d' q, ∃ i : Nat, quantile ln d (.fin r) = .ok (d', .fin q) ∧
      (xs.insertionSort (· ≤ ·))[i]? = some q ∧ (i : α) ≤ r * (xs.length : α) ∧
      (r * (xs.length : α) < (i : α) + 1 ∨ i + 1 = xs.length) := by
  have hP := builtK_plain hln h hk
  obtain ⟨e, q, he, eq, hF, hq⟩ := quantile_spec ln hP.inv hne h0 h1
  have hL := listing_of (compress_plain ln hln hP hk he) hF.buf
  have hs := listing_sorted hL hF.inv.run.sorted
  rcases hq with ⟨x, hx, hqx⟩ | hq
  · refine ⟨e, q, 0, eq, ?_, ?_, Or.inr ?_⟩
    · rw [hqx]; simp [hx]
    · rw [hx]; simpa using h0
    · rw [hx]; rfl
  · obtain ⟨i, hi, hqi, h2, h3⟩ := listing_quantile hL hne h0 hq
    refine ⟨e, q, i, eq, ?_, h2, h3⟩
    rw [← hs, hqi, List.getElem?_map]
    have hi' : i < e.centroids.length := by rw [hL.len]; exact hi
    simp [M, hi']

/-! ### C74: Quantile -/

/-- C74.  `Quantile` answers every rank in `[0, 1]` with a number between the smallest and the
largest value; rank 0 gives the smallest and rank 1 the largest.  (That it is monotone in the rank
is false, see below.) -/
theorem C74_quantile_range_partial {ln : α → α} {d : Digest α} {xs : List α} (h : Built ln d xs)
    (hne : xs ≠ []) {r : α} (h0 : 0 ≤ r) (h1 : r ≤ 1) :
    ∃ d' q mn mx, quantile ln d (.fin r) = .ok (d', .fin q) ∧ d.min = .fin mn ∧ d.max = .fin mx ∧
      mn ≤ q ∧ q ≤ mx ∧ (r = 0 → q = mn) ∧ (r = 1 → q = mx) := by
  have hI := built_inv h
  obtain ⟨mn, e1, m1, l1⟩ := hI.mn.2 hne
  obtain ⟨mx, e2, m2, l2⟩ := hI.mx.2 hne
  obtain ⟨e, q, he, eq, hF, hq⟩ := quantile_spec ln hI hne h0 h1
  refine ⟨e, q, mn, mx, eq, e1, e2, ?_⟩
  rcases hq with ⟨x, hx, hqx⟩ | hq
  · subst hx
    simp only [List.mem_singleton] at m1 m2
    subst hqx m1 m2
    simp
  · have hcne := flat_ne hF hne
    obtain ⟨f1, f2, f3⟩ := M_first hF hcne
    obtain ⟨g1, g2, g3⟩ := M_last hF hcne
    have hmn : M e.centroids 0 = mn := le_antisymm (f3 mn m1) (l1 _ f2)
    have hmx : M e.centroids (e.centroids.length - 1) = mx := le_antisymm (l2 _ g2) (g3 mx m2)
    obtain ⟨a, b⟩ := qval_between (flat_good hF) (List.length_pos_iff.2 hcne) hq
    have hn : (1 : α) ≤ (xs.length : α) := by
      exact_mod_cast List.length_pos_iff.2 hne
    refine ⟨by rw [← hmn]; exact a, by rw [← hmx]; exact b, ?_, ?_⟩
    · rintro rfl
      cases hq with
      | low _ => exact hmn
      | high hh =>
        exfalso; rw [zero_mul] at hh; linarith
      | mid hh _ _ _ _ => exfalso; rw [zero_mul] at hh; linarith
    · rintro rfl
      cases hq with
      | low hh => exfalso; rw [one_mul] at hh; linarith
      | high _ => exact hmx
      | mid _ hh _ _ _ => exfalso; rw [one_mul] at hh; linarith

/-- C74.  Ranks outside `[0, 1]` and empty digests are refused. -/
theorem C74_refused {ln : α → α} {d : Digest α} {xs : List α} (h : Built ln d xs) :
    (xs = [] → ∀ r, quantile ln d r = .err "ErrEmpty") ∧
    (xs ≠ [] → ∀ r : α, r < 0 ∨ 1 < r → quantile ln d (.fin r) = .err "ErrInvalidRank") := by
  have hE := inv_empty_iff (built_inv h)
  refine ⟨fun h0 r => ?_, fun h0 r hr => ?_⟩
  · rw [quantile, if_pos (hE.2 h0)]
  · rw [quantile, if_neg (fun h1 => h0 (hE.1 h1)), if_pos (by simpa [Fl.lt] using hr)]

/-- Updating with a list of values. -/
def feed (ln : α → α) (d : Digest α) (ys : List α) : Outcome (Digest α) :=
  ys.foldlM (fun d x => update ln d (.fin x)) d

theorem feed_built {ln : α → α} {d d' : Digest α} {xs ys : List α} (h : Built ln d xs)
    (hf : feed ln d ys = .ok d') : Built ln d' (xs ++ ys) := by
  induction ys generalizing d xs with
  | nil => unfold feed at hf; cases hf; simpa using h
  | cons y ys ih =>
    unfold feed at hf
    rw [List.foldlM_cons, Outcome.bind_eq_ok] at hf
    obtain ⟨d1, h1, h2⟩ := hf
    have := ih (.update y h h1) h2
    simpa using this

theorem feed_small (ln : α → α) (d : Digest α) (ys : List α)
    (h : d.buffer.length + ys.length ≤ d.cap * bufferMultiplier) :
    feed ln d ys = .ok { d with
      buffer := d.buffer ++ ys
      min := ys.foldl (fun m x => m.min (.fin x)) d.min
      max := ys.foldl (fun m x => m.max (.fin x)) d.max } := by
  induction ys generalizing d with
  | nil => simp [feed]
  | cons y ys ih =>
    simp only [List.length_cons] at h
    unfold feed at ih ⊢
    rw [List.foldlM_cons, update, if_neg (by omega)]
    simp only [Outcome.ok_bind]
    rw [ih _ (by simp; omega)]
    simp

/-- The values `1, ..., 20`. -/
def twenty : List ℚ := (List.range 20).map fun i => (i : ℚ) + 1

/-- The digest with `k = 10` that has received `1, ..., 20`. -/
def digest20 : Digest ℚ :=
  { min := .fin 1, max := .fin 20, centroids := [], buffer := twenty, cw := 0,
    cap := capacityOf 10, k := 10, rev := false }

theorem digest20_built (ln : ℚ → ℚ) : Built ln digest20 twenty := by
  have h : (newDouble 10 : Outcome (Digest ℚ)) = .ok
    { min := .pinf, max := .ninf, centroids := [], buffer := [], cw := 0, cap := capacityOf 10,
      k := 10, rev := false } := rfl
  have := feed_built (ln := ln) (ys := twenty) (d' := digest20) (.new h) (by
    have e1 : twenty.foldl (fun (m : Fl ℚ) x => m.min (.fin x)) .pinf = .fin 1 := by decide +kernel
    have e2 : twenty.foldl (fun (m : Fl ℚ) x => m.max (.fin x)) .ninf = .fin 20 := by
      decide +kernel
    rw [feed_small ln _ _ (by decide)]
    simp only [e1, e2, digest20, List.nil_append])
  simpa using this

theorem addThis20 (ln : ℚ → ℚ) (hln : ln 1 = 0) :
    addThis ln 10 (0 + 20) = addThis (fun _ => (0 : ℚ)) 10 (0 + 20) := by
  funext a b
  unfold addThis sfNormalizer sfZ
  norm_num [hln]

theorem quantile20 (ln : ℚ → ℚ) (hln : ln 1 = 0) (r : Fl ℚ) :
    quantile ln digest20 r = quantile (fun _ => 0) digest20 r := by
  have hm : compress ln digest20 = compress (fun _ => 0) digest20 := by
    unfold compress merge
    rw [show digest20.cw + digest20.buffer.length = 0 + 20 from rfl,
      show digest20.k = 10 from rfl]
    dsimp only
    rw [addThis20 ln hln]
  unfold quantile
  rw [hm]

/-- Whether a query answered `q`. -/
def answers (x : Outcome (Digest ℚ × Fl ℚ)) (q : ℚ) : Bool :=
  match x with
  | .ok (_, .fin y) => y == q
  | _ => false

theorem of_answers {x : Outcome (Digest ℚ × Fl ℚ)} {q : ℚ} (h : answers x q = true) :
    ∃ d', x = .ok (d', .fin q) := by
  unfold answers at h
  split at h
  · rename_i d' y
    have : y = q := by simpa using h
    exact ⟨d', by rw [this]⟩
  · simp at h

/-- C74, finding.  `Quantile` is not monotone: the two interpolation weights are swapped.  With
`k = 10` and the values `1, ..., 20`, `Quantile(0.15)` is 6 and `Quantile(0.25)` is 4.  The only
thing used of the logarithm is `ln 1 = 0`. -/
theorem C74_quantile_not_monotone (ln : ℚ → ℚ) (hln : ln 1 = 0) :
    Built ln digest20 twenty ∧ (∃ d', quantile ln digest20 (.fin (3 / 20)) = .ok (d', .fin 6)) ∧
      ∃ d', quantile ln digest20 (.fin (1 / 4)) = .ok (d', .fin 4) := by
  refine ⟨digest20_built ln, ?_, ?_⟩
  · rw [quantile20 ln hln]
    exact of_answers (by decide +kernel)
  · rw [quantile20 ln hln]
    exact of_answers (by decide +kernel)

/-- C74, finding.  A NaN rank is not refused: with at least two centroids the answer is NaN, and no
error. -/
theorem C74_nan_rank (ln : ℚ → ℚ) (hln : ln 1 = 0) :
    ∃ d', quantile ln digest20 .nan = .ok (d', .nan) := by
  rw [quantile20 ln hln]
  have h : (match quantile (fun _ => 0) digest20 .nan with
    | .ok (_, .nan) => true | _ => false) = true := by decide +kernel
  split at h
  · exact ⟨_, ‹_›⟩
  · simp at h

/-! ### C75: size -/

/-- C75.  The number of centroids is at most `2k + 4 ln n + 3` for `k ≤ 200` (the default is 200)
and at most `4k + 4 ln n + 3` for every `k`, whatever the values and however the digest was built;
the buffer holds at most four times its capacity. -/
theorem C75_size {d : Digest ℝ} {xs : List ℝ} (h : Built Real.log d xs) (hk : d.k < 2 ^ 16) :
    (d.k ≤ 200 → (d.centroids.length : ℝ) ≤ 2 * d.k + 4 * Real.log xs.length + 3) ∧
    (d.centroids.length : ℝ) ≤ 4 * d.k + 4 * Real.log xs.length + 3 ∧
    d.buffer.length ≤ 4 * (2 * d.k + 30) := by
  obtain ⟨h1, h2⟩ := built_count h
  refine ⟨h1, h2 hk, ?_⟩
  have hI := built_inv h
  have hb := hI.buf
  rw [hI.cap] at hb
  unfold capacityOf at hb
  split at hb <;> omega

/-! ### C76: serialization -/

/-- C76.  The slice encoder succeeds, writes exactly `SerializedSizeBytes` bytes, the same ones as
the stream encoder; both decoders return a digest with the same values from them, the stream decoder
leaving what follows.  With at least two values it is the very same digest. -/
theorem C76_round_trip {ln : α → α} (F : Codec α) {d d0 : Digest α} {xs : List α}
    (h : Built ln d xs) (withBuffer : Bool)
    (hd0 : (if withBuffer then .ok d else compress ln d) = .ok d0) (hR : Rep F d0)
    (hn : xs.length < 2 ^ 64) (hc : d0.centroids.length < 2 ^ 32) (hk : d.k < 2 ^ 16) :
    ∃ image, encodeDouble ln F d withBuffer = .ok (d0, image) ∧
      encodeStream ln F d withBuffer = .ok (d0, image) ∧
      serializedSizeBytes ln d withBuffer = .ok (d0, image.length) ∧
      ∃ d', decodeDouble F image = .ok d' ∧
        (∀ rest, decodeR F (image ++ rest) = .ok (d', rest)) ∧
        Inv d' xs ∧ d'.k = d.k ∧ (2 ≤ xs.length → d' = d0) := by
  have hI := built_inv h
  obtain ⟨hI0, hb0, hk0⟩ : Inv d0 xs ∧ (withBuffer = true ∨ d0.buffer = []) ∧ d0.k = d.k := by
    split at hd0
    · cases hd0; exact ⟨hI, Or.inl ‹_›, rfl⟩
    · obtain ⟨e, he, hi, hb, hkk⟩ := compress_inv ln hI
      rw [he] at hd0; cases hd0
      exact ⟨hi, Or.inr hb, hkk⟩
  obtain ⟨e1, e2⟩ := encodeBuf_spec F d0 withBuffer hb0
  refine ⟨streamBytes F d0, ?_, ?_, ?_, reread d0 xs, ?_, ?_, reread_inv hI0, ?_, ?_⟩
  · unfold encodeDouble; rw [hd0, Outcome.ok_bind, e1]; rfl
  · unfold encodeStream; rw [hd0]; rfl
  · unfold serializedSizeBytes; rw [hd0, e2]; rfl
  · have := (decode_image F hI0 hR hn hc (hk0 ▸ hk) []).1
    simpa using this
  · exact fun rest => (decode_image F hI0 hR hn hc (hk0 ▸ hk) rest).2
  · rw [← hk0]; unfold reread; split <;> rfl
  · intro h2
    match xs, h2 with
    | _ :: _ :: _, _ => rfl

/-! ### C77: arbitrary bytes -/

/-- C77.  `DecodeDouble` never panics, whatever the bytes, except perhaps on inputs of 28 or 29 bytes
that announce the compact format of the reference implementation (fourth byte 2). -/
theorem C77_no_panic_partial (F : Codec α) (data : List Nat)
    (h : ¬ ((data.length = 28 ∨ data.length = 29) ∧ data[3]? = some 2)) :
    decodeDouble F data ≠ .panic := safe_decodeDouble F data h

/-- C77, finding.  On such an input it does panic: the length test asks for 24 bytes after the type,
but 26 are read. -/
theorem C77_panics (F : Codec α) (h : F.val 0 ≠ .nan) :
    decodeDouble F ([0, 0, 0, 2] ++ List.replicate 24 0) = .panic ∧
    decodeDouble F ([0, 0, 0, 2] ++ List.replicate 25 0) = .panic := by
  have hn : ∀ name, notNaN (F.val 0) name = .ok () := by
    intro name
    cases hv : F.val 0 with
    | nan => exact absurd hv h
    | ninf => rfl
    | fin x => rfl
    | pinf => rfl
  constructor
  · simp [decodeDouble, decodeCompat, getLE, getBE, getT, fromLE, List.replicate, hn]
  · simp [decodeDouble, decodeCompat, getLE, getBE, getT, fromLE, List.replicate, hn]

/-! ### The hypotheses are met -/

/-- C71, C72, C74: a digest with twenty values. -/
example : Built (fun _ => (0 : ℚ)) digest20 twenty ∧ twenty ≠ [] :=
  ⟨digest20_built _, by decide⟩

/-- C72: split points. -/
example : (∀ v ∈ [Fl.ninf, .fin (3 : ℚ), .fin 7], v ≠ .nan) ∧
    [Fl.ninf, .fin (3 : ℚ), .fin 7].Pairwise (fun a b => a.lt b = true) := by decide +kernel

/-- C73: two values, `k = 10`. -/
example : ∃ d, BuiltK (fun _ => (0 : ℚ)) 10 d [5, 3] ∧ 3 * [(5 : ℚ), 3].length < 2 * 10 :=
  ⟨_, .update (xs := [5]) 3 (.update (xs := []) 5 (.new rfl) rfl) rfl, by decide⟩

/-- C75: the real logarithm, `k = 200`. -/
example : ∃ d : Digest ℝ, Built Real.log d [5] ∧ d.k < 2 ^ 16 ∧ d.k ≤ 200 :=
  ⟨_, .update (xs := []) 5 (.new (k := 200) rfl) rfl, by simp, by simp⟩

/-- Bit patterns for small natural numbers. -/
def smallCodec : Codec ℚ where
  bits
    | .fin x => x.num.toNat % 2 ^ 64
    | _ => 0
  val n := .fin n
  val32 n := .fin n
  toU16 _ := 0
  toU64 _ := 0

/-- C76: the digest with twenty values, buffer included. -/
example : Rep smallCodec digest20 ∧ twenty.length < 2 ^ 64 ∧ digest20.centroids.length < 2 ^ 32 ∧
    digest20.k < 2 ^ 16 := by
  refine ⟨⟨?_, rfl, rfl, ?_, ?_⟩, by decide, by decide, by decide⟩
  · intro x
    cases x with
    | fin x => exact Nat.mod_lt _ (by decide)
    | nan => decide
    | ninf => decide
    | pinf => decide
  · intro c hc; simp [digest20] at hc
  · have : ∀ v ∈ twenty, smallCodec.val (smallCodec.bits (.fin v)) = .fin v := by decide +kernel
    exact this

end Verif.TDigest
