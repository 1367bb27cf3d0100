import Verif.ReqProps

/-!
# The rank interval of a REQ sketch at the accurate end (C50)

C49 says where the ranks are exact, C50 when the interval of the rank bounds is a point.  Both fit
together: where C49 applies, the interval is the point of the true rank.
-/

namespace Verif.Req

open Verif Verif.View Verif.Inequality

variable {α : Type} [LinearOrder α]

/-- C50: if at most `3·κ` items of the stream lie on the accurate side of `q`, then `Rank(q)` and both
rank bounds for this rank are the true rank, for any number of standard deviations.  `κ` is a lower
bound of the `k` of the sketches of the program. -/
theorem C50_exact_interval (env : Env α) (he : EnvOk env) (ops : List (Op α))
    (hv : Valid env.zero ops) (hc : Clean env.zero ops) {κ : Nat}
    (hk : ∀ k hra, Op.new k hra ∈ ops → κ ≤ k) :
    Rand.All (fun st => ∀ (i : Nat) (s : Sketch α), st[i]? = some s →
      let S := streamOf env.zero ops i
      S ≠ [] → ∀ q incl,
        (if s.hra then S.countP (fun y => !below incl q y) else S.countP (below incl q)) ≤ 3 * κ →
        ∃ r s', rank env s q incl = .ok (r, s') ∧ r = trueRank S q incl ∧
          ∀ relRSE numStdDev, sketchRankLB relRSE s r numStdDev = r ∧
            sketchRankUB relRSE s r numStdDev = r)
      (run env ops) := by
  have hg := run_good (K := κ) he ops hv (by
    intro op ho
    cases op with
    | new k hra => exact hk k hra ho
    | _ => exact trivial)
  refine ((C49_exact_ranks env he ops hv hc hk).and hg).mono ?_
  rintro st ⟨h, hst⟩ i s hi S hS q incl hq
  obtain ⟨s', hr⟩ := h i s hi hS q incl hq
  refine ⟨_, s', hr, rfl, ?_⟩
  have hgd := hst.good i s hi
  have hlen : s.n = S.length := hgd.core.len
  have hkk : κ ≤ s.k := hgd.core.kK
  have hpos : (0 : ℚ) < S.length := by exact_mod_cast List.length_pos_of_ne_nil hS
  have hx : isExactRank s.k s.compactors.length (trueRank S q incl) s.hra s.n = true := by
    unfold isExactRank
    dsimp only
    split
    · rfl
    · unfold trueRank
      rw [hlen]
      cases hh : s.hra with
      | false =>
        rw [hh, if_neg (by simp)] at hq
        rw [if_neg (by simp), decide_eq_true_eq]
        apply div_le_div_of_nonneg_right _ hpos.le
        have : S.countP (below incl q) ≤ s.k * 3 := by omega
        exact_mod_cast this
      | true =>
        rw [hh, if_pos rfl] at hq
        rw [if_pos rfl, decide_eq_true_eq, sub_le_iff_le_add, ← add_div, le_div_iff₀ hpos, one_mul]
        have e2 : S.countP (below incl q) + S.countP (fun y => !below incl q y) = S.length := by
          have := rk_compl (below incl q) [S]
          simpa [Kll.rk] using this
        have : S.length ≤ S.countP (below incl q) + s.k * 3 := by omega
        exact_mod_cast this
  intro relRSE m
  unfold sketchRankLB sketchRankUB rankLowerBound rankUpperBound
  rw [if_pos hx, if_pos hx]
  exact ⟨rfl, rfl⟩

/-- The hypotheses are met by two merged streams. -/
example (x : ℤ) (xs ys : List ℤ) (hn : (x :: xs).length + ys.length < 2 ^ 46) :
    EnvOk sampleEnv ∧ Valid sampleEnv.zero (twoStreams (x :: xs) ys) ∧
      Clean sampleEnv.zero (twoStreams (x :: xs) ys) ∧
      streamOf sampleEnv.zero (twoStreams (x :: xs) ys) 0 ≠ [] ∧
      ∀ k hra, Op.new k hra ∈ twoStreams (x :: xs) ys → 8 ≤ k := by
  obtain ⟨h1, h2, h3, h4⟩ := twoStreams_ok sampleEnv.zero (x :: xs) ys (by simp) hn
  exact ⟨sampleEnv_ok, h1, h2, by rw [h3]; simp, h4⟩

end Verif.Req
