import Verif.KllIterProps
import Verif.NumericViewProps
import Verif.ReqProps

/-!
# C107: iterating over the sorted view of a REQ sketch

`common/quantiles/numeric_sorted_view_iterator.go` (float64 as ℚ).
-/

namespace Verif.View

open Verif Verif.Inequality
open Verif.Kll (VIt Seen rdI seenFrom)

variable {α : Type}

/-! ## Model -/

/-- numeric_sorted_view_iterator.go:25-30 -/
structure NIt (α : Type) where
  quantiles : List α
  cumWeights : List Int
  totalN : Int
  index : Int

/-- numeric_sorted_view.go:84-86 and numeric_sorted_view_iterator.go:36-48 -/
def NumericView.iterator (v : NumericView α) : NIt α :=
  ⟨v.quantiles, v.cumWeights, v.cumWeights.getLast?.getD 0, -1⟩

/-- numeric_sorted_view_iterator.go:50-55 -/
def NIt.validateIndex (it : NIt α) : Outcome Unit :=
  if it.index < 0 ∨ it.index ≥ it.cumWeights.length then .err "index out of range" else .ok ()

/-- numeric_sorted_view_iterator.go:60-65 -/
def NIt.naturalRank (it : NIt α) : Outcome Int := do
  it.validateIndex
  rdI it.cumWeights it.index

/-- numeric_sorted_view_iterator.go:74-85 -/
def NIt.naturalRankC (it : NIt α) (incl : Bool) : Outcome Int := do
  it.validateIndex
  if incl then rdI it.cumWeights it.index
  else if it.index = 0 then .ok 0
  else rdI it.cumWeights (it.index - 1)

/-- numeric_sorted_view_iterator.go:95-101 -/
def NIt.normalizedRank (it : NIt α) : Outcome ℚ := do
  let r ← it.naturalRank
  .ok ((r : ℚ) / it.totalN)

/-- numeric_sorted_view_iterator.go:107-113 -/
def NIt.normalizedRankC (it : NIt α) (incl : Bool) : Outcome ℚ := do
  let r ← it.naturalRankC incl
  .ok ((r : ℚ) / it.totalN)

/-- numeric_sorted_view_iterator.go:117-125 -/
def NIt.weight (it : NIt α) : Outcome Int := do
  it.validateIndex
  if it.index = 0 then rdI it.cumWeights 0
  else do
    let a ← rdI it.cumWeights it.index
    let b ← rdI it.cumWeights (it.index - 1)
    .ok (a - b)

/-- numeric_sorted_view_iterator.go:129-132 -/
def NIt.next (it : NIt α) : Bool × NIt α :=
  (decide (it.index + 1 < it.cumWeights.length), { it with index := it.index + 1 })

/-- numeric_sorted_view_iterator.go:136-142 -/
def NIt.quantile (it : NIt α) : Outcome α := do
  it.validateIndex
  rdI it.quantiles it.index

def NIt.look (it : NIt α) : Outcome (Seen α) := do
  let q ← it.quantile
  let w ← it.weight
  let ri ← it.naturalRankC true
  let re ← it.naturalRankC false
  let ni ← it.normalizedRankC true
  let ne ← it.normalizedRankC false
  .ok ⟨q, w, ri, re, ni, ne⟩

/-- `for it.Next() { ... }`: what the loop sees and the iterator afterwards -/
def collectN : Nat → NIt α → Outcome (List (Seen α) × NIt α)
  | 0, _ => .panic
  | fuel + 1, it =>
    if it.next.1 then do
      let x ← it.next.2.look
      let rest ← collectN fuel it.next.2
      .ok (x :: rest.1, rest.2)
    else .ok ([], it.next.2)

/-! ## Proof -/

def NIt.toV (it : NIt α) : VIt α := ⟨it.quantiles, it.cumWeights, it.totalN, it.index⟩

theorem look_eq {it : NIt α} (h0 : 0 ≤ it.index) (h1 : it.index < it.cumWeights.length) : it.look = it.toV.look := by
  have hv : it.validateIndex = .ok () := by
    unfold NIt.validateIndex
    rw [if_neg (by omega)]
  unfold NIt.look NIt.quantile NIt.weight NIt.normalizedRankC NIt.naturalRankC
  simp only [hv, Outcome.ok_bind]
  rfl

theorem collectN_ok : ∀ (fuel : Nat) (it : NIt α) (l : List (Seen α)), -1 ≤ it.index →
    Kll.collectV fuel it.toV = .ok l → ∃ it', collectN fuel it = .ok (l, it') ∧
      it'.cumWeights = it.cumWeights ∧ (it.cumWeights.length : Int) ≤ it'.index := by
  intro fuel
  induction fuel with
  | zero => intro it l _ h; cases h
  | succ fuel ih =>
    intro it l h0 h
    unfold Kll.collectV at h
    unfold collectN
    by_cases hn : it.index + 1 < it.cumWeights.length
    · rw [if_pos (show it.toV.next.1 = true from decide_eq_true hn)] at h
      rw [if_pos (show it.next.1 = true from decide_eq_true hn)]
      obtain ⟨x, hx, h⟩ := Outcome.bind_eq_ok.1 h
      obtain ⟨rest, hr, h⟩ := Outcome.bind_eq_ok.1 h
      rw [Outcome.ok.injEq] at h
      subst h
      have hl : it.next.2.look = .ok x := by
        rw [look_eq (by simp [NIt.next]; omega) (by simpa [NIt.next] using hn)]
        exact hx
      obtain ⟨it', e1, e2, e3⟩ := ih it.next.2 rest (by simp [NIt.next]; omega) hr
      exact ⟨it', by rw [hl, Outcome.ok_bind, e1]; rfl, e2, e3⟩
    · rw [if_neg (show ¬ it.toV.next.1 = true from fun h => hn (of_decide_eq_true h))] at h
      rw [if_neg (show ¬ it.next.1 = true from fun h => hn (of_decide_eq_true h))]
      rw [Outcome.ok.injEq] at h
      subst h
      exact ⟨it.next.2, rfl, rfl, by simp [NIt.next]; omega⟩

/-- Outside the positions of the view all getters return the error, none panics. -/
theorem C107_outside {it : NIt α} (h : it.index < 0 ∨ (it.cumWeights.length : Int) ≤ it.index) :
    it.quantile = .err "index out of range" ∧ it.weight = .err "index out of range" ∧
      it.naturalRank = .err "index out of range" ∧ it.normalizedRank = .err "index out of range" ∧
      ∀ incl, it.naturalRankC incl = .err "index out of range" ∧
        it.normalizedRankC incl = .err "index out of range" := by
  have hv : it.validateIndex = .err "index out of range" := by
    unfold NIt.validateIndex
    rw [if_pos h]
  refine ⟨?_, ?_, ?_, ?_, fun incl => ⟨?_, ?_⟩⟩ <;>
    simp [NIt.quantile, NIt.weight, NIt.naturalRank, NIt.normalizedRank, NIt.naturalRankC, NIt.normalizedRankC, hv]

/-- The ranks without a criterion are those of the inclusive criterion. -/
theorem C107_default_criterion (it : NIt α) :
    it.naturalRank = it.naturalRankC true ∧ it.normalizedRank = it.normalizedRankC true := by
  constructor
  · simp [NIt.naturalRank, NIt.naturalRankC]
  · simp [NIt.normalizedRank, NIt.normalizedRankC, NIt.naturalRank, NIt.naturalRankC]

variable [LinearOrder α]

theorem iterate_shows {v : NumericView α} {Z : List (α × Int)} (h : Shows v Z) (fuel : Nat) (hf : Z.length < fuel) :
    ∃ it', collectN fuel v.iterator = .ok (seenFrom v.n 0 Z, it') ∧ it'.cumWeights = v.cumWeights ∧
      (v.cumWeights.length : Int) ≤ it'.index := by
  have hsum : (Z.map Prod.snd).sum = v.n := by
    rw [← h.total]
    simp [wsum]
  have hc := Kll.collectV_ok (v.n : Int) Z [] fuel hf
  refine collectN_ok fuel v.iterator _ (by simp [NumericView.iterator]) ?_
  unfold NIt.toV NumericView.iterator
  dsimp only
  rw [h.quantiles, h.cumWeights, Kll.getLast_cums _ (by simpa using h.ne)]
  simpa [hsum] using hc

open Verif.Req in
/-- **C107.** After any program on REQ sketches: the loop over the iterator of the sorted view ends and
sees the retained items and the extremes of the stream in order, the minimum first and the maximum last,
with weights that are not negative and add up to the number of items presented; for every item
the weights seen up to it are those from which `Rank` answers; the ranks at each position are the weights
seen so far, with or without the position, and those divided by `n`. Afterwards every getter returns
an error, as it does before the first call of `Next`. -/
theorem C107_iterate (env : Env α) (he : EnvOk env) (ops : List (Req.Op α)) (hv : Req.Valid env.zero ops) :
    Rand.All (fun st => ∀ (i : Nat) (s : Req.Sketch α), st[i]? = some s → streamOf env.zero ops i ≠ [] →
      ∃ mn mx Z, s.minItem = some mn ∧ s.maxItem = some mx ∧
        (∀ fuel, Z.length < fuel → ∃ it' s', (it'.cumWeights.length : Int) ≤ it'.index ∧
          ask env s (fun v => collectN fuel v.iterator) = .ok ((seenFrom s.n 0 Z, it'), s')) ∧
        Z.Pairwise (fun a b => a.1 ≤ b.1) ∧ (∀ z ∈ Z, 0 ≤ z.2) ∧ (Z.map Prod.snd).sum = s.n ∧
        Z.head?.map Prod.fst = some mn ∧ Z.getLast?.map Prod.fst = some mx ∧
        (∀ x, (∃ z ∈ Z, z.1 = x) ↔ x = mn ∨ x = mx ∨ ∃ l ∈ levels s, x ∈ l) ∧
        ∀ q incl, ∃ s', rank env s q incl = .ok ((wsum (below incl q) Z : ℚ) / s.n, s')) (run env ops) := by
  refine (run_good (K := 0) he ops hv (by
    intro op ho
    cases op with
    | new k hra => exact Nat.zero_le _
    | _ => exact trivial)).mono fun st hst => ?_
  intro i s hi hS
  have hg := hst.good i s hi
  obtain ⟨-, mn, mx, a1, a2, a3, a4⟩ := hg.ext.used hS
  obtain ⟨v, Z', s', h1, h2, h3, h5, -, h4⟩ := ask_ok hg hS a1 a2
  have hmem : ∀ z ∈ Z', mn ≤ z.1 ∧ z.1 ≤ mx := by
    intro z hz
    have hb := hg.between a3.2 a4.2
    have hmm : mn ≤ mx := a3.2 _ a4.1
    rcases (h5 z.1).1 ⟨z, hz, rfl⟩ with h | h | ⟨l, hl, hx⟩
    · rw [h]; exact ⟨le_refl _, hmm⟩
    · rw [h]; exact ⟨hmm, le_refl _⟩
    · exact hb l hl _ hx
  refine ⟨mn, mx, Z', a1, a2, ?_, h2.wf.sorted, h2.wf.nonneg, ?_, ?_, ?_, h5, ?_⟩
  · intro fuel hf
    obtain ⟨it', e1, e2, e3⟩ := iterate_shows h2 fuel hf
    refine ⟨it', s', by rw [e2]; exact e3, ?_⟩
    rw [(h4 _).1, e1, h1]
    rfl
  · rw [← h1, ← h2.total]
    simp [wsum]
  · obtain ⟨z, Z, rfl⟩ := List.exists_cons_of_ne_nil h2.ne
    obtain ⟨y, hy, hym⟩ := (h5 mn).2 (Or.inl rfl)
    have : z.1 ≤ y.1 := by
      rcases List.mem_cons.1 hy with rfl | hy
      · exact le_refl _
      · exact (List.pairwise_cons.1 h2.wf.sorted).1 y hy
    rw [List.head?_cons, Option.map_some, le_antisymm (hym ▸ this) (hmem z (by simp)).1]
  · obtain ⟨y, hy, hym⟩ := (h5 mx).2 (Or.inr (Or.inl rfl))
    obtain ⟨Z, z, rfl⟩ : ∃ Z z, Z' = Z ++ [z] :=
      ⟨Z'.dropLast, Z'.getLast h2.ne, (List.dropLast_append_getLast h2.ne).symm⟩
    have : y.1 ≤ z.1 := by
      rcases List.mem_append.1 hy with hy | hy
      · exact (List.pairwise_append.1 h2.wf.sorted).2.2 y hy z (by simp)
      · rw [List.mem_singleton] at hy; rw [hy]
    rw [List.getLast?_append, List.getLast?_singleton]
    simp only [Option.some_or, Option.map_some]
    rw [le_antisymm (hmem z (by simp)).2 (hym ▸ this)]
  · intro q incl
    refine ⟨s', ?_⟩
    have hr := (h4 (fun v => v.rank q incl)).1
    rw [h2.rank, h1] at hr
    exact hr

/-! ## Examples -/

/-- retained item 5 of weight 2, minimum 1 not retained: three positions are seen -/
example : (match newNumericView [5, 7] [2, 3] 3 (7 : Nat) 1 with
    | .ok v => (match collectN 9 v.iterator with
      | .ok r => r.1.map fun x => (x.quantile, x.weight, x.rankIncl, x.rankExcl)
      | _ => [])
    | _ => []) = [(1, 1, 1, 0), (5, 1, 2, 1), (7, 1, 3, 2)] := by decide +kernel

/-- The weight of a retained item can be shown as zero: the minimum takes its place. -/
theorem C107_zero_weight : (match newNumericView [5, 7] [1, 2] 2 (7 : Nat) 1 with
    | .ok v => (match collectN 9 v.iterator with
      | .ok r => r.1.map fun x => (x.quantile, x.weight)
      | _ => [])
    | _ => []) = [(1, 1), (5, 0), (7, 1)] := by decide +kernel

end Verif.View
