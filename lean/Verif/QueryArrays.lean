import Verif.KllViewProps
import Verif.ReqProps

/-!
# C113: array queries of the quantile sketches answer like the single queries

`GetRanks`, `GetQuantiles` of the KLL sketch and `Ranks`, `Quantiles` of the REQ sketch.
-/

namespace Verif.Kll

open Verif Verif.View Verif.Inequality

variable {α : Type} [LinearOrder α]

/-- the loop kll/items_sketch.go:276-281 -/
def ranksLoop (v : SView α) (incl : Bool) : List α → Outcome (List ℚ)
  | [] => .ok []
  | x :: xs => do
    let r ← v.getRank x incl
    let l ← ranksLoop v incl xs
    .ok (r :: l)

/-- the loop kll/items_sketch.go:313-318 -/
def quantilesLoop (v : SView α) (incl : Bool) : List ℚ → Outcome (List α)
  | [] => .ok []
  | r :: rs => do
    let x ← v.getQuantile r incl
    let l ← quantilesLoop v incl rs
    .ok (x :: l)

/-- the frame of both: kll/items_sketch.go:268-275 and 305-312 -/
def askMany {β : Type} (env : Env α) (c : Cached α) (f : SView α → Outcome β) : Outcome β × Cached α :=
  if isEmpty c.sk then (.err "empty", c)
  else match setupSortedView env c with
    | .ok v => (f v, { c with view := some v })
    | .err e => (.err e, c)
    | .panic => (.panic, c)

/-- `GetRanks` kll/items_sketch.go:267-283 -/
def getRanks (env : Env α) (c : Cached α) (xs : List α) (incl : Bool) : Outcome (List ℚ) × Cached α :=
  askMany env c fun v => ranksLoop v incl xs

/-- `GetQuantiles` kll/items_sketch.go:304-320 -/
def getQuantiles (env : Env α) (c : Cached α) (rs : List ℚ) (incl : Bool) :
    Outcome (List α) × Cached α :=
  askMany env c fun v => quantilesLoop v incl rs

theorem ranksLoop_ok {v : SView α} {incl : Bool} {f : α → ℚ} (hf : ∀ x, v.getRank x incl = .ok (f x))
    (xs : List α) : ranksLoop v incl xs = .ok (xs.map f) := by
  induction xs with
  | nil => rfl
  | cons x xs ih => simp [ranksLoop, hf, ih]

omit [LinearOrder α] in
theorem quantilesLoop_ok {v : SView α} {incl : Bool} {f : ℚ → α} {rs : List ℚ}
    (hf : ∀ r ∈ rs, v.getQuantile r incl = .ok (f r)) : quantilesLoop v incl rs = .ok (rs.map f) := by
  induction rs with
  | nil => rfl
  | cons r rs ih =>
    simp [quantilesLoop, hf r List.mem_cons_self, ih fun x hx => hf x (List.mem_cons_of_mem _ hx)]

omit [LinearOrder α] in
theorem quantilesLoop_err {v : SView α} {incl : Bool} {rs : List ℚ}
    (hok : ∀ r, 0 ≤ r → r ≤ 1 → ∃ x, v.getQuantile r incl = .ok x)
    (hbad : ∀ r, r < 0 ∨ 1 < r → v.getQuantile r incl = .err "rank")
    (h : ∃ r ∈ rs, r < 0 ∨ 1 < r) : quantilesLoop v incl rs = .err "rank" := by
  induction rs with
  | nil => simp at h
  | cons r rs ih =>
    by_cases hr : r < 0 ∨ 1 < r
    · simp [quantilesLoop, hbad r hr]
    · obtain ⟨x, hx⟩ := hok r (by by_contra hc; exact hr (Or.inl (not_le.1 hc)))
        (by by_contra hc; exact hr (Or.inr (not_le.1 hc)))
      obtain ⟨r', hr', hb⟩ := h
      have : ∃ r ∈ rs, r < 0 ∨ 1 < r := by
        rcases List.mem_cons.1 hr' with e | e
        · subst e; exact absurd hb hr
        · exact ⟨r', e, hb⟩
      simp [quantilesLoop, hx, ih this]

/-- C113 (KLL).  For every sketch that any program of updates and merges can produce and that is not
empty, whether or not its view (as built from the sketch) is cached, and every array: `GetRanks` and `GetQuantiles` leave the
sketch as it is and return, at every position, the answer of the single query; ranks of ascending
items and quantiles of ascending ranks are ascending; one rank outside of `[0, 1]` makes the call fail
with the error of the single query. -/
theorem C113_kll (env : Env α) (hlt : ∀ a b, env.lt a b = decide (a < b)) (hso : Sorts env)
    (ops : List (Op α)) (hv : Valid ops) :
    Rand.All (fun st => ∀ (i : Nat) (s : Sketch α), st[i]? = some s → s.n ≠ 0 → ∀ w : Option (SView α),
      (∀ v, w = some v → newSortedView env s = .ok v) → ∀ incl,
        (∀ xs : List α, ∃ l, (getRanks env ⟨s, w⟩ xs incl).1 = .ok l ∧
          List.Forall₂ (fun x r => (ask env ⟨s, w⟩ (.rank x incl)).1 = .ok (.num r)) xs l ∧
          (xs.Pairwise (· ≤ ·) → l.Pairwise (· ≤ ·)) ∧
          (getRanks env ⟨s, w⟩ xs incl).2.sk = s) ∧
        (∀ rs : List ℚ, (∀ r ∈ rs, 0 ≤ r ∧ r ≤ 1) →
          ∃ l, (getQuantiles env ⟨s, w⟩ rs incl).1 = .ok l ∧
          List.Forall₂ (fun r x => (ask env ⟨s, w⟩ (.quantile r incl)).1 = .ok (.item x)) rs l ∧
          (rs.Pairwise (· ≤ ·) → l.Pairwise (· ≤ ·)) ∧
          (getQuantiles env ⟨s, w⟩ rs incl).2.sk = s) ∧
        (∀ rs : List ℚ, (∃ r ∈ rs, r < 0 ∨ 1 < r) →
          (getQuantiles env ⟨s, w⟩ rs incl).1 = .err "rank" ∧
          ∃ r ∈ rs, (ask env ⟨s, w⟩ (.quantile r incl)).1 = .err "rank"))
      (run env ops) := by
  refine (run_view env hlt hso ops hv).mono fun st hst => ?_
  intro i s hi hn w hw incl
  obtain ⟨hwt, v, Z, hnv, hZ⟩ := hst i s hi hn
  have hset : setupSortedView env ⟨s, w⟩ = .ok v := by
    unfold setupSortedView
    cases w with
    | none => exact hnv
    | some v' =>
      have := hw v' rfl
      rw [hnv, Outcome.ok.injEq] at this
      rw [this]
  have hne : isEmpty s = false := by simp [isEmpty, hn]
  have hmany : ∀ {β : Type} (f : SView α → Outcome β),
      askMany env ⟨s, w⟩ f = (f v, ⟨s, some v⟩) := by
    intro β f
    unfold askMany
    rw [hset]
    simp [hne]
  have hn0 : (0 : ℚ) < s.n := by exact_mod_cast Nat.pos_of_ne_zero hn
  have hquant : ∀ r : ℚ, ∃ x, 0 ≤ r → r ≤ 1 → v.getQuantile r incl = .ok x ∧
      IsQuantile Z (computeNaturalRank r s.n incl) incl x := by
    intro r
    by_cases h : 0 ≤ r ∧ r ≤ 1
    · obtain ⟨x, h1, h2⟩ := hZ.getQuantile hn h.1 h.2 incl
      exact ⟨x, fun _ _ => ⟨h1, h2⟩⟩
    · obtain ⟨x, -, -⟩ := hZ.getQuantile hn (le_refl 0) zero_le_one incl
      exact ⟨x, fun a b => absurd ⟨a, b⟩ h⟩
  choose Q hQ using hquant
  have hbad : ∀ r : ℚ, r < 0 ∨ 1 < r → v.getQuantile r incl = .err "rank" := by
    intro r hr
    unfold SView.getQuantile validateNormalizedRankBounds
    rw [hZ.totalN, if_neg hn, if_pos hr]
    rfl
  refine ⟨fun xs => ?_, fun rs hrs => ?_, fun rs hrs => ?_⟩
  · refine ⟨xs.map fun x => (weightOf (below incl x) s : ℚ) / s.n, ?_, ?_, ?_, ?_⟩
    · rw [getRanks, hmany]
      exact ranksLoop_ok (fun x => hZ.getRank hn x incl) xs
    · rw [List.forall₂_map_right_iff, List.forall₂_same]
      intro x _
      unfold ask
      simp only [hne, Bool.false_eq_true, if_false, preCheck, hset, askView, hZ.getRank hn x incl,
        Outcome.ok_bind]
    · intro hp
      refine List.Pairwise.map _ (fun a b hab => ?_) hp
      refine div_le_div_of_nonneg_right (weight_le hZ fun y hy => ?_) hn0.le
      cases incl <;> simp only [below, Bool.false_eq_true, if_false, if_true, decide_eq_true_eq] at *
      · exact lt_of_lt_of_le hy hab
      · exact le_trans hy hab
    · rw [getRanks, hmany]
  · refine ⟨rs.map Q, ?_, ?_, ?_, ?_⟩
    · rw [getQuantiles, hmany]
      exact quantilesLoop_ok fun r hr => (hQ r (hrs r hr).1 (hrs r hr).2).1
    · rw [List.forall₂_map_right_iff, List.forall₂_same]
      intro r hr
      have hc : ¬ (r < 0 ∨ 1 < r) := by
        have := hrs r hr
        rintro (h | h) <;> linarith
      unfold ask
      simp only [hne, Bool.false_eq_true, if_false, preCheck, validateNormalizedRankBounds, if_neg hc,
        hset, askView, (hQ r (hrs r hr).1 (hrs r hr).2).1, Outcome.ok_bind]
    · intro hp
      rw [List.pairwise_map]
      refine List.Pairwise.imp_of_mem (fun {a b} ha hb hab => ?_) hp
      exact Req.isQuantile_mono (naturalRank_mono hab _ _) (hQ a (hrs a ha).1 (hrs a ha).2).2
        (hQ b (hrs b hb).1 (hrs b hb).2).2
    · rw [getQuantiles, hmany]
  · constructor
    · rw [getQuantiles, hmany]
      exact quantilesLoop_err (fun r h0 h1 => ⟨Q r, (hQ r h0 h1).1⟩) hbad hrs
    · obtain ⟨r, hr, hb⟩ := hrs
      refine ⟨r, hr, ?_⟩
      unfold ask
      simp only [hne, Bool.false_eq_true, if_false, preCheck, validateNormalizedRankBounds, if_pos hb]

/-- C113 (KLL, empty): on an empty sketch array queries fail, as the single ones do. -/
theorem C113_kll_empty (env : Env α) (c : Cached α) (hn : c.sk.n = 0) (incl : Bool) :
    (∀ xs, getRanks env c xs incl = (.err "empty", c)) ∧
      (∀ rs, getQuantiles env c rs incl = (.err "empty", c)) ∧
      (∀ x, ask env c (.rank x incl) = (.err "empty", c)) ∧
      (∀ r, ask env c (.quantile r incl) = (.err "empty", c)) := by
  have he : isEmpty c.sk = true := by simp [isEmpty, hn]
  simp [getRanks, getQuantiles, askMany, ask, he]

example (xs ys : List Nat) (z : Nat) (hn : xs.length + ys.length < 2 ^ 59) :=
  C113_kll natEnv natEnv_lt natEnv_sorts _ (twoSketches_valid xs ys z hn).1

end Verif.Kll

namespace Verif.Req

open Verif Verif.View Verif.Inequality

variable {α : Type} [LinearOrder α]

/-- the loop req/sketch.go:484-491; every round is a call of `Rank`, which may build the view -/
def ranksLoop (env : Env α) (incl : Bool) : Sketch α → List α → Outcome (List ℚ × Sketch α)
  | s, [] => .ok ([], s)
  | s, q :: qs => do
    let (r, s) ← rank env s q incl
    let (l, s) ← ranksLoop env incl s qs
    .ok (r :: l, s)

/-- `Ranks` req/sketch.go:477-493, for finite items -/
def ranks (env : Env α) (s : Sketch α) (qs : List α) (incl : Bool) : Outcome (List ℚ × Sketch α) :=
  if s.n = 0 then .err "empty" else ranksLoop env incl s qs

/-- the loop req/sketch.go:342-349 -/
def quantilesLoop (v : NumericView α) (incl : Bool) : List ℚ → Outcome (List α)
  | [] => .ok []
  | r :: rs => do
    let x ← v.quantile r incl
    let l ← quantilesLoop v incl rs
    .ok (x :: l)

/-- `Quantiles` req/sketch.go:324-351 -/
def quantiles (env : Env α) (s : Sketch α) (rs : List ℚ) (incl : Bool) : Outcome (List α × Sketch α) :=
  ask env s fun v => quantilesLoop v incl rs

theorem ranksLoop_ok {env : Env α} {incl : Bool} {s' : Sketch α} {f : α → ℚ}
    (h' : ∀ q, rank env s' q incl = .ok (f q, s')) {s : Sketch α}
    (h : ∀ q, rank env s q incl = .ok (f q, s')) (qs : List α) (hne : qs ≠ []) :
    ranksLoop env incl s qs = .ok (qs.map f, s') := by
  have key : ∀ l : List α, ranksLoop env incl s' l = .ok (l.map f, s') := by
    intro l
    induction l with
    | nil => rfl
    | cons q l ih => simp [ranksLoop, h', ih]
  cases qs with
  | nil => exact absurd rfl hne
  | cons q l => simp [ranksLoop, h, key]

omit [LinearOrder α] in
theorem quantilesLoop_ok {v : NumericView α} {incl : Bool} {f : ℚ → α} {rs : List ℚ}
    (hf : ∀ r ∈ rs, v.quantile r incl = .ok (f r)) : quantilesLoop v incl rs = .ok (rs.map f) := by
  induction rs with
  | nil => rfl
  | cons r rs ih =>
    simp [quantilesLoop, hf r List.mem_cons_self, ih fun x hx => hf x (List.mem_cons_of_mem _ hx)]

omit [LinearOrder α] in
theorem quantilesLoop_err {v : NumericView α} {incl : Bool} {rs : List ℚ}
    (hok : ∀ r, 0 ≤ r → r ≤ 1 → ∃ x, v.quantile r incl = .ok x)
    (hbad : ∀ r, r < 0 ∨ 1 < r → v.quantile r incl = .err "rank")
    (h : ∃ r ∈ rs, r < 0 ∨ 1 < r) : quantilesLoop v incl rs = .err "rank" := by
  induction rs with
  | nil => simp at h
  | cons r rs ih =>
    by_cases hr : r < 0 ∨ 1 < r
    · simp [quantilesLoop, hbad r hr]
    · obtain ⟨x, hx⟩ := hok r (by by_contra hc; exact hr (Or.inl (not_le.1 hc)))
        (by by_contra hc; exact hr (Or.inr (not_le.1 hc)))
      obtain ⟨r', hr', hb⟩ := h
      have : ∃ r ∈ rs, r < 0 ∨ 1 < r := by
        rcases List.mem_cons.1 hr' with e | e
        · subst e; exact absurd hb hr
        · exact ⟨r', e, hb⟩
      simp [quantilesLoop, hx, ih this]

/-- C113 (REQ).  For every sketch that any program can produce and that is not empty, and every array
of finite items or ranks: `Ranks` and `Quantiles` return, at every position, the answer of the single
query, and leave the sketch in the state the single query leaves it in; ranks of ascending items and
quantiles of ascending ranks are ascending; one rank outside of `[0, 1]` makes the call fail with the
error of the single query. -/
theorem C113_req (env : Env α) (he : EnvOk env) (ops : List (Op α)) (hv : Valid env.zero ops) :
    Rand.All (fun st => ∀ (i : Nat) (s : Sketch α), st[i]? = some s → s.n ≠ 0 → ∃ s', ∀ incl,
        (∀ qs : List α, qs ≠ [] → ∃ l, ranks env s qs incl = .ok (l, s') ∧
          List.Forall₂ (fun q r => rank env s q incl = .ok (r, s')) qs l ∧
          (qs.Pairwise (· ≤ ·) → l.Pairwise (· ≤ ·))) ∧
        ranks env s [] incl = .ok ([], s) ∧
        (∀ rs : List ℚ, (∀ r ∈ rs, 0 ≤ r ∧ r ≤ 1) → ∃ l, quantiles env s rs incl = .ok (l, s') ∧
          List.Forall₂ (fun r x => quantile env s r incl = .ok (x, s')) rs l ∧
          (rs.Pairwise (· ≤ ·) → l.Pairwise (· ≤ ·))) ∧
        (∀ rs : List ℚ, (∃ r ∈ rs, r < 0 ∨ 1 < r) → quantiles env s rs incl = .err "rank" ∧
          ∃ r ∈ rs, quantile env s r incl = .err "rank"))
      (run env ops) := by
  refine (run_good he ops hv (ks_zero ops)).mono fun st hst => ?_
  intro i s hi hn
  have hg := hst.good i s hi
  have hS : ((hist env.zero ops).getD i noHist).stream ≠ [] := by
    intro hc
    rw [hg.core.len, hc] at hn
    exact hn rfl
  obtain ⟨-, mn, mx, a1, a2, a3, a4⟩ := hg.ext.used hS
  obtain ⟨v, Z', s', h1, h2, h3, h5, -, h4⟩ := ask_ok hg hS a1 a2
  refine ⟨s', fun incl => ?_⟩
  have hr : ∀ q, rank env s q incl = .ok ((wsum (below incl q) Z' : ℚ) / s.n, s') ∧
      rank env s' q incl = .ok ((wsum (below incl q) Z' : ℚ) / s.n, s') := by
    intro q
    unfold rank
    rw [(h4 _).1, (h4 _).2, h2.rank, Outcome.ok_bind, h1]
    exact ⟨rfl, rfl⟩
  have hn0 : (0 : ℚ) < s.n := by exact_mod_cast Nat.pos_of_ne_zero hn
  have hquant : ∀ r : ℚ, ∃ x, 0 ≤ r → r ≤ 1 → v.quantile r incl = .ok x ∧
      IsQuantile Z' (computeNaturalRank r s.n incl) incl x := by
    intro r
    by_cases h : 0 ≤ r ∧ r ≤ 1
    · obtain ⟨x, b1, b2⟩ := h2.quantile h.1 h.2 incl
      rw [h1] at b2
      exact ⟨x, fun _ _ => ⟨b1, b2⟩⟩
    · exact ⟨mn, fun a b => absurd ⟨a, b⟩ h⟩
  choose Q hQ using hquant
  have hbad : ∀ r : ℚ, r < 0 ∨ 1 < r → v.quantile r incl = .err "rank" := by
    intro r hr
    unfold NumericView.quantile validateNormalizedRankBounds
    rw [if_neg h2.pos, if_pos hr]
    rfl
  refine ⟨fun qs hne => ?_, ?_, fun rs hrs => ?_, fun rs hrs => ?_⟩
  · refine ⟨qs.map fun q => (wsum (below incl q) Z' : ℚ) / s.n, ?_, ?_, ?_⟩
    · unfold ranks
      rw [if_neg hn]
      exact ranksLoop_ok (fun q => (hr q).2) (fun q => (hr q).1) qs hne
    · rw [List.forall₂_map_right_iff, List.forall₂_same]
      exact fun q _ => (hr q).1
    · intro hp
      refine List.Pairwise.map _ (fun a b hab => ?_) hp
      refine div_le_div_of_nonneg_right ?_ hn0.le
      have := wsum_mono h2.wf.nonneg (p := below incl a) (q := below incl b) (fun z _ hz => by
        cases incl <;> simp only [below, Bool.false_eq_true, if_false, if_true, decide_eq_true_eq] at *
        · exact lt_of_lt_of_le hz hab
        · exact le_trans hz hab)
      exact_mod_cast this
  · unfold ranks
    rw [if_neg hn]
    rfl
  · refine ⟨rs.map Q, ?_, ?_, ?_⟩
    · unfold quantiles
      rw [(h4 _).1, quantilesLoop_ok fun r hr => (hQ r (hrs r hr).1 (hrs r hr).2).1]
      rfl
    · rw [List.forall₂_map_right_iff, List.forall₂_same]
      intro r hr
      unfold quantile
      rw [(h4 _).1, (hQ r (hrs r hr).1 (hrs r hr).2).1]
      rfl
    · intro hp
      rw [List.pairwise_map]
      refine List.Pairwise.imp_of_mem (fun {a b} ha hb hab => ?_) hp
      exact isQuantile_mono (naturalRank_mono hab _ _) (hQ a (hrs a ha).1 (hrs a ha).2).2
        (hQ b (hrs b hb).1 (hrs b hb).2).2
  · constructor
    · unfold quantiles
      rw [(h4 _).1, quantilesLoop_err (fun r r0 r1 => ⟨Q r, (hQ r r0 r1).1⟩) hbad hrs]
      rfl
    · obtain ⟨r, hr, hb⟩ := hrs
      refine ⟨r, hr, ?_⟩
      unfold quantile
      rw [(h4 _).1, hbad r hb]
      rfl

/-- C113 (REQ, empty): on an empty sketch array queries fail, as the single ones do. -/
theorem C113_req_empty (env : Env α) (s : Sketch α) (hn : s.n = 0) (incl : Bool) :
    (∀ qs, ranks env s qs incl = .err "empty") ∧ (∀ rs, quantiles env s rs incl = .err "empty") ∧
      (∀ q, rank env s q incl = .err "empty") ∧ ∀ r, quantile env s r incl = .err "empty" := by
  simp [ranks, quantiles, rank, quantile, ask, hn]

example (xs ys : List ℤ) (hx : xs ≠ []) (hn : xs.length + ys.length < 2 ^ 46) :=
  C113_req sampleEnv sampleEnv_ok _ (twoStreams_ok sampleEnv.zero xs ys hx hn).1

end Verif.Req
