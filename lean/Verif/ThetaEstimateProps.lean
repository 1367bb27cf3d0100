import Verif.ThetaEstimate
import Mathlib.Data.Fin.VecNotation

/-!
# C86, C87: accuracy of theta estimates

Randomness: the items of a finite type get distinct hashes from 1 to 2^63 - 1 (the 63 bits the
sketches use, 0 excluded), all such assignments equally likely (`hashings`, `mean`, `prob`).  The
lowest bit of the 64-bit hash words is arbitrary (`low`).
-/

namespace Verif.Theta

variable {ι : Type} [DecidableEq ι]

/-! ## C86: one sketch -/

/-- C86 (mean).  For every configuration, sampling probability and history of updates, trims and
resets, over random hashes: the estimate times theta / (theta - 1) averages exactly to the number of
distinct items presented since the last reset; the estimate itself averages to at most that. -/
theorem C86_estimate_mean [Fintype ι] {low : ι → Nat} {lgK rf start : Nat} {t0 : Tbl} (sh : Nat)
    (hnew : newTable lgK rf start = .ok t0) (h32 : 32 < start) (hstart : start ≤ maxTheta)
    (hN : Fintype.card ι ≤ maxTheta) (ops : List (Op ι)) :
    ∃ R : (ι → Nat) → Tbl, (∀ h, run (words low h) t0 ops = .ok (R h)) ∧
      mean ι maxTheta (fun h => estimate (viewOf (R h) sh) *
        ((viewOf (R h) sh).theta / ((viewOf (R h) sh).theta - 1))) =
          (presented [] ops).toFinset.card ∧
      mean ι maxTheta (fun h => estimate (viewOf (R h) sh)) ≤ (presented [] ops).toFinset.card ∧
      32 / 33 * ((presented [] ops).toFinset.card : ℚ) ≤
        mean ι maxTheta (fun h => estimate (viewOf (R h) sh)) := by
  obtain ⟨S, hS, s, -⟩ := sampled_sketch (low := low) (sh := sh) hnew h32 hstart ops
  choose R hR e using hS
  have hSe : S = fun h => viewOf (R h) sh := funext e
  subst hSe
  exact ⟨R, hR, s.unbiased hN, s.mean_le hN⟩

/-- C86 (spread).  Without sampling and with more than k = 2^lgK distinct items, over random hashes:
the bias is at most a fraction n / ((k - 1) (2^63 - 1)), the mean squared error is at most
n² / (k - 1), up to a factor 1 + 2n / (2^63 - 1), so that an error of a fraction ε or more has
probability at most 1 / ((k - 1) ε²) up to the same factor. -/
theorem C86_estimate_spread [Fintype ι] {low : ι → Nat} {lgK rf : Nat} {t0 : Tbl} (sh : Nat)
    (hnew : newTable lgK rf maxTheta = .ok t0)
    (hN : Fintype.card ι ≤ maxTheta) (ops : List (Op ι)) {n : Nat}
    (hn : (presented [] ops).toFinset.card = n) (hk : 2 ^ lgK < n) :
    ∃ R : (ι → Nat) → Tbl, (∀ h, run (words low h) t0 ops = .ok (R h)) ∧
      (n : ℚ) - n * (n / ((2 ^ lgK - 1) * maxTheta)) ≤
        mean ι maxTheta (fun h => estimate (viewOf (R h) sh)) ∧
      mean ι maxTheta (fun h => (estimate (viewOf (R h) sh) - n) ^ 2) ≤
        (n : ℚ) ^ 2 / (2 ^ lgK - 1) * (1 + 2 * n / maxTheta) ∧
      ∀ ε : ℚ, 0 < ε → prob ι maxTheta (fun h => ε * n ≤ |estimate (viewOf (R h) sh) - n|) ≤
        1 / ((2 ^ lgK - 1) * ε ^ 2) * (1 + 2 * n / maxTheta) := by
  obtain ⟨S, hS, s, m⟩ := sampled_sketch (low := low) (sh := sh) hnew (by decide) (le_refl _) ops
  choose R hR e using hS
  have hSe : S = fun h => viewOf (R h) sh := funext e
  subst hSe
  have h2 : 2 ≤ 2 ^ lgK := by
    have : 5 ≤ lgK := by
      unfold newTable at hnew
      split at hnew
      · cases hnew
      split at hnew
      · cases hnew
      omega
    have : 2 ^ 5 ≤ 2 ^ lgK := Nat.pow_le_pow_right (by omega) this
    omega
  have hb := bias s h2 (m rfl) (by rw [hn]; exact hk) hN
  have hq := squared_error s h2 (m rfl) (by rw [hn]; exact hk) hN
  rw [hn] at hb hq
  push_cast at hb hq
  refine ⟨R, hR, ?_, hq, ?_⟩
  · have : (n : ℚ) * (n / ((2 ^ lgK - 1) * maxTheta)) = n ^ 2 / ((2 ^ lgK - 1) * maxTheta) := by
      ring
    rw [this]; linarith
  · intro ε hε
    have hn0 : (0 : ℚ) < n := by
      have : 0 < n := by omega
      exact_mod_cast this
    refine (prob_far _ hn0 hε hq).trans (le_of_eq ?_)
    have h2q : (2 : ℚ) ≤ 2 ^ lgK := by exact_mod_cast h2
    have hk1 : ((2 : ℚ) ^ lgK - 1) ≠ 0 := by linarith
    have := maxTheta_pos.ne'
    field_simp

/-- C86 (exact).  Without sampling and with at most k = 2^lgK distinct items the estimate is the
number of items, whatever the hashes; an item hashed to 2^63 - 1 is not counted. -/
theorem C86_estimate_exact {low : ι → Nat} {lgK rf : Nat} {t0 : Tbl} (sh : Nat)
    (hnew : newTable lgK rf maxTheta = .ok t0) (ops : List (Op ι)) {n : Nat}
    (hn : (presented [] ops).toFinset.card = n) (hk : n ≤ 2 ^ lgK) (h : ι → Nat) (hp : Proper h)
    (hmax : ∀ i, h i < maxTheta) :
    ∃ t, run (words low h) t0 ops = .ok t ∧ estimate (viewOf t sh) = n := by
  obtain ⟨S, hS, s, m⟩ := sampled_sketch (low := low) (sh := sh) hnew (by decide) (le_refl _) ops
  obtain ⟨t, e1, e2⟩ := hS h
  refine ⟨t, e1, ?_⟩
  have hth := few_items s (m rfl) (by rw [hn]; exact hk) hp
  have hc := s.all_card hp
  rw [hth, Finset.filter_true_of_mem (fun i _ => hmax i), hn, ← (s.input h hp).valid.num] at hc
  rw [← e2]
  unfold estimate
  rw [hth, hc, div_self maxTheta_pos.ne', div_one]

/-! ## C87: set expressions -/

/-- Set expressions over sketches: update sketches with their histories, compact copies, unions of
any number of inputs, intersections of at least one input, and differences. -/
inductive Expr (ι : Type) where
  | sketch (lgK rf start : Nat) (ops : List (Op ι))
  | compact (ordered : Bool) (e : Expr ι)
  | union (lgK rf : Nat) (ordered : Bool) (n : Nat) (args : Fin n → Expr ι)
  | inter (ordered : Bool) (n : Nat) (args : Fin (n + 1) → Expr ι)
  | diff (ordered : Bool) (a b : Expr ι)

namespace Expr

/-- all results, or the first failure -/
def collect {α : Type} : List (Outcome α) → Outcome (List α)
  | [] => .ok []
  | x :: xs => do
    let a ← x
    let as ← collect xs
    .ok (a :: as)

/-- The code run on an expression: `NewQuickSelectUpdateSketch` and its history, `Compact`,
`Union.Update` and `Result`, `Intersection.Update` and `Result`, `ANotB`. -/
def eval (sh : Nat) (low h : ι → Nat) : Expr ι → Outcome View
  | sketch lgK rf start ops => do
    let t ← newTable lgK rf start
    let t ← run (words low h) t ops
    .ok (viewOf t sh)
  | compact o e => do
    let v ← e.eval sh low h
    .ok (newCompact v o).view
  | union lgK rf o n args => do
    let vs ← collect ((List.finRange n).map fun j => (args j).eval sh low h)
    let c ← unionOf sh lgK rf maxTheta o vs
    .ok c.view
  | inter o n args => do
    let vs ← collect ((List.finRange (n + 1)).map fun j => (args j).eval sh low h)
    let c ← interOf sh o vs
    .ok c.view
  | diff o a b => do
    let v ← a.eval sh low h
    let w ← b.eval sh low h
    let c ← aNotB v w (some sh) o
    .ok c.view

/-- the set of items an expression stands for -/
def items : Expr ι → Finset ι
  | sketch _ _ _ ops => (presented [] ops).toFinset
  | compact _ e => e.items
  | union _ _ _ _ args => Finset.univ.biUnion fun j => (args j).items
  | inter _ _ args => (args 0).items.filter fun i => ∀ j, i ∈ (args j).items
  | diff _ a b => a.items \ b.items

/-- sketches and unions have allowed parameters: `lgK` from 5 to 26, and a starting theta above 32 -/
def Ok : Expr ι → Prop
  | sketch lgK rf start _ => (∃ t, newTable lgK rf start = .ok t) ∧ 32 < start ∧ start ≤ maxTheta
  | compact _ e => e.Ok
  | union lgK rf _ _ args => (∃ u, newUnion lgK rf maxTheta = .ok u) ∧ ∀ j, (args j).Ok
  | inter _ _ args => ∀ j, (args j).Ok
  | diff _ a b => a.Ok ∧ b.Ok

/-- only sketches without sampling, compact copies and unions, each with nominal size at least `k` -/
def Plain (k : Nat) : Expr ι → Prop
  | sketch lgK _ start _ => k ≤ 2 ^ lgK ∧ start = maxTheta
  | compact _ e => e.Plain k
  | union lgK _ _ _ args => k ≤ 2 ^ lgK ∧ ∀ j, (args j).Plain k
  | inter _ _ _ => False
  | diff _ _ _ => False

theorem collect_ok {α κ : Type} {f : κ → Outcome α} {g : κ → α} : ∀ (l : List κ),
    (∀ x ∈ l, f x = .ok (g x)) → collect (l.map f) = .ok (l.map g) := by
  intro l
  induction l with
  | nil => intro _; rfl
  | cons x l ih =>
    intro h
    rw [List.map_cons, collect, h x (by simp), Outcome.ok_bind, ih (fun y hy => h y (by simp [hy])),
      Outcome.ok_bind, List.map_cons]

/-- every expression evaluates to a sampled set -/
theorem sampled (sh : Nat) (low : ι → Nat) : ∀ (e : Expr ι), e.Ok →
    ∃ S : (ι → Nat) → View, (∀ h, Proper h → e.eval sh low h = .ok (S h)) ∧
      Sampled sh S e.items ∧ ∀ k, e.Plain k → Many k S e.items := by
  intro e
  induction e with
  | sketch lgK rf start ops =>
    rintro ⟨⟨t0, hnew⟩, h32, hstart⟩
    obtain ⟨S, hS, s, m⟩ := sampled_sketch (low := low) (sh := sh) hnew h32 hstart ops
    refine ⟨S, fun h _ => ?_, s, ?_⟩
    · obtain ⟨t, e1, e2⟩ := hS h
      unfold eval
      rw [hnew, Outcome.ok_bind, e1, Outcome.ok_bind, e2]
    · rintro k ⟨hk, hst⟩ h hp hne
      obtain ⟨m1, m2⟩ := m hst h hp hne
      exact ⟨hk.trans m1, m2⟩
  | compact o e ih =>
    intro hok
    obtain ⟨S, hS, s, m⟩ := ih hok
    refine ⟨_, fun h hp => ?_, sampled_compact s o, fun k hk => many_compact s (m k hk) o⟩
    unfold eval
    rw [hS h hp, Outcome.ok_bind]
  | union lgK rf o n args ih =>
    rintro ⟨⟨u, hnew⟩, hok⟩
    choose S hS s m using fun j => ih j (hok j)
    obtain ⟨U, hU, su, mu⟩ := sampled_union o hnew s
    refine ⟨U, fun h hp => ?_, su, ?_⟩
    · obtain ⟨c, e1, e2⟩ := hU h hp
      unfold eval
      rw [collect_ok (g := fun j => S j h) _ (fun j _ => hS j h hp), Outcome.ok_bind, e1,
        Outcome.ok_bind, e2]
    · rintro k ⟨hk, hp⟩
      exact mu k hk (fun j => m j k (hp j))
  | inter o n args ih =>
    intro hok
    choose S hS s m using fun j => ih j (hok j)
    obtain ⟨U, hU, su⟩ := sampled_inter o s
    refine ⟨U, fun h hp => ?_, su, fun k hk => hk.elim⟩
    obtain ⟨c, e1, e2⟩ := hU h hp
    unfold eval
    rw [collect_ok (g := fun j => S j h) _ (fun j _ => hS j h hp), Outcome.ok_bind, e1,
      Outcome.ok_bind, e2]
  | diff o a b iha ihb =>
    rintro ⟨ha, hb⟩
    obtain ⟨S, hS, s, -⟩ := iha ha
    obtain ⟨S', hS', s', -⟩ := ihb hb
    obtain ⟨U, hU, su⟩ := sampled_diff o s s'
    refine ⟨U, fun h hp => ?_, su, fun k hk => hk.elim⟩
    obtain ⟨c, e1, e2⟩ := hU h hp
    unfold eval
    rw [hS h hp, Outcome.ok_bind, hS' h hp, Outcome.ok_bind, e1, Outcome.ok_bind, e2]

end Expr

/-- C87 (mean).  Every set expression evaluates without error.  Over random hashes its estimate times
theta / (theta - 1) averages exactly to the size of the set it stands for, and its estimate averages
to at most that. -/
theorem C87_expression_mean [Fintype ι] (sh : Nat) (low : ι → Nat) (e : Expr ι) (hok : e.Ok)
    (hN : Fintype.card ι ≤ maxTheta) :
    ∃ V : (ι → Nat) → View, (∀ h ∈ hashings ι maxTheta, e.eval sh low h = .ok (V h)) ∧
      mean ι maxTheta (fun h => estimate (V h) * ((V h).theta / ((V h).theta - 1))) =
        e.items.card ∧
      mean ι maxTheta (fun h => estimate (V h)) ≤ e.items.card ∧
      32 / 33 * (e.items.card : ℚ) ≤ mean ι maxTheta (fun h => estimate (V h)) := by
  obtain ⟨S, hS, s, -⟩ := e.sampled sh low hok
  exact ⟨S, fun h hm => hS h (hashings_proper hm), s.unbiased hN, s.mean_le hN⟩

/-- C87 (spread).  An expression of unsampled sketches, compact copies and unions, all of nominal
size at least k, standing for n > k items, has the same error bounds as one sketch of size k. -/
theorem C87_union_spread [Fintype ι] (sh : Nat) (low : ι → Nat) (e : Expr ι) (hok : e.Ok)
    (hN : Fintype.card ι ≤ maxTheta) {k n : Nat} (h2 : 2 ≤ k) (hp : e.Plain k)
    (hn : e.items.card = n) (hk : k < n) :
    ∃ V : (ι → Nat) → View, (∀ h ∈ hashings ι maxTheta, e.eval sh low h = .ok (V h)) ∧
      (n : ℚ) - n * (n / ((k - 1) * maxTheta)) ≤ mean ι maxTheta (fun h => estimate (V h)) ∧
      mean ι maxTheta (fun h => (estimate (V h) - n) ^ 2) ≤
        (n : ℚ) ^ 2 / (k - 1) * (1 + 2 * n / maxTheta) ∧
      ∀ ε : ℚ, 0 < ε → prob ι maxTheta (fun h => ε * n ≤ |estimate (V h) - n|) ≤
        1 / ((k - 1) * ε ^ 2) * (1 + 2 * n / maxTheta) := by
  obtain ⟨S, hS, s, m⟩ := e.sampled sh low hok
  have hb := bias s h2 (m k hp) (by rw [hn]; exact hk) hN
  have hq := squared_error s h2 (m k hp) (by rw [hn]; exact hk) hN
  rw [hn] at hb hq
  refine ⟨S, fun h hm => hS h (hashings_proper hm), ?_, hq, ?_⟩
  · have : (n : ℚ) * (n / ((k - 1) * maxTheta)) = n ^ 2 / ((k - 1) * maxTheta) := by ring
    rw [this]; linarith
  · intro ε hε
    have hn0 : (0 : ℚ) < n := by
      have : 0 < n := by omega
      exact_mod_cast this
    refine (prob_far _ hn0 hε hq).trans (le_of_eq ?_)
    have h2q : (2 : ℚ) ≤ k := by exact_mod_cast h2
    have hk1 : ((k : ℚ) - 1) ≠ 0 := by linarith
    have := maxTheta_pos.ne'
    field_simp

/-- C87 (exact).  Such an expression standing for at most k items has its size as estimate, whatever
the hashes below 2^63 - 1. -/
theorem C87_union_exact (sh : Nat) (low : ι → Nat) (e : Expr ι) (hok : e.Ok) {k : Nat}
    (hp : e.Plain k) (hk : e.items.card ≤ k) (h : ι → Nat) (hpr : Proper h)
    (hmax : ∀ i, h i < maxTheta) :
    ∃ v, e.eval sh low h = .ok v ∧ estimate v = e.items.card := by
  obtain ⟨S, hS, s, m⟩ := e.sampled sh low hok
  refine ⟨S h, hS h hpr, ?_⟩
  have hth := few_items s (m k hp) hk hpr
  have hc := s.all_card hpr
  rw [hth, Finset.filter_true_of_mem (fun i _ => hmax i), ← (s.input h hpr).valid.num] at hc
  unfold estimate
  rw [hth, hc, div_self maxTheta_pos.ne', div_one]

/-! ## non-vacuity -/

/-- 40 items in a sketch of size 32, united with 40 others, minus the first 20 -/
example : ∃ e : Expr (Fin 80), e.Ok ∧ e.items.card = 60 := by
  refine ⟨.diff true (.union 5 3 false 2 ![
    .sketch 5 3 maxTheta (((List.finRange 80).filter (·.val < 40)).map .update),
    .sketch 6 0 1000000 (((List.finRange 80).filter (40 ≤ ·.val)).map .update ++ [.trim])])
    (.compact false (.sketch 5 3 maxTheta (((List.finRange 80).filter (·.val < 20)).map .update))),
    ⟨⟨⟨_, rfl⟩, ?_⟩, ⟨_, rfl⟩, by decide, by decide⟩, by decide +kernel⟩
  intro j
  refine Fin.cases ?_ (fun j => Fin.cases ?_ (fun j => j.elim0) j) j
  · exact ⟨⟨_, rfl⟩, by decide, by decide⟩
  · exact ⟨⟨_, rfl⟩, by decide, by decide⟩

example : ∃ e : Expr (Fin 40), e.Ok ∧ e.Plain 32 ∧ 32 < e.items.card :=
  ⟨.sketch 5 3 maxTheta ((List.finRange 40).map .update), ⟨⟨_, rfl⟩, by decide, by decide⟩,
    ⟨by decide, rfl⟩, by decide +kernel⟩

end Verif.Theta
