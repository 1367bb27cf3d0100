import Verif.TupleEstimate
import Verif.TupleANotBProps
import Verif.ThetaEstimateProps
import Mathlib.Algebra.BigOperators.Fin

/-!
# C112: sums and filtered counts estimated from tuple sketches

Randomness as in `Verif.ThetaEstimateProps`: distinct hashes from 1 to 2^63 - 1, all assignments
equally likely.
-/

namespace Verif.Tuple

open Verif.Theta (maxTheta maxTheta_pos mean_congr mean words hashings Proper Sampled Many wsum)

/-- `Estimate` tuple/update_sketch.go l.158-166, tuple/compact_sketch.go l.160-163: retained entries
over `Theta()`, which is `Theta64` over 2^63 - 1.  Simplification: exact rationals instead of
float64. -/
def estimate {S : Type} (v : View S) : ℚ := v.numRetained / ((v.theta : ℚ) / maxTheta)

/-- What a caller computes from `All()` and `Theta()`: the sum of a number per summary over the
retained entries, divided by the sampling rate. -/
def sumEstimate {S : Type} (v : View S) (g : S → ℚ) : ℚ :=
  (v.all.map fun e => g e.2).sum / ((v.theta : ℚ) / maxTheta)

/-- Spec: the values presented together with item `i`, in order. -/
def valuesOf {ι V : Type} [DecidableEq ι] (i : ι) (xs : List (ι × V)) : List V :=
  (xs.filter fun x => x.1 = i).map Prod.snd

/-- Spec: the items presented since the last reset. -/
def items {ι V : Type} [DecidableEq ι] (ops : List (Op ι V)) : Finset ι :=
  ((presented [] ops).map Prod.fst).toFinset

/-- Spec: the summary item `i` must have. -/
def summaryOf {ι V σ : Type} [DecidableEq ι] (new : σ) (upd : σ → V → σ) (ops : List (Op ι V)) (i : ι) :
    σ := (valuesOf i (presented [] ops)).foldl upd new

variable {ι : Type} [DecidableEq ι]

theorem valuesFor_words {V : Type} {low h : ι → Nat} (hp : Proper h) (i : ι) (xs : List (ι × V)) :
    valuesFor (words low h) (h i) xs = valuesOf i xs := by
  unfold valuesFor valuesOf
  congr 1
  apply List.filter_congr
  intro x _
  have : words low h x.1 / 2 = h x.1 := congrFun (Theta.hash63_words low h) x.1
  rw [this]
  simp only [decide_eq_decide]
  exact ⟨fun e => hp.1 e, fun e => by rw [e]⟩

section
variable {H S V σ : Type} {K : Kind H S V} {read : H → S → σ} {new : σ} {upd : σ → V → σ}
  {app : σ → σ → σ} {own : H → List S → Prop}

omit [DecidableEq ι] in
theorem sum_entries {s : List (Entry S)} {G : Nat → ℚ} {f : Entry S → ℚ} {h : ι → Nat} {P : Finset ι}
    {θ : Nat} (hinj : Function.Injective h) (hnd : (s.map Prod.fst).Nodup)
    (hmem : ∀ v, v ∈ s.map Prod.fst ↔ v < θ ∧ ∃ i ∈ P, h i = v) (hf : ∀ e ∈ s, f e = G e.1) :
    (s.map f).sum = ∑ i ∈ P.filter (fun i => h i < θ), G (h i) := by
  have h1 : s.map f = (s.map Prod.fst).map G := by
    rw [List.map_map]
    exact List.map_congr_left hf
  have h2 : (s.map Prod.fst).toFinset = (P.filter fun i => h i < θ).image h := by
    ext v
    rw [List.mem_toFinset, hmem, Finset.mem_image]
    simp only [Finset.mem_filter]
    constructor
    · rintro ⟨a, i, b, rfl⟩; exact ⟨i, ⟨b, a⟩, rfl⟩
    · rintro ⟨i, ⟨b, a⟩, rfl⟩; exact ⟨a, i, b, rfl⟩
  rw [h1, ← List.sum_toFinset G hnd, h2, Finset.sum_image (fun a _ b _ e => hinj e)]

theorem sampled_tuple (L : Laws K read new upd app own) {low : ι → Nat} {lgK rf start : Nat}
    {t0 : Tbl S} (sh : Nat) (hnew : newTable K lgK rf start = .ok t0) (h32 : 32 < start)
    (hstart : start ≤ maxTheta) (h0 : H) (ho : own h0 []) (ops : List (Op ι V)) :
    ∃ R : (ι → Nat) → Tbl S × H, (∀ h, run K (words low h) t0 h0 ops = .ok (R h)) ∧
      Sampled sh (fun h => (viewOf (R h).1 sh).keys) (items ops) ∧
      (start = maxTheta → Many (2 ^ lgK) (fun h => (viewOf (R h).1 sh).keys) (items ops)) ∧
      ∀ (g : σ → ℚ) h, Proper h →
        ((viewOf (R h).1 sh).all.map fun e => g (read (R h).2 e.2)).sum =
          wsum (fun h => (viewOf (R h).1 sh).theta) (fun i => g (summaryOf new upd ops i))
            (items ops) h := by
  obtain ⟨-, -, hk0⟩ := newTable_empty hnew
  have hrun : ∀ h : ι → Nat, ∃ r : Tbl S × H, run K (words low h) t0 h0 ops = .ok r ∧
      TSInv K read new upd own (words low h) lgK start [] h0 r.1 r.2 (presented [] ops) := by
    intro h
    obtain ⟨t, m, e, i⟩ := run_tsinv L ops t0 h0 [] (new_tsinv (words low h) hnew ho)
    exact ⟨(t, m), e, i⟩
  choose R hR hI using hrun
  obtain ⟨Sv, hS, s, m⟩ := Theta.sampled_sketch (low := low) (sh := sh) hk0 h32 hstart
    (ops.map Op.keys)
  have hSv : Sv = fun h => (viewOf (R h).1 sh).keys := by
    funext h
    obtain ⟨t, e1, e2⟩ := hS h
    have := C53_same_hashes_as_theta K (words low h) ops t0 h0
    rw [hR h, e1, Outcome.map_ok, Outcome.ok.injEq] at this
    rw [e2, viewOf_keys K, this]
  have hP : (Theta.presented [] (ops.map Op.keys)).toFinset = items ops := by
    have := presented_keys ops []
    simp only [List.map_nil] at this
    rw [items, this]
  rw [hSv, hP] at s m
  refine ⟨R, hR, s, m, ?_⟩
  intro g h hp
  have hs := sum_entries (s := (viewOf (R h).1 sh).all)
    (G := fun k => g ((valuesFor (words low h) k (presented [] ops)).foldl upd new))
    (f := fun e => g (read (R h).2 e.2)) hp.1 (s.input h hp).valid.nodup (s.ret h hp)
    (fun e he => by rw [(hI h).sums e he])
  rw [hs]
  unfold wsum
  refine Finset.sum_congr rfl fun i _ => ?_
  simp only [valuesFor_words hp]
  rfl

variable [Fintype ι]

/-- mean of the corrected estimate of a sum, and bounds on the mean of the plain one -/
theorem sum_mean {sh : Nat} {U : (ι → Nat) → View S} {P : Finset ι} {g : ι → ℚ} {X : (ι → Nat) → ℚ}
    (s : Sampled sh (fun h => (U h).keys) P) (hN : Fintype.card ι ≤ maxTheta)
    (hX : ∀ h, Proper h → X h = wsum (fun h => (U h).theta) g P h / (((U h).theta : ℚ) / maxTheta)) :
    mean ι maxTheta (fun h => X h * ((U h).theta / ((U h).theta - 1))) = ∑ i ∈ P, g i ∧
    ((∀ i ∈ P, 0 ≤ g i) → mean ι maxTheta X ≤ ∑ i ∈ P, g i ∧
      32 / 33 * ∑ i ∈ P, g i ≤ mean ι maxTheta X) := by
  have h0 := maxTheta_pos
  have e1 : mean ι maxTheta (fun h => X h * ((U h).theta / ((U h).theta - 1))) = ∑ i ∈ P, g i := by
    rw [← s.sum_unbiased g hN]
    apply mean_congr
    intro h hm
    have hp := Theta.hashings_proper hm
    obtain ⟨e, hl⟩ := s.sub_one hp
    rw [hX h hp, e]
    have hl' : (32 : ℚ) < (U h).theta := hl
    show _ = _ * _ / (((U h).theta : ℚ) - 1)
    have : ((U h).theta : ℚ) - 1 ≠ 0 := by linarith
    have : ((U h).theta : ℚ) ≠ 0 := by linarith
    field_simp
    rfl
  refine ⟨e1, fun hg => ?_⟩
  have hnn : ∀ h, Proper h → 0 ≤ X h := by
    intro h hp
    rw [hX h hp]
    have : 0 ≤ wsum (fun h => (U h).theta) g P h :=
      Finset.sum_nonneg fun i hi => hg i (Finset.mem_filter.mp hi).1
    positivity
  rw [← e1]
  constructor
  · apply Theta.mean_mono
    intro h hm
    have hp := Theta.hashings_proper hm
    obtain ⟨-, hl⟩ := s.sub_one hp
    have hl' : (32 : ℚ) < (U h).theta := hl
    have : (1 : ℚ) ≤ (U h).theta / ((U h).theta - 1) := by
      rw [le_div_iff₀ (by linarith)]; linarith
    nlinarith [hnn h hp]
  · rw [← Theta.mean_smul]
    apply Theta.mean_mono
    intro h hm
    have hp := Theta.hashings_proper hm
    obtain ⟨-, hl⟩ := s.sub_one hp
    have hl' : (32 : ℚ) < (U h).theta := hl
    have hge : (33 : ℚ) ≤ (U h).theta := by
      have : 32 < (U h).theta := by exact_mod_cast hl'
      exact_mod_cast this
    have : ((U h).theta : ℚ) / ((U h).theta - 1) ≤ 33 / 32 := by
      rw [div_le_iff₀ (by linarith)]; linarith
    nlinarith [hnn h hp]

theorem sum_spread {sh : Nat} {U : (ι → Nat) → View S} {P : Finset ι} {g : ι → ℚ} {X : (ι → Nat) → ℚ}
    (s : Sampled sh (fun h => (U h).keys) P) (hN : Fintype.card ι ≤ maxTheta)
    (hX : ∀ h, Proper h → X h = wsum (fun h => (U h).theta) g P h / (((U h).theta : ℚ) / maxTheta))
    {k : Nat} (h2 : 2 ≤ k) (m : Many k (fun h => (U h).keys) P) (hk : k < P.card) :
    mean ι maxTheta (fun h => (X h * ((U h).theta / ((U h).theta - 1)) - ∑ i ∈ P, g i) ^ 2) ≤
      (maxTheta * ((∑ i ∈ P, g i ^ 2) * ((P.card - k) / (k - 1))) + (∑ i ∈ P, g i) ^ 2) /
        (maxTheta - 1) := by
  refine le_trans (le_of_eq ?_) (s.sum_spread g hN h2 m hk)
  apply mean_congr
  intro h hm
  have hp := Theta.hashings_proper hm
  obtain ⟨e, hl⟩ := s.sub_one hp
  have h0 := maxTheta_pos
  rw [hX h hp, e]
  have hl' : (32 : ℚ) < (U h).theta := hl
  congr 2
  show _ = _ * _ / (((U h).theta : ℚ) - 1)
  have : ((U h).theta : ℚ) - 1 ≠ 0 := by linarith
  have : ((U h).theta : ℚ) ≠ 0 := by linarith
  field_simp
  rfl

theorem lgK_ge {lgK rf start : Nat} {t0 : Tbl S} (hnew : newTable K lgK rf start = .ok t0) :
    2 ≤ 2 ^ lgK := by
  have : 5 ≤ lgK := by
    unfold newTable at hnew
    split at hnew
    · cases hnew
    split at hnew
    · cases hnew
    omega
  have : 2 ^ 5 ≤ 2 ^ lgK := Nat.pow_le_pow_right (by omega) this
  omega

end

variable [Fintype ι]

/-! ## the properties -/

/-- C112 (sums).  For every configuration, sampling probability, kind of summary held by value, rule
of updating it and history of updates, trims and resets, and for every number read off a summary:
over random hashes, the sum of that number over the retained entries divided by theta, times
theta / (theta - 1), averages exactly to the sum over all items presented since the last reset; for
a number that is never negative the plain estimate averages to at most that sum and to at least
32/33 of it. -/
theorem C112_sum_mean {σ V : Type} (new : σ) (upd : σ → V → σ) (app : σ → σ → σ) {low : ι → Nat}
    {lgK rf start : Nat} {t0 : Tbl σ} (sh : Nat)
    (hnew : newTable (values new upd app) lgK rf start = .ok t0) (h32 : 32 < start)
    (hstart : start ≤ maxTheta) (hN : Fintype.card ι ≤ maxTheta) (ops : List (Op ι V)) :
    ∃ R : (ι → Nat) → Tbl σ, (∀ h, run (values new upd app) (words low h) t0 () ops = .ok (R h, ())) ∧
      ∀ g : σ → ℚ,
        mean ι maxTheta (fun h => sumEstimate (viewOf (R h) sh) g *
          ((viewOf (R h) sh).theta / ((viewOf (R h) sh).theta - 1))) =
            ∑ i ∈ items ops, g (summaryOf new upd ops i) ∧
        ((∀ s, 0 ≤ g s) →
          mean ι maxTheta (fun h => sumEstimate (viewOf (R h) sh) g) ≤
            ∑ i ∈ items ops, g (summaryOf new upd ops i) ∧
          32 / 33 * ∑ i ∈ items ops, g (summaryOf new upd ops i) ≤
            mean ι maxTheta (fun h => sumEstimate (viewOf (R h) sh) g)) := by
  obtain ⟨R, hR, s, -, hsum⟩ := sampled_tuple (low := low) (values_laws new upd app) sh hnew h32 hstart
    () trivial ops
  refine ⟨fun h => (R h).1, hR, fun g => ?_⟩
  obtain ⟨a, b⟩ := sum_mean (U := fun h => viewOf (R h).1 sh)
    (X := fun h => sumEstimate (viewOf (R h).1 sh) g)
    (g := fun i => g (summaryOf new upd ops i)) s hN
    (fun h hp => by rw [sumEstimate, ← hsum g h hp])
  exact ⟨a, fun hg => b fun i _ => hg _⟩

/-- C112 (sums, summaries behind pointers).  The same for summaries that are objects in memory: the
numbers are read off the objects the entries point to. -/
theorem C112_sum_mean_pointers {σ V : Type} (new zero : σ) (upd : σ → V → σ) (app : σ → σ → σ)
    {low : ι → Nat} {lgK rf start : Nat} {t0 : Tbl Nat} (sh : Nat)
    (hnew : newTable (pointers new zero upd app) lgK rf start = .ok t0) (h32 : 32 < start)
    (hstart : start ≤ maxTheta) (hN : Fintype.card ι ≤ maxTheta) (h0 : List σ) (ops : List (Op ι V)) :
    ∃ R : (ι → Nat) → Tbl Nat × List σ,
      (∀ h, run (pointers new zero upd app) (words low h) t0 h0 ops = .ok (R h)) ∧
      ∀ g : σ → ℚ,
        mean ι maxTheta (fun h => sumEstimate (viewOf (R h).1 sh) (fun x => g (content zero (R h).2 x)) *
          ((viewOf (R h).1 sh).theta / ((viewOf (R h).1 sh).theta - 1))) =
            ∑ i ∈ items ops, g (summaryOf new upd ops i) := by
  obtain ⟨R, hR, s, -, hsum⟩ := sampled_tuple (low := low) (pointers_laws new zero upd app) sh hnew h32
    hstart h0 ⟨List.nodup_nil, by simp⟩ ops
  refine ⟨R, hR, fun g => ?_⟩
  exact (sum_mean (U := fun h => viewOf (R h).1 sh)
    (X := fun h => sumEstimate (viewOf (R h).1 sh) (fun x => g (content zero (R h).2 x)))
    (g := fun i => g (summaryOf new upd ops i)) s hN
    (fun h hp => by rw [sumEstimate, ← hsum g h hp])).1

/-- C112 (spread of sums).  Without sampling and with n > k = 2^lgK items, over random hashes the
mean squared error of the corrected estimate of a sum is at most (n - k) / (k - 1) times the sum of
the squares, up to a factor 1 + 1 / (2^63 - 2) and an additional S² / (2^63 - 2), where S is the sum
estimated. -/
theorem C112_sum_spread {σ V : Type} (new : σ) (upd : σ → V → σ) (app : σ → σ → σ) {low : ι → Nat}
    {lgK rf : Nat} {t0 : Tbl σ} (sh : Nat)
    (hnew : newTable (values new upd app) lgK rf maxTheta = .ok t0)
    (hN : Fintype.card ι ≤ maxTheta) (ops : List (Op ι V)) (hk : 2 ^ lgK < (items ops).card) :
    ∃ R : (ι → Nat) → Tbl σ, (∀ h, run (values new upd app) (words low h) t0 () ops = .ok (R h, ())) ∧
      ∀ g : σ → ℚ,
        mean ι maxTheta (fun h => (sumEstimate (viewOf (R h) sh) g *
          ((viewOf (R h) sh).theta / ((viewOf (R h) sh).theta - 1)) -
            ∑ i ∈ items ops, g (summaryOf new upd ops i)) ^ 2) ≤
        (maxTheta * ((∑ i ∈ items ops, g (summaryOf new upd ops i) ^ 2) *
          (((items ops).card - 2 ^ lgK) / (2 ^ lgK - 1))) +
            (∑ i ∈ items ops, g (summaryOf new upd ops i)) ^ 2) / (maxTheta - 1) := by
  obtain ⟨R, hR, s, m, hsum⟩ := sampled_tuple (low := low) (values_laws new upd app) sh hnew (by decide)
    (le_refl _) () trivial ops
  refine ⟨fun h => (R h).1, hR, fun g => ?_⟩
  have := sum_spread (U := fun h => viewOf (R h).1 sh)
    (X := fun h => sumEstimate (viewOf (R h).1 sh) g)
    (g := fun i => g (summaryOf new upd ops i)) s hN
    (fun h hp => by rw [sumEstimate, ← hsum g h hp]) (lgK_ge hnew) (m rfl) hk
  push_cast at this
  exact this

/-- the estimate of a filtered sketch is the estimate of the sum of an indicator -/
theorem filter_estimate {H S V : Type} (K : Kind H S V) (v : View S) (h : H)
    (p : H → S → Bool) :
    estimate (filter K v h p).1.view = sumEstimate v (fun s => if p h s then 1 else 0) ∧
      (filter K v h p).1.view.theta = v.theta := by
  refine ⟨?_, rfl⟩
  have hl : (filter K v h p).1.view.numRetained = (v.all.filter fun e => p h e.2).length :=
    cloneAll_length K _ h
  have hs : ∀ l : List (Entry S), ((l.filter fun e => p h e.2).length : ℚ) =
      (l.map fun e => if p h e.2 then (1 : ℚ) else 0).sum := by
    intro l
    induction l with
    | nil => rfl
    | cons a l ih =>
      by_cases hp : p h a.2 = true
      · simp [hp, ih, add_comm]
      · simp [hp, ih]
  unfold estimate sumEstimate
  rw [hl, hs]
  rfl

/-- C112 (filters).  For every configuration, history and condition on the summary: over random
hashes the estimate of the filtered sketch, times theta / (theta - 1), averages exactly to the number
of items presented since the last reset whose summary satisfies the condition; the estimate itself
averages to at most that number and to at least 32/33 of it. -/
theorem C112_filter_mean {σ V : Type} (new : σ) (upd : σ → V → σ) (app : σ → σ → σ) {low : ι → Nat}
    {lgK rf start : Nat} {t0 : Tbl σ} (sh : Nat)
    (hnew : newTable (values new upd app) lgK rf start = .ok t0) (h32 : 32 < start)
    (hstart : start ≤ maxTheta) (hN : Fintype.card ι ≤ maxTheta) (ops : List (Op ι V)) (p : σ → Bool) :
    ∃ R : (ι → Nat) → Compact σ,
      (∀ h, ∃ t, run (values new upd app) (words low h) t0 () ops = .ok (t, ()) ∧
        R h = (filter (values new upd app) (viewOf t sh) () (fun _ s => p s)).1) ∧
      mean ι maxTheta (fun h => estimate (R h).view * ((R h).view.theta / ((R h).view.theta - 1))) =
        ((items ops).filter fun i => p (summaryOf new upd ops i)).card ∧
      mean ι maxTheta (fun h => estimate (R h).view) ≤
        ((items ops).filter fun i => p (summaryOf new upd ops i)).card ∧
      32 / 33 * (((items ops).filter fun i => p (summaryOf new upd ops i)).card : ℚ) ≤
        mean ι maxTheta (fun h => estimate (R h).view) := by
  obtain ⟨R, hR, s, -, hsum⟩ := sampled_tuple (low := low) (values_laws new upd app) sh hnew h32 hstart
    () trivial ops
  refine ⟨fun h => (filter (values new upd app) (viewOf (R h).1 sh) () (fun _ s => p s)).1,
    fun h => ⟨(R h).1, hR h, rfl⟩, ?_⟩
  have hc : ((((items ops).filter fun i => p (summaryOf new upd ops i)).card : Nat) : ℚ) =
      ∑ i ∈ items ops, if p (summaryOf new upd ops i) then (1 : ℚ) else 0 := by
    rw [Finset.sum_boole]
  obtain ⟨a, b⟩ := sum_mean (U := fun h => viewOf (R h).1 sh)
    (X := fun h => estimate (filter (values new upd app) (viewOf (R h).1 sh) () (fun _ s => p s)).1.view)
    (g := fun i => if p (summaryOf new upd ops i) then (1 : ℚ) else 0) s hN
    (fun h hp => by
      rw [(filter_estimate (values new upd app) _ () _).1, sumEstimate,
        ← hsum (fun s => if p s then (1 : ℚ) else 0) h hp])
  obtain ⟨b1, b2⟩ := b (fun i _ => by split <;> norm_num)
  rw [hc]
  exact ⟨a, b1, b2⟩

/-- Three items with values 1, 2 and 3 in a sketch of 32 entries: the hypotheses of C112 hold, the sum
estimated is 6 and two items pass the filter. -/
example : (∃ t0 : Tbl Int, newTable (values (0 : Int) (· + ·) (· + ·) : Kind Unit Int Int) 5 0 maxTheta =
    .ok t0) ∧ 32 < maxTheta ∧ Fintype.card (Fin 3) ≤ maxTheta ∧
    ∑ i ∈ items [Op.update (0 : Fin 3) (1 : Int), .update 1 2, .update 2 2, .update 2 1],
      ((summaryOf 0 (· + ·) [Op.update (0 : Fin 3) (1 : Int), .update 1 2, .update 2 2, .update 2 1] i :
        Int) : ℚ) = 6 ∧
    ((items [Op.update (0 : Fin 3) (1 : Int), .update 1 2, .update 2 2, .update 2 1]).filter fun i =>
      decide (2 ≤ summaryOf (0 : Int) (· + ·)
        [Op.update (0 : Fin 3) (1 : Int), .update 1 2, .update 2 2, .update 2 1] i) = true).card = 2 := by
  refine ⟨⟨_, rfl⟩, by decide, by decide, ?_, by decide⟩
  rw [show items [Op.update (0 : Fin 3) (1 : Int), .update 1 2, .update 2 2, .update 2 1] =
    Finset.univ by decide, Fin.sum_univ_three]
  rw [show summaryOf (0 : Int) (· + ·) [Op.update (0 : Fin 3) (1 : Int), .update 1 2, .update 2 2,
      .update 2 1] 0 = 1 by decide,
    show summaryOf (0 : Int) (· + ·) [Op.update (0 : Fin 3) (1 : Int), .update 1 2, .update 2 2,
      .update 2 1] 1 = 2 by decide,
    show summaryOf (0 : Int) (· + ·) [Op.update (0 : Fin 3) (1 : Int), .update 1 2, .update 2 2,
      .update 2 1] 2 = 3 by decide]
  norm_num

/-- Forty items in a sketch of 32 entries meet the hypothesis of the spread theorem. -/
example : 2 ^ 5 < (items ((List.finRange 40).map fun i => (Op.update i i.val : Op (Fin 40) Nat))).card := by
  decide +kernel

end Verif.Tuple
