import Verif.ViewCore
import Verif.Loops
import Mathlib.Tactic.LinearCombination

/-!
# Queries of sorted views in terms of the weights of the items
-/

namespace Verif.View

open Verif Verif.Inequality

/-! ## Successive differences -/

def diffs (prev : ℚ) : List ℚ → List ℚ
  | [] => []
  | x :: xs => (x - prev) :: diffs x xs

@[simp] theorem diffs_length (p : ℚ) (b : List ℚ) : (diffs p b).length = b.length := by
  induction b generalizing p with
  | nil => rfl
  | cons x xs ih => simp [diffs, ih]

theorem diffs_succ (p : ℚ) (b : List ℚ) {i : Nat} (hi : i + 1 < b.length) :
    (diffs p b)[i + 1]? = some (b[i + 1] - b[i]) := by
  induction b generalizing p i with
  | nil => simp at hi
  | cons x xs ih =>
    cases i with
    | zero =>
      cases xs with
      | nil => simp at hi
      | cons y ys => simp [diffs]
    | succ i =>
      simp only [diffs, List.getElem?_cons_succ, List.getElem_cons_succ]
      exact ih x (by simpa using hi)

theorem differences_ok (b : List ℚ) : differences b = .ok (diffs 0 b) := by
  unfold differences
  have hH := range_fold (n := b.length - 1)
    (f := fun b r => do
      let i := b.length - 1 - r
      let x ← get b i
      let y ← get b (i - 1)
      if i < b.length then .ok (b.set i (x - y)) else .panic)
    (fun r st => st = b.take (b.length - r) ++ (diffs 0 b).drop (b.length - r)) (s0 := b) ?_ ?_
  · obtain ⟨st, h1, h2⟩ := hH
    rw [h1, h2]
    congr 1
    cases b with
    | nil => rfl
    | cons x xs =>
      have : (x :: xs).length - ((x :: xs).length - 1) = 1 := by simp
      rw [this]
      simp [diffs]
  · simp
  · rintro r st hr rfl
    obtain ⟨i, hi⟩ : ∃ i, b.length - r = i + 2 := ⟨b.length - r - 2, by omega⟩
    have hlen : (b.take (b.length - r) ++ (diffs 0 b).drop (b.length - r)).length = b.length := by
      simp only [List.length_append, List.length_take, List.length_drop, diffs_length]; omega
    have hi2 : i + 1 < b.length := by omega
    have g1 : (b.take (i + 2) ++ (diffs 0 b).drop (i + 2))[i + 1]? = some b[i + 1] := by
      rw [List.getElem?_append_left (by rw [List.length_take]; omega),
        List.getElem?_take_of_lt (by omega), List.getElem?_eq_getElem hi2]
    have g2 : (b.take (i + 2) ++ (diffs 0 b).drop (i + 2))[i]? = some b[i] := by
      rw [List.getElem?_append_left (by rw [List.length_take]; omega),
        List.getElem?_take_of_lt (by omega), List.getElem?_eq_getElem (by omega)]
    have e1 : b.length - 1 - r = i + 1 := by omega
    have e2 : b.length - (r + 1) = i + 1 := by omega
    refine ⟨_, ?_, rfl⟩
    simp only [hlen]
    rw [e1, e2, hi]
    simp only [get, g1, Nat.add_sub_cancel, g2, Outcome.ofOption_some, Outcome.ok_bind]
    rw [if_pos hi2]
    congr 1
    have hd : (diffs 0 b).drop (i + 1) = (b[i + 1] - b[i]) :: (diffs 0 b).drop (i + 2) := by
      have h3 := diffs_succ 0 b hi2
      obtain ⟨h4, h5⟩ := List.getElem?_eq_some_iff.1 h3
      rw [← h5]
      exact (List.cons_getElem_drop_succ).symm
    rw [hd]
    have ht : b.take (i + 2) = b.take (i + 1) ++ [b[i + 1]] := by
      rw [List.take_add_one, List.getElem?_eq_getElem hi2]; rfl
    rw [ht, List.append_assoc, List.set_append_right _ _ (by rw [List.length_take]; omega)]
    congr 1
    rw [List.length_take]
    have : i + 1 - min (i + 1) b.length = 0 := by omega
    rw [this]
    rfl

theorem diffs_sum (p : ℚ) (b : List ℚ) (x : ℚ) : (diffs p (b ++ [x])).sum = x - p := by
  induction b generalizing p with
  | nil => simp [diffs]
  | cons y ys ih =>
    simp only [List.cons_append, diffs, List.sum_cons, ih]
    ring

/-! ## Intervals of split points -/

variable {α : Type} [LinearOrder α]

/-- Above the lower split point, if there is one. -/
def notBelow (incl : Bool) : Option α → α → Bool
  | none, _ => true
  | some l, y => !below incl l y

/-- Specification: the intervals into which split points cut the items. -/
def intervals (incl : Bool) : Option α → List α → List (α → Bool)
  | lo, [] => [fun y => notBelow incl lo y]
  | lo, s :: ss => (fun y => below incl s y && notBelow incl lo y) :: intervals incl (some s) ss

theorem intervals_length (incl : Bool) (lo : Option α) (sp : List α) :
    (intervals incl lo sp).length = sp.length + 1 := by
  induction sp generalizing lo with
  | nil => rfl
  | cons s ss ih => simp [intervals, ih]

/-- Every item lies in exactly one interval. -/
theorem intervals_count (incl : Bool) (lo : Option α) {sp : List α}
    (h : sp.Pairwise (· < ·)) (hlo : ∀ l, lo = some l → ∀ s ∈ sp, l < s) (y : α) :
    ((intervals incl lo sp).countP fun p => p y) = if notBelow incl lo y then 1 else 0 := by
  induction sp generalizing lo with
  | nil => simp [intervals, List.countP_cons]
  | cons s ss ih =>
    rw [List.pairwise_cons] at h
    simp only [intervals, List.countP_cons]
    rw [ih (some s) h.2 (fun l hl => by cases hl; exact h.1)]
    by_cases hb : below incl s y = true
    · have e : notBelow incl (some s) y = false := by simp [notBelow, hb]
      simp [e, hb]
    · have hb' : below incl s y = false := by simpa using hb
      have : notBelow incl lo y = true := by
        cases lo with
        | none => rfl
        | some l =>
          have hls := hlo l rfl s (by simp)
          simp only [notBelow, Bool.not_eq_true']
          by_contra hc
          have hc' : below incl l y = true := by simpa using hc
          apply hb
          cases incl
          · simp only [below, Bool.false_eq_true, if_false, decide_eq_true_eq] at hc' ⊢
            exact lt_trans hc' hls
          · simp only [below, if_true, decide_eq_true_eq] at hc' ⊢
            exact le_trans hc' (le_of_lt hls)
      have e : notBelow incl (some s) y = true := by simp [notBelow, hb']
      simp [e, hb', this]

theorem below_of_lt {incl : Bool} {a b y : α} (hab : a < b) (h : below incl a y = true) :
    below incl b y = true := by
  cases incl
  · simp only [below, Bool.false_eq_true, if_false, decide_eq_true_eq] at h ⊢
    exact lt_trans h hab
  · simp only [below, if_true, decide_eq_true_eq] at h ⊢
    exact le_trans h (le_of_lt hab)

theorem wsum_and_not {p q : α → Bool} {Z : List (α × Int)}
    (h : ∀ y, p y = true → q y = true) :
    wsum (fun y => q y && !p y) Z = wsum q Z - wsum p Z := by
  induction Z with
  | nil => simp
  | cons z Z ih =>
    rw [wsum_cons, wsum_cons, wsum_cons, ih]
    have := h z.1
    by_cases hp : p z.1 = true
    · rw [if_neg (by simp [hp]), if_pos (this hp), if_pos hp]; ring
    · have hp' : p z.1 = false := by simpa using hp
      by_cases hq : q z.1 = true
      · rw [if_pos (by simp [hq, hp']), if_pos hq, if_neg hp]; ring
      · rw [if_neg (by simp [hq]), if_neg hq, if_neg hp]; ring

/-- Cumulative weight of the lower end. -/
def loW (incl : Bool) (Z : List (α × Int)) : Option α → Int
  | none => 0
  | some l => wsum (below incl l) Z

theorem wsum_interval {incl : Bool} {Z : List (α × Int)} {lo : Option α} {q : α → Bool}
    (h : ∀ l, lo = some l → ∀ y, below incl l y = true → q y = true) :
    wsum (fun y => q y && notBelow incl lo y) Z = wsum q Z - loW incl Z lo := by
  cases lo with
  | none => simp [notBelow, loW]
  | some l => exact wsum_and_not (h l rfl)

/-- The successive differences of the cumulative probabilities are the masses of the intervals. -/
theorem diffs_intervals (incl : Bool) {Z : List (α × Int)} {n : Nat}
    (hn : wsum (fun _ => true) Z = n) (hn0 : n ≠ 0) (lo : Option α) {sp : List α}
    (h : sp.Pairwise (· < ·)) (hlo : ∀ l, lo = some l → ∀ s ∈ sp, l < s) :
    diffs ((loW incl Z lo : ℚ) / n) (sp.map (fun s => (wsum (below incl s) Z : ℚ) / n) ++ [1]) =
      (intervals incl lo sp).map fun p => (wsum p Z : ℚ) / n := by
  have hq : (n : ℚ) ≠ 0 := by exact_mod_cast hn0
  induction sp generalizing lo with
  | nil =>
    simp only [List.map_nil, List.nil_append, diffs, intervals, List.map_cons]
    congr 1
    have := wsum_interval (incl := incl) (Z := Z) (lo := lo) (q := fun _ => true)
      (fun _ _ _ _ => rfl)
    simp only [Bool.true_and] at this
    rw [this, hn]
    push_cast
    field_simp
  | cons s ss ih =>
    rw [List.pairwise_cons] at h
    simp only [List.map_cons, List.cons_append, diffs, intervals]
    rw [show (wsum (below incl s) Z : ℚ) = loW incl Z (some s) from rfl,
      ih (some s) h.2 (fun l hl => by cases hl; exact h.1)]
    congr 1
    rw [wsum_interval (fun l hl y hy => below_of_lt (hlo l hl s (by simp)) hy)]
    simp only [loW]
    push_cast
    ring

/-! ## Searches as used by both views -/

/-- Rank. -/
theorem rank_expr {Z : List (α × Int)} (h : Wf Z) (hne : Z ≠ []) (n : Nat) (q : α) (incl : Bool) :
    (do
      let index ← findWithInequality (Z.map Prod.fst) 0 ((Z.map Prod.fst).length - 1) q
        (if incl then .LE else .LT)
      if index = -1 then .ok 0
      else do
        let c ← getI (cums 0 (Z.map Prod.snd)) index
        .ok ((c : ℚ) / (n : ℚ))) = Outcome.ok ((wsum (below incl q) Z : ℚ) / n) := by
  obtain ⟨r, hr, hcase⟩ := rank_search h hne q incl
  rw [hr, Outcome.ok_bind]
  rcases hcase with ⟨rfl, h0⟩ | ⟨i, rfl, hi, hc⟩
  · rw [if_pos rfl, h0]; simp
  · rw [if_neg (by omega)]
    simp only [getI, if_neg (show ¬ ((i : Int) < 0) by omega), Int.toNat_natCast, get, hc,
      Outcome.ofOption_some, Outcome.ok_bind]

/-- Specification of the quantile for natural rank `N`: the smallest item whose weight at or below
reaches `N` (inclusive) or exceeds `N` (exclusive); the largest item if there is none. -/
def IsQuantile (Z : List (α × Int)) (N : Int) (incl : Bool) (x : α) : Prop :=
  (∃ z ∈ Z, z.1 = x) ∧
  ((reach incl N (wsum (below true x) Z) ∧
    ∀ y ∈ Z, reach incl N (wsum (below true y.1) Z) → x ≤ y.1) ∨
   ((∀ y ∈ Z, ¬ reach incl N (wsum (below true y.1) Z)) ∧ ∀ y ∈ Z, y.1 ≤ x))

theorem isQuantile_unique {Z : List (α × Int)} {N : Int} {incl : Bool} {x y : α}
    (hx : IsQuantile Z N incl x) (hy : IsQuantile Z N incl y) : x = y := by
  obtain ⟨⟨zx, hzx, rfl⟩, hx⟩ := hx
  obtain ⟨⟨zy, hzy, rfl⟩, hy⟩ := hy
  rcases hx with ⟨h1, h2⟩ | ⟨h1, h2⟩ <;> rcases hy with ⟨h3, h4⟩ | ⟨h3, h4⟩
  · exact le_antisymm (h2 _ hzy h3) (h4 _ hzx h1)
  · exact absurd h1 (h3 _ hzx)
  · exact absurd h3 (h1 _ hzy)
  · exact le_antisymm (h4 _ hzx) (h2 _ hzy)

/-- Quantile. -/
theorem quantile_expr {Z : List (α × Int)} (h : Wf Z) (hne : Z ≠ []) (N : Int) (incl : Bool) :
    ∃ x, (do
      let index ← findWithInequality (cums 0 (Z.map Prod.snd)) 0 (Z.length - 1) N
        (if incl then .GE else .GT)
      if index = -1 then getI (Z.map Prod.fst) ((Z.length : Int) - 1)
      else getI (Z.map Prod.fst) index) = Outcome.ok x ∧ IsQuantile Z N incl x := by
  have hpos : 0 < Z.length := List.length_pos_of_ne_nil hne
  obtain ⟨r, hr, hcase⟩ := quantile_search h hne N incl
  rw [hr]
  simp only [Outcome.ok_bind]
  rcases hcase with ⟨rfl, hno⟩ | ⟨i, z, rfl, hz, hre, _, _, hmin⟩
  · have hlast : Z[Z.length - 1]? = some Z[Z.length - 1] := List.getElem?_eq_getElem (by omega)
    refine ⟨Z[Z.length - 1].1, ?_, ⟨_, List.getElem_mem _, rfl⟩, Or.inr ⟨hno, ?_⟩⟩
    · rw [if_pos rfl]
      have e : ((Z.length : Int) - 1).toNat = Z.length - 1 := by omega
      simp only [getI, if_neg (show ¬ ((Z.length : Int) - 1 < 0) by omega), e, get,
        List.getElem?_map, hlast, Option.map_some, Outcome.ofOption_some]
    · intro y hy
      obtain ⟨j, hj⟩ := List.mem_iff_getElem?.1 hy
      have hjl := (List.getElem?_eq_some_iff.1 hj).1
      exact h.le hj hlast (by omega)
  · refine ⟨z.1, ?_, ⟨z, List.mem_of_getElem? hz, rfl⟩, Or.inl ⟨hre, hmin⟩⟩
    rw [if_neg (by omega)]
    simp only [getI, if_neg (show ¬ ((i : Int) < 0) by omega), Int.toNat_natCast, get,
      List.getElem?_map, hz, Option.map_some, Outcome.ofOption_some]

/-- The loop over the split points. -/
theorem map_fold {β γ : Type} (f : β → Outcome γ) (g : β → γ) (l : List β)
    (h : ∀ b ∈ l, f b = .ok (g b)) (acc : List γ) :
    l.foldlM (fun acc p => do
      let r ← f p
      .ok (acc ++ [r])) acc = Outcome.ok (acc ++ l.map g) := by
  induction l generalizing acc with
  | nil => simp
  | cons b l ih =>
    rw [List.foldlM_cons, h b (by simp)]
    simp only [Outcome.ok_bind]
    rw [ih (fun c hc => h c (by simp [hc]))]
    simp

/-- Split points are accepted exactly if they increase strictly. -/
theorem validateSplitPoints_iff (sp : List α) :
    (validateSplitPoints sp = .ok () ↔ sp.Pairwise (· < ·)) ∧
    (¬ sp.Pairwise (· < ·) → validateSplitPoints sp = .err "split points") := by
  rw [← List.isChain_iff_pairwise]
  induction sp with
  | nil => simp [validateSplitPoints]
  | cons a l ih =>
    cases l with
    | nil => simp [validateSplitPoints]
    | cons b l =>
      simp only [validateSplitPoints, List.isChain_cons_cons]
      by_cases hab : a < b
      · simp only [hab, not_true, if_false, true_and]; exact ih
      · simp [hab]

end Verif.View
