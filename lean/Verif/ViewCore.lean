import Verif.ViewModel
import Verif.InequalityProps
import Mathlib.Algebra.BigOperators.Group.List.Basic
import Mathlib.Algebra.Order.BigOperators.Group.List
import Mathlib.Tactic.Linarith
import Mathlib.Tactic.Ring
import Mathlib.Tactic.NormNum
import Mathlib.Tactic.FieldSimp
import Mathlib.Tactic.Positivity

/-!
# Lemmas on sorted views

A view is described by the list `Z` of its items with their weights, in order.
-/

namespace Verif.View

open Verif Verif.Inequality

/-- Prefix sums. -/
def cums (a : Int) : List Int → List Int
  | [] => []
  | w :: ws => (a + w) :: cums (a + w) ws

/-- Weight of the items that satisfy `p`. -/
def wsum {α : Type} (p : α → Bool) (Z : List (α × Int)) : Int :=
  ((Z.filter fun z => p z.1).map Prod.snd).sum

/-- Items in order, weights not negative. -/
structure Wf {α : Type} [LinearOrder α] (Z : List (α × Int)) : Prop where
  sorted : Z.Pairwise fun a b => a.1 ≤ b.1
  nonneg : ∀ z ∈ Z, 0 ≤ z.2

@[simp] theorem cums_length (a : Int) (ws : List Int) : (cums a ws).length = ws.length := by
  induction ws generalizing a with
  | nil => rfl
  | cons w ws ih => simp [cums, ih]

theorem cums_get (a : Int) (ws : List Int) {i : Nat} (hi : i < ws.length) :
    (cums a ws)[i]? = some (a + (ws.take (i + 1)).sum) := by
  induction ws generalizing a i with
  | nil => simp at hi
  | cons w ws ih =>
    cases i with
    | zero => simp [cums]
    | succ i =>
      simp only [cums, List.getElem?_cons_succ]
      rw [ih _ (by simpa using hi)]
      simp [add_assoc]

theorem cums_ge {a : Int} {ws : List Int} (h : ∀ w ∈ ws, 0 ≤ w) : ∀ c ∈ cums a ws, a ≤ c := by
  induction ws generalizing a with
  | nil => simp [cums]
  | cons w ws ih =>
    intro c hc
    have h0 := h w (by simp)
    rcases List.mem_cons.1 hc with rfl | hc
    · omega
    · have := ih (fun v hv => h v (by simp [hv])) c hc
      omega

theorem cums_sorted {a : Int} {ws : List Int} (h : ∀ w ∈ ws, 0 ≤ w) :
    (cums a ws).Pairwise (· ≤ ·) := by
  induction ws generalizing a with
  | nil => exact List.Pairwise.nil
  | cons w ws ih =>
    have h' : ∀ v ∈ ws, 0 ≤ v := fun v hv => h v (by simp [hv])
    exact List.Pairwise.cons (cums_ge h') (ih h')

variable {α : Type}

@[simp] theorem wsum_nil (p : α → Bool) : wsum p [] = 0 := rfl

theorem wsum_cons (p : α → Bool) (z : α × Int) (Z : List (α × Int)) :
    wsum p (z :: Z) = (if p z.1 then z.2 else 0) + wsum p Z := by
  unfold wsum
  by_cases h : p z.1 = true <;> simp [h]

theorem wsum_append (p : α → Bool) (A B : List (α × Int)) :
    wsum p (A ++ B) = wsum p A + wsum p B := by simp [wsum]

theorem wsum_perm (p : α → Bool) {A B : List (α × Int)} (h : A.Perm B) : wsum p A = wsum p B :=
  ((h.filter _).map _).sum_eq

theorem wsum_all {p : α → Bool} {Z : List (α × Int)} (h : ∀ z ∈ Z, p z.1 = true) :
    wsum p Z = (Z.map Prod.snd).sum := by
  unfold wsum
  rw [List.filter_eq_self.2 h]

theorem wsum_none {p : α → Bool} {Z : List (α × Int)} (h : ∀ z ∈ Z, p z.1 = false) :
    wsum p Z = 0 := by
  unfold wsum
  rw [List.filter_eq_nil_iff.2 (fun z hz => by simp [h z hz])]
  rfl

theorem wsum_nonneg {p : α → Bool} {Z : List (α × Int)} (h : ∀ z ∈ Z, 0 ≤ z.2) : 0 ≤ wsum p Z := by
  induction Z with
  | nil => simp
  | cons z Z ih =>
    rw [wsum_cons]
    have h1 := h z (by simp)
    have h2 := ih fun y hy => h y (by simp [hy])
    split <;> omega

theorem wsum_mono {p q : α → Bool} {Z : List (α × Int)} (h : ∀ z ∈ Z, 0 ≤ z.2)
    (hpq : ∀ z ∈ Z, p z.1 = true → q z.1 = true) : wsum p Z ≤ wsum q Z := by
  induction Z with
  | nil => simp
  | cons z Z ih =>
    rw [wsum_cons, wsum_cons]
    have h1 := h z (by simp)
    have h2 := ih (fun y hy => h y (by simp [hy])) (fun y hy => hpq y (by simp [hy]))
    have h3 := hpq z (by simp)
    by_cases hp : p z.1 = true
    · rw [if_pos hp, if_pos (h3 hp)]; omega
    · rw [if_neg hp]; split <;> omega

variable [LinearOrder α]

/-- The items before position `i + 1` are those that satisfy `p`. -/
theorem wsum_prefix {Z : List (α × Int)} {p : α → Bool} {i : Nat}
    (h1 : ∀ j z, Z[j]? = some z → j ≤ i → p z.1 = true)
    (h2 : ∀ j z, Z[j]? = some z → i < j → p z.1 = false) :
    wsum p Z = ((Z.map Prod.snd).take (i + 1)).sum := by
  conv_lhs => rw [← List.take_append_drop (i + 1) Z]
  rw [wsum_append, wsum_all, wsum_none, List.map_take, add_zero]
  · intro z hz
    obtain ⟨j, hj⟩ := List.mem_iff_getElem?.1 hz
    rw [List.getElem?_drop] at hj
    exact h2 _ z hj (by omega)
  · intro z hz
    obtain ⟨j, hj⟩ := List.mem_iff_getElem?.1 hz
    have hlt := (List.getElem?_eq_some_iff.1 hj).1
    rw [List.length_take] at hlt
    rw [List.getElem?_take_of_lt (by omega)] at hj
    exact h1 j z hj (by omega)

/-- The set searched for by `<` / `≤`. -/
def below (incl : Bool) (q : α) (y : α) : Bool := if incl then decide (y ≤ q) else decide (y < q)

theorem below_iff_sat (incl : Bool) (q y : α) :
    below incl q y = true ↔ Sat (if incl then Crit.LE else .LT) q y := by
  cases incl <;> simp [below, Sat]

theorem below_mono {incl : Bool} {q a b : α} (hab : a ≤ b) (h : below incl q b = true) :
    below incl q a = true := by
  cases incl
  · simp only [below, Bool.false_eq_true, if_false, decide_eq_true_eq] at h ⊢
    exact lt_of_le_of_lt hab h
  · simp only [below, if_true, decide_eq_true_eq] at h ⊢
    exact le_trans hab h

theorem Wf.le {Z : List (α × Int)} (h : Wf Z) {i j : Nat} {a b : α × Int} (hi : Z[i]? = some a)
    (hj : Z[j]? = some b) (hij : i ≤ j) : a.1 ≤ b.1 := by
  rcases Nat.lt_or_eq_of_le hij with hlt | rfl
  · obtain ⟨h1, rfl⟩ := List.getElem?_eq_some_iff.1 hi
    obtain ⟨h2, rfl⟩ := List.getElem?_eq_some_iff.1 hj
    exact List.pairwise_iff_getElem.1 h.sorted i j h1 h2 hlt
  · rw [hi] at hj
    rw [Option.some.injEq] at hj
    rw [hj]

theorem Wf.fst_sorted {Z : List (α × Int)} (h : Wf Z) : (Z.map Prod.fst).Pairwise (· ≤ ·) := by
  rw [List.pairwise_map]; exact h.sorted

theorem Wf.snd_nonneg {Z : List (α × Int)} (h : Wf Z) : ∀ w ∈ Z.map Prod.snd, 0 ≤ w := by
  intro w hw
  obtain ⟨z, hz, rfl⟩ := List.mem_map.1 hw
  exact h.nonneg z hz

/-- Cumulative weight at position `i`. -/
theorem cum_at {Z : List (α × Int)} {i : Nat} (hi : i < Z.length) :
    (cums 0 (Z.map Prod.snd))[i]? = some ((Z.map Prod.snd).take (i + 1)).sum := by
  rw [cums_get _ _ (by simpa using hi), zero_add]

/-- The rank search. -/
theorem rank_search {Z : List (α × Int)} (h : Wf Z) (hne : Z ≠ []) (q : α) (incl : Bool) :
    ∃ r, findWithInequality (Z.map Prod.fst) 0 ((Z.map Prod.fst).length - 1) q
        (if incl then .LE else .LT) = .ok r ∧
      ((r = -1 ∧ wsum (below incl q) Z = 0) ∨
       (∃ i : Nat, r = i ∧ i < Z.length ∧
        (cums 0 (Z.map Prod.snd))[i]? = some (wsum (below incl q) Z))) := by
  have hne' : Z.map Prod.fst ≠ [] := by simpa using hne
  have hpos : 0 < Z.length := List.length_pos_of_ne_nil hne
  obtain ⟨r, hr, ha⟩ := C35_findWithInequality_sorted (Z.map Prod.fst) q
    (if incl then Crit.LE else .LT) (by cases incl <;> simp) h.fst_sorted hne'
  refine ⟨r, hr, ?_⟩
  rcases ha with ⟨rfl, hno⟩ | ⟨i, rfl, _, hi, ⟨x, hx, hsat⟩, hmax⟩
  · left
    refine ⟨rfl, wsum_none fun z hz => ?_⟩
    obtain ⟨j, hj⟩ := List.mem_iff_getElem?.1 hz
    have hlt := (List.getElem?_eq_some_iff.1 hj).1
    have := hno j z.1 (Nat.zero_le _) (by simp; omega) (by simp [hj])
    rw [← below_iff_sat] at this
    simpa using this
  · right
    have hlt : i < Z.length := by
      have := (List.getElem?_eq_some_iff.1 hx).1
      simpa using this
    refine ⟨i, rfl, hlt, ?_⟩
    rw [cum_at hlt, wsum_prefix]
    · intro j z hj hji
      rw [List.getElem?_map] at hx
      obtain ⟨y, hy, rfl⟩ := Option.map_eq_some_iff.1 hx
      exact below_mono (h.le hj hy hji) ((below_iff_sat incl q _).2 hsat)
    · intro j z hj hij
      by_contra hc
      have hc' : below incl q z.1 = true := by simpa using hc
      have hjl := (List.getElem?_eq_some_iff.1 hj).1
      have := hmax j z.1 (Nat.zero_le _) (by simp; omega) (by simp [hj])
        ((below_iff_sat incl q _).1 hc')
      cases incl <;> simp at this <;> omega

/-- The cumulative weight at a position is at most the weight at or below its item. -/
theorem cum_le_wsum {Z : List (α × Int)} (h : Wf Z) {i : Nat} {z : α × Int} (hz : Z[i]? = some z) :
    ((Z.map Prod.snd).take (i + 1)).sum ≤ wsum (below true z.1) Z := by
  conv_rhs => rw [← List.take_append_drop (i + 1) Z]
  rw [wsum_append, wsum_all, List.map_take]
  · have := wsum_nonneg (p := below true z.1) (Z := Z.drop (i + 1))
      (fun y hy => h.nonneg y (List.mem_of_mem_drop hy))
    omega
  · intro y hy
    obtain ⟨j, hj⟩ := List.mem_iff_getElem?.1 hy
    have hlt := (List.getElem?_eq_some_iff.1 hj).1
    rw [List.length_take] at hlt
    rw [List.getElem?_take_of_lt (by omega)] at hj
    simpa [below] using h.le hj hz (by omega)

/-- `N` is reached (`≥`, inclusive) or passed (`>`, exclusive). -/
def reach (incl : Bool) (N c : Int) : Prop := if incl then N ≤ c else N < c

theorem reach_mono {incl : Bool} {N c d : Int} (h : c ≤ d) (hr : reach incl N c) :
    reach incl N d := by
  cases incl <;> simp [reach] at * <;> omega

/-- If the weight at or below `y` reaches `N` then so does the cumulative weight of a position
whose item is at most `y`. -/
theorem reach_pos {Z : List (α × Int)} (h : Wf Z) {y : α}
    {N : Int} {incl : Bool} (hmem : ∃ z ∈ Z, z.1 ≤ y)
    (hr : reach incl N (wsum (below true y) Z)) :
    ∃ j z, Z[j]? = some z ∧ z.1 ≤ y ∧ reach incl N ((Z.map Prod.snd).take (j + 1)).sum := by
  obtain ⟨z0, hz0, hzy⟩ := hmem
  have hne : Z ≠ [] := List.ne_nil_of_mem hz0
  have hne' : Z.map Prod.fst ≠ [] := by simpa using hne
  obtain ⟨r, hrr, ha⟩ := C35_findWithInequality_sorted (Z.map Prod.fst) y Crit.LE (by simp)
    h.fst_sorted hne'
  rcases ha with ⟨rfl, hno⟩ | ⟨i, rfl, _, hi, ⟨x, hx, hsat⟩, hmax⟩
  · obtain ⟨j, hj⟩ := List.mem_iff_getElem?.1 hz0
    have hlt := (List.getElem?_eq_some_iff.1 hj).1
    exact absurd hzy (hno j z0.1 (Nat.zero_le _) (by simp; omega) (by simp [hj]))
  · rw [List.getElem?_map] at hx
    obtain ⟨z, hz, rfl⟩ := Option.map_eq_some_iff.1 hx
    refine ⟨i, z, hz, hsat, ?_⟩
    rw [← wsum_prefix (p := below true y)]
    · exact hr
    · intro j w hj hji
      have := h.le hj hz hji
      simpa [below] using le_trans this hsat
    · intro j w hj hij
      by_contra hc
      have hc' : w.1 ≤ y := by simpa [below] using hc
      have hjl := (List.getElem?_eq_some_iff.1 hj).1
      have := hmax j w.1 (Nat.zero_le _) (by simp; omega) (by simp [hj]) hc'
      simp at this
      omega

/-- The quantile search. -/
theorem quantile_search {Z : List (α × Int)} (h : Wf Z) (hne : Z ≠ []) (N : Int) (incl : Bool) :
    ∃ r, findWithInequality (cums 0 (Z.map Prod.snd)) 0 (Z.length - 1) N
        (if incl then .GE else .GT) = .ok r ∧
      ((r = -1 ∧ ∀ z ∈ Z, ¬ reach incl N (wsum (below true z.1) Z)) ∨
       (∃ i : Nat, ∃ z, r = i ∧ Z[i]? = some z ∧ reach incl N (wsum (below true z.1) Z) ∧
        reach incl N ((Z.map Prod.snd).take (i + 1)).sum ∧
        (∀ j < i, ¬ reach incl N ((Z.map Prod.snd).take (j + 1)).sum) ∧
        ∀ y ∈ Z, reach incl N (wsum (below true y.1) Z) → z.1 ≤ y.1)) := by
  have hpos : 0 < Z.length := List.length_pos_of_ne_nil hne
  have hlen : (cums 0 (Z.map Prod.snd)).length = Z.length := by simp
  have hcne : cums 0 (Z.map Prod.snd) ≠ [] := by
    intro hc; rw [hc] at hlen; simp at hlen; omega
  obtain ⟨r, hr, ha⟩ := C35_findWithInequality_sorted (cums 0 (Z.map Prod.snd)) N
    (if incl then Crit.GE else .GT) (by cases incl <;> simp) (cums_sorted h.snd_nonneg) hcne
  rw [hlen] at hr ha
  have hsat : ∀ c : Int, Sat (if incl then Crit.GE else .GT) N c ↔ reach incl N c := by
    intro c; cases incl <;> simp [Sat, reach]
  refine ⟨r, hr, ?_⟩
  rcases ha with ⟨rfl, hno⟩ | ⟨i, rfl, _, hi, ⟨x, hx, hs⟩, hmin⟩
  · left
    refine ⟨rfl, fun z hz hre => ?_⟩
    obtain ⟨j, w, hj, _, hj2⟩ := reach_pos h ⟨z, hz, le_refl _⟩ hre
    have hjl := (List.getElem?_eq_some_iff.1 hj).1
    exact hno j _ (Nat.zero_le _) (by omega) (cum_at hjl) ((hsat _).2 hj2)
  · right
    have hil : i < Z.length := by
      have := (List.getElem?_eq_some_iff.1 hx).1
      omega
    rw [cum_at hil, Option.some.injEq] at hx
    subst hx
    have hmin' : ∀ j c, j ≤ Z.length - 1 → (cums 0 (Z.map Prod.snd))[j]? = some c →
        reach incl N c → i ≤ j := by
      intro j c hj hc hre
      have := hmin j c (Nat.zero_le _) hj hc ((hsat _).2 hre)
      cases incl <;> simpa using this
    refine ⟨i, Z[i], rfl, List.getElem?_eq_getElem hil, ?_, (hsat _).1 hs, ?_, ?_⟩
    · exact reach_mono (cum_le_wsum h (List.getElem?_eq_getElem hil)) ((hsat _).1 hs)
    · intro j hj hre
      have := hmin' j _ (by omega) (cum_at (by omega)) hre
      omega
    · intro y hy hre
      obtain ⟨j, w, hj, hw, hj2⟩ := reach_pos h ⟨y, hy, le_refl _⟩ hre
      have hjl := (List.getElem?_eq_some_iff.1 hj).1
      have := hmin' j _ (by omega) (cum_at hjl) hj2
      exact le_trans (h.le (List.getElem?_eq_getElem hil) hj this) hw

/-! ## The natural rank -/

theorem goRound_int (m : Int) : goRound (m : ℚ) = m := by
  unfold goRound
  split
  · rw [Int.floor_eq_iff]; constructor <;> linarith
  · rw [Int.ceil_eq_iff]; constructor <;> linarith

theorem goRound_near (x : ℚ) : x - 1 / 2 ≤ goRound x ∧ (goRound x : ℚ) ≤ x + 1 / 2 := by
  unfold goRound
  split
  · refine ⟨?_, Int.floor_le _⟩
    have := Int.lt_floor_add_one (x + 1 / 2)
    linarith
  · refine ⟨Int.le_ceil _, ?_⟩
    have := Int.ceil_lt_add_one (x - 1 / 2)
    linarith

theorem goRound_mono {x y : ℚ} (h : x ≤ y) : goRound x ≤ goRound y := by
  unfold goRound
  split <;> split
  · exact Int.floor_le_floor (by linarith)
  · linarith
  · rename_i hx hy
    have h1 : ⌈x - 1 / 2⌉ ≤ 0 := by rw [Int.ceil_le]; push_cast; linarith
    have h2 : 0 ≤ ⌊y + 1 / 2⌋ := by rw [Int.le_floor]; push_cast; linarith
    omega
  · exact Int.ceil_le_ceil (by linarith)

/-- A rank that stands for a whole number of items is that number. -/
theorem naturalRank_exact {r : ℚ} {n : Nat} {c : Int} (h : r * n = c) (incl : Bool) :
    computeNaturalRank r n incl = c := by
  have e : (if n ≤ 10000000 then (goRound (r * n * 10000000) : ℚ) / 10000000 else r * n) = c := by
    split
    · rw [h, show ((c : ℚ) * 10000000) = ((c * 10000000 : Int) : ℚ) by push_cast; ring, goRound_int]
      push_cast
      field_simp
    · exact h
  unfold computeNaturalRank
  simp only [e]
  cases incl <;> simp

theorem naturalRank_mono {r r' : ℚ} (h : r ≤ r') (n : Nat) (incl : Bool) :
    computeNaturalRank r n incl ≤ computeNaturalRank r' n incl := by
  have h1 : r * n ≤ r' * n := mul_le_mul_of_nonneg_right h (by positivity)
  have e : (if n ≤ 10000000 then (goRound (r * n * 10000000) : ℚ) / 10000000 else r * n) ≤
      (if n ≤ 10000000 then (goRound (r' * n * 10000000) : ℚ) / 10000000 else r' * n) := by
    split
    · have := goRound_mono (x := r * n * 10000000) (y := r' * n * 10000000) (by linarith)
      have h2 : (goRound (r * n * 10000000) : ℚ) ≤ goRound (r' * n * 10000000) := by
        exact_mod_cast this
      linarith
    · exact h1
  unfold computeNaturalRank
  cases incl
  · exact Int.floor_le_floor e
  · exact Int.ceil_le_ceil e

theorem naturalRank_range {r : ℚ} (h0 : 0 ≤ r) (h1 : r ≤ 1) (n : Nat) (incl : Bool) :
    0 ≤ computeNaturalRank r n incl ∧ computeNaturalRank r n incl ≤ n := by
  have e0 := naturalRank_exact (r := 0) (n := n) (c := 0) (by simp) incl
  have e1 := naturalRank_exact (r := 1) (n := n) (c := n) (by simp) incl
  have m0 := naturalRank_mono h0 n incl
  have m1 := naturalRank_mono h1 n incl
  omega

/-- The natural rank is the ceiling / floor of `r · n`, up to the tolerance `5·10⁻⁸`. -/
theorem naturalRank_near (r : ℚ) (n : Nat) :
    (r * n - 1 / 20000000 ≤ computeNaturalRank r n true ∧
      (computeNaturalRank r n true : ℚ) < r * n + 1 + 1 / 20000000) ∧
    (r * n - 1 - 1 / 20000000 < computeNaturalRank r n false ∧
      (computeNaturalRank r n false : ℚ) ≤ r * n + 1 / 20000000) := by
  have key : ∀ y : ℚ, y = (if n ≤ 10000000 then (goRound (r * n * 10000000) : ℚ) / 10000000
      else r * n) → r * n - 1 / 20000000 ≤ y ∧ y ≤ r * n + 1 / 20000000 := by
    intro y hy
    subst hy
    split
    · obtain ⟨g1, g2⟩ := goRound_near (r * n * 10000000)
      constructor <;> linarith
    · constructor <;> linarith
  obtain ⟨k1, k2⟩ := key _ rfl
  unfold computeNaturalRank
  simp only [if_true, Bool.false_eq_true, if_false]
  generalize (if n ≤ 10000000 then (goRound (r * n * 10000000) : ℚ) / 10000000 else r * n) = y at k1 k2
  have a1 := Int.le_ceil y
  have a2 := Int.ceil_lt_add_one y
  have a3 := Int.floor_le y
  have a4 := Int.lt_floor_add_one y
  exact ⟨⟨by linarith, by linarith⟩, by linarith, by linarith⟩

end Verif.View
