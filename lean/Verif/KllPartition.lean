import Verif.KllViewProps

/-!
# The boundaries of equally sized partitions, on the sorted view

Helper lemmas for `GetPartitionBoundaries`: what the four writes into the view do, and where the
searches end.
-/

namespace Verif.Kll

open Verif Verif.View Verif.Inequality

variable {α : Type} [LinearOrder α]

/-- What the lemmas need about the view. -/
structure PinOk (s : Sketch α) (v : SView α) (Z : List (α × Int)) : Prop where
  view : ViewOf s v Z
  n : s.n ≠ 0
  total : (Z.map Prod.snd).sum = s.n
  lo : ∀ z ∈ Z, s.minItem ≤ z.1
  hi : ∀ z ∈ Z, z.1 ≤ s.maxItem
  one : s.n = 1 → s.minItem = s.maxItem

/-- Cumulative weight up to and including position `i`. -/
def cumAt (Z : List (α × Int)) (i : Nat) : Int := ((Z.map Prod.snd).take (i + 1)).sum

/-- The same after the writes. -/
def pinCum (Z : List (α × Int)) (i : Nat) : Int := if i = 0 then 1 else cumAt Z i

/-- The item at position `i` after the writes. -/
def pinItem (s : Sketch α) (Z : List (α × Int)) (i : Nat) : α :=
  if i = Z.length - 1 then s.maxItem
  else if i = 0 then s.minItem
  else (Z[i]?.map Prod.fst).getD s.minItem

section pin
variable {s : Sketch α} {v : SView α} {Z : List (α × Int)}

theorem PinOk.len (h : PinOk s v Z) : 0 < Z.length := List.length_pos_of_ne_nil h.view.ne

omit [LinearOrder α] in
theorem cumAt_succ (Z : List (α × Int)) {i : Nat} (hi : i + 1 < Z.length) :
    cumAt Z (i + 1) = cumAt Z i + (Z[i + 1]'hi).2 := by
  unfold cumAt
  rw [List.take_add_one, List.getElem?_eq_getElem (by simpa using hi), List.sum_append]
  simp

theorem PinOk.cum_lt (h : PinOk s v Z) {i j : Nat} (hij : i < j) (hj : j < Z.length) :
    cumAt Z i < cumAt Z j := by
  induction j with
  | zero => omega
  | succ j ih =>
    rw [cumAt_succ Z hj]
    have := h.view.pos _ (List.getElem_mem hj)
    rcases Nat.lt_or_ge i j with h1 | h1
    · have := ih h1 (by omega)
      omega
    · have : i = j := by omega
      subst this
      omega

theorem PinOk.cum_last (h : PinOk s v Z) : cumAt Z (Z.length - 1) = s.n := by
  have := h.len
  unfold cumAt
  rw [List.take_of_length_le (by simp; omega), h.total]

theorem PinOk.cum_zero (h : PinOk s v Z) : 1 ≤ cumAt Z 0 := by
  have hl := h.len
  have := h.view.pos _ (List.getElem_mem hl)
  unfold cumAt
  cases Z with
  | nil => simp at hl
  | cons z Z => simp at this ⊢; omega

theorem PinOk.single (h : PinOk s v Z) (h1 : Z.length = 1) : s.n = 1 := by
  have h2 := h.n
  by_contra hc
  have := h.view.many (by omega)
  omega

theorem PinOk.pin_le (h : PinOk s v Z) (i : Nat) : pinCum Z i ≤ cumAt Z i := by
  unfold pinCum
  split
  · next h0 => subst h0; exact h.cum_zero
  · exact le_refl _

theorem PinOk.pin_last (h : PinOk s v Z) : pinCum Z (Z.length - 1) = s.n := by
  unfold pinCum
  split
  · next h0 =>
    have := h.single (by have := h.len; omega)
    omega
  · exact h.cum_last

theorem PinOk.pin_lt (h : PinOk s v Z) {i j : Nat} (hij : i < j) (hj : j < Z.length) :
    pinCum Z i < pinCum Z j := by
  have h1 := h.pin_le i
  have h2 := h.cum_lt hij hj
  have h3 : pinCum Z j = cumAt Z j := if_neg (by omega)
  omega

/-- The view after the writes. -/
theorem PinOk.pinEnds (h : PinOk s v Z) : ∃ w, v.pinEnds = .ok w ∧ w.totalN = s.n ∧
    w.minItem = s.minItem ∧ w.maxItem = s.maxItem ∧
    w.quantiles.length = Z.length ∧ w.cumWeights.length = Z.length ∧
    (∀ i < Z.length, w.cumWeights[i]? = some (pinCum Z i)) ∧
    (∀ i < Z.length, w.quantiles[i]? = some (pinItem s Z i)) := by
  have hl := h.len
  have hcl : v.cumWeights.length = Z.length := by rw [h.view.cumWeights]; simp
  have hql : v.quantiles.length = Z.length := by rw [h.view.quantiles]; simp
  unfold SView.pinEnds
  rw [wr_ok _ (by omega), Outcome.ok_bind, wr_ok _ (by simp; omega), Outcome.ok_bind,
    wr_ok _ (by omega), Outcome.ok_bind, wr_ok _ (by simp; omega), Outcome.ok_bind]
  refine ⟨_, rfl, h.view.totalN, h.view.minItem, h.view.maxItem, by simp [hql], by simp [hcl],
    ?_, ?_⟩
  · intro i hi
    simp only [List.length_set, hcl, List.getElem?_set]
    by_cases h1 : Z.length - 1 = i
    · rw [if_pos h1, if_pos (by omega), h.view.totalN, ← h1, h.pin_last]
    · rw [if_neg h1]
      by_cases h2 : 0 = i
      · rw [if_pos h2, if_pos hl]
        simp [pinCum, ← h2]
      · rw [if_neg h2, h.view.cumWeights, cum_at hi]
        simp [pinCum, Ne.symm h2, cumAt]
  · intro i hi
    simp only [List.length_set, hql, List.getElem?_set]
    by_cases h1 : Z.length - 1 = i
    · rw [if_pos h1, if_pos (by omega), h.view.maxItem]
      simp [pinItem, h1]
    · rw [if_neg h1]
      by_cases h2 : 0 = i
      · rw [if_pos h2, if_pos hl, h.view.minItem]
        subst h2
        simp [pinItem, Ne.symm h1]
      · rw [if_neg h2, h.view.quantiles, List.getElem?_map]
        simp [pinItem, Ne.symm h1, Ne.symm h2, List.getElem?_eq_getElem hi]

/-- Where a search in the pinned weights ends. -/
def EndsAt (Z : List (α × Int)) (incl : Bool) (N : Int) (i : Nat) : Prop :=
  i < Z.length ∧ (i ≠ Z.length - 1 → reach incl N (pinCum Z i)) ∧
    ∀ j < i, ¬ reach incl N (pinCum Z j)

theorem PinOk.search (h : PinOk s v Z) {w : SView α} (hn : w.totalN = s.n)
    (hl1 : w.quantiles.length = Z.length)
    (hl2 : w.cumWeights.length = Z.length)
    (hc : ∀ i < Z.length, w.cumWeights[i]? = some (pinCum Z i)) (r : ℚ) (incl : Bool) :
    ∃ i : Nat, w.getQuantileIndex r incl = .ok (i : Int) ∧
      EndsAt Z incl (computeNaturalRank r s.n incl) i := by
  have hl := h.len
  unfold SView.getQuantileIndex
  simp only [hl1, hn]
  generalize computeNaturalRank r s.n incl = N
  have hsat : ∀ c : Int, Sat (if incl then Crit.GE else .GT) N c ↔ reach incl N c := by
    intro c; cases incl <;> simp [Sat, reach]
  obtain ⟨a, ha, hans⟩ := C35_findWithInequality_sorted w.cumWeights N
    (if incl then Crit.GE else .GT) (by cases incl <;> simp) (by
      rw [List.pairwise_iff_getElem]
      intro i j hi hj hij
      have e1 := hc i (by omega)
      have e2 := hc j (by omega)
      rw [List.getElem?_eq_getElem hi, Option.some.injEq] at e1
      rw [List.getElem?_eq_getElem hj, Option.some.injEq] at e2
      rw [e1, e2]
      exact le_of_lt (h.pin_lt hij (by omega)))
    (List.ne_nil_of_length_pos (by omega))
  rw [hl2] at ha hans
  rw [ha, Outcome.ok_bind]
  rcases hans with ⟨rfl, hno⟩ | ⟨i, rfl, _, hi, ⟨x, hx, hs⟩, hmin⟩
  · refine ⟨Z.length - 1, ?_, by omega, fun hne => absurd rfl hne, fun j hj hr => ?_⟩
    · rw [if_pos rfl]
      congr 1
      omega
    · exact hno j _ (Nat.zero_le _) (by omega) (hc j (by omega)) ((hsat _).2 hr)
  · refine ⟨i, by rw [if_neg (by omega)], by omega, fun _ => ?_, fun j hj hr => ?_⟩
    · rw [hc i (by omega), Option.some.injEq] at hx
      rw [hx]
      exact (hsat _).1 hs
    · have := hmin j _ (Nat.zero_le _) (by omega) (hc j (by omega)) ((hsat _).2 hr)
      cases incl <;> simp at this <;> omega

omit [LinearOrder α] in
theorem EndsAt.mono {incl : Bool} {N M : Int} {i j : Nat} (hi : EndsAt Z incl N i)
    (hj : EndsAt Z incl M j) (h : N ≤ M) : i ≤ j := by
  by_contra hc
  have h1 := hi.2.2 j (by omega)
  have h2 := hj.2.1 (by have := hi.1; omega)
  apply h1
  cases incl <;> simp [reach] at * <;> omega

omit [LinearOrder α] in
theorem EndsAt.zero {incl : Bool} {i : Nat} (hi : EndsAt Z incl 0 i) : i = 0 := by
  by_contra hc
  have := hi.2.2 0 (by omega)
  cases incl <;> simp [reach, pinCum] at this

theorem EndsAt.last (h : PinOk s v Z) {incl : Bool} {i : Nat} (hi : EndsAt Z incl s.n i) :
    i = Z.length - 1 := by
  by_contra hc
  have h1 := hi.2.1 hc
  have h2 := h.pin_lt (i := i) (j := Z.length - 1) (by have := hi.1; omega) (by have := h.len; omega)
  rw [h.pin_last] at h2
  cases incl <;> simp [reach] at h1 <;> omega

/-- The pinned items are in order. -/
theorem PinOk.item_mono (h : PinOk s v Z) {i j : Nat} (hij : i ≤ j) (hj : j < Z.length) :
    pinItem s Z i ≤ pinItem s Z j := by
  have hget : ∀ k, k < Z.length → ∃ z ∈ Z, Z[k]? = some z :=
    fun k hk => ⟨Z[k], List.getElem_mem hk, List.getElem?_eq_getElem hk⟩
  have hmm : s.minItem ≤ s.maxItem := by
    obtain ⟨z, hz, _⟩ := hget j hj
    exact le_trans (h.lo z hz) (h.hi z hz)
  unfold pinItem
  by_cases h1 : j = Z.length - 1
  · rw [if_pos h1]
    split
    · exact le_refl _
    · split
      · exact hmm
      · obtain ⟨z, hz, e⟩ := hget i (by omega)
        rw [e]
        exact h.hi z hz
  · rw [if_neg h1, if_neg (by omega)]
    by_cases h2 : i = 0
    · rw [if_pos h2]
      split
      · exact le_refl _
      · obtain ⟨z, hz, e⟩ := hget j hj
        rw [e]
        exact h.lo z hz
    · rw [if_neg h2, if_neg (by omega)]
      obtain ⟨z, hz, e⟩ := hget i (by omega)
      obtain ⟨y, hy, e'⟩ := hget j hj
      rw [e, e']
      exact h.view.wf.le e e' hij

/-- At most the cumulative weight lies strictly below an item. -/
theorem wsum_lt_le {Z : List (α × Int)} (h : Wf Z) {i : Nat} {z : α × Int} (hz : Z[i]? = some z) :
    wsum (below false z.1) Z ≤ ((Z.map Prod.snd).take i).sum := by
  conv_lhs => rw [← List.take_append_drop i Z]
  rw [wsum_append, wsum_none (Z := Z.drop i)]
  · rw [add_zero, ← List.map_take]
    have h1 := wsum_mono (p := below false z.1) (q := fun _ => true) (Z := Z.take i)
      (fun y hy => h.nonneg y (List.mem_of_mem_take hy)) (fun _ _ _ => rfl)
    have h2 := wsum_all (p := fun _ : α => true) (Z := Z.take i) (fun _ _ => rfl)
    omega
  · intro y hy
    obtain ⟨j, hj⟩ := List.mem_iff_getElem?.1 hy
    rw [List.getElem?_drop] at hj
    have := h.le hz hj (by omega)
    simp [below, this]

omit [LinearOrder α] in
theorem first_sum (Z : List (α × Int)) (h : 0 < Z.length) :
    ((Z.map Prod.snd).take (0 + 1)).sum = Z[0].2 := by
  cases Z with
  | nil => simp at h
  | cons z Z => simp

/-- The weight at or below, and strictly below, the item where a search ends. -/
theorem PinOk.near (h : PinOk s v Z) {incl : Bool} {N : Int} {i : Nat} (hi : EndsAt Z incl N i)
    (h0 : 0 ≤ N) (h1 : N ≤ s.n) :
    N ≤ (weightOf (fun y => decide (y ≤ pinItem s Z i)) s : Int) + 1 ∧
    (weightOf (fun y => decide (y < pinItem s Z i)) s : Int) ≤ N + 2 ^ s.numLevels := by
  have hlen := h.len
  have hil : i < Z.length := hi.1
  have hw : ∀ z ∈ Z, z.2 * 2 ≤ 2 ^ s.numLevels := by
    intro z hz
    have hp := h.view.pos z hz
    have ht := h.view.top z hz
    have hL : s.numLevels ≠ 0 := by
      intro hL
      obtain ⟨l, hl, _⟩ := (h.view.mem z.1).1 ⟨z, hz, rfl⟩
      omega
    obtain ⟨L, hL⟩ := Nat.exists_eq_succ_of_ne_zero hL
    rw [hL] at ht ⊢
    simp only [Nat.succ_eq_add_one, Nat.add_sub_cancel] at ht
    rw [Nat.succ_eq_add_one, pow_succ]
    omega
  have hW : (0 : Int) < 2 ^ s.numLevels := by positivity
  have hall : (weightOf (fun _ => true) s : Int) = s.n := by
    rw [← h.view.weight, wsum_all (fun _ _ => rfl), h.total]
  have hle : ∀ p, (weightOf p s : Int) ≤ s.n := by
    intro p
    rw [← hall, ← h.view.weight, ← h.view.weight]
    exact wsum_mono h.view.wf.nonneg (fun _ _ _ => rfl)
  have hb : ∀ x, (weightOf (fun y => decide (y ≤ x)) s : Int) = wsum (below true x) Z := by
    intro x; rw [h.view.weight]; rfl
  have hb' : ∀ x, (weightOf (fun y => decide (y < x)) s : Int) = wsum (below false x) Z := by
    intro x; rw [h.view.weight]; rfl
  have hprev : i ≠ 0 → pinCum Z (i - 1) ≤ N := by
    intro hi0
    have := hi.2.2 (i - 1) (by omega)
    cases incl <;> simp [reach] at this <;> omega
  constructor
  · -- at or below
    by_cases hlast : i = Z.length - 1
    · have e : pinItem s Z i = s.maxItem := if_pos hlast
      rw [e, hb, wsum_all (fun z hz => by simpa [below] using h.hi z hz), h.total]
      omega
    · have hr := hi.2.1 hlast
      have hr' : N ≤ pinCum Z i := by
        cases incl <;> simp [reach] at hr <;> omega
      by_cases hz : i = 0
      · subst hz
        have : N ≤ 1 := by simpa [pinCum] using hr'
        omega
      · have e : Z[i]? = some Z[i] := List.getElem?_eq_getElem hil
        have e2 : pinItem s Z i = Z[i].1 := by simp [pinItem, hlast, hz, e]
        have h3 := cum_le_wsum h.view.wf e
        have h4 : pinCum Z i = cumAt Z i := if_neg hz
        rw [e2, hb]
        unfold cumAt at h4
        omega
  · by_cases hlast : i = Z.length - 1
    · -- the last position
      have h2 := hle (fun y => decide (y < pinItem s Z i))
      by_cases hz : i = 0
      · have hn1 := h.single (by omega)
        have e : pinItem s Z i = s.minItem := by
          rw [h.one hn1]; exact if_pos hlast
        rw [e, hb', wsum_none (fun z hz => by simpa [below] using h.lo z hz)]
        omega
      · have h3 := hprev hz
        have h4 := h.cum_last
        have hi1 : (Z.length - 2) + 1 < Z.length := by omega
        have h5 := cumAt_succ Z hi1
        have h6 := hw _ (List.getElem_mem hi1)
        rw [show Z.length - 1 = Z.length - 2 + 1 by omega] at h4
        have hi2 : i - 1 = Z.length - 2 := by omega
        rw [hi2] at h3
        by_cases h7 : Z.length - 2 = 0
        · have h8 : pinCum Z (Z.length - 2) = 1 := if_pos h7
          have h9 : cumAt Z (Z.length - 2) = Z[0].2 := by
            rw [h7]
            exact first_sum Z hlen
          have h10 := hw _ (List.getElem_mem hlen)
          omega
        · have h8 : pinCum Z (Z.length - 2) = cumAt Z (Z.length - 2) := if_neg h7
          have h11 := h.view.pos _ (List.getElem_mem hi1)
          omega
    · by_cases hz : i = 0
      · have e : pinItem s Z i = s.minItem := by unfold pinItem; rw [if_neg hlast, if_pos hz]
        rw [e, hb', wsum_none (fun z hz => by simpa [below] using h.lo z hz)]
        omega
      · have e : Z[i]? = some Z[i] := List.getElem?_eq_getElem hil
        have e2 : pinItem s Z i = Z[i].1 := by simp [pinItem, hlast, hz, e]
        have h3 := wsum_lt_le h.view.wf e
        have h4 := hprev hz
        rw [e2, hb']
        obtain ⟨k, rfl⟩ := Nat.exists_eq_succ_of_ne_zero hz
        simp only [Nat.succ_eq_add_one, Nat.add_sub_cancel] at h3 h4
        by_cases h7 : k = 0
        · subst h7
          have h8 := hw _ (List.getElem_mem hlen)
          have h9 := h.view.pos _ (List.getElem_mem hlen)
          have h10 := first_sum Z hlen
          rw [h10] at h3
          simp only [Nat.succ_eq_add_one] at *
          omega
        · have h8 : pinCum Z k = cumAt Z k := if_neg h7
          unfold cumAt at h8
          simp only [Nat.succ_eq_add_one] at *
          omega

end pin

end Verif.Kll
