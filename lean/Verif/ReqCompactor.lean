import Verif.ReqArrays
import Verif.KllCore
import Verif.ViewCore
import Mathlib.Tactic.NormNum
import Mathlib.Tactic.Positivity
import Mathlib.Tactic.FieldSimp
import Mathlib.Tactic.Linarith

/-!
# The REQ compactor

`act c` is the list of the items a compactor holds.  The functions of the compactor are described by
what they do to this list.
-/

namespace Verif.Req

open Verif Verif.View

variable {α : Type} [LinearOrder α]

/-- The active region of an array. -/
def actOf (hra : Bool) (items : List α) (count : Nat) : List α :=
  if hra then items.drop (items.length - count) else items.take count

/-- The items of a compactor. -/
def act (c : Compactor α) : List α := actOf c.hra c.items c.count

theorem actOf_length {hra : Bool} {items : List α} {count : Nat} (h : count ≤ items.length) :
    (actOf hra items count).length = count := by
  unfold actOf
  split
  · rw [List.length_drop]; omega
  · rw [List.length_take]; omega

/-- The array around the active region. -/
theorem actOf_hra {items : List α} {count : Nat} (h : count ≤ items.length) :
    ∃ P, items = P ++ actOf true items count ∧ P.length = items.length - count :=
  ⟨items.take (items.length - count), by simp [actOf], by rw [List.length_take]; omega⟩

theorem actOf_lra {items : List α} {count : Nat} (h : count ≤ items.length) :
    ∃ S, items = actOf false items count ++ S ∧ S.length = items.length - count :=
  ⟨items.drop count, by simp [actOf], by rw [List.length_drop]⟩

theorem actOf_append_true (P X : List α) : actOf true (P ++ X) X.length = X := by
  simp [actOf]

theorem actOf_append_false (X S : List α) : actOf false (X ++ S) X.length = X := by
  simp [actOf]

theorem actOf_true {P X : List α} {n : Nat} (h : n = X.length) : actOf true (P ++ X) n = X := by
  subst h; exact actOf_append_true P X

theorem actOf_false {X S : List α} {n : Nat} (h : n = X.length) : actOf false (X ++ S) n = X := by
  subst h; exact actOf_append_false X S

theorem ensureCapacity_ok (env : Env α) {c : Compactor α} (h : c.count ≤ c.items.length) (N : Nat) :
    ∃ I, ensureCapacity env c N = .ok { c with items := I } ∧ c.items.length ≤ I.length ∧
      N ≤ I.length ∧ actOf c.hra I c.count = act c := by
  unfold ensureCapacity
  by_cases hN : c.items.length < N
  · simp only [if_pos hN, if_neg (show ¬ c.items.length < c.count by omega)]
    cases hh : c.hra with
    | true =>
      simp only [if_true]
      refine ⟨_, rfl, ?_, ?_, ?_⟩
      · simp only [List.length_append, List.length_take, List.length_drop, List.length_replicate]
        omega
      · simp only [List.length_append, List.length_take, List.length_drop, List.length_replicate]
        omega
      · have e : (List.replicate N env.zero).drop (N - c.count + c.count) = [] := by
          apply List.drop_of_length_le; simp; omega
        have e2 : (c.items.drop (c.items.length - c.count)).take c.count = act c := by
          rw [act, actOf, hh, if_pos rfl, List.take_of_length_le]
          rw [List.length_drop]; omega
        rw [e, e2, List.append_nil]
        apply actOf_true
        exact (actOf_length h).symm
    | false =>
      simp only [Bool.false_eq_true, if_false]
      refine ⟨_, rfl, ?_, ?_, ?_⟩
      · simp only [List.length_append, List.length_take, List.length_drop, List.length_replicate]
        omega
      · simp only [List.length_append, List.length_take, List.length_drop, List.length_replicate]
        omega
      · have e2 : c.items.take c.count = act c := by
          rw [act, actOf, hh]; rfl
        rw [e2]
        apply actOf_false
        exact (actOf_length h).symm
  · rw [if_neg hN]
    exact ⟨c.items, rfl, le_refl _, by omega, rfl⟩

theorem ensureSpace_ok (env : Env α) {c : Compactor α} (h : c.count ≤ c.items.length) (N : Nat) :
    ∃ I, ensureSpace env c N = .ok { c with items := I } ∧ c.count + N ≤ I.length ∧
      actOf c.hra I c.count = act c := by
  unfold ensureSpace
  by_cases hN : c.items.length < c.count + N
  · rw [if_pos hN]
    obtain ⟨I, h1, h2, h3, h4⟩ := ensureCapacity_ok env h (c.count + N + c.delta)
    exact ⟨I, h1, by omega, h4⟩
  · rw [if_neg hN]
    exact ⟨c.items, rfl, by omega, rfl⟩

theorem sort_ok {c : Compactor α} (h : c.count ≤ c.items.length)
    (hs : c.sorted = true → (act c).Pairwise (· ≤ ·)) :
    ∃ I, sort c = .ok { c with
        items := I
        sorted := true } ∧ I.length = c.items.length ∧ actOf c.hra I c.count = srt (act c) := by
  unfold sort
  cases hso : c.sorted with
  | true =>
    refine ⟨c.items, ?_, rfl, ?_⟩
    · rw [if_pos rfl]
      cases c
      simp only at hso
      rw [hso]
    · exact (srt_of_sorted (hs hso)).symm
  | false =>
    rw [if_neg (by simp), if_neg (by omega)]
    cases hh : c.hra with
    | true =>
      simp only [if_true]
      refine ⟨_, rfl, ?_, ?_⟩
      · simp
      · unfold act
        rw [hh]
        have : c.items.drop (c.items.length - c.count) = actOf true c.items c.count := by simp [actOf]
        rw [this]
        apply actOf_true
        rw [List.length_insertionSort, actOf_length h]
    | false =>
      simp only [Bool.false_eq_true, if_false]
      refine ⟨_, rfl, ?_, ?_⟩
      · simp
        omega
      · unfold act
        rw [hh]
        have : c.items.take c.count = actOf false c.items c.count := by simp [actOf]
        rw [this]
        apply actOf_false
        rw [List.length_insertionSort, actOf_length h]

theorem append_ok (env : Env α) {c : Compactor α} (h : c.count ≤ c.items.length) (x : α) :
    ∃ I, append env c x = .ok { c with
        items := I
        count := c.count + 1
        sorted := false } ∧ c.count + 1 ≤ I.length ∧
      (actOf c.hra I (c.count + 1)).Perm (x :: act c) := by
  obtain ⟨I, h1, h2, h3⟩ := ensureSpace_ok env h 1
  unfold append
  rw [h1, Outcome.ok_bind]
  simp only
  cases hh : c.hra with
  | true =>
    rw [hh] at h3
    obtain ⟨P, hP, hPl⟩ := actOf_hra (items := I) (count := c.count) (by omega)
    rw [h3] at hP
    have hact : (act c).length = c.count := actOf_length h
    -- the cell in front of the region
    obtain ⟨P', z, rfl⟩ : ∃ P' z, P = P' ++ [z] := by
      rcases List.eq_nil_or_concat P with h0 | ⟨P', z, h0⟩
      · rw [h0] at hPl; simp at hPl; omega
      · exact ⟨P', z, by rw [h0, List.concat_eq_append]⟩
    simp only [List.length_append, List.length_singleton] at hPl
    simp only [if_true]
    rw [sub_ok h2, Outcome.ok_bind, wr_ok _ (by omega), Outcome.ok_bind]
    refine ⟨_, rfl, by simp; omega, ?_⟩
    have e : I.set (I.length - (c.count + 1)) x = P' ++ (x :: act c) := by
      rw [show I.length - (c.count + 1) = P'.length by omega, hP, List.append_assoc,
        List.set_append_right _ _ (le_refl _)]
      simp
    rw [e, actOf_true (by simp [hact])]
  | false =>
    rw [hh] at h3
    obtain ⟨S, hS, hSl⟩ := actOf_lra (items := I) (count := c.count) (by omega)
    rw [h3] at hS
    have hact : (act c).length = c.count := actOf_length h
    cases S with
    | nil => simp at hSl; omega
    | cons z S =>
      simp only [Bool.false_eq_true, if_false, Outcome.ok_bind]
      rw [wr_ok _ (by omega), Outcome.ok_bind]
      refine ⟨_, rfl, by simp; omega, ?_⟩
      have e : I.set c.count x = (act c ++ [x]) ++ S := by
        rw [hS, List.set_append_right _ _ (by omega), hact]
        simp
      rw [e, actOf_false (by simp [hact])]
      exact List.perm_append_comm

theorem mergeSortIn_ok (env : Env α) {c : Compactor α} (h : c.count ≤ c.items.length)
    (hs : c.sorted = true) (hA : (act c).Pairwise (· ≤ ·)) {oItems : List α} {oCount : Nat}
    (ho : oCount ≤ oItems.length) (hB : (actOf c.hra oItems oCount).Pairwise (· ≤ ·)) :
    ∃ I, mergeSortIn env c oItems oCount true = .ok { c with
        items := I
        count := c.count + oCount
        sorted := true } ∧ c.count + oCount ≤ I.length ∧
      actOf c.hra I (c.count + oCount) = srt (act c ++ actOf c.hra oItems oCount) := by
  unfold mergeSortIn
  rw [if_neg (by simp [hs])]
  obtain ⟨I, h1, h2, h3⟩ := ensureSpace_ok env h oCount
  rw [h1, Outcome.ok_bind]
  have hact : (act c).length = c.count := actOf_length h
  simp only
  cases hh : c.hra with
  | true =>
    rw [hh] at h3 hB
    have hBl : (actOf true oItems oCount).length = oCount := actOf_length ho
    obtain ⟨Q, hQ, hQl⟩ := actOf_hra ho
    obtain ⟨P, hP, hPl⟩ := actOf_hra (items := I) (count := c.count) (by omega)
    rw [h3] at hP
    obtain ⟨P', J, hPJ, hJ⟩ : ∃ P' J, P = P' ++ J ∧ J.length = oCount :=
      ⟨P.take (P.length - oCount), P.drop (P.length - oCount), (List.take_append_drop _ _).symm,
        by rw [List.length_drop]; omega⟩
    subst hPJ
    simp only [List.length_append] at hPl
    obtain ⟨i, j, hm⟩ := mergeHra_ok (P := P') (Q := Q) (J := J) (A := act c)
      (B := actOf true oItems oCount) (by omega) hA hB
    rw [← hQ, ← hP] at hm
    simp only [if_true]
    rw [sub_ok h2, Outcome.ok_bind, sub_ok (by omega), Outcome.ok_bind, sub_ok ho, Outcome.ok_bind]
    have e1 : I.length - (I.length - (c.count + oCount)) =
        (act c).length + (actOf true oItems oCount).length := by omega
    have e2 : I.length - (c.count + oCount) = P'.length := by omega
    have e3 : I.length - c.count = P'.length + (actOf true oItems oCount).length := by omega
    have e4 : oItems.length - oCount = Q.length := by omega
    rw [e1, e2, e3, e4, hm, Outcome.ok_bind]
    refine ⟨_, rfl, ?_, ?_⟩
    · simp only [List.length_append, List.length_insertionSort]; omega
    · apply actOf_true
      rw [List.length_insertionSort, List.length_append]; omega
  | false =>
    rw [hh] at h3 hB
    have hBl : (actOf false oItems oCount).length = oCount := actOf_length ho
    obtain ⟨Q, hQ, hQl⟩ := actOf_lra ho
    obtain ⟨S, hS, hSl⟩ := actOf_lra (items := I) (count := c.count) (by omega)
    rw [h3] at hS
    obtain ⟨J, S', hJS, hJ⟩ : ∃ J S', S = J ++ S' ∧ J.length = oCount :=
      ⟨S.take oCount, S.drop oCount, (List.take_append_drop _ _).symm,
        by rw [List.length_take]; omega⟩
    subst hJS
    simp only [List.length_append] at hSl
    obtain ⟨i, j, hm⟩ := mergeLra_ok (Q := Q) (S := S') (J := J) (A := act c)
      (B := actOf false oItems oCount) (by omega) hA hB
    rw [← hQ, List.append_assoc, ← hS, hact, hBl] at hm
    simp only [Bool.false_eq_true, if_false]
    rw [hm, Outcome.ok_bind]
    refine ⟨_, rfl, ?_, ?_⟩
    · simp only [List.length_append, List.length_insertionSort]; omega
    · apply actOf_false
      rw [List.length_insertionSort, List.length_append]; omega

/-- The half of the compacted items that moves up. -/
def half (odds : Bool) (X : List α) : List α := if odds then Kll.odds X else Kll.evens X

theorem half_length (o : Bool) (X : List α) : (half o X).length = X.length / 2 := by
  unfold half
  split
  · exact Kll.odds_length X
  · exact Kll.evens_length X

theorem half_get (o : Bool) (X : List α) (i : Nat) (hi : i < X.length / 2) :
    (half o X)[i]? = X[(if o then 1 else 0) + 2 * i]? := by
  unfold half
  cases o
  · simp only [Bool.false_eq_true, if_false, Nat.zero_add]
    exact Kll.evens_get X i hi
  · simp only [if_true]
    rw [Nat.add_comm]
    exact Kll.odds_get X i hi

theorem half_sublist (o : Bool) (X : List α) : (half o X).Sublist X := by
  unfold half
  split
  · exact Kll.odds_sublist X
  · exact Kll.evens_sublist X

theorem promoteLoop_ok (env : Env α) (P X S : List α) {m : Nat} (hX : X.length = 2 * m) (o : Bool) :
    promoteLoop env (P ++ X ++ S) P.length (P.length + X.length) (if o then 1 else 0) m =
      .ok (half o X) := by
  unfold promoteLoop
  have hn : (P.length + X.length - (P.length + if o = true then 1 else 0) + 1) / 2 = m := by
    cases o <;> simp only [Bool.false_eq_true, if_false, if_true] <;> omega
  rw [hn]
  have hl : (half o X).length = m := by rw [half_length]; omega
  have hH := range_fold (n := m)
    (f := fun promoted j => do
      let x ← rd (P ++ X ++ S) (P.length + (if o = true then 1 else 0) + 2 * j)
      wr promoted j x)
    (fun j st => st = (half o X).take j ++ List.replicate (m - j) env.zero)
    (s0 := List.replicate m env.zero) (by simp) ?_
  · obtain ⟨st, hst, he⟩ := hH
    rw [hst, he]
    simp [hl]
  · rintro j st hj rfl
    have hg := half_get o X j (by omega)
    have hhj : j < (half o X).length := by omega
    rw [List.getElem?_eq_getElem hhj] at hg
    have hr : (P ++ X ++ S)[P.length + (if o = true then 1 else 0) + 2 * j]? =
        some (half o X)[j] := by
      have hb : (if o = true then 1 else 0) + 2 * j < X.length := by
        cases o <;> simp only [Bool.false_eq_true, if_false, if_true] <;> omega
      rw [List.append_assoc, List.getElem?_append_right (by omega),
        List.getElem?_append_left (by omega), hg]
      congr 1
      omega
    rw [rd_ok hr, Outcome.ok_bind, wr_ok _ (by simp; omega)]
    refine ⟨_, rfl, ?_⟩
    have hjt : ((half o X).take j).length = j := by rw [List.length_take]; omega
    rw [show m - j = (m - (j + 1)) + 1 by omega, List.replicate_succ,
      List.set_append_right _ _ (by omega), hjt, Nat.sub_self, List.set_cons_zero,
      take_succ_get (List.getElem?_eq_getElem hhj), List.append_assoc]
    rfl

/-! ## Section sizes -/

/-- What is assumed about the floating point division by the square root of 2. -/
def EnvOk (env : Env α) : Prop :=
  ∀ x : ℚ, 0 < x → 0 < env.divSqrt2 x ∧ |2 * (env.divSqrt2 x) ^ 2 - x ^ 2| ≤ x ^ 2 / 1000

theorem nearestEven_near (x : ℚ) : x - 1 ≤ nearestEven x ∧ (nearestEven x : ℚ) ≤ x + 1 := by
  have := goRound_near (x / 2)
  unfold nearestEven
  push_cast
  constructor <;> linarith [this.1, this.2]

theorem nearestEven_int (k : Nat) (h : k % 2 = 0) : nearestEven (k : ℚ) = k := by
  obtain ⟨m, rfl⟩ : ∃ m, k = 2 * m := ⟨k / 2, by omega⟩
  unfold nearestEven
  have := goRound_int m
  rw [show ((2 * m : Nat) : ℚ) / 2 = ((m : Int) : ℚ) by push_cast; ring, this]
  push_cast
  ring

theorem divSqrt2_le {env : Env α} (he : EnvOk env) {x : ℚ} (hx : 0 < x) : env.divSqrt2 x ≤ x := by
  obtain ⟨h0, h1⟩ := he x hx
  have h2 := (abs_le.1 h1).2
  by_contra hc
  have hc' := not_le.1 hc
  have : x ^ 2 < (env.divSqrt2 x) ^ 2 := by nlinarith
  nlinarith

/-- Shrinking the sections does not shrink the total. -/
theorem section_double {env : Env α} (he : EnvOk env) {x : ℚ} (hx : 0 < x)
    (h4 : 4 ≤ nearestEven (env.divSqrt2 x)) :
    nearestEven x ≤ 2 * nearestEven (env.divSqrt2 x) := by
  obtain ⟨h0, h1⟩ := he x hx
  have h2 := (abs_le.1 h1).1
  set y := env.divSqrt2 x with hy
  have hyx : x ≤ 1416 / 1000 * y := by
    by_contra hc
    have hc' := not_le.1 hc
    have : (1416 / 1000 * y) ^ 2 < x ^ 2 := by
      apply pow_lt_pow_left₀ hc' (by positivity) (by norm_num)
    nlinarith
  have a := (nearestEven_near x).2
  have b := (nearestEven_near y).1
  have h4' : (4 : ℚ) ≤ nearestEven y := by exact_mod_cast h4
  have : (nearestEven x : ℚ) < 2 * nearestEven y + 1 := by linarith
  have : nearestEven x < 2 * nearestEven y + 1 := by exact_mod_cast this
  omega

/-- Well-formed compactor of a sketch with parameter `K`. -/
structure CWf (K : Nat) (c : Compactor α) : Prop where
  cnt : c.count ≤ c.items.length
  srtd : c.sorted = true → (act c).Pairwise (· ≤ ·)
  secs : ∃ e ≤ 4, c.numSections = 3 * 2 ^ e
  size : 4 ≤ c.sectionSize
  size_flt : (c.sectionSize : Int) = nearestEven c.sectionSizeFlt
  flt_pos : 0 < c.sectionSizeFlt
  flt_le : c.sectionSizeFlt ≤ 1024
  base : 3 * K ≤ c.numSections * c.sectionSize
  vol : c.sectionSizeFlt ^ 2 * c.numSections ≤ 3 * (K : ℚ) ^ 2 * (1001 / 1000) ^ c.numSections
  low : 3 * (K : ℚ) ^ 2 * (999 / 1000) ^ c.numSections ≤ c.sectionSizeFlt ^ 2 * c.numSections

theorem CWf.size_le {K : Nat} {c : Compactor α} (h : CWf K c) : c.sectionSize ≤ 1025 := by
  have h1 := (nearestEven_near c.sectionSizeFlt).2
  rw [← h.size_flt] at h1
  have := h.flt_le
  have h2 : ((c.sectionSize : Int) : ℚ) ≤ 1025 := by linarith
  exact_mod_cast h2

theorem CWf.size_even {K : Nat} {c : Compactor α} (h : CWf K c) : c.sectionSize % 2 = 0 := by
  have h1 := h.size_flt
  unfold nearestEven at h1
  omega

theorem CWf.secs_range {K : Nat} {c : Compactor α} (h : CWf K c) :
    3 ≤ c.numSections ∧ c.numSections ≤ 48 := by
  obtain ⟨e, he, hs⟩ := h.secs
  have : e = 0 ∨ e = 1 ∨ e = 2 ∨ e = 3 ∨ e = 4 := by omega
  rcases this with rfl | rfl | rfl | rfl | rfl <;> omega

theorem CWf.act_length {K : Nat} {c : Compactor α} (h : CWf K c) : (act c).length = c.count :=
  actOf_length h.cnt

/-- What `ensureEnoughSections` leaves alone. -/
structure Resec (K : Nat) (c c' : Compactor α) : Prop where
  act : act c' = act c
  wf : CWf K c'
  count : c'.count = c.count
  hra : c'.hra = c.hra
  sorted : c'.sorted = c.sorted
  coin : c'.coin = c.coin
  state : c'.state = c.state
  lgWeight : c'.lgWeight = c.lgWeight
  cap : nomCapacity c ≤ nomCapacity c'

theorem Resec.refl {K : Nat} {c : Compactor α} (h : CWf K c) : Resec K c c :=
  ⟨rfl, h, rfl, rfl, rfl, rfl, rfl, rfl, le_refl _⟩

theorem Resec.trans {K : Nat} {a b c : Compactor α} (h : Resec K a b) (h' : Resec K b c) :
    Resec K a c :=
  ⟨h'.act.trans h.act, h'.wf, h'.count.trans h.count, h'.hra.trans h.hra,
    h'.sorted.trans h.sorted, h'.coin.trans h.coin, h'.state.trans h.state,
    h'.lgWeight.trans h.lgWeight, le_trans h.cap h'.cap⟩

theorem ensureEnoughSections_ok {env : Env α} (he : EnvOk env) {K : Nat} {c : Compactor α}
    (h : CWf K c) (hst : c.state < 2 ^ 47) :
    ∃ b c', ensureEnoughSections env c = .ok (b, c') ∧ Resec K c c' ∧
      (b = true → c'.numSections = 2 * c.numSections) ∧ (b = false → c' = c) := by
  obtain ⟨e, hel, hs⟩ := h.secs
  have hr := h.secs_range
  unfold ensureEnoughSections
  rw [show (c.numSections + 255) % 256 = c.numSections - 1 by omega]
  by_cases hcond : shl1 (c.numSections - 1) ≤ c.state ∧ 4 < c.sectionSize
  · rw [if_pos hcond]
    simp only
    by_cases hne : 4 ≤ nearestEven (env.divSqrt2 c.sectionSizeFlt)
    · rw [if_pos hne]
      have he4 : e < 4 := by
        by_contra hc
        have e4 : e = 4 := by omega
        rw [e4] at hs
        rw [hs] at hcond
        have := hcond.1
        simp only [shl1] at this
        norm_num at this
        omega
      have hdbl := section_double he h.flt_pos hne
      rw [← h.size_flt] at hdbl
      obtain ⟨I, h1, h2, h3, h4⟩ := ensureCapacity_ok env (c := { c with
        sectionSizeFlt := env.divSqrt2 c.sectionSizeFlt
        sectionSize := (nearestEven (env.divSqrt2 c.sectionSizeFlt)).toNat
        numSections := (c.numSections * 2) % 256 }) h.cnt (2 * nomCapacity { c with
        sectionSizeFlt := env.divSqrt2 c.sectionSizeFlt
        sectionSize := (nearestEven (env.divSqrt2 c.sectionSizeFlt)).toNat
        numSections := (c.numSections * 2) % 256 })
      have hmod : (c.numSections * 2) % 256 = 2 * c.numSections := by
        have : e = 0 ∨ e = 1 ∨ e = 2 ∨ e = 3 := by omega
        rcases this with rfl | rfl | rfl | rfl <;> omega
      rw [h1, Outcome.ok_bind]
      refine ⟨true, _, rfl, ?_, fun _ => hmod, by simp⟩
      have hact : actOf c.hra I c.count = act c := h4
      have hsz : c.sectionSize ≤ 2 * (nearestEven (env.divSqrt2 c.sectionSizeFlt)).toNat := by omega
      have hmul : c.numSections * c.sectionSize ≤
          2 * c.numSections * (nearestEven (env.divSqrt2 c.sectionSizeFlt)).toNat := by
        calc c.numSections * c.sectionSize ≤
            c.numSections * (2 * (nearestEven (env.divSqrt2 c.sectionSizeFlt)).toNat) :=
              Nat.mul_le_mul_left _ hsz
          _ = _ := by ring
      refine ⟨hact, ⟨?_, ?_, ⟨e + 1, by omega, ?_⟩, ?_, ?_, ?_, ?_, ?_, ?_, ?_⟩, rfl, rfl, rfl, rfl, rfl, rfl, ?_⟩
      · simp only at h2 ⊢
        have := h.cnt
        omega
      · intro hso
        show (actOf c.hra I c.count).Pairwise (· ≤ ·)
        rw [hact]
        exact h.srtd hso
      · show (c.numSections * 2) % 256 = _
        rw [hmod, hs, pow_succ]; ring
      · simp only; omega
      · simp only; omega
      · exact (he _ h.flt_pos).1
      · exact le_trans (divSqrt2_le he h.flt_pos) h.flt_le
      · show 3 * K ≤ (c.numSections * 2) % 256 * _
        rw [hmod]
        exact le_trans h.base hmul
      · show (env.divSqrt2 c.sectionSizeFlt) ^ 2 * (((c.numSections * 2) % 256 : Nat) : ℚ) ≤
          3 * (K : ℚ) ^ 2 * (1001 / 1000) ^ ((c.numSections * 2) % 256)
        rw [hmod]
        have h5 := (abs_le.1 (he _ h.flt_pos).2).2
        have h6 := h.vol
        have hns : (0 : ℚ) ≤ c.numSections := by positivity
        have h7 : (1001 / 1000 : ℚ) * (1001 / 1000) ^ c.numSections ≤
            (1001 / 1000) ^ (2 * c.numSections) := by
          rw [← pow_succ']
          exact pow_le_pow_right₀ (by norm_num) (by omega)
        have hK : (0 : ℚ) ≤ 3 * (K : ℚ) ^ 2 := by positivity
        push_cast
        calc (env.divSqrt2 c.sectionSizeFlt) ^ 2 * (2 * (c.numSections : ℚ))
            = 2 * (env.divSqrt2 c.sectionSizeFlt) ^ 2 * c.numSections := by ring
          _ ≤ 1001 / 1000 * c.sectionSizeFlt ^ 2 * c.numSections :=
              mul_le_mul_of_nonneg_right (by linarith) hns
          _ = 1001 / 1000 * (c.sectionSizeFlt ^ 2 * c.numSections) := by ring
          _ ≤ 1001 / 1000 * (3 * (K : ℚ) ^ 2 * (1001 / 1000) ^ c.numSections) :=
              mul_le_mul_of_nonneg_left h6 (by norm_num)
          _ = 3 * (K : ℚ) ^ 2 * (1001 / 1000 * (1001 / 1000) ^ c.numSections) := by ring
          _ ≤ _ := mul_le_mul_of_nonneg_left h7 hK
      · show 3 * (K : ℚ) ^ 2 * (999 / 1000) ^ ((c.numSections * 2) % 256) ≤
          (env.divSqrt2 c.sectionSizeFlt) ^ 2 * (((c.numSections * 2) % 256 : Nat) : ℚ)
        rw [hmod]
        have h5 := (abs_le.1 (he _ h.flt_pos).2).1
        have h6 := h.low
        have hns : (0 : ℚ) ≤ c.numSections := by positivity
        have h7 : (999 / 1000 : ℚ) ^ (2 * c.numSections) ≤
            999 / 1000 * (999 / 1000) ^ c.numSections := by
          rw [← pow_succ']
          exact pow_le_pow_of_le_one (by norm_num) (by norm_num) (by omega)
        have hK : (0 : ℚ) ≤ 3 * (K : ℚ) ^ 2 := by positivity
        push_cast
        calc 3 * (K : ℚ) ^ 2 * (999 / 1000) ^ (2 * c.numSections)
            ≤ 3 * (K : ℚ) ^ 2 * (999 / 1000 * (999 / 1000) ^ c.numSections) :=
              mul_le_mul_of_nonneg_left h7 hK
          _ = 999 / 1000 * (3 * (K : ℚ) ^ 2 * (999 / 1000) ^ c.numSections) := by ring
          _ ≤ 999 / 1000 * (c.sectionSizeFlt ^ 2 * c.numSections) :=
              mul_le_mul_of_nonneg_left h6 (by norm_num)
          _ = 999 / 1000 * c.sectionSizeFlt ^ 2 * c.numSections := by ring
          _ ≤ 2 * (env.divSqrt2 c.sectionSizeFlt) ^ 2 * c.numSections :=
              mul_le_mul_of_nonneg_right (by linarith) hns
          _ = _ := by ring
      · show 2 * c.numSections * c.sectionSize ≤ 2 * ((c.numSections * 2) % 256) * _
        rw [hmod, Nat.mul_assoc 2, Nat.mul_assoc 2]
        exact Nat.mul_le_mul_left 2 hmul
    · rw [if_neg hne]
      exact ⟨false, c, rfl, Resec.refl h, by simp, fun _ => rfl⟩
  · rw [if_neg hcond]
    exact ⟨false, c, rfl, Resec.refl h, by simp, fun _ => rfl⟩

theorem ensureLoop_ok {env : Env α} (he : EnvOk env) {K : Nat} (fuel : Nat) {c : Compactor α}
    (h : CWf K c) (hst : c.state < 2 ^ 47) (hf : 49 ≤ c.numSections + fuel) :
    ∃ c', ensureLoop env fuel c = .ok c' ∧ Resec K c c' := by
  induction fuel generalizing c with
  | zero =>
    have := h.secs_range
    omega
  | succ fuel ih =>
    obtain ⟨b, c', h1, h2, h3, h4⟩ := ensureEnoughSections_ok he h hst
    unfold ensureLoop
    rw [h1, Outcome.ok_bind]
    cases b with
    | true =>
      simp only [if_true]
      have hr := h.secs_range
      obtain ⟨c'', h5, h6⟩ := ih h2.wf (by rw [h2.state]; exact hst) (by rw [h3 rfl]; omega)
      exact ⟨c'', h5, h2.trans h6⟩
    | false => exact ⟨c', rfl, h2⟩

/-! ## Compaction -/

/-- How many items a compaction leaves, up to rounding. -/
def keepBase (c : Compactor α) : Nat :=
  c.numSections * c.sectionSize + (c.numSections - (trailingOnes 64 c.state + 1)) * c.sectionSize

/-- How many items a compaction leaves. -/
theorem chooseRange_ok {K : Nat} {c : Compactor α} (h : CWf K c) (hfull : nomCapacity c ≤ c.count) :
    ∃ nc : Nat, nc < nomCapacity c ∧ nomCapacity c ≤ 2 * nc ∧ nc + 2 ≤ c.count ∧
      (c.count - nc) % 2 = 0 ∧ (keepBase c ≤ nc ∧ nc ≤ keepBase c + 1) ∧
      chooseRange c = .ok (if c.hra then (0, c.count - nc) else (nc, c.count)) := by
  have hr := h.secs_range
  have hsz := h.size
  have hszl := h.size_le
  unfold chooseRange
  simp only
  generalize hsec : (if c.numSections < trailingOnes 64 c.state + 1 then c.numSections
    else trailingOnes 64 c.state + 1) = secs
  have hs1 : 1 ≤ secs := by split at hsec <;> omega
  have hs2 : secs ≤ c.numSections := by split at hsec <;> omega
  have hkb : keepBase c = c.numSections * c.sectionSize + (c.numSections - secs) * c.sectionSize := by
    unfold keepBase
    congr 2
    split at hsec <;> omega
  rw [hkb]
  unfold computeCompactionRange
  simp only
  have hcap : nomCapacity c = 2 * (c.numSections * c.sectionSize) := by
    unfold nomCapacity; ring
  -- the products
  have hprod : c.numSections * c.sectionSize =
      secs * c.sectionSize + (c.numSections - secs) * c.sectionSize := by
    rw [← Nat.add_mul]; congr 1; omega
  have hsecsz : c.sectionSize ≤ secs * c.sectionSize := Nat.le_mul_of_pos_left _ hs1
  have hbig : c.numSections * c.sectionSize ≤ 48 * 1025 := Nat.mul_le_mul hr.2 hszl
  have hcast : ((c.numSections : Int) - (secs : Int)) * (c.sectionSize : Int) =
      (((c.numSections - secs) * c.sectionSize : Nat) : Int) := by
    push_cast [Nat.cast_sub hs2]; ring
  rw [hcast]
  have hhalf : nomCapacity c / 2 = c.numSections * c.sectionSize := by omega
  rw [hhalf]
  generalize hN : c.numSections * c.sectionSize = N at *
  generalize hM : (c.numSections - secs) * c.sectionSize = M at *
  generalize hQ : secs * c.sectionSize = Q at *
  obtain ⟨nc, hnc⟩ : ∃ nc : Nat, (if ((c.count : Int) - ((N : Int) + (M : Int))) % 2 = 1 then
      (N : Int) + (M : Int) + 1 else (N : Int) + (M : Int)) = (nc : Int) :=
    ⟨if ((c.count : Int) - ((N : Int) + (M : Int))) % 2 = 1 then N + M + 1 else N + M, by
      split <;> push_cast <;> ring⟩
  rw [hnc]
  have hb : N + M ≤ nc ∧ nc ≤ N + M + 1 ∧ ((c.count : Int) - nc) % 2 = 0 := by
    split at hnc <;> refine ⟨?_, ?_, ?_⟩ <;> omega
  refine ⟨nc, by omega, by omega, by omega, by omega, ⟨hb.1, hb.2.1⟩, ?_⟩
  cases c.hra with
  | true =>
    simp only [if_true]
    have e1 : (((c.count : Int) - nc) * 2 ^ 32 + 0) % 2 ^ 32 = 0 := by simp
    have e2 : (((c.count : Int) - nc) * 2 ^ 32 + 0) / 2 ^ 32 = (c.count : Int) - nc := by
      rw [add_zero]; exact Int.mul_ediv_cancel _ (by norm_num)
    rw [e1, e2, if_neg (by omega), if_neg (by omega)]
    congr 2
    omega
  | false =>
    simp only [Bool.false_eq_true, if_false]
    have e1 : ((c.count : Int) * 2 ^ 32 + nc) % 2 ^ 32 = nc := by omega
    have e2 : ((c.count : Int) * 2 ^ 32 + nc) / 2 ^ 32 = (c.count : Int) := by omega
    rw [e1, e2, if_neg (by omega), if_neg (by omega)]
    simp

/-- The numbers of a compactor that say when it gets more sections. -/
def secsOf (c : Compactor α) : Nat × ℚ × Nat := (c.numSections, c.sectionSizeFlt, c.sectionSize)

def nextSecs (env : Env α) (q : Nat × ℚ × Nat) (state : Nat) : Nat × ℚ × Nat :=
  if shl1 ((q.1 + 255) % 256) ≤ state ∧ 4 < q.2.2 then
    if 4 ≤ nearestEven (env.divSqrt2 q.2.1) then
      ((q.1 * 2) % 256, env.divSqrt2 q.2.1, (nearestEven (env.divSqrt2 q.2.1)).toNat)
    else q
  else q

theorem ensureCapacity_items {env : Env α} {c c' : Compactor α} {N : Nat}
    (h : ensureCapacity env c N = .ok c') : secsOf c' = secsOf c := by
  unfold ensureCapacity at h
  simp only at h
  split at h
  · split at h
    · cases h
    · split at h <;> cases h <;> rfl
  · cases h; rfl

theorem ensureEnoughSections_secs {env : Env α} {c c' : Compactor α} {b : Bool}
    (h : ensureEnoughSections env c = .ok (b, c')) :
    secsOf c' = nextSecs env (secsOf c) c.state := by
  unfold ensureEnoughSections at h
  unfold nextSecs secsOf
  simp only at h ⊢
  split at h
  · rename_i h1
    rw [if_pos h1]
    split at h
    · rename_i h2
      rw [if_pos h2]
      obtain ⟨c2, h3, h4⟩ := Outcome.bind_eq_ok.1 h
      cases h4
      exact ensureCapacity_items h3
    · rename_i h2
      rw [if_neg h2]
      cases h; rfl
  · rename_i h1
    rw [if_neg h1]
    cases h; rfl

/-- What a compaction does. -/
structure Compacted (env : Env α) (K : Nat) (c next c' next' : Compactor α) (X Kp : List α) (coin : Bool) :
    Prop where
  act : act c' = Kp
  actn : Req.act next' = srt (Req.act next ++ half coin X)
  wf : CWf K c'
  wfn : CWf K next'
  hra : c'.hra = c.hra
  lgWeight : c'.lgWeight = c.lgWeight
  sorted : c'.sorted = true
  state : c'.state = c.state + 1
  coin : c'.coin = coin
  cap : nomCapacity c ≤ nomCapacity c'
  hran : next'.hra = next.hra
  lgWeightn : next'.lgWeight = next.lgWeight
  sortedn : next'.sorted = true
  staten : next'.state = next.state
  coinn : next'.coin = next.coin
  capn : nomCapacity next' = nomCapacity next
  secs : secsOf c' = nextSecs env (secsOf c) (c.state + 1)
  secsn : secsOf next' = secsOf next

theorem compactWith_ok {env : Env α} (he : EnvOk env) {K : Nat} {c next : Compactor α}
    (hc : CWf K c) (hn : CWf K next) (hns : next.sorted = true)
    (hfull : nomCapacity c ≤ c.count) (hst : c.state + 1 < 2 ^ 47) :
    ∃ range X Kp, chooseRange c = .ok range ∧ range.2 - range.1 = X.length ∧ X.length % 2 = 0 ∧ 2 ≤ X.length ∧
      Kp.length < nomCapacity c ∧ nomCapacity c ≤ 2 * Kp.length ∧
      (keepBase c ≤ Kp.length ∧ Kp.length ≤ keepBase c + 1) ∧
      srt (act c) = (if c.hra then X ++ Kp else Kp ++ X) ∧
      ∀ coin, ∃ c' next', compactWith env c next range coin =
          .ok ((c', next'), -((X.length / 2 : Nat) : Int),
            (nomCapacity c' : Int) - nomCapacity c) ∧
        Compacted env K c next c' next' X Kp coin := by
  obtain ⟨nc, h1, h2, h3, h4, hkb, h5⟩ := chooseRange_ok hc hfull
  have hactl : (srt (act c)).length = c.count := by
    rw [List.length_insertionSort, hc.act_length]
  have hsorted := srt_sorted (act c)
  -- the split of the sorted items
  obtain ⟨X, Kp, hX, hK, hsplit⟩ : ∃ X Kp, X.length = c.count - nc ∧ Kp.length = nc ∧
      srt (act c) = (if c.hra then X ++ Kp else Kp ++ X) := by
    cases c.hra with
    | true =>
      refine ⟨(srt (act c)).take (c.count - nc), (srt (act c)).drop (c.count - nc), ?_, ?_, ?_⟩
      · rw [List.length_take]; omega
      · rw [List.length_drop]; omega
      · simp only [if_true]; exact (List.take_append_drop _ _).symm
    | false =>
      refine ⟨(srt (act c)).drop nc, (srt (act c)).take nc, ?_, ?_, ?_⟩
      · rw [List.length_drop]; omega
      · rw [List.length_take]; omega
      · simp only [Bool.false_eq_true, if_false]; exact (List.take_append_drop _ _).symm
  have hdiff : (if c.hra = true then (0, c.count - nc) else (nc, c.count)).2 -
      (if c.hra = true then (0, c.count - nc) else (nc, c.count)).1 = X.length := by
    split <;> simp only <;> omega
  refine ⟨_, X, Kp, h5, hdiff, by omega, by omega, by omega, by omega, by rw [hK]; exact hkb, hsplit, ?_⟩
  intro coin
  have hXs : X.Sublist (srt (act c)) := by
    rw [hsplit]
    split
    · exact List.sublist_append_left _ _
    · exact List.sublist_append_right _ _
  have hKs : Kp.Sublist (srt (act c)) := by
    rw [hsplit]
    split
    · exact List.sublist_append_right _ _
    · exact List.sublist_append_left _ _
  have hhl := half_length coin X
  -- sorting
  obtain ⟨I, hso, hIl, hIa⟩ := sort_ok (c := { c with coin := coin }) hc.cnt hc.srtd
  have hIa : actOf c.hra I c.count = srt (act c) := hIa
  have hIl : I.length = c.items.length := hIl
  have hcnt := hc.cnt
  -- promotion
  have hActh : actOf next.hra (half coin X) (X.length / 2) = half coin X := by
    cases next.hra with
    | true =>
      have := actOf_true (P := []) (X := half coin X) (n := X.length / 2) (by omega)
      simpa using this
    | false =>
      have := actOf_false (S := []) (X := half coin X) (n := X.length / 2) (by omega)
      simpa using this
  obtain ⟨I2, hm, hI2l, hI2a⟩ := mergeSortIn_ok env hn.cnt hns (hn.srtd hns)
    (oItems := half coin X) (oCount := X.length / 2) (by omega)
    (by rw [hActh]; exact hsorted.sublist ((half_sublist coin X).trans hXs))
  rw [hActh] at hI2a
  have hprom : actOf c.hra I nc = Kp ∧ promoteEvensOrOddsInto env { c with coin := coin } next
      (if c.hra then (0, c.count - nc) else (nc, c.count)).1
      (if c.hra then (0, c.count - nc) else (nc, c.count)).2 coin =
      .ok ({ c with
        items := I
        sorted := true
        coin := coin }, { next with
        items := I2
        count := next.count + X.length / 2
        sorted := true }, X.length / 2) := by
    unfold promoteEvensOrOddsInto
    cases hh : c.hra with
    | true =>
      rw [hh] at hIa hsplit
      obtain ⟨P, hP, hPl⟩ := actOf_hra (items := I) (count := c.count) (by omega)
      rw [hIa, hsplit] at hP
      simp only [if_true] at hP ⊢
      refine ⟨?_, ?_⟩
      · rw [hP, ← List.append_assoc]
        exact actOf_true hK.symm
      · have hl := promoteLoop_ok env P X Kp (m := X.length / 2) (by omega) coin
        rw [List.append_assoc, ← hP, hPl, hIl, hX] at hl
        rw [hh] at hso
        rw [sub_ok hcnt, Outcome.ok_bind, hso, Outcome.ok_bind, sub_ok (Nat.zero_le _), Outcome.ok_bind,
          if_neg (by omega), Nat.sub_zero, Nat.add_zero, hl, Outcome.ok_bind, ← hX, hm,
          Outcome.ok_bind]
    | false =>
      rw [hh] at hIa hsplit
      obtain ⟨S, hS, hSl⟩ := actOf_lra (items := I) (count := c.count) (by omega)
      rw [hIa, hsplit] at hS
      simp only [Bool.false_eq_true, if_false] at hS ⊢
      refine ⟨?_, ?_⟩
      · rw [hS, List.append_assoc]
        exact actOf_false hK.symm
      · have hl := promoteLoop_ok env Kp X S (m := X.length / 2) (by omega) coin
        rw [← hS, hX, hK, show nc + (c.count - nc) = c.count by omega] at hl
        rw [hh] at hso
        rw [Outcome.ok_bind, hso, Outcome.ok_bind, sub_ok (by omega), Outcome.ok_bind,
          if_neg (by omega), Nat.zero_add, Nat.zero_add, hl, Outcome.ok_bind, ← hX, hm,
          Outcome.ok_bind]
  obtain ⟨hKact, hprom⟩ := hprom
  -- the end
  have hwf1 : CWf K ({ c with
      items := I
      sorted := true
      coin := coin
      count := nc
      state := c.state + 1 } : Compactor α) := by
    refine ⟨by simp only; omega, fun _ => ?_, hc.secs, hc.size, hc.size_flt, hc.flt_pos, hc.flt_le,
      hc.base, hc.vol, hc.low⟩
    show (actOf c.hra I nc).Pairwise (· ≤ ·)
    rw [hKact]
    exact hsorted.sublist hKs
  obtain ⟨b, c', hse, hre, -, -⟩ := ensureEnoughSections_ok he hwf1 hst
  refine ⟨c', ({ next with
      items := I2
      count := next.count + X.length / 2
      sorted := true } : Compactor α), ?_, ?_⟩
  · unfold compactWith
    rw [hprom, Outcome.ok_bind, hdiff]
    simp only
    rw [sub_ok (by omega), Outcome.ok_bind, if_pos (by omega), show c.count - X.length = nc by omega,
      hse, Outcome.ok_bind]
    congr 2
    have := hre.count
    simp only at this
    rw [this]
    congr 1
    omega
  · exact {
      act := hre.act.trans hKact
      actn := hI2a
      wf := hre.wf
      wfn := ⟨hI2l, fun _ => by
        show (actOf next.hra I2 _).Pairwise _
        rw [hI2a]
        exact srt_sorted _, hn.secs, hn.size, hn.size_flt, hn.flt_pos, hn.flt_le, hn.base, hn.vol, hn.low⟩
      hra := hre.hra
      lgWeight := hre.lgWeight
      sorted := hre.sorted
      state := hre.state
      coin := hre.coin
      cap := hre.cap
      hran := rfl
      lgWeightn := rfl
      sortedn := rfl
      staten := rfl
      coinn := rfl
      capn := rfl
      secs := ensureEnoughSections_secs hse
      secsn := rfl }

/-! ## Merging -/

/-- What merging a compactor does. -/
structure Merged (K : Nat) (c o c' : Compactor α) : Prop where
  act : act c' = srt (Req.act c ++ Req.act o)
  wf : CWf K c'
  hra : c'.hra = c.hra
  lgWeight : c'.lgWeight = c.lgWeight
  sorted : c'.sorted = true
  state : c'.state = c.state ||| o.state
  coin : c'.coin = c.coin
  cap : nomCapacity c ≤ nomCapacity c'

theorem mergeCompactor_ok {env : Env α} (he : EnvOk env) {K K' : Nat} {c o : Compactor α}
    (hc : CWf K c) (ho : CWf K' o) (hlg : c.lgWeight = o.lgWeight) (hhra : c.hra = o.hra)
    (hst : c.state ||| o.state < 2 ^ 47) :
    ∃ c', mergeCompactor env c o = .ok c' ∧ Merged K c o c' := by
  unfold mergeCompactor
  rw [if_neg (by simp [hlg])]
  have hc0 : CWf K ({ c with state := c.state ||| o.state } : Compactor α) :=
    ⟨hc.cnt, hc.srtd, hc.secs, hc.size, hc.size_flt, hc.flt_pos, hc.flt_le, hc.base, hc.vol, hc.low⟩
  obtain ⟨c1, h1, hre⟩ := ensureLoop_ok he 300 hc0 hst (by omega)
  rw [h1, Outcome.ok_bind]
  obtain ⟨I, h2, hIl, hIa⟩ := sort_ok hre.wf.cnt hre.wf.srtd
  rw [h2, Outcome.ok_bind]
  obtain ⟨J, h3, hJl, hJa⟩ := sort_ok ho.cnt ho.srtd
  rw [h3, Outcome.ok_bind]
  have hact1 : act c1 = act c := hre.act
  have hhra1 : c1.hra = c.hra := hre.hra
  have hcnt1 := hre.wf.cnt
  have hcnto := ho.cnt
  have hsA : (actOf c1.hra I c1.count).Pairwise (· ≤ ·) := by rw [hIa]; exact srt_sorted _
  have hsB : (actOf c1.hra J o.count).Pairwise (· ≤ ·) := by
    rw [hhra1, hhra, hJa]; exact srt_sorted _
  have hfin : ∀ L : List α, L.Perm (act c ++ act o) → srt L = srt (act c ++ act o) := by
    intro L hL
    exact eq_srt ((srt_perm L).trans hL) (srt_sorted L)
  simp only
  by_cases hlt : c1.count < o.count
  · rw [if_pos hlt]
    obtain ⟨M, h4, hMl, hMa⟩ := mergeSortIn_ok env (c := { c1 with
        items := J
        sorted := true
        count := o.count
        delta := o.delta }) (by simp only; omega) rfl hsB (oItems := I) (oCount := c1.count)
        (by omega) hsA
    rw [h4]
    have hMa' : actOf c1.hra M (o.count + c1.count) = srt (act c ++ act o) := by
      rw [hMa]
      apply hfin
      have e1 : act ({ c1 with
        items := J
        sorted := true
        count := o.count
        delta := o.delta } : Compactor α) = srt (act o) := by
        show actOf c1.hra J o.count = _
        rw [hhra1, hhra, hJa]
      rw [e1]
      show (srt (act o) ++ actOf c1.hra I c1.count).Perm _
      rw [hIa, hact1]
      exact ((srt_perm _).append (srt_perm _)).trans List.perm_append_comm
    refine ⟨_, rfl, hMa', ⟨hMl, fun _ => ?_, hre.wf.secs, hre.wf.size, hre.wf.size_flt, hre.wf.flt_pos,
      hre.wf.flt_le, hre.wf.base, hre.wf.vol, hre.wf.low⟩, hre.hra, hre.lgWeight, rfl, hre.state, hre.coin, hre.cap⟩
    show (actOf c1.hra M _).Pairwise _
    rw [hMa']
    exact srt_sorted _
  · rw [if_neg hlt]
    obtain ⟨M, h4, hMl, hMa⟩ := mergeSortIn_ok env (c := { c1 with
        items := I
        sorted := true }) (by simp only; omega) rfl hsA (oItems := J) (oCount := o.count)
        (by omega) hsB
    rw [h4]
    have hMa' : actOf c1.hra M (c1.count + o.count) = srt (act c ++ act o) := by
      rw [hMa]
      apply hfin
      have e1 : act ({ c1 with
        items := I
        sorted := true } : Compactor α) = srt (act c) := by
        show actOf c1.hra I c1.count = _
        rw [hIa, hact1]
      rw [e1]
      show (srt (act c) ++ actOf c1.hra J o.count).Perm _
      rw [hhra1, hhra, hJa]
      exact (srt_perm _).append (srt_perm _)
    refine ⟨_, rfl, hMa', ⟨hMl, fun _ => ?_, hre.wf.secs, hre.wf.size, hre.wf.size_flt, hre.wf.flt_pos,
      hre.wf.flt_le, hre.wf.base, hre.wf.vol, hre.wf.low⟩, hre.hra, hre.lgWeight, rfl, hre.state, hre.coin, hre.cap⟩
    show (actOf c1.hra M _).Pairwise _
    rw [hMa']
    exact srt_sorted _

theorem newCompactor_wf (env : Env α) (lg : Nat) (hra : Bool) {k : Nat} (h4 : 4 ≤ k) (hk : k ≤ 1024)
    (he : k % 2 = 0) : CWf k (newCompactor env lg hra k) := by
  refine ⟨Nat.zero_le _, fun _ => ?_, ⟨0, by omega, rfl⟩, h4, (nearestEven_int k he).symm, ?_, ?_,
    le_refl _, ?_, ?_⟩
  · have : act (newCompactor env lg hra k) = [] := by
      apply List.eq_nil_of_length_eq_zero
      exact actOf_length (Nat.zero_le _)
    rw [this]
    exact List.Pairwise.nil
  · show (0 : ℚ) < (k : ℚ)
    exact_mod_cast (by omega : 0 < k)
  · show (k : ℚ) ≤ 1024
    exact_mod_cast hk
  · show (k : ℚ) ^ 2 * ((3 : Nat) : ℚ) ≤ 3 * (k : ℚ) ^ 2 * (1001 / 1000) ^ 3
    have : (0 : ℚ) ≤ 3 * (k : ℚ) ^ 2 := by positivity
    push_cast
    calc (k : ℚ) ^ 2 * 3 = 3 * (k : ℚ) ^ 2 * 1 := by ring
      _ ≤ _ := mul_le_mul_of_nonneg_left (by norm_num) this
  · show 3 * (k : ℚ) ^ 2 * (999 / 1000) ^ 3 ≤ (k : ℚ) ^ 2 * ((3 : Nat) : ℚ)
    have : (0 : ℚ) ≤ 3 * (k : ℚ) ^ 2 := by positivity
    push_cast
    calc 3 * (k : ℚ) ^ 2 * (999 / 1000) ^ 3 ≤ 3 * (k : ℚ) ^ 2 * 1 :=
          mul_le_mul_of_nonneg_left (by norm_num) this
      _ = _ := by ring

/-- Capacity of a compactor. -/
theorem CWf.cap_le {K : Nat} {c : Compactor α} (h : CWf K c) : nomCapacity c ≤ 33 * K := by
  have hr := h.secs_range
  have hnear := (nearestEven_near c.sectionSizeFlt).2
  rw [← h.size_flt] at hnear
  have h4 : (4 : ℚ) ≤ c.sectionSize := by exact_mod_cast h.size
  push_cast at hnear
  -- the size is at most 4/3 of the number it is rounded from
  have hsz : (c.sectionSize : ℚ) ≤ 4 / 3 * c.sectionSizeFlt := by linarith
  have hpow : (1001 / 1000 : ℚ) ^ c.numSections ≤ 105 / 100 :=
    le_trans (pow_le_pow_right₀ (by norm_num) hr.2) (by norm_num)
  have hns : (c.numSections : ℚ) ≤ 48 := by exact_mod_cast hr.2
  have hns0 : (0 : ℚ) ≤ c.numSections := by positivity
  have hK : (0 : ℚ) ≤ 3 * (K : ℚ) ^ 2 := by positivity
  have hv : c.sectionSizeFlt ^ 2 * c.numSections ≤ 3 * (K : ℚ) ^ 2 * (105 / 100) :=
    le_trans h.vol (mul_le_mul_of_nonneg_left hpow hK)
  have hcap : ((nomCapacity c : Nat) : ℚ) = 2 * c.numSections * c.sectionSize := by
    unfold nomCapacity; push_cast; ring
  have h1 : (c.numSections * c.sectionSize : ℚ) ≤ c.numSections * (4 / 3 * c.sectionSizeFlt) :=
    mul_le_mul_of_nonneg_left hsz hns0
  have h2 : (c.numSections * c.sectionSize : ℚ) ^ 2 ≤ (33 / 2 * K) ^ 2 := by
    calc (c.numSections * c.sectionSize : ℚ) ^ 2
        ≤ (c.numSections * (4 / 3 * c.sectionSizeFlt)) ^ 2 :=
          pow_le_pow_left₀ (by positivity) h1 2
      _ = 16 / 9 * (c.numSections * (c.sectionSizeFlt ^ 2 * c.numSections)) := by ring
      _ ≤ 16 / 9 * (48 * (3 * (K : ℚ) ^ 2 * (105 / 100))) := by
          apply mul_le_mul_of_nonneg_left _ (by norm_num)
          exact mul_le_mul hns hv (by positivity) (by norm_num)
      _ ≤ _ := by nlinarith
  have h3 := sq_le_sq.1 h2
  have h4 : ((nomCapacity c : Nat) : ℚ) ≤ ((33 * K : Nat) : ℚ) := by
    rw [hcap]
    push_cast
    have : (c.numSections * c.sectionSize : ℚ) ≤ 33 / 2 * K := by
      rw [abs_of_nonneg (by positivity), abs_of_nonneg (by positivity)] at h3
      exact h3
    linarith
  exact_mod_cast h4

end Verif.Req
