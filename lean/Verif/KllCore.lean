import Verif.KllAbs
import Mathlib.Algebra.Order.Field.Rat
import Mathlib.Tactic.FieldSimp
import Mathlib.Tactic.NormNum
import Mathlib.Tactic.Positivity
import Mathlib.Tactic.LinearCombination
import Mathlib.Algebra.Order.BigOperators.Group.List

/-!
# Invariants of the list of levels

Weights, ranks, order and the error potential of a list of levels, and how one compaction, one new
item and the union of two lists of levels change them.
-/

namespace Verif.Kll

open Verif

variable {α : Type}

/-- Weighted number of items satisfying `p`: an item of level `h` counts `2^h`. -/
def rk (p : α → Bool) : List (List α) → Nat
  | [] => 0
  | l :: ls => l.countP p + 2 * rk p ls

/-- Total weight. -/
def wt (Ls : List (List α)) : Nat := rk (fun _ => true) Ls

theorem rk_append (p : α → Bool) (A B : List (List α)) :
    rk p (A ++ B) = rk p A + 2 ^ A.length * rk p B := by
  induction A with
  | nil => simp [rk]
  | cons l ls ih =>
    simp only [List.cons_append, rk, ih, List.length_cons, pow_succ]
    ring

/-- One compaction, with a new level on top if the last level is compacted. -/
def cstep (env : Env α) (doSort : Bool) (o h : Nat) (Ls : List (List α)) : List (List α) :=
  compactAt env doSort o h (if h + 1 = Ls.length then Ls ++ [[]] else Ls)

/-- The items kept by a compaction. -/
def kept (env : Env α) (doSort : Bool) (o : Nat) (X B : List α) : List α :=
  if B = [] then selUp o (if doSort then env.sort X else X)
  else selDown o (if doSort then env.sort X else X)

/-- The level before and the two levels after a compaction. -/
theorem cstep_form (env : Env α) (doSort : Bool) {h : Nat} {Ls : List (List α)}
    (hh : h < Ls.length) :
    ∃ A L B C, (Ls = A ++ L :: B :: C ∨ (Ls = A ++ [L] ∧ B = [] ∧ C = [])) ∧ A.length = h ∧
      ∀ o, cstep env doSort o h Ls =
        A ++ leftover L :: above env doSort o (evenPart L) B :: C := by
  unfold cstep
  by_cases ht : h + 1 = Ls.length
  · refine ⟨Ls.take h, Ls[h], [], [], Or.inr ⟨?_, rfl, rfl⟩, by rw [List.length_take]; omega, ?_⟩
    · have := List.take_append_drop h Ls
      rw [drop_cons_of hh, List.drop_eq_nil_of_le (by omega)] at this
      exact this.symm
    · intro o
      rw [if_pos ht]
      have e : Ls ++ [[]] = Ls.take h ++ Ls[h] :: [] :: [] := by
        have := List.take_append_drop h Ls
        rw [drop_cons_of hh, List.drop_eq_nil_of_le (by omega)] at this
        conv_lhs => rw [← this]
        asm
      have := compactAt_append env doSort o (Ls.take h) Ls[h] [] []
      rw [List.length_take, Nat.min_eq_left (by omega)] at this
      rw [e, this]
  · obtain ⟨A, L, B, C, hL, hA⟩ := split_two (show h + 1 < Ls.length by omega)
    refine ⟨A, L, B, C, Or.inl hL, hA, fun o => ?_⟩
    rw [if_neg ht, ← hA, hL, compactAt_append]

theorem rk_form (p : α → Bool) {Ls A C : List (List α)} {L B : List α}
    (h : Ls = A ++ L :: B :: C ∨ (Ls = A ++ [L] ∧ B = [] ∧ C = [])) :
    rk p Ls = rk p A + 2 ^ A.length * (L.countP p + 2 * (B.countP p + 2 * rk p C)) := by
  rcases h with rfl | ⟨rfl, rfl, rfl⟩
  · rw [rk_append]; rfl
  · rw [rk_append]; simp [rk]

theorem pop_form {Ls A C : List (List α)} {L B : List α}
    (h : Ls = A ++ L :: B :: C ∨ (Ls = A ++ [L] ∧ B = [] ∧ C = [])) :
    pop Ls A.length = L.length := by
  rcases h with rfl | ⟨rfl, rfl, rfl⟩
  · exact pop_append _ _ _
  · exact pop_append _ _ _

theorem countP_evens_odds (p : α → Bool) {X : List α} (hX : X.length % 2 = 0) :
    (evens X).countP p + (odds X).countP p = X.countP p := by
  induction X using evens.induct with
  | case1 a b l ih =>
    have := ih (by simp at hX; omega)
    simp only [evens, odds, List.countP_cons]
    omega
  | case2 l h =>
    match l, h with
    | [], _ => simp [evens, odds]
    | [a], _ => simp at hX
    | a :: b :: l, h => exact absurd rfl (h a b l)

theorem countP_sort {env : Env α} (hs : ∀ l, (env.sort l).Perm l) (p : α → Bool) (doSort : Bool)
    (X : List α) : (if doSort then env.sort X else X).countP p = X.countP p := by
  split
  · exact (hs X).countP_eq p
  · rfl

theorem length_sort {env : Env α} (hs : ∀ l, (env.sort l).Perm l) (doSort : Bool)
    (X : List α) : (if doSort then env.sort X else X).length = X.length := by
  split
  · exact (hs X).length_eq
  · rfl

theorem countP_above {env : Env α} (p : α → Bool) (doSort : Bool) (o : Nat) (X B : List α) :
    (above env doSort o X B).countP p = (kept env doSort o X B).countP p + B.countP p := by
  unfold above kept
  simp only []
  by_cases hB : B = []
  · rw [if_pos hB, if_pos hB, hB]; simp
  · rw [if_neg hB, if_neg hB, (mergeL_perm _ _ _).countP_eq, List.countP_append]

theorem kept_sum {env : Env α} (hs : ∀ l, (env.sort l).Perm l) (p : α → Bool) (doSort : Bool)
    (X B : List α) (hX : X.length % 2 = 0) :
    (kept env doSort 0 X B).countP p + (kept env doSort 1 X B).countP p = X.countP p := by
  have h := countP_evens_odds p (X := if doSort then env.sort X else X)
    (by rw [length_sort hs]; exact hX)
  rw [countP_sort hs] at h
  unfold kept selUp selDown
  by_cases hB : B = []
  · simp only [if_pos hB]; simp; omega
  · simp only [if_neg hB]; simp; omega

theorem countP_leftover (p : α → Bool) (L : List α) :
    (leftover L).countP p + (evenPart L).countP p = L.countP p := by
  rw [← List.countP_append, leftover_append]

/-- The rank after a compaction. -/
theorem rk_cstep {env : Env α} (doSort : Bool) {h : Nat} {Ls : List (List α)} (hh : h < Ls.length) :
    ∃ X B : List α, X.length = 2 * (pop Ls h / 2) ∧
      (∃ L, Ls[h]? = some L ∧ X = evenPart L) ∧ (∀ p o,
      rk p (cstep env doSort o h Ls) + 2 ^ h * X.countP p =
        rk p Ls + 2 ^ h * (2 * (kept env doSort o X B).countP p)) := by
  obtain ⟨A, L, B, C, hf, hA, hc⟩ := cstep_form env doSort hh
  refine ⟨evenPart L, B, ?_, ⟨L, ?_, rfl⟩, fun p o => ?_⟩
  · rw [evenPart_length, ← hA, pop_form hf]
  · rw [← hA]
    rcases hf with rfl | ⟨rfl, rfl, rfl⟩
    · exact get_mid _ _ _ rfl
    · exact get_mid _ _ _ rfl
  · rw [hc o, rk_form p hf, rk_append, ← hA]
    simp only [rk, countP_above]
    have := countP_leftover p L
    rw [← this]
    ring

/-- The two outcomes of the coin average to the rank before. -/
theorem rk_cstep_avg {env : Env α} (hs : ∀ l, (env.sort l).Perm l) (p : α → Bool) (doSort : Bool)
    {h : Nat} {Ls : List (List α)} (hh : h < Ls.length) :
    rk p (cstep env doSort 0 h Ls) + rk p (cstep env doSort 1 h Ls) = 2 * rk p Ls := by
  obtain ⟨X, B, hX, _, h1⟩ := rk_cstep (env := env) doSort hh
  have e0 := h1 p 0
  have e1 := h1 p 1
  have e := kept_sum hs p doSort X B (by omega)
  rw [← e] at e0 e1
  have : 2 ^ h * (2 * (kept env doSort 0 X B).countP p) +
      2 ^ h * (2 * (kept env doSort 1 X B).countP p) =
      2 * (2 ^ h * ((kept env doSort 0 X B).countP p + (kept env doSort 1 X B).countP p)) := by ring
  omega

theorem kept_length {env : Env α} (hs : ∀ l, (env.sort l).Perm l) (doSort : Bool) (o : Nat)
    (X B : List α) : (kept env doSort o X B).length = X.length / 2 := by
  unfold kept
  split
  · rw [selUp_length, length_sort hs]
  · rw [selDown_length, length_sort hs]

theorem wt_cstep {env : Env α} (hs : ∀ l, (env.sort l).Perm l) (doSort : Bool) (o : Nat)
    {h : Nat} {Ls : List (List α)} (hh : h < Ls.length) :
    wt (cstep env doSort o h Ls) = wt Ls := by
  obtain ⟨X, B, hX, _, h1⟩ := rk_cstep (env := env) doSort hh
  have e := h1 (fun _ => true) o
  have hk := kept_length hs doSort o X B
  simp only [List.countP_true] at e
  rw [hk, show 2 * (X.length / 2) = X.length by omega] at e
  unfold wt
  omega

/-! ## Order -/

/-- `compareFn` is a strict weak order. -/
structure IsOrd (lt : α → α → Bool) : Prop where
  asymm : ∀ a b, lt a b = true → lt b a = false
  trans : ∀ a b c, lt b a = false → lt c b = false → lt c a = false

/-- Sorted by `compareFn` -/
def Sorted (lt : α → α → Bool) (l : List α) : Prop := l.Pairwise fun a b => lt b a = false

/-- What is assumed of `slices.SortFunc` and `sort.Slice`. -/
structure Sorts (env : Env α) : Prop where
  perm : ∀ l, (env.sort l).Perm l
  sorted : ∀ l, Sorted env.lt (env.sort l)
  permSlice : ∀ l, (env.sortSlice l).Perm l
  sortedSlice : ∀ l, Sorted env.lt (env.sortSlice l)

/-- A set of items that contains with an item all smaller ones. -/
def Down (lt : α → α → Bool) (p : α → Bool) : Prop := ∀ a b, lt b a = false → p b = true → p a = true

theorem down_lt {lt : α → α → Bool} (h : IsOrd lt) (q : α) : Down lt (fun y => lt y q) := by
  intro a b hab hb
  by_contra hc
  have hc' : lt a q = false := by simpa using hc
  have h1 := h.trans q a b hc' hab
  simp [h1] at hb

theorem down_le {lt : α → α → Bool} (h : IsOrd lt) (q : α) : Down lt (fun y => !lt q y) := by
  intro a b hab hb
  have hb' : lt q b = false := by simpa using hb
  have := h.trans a b q hab hb'
  simp [this]

theorem mergeL_sorted {lt : α → α → Bool} (h : IsOrd lt) {A B : List α} (hA : Sorted lt A)
    (hB : Sorted lt B) : Sorted lt (mergeL lt A B) := by
  induction A generalizing B with
  | nil => simpa using hB
  | cons a A ihA =>
    induction B with
    | nil => simpa using hA
    | cons b B ihB =>
      have hA' := List.pairwise_cons.1 hA
      have hB' := List.pairwise_cons.1 hB
      rw [mergeL_cons]
      by_cases hab : lt a b = true
      · rw [if_pos hab]
        refine List.pairwise_cons.2 ⟨fun x hx => ?_, ihA hA'.2 hB⟩
        rw [(mergeL_perm lt A (b :: B)).mem_iff, List.mem_append] at hx
        rcases hx with hx | hx
        · exact hA'.1 x hx
        · have hba := h.asymm a b hab
          rcases List.mem_cons.1 hx with rfl | hx
          · exact hba
          · exact h.trans a b x hba (hB'.1 x hx)
      · rw [if_neg hab]
        have hab' : lt a b = false := by simpa using hab
        refine List.pairwise_cons.2 ⟨fun x hx => ?_, ihB hB'.2⟩
        rw [(mergeL_perm lt (a :: A) B).mem_iff, List.mem_append] at hx
        rcases hx with hx | hx
        · rcases List.mem_cons.1 hx with rfl | hx
          · exact hab'
          · exact h.trans b a x hab' (hA'.1 x hx)
        · exact hB'.1 x hx

theorem evens_sublist (X : List α) : (evens X).Sublist X := by
  induction X using evens.induct with
  | case1 a b l ih => exact (List.Sublist.cons b ih).cons_cons a
  | case2 l h =>
    match l, h with
    | [], _ => simp [evens]
    | [a], _ => simp [evens]
    | a :: b :: l, h => exact absurd rfl (h a b l)

theorem odds_sublist (X : List α) : (odds X).Sublist X := by
  induction X using odds.induct with
  | case1 a b l ih => exact List.Sublist.cons a (ih.cons_cons b)
  | case2 l h =>
    match l, h with
    | [], _ => simp [odds]
    | [a], _ => simp [odds]
    | a :: b :: l, h => exact absurd rfl (h a b l)

theorem selUp_sublist (o : Nat) (X : List α) : (selUp o X).Sublist X := by
  unfold selUp; split
  · exact odds_sublist X
  · exact evens_sublist X

theorem selDown_sublist (o : Nat) (X : List α) : (selDown o X).Sublist X := by
  unfold selDown; split
  · exact evens_sublist X
  · exact odds_sublist X

theorem above_sorted {env : Env α} (ho : IsOrd env.lt) (doSort : Bool) (o : Nat) {X B : List α}
    (hX : Sorted env.lt (if doSort then env.sort X else X)) (hB : Sorted env.lt B) :
    Sorted env.lt (above env doSort o X B) := by
  unfold above
  simp only []
  split
  · exact List.Pairwise.sublist (selUp_sublist _ _) hX
  · exact mergeL_sorted ho (List.Pairwise.sublist (selDown_sublist _ _) hX) hB

theorem mem_above {env : Env α} (hs : ∀ l, (env.sort l).Perm l) {doSort : Bool} {o : Nat}
    {X B : List α} {x : α} (hx : x ∈ above env doSort o X B) : x ∈ X ∨ x ∈ B := by
  have hX : ∀ y, y ∈ (if doSort then env.sort X else X) → y ∈ X := by
    intro y hy
    split at hy
    · exact (hs X).mem_iff.1 hy
    · exact hy
  unfold above at hx
  simp only [] at hx
  split at hx
  · exact Or.inl (hX x ((selUp_sublist _ _).mem hx))
  · rw [(mergeL_perm _ _ _).mem_iff, List.mem_append] at hx
    rcases hx with hx | hx
    · exact Or.inl (hX x ((selDown_sublist _ _).mem hx))
    · exact Or.inr hx

/-- In a sorted list the two halves contain almost equally many items of a lower set. -/
theorem halves_close {lt : α → α → Bool} {p : α → Bool} (hp : Down lt p) {X : List α}
    (hX : Sorted lt X) :
    (odds X).countP p ≤ (evens X).countP p ∧ (evens X).countP p ≤ (odds X).countP p + 1 := by
  induction X using evens.induct with
  | case1 a b l ih =>
    have h1 := List.pairwise_cons.1 hX
    have h2 := List.pairwise_cons.1 h1.2
    have hih := ih h2.2
    simp only [evens, odds, List.countP_cons]
    by_cases hb : p b = true
    · have ha : p a = true := hp a b (h1.1 b (by simp)) hb
      simp only [ha, hb, if_true]
      omega
    · have hl : ∀ x ∈ l, p x ≠ true := fun x hx hpx => hb (hp b x (h2.1 x hx) hpx)
      have e1 : (odds l).countP p = 0 :=
        List.countP_eq_zero.2 fun x hx => hl x ((odds_sublist l).mem hx)
      have e2 : (evens l).countP p = 0 :=
        List.countP_eq_zero.2 fun x hx => hl x ((evens_sublist l).mem hx)
      have hb' : p b = false := by simpa using hb
      rw [e1, e2, hb']
      by_cases ha : p a = true
      · simp [ha]
      · have ha' : p a = false := by simpa using ha
        simp [ha']
  | case2 l h =>
    match l, h with
    | [], _ => simp [evens, odds]
    | [a], _ => simp [evens, odds]
    | a :: b :: l, h => exact absurd rfl (h a b l)

theorem kept_close {env : Env α} (hs : ∀ l, (env.sort l).Perm l) {p : α → Bool}
    (hp : Down env.lt p) (doSort : Bool) {o : Nat} {X B : List α}
    (hX : Sorted env.lt (if doSort then env.sort X else X)) (hev : X.length % 2 = 0) :
    X.countP p ≤ 2 * (kept env doSort o X B).countP p + 1 ∧
    2 * (kept env doSort o X B).countP p ≤ X.countP p + 1 := by
  have h1 := halves_close hp hX
  have h2 := countP_evens_odds p (X := if doSort then env.sort X else X)
    (by rw [length_sort hs]; exact hev)
  rw [countP_sort hs] at h2
  unfold kept selUp selDown
  by_cases hB : B = []
  · simp only [if_pos hB]
    by_cases h0 : o = 0
    · simp only [if_pos h0]; omega
    · simp only [if_neg h0]; omega
  · simp only [if_neg hB]
    by_cases h0 : o = 0
    · simp only [if_pos h0]; omega
    · simp only [if_neg h0]; omega

/-- A compaction of level `h` moves the rank of a lower set by at most `2^h`. -/
theorem rk_cstep_close {env : Env α} (hs : ∀ l, (env.sort l).Perm l) {p : α → Bool}
    (hp : Down env.lt p) {doSort : Bool} {o h : Nat} {Ls : List (List α)} (hh : h < Ls.length)
    (hX : ∀ L, Ls[h]? = some L →
      Sorted env.lt (if doSort then env.sort (evenPart L) else evenPart L)) :
    rk p (cstep env doSort o h Ls) ≤ rk p Ls + 2 ^ h ∧
    rk p Ls ≤ rk p (cstep env doSort o h Ls) + 2 ^ h := by
  obtain ⟨X, B, hXl, ⟨L, hL, rfl⟩, h1⟩ := rk_cstep (env := env) doSort hh
  have e := h1 p o
  obtain ⟨c1, c2⟩ := kept_close (o := o) (B := B) hs hp doSort (hX L hL) (by omega)
  have m1 := Nat.mul_le_mul_left (2 ^ h) c1
  have m2 := Nat.mul_le_mul_left (2 ^ h) c2
  rw [Nat.mul_add, Nat.mul_one] at m1 m2
  omega

/-! ## Sizes -/

theorem cstep_length (env : Env α) (doSort : Bool) (o : Nat) {h : Nat} {Ls : List (List α)}
    (hh : h < Ls.length) :
    (cstep env doSort o h Ls).length = if h + 1 = Ls.length then Ls.length + 1 else Ls.length := by
  obtain ⟨A, L, B, C, hf, hA, hc⟩ := cstep_form env doSort hh
  rw [hc o]
  rcases hf with rfl | ⟨rfl, rfl, rfl⟩
  · rw [if_neg (by simp; omega)]; simp
  · rw [if_pos (by simp; omega)]; simp

theorem cstep_size {env : Env α} (hs : ∀ l, (env.sort l).Perm l) (doSort : Bool) (o : Nat) {h : Nat}
    {Ls : List (List α)} (hh : h < Ls.length) :
    size (cstep env doSort o h Ls) + pop Ls h / 2 = size Ls := by
  obtain ⟨A, L, B, C, hf, hA, hc⟩ := cstep_form env doSort hh
  rw [hc o, ← hA, pop_form hf]
  have h1 := above_length hs doSort o (evenPart L) B
  have h2 := evenPart_length L
  have h3 := leftover_length L
  rcases hf with rfl | ⟨rfl, rfl, rfl⟩
  · simp only [size_append, size_cons, h1, h2, h3]; omega
  · simp only [size_append, size_cons, size_nil, h1, h2, h3, List.length_nil]; omega

/-! ## Invariants -/

/-- `n` presented items are `S`; no order is needed here. -/
structure Core (n : Nat) (S : List α) (Ls : List (List α)) (log : List Nat) : Prop where
  ne : Ls ≠ []
  weight : wt Ls = n
  len : S.length = n
  top : Ls.length = 1 ∨ 2 ^ (Ls.length - 1) ≤ n
  mem : ∀ x ∈ Ls.flatten, x ∈ S
  one : Ls.length = 1 → log = []

/-- `∑ 2^h` over the compactions -/
def q2 (log : List Nat) : Nat := (log.map fun h => 2 ^ h).sum

/-- `∑ 4^h` over the compactions -/
def q4 (log : List Nat) : Nat := (log.map fun h => 4 ^ h).sum

@[simp] theorem q2_cons (h : Nat) (l : List Nat) : q2 (h :: l) = 2 ^ h + q2 l := by simp [q2]
@[simp] theorem q4_cons (h : Nat) (l : List Nat) : q4 (h :: l) = 4 ^ h + q4 l := by simp [q4]
@[simp] theorem q2_append (a b : List Nat) : q2 (a ++ b) = q2 a + q2 b := by simp [q2]
@[simp] theorem q4_append (a b : List Nat) : q4 (a ++ b) = q4 a + q4 b := by simp [q4]
@[simp] theorem q2_nil : q2 [] = 0 := rfl
@[simp] theorem q4_nil : q4 [] = 0 := rfl

theorem flatten_form {Ls A C : List (List α)} {L B : List α}
    (h : Ls = A ++ L :: B :: C ∨ (Ls = A ++ [L] ∧ B = [] ∧ C = [])) :
    Ls.flatten = A.flatten ++ L ++ B ++ C.flatten := by
  rcases h with rfl | ⟨rfl, rfl, rfl⟩ <;> simp

theorem wt_pop {Ls : List (List α)} {h : Nat} : 2 ^ h * pop Ls h ≤ wt Ls := by
  by_cases hh : h < Ls.length
  · obtain ⟨P, x, S, rfl, hP⟩ := split_at hh
    unfold wt
    rw [rk_append, ← hP, pop_append]
    simp only [rk, List.countP_true]
    have := Nat.mul_le_mul_left (2 ^ P.length)
      (show x.length ≤ x.length + 2 * rk (fun _ => true) S by omega)
    omega
  · have : pop Ls h = 0 := by
      unfold pop
      rw [List.getD_eq_getElem?_getD, List.getElem?_eq_none (by omega)]; rfl
    rw [this]; simp

theorem Core.comp {env : Env α} (hs : ∀ l, (env.sort l).Perm l) {n : Nat} {S : List α}
    {Ls : List (List α)} {log : List Nat} (hc : Core n S Ls log) (doSort : Bool) (o : Nat) {h : Nat}
    (hh : h < Ls.length) (hp : 2 ≤ pop Ls h) :
    Core n S (cstep env doSort o h Ls) (h :: log) := by
  have hl := cstep_length env doSort o hh
  refine ⟨?_, ?_, hc.len, ?_, ?_, ?_⟩
  · intro h0
    rw [h0] at hl
    simp at hl
    split at hl <;> omega
  · rw [wt_cstep hs doSort o hh, hc.weight]
  · right
    rw [hl]
    by_cases ht : h + 1 = Ls.length
    · rw [if_pos ht]
      have h1 := wt_pop (Ls := Ls) (h := h)
      rw [hc.weight] at h1
      have h2 := Nat.mul_le_mul_left (2 ^ h) hp
      rw [show Ls.length + 1 - 1 = h + 1 by omega, pow_succ]
      omega
    · rw [if_neg ht]
      rcases hc.top with h1 | h1
      · omega
      · exact h1
  · obtain ⟨A, L, B, C, hf, hA, hcs⟩ := cstep_form env doSort hh
    rw [hcs o]
    intro x hx
    apply hc.mem
    rw [flatten_form hf]
    simp only [List.flatten_append, List.flatten_cons, List.mem_append] at hx ⊢
    have hL : ∀ y, y ∈ leftover L ∨ y ∈ evenPart L → y ∈ L := by
      intro y hy
      rw [← leftover_append L, List.mem_append]; exact hy
    rcases hx with hx | hx | hx | hx
    · simp [hx]
    · simp [hL x (Or.inl hx)]
    · rcases mem_above hs hx with hx | hx
      · simp [hL x (Or.inr hx)]
      · simp [hx]
    · simp [hx]
  · intro h1
    rw [hl] at h1
    split at h1 <;> omega

/-- Order and error bound. -/
structure Srt (env : Env α) (S : List α) (zs : Bool) (Ls : List (List α)) (log : List Nat) :
    Prop where
  sorted : ∀ l ∈ Ls.tail, Sorted env.lt l
  zsorted : zs = true → ∀ l, Ls.head? = some l → Sorted env.lt l
  err : ∀ p, Down env.lt p → rk p Ls ≤ S.countP p + q2 log ∧ S.countP p ≤ rk p Ls + q2 log

theorem sorted_evenPart {lt : α → α → Bool} {L : List α} (h : Sorted lt L) :
    Sorted lt (evenPart L) := List.Pairwise.sublist (List.drop_sublist _ _) h

theorem sorted_leftover (lt : α → α → Bool) (L : List α) : Sorted lt (leftover L) := by
  have h := leftover_length L
  have : (leftover L).length ≤ 1 := by omega
  match hl : leftover L, this with
  | [], _ => exact List.Pairwise.nil
  | [a], _ => exact List.pairwise_singleton _ _
  | a :: b :: l, hlen => simp at hlen

/-- The level to be compacted is sorted, or will be. -/
theorem Srt.ready {env : Env α} (hso : Sorts env) {S : List α} {zs : Bool} {Ls : List (List α)}
    {log : List Nat} (hc : Srt env S zs Ls log) {doSort : Bool} {h : Nat}
    (hd : doSort = false → h = 0 → zs = true) : ∀ L, Ls[h]? = some L →
      Sorted env.lt (if doSort then env.sort (evenPart L) else evenPart L) := by
  intro L hL
  cases doSort with
  | true => exact hso.sorted _
  | false =>
    simp only [Bool.false_eq_true, if_false]
    apply sorted_evenPart
    cases Ls with
    | nil => simp at hL
    | cons l Ls =>
      cases h with
      | zero => exact hc.zsorted (hd rfl rfl) L (by simpa using hL)
      | succ h =>
        apply hc.sorted
        simp only [List.getElem?_cons_succ] at hL
        exact List.mem_of_getElem? hL

theorem Srt.comp {env : Env α} (ho : IsOrd env.lt) (hso : Sorts env) {S : List α} {zs : Bool}
    {Ls : List (List α)} {log : List Nat} (hc : Srt env S zs Ls log) {doSort : Bool} (o : Nat)
    {h : Nat} (hh : h < Ls.length) (hd : doSort = false → h = 0 → zs = true) :
    Srt env S zs (cstep env doSort o h Ls) (h :: log) := by
  have hready := hc.ready hso hd
  obtain ⟨A, L, B, C, hf, hA, hcs⟩ := cstep_form env doSort hh
  have hL : Ls[h]? = some L := by
    rw [← hA]
    rcases hf with rfl | ⟨rfl, rfl, rfl⟩
    · exact get_mid _ _ _ rfl
    · exact get_mid _ _ _ rfl
  have hB : Sorted env.lt B := by
    rcases hf with rfl | ⟨rfl, rfl, rfl⟩
    · apply hc.sorted
      cases A with
      | nil => simp
      | cons a A => simp
    · exact List.Pairwise.nil
  refine ⟨?_, ?_, ?_⟩
  · rw [hcs o]
    have hab := above_sorted ho doSort o (hready L hL) hB
    have hC : ∀ l ∈ C, Sorted env.lt l := by
      intro l hl
      rcases hf with rfl | ⟨rfl, rfl, rfl⟩
      · apply hc.sorted
        cases A with
        | nil => simp [hl]
        | cons a A => simp [hl]
      · simp at hl
    cases A with
    | nil =>
      intro l hl
      simp only [List.nil_append, List.tail_cons, List.mem_cons] at hl
      rcases hl with rfl | hl
      · exact hab
      · exact hC l hl
    | cons a A =>
      intro l hl
      simp only [List.cons_append, List.tail_cons, List.mem_append, List.mem_cons] at hl
      rcases hl with hl | rfl | rfl | hl
      · apply hc.sorted
        rcases hf with rfl | ⟨rfl, _, _⟩ <;> simp [hl]
      · exact sorted_leftover _ _
      · exact hab
      · exact hC l hl
  · rw [hcs o]
    intro hz l hl
    cases A with
    | nil =>
      have : leftover L = l := by simpa using hl
      rw [← this]
      exact sorted_leftover _ _
    | cons a A =>
      have : a = l := by simpa using hl
      apply hc.zsorted hz
      rcases hf with rfl | ⟨rfl, _, _⟩ <;> simp [this]
  · intro p hp
    obtain ⟨e1, e2⟩ := hc.err p hp
    obtain ⟨c1, c2⟩ := rk_cstep_close (o := o) hso.perm hp hh hready
    rw [q2_cons]
    omega

/-! ## Adding an item -/

def consHead (x : α) : List (List α) → List (List α)
  | [] => []
  | l :: ls => (x :: l) :: ls

theorem consHead_length (x : α) (Ls : List (List α)) : (consHead x Ls).length = Ls.length := by
  cases Ls <;> rfl

theorem rk_consHead (p : α → Bool) (x : α) {Ls : List (List α)} (h : Ls ≠ []) :
    rk p (consHead x Ls) = rk p Ls + if p x then 1 else 0 := by
  cases Ls with
  | nil => exact absurd rfl h
  | cons l ls => simp only [consHead, rk, List.countP_cons]; omega

theorem size_consHead (x : α) {Ls : List (List α)} (h : Ls ≠ []) :
    size (consHead x Ls) = size Ls + 1 := by
  cases Ls with
  | nil => exact absurd rfl h
  | cons l ls => simp only [consHead, size_cons, List.length_cons]; omega

theorem Core.store {n : Nat} {S : List α} {Ls : List (List α)} {log : List Nat}
    (hc : Core n S Ls log) (x : α) : Core (n + 1) (S ++ [x]) (consHead x Ls) log := by
  refine ⟨?_, ?_, by simp [hc.len], ?_, ?_, ?_⟩
  · intro h0
    have := consHead_length x Ls
    rw [h0] at this
    exact hc.ne (List.eq_nil_of_length_eq_zero (by simpa using this.symm))
  · have := rk_consHead (fun _ => true) x hc.ne
    have hw := hc.weight
    unfold wt at hw ⊢
    rw [this, hw]; rfl
  · rw [consHead_length]
    rcases hc.top with h | h
    · exact Or.inl h
    · exact Or.inr (by omega)
  · have hm := hc.mem
    cases Ls with
    | nil => exact absurd rfl hc.ne
    | cons l ls =>
      intro y hy
      simp only [consHead, List.flatten_cons, List.cons_append, List.mem_cons] at hy
      rcases hy with rfl | hy
      · simp
      · exact List.mem_append_left _ (hm y (by simpa using hy))
  · rw [consHead_length]; exact hc.one

theorem Srt.store {env : Env α} {S : List α} {zs : Bool} {Ls : List (List α)}
    {log : List Nat} (hc : Srt env S zs Ls log) (hne : Ls ≠ []) (x : α) :
    Srt env (S ++ [x]) false (consHead x Ls) log := by
  refine ⟨?_, (fun h => by simp at h), ?_⟩
  · have := hc.sorted
    cases Ls with
    | nil => exact absurd rfl hne
    | cons l ls => exact this
  · intro p hp
    obtain ⟨e1, e2⟩ := hc.err p hp
    rw [rk_consHead p x hne, List.countP_append]
    have : [x].countP p = if p x then 1 else 0 := by simp [List.countP_cons]
    rw [this]
    omega

/-! ## The union of two lists of levels -/

/-- Level by level merge. -/
def zipL (lt : α → α → Bool) : List (List α) → List (List α) → List (List α)
  | [], os => os
  | ms, [] => ms
  | m :: ms, o :: os => mergeL lt m o :: zipL lt ms os

@[simp] theorem zipL_nil_left (lt : α → α → Bool) (os : List (List α)) : zipL lt [] os = os := by
  rw [zipL]

@[simp] theorem zipL_nil_right (lt : α → α → Bool) (ms : List (List α)) : zipL lt ms [] = ms := by
  cases ms <;> simp [zipL]

theorem zipL_length (lt : α → α → Bool) (ms os : List (List α)) :
    (zipL lt ms os).length = max ms.length os.length := by
  induction ms generalizing os with
  | nil => simp
  | cons m ms ih =>
    cases os with
    | nil => simp
    | cons o os => simp only [zipL, List.length_cons, ih]; omega

theorem rk_zipL (lt : α → α → Bool) (p : α → Bool) (ms os : List (List α)) :
    rk p (zipL lt ms os) = rk p ms + rk p os := by
  induction ms generalizing os with
  | nil => simp [rk]
  | cons m ms ih =>
    cases os with
    | nil => simp [rk]
    | cons o os =>
      simp only [zipL, rk, ih, (mergeL_perm lt m o).countP_eq, List.countP_append]
      ring

theorem size_zipL (lt : α → α → Bool) (ms os : List (List α)) :
    size (zipL lt ms os) = size ms + size os := by
  induction ms generalizing os with
  | nil => simp
  | cons m ms ih =>
    cases os with
    | nil => simp
    | cons o os => simp only [zipL, size_cons, ih, mergeL_length]; omega

theorem mem_zipL (lt : α → α → Bool) (ms os : List (List α)) (x : α) :
    x ∈ (zipL lt ms os).flatten ↔ x ∈ ms.flatten ∨ x ∈ os.flatten := by
  induction ms generalizing os with
  | nil => simp
  | cons m ms ih =>
    cases os with
    | nil => simp
    | cons o os =>
      simp only [zipL, List.flatten_cons, List.mem_append, ih, (mergeL_perm lt m o).mem_iff]
      tauto

theorem sorted_zipL {lt : α → α → Bool} (ho : IsOrd lt) {ms os : List (List α)}
    (h1 : ∀ l ∈ ms, Sorted lt l) (h2 : ∀ l ∈ os, Sorted lt l) :
    ∀ l ∈ zipL lt ms os, Sorted lt l := by
  induction ms generalizing os with
  | nil => simpa using h2
  | cons m ms ih =>
    cases os with
    | nil => simpa using h1
    | cons o os =>
      simp only [zipL, List.mem_cons]
      rintro l (rfl | hl)
      · exact mergeL_sorted ho (h1 m (by simp)) (h2 o (by simp))
      · exact ih (fun l hl => h1 l (by simp [hl])) (fun l hl => h2 l (by simp [hl])) l hl

/-- The levels of the other sketch from level one on join the own ones. -/
def joinL (lt : α → α → Bool) (ms os : List (List α)) : List (List α) :=
  match ms with
  | [] => []
  | m :: ms => m :: zipL lt ms os.tail

theorem joinL_length {lt : α → α → Bool} {ms os : List (List α)} (h1 : ms ≠ []) :
    (joinL lt ms os).length = max ms.length os.length := by
  cases ms with
  | nil => exact absurd rfl h1
  | cons m ms =>
    simp only [joinL, List.length_cons, zipL_length, List.length_tail]
    omega

theorem rk_joinL (lt : α → α → Bool) (p : α → Bool) {ms os : List (List α)} (h1 : ms ≠ []) :
    rk p (joinL lt ms os) + (os.headD []).countP p = rk p ms + rk p os := by
  cases ms with
  | nil => exact absurd rfl h1
  | cons m ms =>
    cases os with
    | nil => simp [joinL, rk]
    | cons o os =>
      simp only [joinL, rk, List.tail_cons, rk_zipL, List.headD_cons]
      ring

/-! ## The error potential -/

/-- `∑ (8/3)^h` over the items -/
def phi : List (List α) → ℚ
  | [] => 0
  | l :: ls => l.length + 8 / 3 * phi ls

theorem phi_append (A B : List (List α)) :
    phi (A ++ B) = phi A + (8 / 3) ^ A.length * phi B := by
  induction A with
  | nil => simp [phi]
  | cons l ls ih =>
    simp only [List.cons_append, phi, ih, List.length_cons, pow_succ]
    ring

theorem phi_nonneg (Ls : List (List α)) : 0 ≤ phi Ls := by
  induction Ls with
  | nil => simp [phi]
  | cons l ls ih =>
    simp only [phi]
    have : (0 : ℚ) ≤ l.length := Nat.cast_nonneg _
    linarith

theorem phi_form {Ls A C : List (List α)} {L B : List α}
    (h : Ls = A ++ L :: B :: C ∨ (Ls = A ++ [L] ∧ B = [] ∧ C = [])) :
    phi Ls = phi A + (8 / 3) ^ A.length * (L.length + 8 / 3 * (B.length + 8 / 3 * phi C)) := by
  rcases h with rfl | ⟨rfl, rfl, rfl⟩
  · rw [phi_append]; rfl
  · rw [phi_append]; simp [phi]

theorem phi_cstep {env : Env α} (hs : ∀ l, (env.sort l).Perm l) (doSort : Bool) (o : Nat) {h : Nat}
    {Ls : List (List α)} (hh : h < Ls.length) :
    phi (cstep env doSort o h Ls) =
      phi Ls + (8 / 3) ^ h * (2 / 3 * ((pop Ls h / 2 : Nat) : ℚ)) := by
  obtain ⟨A, L, B, C, hf, hA, hc⟩ := cstep_form env doSort hh
  rw [hc o, phi_form hf, phi_append, ← hA, pop_form hf]
  simp only [phi, above_length hs, evenPart_length, leftover_length]
  have h1 : (L.length : ℚ) = ((L.length % 2 : Nat) : ℚ) + 2 * ((L.length / 2 : Nat) : ℚ) := by
    exact_mod_cast (Nat.mod_add_div L.length 2).symm
  rw [h1, show 2 * (L.length / 2) / 2 = L.length / 2 by omega]
  push_cast
  ring

/-- `∑ (8/3)^h` over the items above level zero -/
def phiU (Ls : List (List α)) : ℚ := phi Ls - (Ls.headD []).length

theorem phiU_cons (l : List α) (ls : List (List α)) : phiU (l :: ls) = 8 / 3 * phi ls := by
  simp [phiU, phi]

theorem phiU_nonneg (Ls : List (List α)) : 0 ≤ phiU Ls := by
  cases Ls with
  | nil => simp [phiU, phi]
  | cons l ls =>
    rw [phiU_cons]
    have := phi_nonneg ls
    linarith

theorem phiU_le (Ls : List (List α)) : phiU Ls ≤ phi Ls := by
  unfold phiU
  have : (0 : ℚ) ≤ ((Ls.headD []).length : ℚ) := Nat.cast_nonneg _
  linarith

theorem phiU_cstep {env : Env α} (hs : ∀ l, (env.sort l).Perm l) (doSort : Bool) (o : Nat) {h : Nat}
    {Ls : List (List α)} (hh : h < Ls.length) :
    phiU Ls + (8 / 3) ^ h * (2 / 3 * ((pop Ls h / 2 : Nat) : ℚ)) ≤ phiU (cstep env doSort o h Ls) := by
  unfold phiU
  rw [phi_cstep hs doSort o hh]
  have hle : ((cstep env doSort o h Ls).headD []).length ≤ (Ls.headD []).length := by
    obtain ⟨A, L, B, C, hf, hA, hc⟩ := cstep_form env doSort hh
    rw [hc o]
    cases A with
    | nil =>
      have h1 := leftover_length L
      have h2 := Nat.mod_le L.length 2
      rcases hf with rfl | ⟨rfl, rfl, rfl⟩
      · simp only [List.nil_append, List.headD_cons]; omega
      · simp only [List.nil_append, List.headD_cons]; omega
    | cons a A =>
      rcases hf with rfl | ⟨rfl, rfl, rfl⟩ <;> simp
  have hle' : (((cstep env doSort o h Ls).headD []).length : ℚ) ≤ ((Ls.headD []).length : ℚ) := by
    exact_mod_cast hle
  linarith

/-- The bound on `∑ 4^h`: `21/(4κ) (3/2)^(L-1) ∑ (8/3)^h`. -/
def Phi (κ : Nat) (Ls : List (List α)) : ℚ := 21 / (4 * κ) * (3 / 2) ^ (Ls.length - 1) * phiU Ls

/-- The even part of a full level: `4/7` of the unrounded capacity at least. -/
theorem cap_even {k m d p : Nat} (hk : k ≤ 32767) (hm : 2 ≤ m) (hp : cap k m d ≤ p) :
    4 * (k * 2 ^ d) ≤ 7 * (2 * (p / 2)) * 3 ^ d := by
  have hp2 : 2 ≤ p := le_trans hm (le_trans (m_le_cap k m d) hp)
  have h3 : 0 < 3 ^ d := Nat.pos_of_ne_zero (by positivity)
  by_cases hd : d ≤ 30
  · have hr : icap k d ≤ p := le_trans (by unfold cap; omega) hp
    unfold icap at hr
    rw [if_pos hd] at hr
    unfold icapA at hr
    rw [Nat.mod_eq_of_lt (by omega)] at hr
    set tmp := k * 2 * 2 ^ d / 3 ^ d with ht
    have h1 : k * 2 * 2 ^ d < (tmp + 1) * 3 ^ d := by
      have := Nat.lt_div_mul_add (a := k * 2 * 2 ^ d) h3
      rw [← ht] at this
      rw [Nat.add_mul]; omega
    have hple : tmp ≤ 2 * k := by
      have h23 : 2 ^ d ≤ 3 ^ d := Nat.pow_le_pow_left (by omega) d
      rw [ht]
      apply Nat.div_le_of_le_mul
      calc k * 2 * 2 ^ d ≤ k * 2 * 3 ^ d := Nat.mul_le_mul_left _ h23
        _ = 3 ^ d * (2 * k) := by ring
    rw [if_pos (by omega)] at hr
    -- r = (tmp+1)/2 ≤ p, 2x < tmp + 1
    have key : 2 * (tmp + 1) ≤ 7 * (2 * (p / 2)) := by omega
    calc 4 * (k * 2 ^ d) = 2 * (k * 2 * 2 ^ d) := by ring
      _ ≤ 2 * ((tmp + 1) * 3 ^ d) := by omega
      _ = (2 * (tmp + 1)) * 3 ^ d := by ring
      _ ≤ 7 * (2 * (p / 2)) * 3 ^ d := Nat.mul_le_mul_right _ key
  · -- the unrounded capacity is below one
    obtain ⟨e, rfl⟩ : ∃ e, d = 31 + e := ⟨d - 31, by omega⟩
    have h23 : 2 ^ e ≤ 3 ^ e := Nat.pow_le_pow_left (by omega) e
    have hc : 4 * (32767 * 2 ^ 31) ≤ 14 * 3 ^ 31 := by norm_num
    have h14 : 14 ≤ 7 * (2 * (p / 2)) := by omega
    calc 4 * (k * 2 ^ (31 + e)) = 4 * (k * 2 ^ 31) * 2 ^ e := by rw [pow_add]; ring
      _ ≤ 4 * (32767 * 2 ^ 31) * 2 ^ e := by
        apply Nat.mul_le_mul_right
        apply Nat.mul_le_mul_left
        exact Nat.mul_le_mul_right _ hk
      _ ≤ 14 * 3 ^ 31 * 2 ^ e := Nat.mul_le_mul_right _ hc
      _ ≤ 14 * 3 ^ 31 * 3 ^ e := Nat.mul_le_mul_left _ h23
      _ = 14 * 3 ^ (31 + e) := by rw [pow_add]; ring
      _ ≤ 7 * (2 * (p / 2)) * 3 ^ (31 + e) := Nat.mul_le_mul_right _ h14

/-- `∑ 4^h` is bounded by the potential; a sketch with `L ≥ 2` levels has seen `κ 2^(L-2)` items. -/
structure Pot (κ n : Nat) (Ls : List (List α)) (log : List Nat) : Prop where
  pos : 0 < κ
  le : (q4 log : ℚ) ≤ Phi κ Ls
  top : Ls.length = 1 ∨ κ * 2 ^ (Ls.length - 2) ≤ n

theorem icap_zero {k : Nat} (hk : k ≤ 32767) : icap k 0 = k := by
  unfold icap icapA
  rw [if_pos (by omega), Nat.mod_eq_of_lt (by omega)]
  simp
  omega

theorem Phi_mono {κ κ' : Nat} (h0 : 0 < κ') (h : κ' ≤ κ) (Ls : List (List α)) :
    Phi κ Ls ≤ Phi κ' Ls := by
  unfold Phi
  have h1 : (0 : ℚ) < κ' := by exact_mod_cast h0
  have h2 : (κ' : ℚ) ≤ κ := by exact_mod_cast h
  have := phiU_nonneg Ls
  apply mul_le_mul_of_nonneg_right _ this
  apply mul_le_mul_of_nonneg_right _ (by positivity)
  apply div_le_div_of_nonneg_left (by norm_num) (by positivity) (by linarith)

theorem Phi_nonneg (κ : Nat) (Ls : List (List α)) : 0 ≤ Phi κ Ls := by
  unfold Phi
  have := phiU_nonneg Ls
  positivity

theorem Pot.comp {env : Env α} (hs : ∀ l, (env.sort l).Perm l) {κ n k m : Nat}
    {Ls : List (List α)} {log : List Nat} (hP : Pot κ n Ls log) (hw : wt Ls = n) (hκ : κ ≤ k)
    (hk : k ≤ 32767) (hm : 2 ≤ m) (doSort : Bool) (o : Nat) {h : Nat}
    (hh : h < Ls.length) (hcap : cap k m (Ls.length - (h + 1)) ≤ pop Ls h) :
    Pot κ n (cstep env doSort o h Ls) (h :: log) := by
  have hl := cstep_length env doSort o hh
  refine ⟨hP.pos, ?_, ?_⟩
  · -- the potential grows by at least 4^h
    have hκ0 : (0 : ℚ) < κ := by exact_mod_cast hP.pos
    set L := Ls.length with hL
    set t := pop Ls h / 2 with ht
    have hphi := phiU_cstep hs doSort o hh
    have hge : (4 : ℚ) ^ h ≤ 21 / (4 * κ) * (3 / 2) ^ (L - 1) * ((8 / 3) ^ h * (2 / 3 * (t : ℚ))) := by
      have h1 := cap_even hk hm hcap
      obtain ⟨d, hd⟩ : ∃ d, d = L - (h + 1) := ⟨_, rfl⟩
      rw [← hd] at h1
      have h2 : (4 : ℚ) * (κ * 2 ^ d) ≤ 7 * (2 * t) * 3 ^ d := by
        have h3 : 4 * (κ * 2 ^ d) ≤ 7 * (2 * t) * 3 ^ d :=
          le_trans (Nat.mul_le_mul_left _ (Nat.mul_le_mul_right _ hκ)) h1
        exact_mod_cast h3
      have hLd : L - 1 = d + h := by omega
      rw [hLd]
      have h32 : ((3 : ℚ) / 2) ^ (d + h) = 3 ^ d / 2 ^ d * (3 ^ h / 2 ^ h) := by
        rw [pow_add, div_pow, div_pow]
      have h83 : ((8 : ℚ) / 3) ^ h = 4 ^ h * 2 ^ h / 3 ^ h := by
        rw [div_pow, ← mul_pow]; norm_num
      rw [h32, h83]
      have p2d : (0 : ℚ) < 2 ^ d := by positivity
      have p3d : (0 : ℚ) < 3 ^ d := by positivity
      have p2h : (0 : ℚ) < 2 ^ h := by positivity
      have p3h : (0 : ℚ) < 3 ^ h := by positivity
      have p4h : (0 : ℚ) < 4 ^ h := by positivity
      have e : 21 / (4 * (κ : ℚ)) * (3 ^ d / 2 ^ d * (3 ^ h / 2 ^ h)) *
          (4 ^ h * 2 ^ h / 3 ^ h * (2 / 3 * (t : ℚ))) =
          4 ^ h * ((7 * (2 * t) * 3 ^ d) / (4 * (κ * 2 ^ d))) := by
        field_simp
        ring
      rw [e]
      have h4 : 1 ≤ (7 * (2 * (t : ℚ)) * 3 ^ d) / (4 * (κ * 2 ^ d)) := by
        rw [le_div_iff₀ (by positivity), one_mul]; exact h2
      calc (4 : ℚ) ^ h = 4 ^ h * 1 := by ring
        _ ≤ _ := mul_le_mul_of_nonneg_left h4 (le_of_lt p4h)
    have hstep : Phi κ Ls + 4 ^ h ≤
        21 / (4 * κ) * (3 / 2) ^ (L - 1) * phiU (cstep env doSort o h Ls) := by
      have h0 : (0 : ℚ) ≤ 21 / (4 * κ) * (3 / 2) ^ (L - 1) := by positivity
      have h1 := mul_le_mul_of_nonneg_left hphi h0
      rw [mul_add] at h1
      unfold Phi
      rw [← hL]
      linarith
    have hmono : 21 / (4 * (κ : ℚ)) * (3 / 2) ^ (L - 1) * phiU (cstep env doSort o h Ls) ≤
        Phi κ (cstep env doSort o h Ls) := by
      unfold Phi
      rw [hl]
      have hn := phiU_nonneg (cstep env doSort o h Ls)
      apply mul_le_mul_of_nonneg_right _ hn
      apply mul_le_mul_of_nonneg_left _ (by positivity)
      apply pow_le_pow_right₀ (by norm_num)
      split <;> omega
    have := hP.le
    rw [q4_cons]
    push_cast
    linarith
  · right
    rw [hl]
    by_cases ht : h + 1 = Ls.length
    · rw [if_pos ht]
      have h0 : Ls.length - (h + 1) = 0 := by omega
      rw [h0] at hcap
      have h1 : k ≤ pop Ls h := by
        have : icap k 0 ≤ pop Ls h := le_trans (by unfold cap; omega) hcap
        rwa [icap_zero hk] at this
      have h2 := wt_pop (Ls := Ls) (h := h)
      rw [hw] at h2
      rw [show Ls.length + 1 - 2 = h by omega]
      calc κ * 2 ^ h ≤ pop Ls h * 2 ^ h := Nat.mul_le_mul_right _ (le_trans hκ h1)
        _ = 2 ^ h * pop Ls h := by ring
        _ ≤ n := h2
    · rw [if_neg ht]
      rcases hP.top with h1 | h1
      · omega
      · exact h1

theorem Pot.store {κ n : Nat} {Ls : List (List α)} {log : List Nat} (hP : Pot κ n Ls log)
    (hne : Ls ≠ []) (x : α) : Pot κ (n + 1) (consHead x Ls) log := by
  refine ⟨hP.pos, le_trans hP.le ?_, ?_⟩
  · unfold Phi
    rw [consHead_length]
    apply mul_le_mul_of_nonneg_left _ (by positivity)
    cases Ls with
    | nil => exact absurd rfl hne
    | cons l ls => rw [consHead, phiU_cons, phiU_cons]
  · rw [consHead_length]
    rcases hP.top with h | h
    · exact Or.inl h
    · exact Or.inr (by omega)

/-- A smaller `κ` only weakens the bound. -/
theorem Pot.weaken {κ κ' n : Nat} {Ls : List (List α)} {log : List Nat} (hP : Pot κ n Ls log)
    (h0 : 0 < κ') (h : κ' ≤ κ) : Pot κ' n Ls log := by
  refine ⟨h0, le_trans hP.le (Phi_mono h0 h Ls), ?_⟩
  rcases hP.top with h1 | h1
  · exact Or.inl h1
  · exact Or.inr (le_trans (Nat.mul_le_mul_right _ h) h1)

theorem phi_zipL (lt : α → α → Bool) (ms os : List (List α)) :
    phi (zipL lt ms os) = phi ms + phi os := by
  induction ms generalizing os with
  | nil => simp [phi]
  | cons m ms ih =>
    cases os with
    | nil => simp [phi]
    | cons o os =>
      simp only [zipL, phi, ih, mergeL_length]
      push_cast
      ring

theorem phiU_joinL (lt : α → α → Bool) {ms os : List (List α)} (h1 : ms ≠ []) :
    phiU (joinL lt ms os) = phiU ms + phiU os := by
  cases ms with
  | nil => exact absurd rfl h1
  | cons m ms =>
    cases os with
    | nil => simp [joinL, phiU, phi]
    | cons o os =>
      simp only [joinL, phiU_cons, List.tail_cons, phi_zipL]
      ring

/-! ## Joining the levels of two sketches -/

theorem head_le_wt (B : List (List α)) : (B.headD []).length ≤ wt B := by
  cases B with
  | nil => simp [wt, rk]
  | cons b B => simp only [wt, rk, List.countP_true, List.headD_cons]; omega

theorem Core.join {lt : α → α → Bool} {n1 n2 : Nat} {S T : List α} {A B : List (List α)}
    {la lb : List Nat} (hA : Core n1 (S ++ B.headD []) A la) (hB : Core n2 T B lb)
    (h1 : 1 < B.length) : Core (S.length + n2) (S ++ T) (joinL lt A B) (la ++ lb) := by
  have hl := joinL_length (lt := lt) (os := B) hA.ne
  have hn1 : S.length + (B.headD []).length = n1 := by rw [← hA.len]; simp
  have hb0 := head_le_wt B
  rw [hB.weight] at hb0
  refine ⟨?_, ?_, by simp [hB.len], ?_, ?_, ?_⟩
  · intro h
    rw [h] at hl
    simp at hl
    omega
  · have := rk_joinL lt (fun _ => true) (os := B) hA.ne
    have e1 := hA.weight
    have e2 := hB.weight
    unfold wt at e1 e2 ⊢
    rw [e1, e2, List.countP_true] at this
    omega
  · right
    rw [hl]
    by_cases hab : A.length ≤ B.length
    · rw [Nat.max_eq_right hab]
      rcases hB.top with h | h <;> omega
    · rw [Nat.max_eq_left (by omega)]
      rcases hA.top with h | h <;> omega
  · intro x hx
    have hmA := hA.mem
    have hmB := hB.mem
    cases A with
    | nil => exact absurd rfl hA.ne
    | cons m ms =>
      cases B with
      | nil => simp at h1
      | cons o os =>
        have hcase : x ∈ (m :: ms).flatten ∨ x ∈ os.flatten := by
          simp only [joinL, List.tail_cons, List.flatten_cons, List.mem_append, mem_zipL] at hx
          simp only [List.flatten_cons, List.mem_append]
          tauto
        rw [List.mem_append]
        rcases hcase with h | h
        · have := hmA x h
          rw [List.mem_append] at this
          rcases this with h' | h'
          · exact Or.inl h'
          · exact Or.inr (hmB x (by simpa using Or.inl h'))
        · exact Or.inr (hmB x (by
            rw [List.flatten_cons, List.mem_append]; exact Or.inr h))
  · intro h
    omega

theorem Srt.join {env : Env α} (ho : IsOrd env.lt) {S T : List α} {zs zt : Bool}
    {A B : List (List α)} {la lb : List Nat} (hne : A ≠ [])
    (hA : Srt env (S ++ B.headD []) zs A la) (hB : Srt env T zt B lb) :
    Srt env (S ++ T) zs (joinL env.lt A B) (la ++ lb) := by
  have hsA := hA.sorted
  have hzA := hA.zsorted
  refine ⟨?_, ?_, ?_⟩
  · cases A with
    | nil => exact absurd rfl hne
    | cons m ms =>
      simp only [joinL, List.tail_cons]
      exact sorted_zipL ho hsA hB.sorted
  · cases A with
    | nil => exact absurd rfl hne
    | cons m ms =>
      intro hz l hl
      simp only [joinL, List.head?_cons] at hl
      exact hzA hz l (by simpa using hl)
  · intro p hp
    obtain ⟨e1, e2⟩ := hA.err p hp
    obtain ⟨f1, f2⟩ := hB.err p hp
    have := rk_joinL env.lt p (os := B) hne
    rw [List.countP_append] at e1 e2 ⊢
    rw [q2_append]
    omega

theorem Pot.join {lt : α → α → Bool} {κ1 κ2 n1 n2 s : Nat} {A B : List (List α)} {la lb : List Nat}
    (hne : A ≠ []) (hA : Pot κ1 n1 A la) (hB : Pot κ2 n2 B lb) (h1 : 1 < B.length)
    (hn1 : n1 = s + (B.headD []).length) (hw : wt B = n2) :
    Pot (min κ1 κ2) (s + n2) (joinL lt A B) (la ++ lb) := by
  have h0 : 0 < min κ1 κ2 := by have := hA.pos; have := hB.pos; omega
  have hA' := hA.weaken h0 (Nat.min_le_left _ _)
  have hB' := hB.weaken h0 (Nat.min_le_right _ _)
  have hl := joinL_length (lt := lt) (os := B) hne
  have hb0 := head_le_wt B
  rw [hw] at hb0
  refine ⟨h0, ?_, ?_⟩
  · set κ := min κ1 κ2
    have e1 : Phi κ A ≤ 21 / (4 * κ) * (3 / 2) ^ ((joinL lt A B).length - 1) * phiU A := by
      unfold Phi
      apply mul_le_mul_of_nonneg_right _ (phiU_nonneg A)
      apply mul_le_mul_of_nonneg_left _ (by positivity)
      apply pow_le_pow_right₀ (by norm_num)
      omega
    have e2 : Phi κ B ≤ 21 / (4 * κ) * (3 / 2) ^ ((joinL lt A B).length - 1) * phiU B := by
      unfold Phi
      apply mul_le_mul_of_nonneg_right _ (phiU_nonneg B)
      apply mul_le_mul_of_nonneg_left _ (by positivity)
      apply pow_le_pow_right₀ (by norm_num)
      omega
    have e3 := hA'.le
    have e4 := hB'.le
    rw [q4_append]
    push_cast
    unfold Phi
    rw [phiU_joinL lt hne, mul_add]
    linarith
  · right
    rw [hl]
    by_cases hab : A.length ≤ B.length
    · rw [Nat.max_eq_right hab]
      rcases hB'.top with h | h <;> omega
    · rw [Nat.max_eq_left (by omega)]
      rcases hA'.top with h | h <;> omega

/-- The bound in terms of the number of items. -/
theorem phi_le {Ls : List (List α)} (hne : Ls ≠ []) :
    phi Ls ≤ (4 / 3) ^ (Ls.length - 1) * (wt Ls : ℚ) := by
  induction Ls with
  | nil => exact absurd rfl hne
  | cons l ls ih =>
    by_cases hls : ls = []
    · subst hls
      simp [phi, wt, rk]
    · have h1 := ih hls
      have hlen : 0 < ls.length := List.length_pos_of_ne_nil hls
      have hw : wt (l :: ls) = l.length + 2 * wt ls := by
        simp [wt, rk]
      rw [hw, List.length_cons, Nat.add_sub_cancel]
      simp only [phi]
      have hp : ((4 : ℚ) / 3) ^ ls.length = 4 / 3 * (4 / 3) ^ (ls.length - 1) := by
        rw [← pow_succ']; congr 1; omega
      have h2 : (1 : ℚ) ≤ (4 / 3) ^ ls.length := one_le_pow₀ (by norm_num)
      have h3 : (0 : ℚ) ≤ (l.length : ℚ) := Nat.cast_nonneg _
      push_cast
      rw [mul_add]
      have e1 : (l.length : ℚ) ≤ (4 / 3) ^ ls.length * l.length := by nlinarith
      have e2 : 8 / 3 * phi ls ≤ (4 / 3) ^ ls.length * (2 * (wt ls : ℚ)) := by
        rw [hp]
        nlinarith
      linarith

/-- `∑ 4^h ≤ 10.5 (n/κ)²` -/
theorem Pot.final {κ n : Nat} {Ls : List (List α)} {log : List Nat} (hne : Ls ≠ [])
    (hP : Pot κ n Ls log) (hw : wt Ls = n) (hone : Ls.length = 1 → log = []) :
    (q4 log : ℚ) ≤ 21 / 2 * ((n : ℚ) / κ) ^ 2 := by
  rcases hP.top with h1 | h1
  · rw [hone h1]
    simp only [q4_nil]
    have : (0 : ℚ) ≤ 21 / 2 * ((n : ℚ) / κ) ^ 2 := by positivity
    exact_mod_cast this
  · by_cases hL1 : Ls.length = 1
    · rw [hone hL1]
      simp only [q4_nil]
      have : (0 : ℚ) ≤ 21 / 2 * ((n : ℚ) / κ) ^ 2 := by positivity
      exact_mod_cast this
    · have hLp : 0 < Ls.length := List.length_pos_of_ne_nil hne
      obtain ⟨d, hd⟩ : ∃ d, Ls.length = d + 2 := ⟨Ls.length - 2, by omega⟩
      have hκ : (0 : ℚ) < κ := by exact_mod_cast hP.pos
      have h2 : (κ : ℚ) * 2 ^ d ≤ n := by
        rw [hd, Nat.add_sub_cancel] at h1
        exact_mod_cast h1
      have h3 := phi_le hne
      rw [hw, hd, show d + 2 - 1 = d + 1 by omega] at h3
      have h4 := hP.le
      have h5 := phiU_le Ls
      unfold Phi at h4
      rw [hd, show d + 2 - 1 = d + 1 by omega] at h4
      have hn : (0 : ℚ) ≤ n := Nat.cast_nonneg _
      calc (q4 log : ℚ) ≤ 21 / (4 * κ) * (3 / 2) ^ (d + 1) * phiU Ls := h4
        _ ≤ 21 / (4 * κ) * (3 / 2) ^ (d + 1) * ((4 / 3) ^ (d + 1) * n) := by
            apply mul_le_mul_of_nonneg_left (le_trans h5 h3) (by positivity)
        _ = 21 / (4 * κ) * (2 * 2 ^ d * n) := by
            have : ((3 : ℚ) / 2) ^ (d + 1) * (4 / 3) ^ (d + 1) = 2 * 2 ^ d := by
              rw [← mul_pow, pow_succ]; norm_num; ring
            rw [mul_assoc, ← mul_assoc ((3 / 2 : ℚ) ^ (d + 1)), this]
        _ = 21 / (2 * κ ^ 2) * ((κ * 2 ^ d) * n) := by
            field_simp
            ring
        _ ≤ 21 / (2 * κ ^ 2) * (n * n) := by
            apply mul_le_mul_of_nonneg_left _ (by positivity)
            exact mul_le_mul_of_nonneg_right h2 hn
        _ = 21 / 2 * ((n : ℚ) / κ) ^ 2 := by
            field_simp

end Verif.Kll
