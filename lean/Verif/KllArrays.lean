import Verif.KllModel
import Verif.Loops
import Mathlib.Data.List.Basic
import Mathlib.Tactic.Linarith

/-!
# The array loops of the KLL sketch, as operations on list segments
-/

namespace Verif.Kll

open Verif

variable {α β : Type}

/-- Normalise nested appends. -/
macro "asm" : tactic => `(tactic| simp only [List.append_assoc, List.cons_append, List.nil_append,
  List.append_nil, List.concat_eq_append])

theorem rd_ok {l : List β} {i : Nat} {v : β} (h : l[i]? = some v) : rd l i = .ok v := by
  unfold rd; rw [h]; rfl

theorem wr_ok {l : List β} {i : Nat} (v : β) (h : i < l.length) : wr l i v = .ok (l.set i v) :=
  if_pos h

theorem sub_ok {a b : Nat} (h : b ≤ a) : sub a b = .ok (a - b) := if_pos h

theorem set_mid (P S : List β) (x v : β) {i : Nat} (hi : i = P.length) :
    (P ++ x :: S).set i v = P ++ v :: S := by
  subst hi
  rw [List.set_append_right _ _ (Nat.le_refl _), Nat.sub_self, List.set_cons_zero]

theorem wr_mid (P S : List β) (x v : β) {i : Nat} (hi : i = P.length) :
    wr (P ++ x :: S) i v = .ok (P ++ v :: S) := by
  rw [wr_ok v (by rw [List.length_append, List.length_cons]; omega), set_mid P S x v hi]

theorem get_mid (P S : List β) (x : β) {i : Nat} (hi : i = P.length) :
    (P ++ x :: S)[i]? = some x := by
  subst hi
  rw [List.getElem?_append_right (Nat.le_refl _), Nat.sub_self, List.getElem?_cons_zero]

theorem rd_mid (P S : List β) (x : β) {i : Nat} (hi : i = P.length) :
    rd (P ++ x :: S) i = .ok x := rd_ok (get_mid P S x hi)

/-- Position `p + i` of `P ++ X ++ S` is position `i` of `X`. -/
theorem get_seg {P X S : List β} {i : Nat} {v : β} (h : X[i]? = some v) {j : Nat}
    (hj : j = P.length + i) : (P ++ X ++ S)[j]? = some v := by
  subst hj
  have hi : i < X.length := (List.getElem?_eq_some_iff.1 h).1
  rw [List.append_assoc, List.getElem?_append_right (by omega),
    List.getElem?_append_left (by omega)]
  simpa using h

/-- A list with at least `i + 1` entries splits at `i`. -/
theorem split_at {l : List β} {i : Nat} (h : i < l.length) :
    ∃ P x S, l = P ++ x :: S ∧ P.length = i := by
  refine ⟨l.take i, l[i], l.drop (i + 1), ?_, by rw [List.length_take]; omega⟩
  rw [List.cons_getElem_drop_succ, List.take_append_drop]

/-! ## Copying -/

theorem moveDown_ok (P J X S : List β) :
    ∃ J', moveDown (P ++ J ++ X ++ S) P.length (P.length + J.length) X.length =
      .ok (P ++ X ++ J' ++ S) ∧ J'.length = J.length := by
  unfold moveDown
  have hH := range_fold (n := X.length)
    (f := fun buf i => do
      let v ← rd buf (P.length + J.length + i)
      wr buf (P.length + i) v)
    (fun i buf => ∃ J', buf = P ++ X.take i ++ J' ++ X.drop i ++ S ∧ J'.length = J.length)
    (s0 := P ++ J ++ X ++ S) ⟨J, by simp, rfl⟩ ?_
  obtain ⟨buf, hb, J', rfl, hJ'⟩ := hH
  · refine ⟨J', ?_, hJ'⟩
    rw [hb]; simp
  · rintro i buf hi ⟨J', rfl, hJ'⟩
    have hd : X.drop i = X[i] :: X.drop (i + 1) := (List.cons_getElem_drop_succ).symm
    have ht : X.take (i + 1) = X.take i ++ [X[i]] := by
      rw [List.take_add_one, List.getElem?_eq_getElem hi]; rfl
    have htl : (X.take i).length = i := by rw [List.length_take]; omega
    have h1 : rd (P ++ X.take i ++ J' ++ X.drop i ++ S) (P.length + J.length + i) = .ok X[i] := by
      rw [hd]
      have : P ++ X.take i ++ J' ++ X[i] :: X.drop (i + 1) ++ S =
        (P ++ X.take i ++ J') ++ X[i] :: (X.drop (i + 1) ++ S) := by asm
      rw [this]
      exact rd_mid _ _ _ (by simp only [List.length_append, htl]; omega)
    simp only [h1, Outcome.ok_bind]
    cases J' with
    | nil =>
      have hJ0 : J.length = 0 := hJ'.symm
      refine ⟨P ++ X.take (i + 1) ++ [] ++ X.drop (i + 1) ++ S, ?_, [], rfl, hJ'⟩
      rw [hd, ht]
      have : P ++ X.take i ++ [] ++ X[i] :: X.drop (i + 1) ++ S =
        (P ++ X.take i) ++ X[i] :: (X.drop (i + 1) ++ S) := by asm
      rw [this, wr_mid _ _ _ _ (by simp only [List.length_append, htl])]
      asm
    | cons j J0 =>
      refine ⟨P ++ X.take (i + 1) ++ (J0 ++ [X[i]]) ++ X.drop (i + 1) ++ S, ?_,
        J0 ++ [X[i]], rfl, by simpa using hJ'⟩
      rw [hd, ht]
      have : P ++ X.take i ++ (j :: J0) ++ X[i] :: X.drop (i + 1) ++ S =
        (P ++ X.take i) ++ j :: (J0 ++ X[i] :: X.drop (i + 1) ++ S) := by asm
      rw [this, wr_mid _ _ _ _ (by simp only [List.length_append, htl])]
      asm

theorem moveUp_ok (P X J S : List β) :
    ∃ J', moveUp (P ++ X ++ J ++ S) (P.length + J.length) P.length X.length =
      .ok (P ++ J' ++ X ++ S) ∧ J'.length = J.length := by
  unfold moveUp
  have hH := range_fold (n := X.length)
    (f := fun buf r => do
      let v ← rd buf (P.length + (X.length - r) - 1)
      wr buf (P.length + J.length + (X.length - r) - 1) v)
    (fun r buf => ∃ J', buf = P ++ X.take (X.length - r) ++ J' ++ X.drop (X.length - r) ++ S ∧
      J'.length = J.length)
    (s0 := P ++ X ++ J ++ S) ⟨J, by simp, rfl⟩ ?_
  obtain ⟨buf, hb, J', rfl, hJ'⟩ := hH
  · refine ⟨J', ?_, hJ'⟩
    rw [hb]; simp
  · rintro r buf hr ⟨J', rfl, hJ'⟩
    obtain ⟨i, hi⟩ : ∃ i, X.length - r = i + 1 := ⟨X.length - r - 1, by omega⟩
    have hi' : X.length - (r + 1) = i := by omega
    have hiX : i < X.length := by omega
    have hd : X.drop i = X[i] :: X.drop (i + 1) := (List.cons_getElem_drop_succ).symm
    have ht : X.take (i + 1) = X.take i ++ [X[i]] := by
      rw [List.take_add_one, List.getElem?_eq_getElem hiX]; rfl
    have htl : (X.take i).length = i := by rw [List.length_take]; omega
    rw [hi, hi']
    have h1 : rd (P ++ X.take (i + 1) ++ J' ++ X.drop (i + 1) ++ S) (P.length + (i + 1) - 1) =
        .ok X[i] := by
      rw [ht]
      have : P ++ (X.take i ++ [X[i]]) ++ J' ++ X.drop (i + 1) ++ S =
        (P ++ X.take i) ++ X[i] :: (J' ++ X.drop (i + 1) ++ S) := by asm
      rw [this]
      exact rd_mid _ _ _ (by simp only [List.length_append, htl]; omega)
    simp only [h1, Outcome.ok_bind]
    rcases List.eq_nil_or_concat J' with rfl | ⟨J0, j, rfl⟩
    · have hJ0 : J.length = 0 := hJ'.symm
      refine ⟨P ++ X.take i ++ [] ++ X.drop i ++ S, ?_, [], rfl, hJ'⟩
      rw [hd, ht]
      have : P ++ (X.take i ++ [X[i]]) ++ [] ++ X.drop (i + 1) ++ S =
        (P ++ X.take i) ++ X[i] :: (X.drop (i + 1) ++ S) := by asm
      rw [this, wr_mid _ _ _ _ (by simp only [List.length_append, htl]; omega)]
      asm
    · have hJl : J0.length + 1 = J.length := by simpa using hJ'
      refine ⟨P ++ X.take i ++ (X[i] :: J0) ++ X.drop i ++ S, ?_, X[i] :: J0, rfl, by simpa using hJl⟩
      rw [hd, ht]
      have : P ++ (X.take i ++ [X[i]]) ++ (J0.concat j) ++ X.drop (i + 1) ++ S =
        (P ++ X.take i ++ X[i] :: J0) ++ j :: (X.drop (i + 1) ++ S) := by asm
      rw [this, wr_mid _ _ _ _ (by simp only [List.length_append, List.length_cons, htl]; omega)]
      asm

theorem copyItems_ok (P Y S Q X T : List β) (hl : Y.length = X.length) :
    copyItems (P ++ Y ++ S) P.length (Q ++ X ++ T) Q.length X.length = .ok (P ++ X ++ S) := by
  unfold copyItems
  have hH := range_fold (n := X.length)
    (f := fun dst i => do
      let v ← rd (Q ++ X ++ T) (Q.length + i)
      wr dst (P.length + i) v)
    (fun i buf => buf = P ++ X.take i ++ Y.drop i ++ S)
    (s0 := P ++ Y ++ S) (by simp) ?_
  obtain ⟨buf, hb, rfl⟩ := hH
  · rw [hb]
    have : Y.drop X.length = [] := by rw [← hl, List.drop_length]
    simp [this]
  · rintro i buf hi rfl
    have htl : (X.take i).length = i := by rw [List.length_take]; omega
    have hdY : Y.drop i = Y[i] :: Y.drop (i + 1) := (List.cons_getElem_drop_succ).symm
    have ht : X.take (i + 1) = X.take i ++ [X[i]] := by
      rw [List.take_add_one, List.getElem?_eq_getElem hi]; rfl
    have h1 : rd (Q ++ X ++ T) (Q.length + i) = .ok X[i] :=
      rd_ok (get_seg (List.getElem?_eq_getElem hi) rfl)
    simp only [h1, Outcome.ok_bind]
    refine ⟨_, ?_, rfl⟩
    rw [hdY, ht]
    have : P ++ X.take i ++ Y[i] :: Y.drop (i + 1) ++ S =
      (P ++ X.take i) ++ Y[i] :: (Y.drop (i + 1) ++ S) := by asm
    rw [this, wr_mid _ _ _ _ (by simp only [List.length_append, htl])]
    asm

/-! ## Halving -/

/-- The items at positions 0, 2, 4, ... (of a list of even length) -/
def evens : List β → List β
  | a :: _ :: l => a :: evens l
  | _ => []

/-- The items at positions 1, 3, 5, ... -/
def odds : List β → List β
  | _ :: b :: l => b :: odds l
  | _ => []

theorem evens_length (X : List β) : (evens X).length = X.length / 2 := by
  induction X using evens.induct with
  | case1 a b l ih => simp only [evens, List.length_cons, ih]; omega
  | case2 l h =>
    match l, h with
    | [], _ => simp [evens]
    | [a], _ => simp [evens]
    | a :: b :: l, h => exact absurd rfl (h a b l)

theorem odds_length (X : List β) : (odds X).length = X.length / 2 := by
  induction X using odds.induct with
  | case1 a b l ih => simp only [odds, List.length_cons, ih]; omega
  | case2 l h =>
    match l, h with
    | [], _ => simp [odds]
    | [a], _ => simp [odds]
    | a :: b :: l, h => exact absurd rfl (h a b l)

theorem evens_get (X : List β) (i : Nat) (hi : i < X.length / 2) : (evens X)[i]? = X[2 * i]? := by
  induction X using evens.induct generalizing i with
  | case1 a b l ih =>
    cases i with
    | zero => rfl
    | succ i =>
      simp only [List.length_cons] at hi
      have := ih i (by omega)
      simp only [evens, List.getElem?_cons_succ, this]
      rw [show 2 * (i + 1) = 2 * i + 1 + 1 by omega, List.getElem?_cons_succ, List.getElem?_cons_succ]
  | case2 l h =>
    match l, h with
    | [], _ => exact absurd hi (by simp)
    | [a], _ => exact absurd hi (by simp)
    | a :: b :: l, h => exact absurd rfl (h a b l)

theorem odds_get (X : List β) (i : Nat) (hi : i < X.length / 2) :
    (odds X)[i]? = X[2 * i + 1]? := by
  induction X using odds.induct generalizing i with
  | case1 a b l ih =>
    cases i with
    | zero => rfl
    | succ i =>
      simp only [List.length_cons] at hi
      have := ih i (by omega)
      simp only [odds, List.getElem?_cons_succ, this]
      rw [show 2 * (i + 1) = 2 * i + 1 + 1 by omega, List.getElem?_cons_succ]
  | case2 l h =>
    match l, h with
    | [], _ => exact absurd hi (by simp)
    | [a], _ => exact absurd hi (by simp)
    | a :: b :: l, h => exact absurd rfl (h a b l)

/-- The half kept by `randomlyHalveUpItems` -/
def selUp (o : Nat) (X : List β) : List β := if o = 0 then odds X else evens X

/-- The half kept by `randomlyHalveDownItems` -/
def selDown (o : Nat) (X : List β) : List β := if o = 0 then evens X else odds X

theorem selUp_length (o : Nat) (X : List β) : (selUp o X).length = X.length / 2 := by
  unfold selUp; split
  · exact odds_length X
  · exact evens_length X

theorem selDown_length (o : Nat) (X : List β) : (selDown o X).length = X.length / 2 := by
  unfold selDown; split
  · exact evens_length X
  · exact odds_length X

theorem selUp_get {o : Nat} (ho : o < 2) (X : List β) (i : Nat) (hi : i < X.length / 2) :
    (selUp o X)[i]? = X[2 * i + 1 - o]? := by
  unfold selUp
  by_cases h : o = 0
  · rw [if_pos h, odds_get X i hi, h]; rfl
  · rw [if_neg h, evens_get X i hi, show 2 * i + 1 - o = 2 * i by omega]

theorem selDown_get {o : Nat} (ho : o < 2) (X : List β) (i : Nat) (hi : i < X.length / 2) :
    (selDown o X)[i]? = X[o + 2 * i]? := by
  unfold selDown
  by_cases h : o = 0
  · rw [if_pos h, evens_get X i hi, h, Nat.zero_add]
  · rw [if_neg h, odds_get X i hi, show o + 2 * i = 2 * i + 1 by omega]

theorem halveUp_ok (P X S : List α) {t o : Nat} (ho : o < 2) (hX : X.length = 2 * t)
    (hp : 0 < P.length + t) :
    ∃ J, halveUp (P ++ X ++ S) P.length (2 * t) o = .ok (P ++ J ++ selUp o X ++ S) ∧
      J.length = t := by
  unfold halveUp
  have hh : 2 * t / 2 = t := by omega
  rw [if_neg (by omega), hh, show 2 * t - t = t by omega]
  have hsl : (selUp o X).length = t := by rw [selUp_length]; omega
  have hH := range_fold (n := t)
    (f := fun buf r => do
      let j ← sub (P.length + 2 * t) (1 + o + 2 * r)
      let v ← rd buf j
      wr buf (P.length + 2 * t - 1 - r) v)
    (fun r buf => buf = P ++ X.take (2 * t - r) ++ (selUp o X).drop (t - r) ++ S)
    (s0 := P ++ X ++ S) (by
      have h1 : X.take (2 * t) = X := by rw [← hX, List.take_length]
      have h2 : (selUp o X).drop t = [] := by rw [← hsl, List.drop_length]
      simp [h1, h2]) ?_
  obtain ⟨buf, hb, rfl⟩ := hH
  · refine ⟨X.take t, ?_, by rw [List.length_take]; omega⟩
    rw [hb]
    simp [show 2 * t - t = t by omega]
  · rintro r buf hr rfl
    obtain ⟨i, hi⟩ : ∃ i, t - r = i + 1 := ⟨t - r - 1, by omega⟩
    obtain ⟨e, he⟩ : ∃ e, 2 * t - r = e + 1 := ⟨2 * t - r - 1, by omega⟩
    have hi' : t - (r + 1) = i := by omega
    have he' : 2 * t - (r + 1) = e := by omega
    have hv : i < (selUp o X).length := by omega
    have hg := selUp_get ho X i (by omega)
    rw [List.getElem?_eq_getElem hv] at hg
    have hsd : (selUp o X).drop i = (selUp o X)[i] :: (selUp o X).drop (i + 1) :=
      (List.cons_getElem_drop_succ).symm
    have hee : e < X.length := by omega
    have hte : X.take (e + 1) = X.take e ++ [X[e]] := by
      rw [List.take_add_one, List.getElem?_eq_getElem hee]; rfl
    have htl : (X.take e).length = e := by rw [List.length_take]; omega
    rw [hi, he, hi', he', sub_ok (by omega)]
    simp only [Outcome.ok_bind]
    have hrd : rd (P ++ X.take (e + 1) ++ (selUp o X).drop (i + 1) ++ S)
        (P.length + 2 * t - (1 + o + 2 * r)) = .ok (selUp o X)[i] := by
      apply rd_ok
      have : P ++ X.take (e + 1) ++ (selUp o X).drop (i + 1) ++ S =
        P ++ X.take (e + 1) ++ ((selUp o X).drop (i + 1) ++ S) := by asm
      rw [this]
      refine get_seg (i := 2 * i + 1 - o) ?_ (by omega)
      rw [List.getElem?_take_of_lt (by omega)]
      exact hg.symm
    rw [hrd, Outcome.ok_bind]
    refine ⟨_, ?_, rfl⟩
    rw [hsd, hte]
    have : P ++ (X.take e ++ [X[e]]) ++ (selUp o X).drop (i + 1) ++ S =
      (P ++ X.take e) ++ X[e] :: ((selUp o X).drop (i + 1) ++ S) := by asm
    rw [this, wr_mid _ _ _ _ (by simp only [List.length_append, htl]; omega)]
    asm

theorem halveDown_ok (P X S : List α) {t o : Nat} (ho : o < 2) (hX : X.length = 2 * t) :
    ∃ J, halveDown (P ++ X ++ S) P.length (2 * t) o = .ok (P ++ selDown o X ++ J ++ S) ∧
      J.length = t := by
  unfold halveDown
  have hh : 2 * t / 2 = t := by omega
  rw [hh]
  have hsl : (selDown o X).length = t := by rw [selDown_length]; omega
  have hH := range_fold (n := t)
    (f := fun buf r => do
      let v ← rd buf (P.length + o + 2 * r)
      wr buf (P.length + r) v)
    (fun r buf => buf = P ++ (selDown o X).take r ++ X.drop r ++ S)
    (s0 := P ++ X ++ S) (by simp) ?_
  obtain ⟨buf, hb, rfl⟩ := hH
  · refine ⟨X.drop t, ?_, by rw [List.length_drop]; omega⟩
    rw [hb]
    have : (selDown o X).take t = selDown o X := by rw [← hsl, List.take_length]
    rw [this]
  · rintro r buf hr rfl
    have hv : r < (selDown o X).length := by omega
    have hg := selDown_get ho X r (by omega)
    rw [List.getElem?_eq_getElem hv] at hg
    have hst : (selDown o X).take (r + 1) = (selDown o X).take r ++ [(selDown o X)[r]] := by
      rw [List.take_add_one, List.getElem?_eq_getElem hv]; rfl
    have hrX : r < X.length := by omega
    have hd : X.drop r = X[r] :: X.drop (r + 1) := (List.cons_getElem_drop_succ).symm
    have htl : ((selDown o X).take r).length = r := by rw [List.length_take]; omega
    have hrd : rd (P ++ (selDown o X).take r ++ X.drop r ++ S) (P.length + o + 2 * r) =
        .ok (selDown o X)[r] := by
      apply rd_ok
      refine get_seg (P := P ++ (selDown o X).take r) (i := o + r) ?_
        (by simp only [List.length_append, htl]; omega)
      rw [List.getElem?_drop, show r + (o + r) = o + 2 * r by omega]
      exact hg.symm
    simp only [hrd, Outcome.ok_bind]
    refine ⟨_, ?_, rfl⟩
    rw [hst, hd]
    have : P ++ (selDown o X).take r ++ X[r] :: X.drop (r + 1) ++ S =
      (P ++ (selDown o X).take r) ++ X[r] :: (X.drop (r + 1) ++ S) := by asm
    rw [this, wr_mid _ _ _ _ (by simp only [List.length_append, htl])]
    asm

/-! ## Merging -/

/-- Merge of two sorted lists; the second one goes first on ties. -/
def mergeL (lt : α → α → Bool) : List α → List α → List α
  | [], B => B
  | A, [] => A
  | a :: A, b :: B => if lt a b then a :: mergeL lt A (b :: B) else b :: mergeL lt (a :: A) B
  termination_by A B => A.length + B.length

@[simp] theorem mergeL_nil_left (lt : α → α → Bool) (B : List α) : mergeL lt [] B = B := by
  rw [mergeL]

@[simp] theorem mergeL_nil_right (lt : α → α → Bool) (A : List α) : mergeL lt A [] = A := by
  cases A with
  | nil => rw [mergeL]
  | cons a A => rw [mergeL]; simp

theorem mergeL_cons (lt : α → α → Bool) (a b : α) (A B : List α) :
    mergeL lt (a :: A) (b :: B) =
      if lt a b then a :: mergeL lt A (b :: B) else b :: mergeL lt (a :: A) B := by
  rw [mergeL]

theorem mergeL_perm (lt : α → α → Bool) (A B : List α) : (mergeL lt A B).Perm (A ++ B) := by
  induction A generalizing B with
  | nil => simp
  | cons a A ihA =>
    induction B with
    | nil => simp
    | cons b B ihB =>
      rw [mergeL_cons]
      split
      · exact (ihA (b :: B)).cons a
      · exact (ihB.cons b).trans (List.perm_middle (l₁ := a :: A)).symm

theorem mergeL_length (lt : α → α → Bool) (A B : List α) :
    (mergeL lt A B).length = A.length + B.length := by
  rw [(mergeL_perm lt A B).length_eq, List.length_append]

theorem drop_cons_of {l : List β} {i : Nat} (h : i < l.length) : l.drop i = l[i] :: l.drop (i + 1) :=
  (List.cons_getElem_drop_succ).symm

theorem mergeSorted_gen (lt : α → α → Bool) {readA readB : List α → List α} {U B : List α}
    {startA startB startC : Nat} {bufC : List α} (Q : Nat → Nat → List α → List α → Prop)
    (hA : ∀ a b M buf x, Q a b M buf → U[a]? = some x → rd (readA buf) (startA + a) = .ok x)
    (hB : ∀ a b M buf x, Q a b M buf → B[b]? = some x → rd (readB buf) (startB + b) = .ok x)
    (hWA : ∀ a b M buf x, Q a b M buf → M.length = a + b → b ≤ B.length → U[a]? = some x →
      ∃ buf', wr buf (startC + (a + b)) x = .ok buf' ∧ Q (a + 1) b (M ++ [x]) buf')
    (hWB : ∀ a b M buf x, Q a b M buf → M.length = a + b → a ≤ U.length → B[b]? = some x →
      ∃ buf', wr buf (startC + (a + b)) x = .ok buf' ∧ Q a (b + 1) (M ++ [x]) buf')
    (h0 : Q 0 0 [] bufC) :
    ∃ buf', mergeSorted lt readA startA U.length readB startB B.length bufC startC = .ok buf' ∧
      Q U.length B.length (mergeL lt U B) buf' := by
  unfold mergeSorted
  have hH := range_fold
    (n := U.length + B.length)
    (f := mergeRound lt readA readB (startA + U.length) (startB + B.length) startC)
    (fun i st => ∃ a b M, Q a b M st.2.2 ∧ a ≤ U.length ∧ b ≤ B.length ∧ a + b = i ∧
      (M.length = a + b ∧ M ++ mergeL lt (U.drop a) (B.drop b) = mergeL lt U B) ∧
      st.1 = startA + a ∧ st.2.1 = startB + b)
    (s0 := (startA, startB, bufC))
    ⟨0, 0, [], h0, Nat.zero_le _, Nat.zero_le _, rfl, ⟨rfl, by simp⟩, rfl, rfl⟩ ?_
  obtain ⟨st, hst, a, b, M, hq, ha, hb, hab, hM, hsta, hstb⟩ := hH
  · have ha' : a = U.length := by omega
    have hb' : b = B.length := by omega
    subst ha' hb'
    rw [hst, Outcome.ok_bind]
    refine ⟨_, rfl, ?_⟩
    have := hM.2
    rw [List.drop_length, List.drop_length, mergeL_nil_left, List.append_nil] at this
    rwa [← this]
  · rintro i ⟨sa, sb, buf⟩ hi ⟨a, b, M, hq, ha, hb, hab, ⟨hMl, hM⟩, hsa, hsb⟩
    simp only at hsa hsb hq
    subst hsa hsb
    unfold mergeRound
    simp only []
    have eA : ∀ x, U[a]? = some x → mergeL lt (U.drop a) (B.drop b) =
        x :: mergeL lt (U.drop (a + 1)) (B.drop b) → ∃ s', (do
          let buf ← wr buf (startC + i) x
          Outcome.ok (startA + a + 1, startB + b, buf)) = .ok s' ∧ ∃ a b M, Q a b M s'.2.2 ∧
          a ≤ U.length ∧ b ≤ B.length ∧ a + b = i + 1 ∧
          (M.length = a + b ∧ M ++ mergeL lt (U.drop a) (B.drop b) = mergeL lt U B) ∧
          s'.1 = startA + a ∧ s'.2.1 = startB + b := by
      intro x hx hmx
      obtain ⟨buf', hw, hq'⟩ := hWA a b M buf x hq hMl hb hx
      have hlt := (List.getElem?_eq_some_iff.1 hx).1
      rw [hab] at hw
      rw [hw, Outcome.ok_bind]
      refine ⟨_, rfl, a + 1, b, M ++ [x], hq', by omega, hb, by omega, ⟨by simp; omega, ?_⟩,
        rfl, rfl⟩
      rw [← hM, hmx]; simp
    have eB : ∀ x, B[b]? = some x → mergeL lt (U.drop a) (B.drop b) =
        x :: mergeL lt (U.drop a) (B.drop (b + 1)) → ∃ s', (do
          let buf ← wr buf (startC + i) x
          Outcome.ok (startA + a, startB + b + 1, buf)) = .ok s' ∧ ∃ a b M, Q a b M s'.2.2 ∧
          a ≤ U.length ∧ b ≤ B.length ∧ a + b = i + 1 ∧
          (M.length = a + b ∧ M ++ mergeL lt (U.drop a) (B.drop b) = mergeL lt U B) ∧
          s'.1 = startA + a ∧ s'.2.1 = startB + b := by
      intro x hx hmx
      obtain ⟨buf', hw, hq'⟩ := hWB a b M buf x hq hMl ha hx
      have hlt := (List.getElem?_eq_some_iff.1 hx).1
      rw [hab] at hw
      rw [hw, Outcome.ok_bind]
      refine ⟨_, rfl, a, b + 1, M ++ [x], hq', ha, by omega, by omega, ⟨by simp; omega, ?_⟩,
        rfl, rfl⟩
      rw [← hM, hmx]; simp
    by_cases haU : a = U.length
    · have hbB : b < B.length := by omega
      rw [if_pos (by omega), hB a b M buf B[b] hq (List.getElem?_eq_getElem hbB), Outcome.ok_bind]
      refine eB _ (List.getElem?_eq_getElem hbB) ?_
      rw [haU, List.drop_length, mergeL_nil_left, mergeL_nil_left, drop_cons_of hbB]
    · have haU' : a < U.length := by omega
      rw [if_neg (by omega)]
      by_cases hbB : b = B.length
      · rw [if_pos (by omega), hA a b M buf U[a] hq (List.getElem?_eq_getElem haU'), Outcome.ok_bind]
        refine eA _ (List.getElem?_eq_getElem haU') ?_
        rw [hbB, List.drop_length, mergeL_nil_right, mergeL_nil_right, drop_cons_of haU']
      · have hbB' : b < B.length := by omega
        rw [if_neg (by omega), hA a b M buf U[a] hq (List.getElem?_eq_getElem haU'), Outcome.ok_bind,
          hB a b M buf B[b] hq (List.getElem?_eq_getElem hbB'), Outcome.ok_bind]
        by_cases hlt : lt U[a] B[b] = true
        · rw [if_pos hlt]
          refine eA _ (List.getElem?_eq_getElem haU') ?_
          rw [drop_cons_of haU', drop_cons_of hbB', mergeL_cons, if_pos hlt]
        · rw [if_neg hlt]
          refine eB _ (List.getElem?_eq_getElem hbB') ?_
          rw [drop_cons_of haU', drop_cons_of hbB', mergeL_cons, if_neg hlt]

/-- All three arguments are one slice: `U` is merged with `B` over the gap `J` of the size of `U`
between them. -/
theorem mergeSorted_inPlace (lt : α → α → Bool) (P U J B S : List α) (hJ : J.length = U.length) :
    ∃ Y, mergeSorted lt id P.length U.length id (P.length + U.length + J.length) B.length
        (P ++ U ++ J ++ B ++ S) (P.length + U.length) = .ok (P ++ Y ++ mergeL lt U B ++ S) ∧
      Y.length = U.length := by
  have hH := mergeSorted_gen lt (readA := id) (readB := id) (U := U) (B := B)
    (startA := P.length) (startB := P.length + U.length + J.length)
    (startC := P.length + U.length) (bufC := P ++ U ++ J ++ B ++ S)
    (fun a b M buf => ∃ J', J'.length + a = U.length ∧
      (M.length = a + b → buf = P ++ U ++ M ++ J' ++ B.drop b ++ S) ∧ M.length = a + b)
    ?_ ?_ ?_ ?_ ⟨J, by omega, by simp, rfl⟩
  obtain ⟨buf', h, J', hJ', hb⟩ := hH
  · have hb' := hb.1 hb.2
    have : J' = [] := List.eq_nil_of_length_eq_zero (by omega)
    refine ⟨U, ?_, rfl⟩
    rw [h, hb', this, List.drop_length]
    asm
  · rintro a b M buf x ⟨J', hJ', hbuf, hM⟩ hx
    rw [hbuf hM]
    apply rd_ok
    have : P ++ U ++ M ++ J' ++ B.drop b ++ S = P ++ U ++ (M ++ J' ++ B.drop b ++ S) := by asm
    show (P ++ U ++ M ++ J' ++ B.drop b ++ S)[P.length + a]? = some x
    rw [this]
    exact get_seg hx rfl
  · rintro a b M buf x ⟨J', hJ', hbuf, hM⟩ hx
    rw [hbuf hM]
    apply rd_ok
    show (P ++ U ++ M ++ J' ++ B.drop b ++ S)[P.length + U.length + J.length + b]? = some x
    refine get_seg (i := 0) ?_ (by simp only [List.length_append]; omega)
    rw [List.getElem?_drop]; simpa using hx
  · rintro a b M buf x ⟨J', hJ', hbuf, hM⟩ _ _ hx
    have hlt := (List.getElem?_eq_some_iff.1 hx).1
    rw [hbuf hM]
    cases J' with
    | nil => simp at hJ'; omega
    | cons j J0 =>
      have : P ++ U ++ M ++ (j :: J0) ++ B.drop b ++ S =
        (P ++ U ++ M) ++ j :: (J0 ++ B.drop b ++ S) := by asm
      rw [this, wr_mid _ _ _ _ (by simp only [List.length_append]; omega)]
      refine ⟨_, rfl, J0, by simp at hJ'; omega, fun _ => by asm, by simp; omega⟩
  · rintro a b M buf x ⟨J', hJ', hbuf, hM⟩ _ _ hx
    have hlt := (List.getElem?_eq_some_iff.1 hx).1
    have hx' : x = B[b] := (List.getElem?_eq_some_iff.1 hx).2.symm
    rw [hbuf hM, drop_cons_of hlt, ← hx']
    cases J' with
    | nil =>
      have : P ++ U ++ M ++ [] ++ x :: B.drop (b + 1) ++ S =
        (P ++ U ++ M) ++ x :: (B.drop (b + 1) ++ S) := by asm
      rw [this, wr_mid _ _ _ _ (by simp only [List.length_append]; omega)]
      exact ⟨_, rfl, [], hJ', fun _ => by asm, by simp; omega⟩
    | cons j J0 =>
      have : P ++ U ++ M ++ (j :: J0) ++ x :: B.drop (b + 1) ++ S =
        (P ++ U ++ M) ++ j :: (J0 ++ x :: B.drop (b + 1) ++ S) := by asm
      rw [this, wr_mid _ _ _ _ (by simp only [List.length_append]; omega)]
      exact ⟨_, rfl, J0 ++ [x], by simpa using hJ', fun _ => by asm, by simp; omega⟩

/-- The three arguments are different slices. -/
theorem mergeSorted_copy (lt : α → α → Bool) (P Y S Q U T Q' B T' : List α)
    (hY : Y.length = U.length + B.length) :
    mergeSorted lt (fun _ => Q ++ U ++ T) Q.length U.length (fun _ => Q' ++ B ++ T') Q'.length
      B.length (P ++ Y ++ S) P.length = .ok (P ++ mergeL lt U B ++ S) := by
  have hH := mergeSorted_gen lt (readA := fun _ => Q ++ U ++ T)
    (readB := fun _ => Q' ++ B ++ T') (U := U) (B := B)
    (startA := Q.length) (startB := Q'.length) (startC := P.length) (bufC := P ++ Y ++ S)
    (fun a b M buf => M.length = a + b ∧ buf = P ++ M ++ Y.drop (a + b) ++ S)
    ?_ ?_ ?_ ?_ ⟨rfl, by simp⟩
  obtain ⟨buf', h, hM, hb⟩ := hH
  · rw [h, hb, ← hY, List.drop_length]; simp
  · rintro a b M buf x _ hx
    exact rd_ok (get_seg hx rfl)
  · rintro a b M buf x _ hx
    exact rd_ok (get_seg hx rfl)
  · rintro a b M buf x ⟨hM, hbuf⟩ _ hb hx
    have hlt := (List.getElem?_eq_some_iff.1 hx).1
    have hY' : a + b < Y.length := by omega
    rw [hbuf, drop_cons_of hY']
    have : P ++ M ++ Y[a + b] :: Y.drop (a + b + 1) ++ S =
      (P ++ M) ++ Y[a + b] :: (Y.drop (a + b + 1) ++ S) := by asm
    rw [this, wr_mid _ _ _ _ (by simp only [List.length_append]; omega)]
    refine ⟨_, rfl, by simp; omega, ?_⟩
    rw [show a + 1 + b = a + b + 1 by omega]; simp
  · rintro a b M buf x ⟨hM, hbuf⟩ _ ha hx
    have hlt := (List.getElem?_eq_some_iff.1 hx).1
    have hY' : a + b < Y.length := by omega
    rw [hbuf, drop_cons_of hY']
    have : P ++ M ++ Y[a + b] :: Y.drop (a + b + 1) ++ S =
      (P ++ M) ++ Y[a + b] :: (Y.drop (a + b + 1) ++ S) := by asm
    rw [this, wr_mid _ _ _ _ (by simp only [List.length_append]; omega)]
    refine ⟨_, rfl, by simp; omega, ?_⟩
    rw [show a + (b + 1) = a + b + 1 by omega]; simp

/-! ## Compaction of one level -/

theorem sortRange_ok (env : Env α) (P X S : List α) :
    sortRange env (P ++ X ++ S) P.length X.length = .ok (P ++ env.sort X ++ S) := by
  unfold sortRange
  rw [if_pos (by simp only [List.length_append]; omega)]
  have h1 : (P ++ X ++ S).take P.length = P := by simp
  have h2 : ((P ++ X ++ S).drop P.length).take X.length = X := by simp
  have h3 : (P ++ X ++ S).drop (P.length + X.length) = S := by
    rw [← List.length_append, List.drop_left]
  rw [h1, h2, h3]

/-- The level above after the even part `X` of a level was halved into it. -/
def above (env : Env α) (doSort : Bool) (o : Nat) (X B : List α) : List α :=
  let X := if doSort then env.sort X else X
  if B = [] then selUp o X else mergeL env.lt (selDown o X) B

theorem above_length {env : Env α} (hs : ∀ l, (env.sort l).Perm l) (doSort : Bool) (o : Nat)
    (X B : List α) : (above env doSort o X B).length = X.length / 2 + B.length := by
  unfold above
  have hl : (if doSort then env.sort X else X).length = X.length := by
    split
    · exact (hs X).length_eq
    · rfl
  simp only []
  split
  · rename_i h
    rw [selUp_length, hl, h]; simp
  · rw [mergeL_length, selDown_length, hl]

theorem compactSegment_ok {env : Env α} (hs : ∀ l, (env.sort l).Perm l) (P X B S : List α)
    {t o : Nat} (doSort : Bool) (ho : o < 2) (hX : X.length = 2 * t) (ht : 0 < t) :
    ∃ Y, compactSegment env (P ++ X ++ B ++ S) P.length (2 * t) (P.length + 2 * t) B.length
        doSort o = .ok (P ++ Y ++ above env doSort o X B ++ S) ∧ Y.length = t := by
  unfold compactSegment
  set X' := if doSort then env.sort X else X with hX'
  have hl : X'.length = 2 * t := by
    rw [hX']; split
    · rw [(hs X).length_eq, hX]
    · exact hX
  have h1 : sortIf env doSort (P ++ X ++ B ++ S) P.length (2 * t) = .ok (P ++ X' ++ B ++ S) := by
    unfold sortIf
    cases doSort with
    | false => rfl
    | true =>
      have := sortRange_ok env P X (B ++ S)
      rw [if_pos rfl, ← hX]
      simp only [List.append_assoc] at this ⊢
      rw [this]
      simp [hX']
  rw [h1, Outcome.ok_bind]
  have hab : above env doSort o X B =
      if B = [] then selUp o X' else mergeL env.lt (selDown o X') B := by
    unfold above; simp only [hX']
  rw [hab]
  by_cases hB : B = []
  · subst hB
    rw [if_pos (by simp), if_pos rfl]
    obtain ⟨J, hJ, hJl⟩ := halveUp_ok P X' S ho hl (by omega)
    refine ⟨J, ?_, hJl⟩
    rw [List.append_nil, hJ]
  · have hBl : B.length ≠ 0 := by
      intro h; exact hB (List.eq_nil_of_length_eq_zero h)
    rw [if_neg hBl, if_neg hB]
    obtain ⟨J, hJ, hJl⟩ := halveDown_ok P X' (B ++ S) ho hl
    have he : P ++ X' ++ B ++ S = P ++ X' ++ (B ++ S) := by asm
    rw [he, hJ, Outcome.ok_bind]
    have hsl : (selDown o X').length = t := by rw [selDown_length]; omega
    obtain ⟨Y, hY, hYl⟩ := mergeSorted_inPlace env.lt P (selDown o X') J B S (by omega)
    refine ⟨Y, ?_, by omega⟩
    rw [hsl, hJl] at hY
    rw [show 2 * t / 2 = t by omega, show P.length + 2 * t = P.length + t + t by omega]
    rw [show P ++ selDown o X' ++ J ++ (B ++ S) = P ++ selDown o X' ++ J ++ B ++ S by simp]
    exact hY

end Verif.Kll
