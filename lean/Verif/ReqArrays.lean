import Verif.ReqModel
import Verif.Loops
import Mathlib.Data.List.Basic
import Mathlib.Tactic.Linarith

/-!
# The array loops of the REQ sketch as operations on lists
-/

namespace Verif.Req

open Verif Verif.View

section generic

variable {β : Type}

theorem rd_ok {l : List β} {i : Nat} {v : β} (h : l[i]? = some v) : rd l i = .ok v := by
  unfold rd; rw [h]; rfl

theorem rdI_ok {l : List β} {i : Nat} {v : β} (h : l[i]? = some v) {z : Int} (hz : z = i) :
    rdI l z = .ok v := by
  subst hz
  unfold rdI
  rw [if_neg (by omega), Int.toNat_natCast, rd_ok h]

theorem wr_ok {l : List β} {i : Nat} (v : β) (h : i < l.length) : wr l i v = .ok (l.set i v) :=
  if_pos h

theorem sub_ok {a b : Nat} (h : b ≤ a) : sub a b = .ok (a - b) := if_pos h

/-- Merging backwards: `i` items of `A` and `j` items of `B` are still to be placed; `A.take i` is
still at the front of the array, behind it `j` free cells, behind them the merged items. -/
structure Back (le : β → β → Prop) (A B S : List β) (arr : List β) (i j : Nat) : Prop where
  arr_eq : ∃ J W, arr = A.take i ++ J ++ W ++ S ∧ J.length = j ∧
    W.Perm (A.drop i ++ B.drop j) ∧ W.Pairwise le ∧
    (∀ w ∈ W, ∀ a ∈ A.take i, le a w) ∧ (∀ w ∈ W, ∀ b ∈ B.take j, le b w)
  hi : i ≤ A.length
  hj : j ≤ B.length

variable {le : β → β → Prop} {A B S arr : List β} {i j : Nat}

theorem Back.init (J S : List β) (hJ : J.length = B.length) :
    Back le A B S (A ++ J ++ S) A.length B.length := by
  refine ⟨⟨J, [], by simp, hJ, by simp, List.Pairwise.nil, by simp, by simp⟩, le_refl _, le_refl _⟩

theorem Back.len (h : Back le A B S arr i j) : arr.length = A.length + B.length + S.length := by
  obtain ⟨J, W, e, hJ, hp, -⟩ := h.arr_eq
  have := hp.length_eq
  have h1 := h.hi
  have h2 := h.hj
  rw [e]
  simp only [List.length_append, List.length_take, List.length_drop] at this ⊢
  omega

theorem take_succ_get {l : List β} {i : Nat} {x : β} (hx : l[i]? = some x) :
    l.take (i + 1) = l.take i ++ [x] := by
  rw [List.take_add_one, hx]; rfl

theorem drop_get {l : List β} {i : Nat} {x : β} (hx : l[i]? = some x) :
    l.drop i = x :: l.drop (i + 1) := by
  obtain ⟨h, rfl⟩ := List.getElem?_eq_some_iff.1 hx
  exact (List.cons_getElem_drop_succ).symm

theorem Back.read (h : Back le A B S arr (i + 1) j) {x : β} (hx : A[i]? = some x) :
    arr[i]? = some x := by
  obtain ⟨J, W, e, hJ, -⟩ := h.arr_eq
  have hi := h.hi
  have : (A.take (i + 1))[i]? = some x := by
    rw [List.getElem?_take, if_pos (by omega), hx]
  rw [e, List.append_assoc, List.append_assoc, List.getElem?_append_left, this]
  rw [List.length_take]; omega

/-- Place an item of `A`. -/
theorem Back.stepA (htr : ∀ a b c, le a b → le b c → le a c)
    (hA : A.Pairwise le) (hB : B.Pairwise le) (h : Back le A B S arr (i + 1) j) {x : β}
    (hx : A[i]? = some x) (hy : ∀ y, 0 < j → B[j - 1]? = some y → le y x) :
    Back le A B S (arr.set (i + j) x) i j := by
  obtain ⟨J, W, e, hJ, hp, hs, hwa, hwb⟩ := h.arr_eq
  have hi := h.hi
  have ht := take_succ_get hx
  have hAi : ∀ a ∈ A.take i, le a x := by
    intro a ha
    rw [← List.take_append_drop i A, List.pairwise_append] at hA
    exact hA.2.2 a ha x (by rw [drop_get hx]; simp)
  have hlen : (A.take i).length = i := by rw [List.length_take]; omega
  have hxm : x ∈ A.take (i + 1) := by rw [ht]; simp
  -- the cells from `i` on: `x`, `J`, of which the last is overwritten
  obtain ⟨J', hJ', he⟩ : ∃ J', J'.length = j ∧
      ([x] ++ J).set j x = J' ++ [x] := by
    refine ⟨([x] ++ J).take j, by simp [hJ], ?_⟩
    have hl : ([x] ++ J).length = j + 1 := by simp [hJ]
    rw [List.set_eq_take_append_cons_drop, if_pos (by omega), List.drop_of_length_le (by omega)]
  refine ⟨⟨J', x :: W, ?_, hJ', ?_, ?_, ?_, ?_⟩, by omega, h.hj⟩
  · rw [e, ht]
    rw [show A.take i ++ [x] ++ J ++ W ++ S = A.take i ++ (([x] ++ J) ++ (W ++ S)) by simp]
    rw [List.set_append_right _ _ (by omega), hlen, show i + j - i = j by omega,
      List.set_append_left _ _ (by simp [hJ]), he]
    simp
  · rw [drop_get hx]
    exact hp.cons x
  · rw [List.pairwise_cons]
    exact ⟨fun w hw => hwa w hw x hxm, hs⟩
  · intro w hw a ha
    rcases List.mem_cons.1 hw with rfl | hw
    · exact hAi a ha
    · exact hwa w hw a (by rw [ht]; simp [ha])
  · intro w hw b hb
    rcases List.mem_cons.1 hw with rfl | hw
    · -- the last of the remaining items of `B` bounds the others
      have hj0 : 0 < j := by
        by_contra hc
        have : j = 0 := by omega
        rw [this] at hb
        simp at hb
      have hjB := h.hj
      have hg : B[j - 1]? = some B[j - 1] := List.getElem?_eq_getElem (by omega)
      have h1 := hy _ hj0 hg
      have ht' := take_succ_get hg
      rw [show j - 1 + 1 = j by omega] at ht'
      rw [ht', List.mem_append, List.mem_singleton] at hb
      rcases hb with hb | rfl
      · refine htr _ _ _ ?_ h1
        rw [← List.take_append_drop (j - 1) B, List.pairwise_append] at hB
        exact hB.2.2 b hb _ (by rw [drop_get hg]; exact List.mem_cons_self)
      · exact h1
    · exact hwb w hw b hb

/-- Place an item of `B`. -/
theorem Back.stepB (htr : ∀ a b c, le a b → le b c → le a c)
    (hA : A.Pairwise le) (hB : B.Pairwise le) (h : Back le A B S arr i (j + 1)) {y : β}
    (hy : B[j]? = some y) (hx : ∀ x, 0 < i → A[i - 1]? = some x → le x y) :
    Back le A B S (arr.set (i + j) y) i j := by
  obtain ⟨J, W, e, hJ, hp, hs, hwa, hwb⟩ := h.arr_eq
  have hj := h.hj
  have hi := h.hi
  have ht := take_succ_get hy
  have hBj : ∀ b ∈ B.take j, le b y := by
    intro b hb
    rw [← List.take_append_drop j B, List.pairwise_append] at hB
    exact hB.2.2 b hb y (by rw [drop_get hy]; simp)
  have hlen : (A.take i).length = i := by rw [List.length_take]; omega
  have hym : y ∈ B.take (j + 1) := by rw [ht]; simp
  refine ⟨⟨J.take j, y :: W, ?_, by rw [List.length_take]; omega, ?_, ?_, ?_, ?_⟩, hi, by omega⟩
  · rw [e, List.append_assoc, List.append_assoc, List.set_append_right _ _ (by omega), hlen,
      show i + j - i = j by omega, List.set_append_left _ _ (by omega),
      List.set_eq_take_append_cons_drop, if_pos (by omega), List.drop_of_length_le (by omega)]
    simp
  · rw [drop_get hy]
    exact (hp.cons y).trans List.perm_middle.symm
  · rw [List.pairwise_cons]
    exact ⟨fun w hw => hwb w hw y hym, hs⟩
  · intro w hw a ha
    rcases List.mem_cons.1 hw with rfl | hw
    · have hi0 : 0 < i := by
        by_contra hc
        have : i = 0 := by omega
        rw [this] at ha
        simp at ha
      have hg : A[i - 1]? = some A[i - 1] := List.getElem?_eq_getElem (by omega)
      have h1 := hx _ hi0 hg
      have ht' := take_succ_get hg
      rw [show i - 1 + 1 = i by omega] at ht'
      rw [ht', List.mem_append, List.mem_singleton] at ha
      rcases ha with ha | rfl
      · refine htr _ _ _ ?_ h1
        rw [← List.take_append_drop (i - 1) A, List.pairwise_append] at hA
        exact hA.2.2 a ha _ (by rw [drop_get hg]; exact List.mem_cons_self)
      · exact h1
    · exact hwa w hw a ha
  · intro w hw b hb
    rcases List.mem_cons.1 hw with rfl | hw
    · exact hBj b hb
    · exact hwb w hw b (by rw [ht]; simp [hb])

theorem Back.final (h : Back le A B S arr 0 0) :
    ∃ W, arr = W ++ S ∧ W.Perm (A ++ B) ∧ W.Pairwise le := by
  obtain ⟨J, W, e, hJ, hp, hs, -⟩ := h.arr_eq
  have : J = [] := List.length_eq_zero_iff.1 hJ
  subst this
  exact ⟨W, by simpa using e, by simpa using hp, hs⟩

/-- Merging forwards at the end of the array: `i` items of `A` and `j` of `B` are placed. -/
structure Fwd (le : β → β → Prop) (P A B : List β) (arr : List β) (i j : Nat) : Prop where
  arr_eq : ∃ W J, arr = P ++ W ++ J ++ A.drop i ∧ J.length = B.length - j ∧
    W.Perm (A.take i ++ B.take j) ∧ W.Pairwise le ∧
    (∀ w ∈ W, ∀ a ∈ A.drop i, le w a) ∧ (∀ w ∈ W, ∀ b ∈ B.drop j, le w b)
  hi : i ≤ A.length
  hj : j ≤ B.length

variable {P : List β}

theorem Fwd.init (P J : List β) (hJ : J.length = B.length) : Fwd le P A B (P ++ J ++ A) 0 0 := by
  refine ⟨⟨[], J, by simp, by omega, by simp, List.Pairwise.nil, by simp, by simp⟩, by omega, by omega⟩

theorem Fwd.len (h : Fwd le P A B arr i j) : arr.length = P.length + A.length + B.length := by
  obtain ⟨W, J, e, hJ, hp, -⟩ := h.arr_eq
  have := hp.length_eq
  have h1 := h.hi
  have h2 := h.hj
  rw [e]
  simp only [List.length_append, List.length_take, List.length_drop] at this ⊢
  omega

theorem Fwd.read (h : Fwd le P A B arr i j) {x : β} (hx : A[i]? = some x) :
    arr[P.length + B.length + i]? = some x := by
  obtain ⟨W, J, e, hJ, hp, -⟩ := h.arr_eq
  have hi := h.hi
  have hj := h.hj
  have hW := hp.length_eq
  simp only [List.length_append, List.length_take] at hW
  rw [e, List.getElem?_append_right (by simp only [List.length_append]; omega), drop_get hx]
  have : P.length + B.length + i - (P ++ W ++ J).length = 0 := by
    simp only [List.length_append]; omega
  rw [this]; rfl

theorem Fwd.stepA (hA : A.Pairwise le) (hB : B.Pairwise le)
    (htr : ∀ a b c, le a b → le b c → le a c)
    (h : Fwd le P A B arr i j) {x : β} (hx : A[i]? = some x)
    (hy : ∀ y, B[j]? = some y → le x y) :
    Fwd le P A B (arr.set (P.length + (i + j)) x) (i + 1) j := by
  obtain ⟨W, J, e, hJ, hp, hs, hwa, hwb⟩ := h.arr_eq
  have hi := (List.getElem?_eq_some_iff.1 hx).1
  have hj := h.hj
  have hW := hp.length_eq
  simp only [List.length_append, List.length_take] at hW
  have hd := drop_get hx
  have hxa : ∀ a ∈ A.drop (i + 1), le x a := by
    intro a ha
    rw [← List.take_append_drop (i + 1) A, List.pairwise_append] at hA
    exact hA.2.2 x (by rw [take_succ_get hx]; simp) a ha
  obtain ⟨J', hJ', he⟩ : ∃ J', J'.length = B.length - j ∧ (J ++ [x]).set 0 x = x :: J' := by
    cases J with
    | nil => exact ⟨[], hJ, rfl⟩
    | cons a J => exact ⟨J ++ [x], by simpa using hJ, rfl⟩
  refine ⟨⟨W ++ [x], J', ?_, hJ', ?_, ?_, ?_, ?_⟩, by omega, hj⟩
  · rw [e, hd, show P ++ W ++ J ++ x :: A.drop (i + 1) =
      (P ++ W) ++ ((J ++ [x]) ++ A.drop (i + 1)) by simp,
      List.set_append_right _ _ (by simp only [List.length_append]; omega),
      show P.length + (i + j) - (P ++ W).length = 0 by simp only [List.length_append]; omega,
      List.set_append_left _ _ (by simp), he]
    simp
  · rw [take_succ_get hx]
    refine (hp.append_right [x]).trans ?_
    rw [List.append_assoc, List.append_assoc]
    exact List.Perm.append_left _ List.perm_append_comm
  · rw [List.pairwise_append]
    refine ⟨hs, by simp, ?_⟩
    intro w hw b hb
    rw [List.mem_singleton] at hb
    rw [hb]
    exact hwa w hw x (by rw [hd]; simp)
  · intro w hw a ha
    rcases List.mem_append.1 hw with hw | hw
    · exact hwa w hw a (by rw [hd]; simp [ha])
    · rw [List.mem_singleton] at hw
      rw [hw]
      exact hxa a ha
  · intro w hw b hb
    rcases List.mem_append.1 hw with hw | hw
    · exact hwb w hw b hb
    · rw [List.mem_singleton] at hw
      rw [hw]
      by_cases hjl : j < B.length
      · have hg : B[j]? = some B[j] := List.getElem?_eq_getElem hjl
        rw [drop_get hg] at hb
        rcases List.mem_cons.1 hb with rfl | hb
        · exact hy _ hg
        · refine htr _ _ _ (hy _ hg) ?_
          rw [← List.take_append_drop (j + 1) B, List.pairwise_append] at hB
          exact hB.2.2 _ (by rw [take_succ_get hg]; exact List.mem_append_right _ (List.mem_singleton.2 rfl)) b hb
      · rw [List.drop_of_length_le (by omega)] at hb
        simp at hb

theorem Fwd.stepB (hA : A.Pairwise le) (hB : B.Pairwise le)
    (htr : ∀ a b c, le a b → le b c → le a c)
    (h : Fwd le P A B arr i j) {y : β} (hy : B[j]? = some y)
    (hx : ∀ x, A[i]? = some x → le y x) :
    Fwd le P A B (arr.set (P.length + (i + j)) y) i (j + 1) := by
  obtain ⟨W, J, e, hJ, hp, hs, hwa, hwb⟩ := h.arr_eq
  have hj := (List.getElem?_eq_some_iff.1 hy).1
  have hi := h.hi
  have hW := hp.length_eq
  simp only [List.length_append, List.length_take] at hW
  have hd := drop_get hy
  have hyb : ∀ b ∈ B.drop (j + 1), le y b := by
    intro b hb
    rw [← List.take_append_drop (j + 1) B, List.pairwise_append] at hB
    exact hB.2.2 y (by rw [take_succ_get hy]; simp) b hb
  cases J with
  | nil => simp at hJ; omega
  | cons z J =>
    refine ⟨⟨W ++ [y], J, ?_, by simp at hJ; omega, ?_, ?_, ?_, ?_⟩, hi, by omega⟩
    · rw [e, show P ++ W ++ z :: J ++ A.drop i = (P ++ W) ++ (z :: (J ++ A.drop i)) by simp,
        List.set_append_right _ _ (by simp only [List.length_append]; omega),
        show P.length + (i + j) - (P ++ W).length = 0 by simp only [List.length_append]; omega,
        List.set_cons_zero]
      simp
    · rw [take_succ_get hy]
      refine (hp.append_right [y]).trans ?_
      rw [List.append_assoc]
    · rw [List.pairwise_append]
      refine ⟨hs, by simp, ?_⟩
      intro w hw b hb
      rw [List.mem_singleton] at hb
      rw [hb]
      exact hwb w hw y (by rw [hd]; simp)
    · intro w hw a ha
      rcases List.mem_append.1 hw with hw | hw
      · exact hwa w hw a ha
      · rw [List.mem_singleton] at hw
        rw [hw]
        by_cases hil : i < A.length
        · have hg : A[i]? = some A[i] := List.getElem?_eq_getElem hil
          rw [drop_get hg] at ha
          rcases List.mem_cons.1 ha with rfl | ha
          · exact hx _ hg
          · refine htr _ _ _ (hx _ hg) ?_
            rw [← List.take_append_drop (i + 1) A, List.pairwise_append] at hA
            exact hA.2.2 _ (by rw [take_succ_get hg]; exact List.mem_append_right _ (List.mem_singleton.2 rfl)) a ha
        · rw [List.drop_of_length_le (by omega)] at ha
          simp at ha
    · intro w hw b hb
      rcases List.mem_append.1 hw with hw | hw
      · exact hwb w hw b (by rw [hd]; simp [hb])
      · rw [List.mem_singleton] at hw
        rw [hw]
        exact hyb b hb

theorem Fwd.final (h : Fwd le P A B arr A.length B.length) :
    ∃ W, arr = P ++ W ∧ W.Perm (A ++ B) ∧ W.Pairwise le := by
  obtain ⟨W, J, e, hJ, hp, hs, -⟩ := h.arr_eq
  have : J = [] := List.length_eq_zero_iff.1 (by omega)
  subst this
  exact ⟨W, by simpa using e, by simpa using hp, hs⟩

end generic

variable {α : Type} [LinearOrder α]

/-- The sorted list. -/
abbrev srt (l : List α) : List α := l.insertionSort (· ≤ ·)

theorem srt_perm (l : List α) : (srt l).Perm l := List.perm_insertionSort _ l

theorem srt_sorted (l : List α) : (srt l).Pairwise (· ≤ ·) := List.pairwise_insertionSort _ l

theorem eq_srt {l m : List α} (h : l.Perm m) (hs : l.Pairwise (· ≤ ·)) : l = srt m :=
  (h.trans (srt_perm m).symm).eq_of_pairwise (fun _ _ _ _ h1 h2 => le_antisymm h1 h2) hs
    (srt_sorted m)

theorem srt_of_sorted {l : List α} (h : l.Pairwise (· ≤ ·)) : srt l = l :=
  (eq_srt (List.Perm.refl l) h).symm

theorem le_tr : ∀ a b c : α, a ≤ b → b ≤ c → a ≤ c := fun _ _ _ => le_trans

/-- The forward merge. -/
theorem mergeHra_ok {P J A Q B : List α} (hJ : J.length = B.length) (hA : A.Pairwise (· ≤ ·))
    (hB : B.Pairwise (· ≤ ·)) :
    ∃ i j, (List.range (A.length + B.length)).foldlM
      (mergeRoundHra (Q ++ B) (P ++ J ++ A).length (Q ++ B).length P.length)
      (P ++ J ++ A, P.length + B.length, Q.length) = .ok (P ++ srt (A ++ B), i, j) := by
  have hlen : (P ++ J ++ A).length = P.length + B.length + A.length := by
    simp only [List.length_append]; omega
  have hH := range_fold (n := A.length + B.length)
    (f := mergeRoundHra (Q ++ B) (P ++ J ++ A).length (Q ++ B).length P.length)
    (fun r st => ∃ i j, r = i + j ∧ Fwd (· ≤ ·) P A B st.1 i j ∧
      st.2.1 = P.length + B.length + i ∧ st.2.2 = Q.length + j)
    (s0 := (P ++ J ++ A, P.length + B.length, Q.length)) ⟨0, 0, rfl, Fwd.init P J hJ, rfl, rfl⟩ ?_
  · obtain ⟨st, hst, i, j, hr, hf, h1, h2⟩ := hH
    have hi := hf.hi
    have hj := hf.hj
    obtain ⟨rfl, rfl⟩ : i = A.length ∧ j = B.length := by omega
    obtain ⟨W, hW, hp, hs⟩ := hf.final
    refine ⟨st.2.1, st.2.2, ?_⟩
    rw [hst]
    congr 1
    rw [← eq_srt hp hs, ← hW]
  · rintro r ⟨arr, ii, jj⟩ hr ⟨i, j, rfl, hf, h1, h2⟩
    simp only at h1 h2 hf
    subst h1 h2
    have hi := hf.hi
    have hj := hf.hj
    have hl := hf.len
    have hQ : ∀ y, B[j]? = some y → (Q ++ B)[Q.length + j]? = some y := by
      intro y hy
      rw [List.getElem?_append_right (by omega), Nat.add_sub_cancel_left, hy]
    simp only [mergeRoundHra, hlen, List.length_append]
    by_cases hiA : i < A.length
    · have hgA : A[i]? = some A[i] := List.getElem?_eq_getElem hiA
      by_cases hjB : j < B.length
      · have hgB : B[j]? = some B[j] := List.getElem?_eq_getElem hjB
        rw [if_pos ⟨by omega, by omega⟩, rd_ok (hf.read hgA), Outcome.ok_bind, rd_ok (hQ _ hgB),
          Outcome.ok_bind]
        by_cases hle : A[i] ≤ B[j]
        · rw [if_pos hle, wr_ok _ (by omega), Outcome.ok_bind]
          refine ⟨_, rfl, i + 1, j, by omega, hf.stepA hA hB le_tr hgA ?_, by simp only; omega, rfl⟩
          intro y hy
          rw [hgB] at hy
          cases hy
          exact hle
        · rw [if_neg hle, wr_ok _ (by omega), Outcome.ok_bind]
          refine ⟨_, rfl, i, j + 1, by omega, hf.stepB hA hB le_tr hgB ?_, rfl, by simp only; omega⟩
          intro x hx
          rw [hgA] at hx
          cases hx
          exact le_of_not_ge hle
      · rw [if_neg (by omega), if_pos (by omega), rd_ok (hf.read hgA), Outcome.ok_bind,
          wr_ok _ (by omega), Outcome.ok_bind]
        refine ⟨_, rfl, i + 1, j, by omega, hf.stepA hA hB le_tr hgA ?_, by simp only; omega, rfl⟩
        intro y hy
        have := (List.getElem?_eq_some_iff.1 hy).1
        omega
    · have hjB : j < B.length := by omega
      have hgB : B[j]? = some B[j] := List.getElem?_eq_getElem hjB
      rw [if_neg (by omega), if_neg (by omega), if_pos (by omega), rd_ok (hQ _ hgB),
        Outcome.ok_bind, wr_ok _ (by omega), Outcome.ok_bind]
      refine ⟨_, rfl, i, j + 1, by omega, hf.stepB hA hB le_tr hgB ?_, rfl, by simp only; omega⟩
      intro x hx
      have := (List.getElem?_eq_some_iff.1 hx).1
      omega

/-- The backward merge. -/
theorem mergeLra_ok {J A S B Q : List α} (hJ : J.length = B.length) (hA : A.Pairwise (· ≤ ·))
    (hB : B.Pairwise (· ≤ ·)) :
    ∃ i j, (List.range (A.length + B.length)).foldlM
      (mergeRoundLra (B ++ Q) (A.length + B.length))
      (A ++ J ++ S, (A.length : Int) - 1, (B.length : Int) - 1) = .ok (srt (A ++ B) ++ S, i, j) := by
  have hH := range_fold (n := A.length + B.length)
    (f := mergeRoundLra (B ++ Q) (A.length + B.length))
    (fun r st => ∃ i j : Nat, A.length + B.length = r + (i + j) ∧ Back (· ≤ ·) A B S st.1 i j ∧
      st.2.1 = (i : Int) - 1 ∧ st.2.2 = (j : Int) - 1)
    (s0 := (A ++ J ++ S, (A.length : Int) - 1, (B.length : Int) - 1))
    ⟨A.length, B.length, by omega, Back.init J S hJ, rfl, rfl⟩ ?_
  · obtain ⟨st, hst, i, j, hr, hf, h1, h2⟩ := hH
    obtain ⟨rfl, rfl⟩ : i = 0 ∧ j = 0 := by omega
    obtain ⟨W, hW, hp, hs⟩ := hf.final
    refine ⟨st.2.1, st.2.2, ?_⟩
    rw [hst]
    congr 1
    rw [← eq_srt hp hs, ← hW]
  · rintro r ⟨arr, ii, jj⟩ hr ⟨i, j, hij, hf, h1, h2⟩
    simp only at h1 h2 hf
    subst h1 h2
    have hi := hf.hi
    have hj := hf.hj
    have hl := hf.len
    have hQ : ∀ (j : Nat) y, B[j]? = some y → (B ++ Q)[j]? = some y := by
      intro j y hy
      rw [List.getElem?_append_left (List.getElem?_eq_some_iff.1 hy).1, hy]
    simp only [mergeRoundLra]
    cases i with
    | zero =>
      cases j with
      | zero => omega
      | succ j =>
        have hgB : B[j]? = some B[j] := List.getElem?_eq_getElem (by omega)
        rw [if_neg (by omega), if_neg (by omega), if_pos (by omega),
          rdI_ok (hQ _ _ hgB) (by push_cast; ring), Outcome.ok_bind, wr_ok _ (by omega),
          Outcome.ok_bind]
        refine ⟨_, rfl, 0, j, by omega, ?_, rfl, by simp only; push_cast; ring⟩
        simp only
        rw [show A.length + B.length - 1 - r = 0 + j by omega]
        exact hf.stepB le_tr hA hB hgB (fun x hx => by omega)
    | succ i =>
      have hgA : A[i]? = some A[i] := List.getElem?_eq_getElem (by omega)
      cases j with
      | zero =>
        rw [if_neg (by omega), if_pos (by omega), rdI_ok (hf.read hgA) (by push_cast; ring),
          Outcome.ok_bind, wr_ok _ (by omega), Outcome.ok_bind]
        refine ⟨_, rfl, i, 0, by omega, ?_, by simp only; push_cast; ring, rfl⟩
        simp only
        rw [show A.length + B.length - 1 - r = i + 0 by omega]
        exact hf.stepA le_tr hA hB hgA (fun y hy => by omega)
      | succ j =>
        have hgB : B[j]? = some B[j] := List.getElem?_eq_getElem (by omega)
        rw [if_pos ⟨by omega, by omega⟩, rdI_ok (hf.read hgA) (by push_cast; ring), Outcome.ok_bind,
          rdI_ok (hQ _ _ hgB) (by push_cast; ring), Outcome.ok_bind]
        by_cases hle : B[j] ≤ A[i]
        · rw [if_pos hle, wr_ok _ (by omega), Outcome.ok_bind]
          refine ⟨_, rfl, i, j + 1, by omega, ?_, by simp only; push_cast; ring, rfl⟩
          simp only
          rw [show A.length + B.length - 1 - r = i + (j + 1) by omega]
          refine hf.stepA le_tr hA hB hgA ?_
          intro y _ hy
          rw [Nat.add_sub_cancel, hgB] at hy
          cases hy
          exact hle
        · rw [if_neg hle, wr_ok _ (by omega), Outcome.ok_bind]
          refine ⟨_, rfl, i + 1, j, by omega, ?_, rfl, by simp only; push_cast; ring⟩
          simp only
          rw [show A.length + B.length - 1 - r = (i + 1) + j by omega]
          refine hf.stepB le_tr hA hB hgB ?_
          intro x _ hx
          rw [Nat.add_sub_cancel, hgA] at hx
          cases hx
          exact le_of_not_ge hle

end Verif.Req
