import Verif.ReqOps
import Verif.NumericView

/-!
# The sorted view of a REQ sketch and the iteration over its items
-/

namespace Verif.Req

open Verif Verif.View

variable {α : Type} [LinearOrder α]

/-- The items of the levels with their weights. -/
def wItems (w : Int) : List (List α) → List (α × Int)
  | [] => []
  | l :: ls => l.map (fun x => (x, w)) ++ wItems (2 * w) ls

omit [LinearOrder α] in
theorem wsum_const (p : α → Bool) (w : Int) (l : List α) :
    wsum p (l.map fun x => (x, w)) = w * l.countP p := by
  induction l with
  | nil => simp
  | cons x l ih =>
    rw [List.map_cons, wsum_cons, ih, List.countP_cons]
    split
    · push_cast; ring
    · push_cast; ring

omit [LinearOrder α] in
theorem wItems_wsum (p : α → Bool) (w : Int) (Ls : List (List α)) :
    wsum p (wItems w Ls) = w * Kll.rk p Ls := by
  induction Ls generalizing w with
  | nil => simp [wItems, Kll.rk]
  | cons l ls ih =>
    rw [wItems, wsum_append, wsum_const, ih, Kll.rk]
    push_cast
    ring

omit [LinearOrder α] in
theorem wItems_append (w : Int) (A B : List (List α)) :
    wItems w (A ++ B) = wItems w A ++ wItems (2 ^ A.length * w) B := by
  induction A generalizing w with
  | nil => simp [wItems]
  | cons a A ih =>
    rw [List.cons_append, wItems, ih, wItems, List.append_assoc, List.length_cons, pow_succ]
    congr 3
    ring

omit [LinearOrder α] in
theorem wItems_length (w : Int) (Ls : List (List α)) : (wItems w Ls).length = Ls.flatten.length := by
  induction Ls generalizing w with
  | nil => rfl
  | cons l ls ih => simp [wItems, ih]

omit [LinearOrder α] in
theorem wItems_mem {w : Int} {Ls : List (List α)} {z : α × Int} (hz : z ∈ wItems w Ls) :
    (∃ l ∈ Ls, z.1 ∈ l) ∧ (1 ≤ w → 1 ≤ z.2) := by
  induction Ls generalizing w with
  | nil => simp [wItems] at hz
  | cons l ls ih =>
    rw [wItems, List.mem_append, List.mem_map] at hz
    rcases hz with ⟨x, hx, rfl⟩ | hz
    · exact ⟨⟨l, List.mem_cons_self, hx⟩, fun h => h⟩
    · obtain ⟨⟨m, hm, h⟩, h2⟩ := ih hz
      exact ⟨⟨m, List.mem_cons_of_mem _ hm, h⟩, fun h => h2 (by omega)⟩

omit [LinearOrder α] in
theorem mem_wItems {w : Int} {Ls : List (List α)} {l : List α} (hl : l ∈ Ls) {x : α} (hx : x ∈ l) :
    ∃ z ∈ wItems w Ls, z.1 = x := by
  induction Ls generalizing w with
  | nil => simp at hl
  | cons m ls ih =>
    rcases List.mem_cons.1 hl with rfl | hl
    · exact ⟨(x, w), List.mem_append_left _ (List.mem_map.2 ⟨x, hx, rfl⟩), rfl⟩
    · obtain ⟨z, hz, h⟩ := ih (w := 2 * w) hl
      exact ⟨z, List.mem_append_right _ hz, h⟩

omit [LinearOrder α] in
theorem wItems_perm {w : Int} {Ls Ls' : List (List α)} (h : List.Forall₂ List.Perm Ls' Ls) :
    (wItems w Ls').Perm (wItems w Ls) := by
  induction h generalizing w with
  | nil => exact List.Perm.refl _
  | cons h _ ih => exact (h.map _).append ih

/-! ## Merging a level into the view -/

/-- Order of weighted items. -/
def wle (a b : α × Int) : Prop := a.1 ≤ b.1

theorem wle_tr : ∀ a b c : α × Int, wle a b → wle b c → wle a c := fun _ _ _ => le_trans

theorem map_sorted {l : List α} (h : l.Pairwise (· ≤ ·)) (w : Int) :
    (l.map fun x => (x, w)).Pairwise wle := by
  rw [List.pairwise_map]
  exact h

/-- The loop that merges a sorted level into the arrays. -/
theorem viewMerge_ok {P X R : List α} {A J S : List (α × Int)} {w : Int}
    (hJ : J.length = X.length) (hA : A.Pairwise wle) (hX : X.Pairwise (· ≤ ·)) :
    ∃ W i j h, (List.range (A.length + X.length)).foldlM
        (viewRound (P ++ X ++ R) w (A.length + X.length))
        (A ++ J ++ S, (A.length : Int) - 1, (X.length : Int) - 1, (P.length : Int) + X.length - 1) =
        .ok (W ++ S, i, j, h) ∧
      W.Perm (A ++ X.map fun x => (x, w)) ∧ W.Pairwise wle := by
  have hB := map_sorted hX w
  have hH := range_fold (n := A.length + X.length)
    (f := viewRound (P ++ X ++ R) w (A.length + X.length))
    (fun r st => ∃ i j, r + i + j = A.length + X.length ∧
      Back wle A (X.map fun x => (x, w)) S st.1 i j ∧
      st.2.1 = (i : Int) - 1 ∧ st.2.2.1 = (j : Int) - 1 ∧ st.2.2.2 = (P.length : Int) + j - 1)
    (s0 := (A ++ J ++ S, (A.length : Int) - 1, (X.length : Int) - 1, (P.length : Int) + X.length - 1))
    ⟨A.length, X.length, by omega, by
      have := Back.init (le := wle) (A := A) (B := X.map fun x => (x, w)) J S (by simpa using hJ)
      simpa using this, rfl, rfl, rfl⟩ ?_
  · obtain ⟨st, hst, i, j, hr, hf, -⟩ := hH
    obtain ⟨rfl, rfl⟩ : i = 0 ∧ j = 0 := by omega
    obtain ⟨W, hW, hp, hs⟩ := hf.final
    refine ⟨W, st.2.1, st.2.2.1, st.2.2.2, ?_, hp, hs⟩
    rw [hst, ← hW]
  · rintro r ⟨arr, ii, jj, hh⟩ hr ⟨i, j, hij, hf, h1, h2, h3⟩
    simp only at h1 h2 h3 hf
    subst h1 h2 h3
    have hi := hf.hi
    have hj := hf.hj
    rw [List.length_map] at hj
    have hl := hf.len
    rw [List.length_map] at hl
    have hQ : ∀ j y, X[j]? = some y → (P ++ X ++ R)[P.length + j]? = some y := by
      intro j y hy
      have := (List.getElem?_eq_some_iff.1 hy).1
      rw [List.append_assoc, List.getElem?_append_right (by omega), Nat.add_sub_cancel_left,
        List.getElem?_append_left this, hy]
    have hk : ∀ a b : Nat, i + j = a + b + 1 → A.length + X.length - 1 - r = a + b := by
      intro a b hab; omega
    simp only [viewRound]
    cases i with
    | succ i =>
      have hgA : A[i]? = some A[i] := List.getElem?_eq_getElem (by omega)
      cases j with
      | succ j =>
        have hgX : X[j]? = some X[j] := List.getElem?_eq_getElem (by omega)
        have hgB : (X.map fun x => (x, w))[j]? = some (X[j], w) := by
          rw [List.getElem?_map, hgX]; rfl
        rw [if_pos ⟨by omega, by omega⟩, rdI_ok (hf.read hgA) (by push_cast; omega), Outcome.ok_bind,
          rdI_ok (hQ j _ hgX) (by push_cast; omega), Outcome.ok_bind]
        by_cases hle : X[j] ≤ A[i].1
        · rw [if_pos hle, hk i (j + 1) (by omega), wr_ok _ (by omega), Outcome.ok_bind]
          refine ⟨_, rfl, i, j + 1, by omega, hf.stepA wle_tr hA hB hgA ?_, by push_cast; omega,
            rfl, rfl⟩
          intro y _ hy
          rw [Nat.add_sub_cancel, hgB] at hy
          cases hy
          exact hle
        · rw [if_neg hle, hk (i + 1) j (by omega), wr_ok _ (by omega), Outcome.ok_bind]
          refine ⟨_, rfl, i + 1, j, by omega, hf.stepB wle_tr hA hB hgB ?_, rfl, by push_cast; omega,
            by push_cast; omega⟩
          intro x _ hx
          rw [Nat.add_sub_cancel, hgA] at hx
          cases hx
          exact le_of_not_ge hle
      | zero =>
        rw [if_neg (by omega), if_pos (by omega), rdI_ok (hf.read hgA) (by push_cast; omega),
          Outcome.ok_bind, hk i 0 (by omega), wr_ok _ (by omega), Outcome.ok_bind]
        refine ⟨_, rfl, i, 0, by omega, hf.stepA wle_tr hA hB hgA ?_, by push_cast; omega, rfl, rfl⟩
        intro y h; omega
    | zero =>
      cases j with
      | succ j =>
        have hgX : X[j]? = some X[j] := List.getElem?_eq_getElem (by omega)
        have hgB : (X.map fun x => (x, w))[j]? = some (X[j], w) := by
          rw [List.getElem?_map, hgX]; rfl
        rw [if_neg (by omega), if_neg (by omega), if_pos (by omega),
          rdI_ok (hQ j _ hgX) (by push_cast; omega), Outcome.ok_bind, hk 0 j (by omega),
          wr_ok _ (by omega), Outcome.ok_bind]
        refine ⟨_, rfl, 0, j, by omega, hf.stepB wle_tr hA hB hgB ?_, rfl, by push_cast; omega,
          by push_cast; omega⟩
        intro x h; omega
      | zero => omega

theorem viewMergeIn_ok {K : Nat} {c : Compactor α} (hc : CWf K c) {A J S : List (α × Int)}
    (hJ : J.length = c.count) (hA : A.Pairwise wle) (w : Int) :
    ∃ I W, viewMergeIn c.hra c (A ++ J ++ S) w A.length = .ok ({ c with
        items := I
        sorted := true }, W ++ S) ∧ W.Perm (A ++ (act c).map fun x => (x, w)) ∧ W.Pairwise wle ∧
      act ({ c with
        items := I
        sorted := true } : Compactor α) = srt (act c) ∧ CWf K ({ c with
        items := I
        sorted := true } : Compactor α) := by
  obtain ⟨I, h1, h2, h3⟩ := sort_ok hc.cnt hc.srtd
  have hcnt := hc.cnt
  have hlen : (srt (act c)).length = c.count := by
    rw [List.length_insertionSort, hc.act_length]
  have hI : ∃ P R, I = P ++ srt (act c) ++ R ∧
      (if c.hra then (I.length : Int) - 1 else (c.count : Int) - 1) =
        (P.length : Int) + (srt (act c)).length - 1 := by
    cases hh : c.hra with
    | true =>
      rw [hh] at h3
      obtain ⟨P, hP, hPl⟩ := actOf_hra (items := I) (count := c.count) (by omega)
      rw [h3] at hP
      refine ⟨P, [], by rw [List.append_nil]; exact hP, ?_⟩
      rw [if_pos rfl, hlen]
      omega
    | false =>
      rw [hh] at h3
      obtain ⟨R, hR, hRl⟩ := actOf_lra (items := I) (count := c.count) (by omega)
      rw [h3] at hR
      refine ⟨[], R, hR, ?_⟩
      rw [if_neg (by simp), hlen]
      simp
  obtain ⟨P, R, hPR, hh⟩ := hI
  obtain ⟨W, i, j, h, hf, hp, hs⟩ := viewMerge_ok (P := P) (R := R) (S := S) (w := w)
    (hJ.trans hlen.symm) hA (srt_sorted (act c))
  refine ⟨I, W, ?_, ?_, hs, h3, ?_⟩
  · unfold viewMergeIn
    rw [h1, Outcome.ok_bind]
    simp only
    rw [hh]
    rw [hlen, ← hPR] at hf
    rw [hlen]
    rw [hf]
    rfl
  · exact hp.trans (((srt_perm (act c)).map _).append_left A)
  · exact ⟨by simp only; omega, fun _ => by
      show (actOf c.hra I c.count).Pairwise _
      rw [h3]; exact srt_sorted _, hc.secs, hc.size, hc.size_flt, hc.flt_pos, hc.flt_le, hc.base, hc.vol, hc.low⟩

/-- A compactor whose items were put in order. -/
structure Tidy (K : Nat) (c c' : Compactor α) : Prop where
  act : act c' = srt (act c)
  wf : CWf K c'
  count : c'.count = c.count
  hra : c'.hra = c.hra
  lgWeight : c'.lgWeight = c.lgWeight
  sorted : c'.sorted = true
  state : c'.state = c.state
  coin : c'.coin = c.coin
  cap : nomCapacity c' = nomCapacity c
  secs : secsOf c' = secsOf c

theorem viewLoop_ok {K : Nat} {hra : Bool} (cs : List (Compactor α)) (b : Nat)
    (hcs : ∀ (i : Nat) (c : Compactor α), cs[i]? = some c → CWf K c ∧ c.hra = hra ∧ c.lgWeight = b + i)
    (D : List (Compactor α)) (A J : List (α × Int)) (hA : A.Pairwise wle)
    (hJ : J.length = sumCount cs) :
    ∃ D' W, cs.foldlM (viewLoop hra) (⟨D, A ++ J, A.length⟩ : ViewState α) =
        .ok ⟨D ++ D', W, A.length + sumCount cs⟩ ∧
      List.Forall₂ (Tidy K) cs D' ∧ W.Pairwise wle ∧
      W.Perm (A ++ wItems (2 ^ b) (cs.map act)) := by
  induction cs generalizing b D A J with
  | nil =>
    refine ⟨[], A, ?_, List.Forall₂.nil, hA, by simp [wItems]⟩
    have : J = [] := List.length_eq_zero_iff.1 (by simpa [sumCount] using hJ)
    subst this
    simp [sumCount]
  | cons c cs ih =>
    rw [sumCount_cons] at hJ
    obtain ⟨h1, h2, h3⟩ := hcs 0 c rfl
    subst h2
    obtain ⟨I, W, hm, hp, hs, ha, hw⟩ := viewMergeIn_ok h1 (A := A) (J := J.take c.count)
      (S := J.drop c.count) (by rw [List.length_take]; omega) hA (2 ^ b)
    rw [List.append_assoc, List.take_append_drop] at hm
    have hWl : W.length = A.length + c.count := by
      rw [hp.length_eq, List.length_append, List.length_map, h1.act_length]
    obtain ⟨D', W', hf, hd, hs', hp'⟩ := ih (b + 1) (fun i x hx => by
        have := hcs (i + 1) x (by rw [List.getElem?_cons_succ]; exact hx)
        exact ⟨this.1, this.2.1, by rw [this.2.2]; omega⟩)
      (D ++ [({ c with
        items := I
        sorted := true } : Compactor α)]) W (J.drop c.count) hs (by rw [List.length_drop]; omega)
    refine ⟨({ c with
        items := I
        sorted := true } : Compactor α) :: D', W', ?_, List.Forall₂.cons ?_ hd, hs', ?_⟩
    · rw [List.foldlM_cons]
      have : viewLoop c.hra (⟨D, A ++ J, A.length⟩ : ViewState α) c = .ok ⟨D ++ [({ c with
          items := I
          sorted := true } : Compactor α)], W ++ J.drop c.count, A.length + c.count⟩ := by
        unfold viewLoop
        simp only
        rw [show (2 : Int) ^ c.lgWeight = 2 ^ b by rw [h3, Nat.add_zero], hm, Outcome.ok_bind]
      rw [this]
      show Outcome.bind _ _ = _
      simp only [Outcome.bind]
      rw [← hWl, hf, List.append_assoc, sumCount_cons, hWl, Nat.add_assoc]
      rfl
    · exact ⟨ha, hw, rfl, rfl, rfl, rfl, rfl, rfl, rfl, rfl⟩
    · refine hp'.trans ?_
      rw [List.map_cons, wItems, ← List.append_assoc]
      refine hp.append ?_
      rw [pow_succ, mul_comm]

theorem accumulate_ok {n : Nat} {ws : List Int} (hne : ws ≠ []) (hs : ws.sum = n) :
    accumulateNativeRanks n ws = .ok (cums 0 ws) := by
  have hpos := List.length_pos_of_ne_nil hne
  unfold accumulateNativeRanks
  have hH := range_fold (n := ws.length - 1) (f := fun w i => do
    let a ← rd w (i + 1)
    let b ← rd w i
    wr w (i + 1) (a + b))
    (fun r w => w = (cums 0 ws).take (r + 1) ++ ws.drop (r + 1)) (s0 := ws) ?_ ?_
  · obtain ⟨w, hw, he⟩ := hH
    have he' : w = cums 0 ws := by
      rw [he, show ws.length - 1 + 1 = ws.length by omega, List.drop_length, List.append_nil,
        List.take_of_length_le (by simp)]
    rw [hw, Outcome.ok_bind, he']
    have hg := cums_get 0 ws (i := ws.length - 1) (by omega)
    rw [show ws.length - 1 + 1 = ws.length by omega, List.take_length, hs, zero_add] at hg
    split
    · rw [rdI_ok hg (by rw [cums_length]; omega), Outcome.ok_bind, if_neg (by simp)]
    · rfl
  · cases ws with
    | nil => exact absurd rfl hne
    | cons a ws => simp [cums]
  · rintro i w hi he
    obtain ⟨x, hx⟩ : ∃ x, ws[i + 1]? = some x := ⟨_, List.getElem?_eq_getElem (by omega)⟩
    have e1 : w[i + 1]? = some x := by
      rw [he, List.getElem?_append_right (by simp), List.length_take, cums_length,
        Nat.min_eq_left (by omega), Nat.sub_self, List.getElem?_drop, Nat.add_zero, hx]
    have e2 : w[i]? = some ((ws.take (i + 1)).sum) := by
      rw [he, List.getElem?_append_left (by simp; omega), List.getElem?_take, if_pos (by omega),
        cums_get 0 ws (by omega), zero_add]
    have hl : w.length = ws.length := by
      rw [he]; simp; omega
    refine ⟨w.set (i + 1) (x + (ws.take (i + 1)).sum), ?_, ?_⟩
    · rw [rd_ok e1, Outcome.ok_bind, rd_ok e2, Outcome.ok_bind, wr_ok _ (by omega)]
    · have hg := cums_get 0 ws (i := i + 1) (by omega)
      have hd : ws.drop (i + 1) = x :: ws.drop (i + 2) := drop_get hx
      have hlt : ((cums 0 ws).take (i + 1)).length = i + 1 := by
        rw [List.length_take, cums_length]; omega
      rw [he, hd, List.set_append_right _ _ (by omega), hlt, Nat.sub_self, List.set_cons_zero,
        take_succ_get hg, List.append_assoc]
      congr 1
      rw [take_succ_get hx, List.sum_append]
      simp only [List.sum_singleton, List.singleton_append, List.cons.injEq, and_true]
      omega

/-! ## The iteration -/

theorem item_ok {K : Nat} {c : Compactor α} (hc : CWf K c) {j : Nat} {x : α} (hx : (act c)[j]? = some x) :
    item c j = .ok x := by
  have hcnt := hc.cnt
  unfold item
  unfold act actOf at hx
  split
  · rename_i h
    rw [if_pos h, List.getElem?_drop] at hx
    rw [sub_ok hcnt, Outcome.ok_bind]
    exact rd_ok hx
  · rename_i h
    rw [if_neg h, List.getElem?_take] at hx
    split at hx
    · exact rd_ok hx
    · simp at hx

theorem allLoop_ok {K : Nat} {cs : List (Compactor α)} (hcs : ∀ c ∈ cs, CWf K c ∧ 0 < c.count)
    (ci ii : Nat) {c : Compactor α} {B : List (Compactor α)} (hd : cs.drop ci = c :: B)
    (hii : ii < c.count) (fuel : Nat) (hf : c.count - ii + sumCount B ≤ fuel) (acc : List (α × Int)) :
    allLoop cs fuel ci ii acc = .ok (acc ++ ((act c).drop ii).map (fun x => (x, (2 : Int) ^ ci)) ++
      wItems (2 ^ (ci + 1)) (B.map act)) := by
  induction fuel generalizing ci ii c B acc with
  | zero => omega
  | succ fuel ih =>
    have hmem : ∀ x ∈ c :: B, x ∈ cs := fun x hx => List.mem_of_mem_drop (by rw [hd]; exact hx)
    have hcw := (hcs c (hmem c List.mem_cons_self)).1
    have hget : cs[ci]? = some c := by
      have := congrArg List.head? hd
      rw [List.head?_drop] at this
      exact this
    obtain ⟨y, hx⟩ : ∃ y, (act c)[ii]? = some y := ⟨_, List.getElem?_eq_getElem (by
      rw [hcw.act_length]; exact hii)⟩
    have hci := (List.getElem?_eq_some_iff.1 hget).1
    have hdl : cs.length = ci + 1 + B.length := by
      have := congrArg List.length hd
      rw [List.length_drop, List.length_cons] at this
      omega
    have hcons : (act c).drop ii = y :: (act c).drop (ii + 1) := drop_get hx
    have hB : cs.drop (ci + 1) = B := by
      rw [← List.drop_drop, hd]; rfl
    rw [allLoop, rd_ok hget, Outcome.ok_bind, item_ok hcw hx, Outcome.ok_bind]
    simp only
    by_cases hlast : ii + 1 = c.count
    · rw [if_pos (by omega)]
      have hnil : (act c).drop (ii + 1) = [] := by
        apply List.drop_of_length_le
        rw [hcw.act_length]; omega
      rw [hcons, hnil]
      cases B with
      | nil =>
        rw [if_pos (by rw [hdl]; simp)]
        simp [wItems]
      | cons c2 B =>
        rw [if_neg (by rw [hdl]; simp)]
        have h2 := hcs c2 (hmem c2 (by simp))
        rw [sumCount_cons] at hf
        rw [ih (ci + 1) 0 hB h2.2 (by omega)]
        simp only [List.drop_zero, List.map_cons, List.map_nil, wItems, List.append_assoc]
        rw [pow_succ _ (ci + 1), mul_comm ((2 : Int) ^ (ci + 1)) 2]
    · rw [if_neg (by omega), ih ci (ii + 1) hd (by omega) (by omega), hcons]
      simp

theorem all_ok {K : Nat} {s : Sketch α} {S : List α} (h : Core K s S) :
    all s = .ok (wItems 1 (levels s)) := by
  have hi := h.inv
  obtain ⟨c, B, hc⟩ : ∃ c B, s.compactors = c :: B := by
    cases hcs : s.compactors with
    | nil => exact absurd hcs hi.ne
    | cons c B => exact ⟨c, B, rfl⟩
  unfold all
  have hret := hi.ret
  rcases Nat.eq_zero_or_pos s.n with h0 | h0
  · have h1 := hi.spent
    have h2 : sumCount s.compactors = 0 := by omega
    rw [if_pos (by rw [hret, h2]; rfl)]
    have : (levels s).flatten.length = 0 := by
      unfold levels
      rw [← sumCount_flatten (mem_of_get fun i c hc => (hi.lv i c hc).wf), h2]
    rw [← wItems_length 1] at this
    rw [List.length_eq_zero_iff.1 this]
  · have hf := hi.full h0
    have hc0 : 0 < c.count := hf c (by rw [hc]; simp)
    have hs : sumCount s.compactors = c.count + sumCount B := by rw [hc, sumCount_cons]
    rw [if_neg (by rw [hret, hs]; omega)]
    rw [allLoop_ok (K := s.k) (fun x hx => ⟨mem_of_get (fun i c hc => (hi.lv i c hc).wf) x hx, hf x hx⟩)
      0 0 (by rw [List.drop_zero]; exact hc) hc0 _ (by rw [hret, hs]; omega)]
    unfold levels
    rw [hc]
    simp [wItems]

/-! ## Refreshing the view -/

/-- `v` shows the items of `s`. -/
def ViewOk (s : Sketch α) (v : NumericView α) : Prop :=
  ∃ (Z : List (α × Int)) (mn mx : α), Z.Pairwise wle ∧ Z.Perm (wItems 1 (levels s)) ∧ s.minItem = some mn ∧
    s.maxItem = some mx ∧
    newNumericView (Z.map Prod.fst) (cums 0 (Z.map Prod.snd)) s.n mx mn = .ok v

theorem tidy_sums {K : Nat} {C D : List (Compactor α)} (hd : List.Forall₂ (Tidy K) C D) :
    sumCount D = sumCount C ∧ sumCap D = sumCap C := by
  induction hd with
  | nil => exact ⟨rfl, rfl⟩
  | cons h _ ih => simp only [sumCount_cons, sumCap_cons, ih.1, ih.2, h.count, h.cap, and_self]

/-- Compactors put in order. -/
theorem tidy_core {K : Nat} {s : Sketch α} {S : List α} (h : Core K s S) {D : List (Compactor α)}
    (hd : List.Forall₂ (Tidy s.k) s.compactors D) (v : Option (NumericView α)) :
    List.Forall₂ List.Perm (D.map act) (levels s) ∧ Core K { s with
      compactors := D
      view := v } S := by
  have hi := h.inv
  have hg := List.forall₂_iff_get.1 hd
  have hperm : List.Forall₂ List.Perm (D.map act) (levels s) := by
    unfold levels
    rw [List.forall₂_map_left_iff, List.forall₂_map_right_iff]
    refine List.Forall₂.flip (hd.imp fun c c' h => ?_)
    show (act c').Perm (act c)
    rw [h.act]
    exact srt_perm _
  have hget : ∀ (i : Nat) (c' : Compactor α), D[i]? = some c' → ∃ c, s.compactors[i]? = some c ∧
      Tidy s.k c c' := by
    intro i c' hc'
    obtain ⟨hil, rfl⟩ := List.getElem?_eq_some_iff.1 hc'
    have hil' : i < s.compactors.length := by rw [hg.1]; exact hil
    exact ⟨_, List.getElem?_eq_getElem hil', hg.2 i hil' hil⟩
  have hcount : sumCount D = sumCount s.compactors := by
    exact (tidy_sums hd).1
  have hcap : sumCap D = sumCap s.compactors := by
    exact (tidy_sums hd).2
  refine ⟨hperm, ⟨hi.k4, hi.kle, hi.keven, ?_, ?_, ?_, ?_, ?_, ?_, ?_, ?_⟩, h.kK, h.lk.perm hperm, h.len⟩
  · have := List.length_pos_of_ne_nil hi.ne
    exact List.ne_nil_of_length_pos (by simp only; rw [← hg.1]; exact this)
  · intro i c' hc'
    obtain ⟨c, hc, ht⟩ := hget i c' hc'
    have := hi.lv i c hc
    exact ⟨ht.wf, ht.hra.trans this.hra, ht.lgWeight.trans this.lg, fun _ => ht.sorted,
      by rw [ht.state]; exact this.state⟩
  · simp only [hcount]; exact hi.ret
  · simp only [hcap]; exact hi.nom
  · rw [← hi.wt]; exact rk_perm hperm _
  · simp only [hcount]; exact hi.spent
  · intro h0 x hx
    obtain ⟨i, hx⟩ := List.mem_iff_getElem?.1 hx
    obtain ⟨c, hc, ht⟩ := hget i x hx
    rw [ht.count]
    exact hi.full h0 c (List.mem_of_getElem? hc)
  · intro h0
    simp only
    rw [← hg.1]
    exact hi.empty h0

theorem refresh_ok (env : Env α) {K : Nat} {s : Sketch α} {S : List α} (h : Core K s S) (hS : S ≠ [])
    {mn mx : α} (hmn : s.minItem = some mn) (hmx : s.maxItem = some mx)
    (h1 : ∀ l ∈ levels s, ∀ x ∈ l, mn ≤ x ∧ x ≤ mx)
    (h2 : s.n = 1 → ∃ l ∈ levels s, ∃ x ∈ l, x = mn ∨ x = mx)
    (hv : s.view = none) :
    ∃ v D, refreshSortedView env s = .ok (v, { s with
        compactors := D
        view := some v }) ∧ List.Forall₂ (Tidy s.k) s.compactors D ∧
      ViewOk { s with
        compactors := D
        view := some v } v := by
  have hi := h.inv
  have hn : s.n ≠ 0 := by
    have := List.length_pos_of_ne_nil hS
    have := h.len
    omega
  obtain ⟨D, W, hf, hd, hs, hp⟩ := viewLoop_ok (hra := s.hra) s.compactors 0
    (fun i c hc => ⟨(hi.lv i c hc).wf, (hi.lv i c hc).hra, by rw [(hi.lv i c hc).lg]; omega⟩)
    [] [] (List.replicate s.numRetained.toNat (env.zero, 0)) List.Pairwise.nil
    (by rw [List.length_replicate, hi.ret]; rfl)
  rw [List.nil_append, pow_zero] at hp
  change W.Perm (wItems 1 (levels s)) at hp
  have htot : wsum (fun _ => true) W = s.n := by
    rw [wsum_perm _ hp, wItems_wsum, one_mul]
    exact_mod_cast hi.wt
  have hsum : (W.map Prod.snd).sum = s.n := by
    rw [← htot]
    unfold wsum
    rw [List.filter_true]
  have hne : W ≠ [] := by
    intro hc
    rw [hc] at htot
    simp only [wsum_nil] at htot
    omega
  obtain ⟨v, Z', hnew, -⟩ := newNumericView_ok (Z := W) (n := s.n) (minItem := mn) (maxItem := mx) hs
    (fun z hz => (wItems_mem (hp.mem_iff.1 hz)).2 (le_refl _)) hne
    (fun z hz => by
      obtain ⟨l, hl, hx⟩ := (wItems_mem (hp.mem_iff.1 hz)).1
      exact (h1 l hl _ hx).1)
    (fun z hz => by
      obtain ⟨l, hl, hx⟩ := (wItems_mem (hp.mem_iff.1 hz)).1
      exact (h1 l hl _ hx).2) htot (fun h3 => by
      obtain ⟨l, hl, x, hx, hor⟩ := h2 h3
      obtain ⟨z, hz, rfl⟩ := mem_wItems (w := 1) hl hx
      exact ⟨z, hp.mem_iff.2 hz, hor⟩)
  refine ⟨v, D, ?_, hd, W, mn, mx, hs, ?_, hmn, hmx, hnew⟩
  · unfold refreshSortedView
    rw [hv]
    simp only
    rw [if_neg hn]
    simp only [List.nil_append, List.length_nil] at hf
    rw [hf, Outcome.ok_bind, accumulate_ok (by simpa using hne) hsum, Outcome.ok_bind, hmx, hmn]
    simp only [need, Outcome.ofOption_some, Outcome.ok_bind]
    rw [hnew, Outcome.ok_bind]
  · exact hp.trans (wItems_perm (tidy_core h hd (some v)).1).symm

end Verif.Req
