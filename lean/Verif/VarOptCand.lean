import Verif.VarOptRegions
import Mathlib.Algebra.Order.BigOperators.Group.List

/-!
# Candidate sets of the VarOpt sketch

The state while the candidate set grows (`Cand`), the state between updates in estimation mode
(`Est`), and the effect of deleting a given candidate.
-/

namespace Verif.VarOpt

open Outcome

variable {T : Type}

/-- Total weight of the slots whose item matches. -/
def wsum (p : T → Bool) (l : List (Slot T)) : ℚ := (l.map fun x => if p x.item then x.weight else 0).sum

@[simp] theorem wsum_nil (p : T → Bool) : wsum p ([] : List (Slot T)) = 0 := rfl

theorem wsum_cons (p : T → Bool) (x : Slot T) (l : List (Slot T)) :
    wsum p (x :: l) = (if p x.item then x.weight else 0) + wsum p l := by
  simp [wsum]

theorem wsum_append (p : T → Bool) (l l' : List (Slot T)) : wsum p (l ++ l') = wsum p l + wsum p l' := by
  simp [wsum]

theorem wsum_perm (p : T → Bool) {l l' : List (Slot T)} (h : l.Perm l') : wsum p l = wsum p l' :=
  (h.map _).sum_eq

/-- Total weight. -/
def wtot (l : List (Slot T)) : ℚ := (l.map Slot.weight).sum

theorem wsum_true (l : List (Slot T)) : wsum (fun _ => true) l = wtot l := by
  unfold wsum wtot
  congr 1

theorem wtot_cons (x : Slot T) (l : List (Slot T)) : wtot (x :: l) = x.weight + wtot l := by
  simp [wtot]

/-- Number of matching items. -/
def cnt (p : T → Bool) (l : List (Slot T)) : Nat := l.countP fun x => p x.item

/-- Items with their weights. -/
def pairs (l : List (Slot T)) : List (T × ℚ) := l.map fun x => (x.item, x.weight)

theorem pairs_append (l l' : List (Slot T)) : pairs (l ++ l') = pairs l ++ pairs l' := by
  simp [pairs]

theorem pairs_cons (x : Slot T) (l : List (Slot T)) : pairs (x :: l) = (x.item, x.weight) :: pairs l := rfl

theorem pairs_perm {l l' : List (Slot T)} (h : l.Perm l') : (pairs l).Perm (pairs l') := h.map _

/-- What no step of an update changes. -/
structure Frame (s s' : Sk T) : Prop where
  k : s'.k = s.k
  n : s'.n = s.n
  gadget : s'.gadget = s.gadget
  len : s'.slots.length = s.slots.length

theorem Frame.refl (s : Sk T) : Frame s s := ⟨rfl, rfl, rfl, rfl⟩

theorem Frame.trans {a b c : Sk T} (x : Frame a b) (y : Frame b c) : Frame a c :=
  ⟨y.k.trans x.k, y.n.trans x.n, y.gadget.trans x.gadget, y.len.trans x.len⟩

/-- The state while the candidates `M ++ R` are being collected: `W` is their total weight, `N`
their number, `rw` the items of `R` with their original weights, `src` the stream so far and `e p`
the estimate of the weight of the matching items. -/
structure Cand (s : Sk T) (W : ℚ) (N : Nat) (src : List (T × ℚ)) (e : (T → Bool) → ℚ)
    (H M R rest : List (Slot T)) (rw : List (T × ℚ)) : Prop where
  slots : s.slots = H ++ (M ++ (R ++ rest))
  hlen : H.length = s.h
  mlen : M.length = s.m
  rlen : R.length = s.r
  num : s.m + s.r = N
  full : s.h + N = s.k + 1
  two : 2 ≤ N
  r1 : 1 ≤ s.r
  tot : 0 < s.totalWeightR
  heap : IsHeap H
  hge : ∀ x ∈ H, s.totalWeightR / s.r ≤ x.weight
  mle : ∀ x ∈ M, ∀ y ∈ H, x.weight ≤ y.weight
  mpos : ∀ x ∈ M, 0 < x.weight
  total : W = wtot M + s.totalWeightR
  mcand : ∀ x ∈ M, ((N : ℚ) - 1) * x.weight ≤ W
  rsum : ((s.m : ℚ) - 1) * (s.totalWeightR / s.r) ≤ wtot M
  marks : s.gadget = true → s.numMarksInH = H.countP Slot.mark
  items : rw.map Prod.fst = R.map Slot.item
  light : ∀ q ∈ rw, 0 < q.2 ∧ q.2 ≤ s.totalWeightR / s.r
  sub : List.Subperm (pairs H ++ (pairs M ++ rw)) src
  est : ∀ p, e p = wsum p H + (wsum p M + s.totalWeightR / s.r * cnt p R)

/-- The state between updates in estimation mode; `g` is the gap. -/
structure Est (s : Sk T) (src : List (T × ℚ)) (e : (T → Bool) → ℚ)
    (H : List (Slot T)) (g : Slot T) (R rest : List (Slot T)) (rw : List (T × ℚ)) : Prop where
  slots : s.slots = H ++ g :: (R ++ rest)
  hlen : H.length = s.h
  m0 : s.m = 0
  rlen : R.length = s.r
  full : s.h + s.r = s.k
  r1 : 1 ≤ s.r
  tot : 0 < s.totalWeightR
  heap : IsHeap H
  hge : ∀ x ∈ H, s.totalWeightR / s.r ≤ x.weight
  marks : s.gadget = true → s.numMarksInH = H.countP Slot.mark
  items : rw.map Prod.fst = R.map Slot.item
  light : ∀ q ∈ rw, 0 < q.2 ∧ q.2 ≤ s.totalWeightR / s.r
  sub : List.Subperm (pairs H ++ rw) src
  est : ∀ p, e p = wsum p H + s.totalWeightR / s.r * cnt p R

def EstI (s : Sk T) (src : List (T × ℚ)) (e : (T → Bool) → ℚ) : Prop :=
  ∃ H g R rest rw, Est s src e H g R rest rw

def CandI (s : Sk T) (W : ℚ) (N : Nat) (src : List (T × ℚ)) (e : (T → Bool) → ℚ) : Prop :=
  ∃ H M R rest rw, Cand s W N src e H M R rest rw

/-- The candidate set is complete: the remaining heavy items are at least the new `tau`. -/
def Maximal (s : Sk T) (W : ℚ) (N : Nat) : Prop :=
  ∀ H t, s.slots = H ++ t → H.length = s.h → ∀ x ∈ H, W / ((N : ℚ) - 1) ≤ x.weight

namespace Cand

variable {s : Sk T} {W : ℚ} {N : Nat} {src : List (T × ℚ)} {e : (T → Bool) → ℚ}
  {H M R rest : List (Slot T)} {rw : List (T × ℚ)}

theorem tau_pos (c : Cand s W N src e H M R rest rw) : 0 < s.totalWeightR / s.r :=
  div_pos c.tot (by exact_mod_cast c.r1)

theorem wtot_nonneg (c : Cand s W N src e H M R rest rw) : 0 ≤ wtot M := by
  unfold wtot
  apply List.sum_nonneg
  intro x hx
  obtain ⟨y, hy, rfl⟩ := List.mem_map.1 hx
  exact le_of_lt (c.mpos y hy)

theorem W_pos (c : Cand s W N src e H M R rest rw) : 0 < W := by
  rw [c.total]
  have := c.wtot_nonneg
  have := c.tot
  linarith

theorem N1_pos (c : Cand s W N src e H M R rest rw) : (0 : ℚ) < (N : ℚ) - 1 := by
  have : (2 : ℚ) ≤ N := by exact_mod_cast c.two
  linarith

/-- The items of `R` also satisfy the candidate inequality. -/
theorem rcand (c : Cand s W N src e H M R rest rw) :
    ((N : ℚ) - 1) * (s.totalWeightR / s.r) ≤ W := by
  have hr : (s.r : ℚ) ≠ 0 := by exact_mod_cast (by have := c.r1; omega : s.r ≠ 0)
  have h1 : s.r * (s.totalWeightR / s.r) = s.totalWeightR := by field_simp
  have h2 : (N : ℚ) = s.m + s.r := by exact_mod_cast c.num.symm
  have := c.rsum
  rw [c.total, h2]
  linarith

/-- One more candidate. -/
theorem pop {x : Slot T} (c : Cand s W N src e (x :: H) M R rest rw)
    (hx : x.weight * N < W + x.weight) :
    ∃ s' H', popMin s = .ok s' ∧ Frame s s' ∧ s'.h + 1 = s.h ∧
      Cand s' (W + x.weight) (N + 1) src e H' (x :: M) R rest rw := by
  have hh : s.h = H.length + 1 := by rw [← c.hlen]; rfl
  obtain ⟨H', hpop, hperm, hheap⟩ := popSlots_list (M ++ (R ++ rest)) c.heap
  have hcond : ¬ (s.h = 0 ∨ s.h + s.m + s.r ≠ s.k + 1) := by
    have := c.full; have := c.num; omega
  have htop : slotAt (H' ++ x :: (M ++ (R ++ rest))) (s.h - 1) = .ok x := by
    unfold slotAt
    rw [hh, ← hperm.length_eq]
    simp
  have hmin := c.heap.head_le
  have hxpos : 0 < x.weight := lt_of_lt_of_le c.tau_pos (c.hge x (by simp))
  refine ⟨{ s with slots := H' ++ x :: (M ++ (R ++ rest)), m := s.m + 1, h := s.h - 1,
                   numMarksInH := if s.gadget ∧ x.mark then s.numMarksInH - 1 else s.numMarksInH },
    H', ?_, ⟨rfl, rfl, rfl, ?_⟩, ?_, ?_⟩
  · unfold popMin
    rw [if_neg hcond, c.slots, hh, hpop, ok_bind, ← hh, htop, ok_bind]
    rfl
  · rw [c.slots]
    simp only [List.length_append, List.length_cons, hperm.length_eq]
    omega
  · show s.h - 1 + 1 = s.h
    omega
  · have htauR := c.hge x (by simp)
    exact {
      slots := by simp
      hlen := by rw [hperm.length_eq]; show _ = s.h - 1; omega
      mlen := by rw [List.length_cons, c.mlen]
      rlen := c.rlen
      num := by have := c.num; show s.m + 1 + s.r = _; omega
      full := by have := c.full; show s.h - 1 + (N + 1) = s.k + 1; omega
      two := by have := c.two; omega
      r1 := c.r1
      tot := c.tot
      heap := hheap
      hge := fun y hy => c.hge y (List.mem_cons_of_mem _ (hperm.mem_iff.1 hy))
      mle := by
        intro y hy z hz
        have hz' : z ∈ x :: H := List.mem_cons_of_mem _ (hperm.mem_iff.1 hz)
        rcases List.mem_cons.1 hy with rfl | hy
        · exact hmin z hz'
        · exact c.mle y hy z hz'
      mpos := by
        intro y hy
        rcases List.mem_cons.1 hy with rfl | hy
        · exact hxpos
        · exact c.mpos y hy
      total := by rw [wtot_cons, c.total]; ring
      mcand := by
        intro y hy
        have hN : (((N + 1 : Nat) : ℚ) - 1) = N := by push_cast; ring
        rw [hN]
        have hxx : (N : ℚ) * x.weight ≤ W + x.weight := by linarith
        rcases List.mem_cons.1 hy with rfl | hy
        · exact hxx
        · have := c.mle y hy x (by simp)
          have h0 : (0 : ℚ) ≤ N := by positivity
          have := mul_le_mul_of_nonneg_left this h0
          linarith
      rsum := by
        show (((s.m + 1 : Nat) : ℚ) - 1) * (s.totalWeightR / s.r) ≤ _
        rw [wtot_cons]
        have := c.rsum
        push_cast
        linarith
      marks := by
        intro hg
        have hm := c.marks hg
        show (if s.gadget ∧ x.mark then s.numMarksInH - 1 else s.numMarksInH) = _
        rw [hm, List.countP_cons, hperm.countP_eq]
        by_cases hxm : x.mark = true
        · rw [if_pos ⟨hg, hxm⟩, if_pos hxm]; omega
        · rw [if_neg (fun h => hxm h.2), if_neg hxm]; omega
      items := c.items
      light := c.light
      sub := by
        refine List.Subperm.trans (List.Perm.subperm ?_) c.sub
        rw [pairs_cons, pairs_cons]
        simp only [List.cons_append]
        refine List.perm_middle.trans ?_
        exact List.Perm.cons _ ((pairs_perm hperm).append_right _)
      est := by
        intro p
        rw [c.est p, wsum_cons, wsum_cons, wsum_perm p hperm]
        ring }

end Cand

/-- The loop of `growCandidateSet` collects candidates until the next one is too heavy. -/
theorem growLoop_ok : ∀ (fuel : Nat) (s : Sk T) (W : ℚ) (N : Nat) {src : List (T × ℚ)}
    {e : (T → Bool) → ℚ}, CandI s W N src e → s.h < fuel →
    ∃ s' W' N', growLoop fuel s W N = .ok (s', W', N') ∧ Frame s s' ∧ CandI s' W' N' src e ∧
      Maximal s' W' N' := by
  intro fuel
  induction fuel with
  | zero => intro s W N src e _ h; omega
  | succ fuel ih =>
    intro s W N src e hc hf
    obtain ⟨H, M, R, rest, rw', c⟩ := hc
    rw [growLoop]
    by_cases h0 : s.h > 0
    · rw [if_pos h0]
      obtain ⟨x, H', rfl⟩ : ∃ x H', H = x :: H' := by
        cases H with
        | nil => have := c.hlen; simp at this; omega
        | cons x H' => exact ⟨x, H', rfl⟩
      have hw : wAt s.slots 0 = .ok x.weight := by
        unfold wAt
        rw [c.slots]
        rfl
      rw [hw, ok_bind]
      by_cases hlt : x.weight * N < W + x.weight
      · simp only [if_pos hlt]
        obtain ⟨s1, H1, h1, hfr, hh, c1⟩ := c.pop hlt
        rw [h1, ok_bind]
        obtain ⟨s', W', N', h2, h3, h4, h5⟩ := ih s1 _ _ ⟨_, _, _, _, _, c1⟩ (by omega)
        exact ⟨s', W', N', h2, hfr.trans h3, h4, h5⟩
      · simp only [if_neg hlt]
        refine ⟨s, W, N, rfl, .refl _, ⟨_, _, _, _, _, c⟩, ?_⟩
        intro G t hs hl y hy
        have hG : G = x :: H' := by
          have : G ++ t = (x :: H') ++ (M ++ (R ++ rest)) := by rw [← hs, c.slots]
          exact (List.append_inj this (by rw [hl, c.hlen])).1
        subst hG
        have := c.heap.head_le y hy
        refine le_trans ?_ this
        rw [div_le_iff₀ c.N1_pos]
        linarith [not_lt.1 hlt]
    · rw [if_neg h0]
      refine ⟨s, W, N, rfl, .refl _, ⟨_, _, _, _, _, c⟩, ?_⟩
      intro G t hs hl y hy
      have : G = [] := List.length_eq_zero_iff.1 (by omega)
      subst this
      simp at hy

/-! ## Deleting a candidate -/

theorem clearM_regions (H M t : List (Slot T)) :
    clearM (H ++ (M ++ t)) H.length M.length
      = H ++ (M.map (fun x => { x with weight := -1 }) ++ t) := by
  unfold clearM
  apply List.ext_getElem
  · simp
  · intro i h1 h2
    rw [List.getElem_mapIdx]
    by_cases hi : i < H.length
    · rw [if_neg (by omega), List.getElem_append_left hi, List.getElem_append_left hi]
    · have hge : H.length ≤ i := by omega
      rw [List.getElem_append_right hge, List.getElem_append_right (as := H) hge]
      by_cases hm : i - H.length < M.length
      · have hc : H.length ≤ i ∧ i < H.length + M.length := by omega
        rw [if_pos hc, List.getElem_append_left hm, List.getElem_append_left (by simpa using hm),
          List.getElem_map]
      · have hc : ¬ (H.length ≤ i ∧ i < H.length + M.length) := by omega
        rw [if_neg hc, List.getElem_append_right (by omega),
          List.getElem_append_right (by simpa using hm)]
        simp

/-- Number of matching items at slot `d`. -/
def hit (p : T → Bool) (l : List (Slot T)) (d : Nat) : ℚ :=
  match l[d]? with
  | some x => if p x.item then 1 else 0
  | none => 0

theorem cnt_eq_items (p : T → Bool) {l l' : List (Slot T)} (h : l.map Slot.item = l'.map Slot.item) :
    cnt p l = cnt p l' := by
  unfold cnt
  have : ∀ m : List (Slot T), m.countP (fun x => p x.item) = (m.map Slot.item).countP p := by
    intro m
    rw [List.countP_map]
    rfl
  rw [this, this, h]

theorem cnt_append (p : T → Bool) (l l' : List (Slot T)) : cnt p (l ++ l') = cnt p l + cnt p l' :=
  List.countP_append

theorem cnt_cons (p : T → Bool) (x : Slot T) (l : List (Slot T)) :
    cnt p (x :: l) = cnt p l + if p x.item then 1 else 0 := by
  unfold cnt
  rw [List.countP_cons]

/-- The effect of deleting candidate `d`. -/
theorem finishDownsample_ok {s : Sk T} {W : ℚ} {N : Nat} {src : List (T × ℚ)} {e : (T → Bool) → ℚ}
    {H M R rest : List (Slot T)} {rw' : List (T × ℚ)} (c : Cand s W N src e H M R rest rw')
    (hmax : Maximal s W N) {d : Nat} (hd1 : s.h ≤ d) (hd2 : d ≤ s.k) :
    ∃ s' e', finishDownsample s W N d = .ok s' ∧ Frame s s' ∧ EstI s' src e' ∧
      (∀ p, e' p = W / ((N : ℚ) - 1) * ((cnt p (M ++ R) : ℚ) - hit p s.slots d) + wsum p H) ∧
      s'.totalWeightR = W ∧ s'.r = N - 1 ∧ s'.h = s.h ∧ s'.slots.take s'.h = H := by
  have hNq : ((N - 1 : Nat) : ℚ) = (N : ℚ) - 1 := by
    have := c.two
    rw [Nat.cast_sub (by omega)]
    norm_num
  -- the candidates after the overwriting of weights
  set C : List (Slot T) := M.map (fun x => { x with weight := -1 }) ++ R with hC
  have hClen : C.length = N := by
    rw [hC, List.length_append, List.length_map, c.mlen, c.rlen, c.num]
  have hCitems : C.map Slot.item = (M ++ R).map Slot.item := by
    rw [hC]
    simp only [List.map_append, List.map_map]
    rfl
  obtain ⟨a, t, hat⟩ : ∃ a t, C = a :: t := by
    cases hCc : C with
    | nil => rw [hCc] at hClen; have := c.two; simp at hClen; omega
    | cons a t => exact ⟨a, t, rfl⟩
  obtain ⟨j, rfl⟩ : ∃ j, d = s.h + j := ⟨d - s.h, by omega⟩
  have hj : j < C.length := by rw [hClen]; have := c.full; omega
  have hclear : clearM s.slots s.h s.m = H ++ (C ++ rest) := by
    rw [c.slots, ← c.hlen, ← c.mlen, clearM_regions, hC, List.append_assoc]
  set b : Slot T := C[j] with hb
  set C' : List (Slot T) := C.set j { b with item := a.item } with hC'
  have hmove : moveItem (clearM s.slots s.h s.m) (s.h + j) s.h = .ok (H ++ (C' ++ rest)) := by
    rw [hclear]
    unfold moveItem
    have e1 : (H ++ (C ++ rest))[s.h]? = some a := by
      rw [← c.hlen, hat]
      simp
    have e2 : (H ++ (C ++ rest))[s.h + j]? = some b := by
      rw [← c.hlen, List.getElem?_append_right (by omega)]
      simp only [Nat.add_sub_cancel_left]
      rw [List.getElem?_append_left hj, List.getElem?_eq_getElem hj]
    rw [e1, e2]
    dsimp only
    rw [← c.hlen, List.set_append_right _ _ (by omega)]
    simp only [Nat.add_sub_cancel_left]
    rw [List.set_append_left _ _ hj]
  -- ghosts of the candidates
  set pc : List (T × ℚ) := pairs M ++ rw' with hpc
  have hpcitems : pc.map Prod.fst = C.map Slot.item := by
    rw [hCitems, hpc, List.map_append, List.map_append, c.items]
    congr 1
    simp [pairs]
  have hpclen : pc.length = C.length := by
    have := congrArg List.length hpcitems
    simpa using this
  obtain ⟨ga, gt, hga⟩ : ∃ ga gt, pc = ga :: gt := by
    cases hpcc : pc with
    | nil => rw [hpcc, hat] at hpclen; simp at hpclen
    | cons ga gt => exact ⟨ga, gt, rfl⟩
  have hgai : ga.1 = a.item := by
    have := hpcitems
    rw [hga, hat] at this
    simp only [List.map_cons, List.cons.injEq] at this
    exact this.1
  have hjp : j < pc.length := by omega
  set nrw : List (T × ℚ) := (pc.set j ga).tail with hnrw
  have hnperm : nrw.Perm (pc.eraseIdx j) := tail_set_perm hga hjp
  have hnitems : nrw.map Prod.fst = (C'.tail).map Slot.item := by
    rw [hnrw, hC', List.map_tail, List.map_tail, List.map_set, List.map_set, hpcitems, hgai]
  have hpcperm : (pc[j] :: pc.eraseIdx j).Perm pc := List.getElem_cons_eraseIdx_perm hjp
  have hbitem : (pc[j]).1 = b.item := by
    have h1 : (pc.map Prod.fst)[j]? = (C.map Slot.item)[j]? := by rw [hpcitems]
    rw [List.getElem?_map, List.getElem?_map, List.getElem?_eq_getElem hjp,
      List.getElem?_eq_getElem hj] at h1
    simpa using h1
  have hlight : ∀ q ∈ pc, 0 < q.2 ∧ q.2 ≤ W / ((N : ℚ) - 1) := by
    intro q hq
    rw [le_div_iff₀ c.N1_pos]
    rw [hpc] at hq
    rcases List.mem_append.1 hq with hq | hq
    · obtain ⟨y, hy, rfl⟩ := List.mem_map.1 hq
      refine ⟨c.mpos y hy, ?_⟩
      have := c.mcand y hy
      dsimp only
      linarith
    · have h1 := c.light q hq
      have h2 := c.rcand
      have h3 := mul_le_mul_of_nonneg_right h1.2 (le_of_lt c.N1_pos)
      exact ⟨h1.1, by linarith⟩
  have hC'len : C'.length = N := by rw [hC', List.length_set, hClen]
  obtain ⟨g, R', hgR⟩ : ∃ g R', C' = g :: R' := by
    cases hCc : C' with
    | nil => rw [hCc] at hC'len; have := c.two; simp at hC'len; omega
    | cons g R' => exact ⟨g, R', rfl⟩
  have hR'len : R'.length = N - 1 := by
    rw [hgR, List.length_cons] at hC'len
    omega
  have hcntR' : ∀ p, ((cnt p R' : Nat) : ℚ) = (cnt p (M ++ R) : ℚ) - hit p s.slots (s.h + j) := by
    intro p
    have h1 : cnt p R' = nrw.countP (fun q => p q.1) := by
      have h2 : nrw.countP (fun q => p q.1) = (nrw.map Prod.fst).countP p := by
        rw [List.countP_map]; rfl
      have h3 : cnt p R' = (R'.map Slot.item).countP p := by
        unfold cnt
        rw [List.countP_map]
        rfl
      rw [h2, h3, hnitems, hgR, List.tail_cons]
    have h4 : cnt p (M ++ R) = pc.countP (fun q => p q.1) := by
      have h2 : pc.countP (fun q => p q.1) = (pc.map Prod.fst).countP p := by
        rw [List.countP_map]; rfl
      have h3 : cnt p (M ++ R) = ((M ++ R).map Slot.item).countP p := by
        unfold cnt
        rw [List.countP_map]
        rfl
      rw [h2, h3, hpcitems, hCitems]
    have h5 : hit p s.slots (s.h + j) = if p b.item then 1 else 0 := by
      unfold hit
      have : (s.slots[s.h + j]?).map Slot.item = some b.item := by
        rw [c.slots, ← c.hlen, List.getElem?_append_right (by omega)]
        simp only [Nat.add_sub_cancel_left]
        rw [← List.append_assoc, List.getElem?_append_left (by
          have := congrArg List.length hCitems; simp only [List.length_map] at this; omega),
          ← List.getElem?_map, ← hCitems, List.getElem?_map, List.getElem?_eq_getElem hj]
        rfl
      cases hx : s.slots[s.h + j]? with
      | none => rw [hx] at this; simp at this
      | some y =>
        rw [hx] at this
        simp only [Option.map_some, Option.some.injEq] at this
        dsimp only
        rw [this]
    rw [h1, h4, h5, hnperm.countP_eq, ← hpcperm.countP_eq, List.countP_cons, hbitem]
    split <;> push_cast <;> ring
  refine ⟨{ s with slots := H ++ (C' ++ rest), m := 0, r := N - 1, totalWeightR := W },
    fun p => W / ((N : ℚ) - 1) * ((cnt p (M ++ R) : ℚ) - hit p s.slots (s.h + j)) + wsum p H,
    ?_, ⟨rfl, rfl, rfl, ?_⟩, ⟨H, g, R', rest, nrw, ?_⟩, fun p => rfl, rfl, rfl, rfl,
    by show (H ++ (C' ++ rest)).take s.h = H; rw [← c.hlen, List.take_left]⟩
  · unfold finishDownsample
    rw [if_neg (by omega), hmove, ok_bind]
    rfl
  · rw [c.slots]
    simp only [List.length_append]
    rw [hC'len, ← c.num, c.mlen, c.rlen]
    omega
  · exact {
      slots := by rw [hgR]; rfl
      hlen := c.hlen
      m0 := rfl
      rlen := hR'len
      full := by have := c.full; have := c.two; show s.h + (N - 1) = s.k; omega
      r1 := by have := c.two; show 1 ≤ N - 1; omega
      tot := c.W_pos
      heap := c.heap
      hge := by
        intro x hx
        show W / ((N - 1 : Nat) : ℚ) ≤ _
        rw [hNq]
        exact hmax H _ c.slots c.hlen x hx
      marks := c.marks
      items := by rw [hnitems, hgR, List.tail_cons]
      light := by
        intro q hq
        show 0 < q.2 ∧ q.2 ≤ W / ((N - 1 : Nat) : ℚ)
        rw [hNq]
        exact hlight q (List.eraseIdx_subset (hnperm.mem_iff.1 hq))
      sub := by
        refine List.Subperm.trans ?_ c.sub
        rw [← hpc]
        refine (List.subperm_append_left _).2 ?_
        exact (hnperm.subperm).trans (List.eraseIdx_sublist pc j).subperm
      est := by
        intro p
        show _ = _ + W / ((N - 1 : Nat) : ℚ) * _
        rw [hNq, hcntR' p]
        ring }

end Verif.VarOpt
