import Verif.VarOptChoose

/-!
# Updates of the VarOpt sketch
-/

namespace Verif.VarOpt

open Rand

variable {T : Type}

/-- The state in exact mode. -/
structure Warm (s : Sk T) (src : List (T × ℚ)) (e : (T → Bool) → ℚ) : Prop where
  k1 : 1 ≤ s.k
  m0 : s.m = 0
  r0 : s.r = 0
  len : s.slots.length = s.h
  le : s.h ≤ s.k
  pos : ∀ x ∈ s.slots, 0 < x.weight
  marks : s.numMarksInH = s.slots.countP Slot.mark
  src : src = pairs s.slots
  est : ∀ p, e p = wsum p s.slots

/-- A valid sketch. -/
def Inv (s : Sk T) (src : List (T × ℚ)) (e : (T → Bool) → ℚ) : Prop := Warm s src e ∨ EstI s src e

/-- The length of the slices in estimation mode. -/
def Tight (s : Sk T) : Prop := s.r ≠ 0 → s.slots.length = s.k + 1

theorem Warm.samples_eq {s : Sk T} {src : List (T × ℚ)} {e : (T → Bool) → ℚ} (w : Warm s src e) :
    s.samples = src := by
  unfold Sk.samples Sk.hSlots
  rw [if_neg (by rw [w.r0]; omega), List.append_nil, w.src, ← w.len, List.take_length]
  rfl

theorem Inv.est_eq {s : Sk T} {src : List (T × ℚ)} {e : (T → Bool) → ℚ} (h : Inv s src e)
    (p : T → Bool) : est p s = e p := by
  rcases h with w | h
  · unfold est
    rw [w.samples_eq, w.src, sum_filter_pairs, w.est p]
  · exact h.est_eq p

theorem popMin_ok {s : Sk T} {x : Slot T} {H t : List (Slot T)} (hs : s.slots = x :: H ++ t)
    (hh : s.h = H.length + 1) (hf : s.h + s.m + s.r = s.k + 1) (hp : IsHeap (x :: H)) :
    ∃ H', popMin s = .ok { s with
        slots := H' ++ x :: t
        m := s.m + 1
        h := s.h - 1
        numMarksInH := if s.gadget ∧ x.mark then s.numMarksInH - 1 else s.numMarksInH } ∧
      H'.Perm H ∧ IsHeap H' := by
  obtain ⟨H', hpop, hperm, hheap⟩ := popSlots_list t hp
  have htop : slotAt (H' ++ x :: t) (s.h - 1) = .ok x := by
    unfold slotAt
    rw [hh, ← hperm.length_eq]
    simp
  refine ⟨H', ?_, hperm, hheap⟩
  unfold popMin
  rw [if_neg (by omega), hs, hh, hpop, Outcome.ok_bind, ← hh, htop, Outcome.ok_bind]
  rfl

/-- The first transition to estimation mode. -/
theorem transitionPrep_ok {s : Sk T} (hk : 1 ≤ s.k) (hm : s.m = 0) (hr : s.r = 0)
    (hlen : s.slots.length = s.h) (hh : s.h = s.k + 1) (hpos : ∀ x ∈ s.slots, 0 < x.weight)
    (hmarks : s.gadget = true → s.numMarksInH = s.slots.countP Slot.mark) :
    ∃ s' wM, transitionPrep s = .ok (s', wM) ∧ Frame s s' ∧ s'.m = 1 ∧
      CandI s' (wM + s'.totalWeightR) 2 (pairs s.slots) (fun p => wsum p s.slots) := by
  obtain ⟨H0, hh0, hp0, hheap0⟩ := heapify_list s.slots []
  simp only [List.append_nil] at hh0
  rw [hlen] at hh0
  have hlen0 : H0.length = s.k + 1 := by rw [hp0.length_eq, hlen, hh]
  obtain ⟨x1, H1, rfl⟩ : ∃ x H, H0 = x :: H := by
    cases H0 with
    | nil => simp at hlen0
    | cons x H => exact ⟨x, H, rfl⟩
  have hlen1 : H1.length = s.k := by simpa using hlen0
  obtain ⟨G1, hpop1, hperm1, hheap1⟩ := popMin_ok (s := { s with slots := x1 :: H1 }) (x := x1)
    (H := H1) (t := []) (by simp) (by show s.h = _; omega)
    (by show s.h + s.m + s.r = s.k + 1; omega) hheap0
  have hlenG1 : G1.length = s.k := by rw [hperm1.length_eq, hlen1]
  obtain ⟨x2, H2, rfl⟩ : ∃ x H, G1 = x :: H := by
    cases G1 with
    | nil => simp at hlenG1; omega
    | cons x H => exact ⟨x, H, rfl⟩
  have hlen2 : H2.length + 1 = s.k := by simpa using hlenG1
  obtain ⟨G2, hpop2, hperm2, hheap2⟩ := popMin_ok
    (s := { s with
        slots := x2 :: H2 ++ x1 :: []
        m := s.m + 1
        h := s.h - 1
        numMarksInH := if s.gadget ∧ x1.mark then s.numMarksInH - 1 else s.numMarksInH })
    (x := x2) (H := H2) (t := [x1]) rfl (by show s.h - 1 = _; omega)
    (by show s.h - 1 + (s.m + 1) + s.r = s.k + 1; omega) hheap1
  have hlenG2 : G2.length + 1 = s.k := by rw [hperm2.length_eq, hlen2]
  have hG2 : G2.length = s.k - 1 := by omega
  refine ⟨{ s with
        slots := G2 ++ [x2, { x1 with weight := -1 }]
        m := 1
        h := s.h - 1 - 1
        r := 1
        totalWeightR := x1.weight
        numMarksInH :=
          if s.gadget ∧ x2.mark then
            (if s.gadget ∧ x1.mark then s.numMarksInH - 1 else s.numMarksInH) - 1
          else (if s.gadget ∧ x1.mark then s.numMarksInH - 1 else s.numMarksInH) },
    x2.weight, ?_, ⟨rfl, rfl, rfl, ?_⟩, rfl, ?_⟩
  · unfold transitionPrep
    rw [hh0, Outcome.ok_bind, hpop1, Outcome.ok_bind, hpop2, Outcome.ok_bind]
    have c1 : ¬ (s.m + 1 + 1 = 0) := by omega
    have c2 : ¬ (s.h - 1 - 1 ≠ s.k - 1 ∨ s.m + 1 + 1 - 1 ≠ 1 ∨ s.r + 1 ≠ 1) := by omega
    have e1 : slotAt (G2 ++ x2 :: [x1]) s.k = .ok x1 := by
      unfold slotAt
      rw [← hlenG2, List.getElem?_append_right (by omega)]
      simp
    have e2 : put (G2 ++ x2 :: [x1]) s.k { x1 with weight := -1 }
        = .ok (G2 ++ [x2, { x1 with weight := -1 }]) := by
      unfold put
      rw [if_pos (by simp; omega), ← hlenG2, List.set_append_right _ _ (by omega)]
      simp
    have e3 : wAt (G2 ++ [x2, { x1 with weight := -1 }]) (s.k - 1) = .ok x2.weight := by
      unfold wAt
      rw [← hG2]
      simp
    simp only [if_neg c1, if_neg c2, e1, e2, e3, Outcome.ok_bind]
    rw [hm, hr]
    rfl
  · simp only [List.length_append, List.length_cons, List.length_nil]
    omega
  · have hperm : (x1 :: x2 :: G2).Perm s.slots :=
      ((List.Perm.cons x1 (List.Perm.cons x2 hperm2)).trans (List.Perm.cons x1 hperm1)).trans hp0
    have hmin1 : ∀ y ∈ x2 :: G2, x1.weight ≤ y.weight := by
      intro y hy
      refine hheap0.head_le y (List.mem_cons_of_mem _ (hperm1.mem_iff.1 ?_))
      rcases List.mem_cons.1 hy with rfl | hy
      · simp
      · exact List.mem_cons_of_mem _ (hperm2.mem_iff.1 hy)
    have hmin2 : ∀ y ∈ G2, x2.weight ≤ y.weight := fun y hy =>
      hheap1.head_le y (List.mem_cons_of_mem _ (hperm2.mem_iff.1 hy))
    have hx1 : 0 < x1.weight := hpos x1 (hperm.mem_iff.1 (by simp))
    have hx2 : 0 < x2.weight := hpos x2 (hperm.mem_iff.1 (by simp))
    refine ⟨G2, [x2], [{ x1 with weight := -1 }], [], [(x1.item, x1.weight)], ?_⟩
    exact {
      slots := by simp
      hlen := by show _ = s.h - 1 - 1; omega
      mlen := rfl
      rlen := rfl
      num := rfl
      full := by show s.h - 1 - 1 + 2 = s.k + 1; omega
      two := le_refl _
      r1 := le_refl _
      tot := hx1
      heap := hheap2
      hge := by
        intro y hy
        show x1.weight / ((1 : Nat) : ℚ) ≤ _
        rw [Nat.cast_one, div_one]
        exact hmin1 y (List.mem_cons_of_mem _ hy)
      mle := by
        intro y hy z hz
        rw [List.mem_singleton.1 hy]
        exact hmin2 z hz
      mpos := by
        intro y hy
        rw [List.mem_singleton.1 hy]
        exact hx2
      total := by
        show _ = wtot [x2] + x1.weight
        simp [wtot]
      mcand := by
        intro y hy
        rw [List.mem_singleton.1 hy]
        show _ ≤ x2.weight + x1.weight
        push_cast
        linarith
      rsum := by
        show (((1 : Nat) : ℚ) - 1) * _ ≤ wtot [x2]
        have : wtot [x2] = x2.weight := by simp [wtot]
        rw [this]
        push_cast
        linarith
      marks := by
        intro hg
        have hg' : s.gadget = true := hg
        have hc := hmarks hg'
        rw [← hperm.countP_eq, List.countP_cons, List.countP_cons] at hc
        show (if s.gadget ∧ x2.mark then
            (if s.gadget ∧ x1.mark then s.numMarksInH - 1 else s.numMarksInH) - 1
          else (if s.gadget ∧ x1.mark then s.numMarksInH - 1 else s.numMarksInH)) = _
        rw [hc, hg']
        by_cases h1 : x1.mark = true <;> by_cases h2 : x2.mark = true <;> simp [h1, h2]
      items := rfl
      light := by
        intro q hq
        rw [List.mem_singleton.1 hq]
        show 0 < x1.weight ∧ x1.weight ≤ x1.weight / ((1 : Nat) : ℚ)
        rw [Nat.cast_one, div_one]
        exact ⟨hx1, le_refl _⟩
      sub := by
        refine List.Perm.subperm ?_
        refine List.Perm.trans ?_ (pairs_perm hperm)
        rw [pairs_cons, pairs_cons]
        show (pairs G2 ++ ([(x2.item, x2.weight)] ++ [(x1.item, x1.weight)])).Perm _
        have := List.perm_append_comm (l₁ := pairs G2) (l₂ := [(x2.item, x2.weight), (x1.item, x1.weight)])
        exact this.trans (List.Perm.swap _ _ _)
      est := by
        intro p
        show wsum p s.slots = wsum p G2 + (wsum p [x2] + x1.weight / ((1 : Nat) : ℚ) * cnt p [({ x1 with weight := -1 } : Slot T)])
        rw [← wsum_perm p hperm, wsum_cons, wsum_cons, cnt_cons, wsum_cons, Nat.cast_one, div_one]
        have : cnt p ([] : List (Slot T)) = 0 := rfl
        rw [this, wsum_nil]
        by_cases hp : p x1.item = true
        · simp only [hp, if_true]; push_cast; ring
        · simp only [hp]; push_cast; ring }

theorem transition_all {s : Sk T} (hk : 1 ≤ s.k) (hm : s.m = 0) (hr : s.r = 0)
    (hlen : s.slots.length = s.h) (hh : s.h = s.k + 1) (hpos : ∀ x ∈ s.slots, 0 < x.weight)
    (hmarks : s.gadget = true → s.numMarksInH = s.slots.countP Slot.mark) :
    All (Post s (pairs s.slots) fun p => wsum p s.slots) (transitionFromWarmup s) := by
  obtain ⟨s', wM, h1, h2, h3, h4⟩ := transitionPrep_ok hk hm hr hlen hh hpos hmarks
  unfold transitionFromWarmup
  rw [h1, ofOutcome_ok, ret_bind]
  refine (growCandidateSet_all h4 (by omega)).mono fun s'' h => ?_
  exact ⟨h2.trans h.1, h.2⟩

theorem transition_E {s : Sk T} (hk : 1 ≤ s.k) (hm : s.m = 0) (hr : s.r = 0)
    (hlen : s.slots.length = s.h) (hh : s.h = s.k + 1) (hpos : ∀ x ∈ s.slots, 0 < x.weight)
    (hmarks : s.gadget = true → s.numMarksInH = s.slots.countP Slot.mark) (p : T → Bool) :
    HasE (est p) (transitionFromWarmup s) (wsum p s.slots) := by
  obtain ⟨s', wM, h1, h2, h3, h4⟩ := transitionPrep_ok hk hm hr hlen hh hpos hmarks
  unfold transitionFromWarmup
  rw [h1, ofOutcome_ok, ret_bind]
  exact growCandidateSet_E h4 (by omega) p

/-- The stream after one more item. -/
def srcAdd (src : List (T × ℚ)) (x : Slot T) : List (T × ℚ) := src ++ [(x.item, x.weight)]

/-- The estimates after one more item. -/
def estAdd (e : (T → Bool) → ℚ) (x : Slot T) (p : T → Bool) : ℚ :=
  e p + if p x.item then x.weight else 0

theorem sub_add {l src : List (T × ℚ)} {q : T × ℚ} (h : List.Subperm l src) :
    List.Subperm (q :: l) (src ++ [q]) :=
  ((List.subperm_cons q).2 h).trans (List.perm_append_singleton q src).symm.subperm

/-- Writing the new item into the gap of `M`. -/
theorem light_cand {s : Sk T} {src : List (T × ℚ)} {e : (T → Bool) → ℚ}
    {H : List (Slot T)} {g : Slot T} {R rest : List (Slot T)} {rw' : List (T × ℚ)}
    (c : Est s src e H g R rest rw') {x : Slot T} (hx : 0 < x.weight)
    (hmin : ∀ y ∈ H, x.weight ≤ y.weight)
    (hlt : x.weight < (x.weight + s.totalWeightR) / s.r) :
    ∃ l, put s.slots s.h x = .ok l ∧ l.length = s.slots.length ∧
      CandI { s with slots := l, m := s.m + 1 } (s.totalWeightR + x.weight) (s.r + 1)
        (srcAdd src x) (estAdd e x) := by
  have hr : (0 : ℚ) < s.r := by exact_mod_cast c.r1
  refine ⟨H ++ x :: (R ++ rest), ?_, ?_, ⟨H, [x], R, rest, rw', ?_⟩⟩
  · unfold put
    rw [c.slots, ← c.hlen, if_pos (by simp)]
    simp
  · rw [c.slots]; simp
  · exact {
      slots := rfl
      hlen := c.hlen
      mlen := by show 1 = s.m + 1; rw [c.m0]
      rlen := c.rlen
      num := by show s.m + 1 + s.r = s.r + 1; rw [c.m0]; omega
      full := by have := c.full; show s.h + (s.r + 1) = s.k + 1; omega
      two := by have := c.r1; omega
      r1 := c.r1
      tot := c.tot
      heap := c.heap
      hge := c.hge
      mle := by
        intro y hy z hz
        rw [List.mem_singleton.1 hy]
        exact hmin z hz
      mpos := by
        intro y hy
        rw [List.mem_singleton.1 hy]
        exact hx
      total := by
        show _ = wtot [x] + s.totalWeightR
        simp [wtot]
        ring
      mcand := by
        intro y hy
        rw [List.mem_singleton.1 hy]
        rw [lt_div_iff₀ hr] at hlt
        push_cast
        linarith
      rsum := by
        show (((s.m + 1 : Nat) : ℚ) - 1) * _ ≤ wtot [x]
        have : wtot [x] = x.weight := by simp [wtot]
        rw [this, c.m0]
        push_cast
        linarith
      marks := c.marks
      items := c.items
      light := c.light
      sub := by
        refine List.Subperm.trans (List.Perm.subperm ?_) (sub_add c.sub)
        exact List.perm_middle
      est := by
        intro p
        unfold estAdd
        rw [c.est p]
        show _ = wsum p H + (wsum p [x] + s.totalWeightR / s.r * cnt p R)
        rw [wsum_cons, wsum_nil]
        ring }

/-- Putting the new item into the heap. -/
theorem push_est {s : Sk T} {src : List (T × ℚ)} {e : (T → Bool) → ℚ}
    {H : List (Slot T)} {g : Slot T} {R rest : List (Slot T)} {rw' : List (T × ℚ)}
    (c : Est s src e H g R rest rw') (x : Slot T) :
    ∃ H', push s x = .ok { s with
        slots := H' ++ (R ++ rest)
        h := s.h + 1
        numMarksInH := if s.gadget ∧ x.mark then s.numMarksInH + 1 else s.numMarksInH } ∧
      H'.Perm (x :: H) ∧ IsHeap H' := by
  obtain ⟨H', h1, h2, h3, h4⟩ := pushSlots_list g x (R ++ rest) c.heap
  refine ⟨H', ?_, h2, h3⟩
  unfold push
  rw [c.slots, ← c.hlen, h4, Outcome.ok_bind, h1, Outcome.ok_bind]
  rfl

theorem heavy_cand {s : Sk T} {src : List (T × ℚ)} {e : (T → Bool) → ℚ}
    {H : List (Slot T)} {g : Slot T} {R rest : List (Slot T)} {rw' : List (T × ℚ)}
    (c : Est s src e H g R rest rw') {x : Slot T}
    (hge : s.totalWeightR / s.r ≤ x.weight) (h2 : 2 ≤ s.r) :
    ∃ s', push s x = .ok s' ∧ Frame s s' ∧ s'.m = 0 ∧
      CandI s' s'.totalWeightR s'.r (srcAdd src x) (estAdd e x) := by
  obtain ⟨H', h1, hp, h3⟩ := push_est c x
  refine ⟨_, h1, ⟨rfl, rfl, rfl, ?_⟩, c.m0, H', [], R, rest, rw', ?_⟩
  · rw [c.slots]
    simp only [List.length_append, List.length_cons, hp.length_eq]
    omega
  · exact {
      slots := rfl
      hlen := by rw [hp.length_eq, List.length_cons, c.hlen]
      mlen := by show 0 = s.m; rw [c.m0]
      rlen := c.rlen
      num := by show s.m + s.r = s.r; rw [c.m0]; omega
      full := by have := c.full; show s.h + 1 + s.r = s.k + 1; omega
      two := h2
      r1 := c.r1
      tot := c.tot
      heap := h3
      hge := by
        intro y hy
        rcases List.mem_cons.1 (hp.mem_iff.1 hy) with rfl | hy
        · exact hge
        · exact c.hge y hy
      mle := by simp
      mpos := by simp
      total := by show s.totalWeightR = wtot [] + s.totalWeightR; simp [wtot]
      mcand := by simp
      rsum := by
        show ((s.m : ℚ) - 1) * (s.totalWeightR / s.r) ≤ wtot []
        have h0 : (0 : ℚ) < s.totalWeightR / s.r := div_pos c.tot (by exact_mod_cast c.r1)
        have : wtot ([] : List (Slot T)) = 0 := rfl
        rw [c.m0, this]
        push_cast
        linarith
      marks := by
        intro hg
        have hg' : s.gadget = true := hg
        show (if s.gadget ∧ x.mark then s.numMarksInH + 1 else s.numMarksInH) = _
        rw [hp.countP_eq, List.countP_cons, c.marks hg', hg']
        by_cases hm : x.mark = true <;> simp [hm]
      items := c.items
      light := c.light
      sub := by
        refine List.Subperm.trans (List.Perm.subperm ?_) (sub_add c.sub)
        exact (pairs_perm hp).append_right _
      est := by
        intro p
        unfold estAdd
        rw [c.est p, wsum_perm p hp, wsum_cons, wsum_nil]
        ring }

theorem heavy1_cand {s : Sk T} {src : List (T × ℚ)} {e : (T → Bool) → ℚ}
    {H : List (Slot T)} {g : Slot T} {R rest : List (Slot T)} {rw' : List (T × ℚ)}
    (c : Est s src e H g R rest rw') {x : Slot T}
    (hge : s.totalWeightR / s.r ≤ x.weight) (hr1 : s.r = 1) :
    ∃ s1 s2 wM, push s x = .ok s1 ∧ popMin s1 = .ok s2 ∧ wAt s2.slots (s2.k - 1) = .ok wM ∧
      Frame s s2 ∧ s2.m = 1 ∧
      CandI s2 (wM + s2.totalWeightR) 2 (srcAdd src x) (estAdd e x) := by
  obtain ⟨H1, hpush, hp1, hheap1⟩ := push_est c x
  have hall : ∀ y ∈ H1, s.totalWeightR / s.r ≤ y.weight := by
    intro y hy
    rcases List.mem_cons.1 (hp1.mem_iff.1 hy) with rfl | hy
    · exact hge
    · exact c.hge y hy
  obtain ⟨y, H2, rfl⟩ : ∃ y H2, H1 = y :: H2 := by
    cases H1 with
    | nil => have := hp1.length_eq; simp at this
    | cons y H2 => exact ⟨y, H2, rfl⟩
  have hlen2 : H2.length = s.h := by
    have := hp1.length_eq
    rw [List.length_cons, List.length_cons, c.hlen] at this
    omega
  obtain ⟨H3, hpop, hp3, hheap3⟩ := popMin_ok
    (s := { s with
        slots := y :: H2 ++ (R ++ rest)
        h := s.h + 1
        numMarksInH := if s.gadget ∧ x.mark then s.numMarksInH + 1 else s.numMarksInH })
    (x := y) (H := H2) (t := R ++ rest) rfl (by show s.h + 1 = _; omega)
    (by have := c.full; have := c.m0; show s.h + 1 + s.m + s.r = s.k + 1; omega) hheap1
  have hlen3 : H3.length = s.h := by rw [hp3.length_eq, hlen2]
  have hypos : 0 < y.weight :=
    lt_of_lt_of_le (div_pos c.tot (by exact_mod_cast c.r1)) (hall y (by simp))
  refine ⟨_, _, y.weight, hpush, hpop, ?_, ⟨rfl, rfl, rfl, ?_⟩, ?_, H3, [y], R, rest, rw', ?_⟩
  · have : s.k - 1 = H3.length := by have := c.full; omega
    unfold wAt
    show (match (H3 ++ y :: (R ++ rest))[s.k - 1]? with | some z => Outcome.ok z.weight | none => .panic) = _
    rw [this]
    simp
  · rw [c.slots]
    simp only [List.length_append, List.length_cons, hlen3, c.hlen]
  · show s.m + 1 = 1
    rw [c.m0]
  · exact {
      slots := rfl
      hlen := by show H3.length = s.h + 1 - 1; omega
      mlen := by show 1 = s.m + 1; rw [c.m0]
      rlen := c.rlen
      num := by show s.m + 1 + s.r = 2; rw [c.m0, hr1]
      full := by have := c.full; show s.h + 1 - 1 + 2 = s.k + 1; omega
      two := le_refl _
      r1 := c.r1
      tot := c.tot
      heap := hheap3
      hge := fun z hz => hall z (List.mem_cons_of_mem _ (hp3.mem_iff.1 hz))
      mle := by
        intro z hz z' hz'
        rw [List.mem_singleton.1 hz]
        exact hheap1.head_le z' (List.mem_cons_of_mem _ (hp3.mem_iff.1 hz'))
      mpos := by
        intro z hz
        rw [List.mem_singleton.1 hz]
        exact hypos
      total := by
        show _ = wtot [y] + s.totalWeightR
        simp [wtot]
      mcand := by
        intro z hz
        rw [List.mem_singleton.1 hz]
        have := c.tot
        show _ ≤ y.weight + s.totalWeightR
        push_cast
        linarith
      rsum := by
        show (((s.m + 1 : Nat) : ℚ) - 1) * _ ≤ wtot [y]
        have : wtot [y] = y.weight := by simp [wtot]
        rw [this, c.m0]
        push_cast
        linarith
      marks := by
        intro hg
        have hg' : s.gadget = true := hg
        have h1 := hp1.countP_eq Slot.mark
        rw [List.countP_cons, List.countP_cons, ← c.marks hg'] at h1
        show (if s.gadget ∧ y.mark then
            (if s.gadget ∧ x.mark then s.numMarksInH + 1 else s.numMarksInH) - 1
          else (if s.gadget ∧ x.mark then s.numMarksInH + 1 else s.numMarksInH)) = _
        rw [hp3.countP_eq, hg']
        by_cases hm : x.mark = true <;> by_cases hy : y.mark = true <;>
          simp [hm, hy] at h1 ⊢ <;> omega
      items := c.items
      light := c.light
      sub := by
        refine List.Subperm.trans (List.Perm.subperm ?_) (sub_add c.sub)
        have h1 : (pairs H3 ++ (pairs [y] ++ rw')).Perm ((pairs [y] ++ pairs H3) ++ rw') := by
          rw [← List.append_assoc]
          exact List.perm_append_comm.append_right _
        refine h1.trans ?_
        have h2 : (pairs [y] ++ pairs H3).Perm (pairs (x :: H)) := by
          rw [← pairs_append]
          exact pairs_perm ((List.Perm.cons y hp3).trans hp1)
        exact h2.append_right _
      est := by
        intro p
        unfold estAdd
        rw [c.est p, wsum_perm p hp3, wsum_cons, wsum_nil]
        have := wsum_perm p hp1
        rw [wsum_cons, wsum_cons] at this
        show _ = wsum p H2 + ((if p y.item then y.weight else 0) + 0 + s.totalWeightR / s.r * cnt p R)
        linear_combination -this }

/-- The result of an update. -/
structure Upd (s : Sk T) (x : Slot T) (src : List (T × ℚ)) (e : (T → Bool) → ℚ) (s' : Sk T) :
    Prop where
  k : s'.k = s.k
  n : s'.n = s.n + 1
  gadget : s'.gadget = s.gadget
  tight : Tight s → Tight s'
  len : s.r ≠ 0 → s'.slots.length = s.slots.length
  mode : s.r ≠ 0 → s'.r ≠ 0
  warm : s'.r = 0 → s'.slots = s.slots ++ [x] ∧ s'.totalWeightR = s.totalWeightR
  over : s'.r ≠ 0 → s.r ≠ 0 ∨ s.k < s.slots.length + 1
  inv : ∃ e', Inv s' (srcAdd src x) e' ∧ e' (fun _ => true) = e (fun _ => true) + x.weight

theorem EstI.r_ne {s : Sk T} {src : List (T × ℚ)} {e : (T → Bool) → ℚ} (h : EstI s src e) :
    s.r ≠ 0 := by
  obtain ⟨H, g, R, rest, rw', c⟩ := h
  have := c.r1
  omega

theorem estAdd_true (e : (T → Bool) → ℚ) (x : Slot T) :
    estAdd e x (fun _ => true) = e (fun _ => true) + x.weight := by
  simp [estAdd]

theorem Post.upd {s s1 s' : Sk T} {x : Slot T} {src : List (T × ℚ)} {e : (T → Bool) → ℚ}
    (hf : Frame { s with n := s.n + 1 } s1) (hr : s.r ≠ 0)
    (h : Post s1 (srcAdd src x) (estAdd e x) s') : Upd s x src e s' := by
  obtain ⟨fr, e', hi, ht⟩ := h
  refine ⟨fr.k.trans hf.k, fr.n.trans hf.n, fr.gadget.trans hf.gadget, ?_,
    fun _ => fr.len.trans hf.len, fun _ => hi.r_ne,
    fun h => absurd h hi.r_ne, fun _ => Or.inl hr, e', Or.inr hi, ?_⟩
  · intro ht _
    rw [fr.len, hf.len, fr.k, hf.k]
    exact ht hr
  · rw [ht, estAdd_true]

/-- What both the "all results" and the "expected value" statement need about an update in
estimation mode. -/
theorem updateEst_spec {s : Sk T} {src : List (T × ℚ)} {e : (T → Bool) → ℚ}
    (h : EstI s src e) {x : Slot T} (hx : 0 < x.weight) {mw : ℚ}
    (hmw : s.h ≠ 0 → mw = wt s.slots 0) :
    ∃ s1 W N, updateEst s x mw = growCandidateSet s1 W N ∧ Frame s s1 ∧ s1.m ≤ 1 ∧
      CandI s1 W N (srcAdd src x) (estAdd e x) := by
  obtain ⟨H, g, R, rest, rw', c⟩ := h
  have hr : (0 : ℚ) < s.r := by exact_mod_cast c.r1
  have hroot : s.h ≠ 0 → ∀ y ∈ H, mw ≤ y.weight := by
    intro h0 y hy
    rw [hmw h0]
    cases H with
    | nil => have := c.hlen; simp at this; omega
    | cons z H =>
      have := c.heap.head_le y hy
      rw [c.slots]
      exact this
  have hroot2 : s.h ≠ 0 → ∃ y ∈ H, mw = y.weight := by
    intro h0
    rw [hmw h0]
    cases H with
    | nil => have := c.hlen; simp at this; omega
    | cons z H => exact ⟨z, by simp, by rw [c.slots]; rfl⟩
  have hhyp : (x.weight + s.totalWeightR) / ((s.r + 1 : ℚ) - 1) = (x.weight + s.totalWeightR) / s.r := by
    congr 1; ring
  unfold updateEst
  simp only [hhyp]
  by_cases hcond : (s.h = 0 ∨ x.weight ≤ mw) ∧ x.weight < (x.weight + s.totalWeightR) / s.r
  · rw [if_pos hcond]
    have hmin : ∀ y ∈ H, x.weight ≤ y.weight := by
      intro y hy
      rcases hcond.1 with h0 | h0
      · have := c.hlen
        rw [h0] at this
        rw [List.length_eq_zero_iff.1 this] at hy
        simp at hy
      · by_cases hh : s.h = 0
        · have := c.hlen
          rw [hh] at this
          rw [List.length_eq_zero_iff.1 this] at hy
          simp at hy
        · exact le_trans h0 (hroot hh y hy)
    obtain ⟨l, hl, hlen, hc⟩ := light_cand c hx hmin hcond.2
    refine ⟨{ s with slots := l, m := s.m + 1 }, _, _, ?_, ⟨rfl, rfl, rfl, hlen⟩, ?_, hc⟩
    · unfold updateLight
      rw [if_neg (by have := c.r1; have := c.full; omega), hl, ofOutcome_ok, ret_bind]
    · show s.m + 1 ≤ 1
      rw [c.m0]
  · rw [if_neg hcond]
    have hge : s.totalWeightR / s.r ≤ x.weight := by
      by_cases h1 : s.h = 0 ∨ x.weight ≤ mw
      · have h2 : ¬ x.weight < (x.weight + s.totalWeightR) / s.r := fun h => hcond ⟨h1, h⟩
        refine le_trans ?_ (not_lt.1 h2)
        have : s.totalWeightR ≤ x.weight + s.totalWeightR := by linarith
        rw [div_le_div_iff₀ hr hr]
        exact mul_le_mul_of_nonneg_right this (le_of_lt hr)
      · have h0 : s.h ≠ 0 := fun h => h1 (Or.inl h)
        obtain ⟨y, hy, he⟩ := hroot2 h0
        have h2 : ¬ x.weight ≤ mw := fun h => h1 (Or.inr h)
        rw [he] at h2
        exact le_trans (c.hge y hy) (le_of_lt (not_le.1 h2))
    by_cases hr1 : s.r = 1
    · rw [if_pos hr1]
      obtain ⟨s1, s2, wM, h1, h2, h3, h4, h5, h6⟩ := heavy1_cand c hge hr1
      refine ⟨s2, _, _, ?_, h4, by omega, h6⟩
      unfold updateHeavyR1
      rw [if_neg (by have := c.m0; have := c.full; omega), h1, ofOutcome_ok, ret_bind, h2,
        ofOutcome_ok, ret_bind, h3, ofOutcome_ok, ret_bind]
    · rw [if_neg hr1]
      obtain ⟨s1, h1, h2, h3, h4⟩ := heavy_cand c hge (by have := c.r1; omega)
      refine ⟨s1, _, _, ?_, h2, by omega, h4⟩
      unfold updateHeavyGeneral
      rw [if_neg (by have := c.m0; have := c.full; have := c.r1; omega), h1, ofOutcome_ok, ret_bind]

theorem updateCore_spec {s : Sk T} {src : List (T × ℚ)} {e : (T → Bool) → ℚ}
    (h : EstI s src e) {x : Slot T} (hx : 0 < x.weight) :
    ∃ s1 W N, updateCore s x = growCandidateSet s1 W N ∧
      Frame { s with n := s.n + 1 } s1 ∧ s1.m ≤ 1 ∧
      CandI s1 W N (srcAdd src x) (estAdd e x) := by
  have h' : EstI { s with n := s.n + 1 } src e := by
    obtain ⟨H, g, R, rest, rw', c⟩ := h
    exact ⟨H, g, R, rest, rw', ⟨c.slots, c.hlen, c.m0, c.rlen, c.full, c.r1, c.tot, c.heap, c.hge,
      c.marks, c.items, c.light, c.sub, c.est⟩⟩
  have hr := h.r_ne
  unfold updateCore
  simp only [if_neg hr]
  by_cases h0 : s.h ≠ 0
  · rw [if_pos h0]
    obtain ⟨H, g, R, rest, rw', c⟩ := h
    have hlt : 0 < s.slots.length := by
      rw [c.slots]; simp
    rw [wAt_ok hlt, ofOutcome_ok, ret_bind]
    have hge : ¬ wt s.slots 0 < s.totalWeightR / s.r := by
      rw [not_lt]
      cases H with
      | nil => have := c.hlen; simp at this; omega
      | cons z H =>
        have := c.hge z (by simp)
        rw [c.slots]
        exact this
    rw [if_neg hge]
    exact updateEst_spec h' hx (fun _ => rfl)
  · rw [if_neg h0]
    exact updateEst_spec h' hx (fun hh => absurd hh h0)

theorem Warm.next {s : Sk T} {src : List (T × ℚ)} {e : (T → Bool) → ℚ} (w : Warm s src e)
    {x : Slot T} (hx : 0 < x.weight) :
    (s.slots ++ [x]).length = s.h + 1 ∧ (∀ y ∈ s.slots ++ [x], 0 < y.weight) ∧
    (if x.mark then s.numMarksInH + 1 else s.numMarksInH) = (s.slots ++ [x]).countP Slot.mark ∧
    pairs (s.slots ++ [x]) = srcAdd src x ∧ (∀ p, wsum p (s.slots ++ [x]) = estAdd e x p) := by
  refine ⟨by simp [w.len], ?_, ?_, ?_, ?_⟩
  · intro y hy
    rcases List.mem_append.1 hy with hy | hy
    · exact w.pos y hy
    · rw [List.mem_singleton.1 hy]; exact hx
  · rw [List.countP_append, w.marks, List.countP_singleton]
    split <;> rfl
  · rw [pairs_append, srcAdd, w.src]; rfl
  · intro p
    rw [wsum_append, estAdd, w.est p, wsum_cons, wsum_nil, add_zero]

theorem update_all {s : Sk T} {src : List (T × ℚ)} {e : (T → Bool) → ℚ} (h : Inv s src e)
    {x : Slot T} (hx : 0 < x.weight) : All (Upd s x src e) (update s x) := by
  unfold update
  rw [if_neg (not_le.2 hx)]
  rcases h with w | h
  · obtain ⟨hl, hp, hm, hs, he⟩ := w.next hx
    unfold updateCore
    simp only [if_pos w.r0]
    unfold updateWarmup
    dsimp only
    by_cases hk : s.h + 1 > s.k
    · rw [if_pos hk]
      refine (transition_all (s := { s with
          slots := s.slots ++ [x]
          n := s.n + 1
          h := s.h + 1
          numMarksInH := if x.mark then s.numMarksInH + 1 else s.numMarksInH })
        w.k1 w.m0 w.r0 hl (by have := w.le; show s.h + 1 = s.k + 1; omega) hp
        (fun _ => hm)).mono fun s' h => ?_
      obtain ⟨fr, e', hi, ht⟩ := h
      refine ⟨fr.k, fr.n, fr.gadget, ?_, fun h => absurd w.r0 h, fun h => absurd w.r0 h, fun h => absurd h hi.r_ne,
        fun _ => Or.inr (by have := w.len; omega), e', Or.inr ?_, ?_⟩
      · intro _ _
        rw [fr.len]
        show (s.slots ++ [x]).length = _
        rw [hl, fr.k]
        show _ = s.k + 1
        have := w.le
        omega
      · rw [← hs]; exact hi
      · rw [ht, ← estAdd_true]
        exact he _
    · rw [if_neg hk]
      refine ⟨rfl, rfl, rfl, fun _ h => absurd w.r0 h, fun h => absurd w.r0 h, fun h => h, fun _ => ⟨rfl, rfl⟩,
        fun h => absurd w.r0 h, estAdd e x,
        Or.inl ⟨w.k1, w.m0, w.r0, hl, by show s.h + 1 ≤ s.k; omega, hp, hm, hs.symm,
          fun p => (he p).symm⟩, estAdd_true e x⟩
  · obtain ⟨s1, W, N, h1, h2, h3, h4⟩ := updateCore_spec h hx
    rw [h1]
    exact (growCandidateSet_all h4 h3).mono fun s' hs' => Post.upd h2 h.r_ne hs'

theorem update_E {s : Sk T} {src : List (T × ℚ)} {e : (T → Bool) → ℚ} (h : Inv s src e)
    {x : Slot T} (hx : 0 < x.weight) (p : T → Bool) :
    HasE (est p) (update s x) (est p s + if p x.item then x.weight else 0) := by
  have hes : est p s + (if p x.item then x.weight else 0) = estAdd e x p := by
    rw [h.est_eq p]; rfl
  rw [hes]
  unfold update
  rw [if_neg (not_le.2 hx)]
  rcases h with w | h
  · obtain ⟨hl, hp, hm, hs, he⟩ := w.next hx
    unfold updateCore
    simp only [if_pos w.r0]
    unfold updateWarmup
    dsimp only
    by_cases hk : s.h + 1 > s.k
    · rw [if_pos hk]
      have := transition_E (s := { s with
          slots := s.slots ++ [x]
          n := s.n + 1
          h := s.h + 1
          numMarksInH := if x.mark then s.numMarksInH + 1 else s.numMarksInH })
        w.k1 w.m0 w.r0 hl (by have := w.le; show s.h + 1 = s.k + 1; omega) hp
        (fun _ => hm) p
      rw [← he p]
      exact this
    · rw [if_neg hk]
      have hw : Warm { s with
          slots := s.slots ++ [x]
          n := s.n + 1
          h := s.h + 1
          numMarksInH := if x.mark then s.numMarksInH + 1 else s.numMarksInH } (srcAdd src x)
          (estAdd e x) :=
        ⟨w.k1, w.m0, w.r0, hl, by show s.h + 1 ≤ s.k; omega, hp, hm, hs.symm, fun p => (he p).symm⟩
      show _ = _
      exact (Inv.est_eq (Or.inl hw) p).symm
  · obtain ⟨s1, W, N, h1, h2, h3, h4⟩ := updateCore_spec h hx
    rw [h1]
    exact growCandidateSet_E h4 h3 p

end Verif.VarOpt
