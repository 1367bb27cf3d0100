import Verif.VarOptUnionModel
import Verif.VarOptUpdate

/-!
# The union of VarOpt sketches
-/

namespace Verif.VarOpt

open Rand

variable {T : Type}

/-! ## Valid sketches

What the union needs of its inputs and guarantees of its result. -/

structure Valid (s : Sk T) : Prop where
  k1 : 1 ≤ s.k
  m0 : s.m = 0
  hlen : s.hSlots.length = s.h
  rlen : s.rSlots.length = s.r
  hpos : ∀ x ∈ s.hSlots, 0 < x.weight
  le : s.h + s.r ≤ s.k
  full : s.r ≠ 0 → s.h + s.r = s.k
  tot : s.r ≠ 0 → 0 < s.totalWeightR
  count : s.h + s.r ≤ s.n

theorem est_regions {s : Sk T} (h : s.rSlots.length = s.r) (p : T → Bool) :
    est p s = wsum p s.hSlots + s.totalWeightR / s.r * cnt p s.rSlots := by
  unfold est Sk.samples
  by_cases hr : s.r > 0
  · rw [if_pos hr, List.filter_append, List.map_append, List.sum_append, sum_filter_const]
    congr 1
    exact sum_filter_pairs p s.hSlots
  · have h0 : s.r = 0 := by omega
    have : s.rSlots = [] := List.length_eq_zero_iff.1 (by rw [h, h0])
    rw [if_neg hr, List.append_nil, this]
    have h1 := sum_filter_pairs p s.hSlots
    unfold pairs at h1
    rw [h1]
    simp [cnt]

theorem Est.hSlots_eq {s : Sk T} {src : List (T × ℚ)} {e : (T → Bool) → ℚ}
    {H : List (Slot T)} {g : Slot T} {R rest : List (Slot T)} {rw' : List (T × ℚ)}
    (c : Est s src e H g R rest rw') : s.hSlots = H := by
  unfold Sk.hSlots
  rw [c.slots, ← c.hlen, List.take_left]

theorem Est.rSlots_eq {s : Sk T} {src : List (T × ℚ)} {e : (T → Bool) → ℚ}
    {H : List (Slot T)} {g : Slot T} {R rest : List (Slot T)} {rw' : List (T × ℚ)}
    (c : Est s src e H g R rest rw') : s.rSlots = R := by
  unfold Sk.rSlots Sk.numSamples
  have e1 : s.slots = (H ++ [g]) ++ (R ++ rest) := by rw [c.slots]; simp
  have e2 : s.h + 1 = (H ++ [g]).length := by simp [c.hlen]
  rw [e2, e1, List.drop_left]
  have e3 : min s.k (s.h + s.r) - s.h = R.length := by
    rw [c.full, Nat.min_self, c.rlen]
    have := c.full; omega
  rw [e3, List.take_left]

theorem Warm.hSlots_eq {s : Sk T} {src : List (T × ℚ)} {e : (T → Bool) → ℚ} (w : Warm s src e) :
    s.hSlots = s.slots := by
  unfold Sk.hSlots
  rw [← w.len, List.take_length]

theorem Warm.rSlots_eq {s : Sk T} {src : List (T × ℚ)} {e : (T → Bool) → ℚ} (w : Warm s src e) :
    s.rSlots = [] := by
  unfold Sk.rSlots Sk.numSamples
  have : min s.k (s.h + s.r) - s.h = 0 := by have := w.r0; have := w.le; omega
  rw [this, List.take_zero]

theorem Inv.count {s : Sk T} {src : List (T × ℚ)} {e : (T → Bool) → ℚ} (h : Inv s src e) :
    s.h + s.r ≤ src.length := by
  rcases h with w | ⟨H, g, R, rest, rw', c⟩
  · rw [w.r0, w.src]
    unfold pairs
    rw [List.length_map, w.len]
    omega
  · have h1 := c.sub.length_le
    have h2 := congrArg List.length c.items
    rw [List.length_map, List.length_map] at h2
    unfold pairs at h1
    rw [List.length_append, List.length_map, c.hlen, h2, c.rlen] at h1
    exact h1

theorem Inv.valid {s : Sk T} {src : List (T × ℚ)} {e : (T → Bool) → ℚ} (h : Inv s src e)
    (hn : src.length ≤ s.n) : Valid s := by
  have hc := h.count
  rcases h with w | ⟨H, g, R, rest, rw', c⟩
  · exact ⟨w.k1, w.m0, by rw [w.hSlots_eq, w.len], by rw [w.rSlots_eq, w.r0]; rfl,
      by rw [w.hSlots_eq]; exact w.pos, by have := w.le; have := w.r0; omega,
      fun h => absurd w.r0 h, fun h => absurd w.r0 h, by omega⟩
  · have hp : 0 < s.totalWeightR / s.r := div_pos c.tot (by exact_mod_cast c.r1)
    refine ⟨by have := c.full; have := c.r1; omega, c.m0, by rw [c.hSlots_eq, c.hlen],
      by rw [c.rSlots_eq, c.rlen], ?_, by have := c.full; omega, fun _ => c.full, fun _ => c.tot,
      by omega⟩
    rw [c.hSlots_eq]
    exact fun x hx => lt_of_lt_of_le hp (c.hge x hx)

/-- The items of the samples come from the stream. -/
theorem Inv.items_sub {s : Sk T} {src : List (T × ℚ)} {e : (T → Bool) → ℚ} (h : Inv s src e) :
    List.Subperm (s.samples.map Prod.fst) (src.map Prod.fst) := by
  rcases h with w | ⟨H, g, R, rest, rw', c⟩
  · rw [w.samples_eq]
  · rw [c.samples_eq]
    have h1 : (pairs H ++ R.map fun x => (x.item, s.totalWeightR / s.r)).map Prod.fst
        = (pairs H ++ rw').map Prod.fst := by
      rw [List.map_append, List.map_append, c.items, List.map_map]
      rfl
    rw [h1]
    obtain ⟨l, hl, hs⟩ := c.sub
    exact ⟨l.map Prod.fst, hl.map _, hs.map _⟩

theorem EstI.mono {s : Sk T} {src src' : List (T × ℚ)} {e : (T → Bool) → ℚ} (h : EstI s src e)
    (hs : List.Subperm src src') : EstI s src' e := by
  obtain ⟨H, g, R, rest, rw', c⟩ := h
  exact ⟨H, g, R, rest, rw', ⟨c.slots, c.hlen, c.m0, c.rlen, c.full, c.r1, c.tot, c.heap, c.hge,
    c.marks, c.items, c.light, c.sub.trans hs, c.est⟩⟩

theorem EstI.congr_n {s : Sk T} {src : List (T × ℚ)} {e : (T → Bool) → ℚ} (h : EstI s src e)
    (n : Nat) : EstI { s with n := n } src e := by
  obtain ⟨H, g, R, rest, rw', c⟩ := h
  exact ⟨H, g, R, rest, rw', ⟨c.slots, c.hlen, c.m0, c.rlen, c.full, c.r1, c.tot, c.heap, c.hge,
    c.marks, c.items, c.light, c.sub, c.est⟩⟩

/-! ## Reducing k -/

theorem IsHeap.prefix {H t : List (Slot T)} (h : IsHeap (H ++ t)) : IsHeap H := by
  refine isHeap_of_append (t := t) ?_
  intro i h0 h1 h2
  exact h i h0 (by rw [List.length_append]; omega) h2

/-- The state after a step that reduces `k`. -/
structure Dec (s : Sk T) (src : List (T × ℚ)) (e : (T → Bool) → ℚ) (s' : Sk T) : Prop where
  k : s'.k + 1 = s.k
  n : s'.n = s.n
  gadget : s'.gadget = s.gadget
  len : s'.slots.length = s.slots.length
  inv : ∃ e', EstI s' src e' ∧ e' (fun _ => true) = e (fun _ => true)

theorem pullFromH_ok {s : Sk T} {src : List (T × ℚ)} {e : (T → Bool) → ℚ} (h : EstI s src e)
    (hg : s.gadget = true) (hh : s.h > 0) :
    ∃ s' x src' e', pullFromH s = .ok (s', x) ∧ 0 < x.weight ∧ EstI s' src' e' ∧
      (∀ p, estAdd e' x p = e p) ∧ List.Subperm (srcAdd src' x) src ∧
      s'.k = s.k - 1 ∧ s'.n = s.n - 1 ∧ s'.gadget = true ∧
      s'.slots.length = s.slots.length := by
  obtain ⟨H, g, R, rest, rw', c⟩ := h
  have hHne : H ≠ [] := by
    intro h
    have := c.hlen
    rw [h, List.length_nil] at this
    omega
  obtain ⟨H0, x, rfl⟩ : ∃ H0 x, H = H0 ++ [x] :=
    ⟨H.dropLast, H.getLast hHne, (List.dropLast_append_getLast hHne).symm⟩
  have hRne : R ≠ [] := by
    intro h
    have := c.rlen
    rw [h, List.length_nil] at this
    have := c.r1
    omega
  obtain ⟨R0, y, rfl⟩ : ∃ R0 y, R = R0 ++ [y] :=
    ⟨R.dropLast, R.getLast hRne, (List.dropLast_append_getLast hRne).symm⟩
  have hH0 : H0.length + 1 = s.h := by have := c.hlen; simpa using this
  have hR0 : R0.length + 1 = s.r := by have := c.rlen; simpa using this
  have hrwne : rw' ≠ [] := by
    intro h
    have := c.items
    rw [h] at this
    simp at this
  obtain ⟨rw0, q, rfl⟩ : ∃ rw0 q, rw' = rw0 ++ [q] :=
    ⟨rw'.dropLast, rw'.getLast hrwne, (List.dropLast_append_getLast hrwne).symm⟩
  have hitems : rw0.map Prod.fst = R0.map Slot.item ∧ q.1 = y.item := by
    have := c.items
    rw [List.map_append, List.map_append] at this
    have h2 := List.append_inj' this rfl
    exact ⟨h2.1, by simpa using h2.2⟩
  have hxpos : 0 < x.weight :=
    lt_of_lt_of_le (div_pos c.tot (by exact_mod_cast c.r1)) (c.hge x (by simp))
  have hsw : swap s.slots ((s.h + 1 + s.r) - 1) s.h
      = .ok (H0 ++ x :: (y :: R0 ++ g :: rest)) := by
    have e1 : s.slots = (H0 ++ [x]) ++ g :: (R0 ++ y :: rest) := by rw [c.slots]; simp
    have hl1 : (H0 ++ [x]).length = s.h := by simp [hH0]
    have i1 : s.slots[(s.h + 1 + s.r) - 1]? = some y := by
      have : (s.h + 1 + s.r) - 1 = (H0 ++ [x]).length + (1 + R0.length) := by rw [hl1]; omega
      rw [this, e1, List.getElem?_append_right (by omega)]
      simp only [Nat.add_sub_cancel_left]
      rw [Nat.add_comm 1, List.getElem?_cons_succ, List.getElem?_append_right (le_refl _)]
      simp
    have i2 : s.slots[s.h]? = some g := by
      rw [← hl1, e1]
      simp
    unfold swap
    rw [i1, i2]
    dsimp only
    have h1 : s.slots.set ((s.h + 1 + s.r) - 1) g = (H0 ++ [x]) ++ g :: (R0 ++ g :: rest) := by
      have : (s.h + 1 + s.r) - 1 = (H0 ++ [x]).length + (1 + R0.length) := by rw [hl1]; omega
      rw [this, e1, List.set_append_right _ _ (by omega)]
      simp only [Nat.add_sub_cancel_left]
      rw [Nat.add_comm 1, List.set_cons_succ, List.set_append_right _ _ (le_refl _)]
      simp
    rw [h1]
    congr 1
    rw [← hl1, List.set_append_right _ _ (le_refl _)]
    simp
  have hslot : slotAt (H0 ++ x :: (y :: R0 ++ g :: rest)) (s.h - 1) = .ok x := by
    unfold slotAt
    have : s.h - 1 = H0.length := by omega
    rw [this]
    simp
  have hput : put (H0 ++ x :: (y :: R0 ++ g :: rest)) (s.h - 1) { x with weight := -1 }
      = .ok (H0 ++ { x with weight := -1 } :: (y :: R0 ++ g :: rest)) := by
    unfold put
    have : s.h - 1 = H0.length := by omega
    rw [this, if_pos (by simp)]
    simp
  refine ⟨{ s with
      slots := H0 ++ { x with weight := -1 } :: (y :: R0 ++ g :: rest)
      h := s.h - 1
      k := s.k - 1
      n := s.n - 1
      numMarksInH := if x.mark then s.numMarksInH - 1 else s.numMarksInH }, x,
    pairs H0 ++ (q :: rw0), fun p => e p - if p x.item then x.weight else 0, ?_, hxpos, ?_, ?_, ?_,
    rfl, rfl, hg, by rw [c.slots]; simp⟩
  · unfold pullFromH
    rw [if_neg (by have := c.full; omega), hsw, Outcome.ok_bind, hslot, Outcome.ok_bind,
      if_neg (by rw [hg]; simp), hput, Outcome.ok_bind]
    rfl
  · refine ⟨H0, { x with weight := -1 }, y :: R0, g :: rest, q :: rw0, ?_⟩
    exact {
      slots := rfl
      hlen := by show _ = s.h - 1; omega
      m0 := c.m0
      rlen := by rw [List.length_cons, hR0]
      full := by have := c.full; show s.h - 1 + s.r = s.k - 1; omega
      r1 := c.r1
      tot := c.tot
      heap := c.heap.prefix
      hge := fun z hz => c.hge z (by simp [hz])
      marks := by
        intro _
        show (if x.mark then s.numMarksInH - 1 else s.numMarksInH) = _
        rw [c.marks hg, List.countP_append, List.countP_singleton]
        by_cases hm : x.mark = true <;> simp [hm]
      items := by
        rw [List.map_cons, List.map_cons, hitems.1, hitems.2]
      light := by
        intro z hz
        refine c.light z ?_
        rcases List.mem_cons.1 hz with rfl | hz
        · simp
        · simp [hz]
      sub := List.Subperm.refl _
      est := by
        intro p
        show e p - _ = wsum p H0 + s.totalWeightR / s.r * cnt p (y :: R0)
        rw [c.est p, wsum_append, wsum_cons, wsum_nil, cnt_append, cnt_cons, cnt_cons]
        have : cnt p ([] : List (Slot T)) = 0 := rfl
        rw [this]
        push_cast
        ring }
  · intro p
    unfold estAdd
    ring
  · refine List.Subperm.trans (List.Perm.subperm ?_) c.sub
    unfold srcAdd
    rw [pairs_append]
    have h1 : (q :: rw0).Perm (rw0 ++ [q]) := (List.perm_append_singleton q rw0).symm
    have h2 : (pairs H0 ++ q :: rw0 ++ [(x.item, x.weight)]).Perm
        (pairs H0 ++ ([(x.item, x.weight)] ++ (q :: rw0))) := by
      rw [List.append_assoc]
      exact List.Perm.append_left _ List.perm_append_comm
    refine h2.trans ?_
    rw [← List.append_assoc]
    exact List.Perm.append_left _ h1

theorem decreaseK_est {s : Sk T} {src : List (T × ℚ)} {e : (T → Bool) → ℚ} (h : EstI s src e)
    (hg : s.gadget = true) (hh : s.h > 0) (hn : 0 < s.n) :
    All (Dec s src e) (decreaseK s) ∧ ∀ p, HasE (est p) (decreaseK s) (e p) := by
  obtain ⟨s', x, src', e', h1, hx, hi, he, hs, hk, hn', hg', hl'⟩ := pullFromH_ok h hg hh
  have hr := h.r_ne
  have hk2 : 2 ≤ s.k := by
    obtain ⟨H, g, R, rest, rw', c⟩ := h
    have := c.full; have := c.r1
    omega
  have heq : decreaseK s = update s' x := by
    unfold decreaseK
    rw [if_neg (by omega), if_neg (by omega), if_neg hr, if_pos hh, h1, ofOutcome_ok, ret_bind]
  rw [heq]
  constructor
  · refine (update_all (Or.inr hi) hx).mono fun t ht => ?_
    obtain ⟨e'', hi'', ht''⟩ := ht.inv
    refine ⟨by rw [ht.k, hk]; omega, by rw [ht.n, hn']; omega, by rw [ht.gadget, hg', hg],
      (ht.len hi.r_ne).trans hl', e'', ?_, ?_⟩
    · rcases hi'' with w | hi''
      · exact absurd w.r0 (ht.mode hi.r_ne)
      · exact hi''.mono hs
    · rw [ht'', ← estAdd_true, he]
  · intro p
    have := update_E (Or.inr hi) hx p
    rw [Inv.est_eq (Or.inr hi)] at this
    have h2 := he p
    unfold estAdd at h2
    rwa [h2] at this

theorem decreaseK_warm {s : Sk T} {src : List (T × ℚ)} {e : (T → Bool) → ℚ}
    (hk : 2 ≤ s.k) (hm : s.m = 0) (hr : s.r = 0) (hlen : s.slots.length = s.h) (hh : s.h = s.k)
    (hpos : ∀ x ∈ s.slots, 0 < x.weight)
    (hmarks : s.numMarksInH = s.slots.countP Slot.mark)
    (hs : src = pairs s.slots) (he : ∀ p, e p = wsum p s.slots) :
    All (Dec s src e) (decreaseK s) ∧ ∀ p, HasE (est p) (decreaseK s) (e p) := by
  have heq : decreaseK s = transitionFromWarmup { s with k := s.k - 1 } := by
    unfold decreaseK
    rw [if_neg (by omega), if_neg (by omega), if_pos hr, if_pos (by omega)]
  rw [heq]
  constructor
  · refine (transition_all (s := { s with k := s.k - 1 }) (by show 1 ≤ s.k - 1; omega) hm hr hlen
      (by show s.h = s.k - 1 + 1; omega) hpos (fun _ => hmarks)).mono fun t ht => ?_
    obtain ⟨fr, e', hi, ht'⟩ := ht
    refine ⟨by rw [fr.k]; show s.k - 1 + 1 = s.k; omega, fr.n, fr.gadget, fr.len, e', ?_, ?_⟩
    · rw [hs]; exact hi
    · rw [ht', he]
  · intro p
    rw [he p]
    exact transition_E (s := { s with k := s.k - 1 }) (by show 1 ≤ s.k - 1; omega) hm hr hlen
      (by show s.h = s.k - 1 + 1; omega) hpos (fun _ => hmarks) p

/-- The state when the marks have been absorbed. -/
structure Abs (s : Sk T) (src : List (T × ℚ)) (e : (T → Bool) → ℚ) (s' : Sk T) : Prop where
  k : s'.k ≤ s.k
  n : s'.n = s.n
  len : s'.slots.length = s.slots.length
  inv : ∃ e', EstI s' src e' ∧ e' (fun _ => true) = e (fun _ => true)

theorem marks_pos_h {s : Sk T} {src : List (T × ℚ)} {e : (T → Bool) → ℚ} (h : EstI s src e)
    (hg : s.gadget = true) (hm : s.numMarksInH > 0) : s.h > 0 := by
  obtain ⟨H, g, R, rest, rw', c⟩ := h
  have h1 := c.marks hg
  have h2 := List.countP_le_length (p := Slot.mark) (l := H)
  have := c.hlen
  omega

theorem absorbMarks_spec : ∀ (fuel : Nat) {s : Sk T} {src : List (T × ℚ)} {e : (T → Bool) → ℚ},
    EstI s src e → s.gadget = true → 0 < s.n → s.k < fuel →
    All (Abs s src e) (absorbMarks fuel s) ∧ ∀ p, HasE (est p) (absorbMarks fuel s) (e p) := by
  intro fuel
  induction fuel with
  | zero => intro s src e _ _ _ h; omega
  | succ fuel ih =>
    intro s src e h hg hn hf
    rw [absorbMarks]
    by_cases hm : s.numMarksInH > 0
    · rw [if_pos hm]
      obtain ⟨ha, hE⟩ := decreaseK_est h hg (marks_pos_h h hg hm) hn
      constructor
      · refine ha.bind fun t ht => ?_
        obtain ⟨e', hi, hte⟩ := ht.inv
        refine (ih hi (by rw [ht.gadget, hg]) (by rw [ht.n]; exact hn)
          (by have := ht.k; omega)).1.mono fun t' ht' => ?_
        obtain ⟨e'', hi'', hte''⟩ := ht'.inv
        exact ⟨by have := ht.k; have := ht'.k; omega, ht'.n.trans ht.n, ht'.len.trans ht.len, e'', hi'', hte''.trans hte⟩
      · intro p
        refine (hE p).bind (ha.mono fun t ht => ?_)
        obtain ⟨e', hi, hte⟩ := ht.inv
        rw [hi.est_eq p]
        exact (ih hi (by rw [ht.gadget, hg]) (by rw [ht.n]; exact hn) (by have := ht.k; omega)).2 p
    · rw [if_neg hm]
      exact ⟨⟨le_refl _, rfl, rfl, e, h, rfl⟩, fun p => (h.est_eq p).symm⟩

theorem finishMigrate_spec {s : Sk T} {src : List (T × ℚ)} {e : (T → Bool) → ℚ}
    (h : EstI s src e) (hg : s.gadget = true) (hn : 0 < s.n) :
    All (fun s' => Abs s src e s' ∧ s'.gadget = false) (finishMigrate s) ∧
      ∀ p, HasE (est p) (finishMigrate s) (e p) := by
  have htau : ¬ s.totalWeightR / s.r = 0 := by
    obtain ⟨H, g, R, rest, rw', c⟩ := h
    exact ne_of_gt (div_pos c.tot (by exact_mod_cast c.r1))
  unfold finishMigrate
  rw [if_neg h.r_ne, if_neg htau]
  obtain ⟨ha, hE⟩ := absorbMarks_spec (s.k + 1) h hg hn (by omega)
  have hst : ∀ t e', EstI t src e' → EstI { t with numMarksInH := 0, gadget := false } src e' := by
    intro t e' ht
    obtain ⟨H, g, R, rest, rw', c⟩ := ht
    exact ⟨H, g, R, rest, rw', ⟨c.slots, c.hlen, c.m0, c.rlen, c.full, c.r1, c.tot, c.heap, c.hge,
      (fun hf => Bool.noConfusion hf), c.items, c.light, c.sub, c.est⟩⟩
  constructor
  · refine ha.bind fun t ht => ?_
    obtain ⟨e', hi, hte⟩ := ht.inv
    exact ⟨⟨ht.k, ht.n, ht.len, e', hst t e' hi, hte⟩, rfl⟩
  · intro p
    refine (hE p).bind (ha.mono fun t ht => ?_)
    rfl

/-! ## The gadget -/

/-- Sum of the weights of matching pairs. -/
def psumOf (p : T → Bool) (l : List (T × ℚ)) : ℚ := (l.map fun q => if p q.1 then q.2 else 0).sum

theorem psumOf_cons (p : T → Bool) (q : T × ℚ) (l : List (T × ℚ)) :
    psumOf p (q :: l) = (if p q.1 then q.2 else 0) + psumOf p l := by simp [psumOf]

theorem psumOf_append (p : T → Bool) (l l' : List (T × ℚ)) :
    psumOf p (l ++ l') = psumOf p l + psumOf p l' := by simp [psumOf]

def mkSlot (mark : Bool) (q : T × ℚ) : Slot T := { item := q.1, weight := q.2, mark := mark }

/-- The gadget after some insertions. -/
structure Ins (mark : Bool) (g : Sk T) (l src : List (T × ℚ)) (e : (T → Bool) → ℚ) (g' : Sk T) :
    Prop where
  k : g'.k = g.k
  gadget : g'.gadget = g.gadget
  n : g'.n = g.n + l.length
  tight : Tight g → Tight g'
  mode : g.r ≠ 0 → g'.r ≠ 0
  warm : g'.r = 0 → g'.slots = g.slots ++ l.map (mkSlot mark) ∧ g'.totalWeightR = g.totalWeightR
  over : g'.r ≠ 0 → g.r ≠ 0 ∨ g.k < g.slots.length + l.length
  inv : ∃ e', Inv g' (src ++ l) e' ∧ e' (fun _ => true) = e (fun _ => true) + psumOf (fun _ => true) l

theorem insertAll_spec (mark : Bool) : ∀ (l : List (T × ℚ)) {g : Sk T} {src : List (T × ℚ)}
    {e : (T → Bool) → ℚ}, Inv g src e → (∀ q ∈ l, 0 < q.2) →
    All (Ins mark g l src e) (insertAll mark g l) ∧
      ∀ p, HasE (est p) (insertAll mark g l) (e p + psumOf p l) := by
  intro l
  induction l with
  | nil =>
    intro g src e h _
    refine ⟨⟨rfl, rfl, by simp, id, id, fun _ => ⟨by simp, rfl⟩, fun h => Or.inl h, e, by rw [List.append_nil]; exact h,
      by simp [psumOf]⟩, fun p => ?_⟩
    show _ = est p g
    rw [h.est_eq p]
    simp [psumOf]
  | cons q l ih =>
    intro g src e h hpos
    have hq := hpos q (by simp)
    have hl : ∀ q' ∈ l, 0 < q'.2 := fun q' h' => hpos q' (by simp [h'])
    have hstep := update_all h (x := mkSlot mark q) hq
    have hE := update_E h (x := mkSlot mark q) hq
    have heq : insertAll mark g (q :: l) = (update g (mkSlot mark q) >>= fun g' => insertAll mark g' l) := by
      unfold insertAll
      rw [List.foldlM_cons]
      rfl
    rw [heq]
    constructor
    · refine hstep.bind fun g' hg' => ?_
      obtain ⟨e', hi, ht⟩ := hg'.inv
      refine (ih hi hl).1.mono fun g'' hg'' => ?_
      obtain ⟨e'', hi'', ht''⟩ := hg''.inv
      refine ⟨hg''.k.trans hg'.k, hg''.gadget.trans hg'.gadget, ?_, fun h => hg''.tight (hg'.tight h),
        fun h => hg''.mode (hg'.mode h), ?_, ?_, e'', ?_, ?_⟩
      · rw [hg''.n, hg'.n, List.length_cons]; omega
      · intro hr
        have hr' : g'.r = 0 := by
          by_contra hne
          exact hg''.mode hne hr
        rw [(hg''.warm hr).1, (hg''.warm hr).2, (hg'.warm hr').1, (hg'.warm hr').2]
        exact ⟨by simp, rfl⟩
      · intro hr
        by_cases hr' : g'.r = 0
        · rcases hg''.over hr with h | h
          · exact absurd hr' h
          · rw [(hg'.warm hr').1, hg'.k, List.length_append, List.length_singleton] at h
            rw [List.length_cons]
            right
            omega
        · rcases hg'.over hr' with h | h
          · exact Or.inl h
          · right
            rw [List.length_cons]
            omega
      · unfold srcAdd at hi''
        rw [List.append_assoc] at hi''
        exact hi''
      · rw [ht'', ht, psumOf_cons, if_pos rfl]
        show e _ + q.2 + _ = _
        ring
    · intro p
      have h1 := (hE p).affine 1 (psumOf p l)
      rw [h.est_eq p] at h1
      have he : 1 * (e p + if p (mkSlot mark q).item then (mkSlot mark q).weight else 0) + psumOf p l
          = e p + psumOf p (q :: l) := by
        rw [psumOf_cons]
        show 1 * (e p + if p q.1 then q.2 else 0) + psumOf p l = _
        ring
      rw [he] at h1
      refine h1.bind (hstep.mono fun g' hg' => ?_)
      obtain ⟨e', hi, ht⟩ := hg'.inv
      rw [one_mul, hi.est_eq p]
      exact (ih hi hl).2 p

theorem insertAll_append (mark : Bool) : ∀ (l l' : List (T × ℚ)) (g : Sk T),
    insertAll mark g (l ++ l') = (insertAll mark g l >>= fun g' => insertAll mark g' l') := by
  intro l
  induction l with
  | nil => intro l' g; rfl
  | cons q l ih =>
    intro l' g
    have h : ∀ t, insertAll mark g (q :: t) = (update g (mkSlot mark q) >>= fun g' => insertAll mark g' t) := by
      intro t
      unfold insertAll
      rw [List.foldlM_cons]
      rfl
    rw [List.cons_append, h, h, Rand.bind_assoc]
    congr 1
    funext g'
    exact ih l' g'

theorem insertAll_single (mark : Bool) (q : T × ℚ) (g : Sk T) :
    insertAll mark g [q] = update g (mkSlot mark q) := by
  unfold insertAll
  rw [List.foldlM_cons]
  exact Rand.bind_ret _

/-! ## Bookkeeping of the union -/

/-- The books of the union while the gadget is in exact mode. -/
structure Books (u : Un T) : Prop where
  le : u.outerTauDenom ≤ u.gadget.slots.countP Slot.mark
  some : u.gadget.slots.countP Slot.mark ≠ 0 → u.outerTauDenom ≠ 0
  all : u.gadget.slots.countP Slot.mark = u.outerTauDenom →
    ∀ x ∈ u.gadget.slots, x.mark = true → x.weight = u.outerTauNumer / u.outerTauDenom

/-- A valid union that has absorbed the samples `src`. -/
structure UInv (u : Un T) (src : List (T × ℚ)) (e : (T → Bool) → ℚ) : Prop where
  inv : Inv u.gadget src e
  tight : Tight u.gadget
  gadget : u.gadget.gadget = true
  k : u.gadget.k = u.k
  count : src.length ≤ u.n
  books : u.gadget.r = 0 → Books u
  tot0 : u.gadget.r = 0 → u.gadget.totalWeightR = 0
  seen : u.gadget.n = src.length
  over : u.gadget.r ≠ 0 → u.gadget.k < src.length
  fresh : u.outerTauDenom = 0 → u.outerTauNumer = 0

theorem UInv.new {maxK : Nat} (h1 : 1 ≤ maxK) (h2 : maxK ≤ 2 ^ 31 - 2) :
    ∃ u : Un T, newUnion maxK = .ok u ∧ u.k = maxK ∧ u.n = 0 ∧ UInv u [] (fun _ => 0) := by
  refine ⟨⟨⟨[], true, maxK, 0, 0, 0, 0, 0, 0⟩, maxK, 0, 0, 0⟩, ?_, rfl, rfl, ?_⟩
  · unfold newUnion VarOpt.new
    rw [if_neg (by omega)]
    rfl
  · exact ⟨Or.inl ⟨h1, rfl, rfl, rfl, Nat.zero_le _, by simp, rfl, rfl, fun p => rfl⟩,
      fun h => absurd rfl h, rfl, rfl, le_refl _,
      fun _ => ⟨le_refl _, fun h => absurd rfl h, fun _ => by simp⟩, fun _ => rfl,
      rfl, fun h => absurd rfl h, fun _ => rfl⟩

theorem noteTau_fresh {u : Un T} (h : u.outerTauDenom = 0 → u.outerTauNumer = 0) (tot : ℚ) {r : Nat}
    (hr : 0 < r) (tau : ℚ) : (u.noteTau tot r tau).outerTauDenom = 0 →
      (u.noteTau tot r tau).outerTauNumer = 0 := by
  unfold Un.noteTau
  split
  · intro h0
    have : r = 0 := h0
    omega
  · split
    · intro h0
      have : r = 0 := h0
      omega
    · split
      · intro h0
        have : u.outerTauDenom + r = 0 := h0
        omega
      · exact h

theorem noteTau_gadget (u : Un T) (tot : ℚ) (r : Nat) (tau : ℚ) :
    (u.noteTau tot r tau).gadget = u.gadget ∧ (u.noteTau tot r tau).k = u.k ∧
      (u.noteTau tot r tau).n = u.n := by
  unfold Un.noteTau
  split
  · exact ⟨rfl, rfl, rfl⟩
  · split
    · exact ⟨rfl, rfl, rfl⟩
    · split <;> exact ⟨rfl, rfl, rfl⟩

/-- The books after an input in estimation mode. -/
theorem Books.note {u : Un T} (b : Books u) {g : Sk T} (n : Nat) {l : List (Slot T)} {tot tau : ℚ}
    {r : Nat} (hr : 0 < r) (htau : tau = tot / r)
    (hl : g.slots = u.gadget.slots ++ l) (hcl : l.countP Slot.mark = r)
    (hw : ∀ x ∈ l, x.mark = true → x.weight = tau) :
    Books ({ u with gadget := g, n := n }.noteTau tot r tau) := by
  have hr' : (r : ℚ) ≠ 0 := by exact_mod_cast (by omega : r ≠ 0)
  have hcount : g.slots.countP Slot.mark = u.gadget.slots.countP Slot.mark + r := by
    rw [hl, List.countP_append, hcl]
  have hmem : ∀ x ∈ g.slots, x ∈ u.gadget.slots ∨ x ∈ l := by
    intro x hx
    rw [hl] at hx
    exact List.mem_append.1 hx
  unfold Un.noteTau
  by_cases h0 : u.outerTauDenom = 0
  · rw [if_pos h0]
    have hz : u.gadget.slots.countP Slot.mark = 0 := by
      by_contra h
      exact b.some h h0
    refine ⟨by show r ≤ g.slots.countP Slot.mark; omega, fun _ => by show r ≠ 0; omega, ?_⟩
    intro _ x hx hm
    show x.weight = tot / r
    rcases hmem x hx with hx | hx
    · rw [List.countP_eq_zero] at hz
      exact absurd hm (hz x hx)
    · rw [hw x hx hm, htau]
  · rw [if_neg h0]
    have hle := b.le
    by_cases h1 : tau > Un.outerTau { u with gadget := g, n := n }
    · rw [if_pos h1]
      refine ⟨by show r ≤ g.slots.countP Slot.mark; omega, fun _ => by show r ≠ 0; omega, ?_⟩
      intro he
      have : g.slots.countP Slot.mark = r := he
      omega
    · rw [if_neg h1]
      by_cases h2 : tau = Un.outerTau { u with gadget := g, n := n }
      · rw [if_pos h2]
        have hd : (u.outerTauDenom : ℚ) ≠ 0 := by exact_mod_cast h0
        have ho : tau = u.outerTauNumer / u.outerTauDenom := by
          rw [h2]
          unfold Un.outerTau
          rw [if_neg h0]
        have hsum : (u.outerTauNumer + tot) / ((u.outerTauDenom + r : Nat) : ℚ) = tau := by
          have e1 : u.outerTauNumer = tau * u.outerTauDenom := by rw [ho]; field_simp
          have e2 : tot = tau * r := by rw [htau]; field_simp
          have hne : ((u.outerTauDenom + r : Nat) : ℚ) ≠ 0 := by
            exact_mod_cast (by omega : u.outerTauDenom + r ≠ 0)
          rw [div_eq_iff hne]
          push_cast
          linear_combination e1 + e2
        refine ⟨by show u.outerTauDenom + r ≤ g.slots.countP Slot.mark; omega,
          fun _ => by show u.outerTauDenom + r ≠ 0; omega, ?_⟩
        intro he x hx hm
        have he' : g.slots.countP Slot.mark = u.outerTauDenom + r := he
        show x.weight = (u.outerTauNumer + tot) / ((u.outerTauDenom + r : Nat) : ℚ)
        rw [hsum]
        rcases hmem x hx with hx | hx
        · rw [b.all (by omega) x hx hm, ho]
        · exact hw x hx hm
      · rw [if_neg h2]
        refine ⟨by show u.outerTauDenom ≤ g.slots.countP Slot.mark; omega, fun _ => h0, ?_⟩
        intro he
        have : g.slots.countP Slot.mark = u.outerTauDenom := he
        omega

theorem Books.unmarked {u : Un T} (b : Books u) {g : Sk T} (n : Nat) {l : List (Slot T)}
    (hl : g.slots = u.gadget.slots ++ l) (hw : ∀ x ∈ l, x.mark = false) :
    Books { u with gadget := g, n := n } := by
  have hz : l.countP Slot.mark = 0 := by
    rw [List.countP_eq_zero]
    intro x hx
    rw [hw x hx]
    simp
  have hcount : g.slots.countP Slot.mark = u.gadget.slots.countP Slot.mark := by
    rw [hl, List.countP_append, hz, Nat.add_zero]
  refine ⟨?_, ?_, ?_⟩
  · show u.outerTauDenom ≤ g.slots.countP Slot.mark
    rw [hcount]; exact b.le
  · intro h
    have h' : g.slots.countP Slot.mark ≠ 0 := h
    rw [hcount] at h'
    exact b.some h'
  · intro h x hx hm
    have h' : g.slots.countP Slot.mark = u.outerTauDenom := h
    rw [hcount] at h'
    have hx' : x ∈ g.slots := hx
    rw [hl] at hx'
    rcases List.mem_append.1 hx' with hx' | hx'
    · exact b.all h' x hx' hm
    · rw [hw x hx'] at hm
      cases hm

theorem weightCorr_eq {tau tot : ℚ} : ∀ (l : List (Slot T)) (cum : ℚ),
    tot = cum + tau * l.length → weightCorr tau tot l cum = l.map fun x => (x.item, tau) := by
  intro l
  induction l with
  | nil => intro cum _; rfl
  | cons x l ih =>
    intro cum h
    cases l with
    | nil =>
      simp only [weightCorr, List.map_cons, List.map_nil]
      rw [h]
      simp
    | cons y l =>
      rw [weightCorr, ih (cum + tau) (by rw [h, List.length_cons, List.length_cons]; push_cast; ring)]
      rfl

/-- The effect of an input on the union. -/
structure Fed (u : Un T) (n : Nat) (l src : List (T × ℚ)) (e : (T → Bool) → ℚ) (u' : Un T) :
    Prop where
  k : u'.k = u.k
  n : u'.n = u.n + n
  inv : ∃ e', UInv u' (src ++ l) e' ∧
    e' (fun _ => true) = e (fun _ => true) + psumOf (fun _ => true) l

theorem noteTau_est (u : Un T) (tot : ℚ) (r : Nat) (tau : ℚ) (p : T → Bool) :
    est p (u.noteTau tot r tau).gadget = est p u.gadget := by
  rw [(noteTau_gadget u tot r tau).1]

theorem psumOf_const (p : T → Bool) (v : ℚ) (l : List (Slot T)) :
    psumOf p (l.map fun x => (x.item, v)) = v * cnt p l := by
  induction l with
  | nil => simp [psumOf, cnt]
  | cons x l ih =>
    rw [List.map_cons, psumOf_cons, ih, cnt_cons]
    dsimp only
    by_cases hp : p x.item = true
    · rw [if_pos hp, if_pos hp]; push_cast; ring
    · rw [if_neg hp, if_neg hp]; push_cast; ring

theorem psumOf_pairs (p : T → Bool) (l : List (Slot T)) : psumOf p (pairs l) = wsum p l := by
  unfold psumOf wsum pairs
  rw [List.map_map]
  rfl

/-- The samples of a valid sketch, with the total of their weights. -/
theorem Valid.samples_eq {s : Sk T} (v : Valid s) :
    s.samples = pairs s.hSlots ++ s.rSlots.map fun x => (x.item, s.totalWeightR / s.r) := by
  unfold Sk.samples
  by_cases hr : s.r > 0
  · rw [if_pos hr]; rfl
  · have h0 : s.r = 0 := by omega
    have : s.rSlots = [] := List.length_eq_zero_iff.1 (by rw [v.rlen, h0])
    rw [if_neg hr, this]
    rfl

theorem Valid.psum_samples {s : Sk T} (v : Valid s) (p : T → Bool) :
    psumOf p s.samples = est p s := by
  rw [v.samples_eq, psumOf_append, psumOf_pairs, psumOf_const, est_regions v.rlen]

theorem Valid.samples_length {s : Sk T} (v : Valid s) : s.samples.length = s.h + s.r := by
  rw [v.samples_eq, List.length_append, List.length_map]
  unfold pairs
  rw [List.length_map, v.hlen, v.rlen]

/-- Inserting unmarked samples `l1` and marked samples `l2` of equal weight, with the bookkeeping. -/
def absorb (u : Un T) (n : Nat) (l1 l2 : List (T × ℚ)) (tot : ℚ) (r : Nat) : Rand (Un T) :=
  insertAll false u.gadget l1 >>= fun g => insertAll true g l2 >>= fun g =>
    .ret (if r > 0 then Un.noteTau { u with gadget := g, n := u.n + n } tot r (tot / r)
      else { u with gadget := g, n := u.n + n })

theorem absorb_spec {u : Un T} {src : List (T × ℚ)} {e : (T → Bool) → ℚ} (hu : UInv u src e)
    {n : Nat} {l1 l2 : List (T × ℚ)} {tot : ℚ} {r : Nat}
    (hp1 : ∀ q ∈ l1, 0 < q.2) (hp2 : ∀ q ∈ l2, 0 < q.2) (hr : l2.length = r)
    (hw2 : ∀ q ∈ l2, q.2 = tot / r) (hc : l1.length + l2.length ≤ n) :
    All (Fed u n (l1 ++ l2) src e) (absorb u n l1 l2 tot r) ∧
      ∀ p, HasE (fun u' : Un T => est p u'.gadget) (absorb u n l1 l2 tot r)
        (e p + psumOf p (l1 ++ l2)) := by
  obtain ⟨ha1, hE1⟩ := insertAll_spec false l1 hu.inv hp1
  unfold absorb
  have hfinal : ∀ g1 g2 : Sk T, ∀ e1, Ins false u.gadget l1 src e g1 →
      Ins true g1 l2 (src ++ l1) e1 g2 → e1 (fun _ => true) = e (fun _ => true) + psumOf (fun _ => true) l1 →
      Fed u n (l1 ++ l2) src e (if r > 0 then Un.noteTau { u with gadget := g2, n := u.n + n }
        tot r (tot / r) else { u with gadget := g2, n := u.n + n }) := by
    intro g1 g2 e1 i1 i2 he1
    obtain ⟨e2, hi2, he2⟩ := i2.inv
    have hw : g2.r = 0 → u.gadget.r = 0 ∧
        g2.slots = u.gadget.slots ++ (l1.map (mkSlot false) ++ l2.map (mkSlot true)) ∧
        g2.totalWeightR = 0 := by
      intro h0
      have h1 : g1.r = 0 := by
        by_contra hne
        exact i2.mode hne h0
      have h2 : u.gadget.r = 0 := by
        by_contra hne
        exact i1.mode hne h1
      refine ⟨h2, ?_, ?_⟩
      · rw [(i2.warm h0).1, (i1.warm h1).1, List.append_assoc]
      · rw [(i2.warm h0).2, (i1.warm h1).2, hu.tot0 h2]
    have hover1 : g1.r ≠ 0 → u.gadget.k < (src ++ l1).length := by
      intro h0
      rw [List.length_append]
      rcases i1.over h0 with h | h
      · have := hu.over h; omega
      · rcases hu.inv with w | h'
        · rw [w.src]; unfold pairs; rw [List.length_map]; omega
        · have := hu.over h'.r_ne; omega
    have hover : g2.r ≠ 0 → u.gadget.k < (src ++ (l1 ++ l2)).length := by
      intro h0
      rw [← List.append_assoc, List.length_append]
      by_cases h1 : g1.r = 0
      · rcases i2.over h0 with h | h
        · exact absurd h1 h
        · rw [i1.k, (i1.warm h1).1, List.length_append, List.length_map] at h
          have h2 : u.gadget.r = 0 := by
            by_contra hne
            exact i1.mode hne h1
          rcases hu.inv with w | h'
          · rw [List.length_append, w.src]; unfold pairs; rw [List.length_map]; omega
          · exact absurd h2 h'.r_ne
      · have := hover1 h1; omega
    have hbase : ∀ u' : Un T, u'.gadget = g2 → u'.k = u.k → u'.n = u.n + n →
        (u'.outerTauDenom = 0 → u'.outerTauNumer = 0) →
        (g2.r = 0 → Books u') → Fed u n (l1 ++ l2) src e u' := by
      intro u' hg hk hn' hfr hb
      refine ⟨hk, hn', e2, ⟨?_, ?_, ?_, ?_, ?_, ?_, ?_, ?_, ?_, hfr⟩, ?_⟩
      · rw [hg, ← List.append_assoc]; exact hi2
      · rw [hg]; exact i2.tight (i1.tight hu.tight)
      · rw [hg, i2.gadget, i1.gadget, hu.gadget]
      · rw [hg, hk, i2.k, i1.k, hu.k]
      · rw [List.length_append, List.length_append, hn']
        have := hu.count
        omega
      · rw [hg]; exact hb
      · rw [hg]; exact fun h0 => (hw h0).2.2
      · rw [hg, i2.n, i1.n, hu.seen, List.length_append, List.length_append, Nat.add_assoc]
      · rw [hg, i2.k, i1.k]
        exact fun h0 => hover h0
      · rw [he2, he1, psumOf_append]; ring
    have hfalse : ∀ l : List (T × ℚ), (l.map (mkSlot false)).countP Slot.mark = 0 := by
      intro l
      rw [List.countP_eq_zero]
      intro x hx
      obtain ⟨q, _, rfl⟩ := List.mem_map.1 hx
      simp [mkSlot]
    have htrue : ∀ l : List (T × ℚ), (l.map (mkSlot true)).countP Slot.mark = l.length := by
      intro l
      have : (l.map (mkSlot true)).countP Slot.mark = (l.map (mkSlot true)).length := by
        rw [List.countP_eq_length]
        intro x hx
        obtain ⟨q, _, rfl⟩ := List.mem_map.1 hx
        rfl
      rw [this, List.length_map]
    by_cases hr0 : r > 0
    · rw [if_pos hr0]
      have hnt := noteTau_gadget ({ u with gadget := g2, n := u.n + n } : Un T) tot r (tot / r)
      refine hbase _ hnt.1 hnt.2.1 hnt.2.2
        (noteTau_fresh (u := { u with gadget := g2, n := u.n + n }) hu.fresh tot hr0 (tot / r)) fun h0 => ?_
      obtain ⟨h1, h2, _⟩ := hw h0
      refine (hu.books h1).note (u.n + n) hr0 rfl h2 ?_ ?_
      · rw [List.countP_append, hfalse, htrue, hr, Nat.zero_add]
      · intro x hx hm
        rcases List.mem_append.1 hx with hx | hx
        · obtain ⟨q, _, rfl⟩ := List.mem_map.1 hx
          cases hm
        · obtain ⟨q, hq, rfl⟩ := List.mem_map.1 hx
          exact hw2 q hq
    · rw [if_neg hr0]
      refine hbase _ rfl rfl rfl hu.fresh fun h0 => ?_
      obtain ⟨h1, h2, _⟩ := hw h0
      have h3 : l2 = [] := List.length_eq_zero_iff.1 (by omega)
      rw [h3, List.map_nil, List.append_nil] at h2
      refine (hu.books h1).unmarked (u.n + n) h2 ?_
      intro x hx
      obtain ⟨q, _, rfl⟩ := List.mem_map.1 hx
      rfl
  constructor
  · refine ha1.bind fun g1 i1 => ?_
    obtain ⟨e1, hi1, he1⟩ := i1.inv
    refine (insertAll_spec true l2 hi1 hp2).1.bind fun g2 i2 => ?_
    exact hfinal g1 g2 e1 i1 i2 he1
  · intro p
    have h1 := (hE1 p).affine 1 (psumOf p l2)
    rw [one_mul, add_assoc, ← psumOf_append] at h1
    refine h1.bind (ha1.mono fun g1 i1 => ?_)
    obtain ⟨e1, hi1, he1⟩ := i1.inv
    obtain ⟨ha2, hE2⟩ := insertAll_spec true l2 hi1 hp2
    rw [one_mul, hi1.est_eq p]
    refine (hE2 p).bind (ha2.mono fun g2 i2 => ?_)
    show est p g2 = est p (Un.gadget _)
    by_cases hr : r > 0
    · rw [if_pos hr, noteTau_est]
    · rw [if_neg hr]

/-- A program that absorbs the samples `l`, which stand for `n` items. -/
def Absorbs (u : Un T) (n : Nat) (l : List (T × ℚ)) (t : Rand (Un T)) : Prop :=
  ∃ l1 l2 tot r, t = absorb u n l1 l2 tot r ∧ l = l1 ++ l2 ∧
    (∀ q ∈ l1, 0 < q.2) ∧ (∀ q ∈ l2, 0 < q.2) ∧ l2.length = r ∧
    (∀ q ∈ l2, q.2 = tot / r) ∧ l1.length + l2.length ≤ n

theorem Absorbs.spec {u : Un T} {src l : List (T × ℚ)} {e : (T → Bool) → ℚ} (hu : UInv u src e)
    {n : Nat} {t : Rand (Un T)} (h : Absorbs u n l t) :
    All (Fed u n l src e) t ∧
      ∀ p, HasE (fun u' : Un T => est p u'.gadget) t (e p + psumOf p l) := by
  obtain ⟨l1, l2, tot, r, rfl, rfl, h1, h2, h3, h4, h5⟩ := h
  exact absorb_spec hu h1 h2 h3 h4 h5

theorem update_absorbs (u : Un T) {s : Sk T} (v : Valid s) (hn : s.n ≠ 0) :
    Absorbs u s.n s.samples (u.update (some s)) := by
  have hcond : ¬ (s.h > s.slots.length ∨ ¬ (s.numSamples ≤ s.h ∨ s.numSamples < s.slots.length)) := by
    have h1 := v.hlen
    have h2 := v.rlen
    have h3 := v.le
    unfold Sk.hSlots at h1
    unfold Sk.rSlots at h2
    rw [List.length_take] at h1
    rw [List.length_take, List.length_drop] at h2
    have h4 : s.numSamples = s.h + s.r := by unfold Sk.numSamples; omega
    rw [h4] at h2 ⊢
    omega
  have hl2 : weightCorr (s.totalWeightR / s.r) s.totalWeightR s.rSlots 0
      = s.rSlots.map fun x => (x.item, s.totalWeightR / s.r) := by
    by_cases hr : s.r = 0
    · have : s.rSlots = [] := List.length_eq_zero_iff.1 (by rw [v.rlen, hr])
      rw [this]; rfl
    · refine weightCorr_eq _ _ ?_
      have : (s.r : ℚ) ≠ 0 := by exact_mod_cast hr
      rw [v.rlen]
      field_simp
      ring
  have heq : u.update (some s) = absorb u s.n (pairs s.hSlots)
      (s.rSlots.map fun x => (x.item, s.totalWeightR / s.r)) s.totalWeightR s.r := by
    unfold Un.update
    simp only [if_neg hn, if_neg hcond]
    rw [hl2]
    rfl
  refine ⟨_, _, _, _, heq, v.samples_eq, ?_, ?_, ?_, ?_, ?_⟩
  · intro q hq
    obtain ⟨x, hx, rfl⟩ := List.mem_map.1 hq
    exact v.hpos x hx
  · intro q hq
    obtain ⟨x, hx, rfl⟩ := List.mem_map.1 hq
    have hr : s.r ≠ 0 := by
      intro h0
      have : s.rSlots = [] := List.length_eq_zero_iff.1 (by rw [v.rlen, h0])
      rw [this] at hx
      simp at hx
    exact div_pos (v.tot hr) (by exact_mod_cast Nat.pos_of_ne_zero hr)
  · rw [List.length_map, v.rlen]
  · intro q hq
    obtain ⟨x, hx, rfl⟩ := List.mem_map.1 hq
    rfl
  · rw [List.length_map]
    unfold pairs
    rw [List.length_map, v.hlen, v.rlen]
    exact v.count

theorem update_spec {u : Un T} {src : List (T × ℚ)} {e : (T → Bool) → ℚ} (hu : UInv u src e)
    {s : Sk T} (v : Valid s) (hn : s.n ≠ 0) :
    All (Fed u s.n s.samples src e) (u.update (some s)) ∧
      ∀ p, HasE (fun u' : Un T => est p u'.gadget) (u.update (some s)) (e p + est p s) := by
  obtain ⟨h1, h2⟩ := (update_absorbs u v hn).spec hu
  refine ⟨h1, fun p => ?_⟩
  rw [← v.psum_samples p]
  exact h2 p

/-! ## Reservoir inputs -/

/-- What the union needs of a reservoir sketch. -/
structure RValid (s : Reservoir.Sk T) : Prop where
  exact : s.n ≤ s.k → s.data.length = s.n
  full : s.k < s.n → s.data.length = s.k ∧ 1 ≤ s.k

/-- The samples of a reservoir sketch with the weights they stand for. -/
def rsamples (s : Reservoir.Sk T) : List (T × ℚ) :=
  s.data.map fun x => (x, if s.n ≤ s.k then 1 else (s.n : ℚ) / s.k)

theorem updateReservoir_absorbs (u : Un T) {s : Reservoir.Sk T} (v : RValid s) (hn : s.n ≠ 0) :
    Absorbs u s.n (rsamples s) (u.updateReservoir (some s)) := by
  by_cases hk : s.n ≤ s.k
  · have hs : rsamples s = (s.data.map fun x => (x, (1 : ℚ))) ++ [] := by
      unfold rsamples
      rw [List.append_nil]
      simp only [if_pos hk]
    have heq : u.updateReservoir (some s) = absorb u s.n (s.data.map fun x => (x, (1 : ℚ))) [] 0 0 := by
      unfold Un.updateReservoir
      simp only [if_neg hn, if_pos hk]
      rfl
    refine ⟨_, _, _, _, heq, hs, ?_, by simp, rfl, by simp, ?_⟩
    · intro q hq
      obtain ⟨x, hx, rfl⟩ := List.mem_map.1 hq
      norm_num
    · rw [List.length_map, v.exact hk]; simp
  · obtain ⟨hlen, hk1⟩ := v.full (by omega)
    have hs : rsamples s = [] ++ (s.data.map fun x => (x, (s.n : ℚ) / s.k)) := by
      unfold rsamples
      rw [List.nil_append]
      simp only [if_neg hk]
    have hkq : (s.k : ℚ) ≠ 0 := by exact_mod_cast (by omega : s.k ≠ 0)
    have hne : s.data ≠ [] := by
      intro h
      rw [h, List.length_nil] at hlen
      omega
    have htau : Reservoir.implicitSampleWeight s = (s.n : ℚ) / s.k := by
      unfold Reservoir.implicitSampleWeight
      rw [if_neg (by omega)]
    have hlast : (s.n : ℚ) - ((s.k - 1 : Nat) : ℚ) * ((s.n : ℚ) / s.k) = (s.n : ℚ) / s.k := by
      rw [Nat.cast_sub hk1]
      field_simp
      push_cast
      ring
    obtain ⟨init, y, hd⟩ : ∃ init y, s.data = init ++ [y] :=
      ⟨s.data.dropLast, s.data.getLast hne, (List.dropLast_append_getLast hne).symm⟩
    have hil : init.length = s.k - 1 := by
      rw [hd, List.length_append, List.length_singleton] at hlen
      omega
    have hget : s.data[s.k - 1]? = some y := by
      rw [hd, ← hil]; simp
    have htake : s.data.take (s.k - 1) = init := by rw [hd, ← hil]; simp
    have heq : u.updateReservoir (some s)
        = absorb u s.n [] (s.data.map fun x => (x, (s.n : ℚ) / s.k)) s.n s.k := by
      unfold Un.updateReservoir
      simp only [if_neg hn, if_neg hk, htau, hlast, hget, htake]
      unfold absorb
      rw [hd, List.map_append]
      simp only [if_pos (show s.k > 0 by omega)]
      have hnil : insertAll false u.gadget [] = ret u.gadget := rfl
      rw [hnil, ret_bind, insertAll_append, Rand.bind_assoc]
      congr 1
      funext g
      rw [List.map_cons, List.map_nil, insertAll_single]
      rfl
    refine ⟨_, _, _, _, heq, hs, by simp, ?_, by rw [List.length_map, hlen], ?_, ?_⟩
    · intro q hq
      obtain ⟨x, hx, rfl⟩ := List.mem_map.1 hq
      exact div_pos (by exact_mod_cast Nat.pos_of_ne_zero hn) (by exact_mod_cast hk1)
    · intro q hq
      obtain ⟨x, hx, rfl⟩ := List.mem_map.1 hq
      rfl
    · rw [List.length_map, hlen, List.length_nil]; omega

theorem updateReservoir_spec {u : Un T} {src : List (T × ℚ)} {e : (T → Bool) → ℚ}
    (hu : UInv u src e) {s : Reservoir.Sk T} (v : RValid s) (hn : s.n ≠ 0) :
    All (Fed u s.n (rsamples s) src e) (u.updateReservoir (some s)) ∧
      ∀ p, HasE (fun u' : Un T => est p u'.gadget) (u.updateReservoir (some s))
        (e p + psumOf p (rsamples s)) :=
  (updateReservoir_absorbs u v hn).spec hu

/-! ## Result -/

/-- What `Result` guarantees. -/
structure Res (u : Un T) (src : List (T × ℚ)) (e : (T → Bool) → ℚ) (s : Sk T) : Prop where
  valid : Valid s
  k : s.k ≤ u.k
  n : s.n = u.n
  plain : s.gadget = false
  total : est (fun _ => true) s = e (fun _ => true)
  items : List.Subperm (s.samples.map Prod.fst) (src.map Prod.fst)

theorem simple_spec {u : Un T} {src : List (T × ℚ)} {e : (T → Bool) → ℚ} (hu : UInv u src e)
    (hm : u.gadget.numMarksInH = 0) :
    ∃ s, u.simple = .ok s ∧ Res u src e s ∧ ∀ p, est p s = e p := by
  have hl : lengthsOk u.gadget := by
    unfold lengthsOk
    rcases hu.inv with w | h
    · exact Or.inl ⟨w.r0, w.len⟩
    · refine Or.inr ⟨Nat.pos_of_ne_zero h.r_ne, hu.tight h.r_ne⟩
  have hinv : Inv { u.gadget with gadget := false, n := u.n, m := 0, numMarksInH := 0 } src e := by
    rcases hu.inv with w | ⟨H, g, R, rest, rw', c⟩
    · exact Or.inl ⟨w.k1, rfl, w.r0, w.len, w.le, w.pos, hm.symm.trans w.marks, w.src, w.est⟩
    · exact Or.inr ⟨H, g, R, rest, rw', ⟨c.slots, c.hlen, rfl, c.rlen, c.full, c.r1, c.tot, c.heap,
        c.hge, (fun hf => Bool.noConfusion hf), c.items, c.light, c.sub, c.est⟩⟩
  refine ⟨{ u.gadget with gadget := false, n := u.n, m := 0, numMarksInH := 0 }, ?_, ?_, ?_⟩
  · unfold Un.simple
    rw [if_neg (fun h => h hl)]
  · exact ⟨hinv.valid hu.count, le_of_eq hu.k, rfl, rfl, hinv.est_eq _, hinv.items_sub⟩
  · intro p
    exact hinv.est_eq p

theorem migrate_spec {u : Un T} {src : List (T × ℚ)} {e : (T → Bool) → ℚ} (hu : UInv u src e)
    (hm : u.gadget.numMarksInH ≠ 0)
    (h2 : u.gadget.r = 0 → 2 ≤ u.gadget.h) :
    All (Res u src e) u.migrate ∧ ∀ p, HasE (est p) u.migrate (e p) := by
  have hl : lengthsOk u.gadget := by
    unfold lengthsOk
    rcases hu.inv with w | h
    · exact Or.inl ⟨w.r0, w.len⟩
    · refine Or.inr ⟨Nat.pos_of_ne_zero h.r_ne, hu.tight h.r_ne⟩
  have hk2 : 2 ≤ u.migrateCopy.k ∧ u.migrateCopy.k ≤ u.gadget.k := by
    show 2 ≤ (if u.gadget.r = 0 ∧ u.gadget.h < u.gadget.k then u.gadget.h else u.gadget.k) ∧
      (if u.gadget.r = 0 ∧ u.gadget.h < u.gadget.k then u.gadget.h else u.gadget.k) ≤ u.gadget.k
    rcases hu.inv with w | h
    · have h3 := h2 w.r0
      have h4 := w.le
      split <;> omega
    · rw [if_neg (fun h' => h.r_ne h'.1)]
      have h3 := marks_pos_h h hu.gadget (Nat.pos_of_ne_zero hm)
      obtain ⟨H, g, R, rest, rw', c⟩ := h
      have := c.full; have := c.r1
      omega
  have hnp : 0 < u.n := by
    have h1 := hu.inv.count
    have h3 := hu.count
    by_cases hr : u.gadget.r = 0
    · have := h2 hr; omega
    · omega
  have hdec : All (Dec u.migrateCopy src e) (decreaseK u.migrateCopy) ∧
      ∀ p, HasE (est p) (decreaseK u.migrateCopy) (e p) := by
    rcases hu.inv with w | h
    · have hk : u.migrateCopy.k = u.gadget.h := by
        show (if u.gadget.r = 0 ∧ u.gadget.h < u.gadget.k then u.gadget.h else u.gadget.k) = u.gadget.h
        have h4 := w.le
        split
        · rfl
        · rename_i hh
          have := w.r0
          omega
      exact decreaseK_warm hk2.1 rfl w.r0 w.len hk.symm w.pos w.marks w.src w.est
    · have hhp' := marks_pos_h h hu.gadget (Nat.pos_of_ne_zero hm)
      have hhp : u.migrateCopy.h > 0 := hhp'
      have hcopy : EstI u.migrateCopy src e := by
        obtain ⟨H, g, R, rest, rw', c⟩ := h
        have hkk : u.migrateCopy.k = u.gadget.k := by
          show (if u.gadget.r = 0 ∧ u.gadget.h < u.gadget.k then u.gadget.h else u.gadget.k) = u.gadget.k
          rw [if_neg]
          have := c.r1
          omega
        exact ⟨H, g, R, rest, rw', ⟨c.slots, c.hlen, rfl, c.rlen, by rw [hkk]; exact c.full, c.r1, c.tot,
          c.heap, c.hge, c.marks, c.items, c.light, c.sub, c.est⟩⟩
      exact decreaseK_est hcopy hu.gadget hhp hnp
  have heq : u.migrate = (decreaseK u.migrateCopy >>= finishMigrate) := by
    unfold Un.migrate
    rw [if_neg (by omega), if_neg (fun h => h hl), if_neg, if_neg (by omega)]
    intro h
    apply h
    rcases hu.inv with w | ⟨H, g, R, rest, rw', c⟩
    · exact Or.inl w.r0
    · exact Or.inr c.full.symm
  obtain ⟨ha, hE⟩ := hdec
  rw [heq]
  have hfin : ∀ t, Dec u.migrateCopy src e t → ∃ e', e' (fun _ => true) = e (fun _ => true) ∧
      (∀ p, est p t = e' p) ∧
      All (fun s' => Abs t src e' s' ∧ s'.gadget = false) (finishMigrate t) ∧ ∀ p, HasE (est p) (finishMigrate t) (e' p) := by
    intro t ht
    obtain ⟨e', hi, hte⟩ := ht.inv
    obtain ⟨h1, h3⟩ := finishMigrate_spec hi (by rw [ht.gadget]; exact hu.gadget)
      (by rw [ht.n]; exact hnp)
    exact ⟨e', hte, hi.est_eq, h1, h3⟩
  constructor
  · refine ha.bind fun t ht => ?_
    obtain ⟨e', hte, _, h1, _⟩ := hfin t ht
    refine h1.mono fun t' ht' => ?_
    obtain ⟨ht', hpl⟩ := ht'
    obtain ⟨e'', hi'', hte''⟩ := ht'.inv
    have hn' : t'.n = u.n := by rw [ht'.n, ht.n]; rfl
    refine ⟨Inv.valid (Or.inr hi'') (by rw [hn']; exact hu.count), ?_, hn', hpl, ?_, ?_⟩
    · have h5 := ht'.k
      have h6 := ht.k
      have h7 := hk2.2
      rw [hu.k] at h7
      omega
    · rw [hi''.est_eq, hte'', hte]
    · exact Inv.items_sub (Or.inr hi'')
  · intro p
    refine (hE p).bind (ha.mono fun t ht => ?_)
    obtain ⟨e', _, hes, _, h3⟩ := hfin t ht
    rw [hes p]
    exact h3 p

theorem filter_mark_partition (l : List (Slot T)) (p : T → Bool) :
    wsum p (l.filter fun x => !x.mark) + wsum p (l.filter fun x => x.mark) = wsum p l := by
  induction l with
  | nil => simp [wsum]
  | cons x l ih =>
    by_cases h : x.mark = true
    · rw [List.filter_cons_of_neg (by simp [h]), List.filter_cons_of_pos (by simp [h]), wsum_cons,
        wsum_cons, ← ih]
      ring
    · rw [List.filter_cons_of_pos (by simp [h]), List.filter_cons_of_neg (by simp [h]), wsum_cons,
        wsum_cons, ← ih]
      ring

theorem wsum_const {p : T → Bool} {v : ℚ} {l : List (Slot T)} (h : ∀ x ∈ l, x.weight = v) :
    wsum p l = v * cnt p l := by
  rw [← psumOf_pairs, ← psumOf_const]
  congr 1
  unfold pairs
  refine List.map_congr_left fun x hx => ?_
  rw [h x hx]

theorem items_const {v : ℚ} {l : List (Slot T)} (h : ∀ x ∈ l, x.weight = v) :
    (l.map Slot.weight).sum = v * l.length := by
  induction l with
  | nil => simp
  | cons x l ih =>
    rw [List.map_cons, List.sum_cons, ih fun y hy => h y (by simp [hy]), h x (by simp),
      List.length_cons]
    push_cast
    ring

theorem regions_of_split {s : Sk T} {H R : List (Slot T)} {g : Slot T}
    (hs : s.slots = H ++ g :: R) (hH : H.length = s.h) (hR : R.length = s.r)
    (hk : s.k = s.h + s.r) : s.hSlots = H ∧ s.rSlots = R := by
  constructor
  · unfold Sk.hSlots
    rw [hs, ← hH, List.take_left]
  · unfold Sk.rSlots Sk.numSamples
    have e1 : s.slots = (H ++ [g]) ++ R := by rw [hs]; simp
    have e2 : s.h + 1 = (H ++ [g]).length := by simp [hH]
    rw [e2, e1, List.drop_left]
    have e3 : min s.k (s.h + s.r) - s.h = R.length := by
      rw [hk, Nat.min_self, hR]
      omega
    rw [e3, List.take_length]

theorem markMoving_spec (zero : T) {u : Un T} {src : List (T × ℚ)} {e : (T → Bool) → ℚ}
    (hu : UInv u src e) (hr : u.gadget.r = 0) (hm : u.gadget.numMarksInH ≠ 0)
    (hd : u.gadget.numMarksInH = u.outerTauDenom) :
    ∃ s, u.markMoving zero = .ok s ∧ Res u src e s ∧ s.samples.Perm src ∧ ∀ p, est p s = e p := by
  have w : Warm u.gadget src e := by
    rcases hu.inv with w | h
    · exact w
    · exact absurd hr h.r_ne
  have b := hu.books hr
  set g := u.gadget with hg
  have hmarks := w.marks
  set un := g.slots.filter (fun x => !x.mark) with hun
  set mk := g.slots.filter (fun x => x.mark) with hmk
  have hmklen : mk.length = u.outerTauDenom := by
    rw [← hd, hmarks, hmk, List.countP_eq_length_filter]
  have hmkpos : 0 < mk.length := by omega
  have hlen : un.length + mk.length = g.h := by
    rw [← w.len, hun, hmk]
    have := List.length_eq_length_filter_add (l := g.slots) (fun x => !x.mark)
    rw [this]
    simp
  set v : ℚ := u.outerTauNumer / u.outerTauDenom with hv
  have hd0 : (u.outerTauDenom : ℚ) ≠ 0 := by
    exact_mod_cast (by omega : u.outerTauDenom ≠ 0)
  have hwt : ∀ x ∈ mk, x.weight = v := by
    intro x hx
    rw [hmk, List.mem_filter] at hx
    exact b.all (by rw [← hg, ← hmarks, hd]) x hx.1 hx.2
  have hvpos : 0 < v := by
    obtain ⟨x, hx⟩ := List.exists_mem_of_length_pos hmkpos
    rw [← hwt x hx]
    rw [hmk, List.mem_filter] at hx
    exact w.pos x hx.1
  have htr : (mk.map Slot.weight).sum = u.outerTauNumer := by
    rw [items_const hwt, hmklen, hv]
    field_simp
  have hh : g.hSlots = g.slots := w.hSlots_eq
  have hrs : g.rSlots = [] := w.rSlots_eq
  set gap : Slot T := { item := zero, weight := -1, mark := false } with hgap
  set R : List (Slot T) := (mk.map fun x => ({ item := x.item, weight := -1, mark := false } : Slot T)).reverse
    with hR
  set H0 : List (Slot T) := un.map fun x => { x with mark := false } with hH0
  have hmoved : u.movedSlots zero = H0 ++ gap :: R := by
    unfold Un.movedSlots
    dsimp only
    rw [← hg, hh, hrs, List.nil_append]
  obtain ⟨H', hheap, hperm, _⟩ := heapify_list H0 (gap :: R)
  have hH0len : H0.length = un.length := by rw [hH0, List.length_map]
  have hRlen : R.length = mk.length := by rw [hR, List.length_reverse, List.length_map]
  have hH'len : H'.length = un.length := by rw [hperm.length_eq, hH0len]
  have hitemsR : (R.map Slot.item).Perm (mk.map Slot.item) := by
    rw [hR, List.map_reverse]
    refine (List.reverse_perm _).trans ?_
    rw [List.map_map]
    exact List.Perm.refl _
  have hpairsH : (pairs H').Perm (pairs un) := by
    refine (pairs_perm hperm).trans ?_
    rw [hH0]
    unfold pairs
    rw [List.map_map]
    exact List.Perm.refl _
  have hcntR : ∀ p : T → Bool, cnt p R = cnt p mk := by
    intro p
    have h1 : ∀ l : List (Slot T), cnt p l = (l.map Slot.item).countP p := by
      intro l
      unfold cnt
      rw [List.countP_map]
      rfl
    rw [h1, h1, hitemsR.countP_eq]
  have htot : g.totalWeightR = 0 := hu.tot0 hr
  refine ⟨⟨H' ++ gap :: R, false, g.h + g.r, u.n, un.length, 0, mk.length,
    g.totalWeightR + (mk.map Slot.weight).sum, 0⟩, ?_, ?_⟩
  · unfold Un.markMoving
    dsimp only
    rw [← hg, hh, hrs, ← hun, ← hmk, hmoved, List.length_nil, Nat.zero_add,
      if_neg (by omega), if_neg (by rw [htr, sub_self, abs_zero]; norm_num), ← hH0len, hheap,
      Outcome.ok_bind]
    rfl
  generalize hs : (⟨H' ++ gap :: R, false, g.h + g.r, u.n, un.length, 0, mk.length,
    g.totalWeightR + (mk.map Slot.weight).sum, 0⟩ : Sk T) = s
  have e_slots : s.slots = H' ++ gap :: R := by rw [← hs]
  have e_k : s.k = g.h := by rw [← hs]; show g.h + g.r = g.h; omega
  have e_h : s.h = un.length := by rw [← hs]
  have e_r : s.r = mk.length := by rw [← hs]
  have e_n : s.n = u.n := by rw [← hs]
  have e_m : s.m = 0 := by rw [← hs]
  have e_g : s.gadget = false := by rw [← hs]
  have e_t : s.totalWeightR = v * mk.length := by
    rw [← hs]
    show g.totalWeightR + _ = _
    rw [htot, zero_add, items_const hwt]
  obtain ⟨r1, r2⟩ := regions_of_split e_slots (by rw [hH'len, e_h]) (by rw [hRlen, e_r]) (by omega)
  have hmkq : (mk.length : ℚ) ≠ 0 := by exact_mod_cast (by omega : mk.length ≠ 0)
  have hmkp : (0 : ℚ) < mk.length := by exact_mod_cast hmkpos
  have hcount := hu.inv.count
  have hcount2 := hu.count
  rw [← hg] at hcount
  have hval : Valid s := by
    refine ⟨by omega, e_m, by rw [r1, hH'len, e_h], by rw [r2, hRlen, e_r], ?_, by omega,
      fun _ => by omega, fun _ => by rw [e_t]; exact mul_pos hvpos hmkp, by rw [e_n]; omega⟩
    rw [r1]
    intro x hx
    have hx' := hperm.mem_iff.1 hx
    rw [hH0] at hx'
    obtain ⟨y, hy, rfl⟩ := List.mem_map.1 hx'
    rw [hun, List.mem_filter] at hy
    exact w.pos y hy.1
  have hest : ∀ p, est p s = e p := by
    intro p
    rw [est_regions (by rw [r2, hRlen, e_r]), r1, r2, e_t, e_r, hcntR, mul_div_assoc,
      div_self hmkq, mul_one, ← wsum_const hwt, w.est p, ← filter_mark_partition g.slots p,
      ← psumOf_pairs, ← psumOf_pairs p (g.slots.filter fun x => !x.mark)]
    congr 1
    exact (hpairsH.map _).sum_eq
  have hsam : s.samples.Perm src := by
    have h1 : (R.map fun x => (x.item, s.totalWeightR / s.r)).Perm (pairs mk) := by
      have h2 : pairs mk = (mk.map Slot.item).map fun y => (y, s.totalWeightR / s.r) := by
        unfold pairs
        rw [List.map_map]
        refine List.map_congr_left fun x hx => ?_
        show (x.item, x.weight) = (x.item, s.totalWeightR / s.r)
        rw [hwt x hx, e_t, e_r, mul_div_assoc, div_self hmkq, mul_one]
      rw [h2]
      have h3 := hitemsR.map fun y => (y, s.totalWeightR / s.r)
      rw [List.map_map] at h3
      exact h3
    rw [hval.samples_eq, r1, r2, w.src]
    refine (hpairsH.append h1).trans ?_
    rw [← pairs_append]
    refine pairs_perm ?_
    have := List.filter_append_perm (fun x : Slot T => !x.mark) g.slots
    rw [hun, hmk]
    simpa using this
  refine ⟨⟨hval, ?_, e_n, e_g, hest _, (hsam.map Prod.fst).subperm⟩, hsam, hest⟩
  rw [e_k, ← hu.k]
  exact w.le

theorem result_spec (zero : T) {u : Un T} {src : List (T × ℚ)} {e : (T → Bool) → ℚ}
    (hu : UInv u src e) :
    All (Res u src e) (u.result zero) ∧ ∀ p, HasE (est p) (u.result zero) (e p) := by
  unfold Un.result
  by_cases h0 : u.gadget.numMarksInH = 0
  · rw [if_pos h0]
    obtain ⟨s, h1, h2, h3⟩ := simple_spec hu h0
    rw [h1, ofOutcome_ok]
    exact ⟨h2, fun p => (h3 p).symm⟩
  · rw [if_neg h0]
    by_cases hc : u.gadget.r = 0 ∧ u.gadget.numMarksInH > 0 ∧ u.gadget.numMarksInH = u.outerTauDenom
    · rw [if_neg (fun h => h hc)]
      have htau : u.gadget.tau = none := by
        unfold Sk.tau
        rw [if_pos hc.1]
      have hany : u.gadget.hSlots.any (fun x => ltTau x.weight u.gadget.tau && !x.mark) = false := by
        rw [htau, List.any_eq_false]
        intro x _
        simp [ltTau]
      rw [hany, if_neg (by simp)]
      obtain ⟨s, h1, h2, _, h3⟩ := markMoving_spec zero hu hc.1 h0 hc.2.2
      rw [h1, ofOutcome_ok]
      exact ⟨h2, fun p => (h3 p).symm⟩
    · rw [if_pos hc]
      refine migrate_spec hu h0 fun hr => ?_
      have b := hu.books hr
      rcases hu.inv with w | h
      · have hm := w.marks
        have h1 := b.le
        have h2 := b.some (by omega)
        have h3 : u.gadget.numMarksInH ≠ u.outerTauDenom := fun h => hc ⟨hr, by omega, h⟩
        have h4 := List.countP_le_length (p := Slot.mark) (l := u.gadget.slots)
        have h5 := w.len
        omega
      · exact absurd hr h.r_ne

end Verif.VarOpt
