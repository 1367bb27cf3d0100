import Verif.VarOptSpreadProps

/-!
# Second moments of the VarOpt union (lemmas of C119)
-/

namespace Verif.VarOpt

open Rand

variable {T : Type}

theorem prs_samples {s s' : Sk T} (h : s.samples.Perm s'.samples) (p : T → Bool) :
    prs p s = prs p s' := by
  unfold prs
  rw [est_psum, est_psum, psumOf_perm p h, sqOf_perm p h]

/-- As many samples as the sketch holds, with the right total, are its samples. -/
theorem EstI.samples_perm {s : Sk T} {src : List (T × ℚ)} {e : (T → Bool) → ℚ} (h : EstI s src e)
    (hlen : src.length ≤ s.k) (htot : e (fun _ => true) = psumOf (fun _ => true) src) :
    s.samples.Perm src := by
  obtain ⟨H, g, R, rest, rw', c⟩ := h
  have hrl : rw'.length = R.length := by
    have := congrArg List.length c.items
    simpa using this
  have hperm : (pairs H ++ rw').Perm src := by
    refine c.sub.perm_of_length_le ?_
    simp only [List.length_append, pairs, List.length_map, hrl]
    have := c.full; have := c.hlen; have := c.rlen
    omega
  have hr0 : (s.r : ℚ) ≠ 0 := by exact_mod_cast (by have := c.r1; omega : s.r ≠ 0)
  have hforced : ∀ q ∈ rw', q.2 = s.totalWeightR / s.r := by
    refine forced_tau (fun q hq => (c.light q hq).2) ?_
    have h5 := psumOf_perm (fun _ => true) hperm
    rw [psumOf_append, psumOf_pairs, ← htot, c.est, cnt_true, c.rlen] at h5
    rw [hrl, c.rlen]
    linarith
  have hrw : rw' = R.map fun x => (x.item, s.totalWeightR / s.r) := by
    have h6 : rw' = (rw'.map Prod.fst).map fun x => (x, s.totalWeightR / s.r) := by
      rw [List.map_map]
      conv_lhs => rw [← List.map_id rw']
      refine List.map_congr_left fun q hq => ?_
      show q = (q.1, s.totalWeightR / s.r)
      rw [← hforced q hq]
    rw [h6, c.items, List.map_map]
    rfl
  rw [c.samples_eq, ← hrw]
  exact hperm

theorem EstI.own {s : Sk T} {src : List (T × ℚ)} {e : (T → Bool) → ℚ} (h : EstI s src e) :
    EstI s s.samples e ∧ s.samples.length = s.k ∧ e (fun _ => true) = psumOf (fun _ => true) s.samples := by
  obtain ⟨H, g, R, rest, rw', c⟩ := h
  have htp : 0 < s.totalWeightR / s.r := div_pos c.tot (by exact_mod_cast c.r1)
  have c0 : Est s s.samples e H g R rest (R.map fun x => (x.item, s.totalWeightR / s.r)) :=
    ⟨c.slots, c.hlen, c.m0, c.rlen, c.full, c.r1, c.tot, c.heap, c.hge, c.marks,
      by rw [List.map_map]; rfl, by
        intro q hq
        obtain ⟨y, hy, rfl⟩ := List.mem_map.1 hq
        exact ⟨htp, le_refl _⟩,
      by rw [c.samples_eq], c.est⟩
  refine ⟨⟨_, _, _, _, _, c0⟩, ?_, ?_⟩
  · rw [c.samples_eq]
    simp only [List.length_append, pairs, List.length_map]
    have := c.hlen; have := c.rlen; have := c.full
    omega
  · rw [← est_psum, c.est_eq]

theorem decreaseK_est_prs {s : Sk T} {src : List (T × ℚ)} {e : (T → Bool) → ℚ} (h : EstI s src e)
    (hg : s.gadget = true) (hh : s.h > 0) (p : T → Bool) :
    ELe (prs p) (decreaseK s) (prs p s) ∧ Total (decreaseK s) := by
  obtain ⟨ho, hlen, htot⟩ := h.own
  obtain ⟨s', x, src', e', h1, hx, hi, he, hs, hk, hn', hg', hl'⟩ := pullFromH_ok ho hg hh
  have hr := h.r_ne
  have hk2 : 2 ≤ s.k := by
    obtain ⟨H, g, R, rest, rw', c⟩ := h
    have := c.full; have := c.r1
    omega
  have heq : decreaseK s = update s' x := by
    unfold decreaseK
    rw [if_neg (by omega), if_neg (by omega), if_neg hr, if_pos hh, h1, ofOutcome_ok, ret_bind]
  rw [heq]
  have hle := hs.length_le
  have hadd : (srcAdd src' x).length = src'.length + 1 := by unfold srcAdd; simp
  have hge : s'.k ≤ src'.length := by
    obtain ⟨H, g, R, rest, rw', c⟩ := hi
    have h2 := c.sub.length_le
    have hrl : rw'.length = R.length := by
      have := congrArg List.length c.items
      simpa using this
    simp only [List.length_append, pairs, List.length_map, hrl] at h2
    have := c.full; have := c.hlen; have := c.rlen
    omega
  have hp : (srcAdd src' x).Perm s.samples := hs.perm_of_length_le (by omega)
  have hs' : s'.samples.Perm src' := by
    refine hi.samples_perm (by omega) ?_
    have h2 := he fun _ => true
    have h3 := psumOf_perm (fun _ => true) hp
    rw [← htot, ← h2] at h3
    unfold srcAdd at h3
    rw [psumOf_append] at h3
    unfold estAdd at h3
    simp [psumOf] at h3 ⊢
    linarith
  have hperm : (s'.samples ++ [(x.item, x.weight)]).Perm s.samples :=
    (hs'.append_right _).trans hp
  obtain ⟨h4, h5⟩ := update_prs (Or.inr hi) hx p
  refine ⟨h4.mono (le_of_eq ?_), h5⟩
  unfold prs
  rw [est_psum, est_psum, ← psumOf_perm p hperm, ← sqOf_perm p hperm, psumOf_append, sqOf_append]
  by_cases hpx : p x.item = true
  · simp [psumOf, sqOf, hpx]
    ring
  · simp [psumOf, sqOf, hpx]

theorem decreaseK_warm_prs {s : Sk T}
    (hk : 2 ≤ s.k) (hm : s.m = 0) (hr : s.r = 0) (hlen : s.slots.length = s.h) (hh : s.h = s.k)
    (hpos : ∀ x ∈ s.slots, 0 < x.weight)
    (hmarks : s.numMarksInH = s.slots.countP Slot.mark) (p : T → Bool) :
    ELe (prs p) (decreaseK s) (psumOf p (pairs s.slots) ^ 2 - sqOf p (pairs s.slots)) ∧
      Total (decreaseK s) := by
  have hE := (decreaseK_warm hk hm hr hlen hh hpos hmarks rfl (fun _ => rfl)).2 p
  have heq : decreaseK s = transitionFromWarmup { s with k := s.k - 1 } := by
    unfold decreaseK
    rw [if_neg (by omega), if_neg (by omega), if_pos hr, if_pos (by omega)]
  obtain ⟨s', wM, h1, h2, h3, h4⟩ := transitionPrep_ok (s := { s with k := s.k - 1 })
    (by show 1 ≤ s.k - 1; omega) hm hr hlen (by show s.h = s.k - 1 + 1; omega) hpos (fun _ => hmarks)
  have hu : decreaseK s = growCandidateSet s' (wM + s'.totalWeightR) 2 := by
    rw [heq]
    unfold transitionFromWarmup
    rw [h1, ofOutcome_ok, ret_bind]
  rw [hu] at hE ⊢
  obtain ⟨Hs, Cs, tau, st, ho, ht⟩ := grow_step h4 (by omega) (by
      have hk' : s'.k = s.k - 1 := h2.k
      rw [hk']
      unfold pairs
      rw [List.length_map, hlen]
      omega) (by
      dsimp only
      rw [psumOf_pairs])
  rw [← psumOf_pairs] at hE
  exact ⟨out_prs st ho p hE, ht⟩

theorem absorbMarks_prs (p : T → Bool) : ∀ (fuel : Nat) {s : Sk T} {src : List (T × ℚ)}
    {e : (T → Bool) → ℚ}, EstI s src e → s.gadget = true → 0 < s.n → s.k < fuel →
    ELe (prs p) (absorbMarks fuel s) (prs p s) ∧ Total (absorbMarks fuel s) := by
  intro fuel
  induction fuel with
  | zero => intro s src e _ _ _ h; omega
  | succ fuel ih =>
    intro s src e h hg hn hf
    rw [absorbMarks]
    by_cases hm : s.numMarksInH > 0
    · rw [if_pos hm]
      obtain ⟨ha, hE⟩ := decreaseK_est h hg (marks_pos_h h hg hm) hn
      obtain ⟨hp, ht⟩ := decreaseK_est_prs h hg (marks_pos_h h hg hm) p
      have hih : All (fun t => ELe (prs p) (absorbMarks fuel t) (prs p t) ∧
          Total (absorbMarks fuel t)) (decreaseK s) := by
        refine ha.mono fun t ht => ?_
        obtain ⟨e', hi, hte⟩ := ht.inv
        exact ih hi (by rw [ht.gadget, hg]) (by rw [ht.n]; exact hn) (by have := ht.k; omega)
      exact ⟨hp.bind (hih.mono fun t h => h.1), total_bind ht (hih.mono fun t h => h.2)⟩
    · rw [if_neg hm]
      exact ⟨(HasE.ret (f := prs p)).eLe, fun f => ⟨f s, rfl⟩⟩

theorem finishMigrate_prs (p : T → Bool) {s : Sk T} {src : List (T × ℚ)} {e : (T → Bool) → ℚ}
    (h : EstI s src e) (hg : s.gadget = true) (hn : 0 < s.n) :
    ELe (prs p) (finishMigrate s) (prs p s) ∧ Total (finishMigrate s) := by
  have htau : ¬ s.totalWeightR / s.r = 0 := by
    obtain ⟨H, g, R, rest, rw', c⟩ := h
    exact ne_of_gt (div_pos c.tot (by exact_mod_cast c.r1))
  unfold finishMigrate
  rw [if_neg h.r_ne, if_neg htau]
  obtain ⟨ha, _⟩ := absorbMarks_spec (s.k + 1) h hg hn (by omega)
  obtain ⟨hp, ht⟩ := absorbMarks_prs p (s.k + 1) h hg hn (by omega)
  refine ⟨hp.bind (ha.mono fun t _ => ?_), total_bind ht (ha.mono fun t _ f => ⟨_, rfl⟩)⟩
  exact (HasE.ret (f := prs p) (a := { t with numMarksInH := 0, gadget := false })).eLe

theorem migrate_prs (p : T → Bool) {u : Un T} {src : List (T × ℚ)} {e : (T → Bool) → ℚ}
    (hu : UInv u src e) (hm : u.gadget.numMarksInH ≠ 0)
    (h2 : u.gadget.r = 0 → 2 ≤ u.gadget.h) :
    ELe (prs p) u.migrate (prs p u.gadget) ∧ Total u.migrate := by
  have hl : lengthsOk u.gadget := by
    unfold lengthsOk
    rcases hu.inv with w | h
    · exact Or.inl ⟨w.r0, w.len⟩
    · refine Or.inr ⟨Nat.pos_of_ne_zero h.r_ne, hu.tight h.r_ne⟩
  have hk2 : 2 ≤ u.migrateCopy.k ∧ u.migrateCopy.k ≤ u.gadget.k := by
    show 2 ≤ (if u.gadget.r = 0 ∧ u.gadget.h < u.gadget.k then u.gadget.h else u.gadget.k) ∧
      (if u.gadget.r = 0 ∧ u.gadget.h < u.gadget.k then u.gadget.h else u.gadget.k) ≤ u.gadget.k
    rcases hu.inv with w | h
    · have h3 := h2 w.r0
      have h4 := w.le
      split <;> omega
    · rw [if_neg (fun h' => h.r_ne h'.1)]
      have h3 := marks_pos_h h hu.gadget (Nat.pos_of_ne_zero hm)
      obtain ⟨H, g, R, rest, rw', c⟩ := h
      have := c.full; have := c.r1
      omega
  have hnp : 0 < u.n := by
    have h1 := hu.inv.count
    have h3 := hu.count
    by_cases hr : u.gadget.r = 0
    · have := h2 hr; omega
    · omega
  have hdec : All (Dec u.migrateCopy src e) (decreaseK u.migrateCopy) ∧
      ELe (prs p) (decreaseK u.migrateCopy) (prs p u.gadget) ∧ Total (decreaseK u.migrateCopy) := by
    rcases hu.inv with w | h
    · have hk : u.migrateCopy.k = u.gadget.h := by
        show (if u.gadget.r = 0 ∧ u.gadget.h < u.gadget.k then u.gadget.h else u.gadget.k) = u.gadget.h
        have h4 := w.le
        split
        · rfl
        · rename_i hh
          have := w.r0
          omega
      refine ⟨(decreaseK_warm hk2.1 rfl w.r0 w.len hk.symm w.pos w.marks w.src w.est).1, ?_⟩
      have h5 := decreaseK_warm_prs (s := u.migrateCopy) hk2.1 rfl w.r0 w.len hk.symm w.pos w.marks p
      have h6 : prs p u.gadget
          = psumOf p (pairs u.migrateCopy.slots) ^ 2 - sqOf p (pairs u.migrateCopy.slots) := by
        unfold prs
        rw [est_psum, w.samples_eq, w.src]
        rfl
      rw [h6]
      exact h5
    · have hhp' := marks_pos_h h hu.gadget (Nat.pos_of_ne_zero hm)
      have hhp : u.migrateCopy.h > 0 := hhp'
      have hkk : u.migrateCopy.k = u.gadget.k := by
        show (if u.gadget.r = 0 ∧ u.gadget.h < u.gadget.k then u.gadget.h else u.gadget.k) = u.gadget.k
        rw [if_neg]
        have := h.r_ne
        omega
      have hcopy : EstI u.migrateCopy src e := by
        obtain ⟨H, g, R, rest, rw', c⟩ := h
        exact ⟨H, g, R, rest, rw', ⟨c.slots, c.hlen, rfl, c.rlen, by rw [hkk]; exact c.full, c.r1, c.tot,
          c.heap, c.hge, c.marks, c.items, c.light, c.sub, c.est⟩⟩
      have hsam : u.migrateCopy.samples = u.gadget.samples := by
        obtain ⟨H, g, R, rest, rw', c⟩ := h
        obtain ⟨H', g', R', rest', rw'', c'⟩ := hcopy
        have e1 : u.migrateCopy.hSlots = u.gadget.hSlots := rfl
        have e2 : u.migrateCopy.rSlots = u.gadget.rSlots := by
          unfold Sk.rSlots Sk.numSamples
          rw [hkk]
          rfl
        unfold Sk.samples
        rw [e1, e2]
        rfl
      refine ⟨(decreaseK_est hcopy hu.gadget hhp hnp).1, ?_⟩
      rw [← prs_samples (s := u.migrateCopy) (s' := u.gadget) (by rw [hsam]) p]
      exact decreaseK_est_prs hcopy hu.gadget hhp p
  have heq : u.migrate = (decreaseK u.migrateCopy >>= finishMigrate) := by
    unfold Un.migrate
    rw [if_neg (by omega), if_neg (fun h => h hl), if_neg, if_neg (by omega)]
    intro h
    apply h
    rcases hu.inv with w | ⟨H, g, R, rest, rw', c⟩
    · exact Or.inl w.r0
    · exact Or.inr c.full.symm
  obtain ⟨ha, hp, ht⟩ := hdec
  rw [heq]
  have hfin : All (fun t => ELe (prs p) (finishMigrate t) (prs p t) ∧ Total (finishMigrate t))
      (decreaseK u.migrateCopy) := by
    refine ha.mono fun t ht => ?_
    obtain ⟨e', hi, hte⟩ := ht.inv
    exact finishMigrate_prs p hi (by rw [ht.gadget]; exact hu.gadget) (by rw [ht.n]; exact hnp)
  exact ⟨hp.bind (hfin.mono fun t h => h.1), total_bind ht (hfin.mono fun t h => h.2)⟩

theorem result_prs (p : T → Bool) (zero : T) {u : Un T} {src : List (T × ℚ)}
    {e : (T → Bool) → ℚ} (hu : UInv u src e) :
    ELe (prs p) (u.result zero) (prs p u.gadget) ∧ Total (u.result zero) := by
  unfold Un.result
  by_cases h0 : u.gadget.numMarksInH = 0
  · rw [if_pos h0]
    have hl : lengthsOk u.gadget := by
      unfold lengthsOk
      rcases hu.inv with w | h
      · exact Or.inl ⟨w.r0, w.len⟩
      · refine Or.inr ⟨Nat.pos_of_ne_zero h.r_ne, hu.tight h.r_ne⟩
    have hs : u.simple = .ok { u.gadget with gadget := false, n := u.n, m := 0, numMarksInH := 0 } := by
      unfold Un.simple
      rw [if_neg (fun h => h hl)]
    rw [hs, ofOutcome_ok]
    exact ⟨(HasE.ret (f := prs p)).eLe, fun f => ⟨_, rfl⟩⟩
  · rw [if_neg h0]
    by_cases hc : u.gadget.r = 0 ∧ u.gadget.numMarksInH > 0 ∧ u.gadget.numMarksInH = u.outerTauDenom
    · rw [if_neg (fun h => h hc)]
      have htau : u.gadget.tau = none := by
        unfold Sk.tau
        rw [if_pos hc.1]
      have hany : u.gadget.hSlots.any (fun x => ltTau x.weight u.gadget.tau && !x.mark) = false := by
        rw [htau, List.any_eq_false]
        intro x _
        simp [ltTau]
      rw [hany, if_neg (by simp)]
      obtain ⟨s, h1, _, h3, _⟩ := markMoving_spec zero hu hc.1 h0 hc.2.2
      rw [h1, ofOutcome_ok]
      refine ⟨(HasE.ret (f := prs p)).eLe.mono (le_of_eq ?_), fun f => ⟨_, rfl⟩⟩
      refine prs_samples ?_ p
      rcases hu.inv with w | h
      · rw [w.samples_eq]
        exact h3
      · exact absurd hc.1 h.r_ne
    · rw [if_pos hc]
      refine migrate_prs p hu h0 fun hr => ?_
      have b := hu.books hr
      rcases hu.inv with w | h
      · have hm := w.marks
        have h1 := b.le
        have h2 := b.some (by omega)
        have h3 : u.gadget.numMarksInH ≠ u.outerTauDenom := fun h => hc ⟨hr, by omega, h⟩
        have h4 := List.countP_le_length (p := Slot.mark) (l := u.gadget.slots)
        have h5 := w.len
        omega
      · exact absurd hr h.r_ne

theorem Absorbs.prs (p : T → Bool) {u : Un T} {src l : List (T × ℚ)} {e : (T → Bool) → ℚ}
    (hu : UInv u src e) {n : Nat} {t : Rand (Un T)} (h : Absorbs u n l t) :
    ELe (fun u' : Un T => prs p u'.gadget) t
        (prs p u.gadget + 2 * est p u.gadget * psumOf p l + (psumOf p l ^ 2 - sqOf p l)) ∧
      Total t := by
  obtain ⟨l1, l2, tot, r, rfl, rfl, hp1, hp2, _, _, _⟩ := h
  obtain ⟨ha1, hE1⟩ := insertAll_spec false l1 hu.inv hp1
  obtain ⟨q1, t1⟩ := insertAll_prs false p l1 hu.inv hp1
  have h2 : All (fun g1 => (ELe (VarOpt.prs p) (insertAll true g1 l2)
      (VarOpt.prs p g1 + 2 * est p g1 * psumOf p l2 + (psumOf p l2 ^ 2 - sqOf p l2)) ∧
      Total (insertAll true g1 l2)) ∧ All (fun _ => True) (insertAll true g1 l2))
      (insertAll false u.gadget l1) := by
    refine ha1.mono fun g1 i1 => ?_
    obtain ⟨e1, hi1, he1⟩ := i1.inv
    exact ⟨insertAll_prs true p l2 hi1 hp2, (insertAll_spec true l2 hi1 hp2).1.mono fun _ _ => trivial⟩
  have hfin : ∀ g : Sk T, ELe (fun u' : Un T => VarOpt.prs p u'.gadget)
      (.ret (if r > 0 then Un.noteTau { u with gadget := g, n := u.n + n } tot r (tot / r)
        else { u with gadget := g, n := u.n + n })) (VarOpt.prs p g) := by
    intro g
    refine (HasE.ret (f := fun u' : Un T => VarOpt.prs p u'.gadget)).eLe.mono (le_of_eq ?_)
    by_cases hr : r > 0
    · rw [if_pos hr, (noteTau_gadget _ _ _ _).1]
    · rw [if_neg hr]
  unfold absorb
  constructor
  · have h3 := q1.add ((hE1 p).affine (2 * psumOf p l2) (psumOf p l2 ^ 2 - sqOf p l2)).eLe
    rw [← hu.inv.est_eq p] at h3
    have he : VarOpt.prs p u.gadget + 2 * est p u.gadget * psumOf p l1 + (psumOf p l1 ^ 2 - sqOf p l1)
        + (2 * psumOf p l2 * (est p u.gadget + psumOf p l1) + (psumOf p l2 ^ 2 - sqOf p l2))
        = VarOpt.prs p u.gadget + 2 * est p u.gadget * psumOf p (l1 ++ l2)
          + (psumOf p (l1 ++ l2) ^ 2 - sqOf p (l1 ++ l2)) := by
      rw [psumOf_append, sqOf_append]
      ring
    rw [he] at h3
    refine h3.bind (h2.mono fun g1 hg1 => ?_)
    refine (hg1.1.1.mono (le_of_eq (by ring))).bind (hg1.2.mono fun g2 _ => hfin g2)
  · refine total_bind t1 (h2.mono fun g1 hg1 => total_bind hg1.1.2 (hg1.2.mono fun g2 _ f => ⟨_, rfl⟩))

end Verif.VarOpt
