import Verif.VarOptProps
import Verif.RandEx

/-!
# Second moments of the VarOpt sketch (lemmas of C117)

One update of a full sketch seen through its samples: the samples and the new item are divided into
heavy ones, which stay, and candidates, of which exactly one goes; the others now weigh the new
threshold (`Step`, `Out`).
-/

namespace Verif.VarOpt

open Rand

variable {T : Type}

/-! ## Sums over pairs -/

/-- The squared weights of the matching pairs. -/
def sqOf (p : T → Bool) (l : List (T × ℚ)) : ℚ := (l.map fun q => if p q.1 then q.2 ^ 2 else 0).sum

theorem sqOf_cons (p : T → Bool) (q : T × ℚ) (l : List (T × ℚ)) :
    sqOf p (q :: l) = (if p q.1 then q.2 ^ 2 else 0) + sqOf p l := by simp [sqOf]

theorem sqOf_append (p : T → Bool) (l l' : List (T × ℚ)) :
    sqOf p (l ++ l') = sqOf p l + sqOf p l' := by simp [sqOf]

theorem sqOf_perm (p : T → Bool) {l l' : List (T × ℚ)} (h : l.Perm l') : sqOf p l = sqOf p l' :=
  (h.map _).sum_eq

theorem psumOf_perm (p : T → Bool) {l l' : List (T × ℚ)} (h : l.Perm l') :
    psumOf p l = psumOf p l' := (h.map _).sum_eq

theorem sqOf_const (p : T → Bool) (v : ℚ) (l : List (Slot T)) :
    sqOf p (l.map fun x => (x.item, v)) = v ^ 2 * cnt p l := by
  induction l with
  | nil => simp [sqOf, cnt]
  | cons x l ih =>
    rw [List.map_cons, sqOf_cons, ih, cnt_cons]
    dsimp only
    split <;> push_cast <;> ring

theorem est_psum (p : T → Bool) (s : Sk T) : est p s = psumOf p s.samples := by
  rw [est_eq_weightOf, psumOf_eq]

/-- Weights of at most `tau` whose mean is `tau` are all `tau`. -/
theorem forced_tau {tau : ℚ} : ∀ {l : List (T × ℚ)}, (∀ q ∈ l, q.2 ≤ tau) →
    psumOf (fun _ => true) l = l.length * tau → ∀ q ∈ l, q.2 = tau := by
  intro l
  have hle : ∀ l : List (T × ℚ), (∀ q ∈ l, q.2 ≤ tau) →
      psumOf (fun _ => true) l ≤ l.length * tau := by
    intro l
    induction l with
    | nil => intro _; simp [psumOf]
    | cons q l ih =>
      intro h
      have h1 := h q (by simp)
      have h2 := ih fun q' h' => h q' (by simp [h'])
      rw [psumOf_cons, List.length_cons, if_pos rfl]
      push_cast
      linarith
  induction l with
  | nil => intro _ _ q hq; simp at hq
  | cons q l ih =>
    intro h hs
    have h1 := h q (by simp)
    have hl : ∀ q' ∈ l, q'.2 ≤ tau := fun q' h' => h q' (by simp [h'])
    have h2 := hle l hl
    rw [psumOf_cons, List.length_cons, if_pos rfl] at hs
    push_cast at hs
    intro q' hq'
    rcases List.mem_cons.1 hq' with rfl | hq'
    · linarith
    · exact ih hl (by linarith) q' hq'

/-- The sum of squares of the distances to `tau` is at most the square of their sum. -/
theorem dist_sq (p : T → Bool) {tau : ℚ} : ∀ {l : List (T × ℚ)}, (∀ q ∈ l, q.2 ≤ tau) →
    0 ≤ tau * (l.countP fun q => p q.1) - psumOf p l ∧
    tau ^ 2 * (l.countP fun q => p q.1) - 2 * tau * psumOf p l + sqOf p l
      ≤ (tau * (l.countP fun q => p q.1) - psumOf p l) ^ 2 := by
  intro l
  induction l with
  | nil => intro _; simp [psumOf, sqOf]
  | cons q l ih =>
    intro h
    have h1 := h q (by simp)
    obtain ⟨h2, h3⟩ := ih fun q' h' => h q' (by simp [h'])
    rw [List.countP_cons, psumOf_cons, sqOf_cons]
    by_cases hp : p q.1 = true
    · simp only [hp, if_true]
      push_cast
      constructor
      · linarith
      · nlinarith [mul_nonneg h2 (sub_nonneg.2 h1)]
    · simp only [hp]
      push_cast
      simp only [add_zero, zero_add]
      exact ⟨h2, h3⟩

/-! ## One update of a full sketch -/

/-- The samples together with the new item, `src`, are divided into heavy ones and candidates. -/
structure Step (src Hs Cs : List (T × ℚ)) (tau : ℚ) : Prop where
  perm : (Hs ++ Cs).Perm src
  pos : 0 < tau
  two : 2 ≤ Cs.length
  light : ∀ c ∈ Cs, 0 < c.2 ∧ c.2 ≤ tau
  heavy : ∀ c ∈ Hs, tau ≤ c.2

/-- What is left: the heavy ones with their weights, and all candidates but one (`gone` tells
whether that one matches) with the weight `tau`. -/
structure Out (Hs Cs : List (T × ℚ)) (tau : ℚ) (s : Sk T) : Prop where
  r : s.r ≠ 0
  thr : s.totalWeightR / s.r = tau
  heavy : pairs s.hSlots = Hs
  gone : ∃ gone : (T → Bool) → ℚ, ∀ p, (gone p = 0 ∨ gone p = 1) ∧
    est p s = psumOf p Hs + tau * (((Cs.countP fun q => p q.1 : Nat) : ℚ) - gone p) ∧
    sqOf p s.samples = sqOf p Hs + tau ^ 2 * (((Cs.countP fun q => p q.1 : Nat) : ℚ) - gone p)

theorem countP_pairs (p : T → Bool) (l : List (Slot T)) :
    (pairs l).countP (fun q => p q.1) = cnt p l := by
  unfold pairs cnt
  rw [List.countP_map]
  rfl

theorem countP_const (p : T → Bool) (v : ℚ) (l : List (Slot T)) :
    (l.map fun x => (x.item, v)).countP (fun q => p q.1) = cnt p l := by
  unfold cnt
  rw [List.countP_map]
  rfl

theorem hit_cases (p : T → Bool) (l : List (Slot T)) (d : Nat) : hit p l d = 0 ∨ hit p l d = 1 := by
  unfold hit
  split
  · split
    · exact Or.inr rfl
    · exact Or.inl rfl
  · exact Or.inl rfl

theorem cnt_true (l : List (Slot T)) : cnt (fun _ => true) l = l.length := by unfold cnt; simp

theorem grow_step {s : Sk T} {W : ℚ} {N : Nat} {src : List (T × ℚ)} {e : (T → Bool) → ℚ}
    (hc : CandI s W N src e) (hm : s.m ≤ 1) (hlen : src.length = s.k + 1)
    (htot : e (fun _ => true) = psumOf (fun _ => true) src) :
    ∃ Hs Cs tau, Step src Hs Cs tau ∧ All (Out Hs Cs tau) (growCandidateSet s W N) ∧
      Total (growCandidateSet s W N) := by
  have hg : ¬ (s.h + s.m + s.r ≠ s.k + 1 ∨ N < 1 ∨ N ≠ s.m + s.r ∨ s.m ≥ 2) := by
    obtain ⟨H, M, R, rest, rw', c⟩ := hc
    have := c.full; have := c.num; have := c.two
    omega
  obtain ⟨s1, W1, N1, h1, h2, h3, h4⟩ := growLoop_ok (s.h + 1) s W N hc (by omega)
  have heq : growCandidateSet s W N = downsample s1 W1 N1 := by
    unfold growCandidateSet
    rw [if_neg hg, h1, ofOutcome_ok, ret_bind]
  rw [heq]
  obtain ⟨H, M, R, rest, rw', c⟩ := h3
  have hrl : rw'.length = R.length := by
    have := congrArg List.length c.items
    simpa using this
  have hperm : (pairs H ++ (pairs M ++ rw')).Perm src := by
    refine c.sub.perm_of_length_le ?_
    rw [hlen]
    simp only [List.length_append, pairs, List.length_map, hrl]
    have := c.full; have := c.num; have := c.hlen; have := c.mlen; have := c.rlen; have := h2.k
    omega
  have hr0 : (s1.r : ℚ) ≠ 0 := by exact_mod_cast (by have := c.r1; omega : s1.r ≠ 0)
  have hforced : ∀ q ∈ rw', q.2 = s1.totalWeightR / s1.r := by
    refine forced_tau (fun q hq => (c.light q hq).2) ?_
    have h5 := psumOf_perm (fun _ => true) hperm
    rw [psumOf_append, psumOf_append, psumOf_pairs, psumOf_pairs, ← htot, c.est, cnt_true, c.rlen] at h5
    rw [hrl, c.rlen]
    linarith
  have hrw : rw' = R.map fun x => (x.item, s1.totalWeightR / s1.r) := by
    have h6 : rw' = (rw'.map Prod.fst).map fun x => (x, s1.totalWeightR / s1.r) := by
      rw [List.map_map]
      conv_lhs => rw [← List.map_id rw']
      refine List.map_congr_left fun q hq => ?_
      show q = (q.1, s1.totalWeightR / s1.r)
      rw [← hforced q hq]
    rw [h6, c.items, List.map_map]
    rfl
  subst hrw
  have hN := c.N1_pos
  have htau : 0 < W1 / ((N1 : ℚ) - 1) := div_pos c.W_pos hN
  have hNq : ((N1 - 1 : Nat) : ℚ) = (N1 : ℚ) - 1 := by
    have := c.two
    rw [Nat.cast_sub (by omega)]
    norm_num
  have hdown : downsample s1 W1 N1
      = (chooseDeleteSlot s1 W1 N1 >>= fun d => ofOutcome (finishDownsample s1 W1 N1 d)) := by
    unfold downsample
    rw [if_neg (by have := c.two; have := c.full; omega)]
  refine ⟨pairs H, pairs M ++ R.map fun x => (x.item, s1.totalWeightR / s1.r), W1 / ((N1 : ℚ) - 1),
    ⟨hperm, htau, ?_, ?_, ?_⟩, ?_, ?_⟩
  · simp only [List.length_append, pairs, List.length_map]
    have := c.mlen; have := c.rlen; have := c.num; have := c.two
    omega
  · intro q hq
    rw [le_div_iff₀ hN]
    rcases List.mem_append.1 hq with hq | hq
    · obtain ⟨y, hy, rfl⟩ := List.mem_map.1 hq
      have := c.mcand y hy
      exact ⟨c.mpos y hy, by dsimp only; linarith⟩
    · obtain ⟨y, hy, rfl⟩ := List.mem_map.1 hq
      have := c.rcand
      exact ⟨c.tau_pos, by dsimp only; linarith⟩
  · intro q hq
    obtain ⟨y, hy, rfl⟩ := List.mem_map.1 hq
    exact h4 H _ c.slots c.hlen y hy
  · rw [hdown]
    refine c.choose_all.bind fun d hd => ?_
    obtain ⟨s', e', g1, g2, g3, g4, g5, g6, g7, g8⟩ := finishDownsample_ok c h4 hd.1 hd.2
    rw [g1, ofOutcome_ok]
    obtain ⟨H', g', R', rest', rw'', c'⟩ := g3
    have hH : H' = H := by
      rw [← g8, c'.slots, ← c'.hlen, List.take_left]
    have ht : s'.totalWeightR / s'.r = W1 / ((N1 : ℚ) - 1) := by rw [g5, g6, hNq]
    refine ⟨by have := c'.r1; omega, ht, ?_, fun p => hit p s1.slots d, fun p => ⟨hit_cases _ _ _, ?_, ?_⟩⟩
    · unfold Sk.hSlots
      rw [g8]
    · rw [c'.est_eq p, g4 p, List.countP_append, countP_pairs, countP_const, ← cnt_append, psumOf_pairs]
      ring
    · have h7 := c'.est p
      rw [g4 p, ht, hH] at h7
      have h8 : ((cnt p R' : Nat) : ℚ) = (cnt p (M ++ R) : ℚ) - hit p s1.slots d := by
        have h9 : W1 / ((N1 : ℚ) - 1) * ((cnt p (M ++ R) : ℚ) - hit p s1.slots d)
            = W1 / ((N1 : ℚ) - 1) * (cnt p R' : ℚ) := by linarith
        exact (mul_left_cancel₀ (ne_of_gt htau) h9).symm
      rw [c'.samples_eq, sqOf_append, sqOf_const, ht, hH, h8, List.countP_append, countP_pairs,
        countP_const, ← cnt_append]
  · intro f
    rw [hdown]
    refine ⟨_, (c.choose_E fun d => match finishDownsample s1 W1 N1 d with
      | .ok s' => f s'
      | _ => 0).bind (c.choose_all.mono fun d hd => ?_)⟩
    obtain ⟨s', e', g1, _⟩ := finishDownsample_ok c h4 hd.1 hd.2
    rw [g1, ofOutcome_ok]
    rfl

theorem update_est_step {s : Sk T} {src : List (T × ℚ)} {e : (T → Bool) → ℚ} (h : EstI s src e)
    {x : Slot T} (hx : 0 < x.weight) :
    ∃ Hs Cs tau, Step (s.samples ++ [(x.item, x.weight)]) Hs Cs tau ∧
      All (Out Hs Cs tau) (update s x) ∧ Total (update s x) := by
  obtain ⟨H, g, R, rest, rw', c⟩ := h
  have htp : 0 < s.totalWeightR / s.r := div_pos c.tot (by exact_mod_cast c.r1)
  have c0 : Est s s.samples e H g R rest (R.map fun x => (x.item, s.totalWeightR / s.r)) :=
    ⟨c.slots, c.hlen, c.m0, c.rlen, c.full, c.r1, c.tot, c.heap, c.hge, c.marks,
      by rw [List.map_map]; rfl, by
        intro q hq
        obtain ⟨y, hy, rfl⟩ := List.mem_map.1 hq
        exact ⟨htp, le_refl _⟩,
      by rw [c.samples_eq], c.est⟩
  obtain ⟨s1, W, N, h1, h2, h3, h4⟩ := updateCore_spec ⟨_, _, _, _, _, c0⟩ hx
  have hu : update s x = growCandidateSet s1 W N := by
    unfold update
    rw [if_neg (not_le.2 hx), h1]
  rw [hu]
  refine grow_step h4 h3 ?_ ?_
  · have hk : s1.k = s.k := h2.k
    rw [hk]
    rw [c.samples_eq]
    simp only [List.length_append, pairs, List.length_map, List.length_singleton]
    have := c.hlen; have := c.rlen; have := c.full
    omega
  · rw [estAdd_true, ← c.est_eq (fun _ => true), est_psum]
    rw [psumOf_append]
    simp [psumOf]

theorem update_full_step {s : Sk T} {src : List (T × ℚ)} {e : (T → Bool) → ℚ} (w : Warm s src e)
    (hk : s.h + 1 > s.k) {x : Slot T} (hx : 0 < x.weight) :
    ∃ Hs Cs tau, Step (s.samples ++ [(x.item, x.weight)]) Hs Cs tau ∧
      All (Out Hs Cs tau) (update s x) ∧ Total (update s x) := by
  obtain ⟨hl, hp, hm, hs, he⟩ := w.next hx
  obtain ⟨s', wM, h1, h2, h3, h4⟩ := transitionPrep_ok (s := { s with
      slots := s.slots ++ [x]
      n := s.n + 1
      h := s.h + 1
      numMarksInH := if x.mark then s.numMarksInH + 1 else s.numMarksInH })
    w.k1 w.m0 w.r0 hl (by have := w.le; show s.h + 1 = s.k + 1; omega) hp (fun _ => hm)
  have hu : update s x = growCandidateSet s' (wM + s'.totalWeightR) 2 := by
    unfold update
    rw [if_neg (not_le.2 hx)]
    unfold updateCore
    simp only [if_pos w.r0]
    unfold updateWarmup
    dsimp only
    rw [if_pos hk]
    unfold transitionFromWarmup
    rw [h1, ofOutcome_ok, ret_bind]
  rw [hu, w.samples_eq]
  have hs' : pairs (s.slots ++ [x]) = src ++ [(x.item, x.weight)] := hs
  rw [← hs']
  refine grow_step h4 (by omega) ?_ ?_
  · have hk' : s'.k = s.k := h2.k
    rw [hk']
    unfold pairs
    rw [List.length_map, hl]
    have := w.le
    omega
  · dsimp only
    rw [psumOf_pairs]

theorem update_room {s : Sk T} {src : List (T × ℚ)} {e : (T → Bool) → ℚ} (w : Warm s src e)
    (hk : ¬ s.h + 1 > s.k) {x : Slot T} (hx : 0 < x.weight) :
    ∃ s', update s x = .ret s' ∧ s'.r = 0 ∧ s'.samples = s.samples ++ [(x.item, x.weight)] := by
  obtain ⟨hl, hp, hm, hs, he⟩ := w.next hx
  refine ⟨{ s with
      slots := s.slots ++ [x]
      n := s.n + 1
      h := s.h + 1
      numMarksInH := if x.mark then s.numMarksInH + 1 else s.numMarksInH }, ?_, w.r0, ?_⟩
  · unfold update
    rw [if_neg (not_le.2 hx)]
    unfold updateCore
    simp only [if_pos w.r0]
    unfold updateWarmup
    dsimp only
    rw [if_neg hk]
  · have hw : Warm { s with
        slots := s.slots ++ [x]
        n := s.n + 1
        h := s.h + 1
        numMarksInH := if x.mark then s.numMarksInH + 1 else s.numMarksInH } (srcAdd src x)
        (estAdd e x) :=
      ⟨w.k1, w.m0, w.r0, hl, by show s.h + 1 ≤ s.k; omega, hp, hm, hs.symm, fun p => (he p).symm⟩
    rw [hw.samples_eq, w.samples_eq]
    rfl

/-! ## The pairs of matching samples -/

/-- The ordered pairs of different matching samples, by the product of their weights. -/
def prs (p : T → Bool) (s : Sk T) : ℚ := est p s ^ 2 - sqOf p s.samples

theorem out_prs {src Hs Cs : List (T × ℚ)} {tau : ℚ} {t : Rand (Sk T)} (st : Step src Hs Cs tau)
    (ho : All (Out Hs Cs tau) t) (p : T → Bool) (hE : HasE (est p) t (psumOf p src)) :
    ELe (prs p) t (psumOf p src ^ 2 - sqOf p src) := by
  obtain ⟨d1, d2⟩ := dist_sq p (fun q hq => (st.light q hq).2)
  have hs := psumOf_perm p st.perm
  have hq := sqOf_perm p st.perm
  rw [psumOf_append] at hs
  rw [sqOf_append] at hq
  set C : ℚ := ((Cs.countP fun q => p q.1 : Nat) : ℚ) with hC
  have h1 := hE.affine (2 * (tau * C + psumOf p Hs) - 2 * tau)
    ((tau * C + psumOf p Hs) ^ 2 - sqOf p Hs - tau ^ 2 * C
      + (tau * C + psumOf p Hs) * (2 * tau - 2 * (tau * C + psumOf p Hs)))
  have h2 : HasE (prs p) t _ := h1.congr (ho.mono fun s o => ?_)
  · refine h2.eLe.mono ?_
    rw [← hs, ← hq]
    nlinarith [d2]
  · obtain ⟨gone, hgone⟩ := o.gone
    obtain ⟨g1, g2, g3⟩ := hgone p
    unfold prs
    rw [g2, g3, ← hC]
    rcases g1 with g1 | g1 <;> rw [g1] <;> ring

theorem ite_sq (b : Bool) (w : ℚ) : (if b then w else 0) ^ 2 = if b then w ^ 2 else 0 := by
  split <;> simp

theorem update_prs {s : Sk T} {src : List (T × ℚ)} {e : (T → Bool) → ℚ} (h : Inv s src e)
    {x : Slot T} (hx : 0 < x.weight) (p : T → Bool) :
    ELe (prs p) (update s x) (prs p s + 2 * est p s * (if p x.item then x.weight else 0)) ∧
      Total (update s x) := by
  have hE := update_E h hx p
  have hsum : psumOf p (s.samples ++ [(x.item, x.weight)])
      = est p s + if p x.item then x.weight else 0 := by
    rw [psumOf_append, est_psum]
    simp [psumOf]
  have hsq : sqOf p (s.samples ++ [(x.item, x.weight)])
      = sqOf p s.samples + (if p x.item then x.weight else 0) ^ 2 := by
    rw [sqOf_append, ite_sq]
    simp [sqOf]
  have hval : (est p s + if p x.item then x.weight else 0) ^ 2
      - (sqOf p s.samples + (if p x.item then x.weight else 0) ^ 2)
      = prs p s + 2 * est p s * (if p x.item then x.weight else 0) := by
    unfold prs
    ring
  have hfin : (∃ Hs Cs tau, Step (s.samples ++ [(x.item, x.weight)]) Hs Cs tau ∧
      All (Out Hs Cs tau) (update s x) ∧ Total (update s x)) →
      ELe (prs p) (update s x) (prs p s + 2 * est p s * (if p x.item then x.weight else 0)) ∧
      Total (update s x) := by
    rintro ⟨Hs, Cs, tau, st, ho, ht⟩
    refine ⟨?_, ht⟩
    rw [← hsum] at hE
    have := out_prs st ho p hE
    rwa [hsum, hsq, hval] at this
  rcases h with w | h
  · by_cases hk : s.h + 1 > s.k
    · exact hfin (update_full_step w hk hx)
    · obtain ⟨s', h1, _, h3⟩ := update_room w hk hx
      rw [h1]
      refine ⟨?_, fun f => ⟨f s', rfl⟩⟩
      refine (HasE.ret (f := prs p)).eLe.mono (le_of_eq ?_)
      rw [← hval, ← hsum, ← hsq]
      unfold prs
      rw [est_psum, h3]
  · exact hfin (update_est_step h hx)

theorem total_bind {α β : Type} {t : Rand α} {f : α → Rand β} (ht : Total t)
    (hf : All (fun a => Total (f a)) t) : Total (t >>= f) := by
  classical
  intro g
  obtain ⟨x, hx⟩ := ht fun a => if h : Total (f a) then ex h g else 0
  refine ⟨x, hx.bind (hf.mono fun a ha => ?_)⟩
  simp only [dif_pos ha]
  exact ex_has ha g

theorem insertAll_prs (mark : Bool) (p : T → Bool) : ∀ (l : List (T × ℚ)) {g : Sk T}
    {src : List (T × ℚ)} {e : (T → Bool) → ℚ}, Inv g src e → (∀ q ∈ l, 0 < q.2) →
    ELe (prs p) (insertAll mark g l)
        (prs p g + 2 * est p g * psumOf p l + (psumOf p l ^ 2 - sqOf p l)) ∧
      Total (insertAll mark g l) := by
  intro l
  induction l with
  | nil =>
    intro g src e h _
    refine ⟨(HasE.ret (f := prs p)).eLe.mono (le_of_eq ?_), fun f => ⟨f g, rfl⟩⟩
    simp [psumOf, sqOf]
  | cons q l ih =>
    intro g src e h hpos
    have hq := hpos q (by simp)
    have hl : ∀ q' ∈ l, 0 < q'.2 := fun q' h' => hpos q' (by simp [h'])
    have hstep := update_all h (x := mkSlot mark q) hq
    have hE := update_E h (x := mkSlot mark q) hq p
    obtain ⟨hp, ht⟩ := update_prs h (x := mkSlot mark q) hq p
    have heq : insertAll mark g (q :: l) = (update g (mkSlot mark q) >>= fun g' => insertAll mark g' l) := by
      unfold insertAll
      rw [List.foldlM_cons]
      rfl
    rw [heq]
    refine ⟨?_, total_bind ht (hstep.mono fun g' hg' => ?_)⟩
    · have h1 := hp.add (hE.affine (2 * psumOf p l) (psumOf p l ^ 2 - sqOf p l)).eLe
      have he : prs p g + 2 * est p g * (if p (mkSlot mark q).item then (mkSlot mark q).weight else 0)
          + (2 * psumOf p l * (est p g + if p (mkSlot mark q).item then (mkSlot mark q).weight else 0)
            + (psumOf p l ^ 2 - sqOf p l))
          = prs p g + 2 * est p g * psumOf p (q :: l) + (psumOf p (q :: l) ^ 2 - sqOf p (q :: l)) := by
        rw [psumOf_cons, sqOf_cons, ← ite_sq]
        show prs p g + 2 * est p g * (if p q.1 then q.2 else 0)
          + (2 * psumOf p l * (est p g + if p q.1 then q.2 else 0)
            + (psumOf p l ^ 2 - sqOf p l)) = _
        ring
      rw [he] at h1
      refine h1.bind (hstep.mono fun g' hg' => ?_)
      obtain ⟨e', hi, _⟩ := hg'.inv
      refine (ih hi hl).1.mono (le_of_eq ?_)
      ring
    · obtain ⟨e', hi, _⟩ := hg'.inv
      exact (ih hi hl).2

end Verif.VarOpt
