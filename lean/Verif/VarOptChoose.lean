import Verif.VarOptCand
import Mathlib.Tactic.LinearCombination

/-!
# Which candidate is deleted

Each candidate of weight `w` is deleted with probability `1 - (N-1) w / W`, so the estimate of every
subset sum keeps its expected value.
-/

namespace Verif.VarOpt

open Rand

variable {T : Type}

theorem pickR_all {s : Sk T} (h1 : 1 ≤ s.r) :
    All (fun d => s.h + s.m ≤ d ∧ d < s.h + s.m + s.r) (pickRandomSlotInR s) := by
  unfold pickRandomSlotInR
  rw [if_neg (by omega)]
  by_cases hr : s.r = 1
  · rw [if_pos hr]
    show _ ∧ _
    omega
  · rw [if_neg hr]
    refine All.bind (All.draw (P := fun i => i < s.r) (by omega) fun i hi => hi) fun i hi => ?_
    show _ ∧ _
    omega

theorem pickR_E {s : Sk T} (h1 : 1 ≤ s.r) (f : Nat → ℚ) :
    HasE f (pickRandomSlotInR s) ((∑ i ∈ Finset.range s.r, f (s.h + s.m + i)) / s.r) := by
  unfold pickRandomSlotInR
  rw [if_neg (by omega)]
  by_cases hr : s.r = 1
  · rw [if_pos hr, hr]
    show _ = _
    simp
  · rw [if_neg hr]
    exact (HasE.draw (f := fun i => f (s.h + s.m + i)) (by omega)).bind
      (All.draw (by omega) fun i _ => rfl)

/-- Probability of deletion. -/
def delProb (W : ℚ) (N : Nat) (w : ℚ) : ℚ := 1 - ((N : ℚ) - 1) * w / W

/-- Sum over `M` of the probability of deletion times a value of the slot. -/
def dsum (W : ℚ) (N : Nat) (f : Nat → ℚ) : List (Slot T) → Nat → ℚ
  | [], _ => 0
  | x :: l, i => delProb W N x.weight * f i + dsum W N f l (i + 1)

def psum (W : ℚ) (N : Nat) : List (Slot T) → ℚ
  | [] => 0
  | x :: l => delProb W N x.weight + psum W N l

theorem psum_eq {W : ℚ} (N : Nat) (M : List (Slot T)) :
    psum W N M = M.length - ((N : ℚ) - 1) * wtot M / W := by
  induction M with
  | nil => simp [psum, wtot]
  | cons x M ih =>
    rw [psum, ih, wtot_cons, delProb, List.length_cons]
    push_cast
    ring

theorem psum_nonneg {W : ℚ} {N : Nat} {M : List (Slot T)} (h : ∀ x ∈ M, 0 ≤ delProb W N x.weight) :
    0 ≤ psum W N M := by
  induction M with
  | nil => exact le_refl _
  | cons x M ih =>
    rw [psum]
    have := h x (by simp)
    have := ih fun y hy => h y (by simp [hy])
    linarith

theorem weightedLoop_all {W : ℚ} {K : Nat} {l tail : List (Slot T)} :
    ∀ (M pre : List (Slot T)), l = pre ++ (M ++ tail) → ∀ left right,
      ∃ d, weightedLoop l W K M.length pre.length left right = .ok d ∧ pre.length ≤ d ∧
        d ≤ pre.length + M.length := by
  intro M
  induction M with
  | nil =>
    intro pre hl left right
    exact ⟨pre.length, rfl, le_refl _, by simp⟩
  | cons x M ih =>
    intro pre hl left right
    rw [List.length_cons, weightedLoop]
    have hw : wAt l pre.length = .ok x.weight := by
      unfold wAt
      rw [hl]
      simp
    rw [hw, Outcome.ok_bind]
    by_cases hlt : left + K * x.weight < right + W
    · simp only [if_pos hlt]
      exact ⟨_, rfl, le_refl _, by omega⟩
    · simp only [if_neg hlt]
      obtain ⟨d, h1, h2, h3⟩ := ih (pre ++ [x]) (by simp [hl]) (left + K * x.weight) (right + W)
      rw [List.length_append, List.length_singleton] at h1 h2 h3
      exact ⟨d, h1, by omega, by omega⟩

theorem weightedLoop_E {W : ℚ} (hW : 0 < W) {N : Nat} (hN : 1 ≤ N) {l tail : List (Slot T)}
    (f : Nat → ℚ) :
    ∀ (M pre : List (Slot T)), l = pre ++ (M ++ tail) → (∀ x ∈ M, 0 ≤ delProb W N x.weight) →
      ∀ left base F : ℚ, W * F = base - left → F + psum W N M ≤ 1 →
      StepInt (fun u v => HasE f
          (ofOutcome (weightedLoop l W (N - 1) M.length pre.length left (base - W * u))) v)
        F 1 (dsum W N f M pre.length + (1 - F - psum W N M) * f (pre.length + M.length)) := by
  have hNq : ((N - 1 : Nat) : ℚ) = (N : ℚ) - 1 := by
    rw [Nat.cast_sub hN]; norm_num
  intro M
  induction M with
  | nil =>
    intro pre hl _ left base F hF h1
    rw [psum, add_zero] at h1
    have := StepInt.piece (R := fun u v => HasE f
      (ofOutcome (weightedLoop l W (N - 1) 0 pre.length left (base - W * u))) v) F 1
      (f pre.length) h1 (fun u _ _ => rfl)
    have he : dsum W N f ([] : List (Slot T)) pre.length
        + (1 - F - psum W N ([] : List (Slot T))) * f (pre.length + ([] : List (Slot T)).length)
        = (1 - F) * f pre.length := by
      simp [dsum, psum]
    rw [he]
    exact this
  | cons x M ih =>
    intro pre hl hpos left base F hF h1
    have hc := hpos x (by simp)
    have hM : ∀ y ∈ M, 0 ≤ delProb W N y.weight := fun y hy => hpos y (by simp [hy])
    have hps := psum_nonneg hM
    rw [psum] at h1
    have hw : wAt l pre.length = .ok x.weight := by
      unfold wAt
      rw [hl]
      simp
    have hdel : W * delProb W N x.weight = W - ((N : ℚ) - 1) * x.weight := by
      unfold delProb
      field_simp
    have hstep : ∀ u, weightedLoop l W (N - 1) (x :: M).length pre.length left (base - W * u)
        = if u < F + delProb W N x.weight then .ok pre.length
          else weightedLoop l W (N - 1) M.length (pre ++ [x]).length
            (left + ((N : ℚ) - 1) * x.weight) (base + W - W * u) := by
      intro u
      rw [List.length_cons, weightedLoop, hw, Outcome.ok_bind, hNq, List.length_append,
        List.length_singleton]
      have hiff : (left + ((N : ℚ) - 1) * x.weight < base - W * u + W)
          ↔ u < F + delProb W N x.weight := by
        have hm : u < F + delProb W N x.weight ↔ W * u < W * (F + delProb W N x.weight) :=
          (mul_lt_mul_iff_right₀ hW).symm
        rw [hm, mul_add, hF, hdel]
        constructor <;> intro h <;> linarith
      by_cases hu : u < F + delProb W N x.weight
      · simp only [if_pos hu, if_pos (hiff.2 hu)]
      · simp only [if_neg hu, if_neg (fun h => hu (hiff.1 h))]
        congr 1
        ring
    have hfirst := StepInt.piece (R := fun u v => HasE f
      (ofOutcome (weightedLoop l W (N - 1) (x :: M).length pre.length left (base - W * u))) v) F
      (F + delProb W N x.weight) (f pre.length) (by linarith) (fun u _ hu => by
        rw [hstep u, if_pos hu]
        exact rfl)
    have hsecond := ih (pre ++ [x]) (by simp [hl]) hM (left + ((N : ℚ) - 1) * x.weight) (base + W)
      (F + delProb W N x.weight) (by rw [mul_add, hF, hdel]; ring) (by linarith)
    have hsecond' := StepInt.mono hsecond (S := fun u v => HasE f
      (ofOutcome (weightedLoop l W (N - 1) (x :: M).length pre.length left (base - W * u))) v)
      (fun u v hu _ h => by
        rw [hstep u, if_neg (not_lt.2 (le_of_lt hu))]
        exact h)
    have := StepInt.split _ _ _ _ _ hfirst hsecond'
    have he : (F + delProb W N x.weight - F) * f pre.length +
        (dsum W N f M (pre ++ [x]).length + (1 - (F + delProb W N x.weight) - psum W N M)
          * f ((pre ++ [x]).length + M.length))
        = dsum W N f (x :: M) pre.length
          + (1 - F - psum W N (x :: M)) * f (pre.length + (x :: M).length) := by
      rw [dsum, psum, List.length_append, List.length_singleton, List.length_cons]
      have : pre.length + 1 + M.length = pre.length + (M.length + 1) := by omega
      rw [this]
      ring
    rwa [he] at this

namespace Cand

variable {s : Sk T} {W : ℚ} {N : Nat} {src : List (T × ℚ)} {e : (T → Bool) → ℚ}
  {H M R rest : List (Slot T)} {rw : List (T × ℚ)}

theorem del_nonneg (c : Cand s W N src e H M R rest rw) : ∀ x ∈ M, 0 ≤ delProb W N x.weight := by
  intro x hx
  unfold delProb
  have := c.mcand x hx
  rw [sub_nonneg, div_le_iff₀ c.W_pos, one_mul]
  exact this

/-- Total probability of deletion of the items of `R`. -/
theorem rprob (c : Cand s W N src e H M R rest rw) :
    1 - psum W N M = s.r * delProb W N (s.totalWeightR / s.r) := by
  have hr : (s.r : ℚ) ≠ 0 := by exact_mod_cast (by have := c.r1; omega : s.r ≠ 0)
  have hW := ne_of_gt c.W_pos
  have hN : (N : ℚ) = s.m + s.r := by exact_mod_cast c.num.symm
  have ht : wtot M = W - s.totalWeightR := by rw [c.total]; ring
  rw [psum_eq, c.mlen, ht]
  unfold delProb
  have h1 : ((N : ℚ) - 1) * (W - s.totalWeightR) / W = ((N : ℚ) - 1) - ((N : ℚ) - 1) * s.totalWeightR / W := by
    field_simp
  have h2 : (s.r : ℚ) * (1 - ((N : ℚ) - 1) * (s.totalWeightR / s.r) / W)
      = s.r - ((N : ℚ) - 1) * s.totalWeightR / W := by
    field_simp
  rw [h1, h2, hN]
  ring

theorem rprob_nonneg (c : Cand s W N src e H M R rest rw) : 0 ≤ 1 - psum W N M := by
  rw [c.rprob]
  have : 0 ≤ delProb W N (s.totalWeightR / s.r) := by
    unfold delProb
    have := c.rcand
    rw [sub_nonneg, div_le_iff₀ c.W_pos, one_mul]
    exact this
  positivity

theorem choose_all (c : Cand s W N src e H M R rest rw) :
    All (fun d => s.h ≤ d ∧ d ≤ s.k) (chooseDeleteSlot s W N) := by
  have hpick : All (fun d => s.h ≤ d ∧ d ≤ s.k) (pickRandomSlotInR s) :=
    (pickR_all c.r1).mono fun d hd => by have := c.full; have := c.num; omega
  unfold chooseDeleteSlot
  rw [if_neg (by have := c.r1; omega)]
  by_cases h0 : s.m = 0
  · rw [if_pos h0]
    exact hpick
  · rw [if_neg h0]
    by_cases h1 : s.m = 1
    · rw [if_pos h1]
      unfold chooseOne
      have hlt : s.h < s.slots.length := by
        rw [c.slots]
        simp only [List.length_append]
        have := c.hlen; have := c.mlen; omega
      rw [wAt_ok hlt, ofOutcome_ok, ret_bind]
      unfold floatNonZero
      rw [unif_bind]
      intro u _ _ _
      simp only [ret_bind]
      by_cases hu : W * u < ((N - 1 : Nat) : ℚ) * wt s.slots s.h
      · rw [if_pos hu]; exact hpick
      · rw [if_neg hu]
        show s.h ≤ s.h ∧ s.h ≤ s.k
        have := c.full; have := c.two
        omega
    · rw [if_neg h1]
      unfold chooseGeneral floatNonZero
      rw [unif_bind]
      intro u _ _ _
      simp only [ret_bind]
      obtain ⟨d, hd, hd1, hd2⟩ := weightedLoop_all (W := W) (K := N - 1) M H c.slots 0 (-W * u)
      rw [c.mlen, c.hlen] at hd
      rw [hd, ofOutcome_ok, ret_bind]
      by_cases he : d = s.h + s.m
      · rw [if_pos he]; exact hpick
      · rw [if_neg he]
        show s.h ≤ d ∧ d ≤ s.k
        have := c.full; have := c.num; have := c.mlen; have := c.hlen
        omega

/-- Expected value of a function of the deleted slot. -/
theorem choose_E (c : Cand s W N src e H M R rest rw) (f : Nat → ℚ) :
    HasE f (chooseDeleteSlot s W N)
      (dsum W N f M s.h +
        delProb W N (s.totalWeightR / s.r) * ∑ i ∈ Finset.range s.r, f (s.h + s.m + i)) := by
  have hr : (s.r : ℚ) ≠ 0 := by exact_mod_cast (by have := c.r1; omega : s.r ≠ 0)
  have hpick := pickR_E c.r1 f
  have hrp := c.rprob
  have hrn := c.rprob_nonneg
  have havg : ∀ S : ℚ, (1 - psum W N M) * (S / s.r) = delProb W N (s.totalWeightR / s.r) * S := by
    intro S
    rw [hrp]
    field_simp
  unfold chooseDeleteSlot
  rw [if_neg (by have := c.r1; omega)]
  by_cases h0 : s.m = 0
  · rw [if_pos h0]
    have hM : M = [] := List.length_eq_zero_iff.1 (by rw [c.mlen, h0])
    subst hM
    have := havg (∑ i ∈ Finset.range s.r, f (s.h + s.m + i))
    rw [dsum, zero_add, ← this, psum, sub_zero, one_mul]
    exact hpick
  · rw [if_neg h0]
    by_cases h1 : s.m = 1
    · rw [if_pos h1]
      obtain ⟨x, hM⟩ : ∃ x, M = [x] := List.length_eq_one_iff.1 (by rw [c.mlen, h1])
      subst hM
      unfold chooseOne
      have hw : wAt s.slots s.h = .ok x.weight := by
        unfold wAt
        rw [c.slots, ← c.hlen]
        simp
      rw [hw, ofOutcome_ok, ret_bind]
      unfold floatNonZero
      rw [unif_bind]
      have hNq : ((N - 1 : Nat) : ℚ) = (N : ℚ) - 1 := by
        rw [Nat.cast_sub (by have := c.two; omega)]; norm_num
      have hdel := c.del_nonneg x (by simp)
      have hq : 1 - psum W N [x] = ((N : ℚ) - 1) * x.weight / W := by
        rw [psum, psum, delProb]; ring
      have hp0 : 0 ≤ 1 - psum W N [x] := hrn
      have hcoin := HasE.coin (nz := true) (f := f)
        (k := fun u => Rand.ret u >>= fun u => if W * u < ((N - 1 : Nat) : ℚ) * x.weight
          then pickRandomSlotInR s else .ret s.h)
        (p := 1 - psum W N [x])
        (v₁ := (∑ i ∈ Finset.range s.r, f (s.h + s.m + i)) / s.r) (v₂ := f s.h) hp0
        (by rw [psum, psum]; linarith)
        (fun u _ hu => by
          rw [ret_bind]
          have hlt : W * u < ((N - 1 : Nat) : ℚ) * x.weight := by
            rw [hq, lt_div_iff₀ c.W_pos] at hu
            rw [hNq]
            linarith
          simp only [if_pos hlt]
          exact hpick)
        (fun u hu _ => by
          rw [ret_bind]
          have hge : ¬ W * u < ((N - 1 : Nat) : ℚ) * x.weight := by
            rw [hq, div_lt_iff₀ c.W_pos] at hu
            rw [hNq]
            linarith
          simp only [if_neg hge]
          exact rfl)
      have he : (1 - psum W N [x]) * ((∑ i ∈ Finset.range s.r, f (s.h + s.m + i)) / s.r)
          + (1 - (1 - psum W N [x])) * f s.h
          = dsum W N f [x] s.h +
            delProb W N (s.totalWeightR / s.r) * ∑ i ∈ Finset.range s.r, f (s.h + s.m + i) := by
        rw [havg, dsum, dsum, psum, psum]
        ring
      rw [he] at hcoin
      exact hcoin
    · rw [if_neg h1]
      unfold chooseGeneral floatNonZero
      rw [unif_bind]
      have hNN : 1 ≤ N := by have := c.two; omega
      set g : Nat → ℚ := fun d =>
        if d = s.h + s.m then (∑ i ∈ Finset.range s.r, f (s.h + s.m + i)) / s.r else f d with hg
      have hstep := weightedLoop_E c.W_pos hNN g M H c.slots c.del_nonneg 0 0 0 (by ring)
        (by rw [zero_add]; linarith)
      have hE : HasE g (unif true fun u => ofOutcome
          (weightedLoop s.slots W (N - 1) s.m s.h 0 (-W * u)))
          (dsum W N g M s.h + (1 - psum W N M) * g (s.h + s.m)) := by
        rw [c.hlen, c.mlen, sub_zero] at hstep
        refine StepInt.mono hstep fun u v _ _ h => ?_
        have : (0 : ℚ) - W * u = -W * u := by ring
        rwa [this] at h
      have hds : dsum W N g M s.h = dsum W N f M s.h := by
        have : ∀ (L : List (Slot T)) (i : Nat), i + L.length ≤ s.h + s.m →
            dsum W N g L i = dsum W N f L i := by
          intro L
          induction L with
          | nil => intro i _; rfl
          | cons y L ih =>
            intro i hi
            rw [List.length_cons] at hi
            rw [dsum, dsum, ih (i + 1) (by omega), hg]
            dsimp only
            rw [if_neg (by omega)]
        exact this M s.h (by rw [c.mlen])
      have hgv : g (s.h + s.m) = (∑ i ∈ Finset.range s.r, f (s.h + s.m + i)) / s.r := by
        rw [hg]
        dsimp only
        rw [if_pos rfl]
      rw [hds, hgv, havg] at hE
      have hb := HasE.bind (f := fun slot => if slot = s.h + s.m then pickRandomSlotInR s else .ret slot)
        (g := f) hE (by
          intro u _ _ _
          obtain ⟨d, hd, _, _⟩ := weightedLoop_all (W := W) (K := N - 1) M H c.slots 0 (-W * u)
          rw [c.mlen, c.hlen] at hd
          simp only [hd, ofOutcome_ok]
          show HasE f _ (g d)
          rw [hg]
          dsimp only
          by_cases he : d = s.h + s.m
          · rw [if_pos he, if_pos he]; exact hpick
          · rw [if_neg he, if_neg he]; exact rfl)
      rw [unif_bind] at hb
      exact hb

end Cand

/-! ## The sums for an indicator -/

theorem dsum_hit (W : ℚ) (N : Nat) (p : T → Bool) {l tail : List (Slot T)} :
    ∀ (M pre : List (Slot T)), l = pre ++ (M ++ tail) →
      dsum W N (hit p l) M pre.length
        = (M.map fun x => if p x.item then delProb W N x.weight else 0).sum := by
  intro M
  induction M with
  | nil => intro pre _; rfl
  | cons x M ih =>
    intro pre hl
    have h1 := ih (pre ++ [x]) (by simp [hl])
    rw [List.length_append, List.length_singleton] at h1
    rw [dsum, h1, List.map_cons, List.sum_cons]
    congr 1
    unfold hit
    have : l[pre.length]? = some x := by rw [hl]; simp
    rw [this]
    dsimp only
    split <;> simp

theorem range_hit (p : T → Bool) {l tail : List (Slot T)} (R pre : List (Slot T))
    (hl : l = pre ++ (R ++ tail)) :
    ∑ i ∈ Finset.range R.length, hit p l (pre.length + i) = cnt p R := by
  induction R generalizing pre with
  | nil => simp [cnt]
  | cons x R ih =>
    have h1 := ih (pre ++ [x]) (by simp [hl])
    rw [List.length_append, List.length_singleton] at h1
    rw [List.length_cons, Finset.sum_range_succ', cnt_cons]
    have h2 : ∀ i, hit p l (pre.length + (i + 1)) = hit p l (pre.length + 1 + i) := by
      intro i
      congr 1
      omega
    simp only [h2]
    rw [h1]
    have : l[pre.length]? = some x := by rw [hl]; simp
    unfold hit
    rw [Nat.add_zero, this]
    push_cast
    rfl

theorem sum_del (W : ℚ) (N : Nat) (p : T → Bool) (M : List (Slot T)) :
    (M.map fun x => if p x.item then delProb W N x.weight else 0).sum
      = cnt p M - ((N : ℚ) - 1) * wsum p M / W := by
  induction M with
  | nil => simp [cnt]
  | cons x M ih =>
    rw [List.map_cons, List.sum_cons, ih, wsum_cons, cnt_cons]
    unfold delProb
    split <;> push_cast <;> ring

/-! ## Downsampling keeps every estimate on average -/

/-- The adjusted weights of the samples that match: what `EstimateSubsetSum` adds up. -/
def est (p : T → Bool) (s : Sk T) : ℚ :=
  ((s.samples.filter fun q => p q.1).map Prod.snd).sum

theorem sum_filter_pairs (p : T → Bool) (l : List (Slot T)) :
    (((pairs l).filter fun q => p q.1).map Prod.snd).sum = wsum p l := by
  induction l with
  | nil => rfl
  | cons x l ih =>
    rw [pairs_cons, List.filter_cons, wsum_cons]
    dsimp only
    split
    · rw [List.map_cons, List.sum_cons, ih]
    · rw [ih, zero_add]

theorem sum_filter_const (p : T → Bool) (v : ℚ) (l : List (Slot T)) :
    (((l.map fun x => (x.item, v)).filter fun q => p q.1).map Prod.snd).sum = v * cnt p l := by
  induction l with
  | nil => simp [cnt]
  | cons x l ih =>
    rw [List.map_cons, List.filter_cons, cnt_cons]
    dsimp only
    split
    · rw [List.map_cons, List.sum_cons, ih]
      push_cast
      ring
    · rw [ih]
      push_cast
      ring

theorem Est.samples_eq {s : Sk T} {src : List (T × ℚ)} {e : (T → Bool) → ℚ}
    {H : List (Slot T)} {g : Slot T} {R rest : List (Slot T)} {rw' : List (T × ℚ)}
    (c : Est s src e H g R rest rw') :
    s.samples = pairs H ++ R.map fun x => (x.item, s.totalWeightR / s.r) := by
  unfold Sk.samples Sk.hSlots Sk.rSlots Sk.numSamples
  rw [if_pos (by have := c.r1; omega)]
  have h1 : s.slots.take s.h = H := by rw [c.slots, ← c.hlen, List.take_left]
  have h2 : (s.slots.drop (s.h + 1)).take (min s.k (s.h + s.r) - s.h) = R := by
    have e1 : s.slots = (H ++ [g]) ++ (R ++ rest) := by rw [c.slots]; simp
    have e2 : s.h + 1 = (H ++ [g]).length := by simp [c.hlen]
    rw [e2, e1, List.drop_left]
    have e3 : min s.k (s.h + s.r) - s.h = R.length := by
      rw [c.full, Nat.min_self, c.rlen]
      have := c.full; omega
    rw [e3, List.take_left]
  rw [h1, h2]
  rfl

theorem Est.est_eq {s : Sk T} {src : List (T × ℚ)} {e : (T → Bool) → ℚ}
    {H : List (Slot T)} {g : Slot T} {R rest : List (Slot T)} {rw' : List (T × ℚ)}
    (c : Est s src e H g R rest rw') (p : T → Bool) : VarOpt.est p s = e p := by
  unfold VarOpt.est
  rw [c.samples_eq, List.filter_append, List.map_append, List.sum_append, sum_filter_pairs,
    sum_filter_const, c.est p]

theorem EstI.est_eq {s : Sk T} {src : List (T × ℚ)} {e : (T → Bool) → ℚ} (h : EstI s src e)
    (p : T → Bool) : est p s = e p := by
  obtain ⟨H, g, R, rest, rw', c⟩ := h
  exact c.est_eq p

/-- What an update leaves: a valid state in estimation mode, with the same total. -/
def Post (s : Sk T) (src : List (T × ℚ)) (e : (T → Bool) → ℚ) (s' : Sk T) : Prop :=
  Frame s s' ∧ ∃ e', EstI s' src e' ∧ e' (fun _ => true) = e (fun _ => true)

theorem downsample_all {s : Sk T} {W : ℚ} {N : Nat} {src : List (T × ℚ)} {e : (T → Bool) → ℚ}
    (hc : CandI s W N src e) (hmax : Maximal s W N) : All (Post s src e) (downsample s W N) := by
  obtain ⟨H, M, R, rest, rw', c⟩ := hc
  unfold downsample
  rw [if_neg (by have := c.two; have := c.full; omega)]
  refine c.choose_all.bind fun d hd => ?_
  obtain ⟨s', e', h1, h2, h3, h4, _⟩ := finishDownsample_ok c hmax hd.1 hd.2
  rw [h1, ofOutcome_ok]
  refine ⟨h2, e', h3, ?_⟩
  have hN := ne_of_gt c.N1_pos
  have hr : (s.r : ℚ) ≠ 0 := by exact_mod_cast (by have := c.r1; omega : s.r ≠ 0)
  have hhit : hit (fun _ => true) s.slots d = 1 := by
    unfold hit
    have : d < s.slots.length := by
      rw [c.slots]
      simp only [List.length_append]
      have := c.hlen; have := c.mlen; have := c.rlen; have := c.full; have := c.num
      omega
    rw [List.getElem?_eq_getElem this]
    simp
  have hcnt : ∀ l : List (Slot T), cnt (fun _ => true) l = l.length := by
    intro l; unfold cnt; simp
  rw [h4, c.est, hhit, hcnt, hcnt, wsum_true, wsum_true, List.length_append, c.mlen, c.rlen, c.num,
    c.total]
  have e1 : (wtot M + s.totalWeightR) / ((N : ℚ) - 1) * ((N : ℚ) - 1) = wtot M + s.totalWeightR := by
    field_simp
  have e2 : s.totalWeightR / s.r * s.r = s.totalWeightR := by field_simp
  rw [e1, e2]
  ring

theorem downsample_E {s : Sk T} {W : ℚ} {N : Nat} {src : List (T × ℚ)} {e : (T → Bool) → ℚ}
    (hc : CandI s W N src e) (hmax : Maximal s W N) (p : T → Bool) :
    HasE (est p) (downsample s W N) (e p) := by
  obtain ⟨H, M, R, rest, rw', c⟩ := hc
  unfold downsample
  rw [if_neg (by have := c.two; have := c.full; omega)]
  have h1 := c.choose_E (hit p s.slots)
  have hd := dsum_hit W N p M H c.slots
  have hr := range_hit p (l := s.slots) (tail := rest) R (H ++ M) (by rw [c.slots]; simp)
  rw [c.hlen] at hd
  rw [List.length_append, c.hlen, c.mlen, c.rlen] at hr
  rw [hd, hr, sum_del] at h1
  have h2 := h1.affine (-(W / ((N : ℚ) - 1)))
    (W / ((N : ℚ) - 1) * (cnt p (M ++ R) : ℚ) + wsum p H)
  have he : -(W / ((N : ℚ) - 1)) * ((cnt p M : ℚ) - ((N : ℚ) - 1) * wsum p M / W
        + delProb W N (s.totalWeightR / s.r) * (cnt p R : ℚ))
      + (W / ((N : ℚ) - 1) * (cnt p (M ++ R) : ℚ) + wsum p H) = e p := by
    have hN := ne_of_gt c.N1_pos
    have hW := ne_of_gt c.W_pos
    rw [c.est p, cnt_append]
    unfold delProb
    push_cast
    have e1 : W / ((N : ℚ) - 1) * (((N : ℚ) - 1) * wsum p M / W) = wsum p M := by field_simp
    have e2 : W / ((N : ℚ) - 1) * (((N : ℚ) - 1) * (s.totalWeightR / s.r) / W)
        = s.totalWeightR / s.r := by field_simp
    linear_combination e1 + (cnt p R : ℚ) * e2
  rw [he] at h2
  refine h2.bind (c.choose_all.mono fun d hd => ?_)
  obtain ⟨s', e', h1, h2, h3, h4, _⟩ := finishDownsample_ok c hmax hd.1 hd.2
  rw [h1, ofOutcome_ok]
  show _ = est p s'
  rw [h3.est_eq, h4]
  ring

theorem growCandidateSet_all {s : Sk T} {W : ℚ} {N : Nat} {src : List (T × ℚ)}
    {e : (T → Bool) → ℚ} (hc : CandI s W N src e) (hm : s.m ≤ 1) :
    All (Post s src e) (growCandidateSet s W N) := by
  unfold growCandidateSet
  have hg : ¬ (s.h + s.m + s.r ≠ s.k + 1 ∨ N < 1 ∨ N ≠ s.m + s.r ∨ s.m ≥ 2) := by
    obtain ⟨H, M, R, rest, rw', c⟩ := hc
    have := c.full; have := c.num; have := c.two
    omega
  rw [if_neg hg]
  obtain ⟨s', W', N', h1, h2, h3, h4⟩ := growLoop_ok (s.h + 1) s W N hc (by omega)
  rw [h1, ofOutcome_ok, ret_bind]
  refine (downsample_all h3 h4).mono fun s'' h => ?_
  exact ⟨h2.trans h.1, h.2⟩

theorem growCandidateSet_E {s : Sk T} {W : ℚ} {N : Nat} {src : List (T × ℚ)}
    {e : (T → Bool) → ℚ} (hc : CandI s W N src e) (hm : s.m ≤ 1) (p : T → Bool) :
    HasE (est p) (growCandidateSet s W N) (e p) := by
  unfold growCandidateSet
  have hg : ¬ (s.h + s.m + s.r ≠ s.k + 1 ∨ N < 1 ∨ N ≠ s.m + s.r ∨ s.m ≥ 2) := by
    obtain ⟨H, M, R, rest, rw', c⟩ := hc
    have := c.full; have := c.num; have := c.two
    omega
  rw [if_neg hg]
  obtain ⟨s', W', N', h1, h2, h3, h4⟩ := growLoop_ok (s.h + 1) s W N hc (by omega)
  rw [h1, ofOutcome_ok, ret_bind]
  exact downsample_E h3 h4 p

end Verif.VarOpt
