import Verif.ReservoirLemmas

/-! # Lemmas on the reservoir union -/

namespace Verif.Reservoir

open Rand

variable {T : Type}

theorem valueAt_ok {s : Sk T} (hn : s.n ≠ 0) {i : Nat} (hi : i < s.data.length) :
    valueAt s i = .ok s.data[i] := by
  unfold valueAt
  rw [if_neg hn, List.getElem?_eq_getElem hi]

theorem Inv.n_pos {E : Env T} {s : Sk T} (hs : Inv E s) {i : Nat} (hi : i < s.data.length) :
    s.n ≠ 0 := by
  have := hs.len
  omega

/-- `twoWayMergeInternalStandard` presents the retained items. -/
theorem mergeStandard_eq {E : Env T} {g src : Sk T} (hsrc : Inv E src) :
    mergeStandard E g src = updates E g src.data := by
  unfold mergeStandard updates Sk.numSamples
  rw [List.range_eq_range']
  suffices h : ∀ j m (g : Sk T), m + j = src.data.length →
      (List.range' m j).foldlM (standardStep E src) g = (src.data.drop m).foldlM (update E) g by
    have := h src.data.length 0 g (by omega)
    rwa [List.drop_zero] at this
  intro j
  induction j with
  | zero => intro m g hm; rw [List.drop_eq_nil_of_le (by omega)]; rfl
  | succ j ih =>
    intro m g hm
    have hlt : m < src.data.length := by omega
    rw [List.range'_succ, List.foldlM_cons, List.drop_eq_getElem_cons hlt, List.foldlM_cons]
    unfold standardStep
    rw [valueAt_ok (hsrc.n_pos hlt) hlt, ofOutcome_ok, ret_bind]
    congr 1
    funext g'
    exact ih (m + 1) g' (by omega)

/-! ## The weighted merge -/

section Weighted

variable {E : Env T} {src : Sk T} {w : ℚ} {tgtK : Nat}

/-- State of the loop with a remaining source suffix. -/
structure WInv (w : ℚ) (tgtK : Nat) (st : List T × ℚ) : Prop where
  len : st.1.length = tgtK
  two : 2 ≤ tgtK
  wpos : 0 < w
  tot : 0 < st.2
  ok : (tgtK - 1 : ℚ) * w ≤ st.2

theorem WInv.next {st : List T × ℚ} (h : WInv w tgtK st) {d : List T} (hd : d.length = tgtK) :
    WInv w tgtK (d, st.2 + w) :=
  ⟨hd, h.two, h.wpos, by have := h.tot; have := h.wpos; dsimp only; linarith,
    by have := h.ok; have := h.wpos; dsimp only; linarith⟩

theorem weightedStep_eq (hsrc : Inv E src) {st : List T × ℚ} (h : WInv w tgtK st) {i : Nat}
    (hi : i < src.data.length) :
    weightedStep src w (tgtK * w) tgtK st i = (.unif false fun u =>
      if (st.2 + w) * u < tgtK * w then
        .intn tgtK fun j => .ret (st.1.set j src.data[i], st.2 + w)
      else .ret (st.1, st.2 + w)) := by
  have h2 := h.two
  unfold weightedStep Rand.float Rand.draw
  rw [unif_bind, valueAt_ok (hsrc.n_pos hi) hi, if_neg (by omega)]
  rfl

theorem weightedStep_all (hsrc : Inv E src) {st : List T × ℚ} (h : WInv w tgtK st) {i : Nat}
    (hi : i < src.data.length) :
    All (fun st' => WInv w tgtK st' ∧ st'.2 = st.2 + w ∧
      List.Subperm st'.1 (src.data[i] :: st.1)) (weightedStep src w (tgtK * w) tgtK st i) := by
  rw [weightedStep_eq hsrc h hi]
  have h2 := h.two
  intro u h0 h1 _
  dsimp only
  split
  · refine ⟨by omega, fun j hj => ⟨h.next (by rw [List.length_set, h.len]), rfl, set_subperm _ _ _⟩⟩
  · exact ⟨h.next h.len, rfl, (List.sublist_cons_self _ _).subperm⟩

/-- The weight a subset has in the loop. -/
def wEst (p : T → Bool) (tgtK : Nat) (st : List T × ℚ) : ℚ := st.2 * (st.1.countP p / tgtK)

theorem weightedStep_E (hsrc : Inv E src) {st : List T × ℚ} (h : WInv w tgtK st) {i : Nat}
    (hi : i < src.data.length) (p : T → Bool) :
    HasE (wEst p tgtK) (weightedStep src w (tgtK * w) tgtK st i)
      (wEst p tgtK st + w * ind (p src.data[i])) := by
  rw [weightedStep_eq hsrc h hi]
  have h2 := h.two
  have hw := h.wpos
  have ht := h.tot
  have hok := h.ok
  have htot : 0 < st.2 + w := by linarith
  have hk0 : (tgtK : ℚ) ≠ 0 := by exact_mod_cast (by omega : tgtK ≠ 0)
  have hkpos : (0 : ℚ) < tgtK := by exact_mod_cast (by omega : 0 < tgtK)
  have hp0 : 0 ≤ tgtK * w / (st.2 + w) := by positivity
  have hp1 : tgtK * w / (st.2 + w) ≤ 1 := by
    rw [div_le_one htot]; linarith
  have hcoin := HasE.coin (nz := false) (f := wEst p tgtK) (k := fun u =>
      if (st.2 + w) * u < tgtK * w then
        (Rand.intn tgtK fun j => .ret (st.1.set j src.data[i], st.2 + w))
      else .ret (st.1, st.2 + w)) hp0 hp1
      (v₁ := (∑ j ∈ Finset.range tgtK,
        (st.2 + w) * (((st.1.set j src.data[i]).countP p : ℚ) / tgtK)) / tgtK)
      (v₂ := (st.2 + w) * (st.1.countP p / tgtK))
      (fun u h0 h1 => by
        have : (st.2 + w) * u < tgtK * w := by
          rw [lt_div_iff₀ htot] at h1; linarith
        rw [if_pos this]
        exact ⟨by omega, _, fun j _ => rfl, rfl⟩)
      (fun u h0 h1 => by
        have : ¬ (st.2 + w) * u < tgtK * w := by
          rw [div_lt_iff₀ htot] at h0; linarith
        rw [if_neg this]
        exact rfl)
  refine Eq.mp ?_ hcoin
  congr 1
  have hsum := sum_set st.1 p src.data[i]
  rw [h.len] at hsum
  have : ∑ j ∈ Finset.range tgtK, (st.2 + w) * (((st.1.set j src.data[i]).countP p : ℚ) / tgtK)
      = (st.2 + w) * ((tgtK * st.1.countP p + tgtK * ind (p src.data[i]) - st.1.countP p) / tgtK) := by
    rw [← hsum, ← Finset.mul_sum, Finset.sum_div]
  rw [this]
  unfold wEst
  field_simp
  ring

theorem weightedLoop_all (hsrc : Inv E src) (j : Nat) : ∀ (m : Nat) (st : List T × ℚ),
    m + j = src.data.length → WInv w tgtK st →
    All (fun st' => WInv w tgtK st' ∧ st'.2 = st.2 + j * w ∧
      List.Subperm st'.1 (st.1 ++ src.data.drop m))
      ((List.range' m j).foldlM (weightedStep src w (tgtK * w) tgtK) st) := by
  induction j with
  | zero =>
    intro m st hm h
    rw [List.drop_eq_nil_of_le (by omega)]
    refine ⟨h, by push_cast; ring, by rw [List.append_nil]⟩
  | succ j ih =>
    intro m st hm h
    have hlt : m < src.data.length := by omega
    rw [List.range'_succ, List.foldlM_cons]
    refine (weightedStep_all hsrc h hlt).bind fun st1 h1 => ?_
    obtain ⟨i1, t1, p1⟩ := h1
    refine (ih (m + 1) st1 (by omega) i1).mono fun st2 h2 => ?_
    obtain ⟨i2, t2, p2⟩ := h2
    refine ⟨i2, by rw [t2, t1]; push_cast; ring, ?_⟩
    rw [List.drop_eq_getElem_cons hlt]
    refine p2.trans (((List.subperm_append_right _).2 p1).trans (List.Perm.subperm ?_))
    rw [List.cons_append]
    exact List.perm_middle.symm

theorem weightedLoop_E (hsrc : Inv E src) (p : T → Bool) (j : Nat) : ∀ (m : Nat) (st : List T × ℚ),
    m + j = src.data.length → WInv w tgtK st →
    HasE (wEst p tgtK) ((List.range' m j).foldlM (weightedStep src w (tgtK * w) tgtK) st)
      (wEst p tgtK st + w * (src.data.drop m).countP p) := by
  induction j with
  | zero =>
    intro m st hm h
    rw [List.drop_eq_nil_of_le (by omega)]
    simp only [List.countP_nil, Nat.cast_zero, mul_zero, add_zero]
    exact rfl
  | succ j ih =>
    intro m st hm h
    have hlt : m < src.data.length := by omega
    rw [List.range'_succ, List.foldlM_cons]
    have h1 := (weightedStep_E hsrc h hlt p).affine 1 (w * (src.data.drop (m + 1)).countP p)
    have he : 1 * (wEst p tgtK st + w * ind (p src.data[m])) + w * (src.data.drop (m + 1)).countP p
        = wEst p tgtK st + w * (src.data.drop m).countP p := by
      rw [List.drop_eq_getElem_cons hlt, List.countP_cons]
      unfold ind
      split <;> push_cast <;> ring
    rw [he] at h1
    refine h1.bind ((weightedStep_all hsrc h hlt).mono fun st1 i1 => ?_)
    have := ih (m + 1) st1 (by omega) i1.1
    rwa [one_mul]

end Weighted

/-- What the merge of two sketches is. -/
structure Merged (E : Env T) (a b c : Sk T) : Prop where
  inv : Inv E c
  k : c.k = a.k ∨ c.k = b.k
  n : c.n = a.n + b.n
  sub : List.Subperm c.data (a.data ++ b.data)

theorem Merged.swap {E : Env T} {a b c : Sk T} (h : Merged E a b c) : Merged E b a c :=
  ⟨h.inv, h.k.symm, by rw [h.n, Nat.add_comm], h.sub.trans List.perm_append_comm.subperm⟩

theorem mergeStandard_all {E : Env T} (hE : E.Ok) {g src : Sk T} (hg : Inv E g) (hs : Inv E src)
    (hn : src.n ≤ src.k) (hm : g.n + src.n ≤ maxItemsSeen) :
    All (Merged E g src) (mergeStandard E g src) := by
  have hlen : src.data.length = src.n := by rw [hs.len]; omega
  rw [mergeStandard_eq hs]
  refine (updates_all hE src.data hg (by omega)).mono fun s' h => ?_
  obtain ⟨i, k, _, n, _, p⟩ := h
  rw [live_of hs.live] at n p
  exact ⟨i, .inl k, by omega, p⟩

theorem est_exact {E : Env T} {s : Sk T} (hs : Inv E s) (hn : s.n ≤ s.k) (p : T → Bool) :
    est p s = s.data.countP p := by
  rw [est_eq hs]
  have hlen : s.data.length = s.n := by rw [hs.len]; omega
  by_cases h0 : s.n = 0
  · have : s.data = [] := List.length_eq_zero_iff.1 (by omega)
    rw [this]; simp
  · have : (s.n : ℚ) ≠ 0 := by exact_mod_cast h0
    rw [hlen]
    field_simp

theorem mergeStandard_E {E : Env T} (hE : E.Ok) {g src : Sk T} (hg : Inv E g) (hs : Inv E src)
    (hn : src.n ≤ src.k) (hm : g.n + src.n ≤ maxItemsSeen) (p : T → Bool) :
    HasE (est p) (mergeStandard E g src) (est p g + est p src) := by
  have hlen : src.data.length = src.n := by rw [hs.len]; omega
  rw [mergeStandard_eq hs, est_exact hs hn]
  have := updates_E hE src.data hg (by omega) p
  rwa [live_of hs.live] at this

/-- The condition for a weighted merge: items of the source are light enough. -/
def Light (g src : Sk T) : Prop := (g.k - 1 : ℚ) * (src.n / src.k) ≤ g.n

theorem winv_start {E : Env T} {g src : Sk T} (hg : Inv E g) (hs : Inv E src)
    (hgn : g.k ≤ g.n) (hsn : src.k ≤ src.n) (hl : Light g src) :
    WInv ((src.n : ℚ) / src.k) g.k (g.data, (g.n : ℚ)) := by
  have h1 := hg.two
  have h2 := hs.two
  have a : (0 : ℚ) < src.k := by exact_mod_cast (by omega : 0 < src.k)
  have b : (0 : ℚ) < src.n := by exact_mod_cast (by omega : 0 < src.n)
  refine ⟨by rw [hg.len]; omega, h1, by positivity, ?_, hl⟩
  dsimp only
  exact_mod_cast (by omega : 0 < g.n)

theorem mergeWeighted_all {E : Env T} {g src : Sk T} (hg : Inv E g) (hs : Inv E src)
    (hgn : g.k ≤ g.n) (hsn : src.k ≤ src.n) (hl : Light g src)
    (hm : g.n + src.n ≤ maxItemsSeen) : All (Merged E g src) (mergeWeighted g src) := by
  have hlen : src.data.length = src.k := by rw [hs.len]; omega
  have hglen : g.data.length = g.k := by rw [hg.len]; omega
  unfold mergeWeighted
  rw [List.range_eq_range']
  refine (weightedLoop_all hs src.k 0 _ (by omega) (winv_start hg hs hgn hsn hl)).bind
    fun st h => ?_
  obtain ⟨i, t, p⟩ := h
  rw [List.drop_zero] at p
  unfold forceIncrement
  rw [if_neg (by dsimp only; omega), ofOutcome_ok]
  refine ⟨⟨hg.two, ?_, ?_, hg.pos, ?_, ?_⟩, .inl rfl, rfl, p⟩
  · dsimp only; rw [i.len]; omega
  · dsimp only; rw [i.len, ← hglen]; exact hg.room
  · dsimp only; omega
  · intro x hx
    rcases List.mem_append.1 (p.subset hx) with h | h
    · exact hg.live x h
    · exact hs.live x h

theorem mergeWeighted_E {E : Env T} {g src : Sk T} (hg : Inv E g) (hs : Inv E src)
    (hgn : g.k ≤ g.n) (hsn : src.k ≤ src.n) (hl : Light g src)
    (hm : g.n + src.n ≤ maxItemsSeen) (p : T → Bool) :
    HasE (est p) (mergeWeighted g src) (est p g + est p src) := by
  have hlen : src.data.length = src.k := by rw [hs.len]; omega
  have hglen : g.data.length = g.k := by rw [hg.len]; omega
  have hk0 : (src.k : ℚ) ≠ 0 := by
    have := hs.two; exact_mod_cast (by omega : src.k ≠ 0)
  have hallM := mergeWeighted_all hg hs hgn hsn hl hm
  unfold mergeWeighted at hallM ⊢
  rw [List.range_eq_range'] at hallM ⊢
  have hw := winv_start hg hs hgn hsn hl
  have h1 := weightedLoop_E (tgtK := g.k) hs p src.k 0 _ (by omega) hw
  have he : wEst p g.k (g.data, (g.n : ℚ)) + (src.n : ℚ) / src.k * (src.data.drop 0).countP p
      = est p g + est p src := by
    rw [est_eq hg, est_eq hs, List.drop_zero, hglen, hlen]
    unfold wEst
    ring
  rw [he] at h1
  refine h1.bind ?_
  have hboth := (weightedLoop_all hs src.k 0 _ (by omega) hw).and hallM.of_bind
  refine hboth.mono fun st h => ?_
  obtain ⟨⟨i, t, _⟩, hM⟩ := h
  unfold forceIncrement at hM ⊢
  rw [if_neg (by dsimp only; omega), ofOutcome_ok] at hM ⊢
  have hM' : Merged E g src _ := hM
  show _ = est p _
  rw [est_eq hM'.inv]
  dsimp only
  unfold wEst
  rw [i.len, t]
  push_cast
  field_simp

theorem light_of_lt {E : Env T} {g src : Sk T} (hg : Inv E g) (hsn : src.k ≤ src.n)
    (h : implicitSampleWeight src < (g.n : ℚ) / (g.k - 1)) : Light g src := by
  unfold implicitSampleWeight at h
  rw [if_neg (by omega)] at h
  have h2 := hg.two
  have : (0 : ℚ) < g.k - 1 := by
    have : (2 : ℚ) ≤ g.k := by exact_mod_cast h2
    linarith
  rw [lt_div_iff₀ this] at h
  unfold Light
  linarith

theorem light_of_ge {E : Env T} {g src : Sk T} (hg : Inv E g) (hs : Inv E src)
    (hsn : src.k ≤ src.n)
    (h : ¬ implicitSampleWeight src < (g.n : ℚ) / (g.k - 1)) : Light src g := by
  unfold implicitSampleWeight at h
  rw [if_neg (by omega), not_lt] at h
  have h2 : (2 : ℚ) ≤ g.k := by exact_mod_cast hg.two
  have h3 : (2 : ℚ) ≤ src.k := by exact_mod_cast hs.two
  have hg1 : (0 : ℚ) < g.k - 1 := by linarith
  have hn0 : (0 : ℚ) ≤ g.n := by positivity
  have ha : (g.n : ℚ) / g.k ≤ g.n / (g.k - 1) := div_le_div_of_nonneg_left hn0 hg1 (by linarith)
  have hb : (g.n : ℚ) / g.k ≤ src.n / src.k := le_trans ha h
  rw [le_div_iff₀ (by linarith)] at hb
  have hc : (0 : ℚ) ≤ (g.n : ℚ) / g.k := by positivity
  unfold Light
  have : (src.k - 1 : ℚ) * (g.n / g.k) = g.n / g.k * src.k - g.n / g.k := by ring
  linarith

theorem twoWayMerge_all {E : Env T} (hE : E.Ok) {g src : Sk T} (hg : Inv E g) (hs : Inv E src)
    (hm : g.n + src.n ≤ maxItemsSeen) : All (Merged E g src) (twoWayMerge E g src) := by
  unfold twoWayMerge
  by_cases h1 : src.n ≤ src.k
  · rw [if_pos h1]; exact mergeStandard_all hE hg hs h1 hm
  rw [if_neg h1]
  by_cases h2 : g.n < g.k
  · rw [if_pos h2]
    exact (mergeStandard_all hE hs hg (by omega) (by omega)).mono fun _ h => h.swap
  rw [if_neg h2]
  by_cases h3 : implicitSampleWeight src < (g.n : ℚ) / (g.k - 1)
  · rw [if_pos h3]
    exact mergeWeighted_all hg hs (by omega) (by omega) (light_of_lt hg (by omega) h3) hm
  · rw [if_neg h3]
    exact (mergeWeighted_all hs hg (by omega) (by omega) (light_of_ge hg hs (by omega) h3)
      (by omega)).mono fun _ h => h.swap

theorem twoWayMerge_E {E : Env T} (hE : E.Ok) {g src : Sk T} (hg : Inv E g) (hs : Inv E src)
    (hm : g.n + src.n ≤ maxItemsSeen) (p : T → Bool) :
    HasE (est p) (twoWayMerge E g src) (est p g + est p src) := by
  unfold twoWayMerge
  by_cases h1 : src.n ≤ src.k
  · rw [if_pos h1]; exact mergeStandard_E hE hg hs h1 hm p
  rw [if_neg h1]
  by_cases h2 : g.n < g.k
  · rw [if_pos h2, add_comm]
    exact mergeStandard_E hE hs hg (by omega) (by omega) p
  rw [if_neg h2]
  by_cases h3 : implicitSampleWeight src < (g.n : ℚ) / (g.k - 1)
  · rw [if_pos h3]
    exact mergeWeighted_E hg hs (by omega) (by omega) (light_of_lt hg (by omega) h3) hm p
  · rw [if_neg h3, add_comm]
    exact mergeWeighted_E hs hg (by omega) (by omega) (light_of_ge hg hs (by omega) h3)
      (by omega) p

/-! ## Downsampling -/

/-- What a downsampled copy is. -/
structure Down (E : Env T) (s : Sk T) (newK : Nat) (c : Sk T) : Prop where
  inv : Inv E c
  k : c.k = newK
  n : c.n = s.n
  sub : List.Subperm c.data s.data

theorem downsampled_all {E : Env T} (hE : E.Ok) {s : Sk T} (hs : Inv E s) {newK : Nat}
    (h2 : 2 ≤ newK) (hk : newK < s.k) : All (Down E s newK) (downsampledCopy E s newK) := by
  have hmax := hs.max
  have hlen := hs.len
  unfold downsampledCopy
  rw [new_ok h2, ofOutcome_ok, ret_bind]
  refine (updates_all hE s.data (Inv.new s.rf h2) (by dsimp only; omega)).bind fun r h => ?_
  obtain ⟨i, k, _, n, _, p⟩ := h
  rw [live_of hs.live] at n p
  dsimp only at n k p
  rw [List.nil_append] at p
  by_cases hrn : r.n < s.n
  · rw [if_pos hrn]
    unfold forceIncrement
    rw [if_neg (by omega), ofOutcome_ok]
    refine ⟨⟨i.two, ?_, i.room, i.pos, ?_, i.live⟩, k, ?_, p⟩
    · dsimp only
      rw [i.len]
      omega
    · dsimp only; omega
    · dsimp only; omega
  · rw [if_neg hrn]
    exact ⟨i, k, by omega, p⟩

theorem downsampled_E {E : Env T} (hE : E.Ok) {s : Sk T} (hs : Inv E s) {newK : Nat}
    (h2 : 2 ≤ newK) (hk : newK < s.k) (p : T → Bool) :
    HasE (est p) (downsampledCopy E s newK) (est p s) := by
  have hmax := hs.max
  have hlen := hs.len
  have hallD := downsampled_all hE hs h2 hk
  unfold downsampledCopy at hallD ⊢
  rw [new_ok h2, ofOutcome_ok, ret_bind] at hallD ⊢
  have hi0 : Inv E ({ k := newK, n := 0, rf := s.rf, data := [], cap := initialCap newK s.rf } : Sk T) :=
    Inv.new s.rf h2
  have hm0 : 0 + s.data.length ≤ maxItemsSeen := by omega
  have h0 := updates_E hE s.data hi0 hm0 p
  rw [live_of hs.live, est_exact hi0 (Nat.zero_le _)] at h0
  have h1 := h0.affine ((s.n : ℚ) / s.data.length) 0
  have he : (s.n : ℚ) / s.data.length * (((List.countP p [] : Nat) : ℚ) + (s.data.countP p : Nat)) + 0
      = est p s := by
    rw [est_eq hs]; simp only [List.countP_nil, Nat.cast_zero, zero_add]; ring
  rw [he] at h1
  refine h1.bind ?_
  refine ((updates_all hE s.data hi0 hm0).and hallD.of_bind).mono fun r h => ?_
  obtain ⟨⟨i, k, _, n, _, pp⟩, hD⟩ := h
  rw [live_of hs.live] at n
  dsimp only at n k
  rw [zero_add] at n
  by_cases hrn : r.n < s.n
  · rw [if_pos hrn] at hD ⊢
    unfold forceIncrement at hD ⊢
    rw [if_neg (by omega), ofOutcome_ok] at hD ⊢
    have hD' : Down E s newK _ := hD
    show _ = est p _
    rw [est_eq hD'.inv, est_eq i]
    dsimp only
    have : (r.n + (s.n - r.n) : Nat) = s.n := by omega
    rw [this, n]
    have hl0 : (s.data.length : ℚ) ≠ 0 := by
      exact_mod_cast (by omega : s.data.length ≠ 0)
    field_simp
    simp
  · rw [if_neg hrn]
    show _ = est p _
    have hsl : s.data.length = s.n := by omega
    by_cases hz : s.n = 0
    · have : s.data = [] := List.length_eq_zero_iff.1 (by omega)
      rw [est_eq i, n, hsl, hz]
      simp
    · have hz' : (s.n : ℚ) ≠ 0 := by exact_mod_cast hz
      rw [hsl, div_self hz']
      ring

/-! ## The union -/

/-- The union in use. -/
structure UInv (E : Env T) (u : Un T) : Prop where
  two : 2 ≤ u.maxK
  gadget : ∀ g, u.gadget = some g → Inv E g ∧ g.k ≤ u.maxK

def Un.n (u : Un T) : Nat := match u.gadget with | none => 0 | some g => g.n
def Un.data (u : Un T) : List T := match u.gadget with | none => [] | some g => g.data
def Un.est (p : T → Bool) (u : Un T) : ℚ := match u.gadget with | none => 0 | some g => Reservoir.est p g

/-- What a step with the items `xs` and count `m` did to the union. -/
structure UStep (E : Env T) (u : Un T) (xs : List T) (m : Nat) (u' : Un T) : Prop where
  inv : UInv E u'
  maxK : u'.maxK = u.maxK
  n : u'.n = u.n + m
  sub : List.Subperm u'.data (u.data ++ xs)

theorem createNewGadget_all {E : Env T} (hE : E.Ok) {maxK : Nat} (h2 : 2 ≤ maxK) {src : Sk T}
    (hs : Inv E src) (hk : src.k ≤ maxK) :
    All (fun g => Inv E g ∧ g.k ≤ maxK ∧ g.n = src.n ∧ List.Subperm g.data src.data)
      (createNewGadget E maxK src) := by
  unfold createNewGadget
  split
  · rw [new_ok h2, ofOutcome_ok, ret_bind]
    have hi0 : Inv E ({ k := maxK, n := 0, rf := 3, data := [], cap := initialCap maxK 3 } : Sk T) :=
      Inv.new 3 h2
    refine (twoWayMerge_all hE hi0 hs (by have := hs.max; dsimp only; omega)).mono fun g h => ?_
    refine ⟨h.inv, ?_, by rw [h.n]; dsimp only; omega, by have := h.sub; rwa [List.nil_append] at this⟩
    rcases h.k with h | h
    · rw [h]
    · rw [h]; exact hk
  · exact ⟨hs, hk, rfl, List.Subperm.refl _⟩

theorem createNewGadget_E {E : Env T} (hE : E.Ok) {maxK : Nat} (h2 : 2 ≤ maxK) {src : Sk T}
    (hs : Inv E src) (p : T → Bool) :
    HasE (est p) (createNewGadget E maxK src) (est p src) := by
  unfold createNewGadget
  split
  · rw [new_ok h2, ofOutcome_ok, ret_bind]
    have hi0 : Inv E ({ k := maxK, n := 0, rf := 3, data := [], cap := initialCap maxK 3 } : Sk T) :=
      Inv.new 3 h2
    have := twoWayMerge_E hE hi0 hs (by have := hs.max; dsimp only; omega) p
    rw [est_exact hi0 (Nat.zero_le _)] at this
    simpa using this
  · exact rfl

theorem updateSketch_all {E : Env T} (hE : E.Ok) {u : Un T} (hu : UInv E u) {s : Sk T}
    (hs : Inv E s) (hm : u.n + s.n ≤ maxItemsSeen) :
    All (UStep E u s.data s.n) (u.updateSketch E (some s)) := by
  unfold Un.updateSketch
  have hris : All (fun r => Inv E r ∧ r.k ≤ u.maxK ∧ r.n = s.n ∧ List.Subperm r.data s.data)
      (u.prepare E s) := by
    unfold Un.prepare
    split
    · rename_i h
      exact (downsampled_all hE hs hu.two h).mono fun c h => ⟨h.inv, by rw [h.k], h.n, h.sub⟩
    · exact ⟨hs, by omega, rfl, List.Subperm.refl _⟩
  refine hris.bind fun r hr => ?_
  obtain ⟨ir, kr, nr, pr⟩ := hr
  unfold Un.absorb
  cases hg : u.gadget with
  | none =>
    dsimp only
    refine (createNewGadget_all hE hu.two ir kr).bind fun g h => ?_
    refine ⟨⟨hu.two, fun g' he => ?_⟩, rfl, ?_, ?_⟩
    · cases he; exact ⟨h.1, h.2.1⟩
    · simp only [Un.n, hg]; omega
    · simp only [Un.data, hg, List.nil_append]; exact h.2.2.2.trans pr
  | some g =>
    dsimp only
    have ig := hu.gadget g hg
    have hun : u.n = g.n := by simp only [Un.n, hg]
    refine (twoWayMerge_all hE ig.1 ir (by omega)).bind fun c h => ?_
    refine ⟨⟨hu.two, fun g' he => ?_⟩, rfl, ?_, ?_⟩
    · cases he
      refine ⟨h.inv, ?_⟩
      rcases h.k with h | h
      · rw [h]; exact ig.2
      · rw [h]; exact kr
    · simp only [Un.n, hg]; rw [h.n]; omega
    · simp only [Un.data, hg]; exact h.sub.trans ((List.subperm_append_left _).2 pr)

theorem updateSketch_E {E : Env T} (hE : E.Ok) {u : Un T} (hu : UInv E u) {s : Sk T}
    (hs : Inv E s) (hm : u.n + s.n ≤ maxItemsSeen) (p : T → Bool) :
    HasE (Un.est p) (u.updateSketch E (some s)) (u.est p + est p s) := by
  unfold Un.updateSketch
  have hris : All (fun r => Inv E r ∧ r.n = s.n)
      (u.prepare E s) := by
    unfold Un.prepare
    split
    · rename_i h
      exact (downsampled_all hE hs hu.two h).mono fun c h => ⟨h.inv, h.n⟩
    · exact ⟨hs, rfl⟩
  have hrisE : HasE (est p) (u.prepare E s) (est p s) := by
    unfold Un.prepare
    split
    · rename_i h
      exact downsampled_E hE hs hu.two h p
    · exact rfl
  have h1 := hrisE.affine 1 (u.est p)
  have he : 1 * est p s + u.est p = u.est p + est p s := by ring
  rw [he] at h1
  refine h1.bind (hris.mono fun r hr => ?_)
  unfold Un.absorb
  cases hg : u.gadget with
  | none =>
    dsimp only
    have hz : u.est p = 0 := by simp only [Un.est, hg]
    rw [hz, one_mul, add_zero]
    refine (createNewGadget_E hE hu.two hr.1 p).bind ?_
    have : All (fun _ => True) (createNewGadget E u.maxK r) := by
      unfold createNewGadget
      split
      · rw [new_ok hu.two, ofOutcome_ok, ret_bind]
        refine (twoWayMerge_all hE (Inv.new 3 hu.two) hr.1 ?_).mono fun _ _ => trivial
        have := hr.1.max; dsimp only; omega
      · trivial
    exact this.mono fun g _ => rfl
  | some g =>
    dsimp only
    have ig := hu.gadget g hg
    have hz : u.est p = est p g := by simp only [Un.est, hg]
    have hun : u.n = g.n := by simp only [Un.n, hg]
    rw [hz, one_mul, add_comm]
    have hmm : g.n + r.n ≤ maxItemsSeen := by omega
    refine (twoWayMerge_E hE ig.1 hr.1 hmm p).bind ?_
    exact (twoWayMerge_all hE ig.1 hr.1 hmm).mono fun c _ => rfl

theorem unUpdate_all {E : Env T} (hE : E.Ok) {u : Un T} (hu : UInv E u) {x : T}
    (hx : E.isNil x = false) (hm : u.n < maxItemsSeen) :
    All (UStep E u [x] 1) (u.update E x) := by
  unfold Un.update Un.gadgetOrNew
  rw [if_neg (by simp [hx])]
  cases hg : u.gadget with
  | none =>
    dsimp only
    rw [new_ok hu.two]
    dsimp only
    rw [ret_bind]
    refine (update_all hE (Inv.new 3 hu.two) (by dsimp only; decide) hx).bind fun g h => ?_
    obtain ⟨i, k, n, _, _, p⟩ := h
    refine ⟨⟨hu.two, fun g' he => ?_⟩, rfl, ?_, ?_⟩
    · cases he; exact ⟨i, by rw [k]⟩
    · simp only [Un.n, hg]; exact n
    · simp only [Un.data, hg, List.nil_append]; exact p
  | some g =>
    dsimp only
    rw [ret_bind]
    have ig := hu.gadget g hg
    have hun : u.n = g.n := by simp only [Un.n, hg]
    refine (update_all hE ig.1 (by omega) hx).bind fun c h => ?_
    obtain ⟨i, k, n, _, _, p⟩ := h
    refine ⟨⟨hu.two, fun g' he => ?_⟩, rfl, ?_, ?_⟩
    · cases he; exact ⟨i, by rw [k]; exact ig.2⟩
    · simp only [Un.n, hg]; exact n
    · simp only [Un.data, hg]
      exact p.trans (List.perm_append_singleton x g.data).symm.subperm

theorem unUpdate_E {E : Env T} (hE : E.Ok) {u : Un T} (hu : UInv E u) {x : T}
    (hx : E.isNil x = false) (hm : u.n < maxItemsSeen) (p : T → Bool) :
    HasE (Un.est p) (u.update E x) (u.est p + ind (p x)) := by
  unfold Un.update Un.gadgetOrNew
  rw [if_neg (by simp [hx])]
  cases hg : u.gadget with
  | none =>
    dsimp only
    rw [new_ok hu.two]
    dsimp only
    rw [ret_bind]
    have hi0 : Inv E ({ k := u.maxK, n := 0, rf := 3, data := [], cap := initialCap u.maxK 3 } : Sk T) :=
      Inv.new 3 hu.two
    have h1 := update_E hE hi0 (by dsimp only; decide) hx p
    rw [est_exact hi0 (Nat.zero_le _)] at h1
    have hz : u.est p = 0 := by simp only [Un.est, hg]
    rw [hz]
    simp only [List.countP_nil, Nat.cast_zero] at h1
    refine h1.bind ?_
    exact (update_all hE hi0 (by dsimp only; decide) hx).mono fun g _ => rfl
  | some g =>
    dsimp only
    rw [ret_bind]
    have ig := hu.gadget g hg
    have hun : u.n = g.n := by simp only [Un.n, hg]
    have hz : u.est p = est p g := by simp only [Un.est, hg]
    rw [hz]
    refine (update_E hE ig.1 (by omega) hx p).bind ?_
    exact (update_all hE ig.1 (by omega) hx).mono fun c _ => rfl

end Verif.Reservoir
