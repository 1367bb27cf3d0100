import Verif.ReservoirSerde
import Verif.ReservoirProps

/-!
# Property C81: serialization of reservoir sketches and unions
-/

namespace Verif.Reservoir

open Verif.Items Rand

variable {T : Type}

/-! ## The sketch -/

theorem alike_read {E : Env T} {s : Sk T} (hs : Inv E s) (hn : s.n ≠ 0) :
    Alike E s ⟨s.k, s.n, s.rf, s.data, s.data.length⟩ := by
  have h2 := hs.two
  have hl := hs.len
  exact ⟨hs, ⟨hs.two, hs.len, le_refl _, by show 0 < s.data.length; omega, hs.max, hs.live⟩, rfl, rfl,
    rfl, rfl⟩

theorem alike_read_empty {E : Env T} {s : Sk T} (hs : Inv E s) (hn : s.n = 0) :
    Alike E s ⟨s.k, 0, s.rf, [], initialCap s.k s.rf⟩ := by
  have hl := hs.len
  have hd : s.data = [] := List.eq_nil_of_length_eq_zero (by omega)
  exact ⟨hs, Inv.new s.rf hs.two, rfl, hn.symm, rfl, hd.symm⟩

/-- what is written and read for a sketch of the API -/
theorem sketch_serde {E : Env T} {sd : Serde T} {P : T → Prop} (hl : Lawful sd P) {s : Sk T}
    (hs : Inv E s) (hk : s.k < 2 ^ 32) (hr : s.rf ≤ 3) (hP : ∀ x ∈ s.data, P x) :
    ∃ bytes t, toSlice sd s = .ok bytes ∧ fromSlice sd bytes = .ok (Sk.raw t) ∧ Alike E s t ∧
      bytes.length = if s.n = 0 then 8 else 16 + (s.data.map sd.sizeOf).sum := by
  by_cases hn : s.n = 0
  · refine ⟨_, ⟨s.k, 0, s.rf, [], initialCap s.k s.rf⟩, toSlice_empty sd hr hn, fromSlice_empty sd hs.two hk hr, alike_read_empty hs hn, ?_⟩
    rw [if_pos hn]
    simp [emptyImage]
  · refine ⟨_, ⟨s.k, s.n, s.rf, s.data, s.data.length⟩, toSlice_full sd hr hn, fromSlice_full hl hs hk hr hn hP, alike_read hs hn, ?_⟩
    rw [if_neg hn, hl.total]
    simp [fullImage]
    omega

/-- **C81** Any sampled stream: the sketch is written in 8 bytes (empty) or 16 bytes and the sizes of
its samples, and read back with the same `k`, `n`, resize factor and samples.  From then on it
behaves like the original: with the same random numbers it takes the same course on every further
stream. -/
theorem C81_sketch (E : Env T) (hE : E.Ok) {sd : Serde T} {P : T → Prop} (hl : Lawful sd P) {k : Nat}
    (hk : 2 ≤ k) (hk' : k < 2 ^ 32) {rf : Nat} (hr : rf ≤ 3) (stream : List T)
    (hm : stream.length ≤ maxItemsSeen) (hP : ∀ x ∈ stream, P x) :
    All (fun s => ∃ bytes t, toSlice sd s = .ok bytes ∧ fromSlice sd bytes = .ok (Sk.raw t) ∧
        bytes.length = (if s.n = 0 then 8 else 16 + (s.data.map sd.sizeOf).sum) ∧
        t.k = s.k ∧ t.n = s.n ∧ t.rf = s.rf ∧ t.data = s.data ∧
        ∀ more, Sim (fun a b => b.k = a.k ∧ b.n = a.n ∧ b.rf = a.rf ∧ b.data = a.data)
          (updates E s more) (updates E t more))
      (sample E k rf stream) := by
  rw [sample_eq E hk]
  refine (updates_all hE stream (Inv.new rf hk) (by dsimp only; omega)).mono fun s h => ?_
  obtain ⟨hs, ek, er, _, _, hp⟩ := h
  dsimp only at ek er hp
  rw [List.nil_append] at hp
  obtain ⟨b, t, h1, h2, ha, h3⟩ := sketch_serde hl hs (by omega) (by omega)
    (fun x hx => hP x (List.mem_of_mem_filter (hp.subset hx)))
  refine ⟨b, t, h1, h2, h3, ha.k, ha.n, ha.rf, ha.data, fun more => ?_⟩
  have := (updates_sim hE more ha).bind (Q := fun a b => b.k = a.k ∧ b.n = a.n ∧ b.rf = a.rf ∧ b.data = a.data)
    (f := Rand.ret) (f' := Rand.ret) (fun a b hab => .ret ⟨hab.k, hab.n, hab.rf, hab.data⟩)
  rwa [Rand.bind_ret, Rand.bind_ret] at this

/-- **C81** a resize factor other than 0..3 is accepted by the constructor but refused by the writer -/
theorem C81_bad_resize (sd : Serde T) {s : Sk T} (h : 3 < s.rf) :
    toSlice sd s = .err "unsupported resize factor" := by
  unfold toSlice rfBits
  rw [if_neg (by omega)]
  rfl

/-! ## The union -/

/-- the image of a union with samples -/
def unionImage (sd : Serde T) (maxK : Nat) (g : Sk T) : List Nat :=
  toLE 1 1 ++ (toLE 1 2 ++ (toLE 1 12 ++ (toLE 1 0 ++ (toLE 4 maxK ++ (fullImage sd g ++ [])))))

/-- the image of a union without samples -/
def unionEmptyImage (maxK : Nat) : List Nat :=
  toLE 1 1 ++ (toLE 1 2 ++ (toLE 1 12 ++ (toLE 1 4 ++ (toLE 4 maxK ++ []))))

theorem head_ok (u : Un T) {flags : Nat} (hf : flags < 256) (room : Nat) :
    Un.toSlice.head u flags room = .ok (Buf (toLE 1 1 ++ (toLE 1 2 ++ (toLE 1 12 ++
      (toLE 1 flags ++ toLE 4 u.maxK)))) room) := by
  unfold Un.toSlice.head
  rw [byte_toLE hf, byte_toLE (show 1 < 256 by omega), byte_toLE (show 2 < 256 by omega),
    byte_toLE (show 12 < 256 by omega), show List.replicate (8 + room) 0 = Buf [] (8 + room) by simp [Buf]]
  rw [put_buf (by simp) (by simp only [toLE_length]; omega), Outcome.ok_bind]
  rw [put_buf (by simp) (by simp only [toLE_length]; omega), Outcome.ok_bind]
  rw [put_buf (by simp) (by simp only [toLE_length]; omega), Outcome.ok_bind]
  rw [put_buf (by simp) (by simp only [toLE_length]; omega), Outcome.ok_bind]
  rw [put_buf (by simp) (by simp only [toLE_length]; omega)]
  simp only [toLE_length, List.nil_append, List.append_assoc]
  congr 2
  omega

theorem unionToSlice_empty {E : Env T} (sd : Serde T) {u : Un T} (hu : UInv E u) (hn : u.n = 0) :
    u.toSlice sd = .ok (unionEmptyImage u.maxK) := by
  have hh := head_ok u (flags := 4) (by omega) 0
  have he : Un.toSlice.head u 4 0 = .ok (unionEmptyImage u.maxK) := by
    rw [hh, buf_zero]; simp [unionEmptyImage]
  unfold Un.toSlice
  cases hg : u.gadget with
  | none => exact he
  | some g =>
    have hl := (hu.gadget g hg).1.len
    have : g.n = 0 := by simpa [Un.n, hg] using hn
    dsimp only
    rw [if_pos (by unfold Sk.numSamples; omega)]
    exact he

theorem unionToSlice_full {E : Env T} (sd : Serde T) {u : Un T} {g : Sk T} (hg : u.gadget = some g)
    (hs : Inv E g) (hr : g.rf ≤ 3) (hn : g.n ≠ 0) : u.toSlice sd = .ok (unionImage sd u.maxK g) := by
  have hl := hs.len
  have h2 := hs.two
  unfold Un.toSlice
  rw [hg]
  dsimp only
  rw [if_neg (by unfold Sk.numSamples; omega), toSlice_full sd hr hn, Outcome.ok_bind,
    head_ok u (by omega), Outcome.ok_bind, copy_buf (by simp) (by simp)]
  simp [unionImage]

theorem unionFromSlice_empty (E : Env T) (sd : Serde T) {maxK : Nat} (hk : maxK < 2 ^ 32) :
    unionFromSlice E sd (unionEmptyImage maxK) = .ret (newUnion maxK) := by
  have g0 : getLE (unionEmptyImage maxK) 0 1 = .ok 1 := by unfold unionEmptyImage; readLE
  have g1 : getLE (unionEmptyImage maxK) 1 1 = .ok 2 := by unfold unionEmptyImage; readLE
  have g2 : getLE (unionEmptyImage maxK) 2 1 = .ok 12 := by unfold unionEmptyImage; readLE
  have g3 : getLE (unionEmptyImage maxK) 3 1 = .ok 4 := by unfold unionEmptyImage; readLE
  have g4 : getLE (unionEmptyImage maxK) 4 4 = .ok maxK := by unfold unionEmptyImage; readLE
  have hl : (unionEmptyImage maxK).length = 8 := by simp [unionEmptyImage]
  unfold unionFromSlice readSize
  simp [hl, g0, g1, g2, g3, g4]

theorem unionFromSlice_full {E : Env T} {sd : Serde T} {P : T → Prop} (hl : Lawful sd P)
    {maxK : Nat} (hk : maxK < 2 ^ 32) {g : Sk T} (hs : Inv E g) (hgk : g.k ≤ maxK) (hr : g.rf ≤ 3)
    (hn : g.n ≠ 0) (hP : ∀ x ∈ g.data, P x) :
    unionFromSlice E sd (unionImage sd maxK g) =
      (newUnion maxK : Un T).updateSketch E (some ⟨g.k, g.n, g.rf, g.data, g.data.length⟩) := by
  have g0 : getLE (unionImage sd maxK g) 0 1 = .ok 1 := by unfold unionImage; readLE
  have g1 : getLE (unionImage sd maxK g) 1 1 = .ok 2 := by unfold unionImage; readLE
  have g2 : getLE (unionImage sd maxK g) 2 1 = .ok 12 := by unfold unionImage; readLE
  have g3 : getLE (unionImage sd maxK g) 3 1 = .ok 0 := by unfold unionImage; readLE
  have g4 : getLE (unionImage sd maxK g) 4 4 = .ok maxK := by unfold unionImage; readLE
  have hlen : (unionImage sd maxK g).length = 8 + (fullImage sd g).length := by
    simp [unionImage]; omega
  have hfl : 16 ≤ (fullImage sd g).length := by simp [fullImage]; omega
  have hsl : slice (unionImage sd maxK g) 8 (unionImage sd maxK g).length = .ok (fullImage sd g) := by
    rw [hlen]
    have := slice_here (a := toLE 1 1 ++ (toLE 1 2 ++ (toLE 1 12 ++ (toLE 1 0 ++ toLE 4 maxK))))
      (b := fullImage sd g) (c := []) (o := 8) (by simp) (e := 8 + (fullImage sd g).length) rfl
    simp only [List.append_assoc] at this
    exact this
  unfold unionFromSlice readSize
  rw [if_neg (by omega)]
  simp only [g0, g1, g2, g3, g4, ofOutcome_ok, ret_bind, Outcome.ok_bind]
  rw [if_neg (by decide), if_neg (by decide), if_neg (by decide), ofOutcome_ok, ret_bind,
    if_neg (by decide), if_neg (by omega), hsl, ofOutcome_ok, ret_bind,
    fromSlice_full hl hs (by omega) hr hn hP, ofOutcome_ok, ret_bind]
  unfold Raw.sk
  rw [if_pos (by simp)]
  simp

/-- what reading does to a union that is not empty -/
theorem reread_all {E : Env T} (hE : E.Ok) {maxK : Nat} (h2 : 2 ≤ maxK) {s : Sk T} (hs : Inv E s)
    (hk : s.k ≤ maxK) :
    All (fun u' => UInv E u' ∧ u'.maxK = maxK ∧ ∃ g, u'.gadget = some g ∧ g.n = s.n ∧
        g.data = s.data ∧ g.k = if s.k < maxK ∧ s.n ≤ s.k then maxK else s.k)
      ((newUnion maxK : Un T).updateSketch E (some s)) := by
  unfold Un.updateSketch Un.prepare
  have hnm : (newUnion maxK : Un T).maxK = maxK := rfl
  rw [hnm]
  dsimp only
  rw [if_neg (show ¬ s.k > maxK by omega), ret_bind]
  unfold Un.absorb
  have hng : (newUnion maxK : Un T).gadget = none := rfl
  rw [hng, hnm]
  dsimp only
  unfold createNewGadget
  by_cases hc : s.k < maxK ∧ s.n ≤ s.k
  · rw [if_pos hc, if_pos hc, new_ok h2, ofOutcome_ok, ret_bind]
    unfold twoWayMerge
    rw [if_pos hc.2, mergeStandard_eq hs]
    have hi0 : Inv E ({ k := maxK, n := 0, rf := 3, data := [], cap := initialCap maxK 3 } : Sk T) :=
      Inv.new 3 h2
    have hlen := hs.len
    have hmax := hs.max
    refine (updates_all hE s.data hi0 (by dsimp only; omega)).bind fun g h => ?_
    obtain ⟨ig, kg, _, ng, dg, _⟩ := h
    rw [live_of hs.live] at ng dg
    dsimp only at kg ng dg
    have hd := dg (by omega)
    rw [List.nil_append] at hd
    refine ⟨⟨h2, fun g' he => ?_⟩, rfl, g, rfl, by omega, hd, ?_⟩
    · cases he
      exact ⟨ig, by show g.k ≤ maxK; omega⟩
    · exact kg
  · rw [if_neg hc, if_neg hc, ret_bind]
    refine ⟨⟨h2, fun g' he => ?_⟩, rfl, s, rfl, rfl, rfl, rfl⟩
    cases he
    exact ⟨hs, hk⟩

/-- what is written and read for a union of the API -/
theorem union_serde {E : Env T} (hE : E.Ok) {sd : Serde T} {P : T → Prop} (hl : Lawful sd P)
    {u : Un T} (hu : UInv E u) (hk : u.maxK < 2 ^ 32) (hr : ∀ g, u.gadget = some g → g.rf ≤ 3)
    (hP : ∀ x ∈ u.data, P x) :
    ∃ bytes, u.toSlice sd = .ok bytes ∧
      All (fun u' => UInv E u' ∧ u'.maxK = u.maxK ∧ u'.n = u.n ∧ u'.data = u.data ∧
        ∀ g, u.gadget = some g → g.n ≠ 0 → ∃ g', u'.gadget = some g' ∧
          g'.k = if g.k < u.maxK ∧ g.n ≤ g.k then u.maxK else g.k) (unionFromSlice E sd bytes) := by
  by_cases hn : u.n = 0
  · refine ⟨_, unionToSlice_empty sd hu hn, ?_⟩
    rw [unionFromSlice_empty E sd hk]
    have hd : u.data = [] := by
      unfold Un.data
      cases hg : u.gadget with
      | none => rfl
      | some g =>
        have hl := (hu.gadget g hg).1.len
        have : g.n = 0 := by simpa [Un.n, hg] using hn
        exact List.eq_nil_of_length_eq_zero (by dsimp only; omega)
    refine ⟨newUnion_inv E hu.two, rfl, by rw [hn]; rfl, by rw [hd]; rfl, fun g hg h0 => ?_⟩
    have : g.n = 0 := by simpa [Un.n, hg] using hn
    exact absurd this h0
  · cases hg : u.gadget with
    | none => simp [Un.n, hg] at hn
    | some g =>
      have hgn : g.n ≠ 0 := by simpa [Un.n, hg] using hn
      obtain ⟨ig, kg⟩ := hu.gadget g hg
      have hd : u.data = g.data := by simp [Un.data, hg]
      have hun : u.n = g.n := by simp [Un.n, hg]
      refine ⟨_, unionToSlice_full sd hg ig (hr g hg) hgn, ?_⟩
      rw [unionFromSlice_full hl hk ig kg (hr g hg) hgn (by rw [← hd]; exact hP)]
      refine (reread_all hE hu.two (alike_read ig hgn).inv' kg).mono fun u' h => ?_
      obtain ⟨iu, mk, g', e1, e2, e3, e4⟩ := h
      refine ⟨iu, mk, by rw [hun]; simp [Un.n, e1, e2], by rw [hd]; simp [Un.data, e1, e3], ?_⟩
      intro g2 hg2 _
      cases hg2
      exact ⟨g', e1, e4⟩

/-- what a union that was never reset satisfies in addition: the gadget has the full size or is in
sampling mode, and a resize factor that can be written -/
def Full (u : Un T) : Prop := ∀ g, u.gadget = some g → (g.k = u.maxK ∨ g.k < g.n) ∧ g.rf ≤ 3

theorem mergeWeighted_keeps {g src : Sk T} {Q : Sk T → Prop}
    (h : All Q (mergeWeighted g src)) :
    All (fun c => Q c ∧ c.k = g.k ∧ c.rf = g.rf ∧ c.n = g.n + src.n) (mergeWeighted g src) := by
  unfold mergeWeighted at h ⊢
  refine h.of_bind.bind fun st hst => ?_
  unfold forceIncrement at hst ⊢
  dsimp only at hst ⊢
  by_cases hc : g.n + src.n > maxItemsSeen
  · rw [if_pos hc] at hst
    exact hst.elim
  · rw [if_neg hc] at hst ⊢
    exact ⟨hst, rfl, rfl, rfl⟩

theorem mergeStandard_keeps {E : Env T} (hE : E.Ok) {g src : Sk T} (hg : Inv E g) (hs : Inv E src)
    (hn : src.n ≤ src.k) (hm : g.n + src.n ≤ maxItemsSeen) :
    All (fun c => c.k = g.k ∧ c.rf = g.rf ∧ c.n = g.n + src.n) (mergeStandard E g src) := by
  have hlen : src.data.length = src.n := by rw [hs.len]; omega
  rw [mergeStandard_eq hs]
  refine (updates_all hE src.data hg (by omega)).mono fun s' h => ?_
  obtain ⟨_, k, r, n, _, _⟩ := h
  rw [live_of hs.live] at n
  exact ⟨k, r, by omega⟩

theorem twoWayMerge_full {E : Env T} (hE : E.Ok) {maxK : Nat} {g src : Sk T} (hg : Inv E g)
    (hs : Inv E src) (hm : g.n + src.n ≤ maxItemsSeen) (h1 : (g.k = maxK ∨ g.k < g.n) ∧ g.rf ≤ 3)
    (h2 : src.rf ≤ 3) :
    All (fun c => (c.k = maxK ∨ c.k < c.n) ∧ c.rf ≤ 3) (twoWayMerge E g src) := by
  have hs2 := hs.two
  have hall := twoWayMerge_all hE hg hs hm
  unfold twoWayMerge at hall ⊢
  by_cases c1 : src.n ≤ src.k
  · rw [if_pos c1]
    refine (mergeStandard_keeps hE hg hs c1 hm).mono fun c ⟨a, b, d⟩ => ⟨?_, by omega⟩
    rcases h1.1 with h | h
    · exact Or.inl (by omega)
    · exact Or.inr (by omega)
  rw [if_neg c1] at hall ⊢
  by_cases c2 : g.n < g.k
  · rw [if_pos c2]
    refine (mergeStandard_keeps hE hs hg (by omega) (by omega)).mono fun c ⟨a, b, d⟩ => ⟨?_, by omega⟩
    exact Or.inr (by omega)
  rw [if_neg c2] at hall ⊢
  by_cases c3 : implicitSampleWeight src < (g.n : ℚ) / (g.k - 1)
  · rw [if_pos c3] at hall ⊢
    refine (mergeWeighted_keeps hall).mono fun c ⟨_, a, b, d⟩ => ⟨Or.inr (by omega), by omega⟩
  · rw [if_neg c3] at hall ⊢
    refine (mergeWeighted_keeps hall).mono fun c ⟨_, a, b, d⟩ => ⟨Or.inr (by omega), by omega⟩

theorem updateSketch_full {E : Env T} (hE : E.Ok) {u : Un T} (hu : UInv E u) (hf : Full u) {s : Sk T}
    (hs : Inv E s) (hr : s.rf ≤ 3) (hm : u.n + s.n ≤ maxItemsSeen) :
    All Full (u.updateSketch E (some s)) := by
  unfold Un.updateSketch
  have hris : All (fun r => Inv E r ∧ r.k ≤ u.maxK ∧ r.n = s.n ∧ r.rf ≤ 3) (u.prepare E s) := by
    unfold Un.prepare
    split
    · rename_i h
      have hd := downsampled_all hE hs hu.two h
      unfold downsampledCopy at hd ⊢
      rw [new_ok hu.two, ofOutcome_ok, ret_bind] at hd ⊢
      have hlen := hs.len
      have hmax := hs.max
      refine ((updates_all hE s.data (Inv.new s.rf hu.two) (by dsimp only; omega)).and hd.of_bind).bind
        fun r ⟨h, hq⟩ => ?_
      obtain ⟨i, k, rr, n, _, p⟩ := h
      dsimp only at rr
      by_cases hrn : r.n < s.n
      · rw [if_pos hrn] at hq ⊢
        unfold forceIncrement at hq ⊢
        by_cases hc : r.n + (s.n - r.n) > maxItemsSeen
        · rw [if_pos hc] at hq; exact hq.elim
        · rw [if_neg hc] at hq ⊢
          exact ⟨hq.inv, by rw [hq.k], hq.n, by show r.rf ≤ 3; omega⟩
      · rw [if_neg hrn] at hq ⊢
        exact ⟨hq.inv, by rw [hq.k], hq.n, by omega⟩
    · exact ⟨hs, by omega, rfl, hr⟩
  refine hris.bind fun r ⟨ir, kr, nr, rr⟩ => ?_
  unfold Un.absorb
  cases hg : u.gadget with
  | none =>
    dsimp only
    have hc : All (fun c : Sk T => (c.k = u.maxK ∨ c.k < c.n) ∧ c.rf ≤ 3) (createNewGadget E u.maxK r) := by
      unfold createNewGadget
      by_cases h : r.k < u.maxK ∧ r.n ≤ r.k
      · rw [if_pos h, new_ok hu.two, ofOutcome_ok, ret_bind]
        exact twoWayMerge_full hE (Inv.new 3 hu.two) ir (by dsimp only; have := ir.max; omega)
          ⟨Or.inl rfl, le_refl _⟩ rr
      · rw [if_neg h]
        refine ⟨?_, rr⟩
        by_cases h' : r.k = u.maxK
        · exact Or.inl h'
        · exact Or.inr (by omega)
    refine hc.bind fun c h g' he => ?_
    cases he
    exact h
  | some g =>
    dsimp only
    have ig := (hu.gadget g hg).1
    have hun : u.n = g.n := by simp only [Un.n, hg]
    refine (twoWayMerge_full hE ig ir (by omega) (hf g hg) rr).bind fun c h g' he => ?_
    cases he
    exact h

/-- resize factors of the inputs -/
def Input.RfOk : Input T → Prop
  | item _ => True
  | sketch _ rf _ => rf ≤ 3

theorem feed_full {E : Env T} (hE : E.Ok) {u : Un T} (hu : UInv E u) (hf : Full u) (i : Input T)
    (hi : i.Ok) (hr : i.RfOk) (hm : u.n + i.items.length ≤ maxItemsSeen) : All Full (feed E u i) := by
  cases i with
  | item x =>
    simp only [feed]
    simp only [Input.items, List.length_singleton] at hm
    unfold Un.update
    cases hx : E.isNil x with
    | true => exact hf
    | false =>
      rw [if_neg (by simp)]
      unfold Un.gadgetOrNew
      cases hg : u.gadget with
      | none =>
        dsimp only
        rw [new_ok hu.two]
        dsimp only
        rw [ret_bind]
        refine (update_all hE (Inv.new 3 hu.two) (by dsimp only; omega) hx).bind fun c h g' he => ?_
        cases he
        obtain ⟨_, a, b, d, _⟩ := h
        dsimp only at a b d
        exact ⟨Or.inl a, by omega⟩
      | some g =>
        dsimp only
        rw [ret_bind]
        have hun : u.n = g.n := by simp only [Un.n, hg]
        refine (update_all hE (hu.gadget g hg).1 (by omega) hx).bind fun c h g' he => ?_
        cases he
        obtain ⟨_, a, b, d, _⟩ := h
        have h0 := hf g hg
        refine ⟨?_, by omega⟩
        rcases h0.1 with h | h
        · exact Or.inl (by show c.k = u.maxK; omega)
        · exact Or.inr (by omega)
  | sketch k rf stream =>
    simp only [feed]
    simp only [Input.items] at hm
    have hk : 2 ≤ k := hi
    have hr' : rf ≤ 3 := hr
    rw [sample_eq E hk]
    refine (updates_all hE stream (Inv.new rf hk) (by dsimp only; omega)).bind fun s h => ?_
    obtain ⟨is, _, r, n, _, p⟩ := h
    simp only [zero_add] at n r
    have hll : (live E stream).length ≤ stream.length := List.length_filter_le _ _
    exact updateSketch_full hE hu hf is (by omega) (by omega)

theorem fold_full {E : Env T} (hE : E.Ok) (inputs : List (Input T)) {u : Un T} (hu : UInv E u)
    (hf : Full u) (hi : ∀ i ∈ inputs, i.Ok ∧ i.RfOk)
    (hm : u.n + (allItems inputs).length ≤ maxItemsSeen) :
    All Full (inputs.foldlM (feed E) u) := by
  induction inputs generalizing u with
  | nil => exact hf
  | cons i inputs ih =>
    have hall : allItems (i :: inputs) = i.items ++ allItems inputs := by simp [allItems]
    have hll : (live E i.items).length ≤ i.items.length := List.length_filter_le _ _
    rw [hall, List.length_append] at hm
    rw [List.foldlM_cons]
    have hii := hi i (by simp)
    refine ((feed_all hE hu i hii.1 (by omega)).and (feed_full hE hu hf i hii.1 hii.2 (by omega))).bind
      fun u1 ⟨h1, h2⟩ => ?_
    exact ih h1.inv h2 (fun j hj => hi j (by simp [hj])) (by rw [h1.n]; omega)

/-- **C81** Any union of single items and sampled streams: it is written and read back with the same
`maxK`, the same number of items seen and the same samples, and the result keeps its `k`. -/
theorem C81_union (E : Env T) (hE : E.Ok) {sd : Serde T} {P : T → Prop} (hl : Lawful sd P) {maxK : Nat}
    (hk : 2 ≤ maxK) (hk' : maxK < 2 ^ 32) (inputs : List (Input T)) (hi : ∀ i ∈ inputs, i.Ok ∧ i.RfOk)
    (hm : (allItems inputs).length ≤ maxItemsSeen) (hP : ∀ x ∈ allItems inputs, P x) :
    All (fun u => ∃ bytes, u.toSlice sd = .ok bytes ∧
        All (fun u' => u'.maxK = u.maxK ∧ u'.n = u.n ∧ u'.data = u.data ∧
          (u.n ≠ 0 → u'.gadget.map Sk.k = u.gadget.map Sk.k)) (unionFromSlice E sd bytes))
      (unionOf E maxK inputs) := by
  unfold unionOf
  have h0 := newUnion_inv E (T := T) hk
  refine ((fold_all hE inputs h0 (fun i h => (hi i h).1) (by simpa [Un.n, newUnion] using hm)).and
    (fold_full hE inputs h0 (fun g h => by cases h) hi (by simpa [Un.n, newUnion] using hm))).mono
    fun u ⟨h1, h2⟩ => ?_
  have hmk : u.maxK = maxK := h1.maxK
  obtain ⟨b, e, ha⟩ := union_serde hE hl h1.inv (by omega) (fun g hg => (h2 g hg).2)
    (fun x hx => hP x (by
      have := h1.sub.subset hx
      simp only [Un.data, newUnion, List.nil_append] at this
      exact List.mem_of_mem_filter this))
  refine ⟨b, e, ha.mono fun u' ⟨_, a1, a2, a3, a4⟩ => ⟨a1, a2, a3, fun hn => ?_⟩⟩
  cases hg : u.gadget with
  | none => simp [Un.n, hg] at hn
  | some g =>
    have hgn : g.n ≠ 0 := by simpa [Un.n, hg] using hn
    obtain ⟨g', e1, e2⟩ := a4 g hg hgn
    have hf := (h2 g hg).1
    rw [e1]
    simp only [Option.map_some, Option.some.injEq]
    rw [e2]
    by_cases hc : g.k < u.maxK ∧ g.n ≤ g.k
    · omega
    · rw [if_neg hc]

/-- **C81** for every union of the API, also after `Reset`: the same, but a gadget of smaller size
in exact mode comes back with the full size `maxK` -/
theorem C81_union_any (E : Env T) (hE : E.Ok) {sd : Serde T} {P : T → Prop} (hl : Lawful sd P)
    {u : Un T} (hu : UInv E u) (hk : u.maxK < 2 ^ 32) (hr : ∀ g, u.gadget = some g → g.rf ≤ 3)
    (hP : ∀ x ∈ u.data, P x) :
    ∃ bytes, u.toSlice sd = .ok bytes ∧
      All (fun u' => u'.maxK = u.maxK ∧ u'.n = u.n ∧ u'.data = u.data ∧
        ∀ g, u.gadget = some g → g.n ≠ 0 → ∃ g', u'.gadget = some g' ∧
          g'.k = if g.k < u.maxK ∧ g.n ≤ g.k then u.maxK else g.k) (unionFromSlice E sd bytes) := by
  obtain ⟨b, e, h⟩ := union_serde hE hl hu hk hr hP
  exact ⟨b, e, h.mono fun u' h => h.2⟩

/-! ## The legacy size code -/

/-- **C81** the 16-bit size code of the old format is monotone, and covers 1 to `2^31 - 1` -/
theorem C81_legacy_size {a b : Nat} (h : a ≤ b) (hb : b ≤ 0xF7FF) :
    ∃ x y, decodeSize a = .ok x ∧ decodeSize b = .ok y ∧ 1 ≤ x ∧ x ≤ y ∧ y < 2 ^ 31 := by
  have hp : ∀ e, e ≤ 0xF7FF → (e >>> 11) &&& 0x1F = e / 2048 ∧ e &&& 0x7FF = e % 2048 := by
    intro e he
    have h1 : e >>> 11 = e / 2048 := by rw [Nat.shiftRight_eq_div_pow]
    have h2 : (31 : Nat) = 2 ^ 5 - 1 := rfl
    have h3 : (2047 : Nat) = 2 ^ 11 - 1 := rfl
    rw [h1, h2, h3, Nat.and_two_pow_sub_one_eq_mod, Nat.and_two_pow_sub_one_eq_mod]
    exact ⟨by omega, rfl⟩
  unfold decodeSize
  rw [if_neg (by omega), if_neg (by omega)]
  dsimp only
  obtain ⟨a1, a2⟩ := hp a (by omega)
  obtain ⟨b1, b2⟩ := hp b hb
  rw [a1, a2, b1, b2]
  refine ⟨_, _, rfl, rfl, ?_, ?_, ?_⟩
  · rw [Nat.le_div_iff_mul_le (by norm_num)]
    have : 1 ≤ 2 ^ (a / 2048) := Nat.one_le_two_pow
    nlinarith [Nat.zero_le (a % 2048)]
  · apply Nat.div_le_div_right
    by_cases hq : a / 2048 = b / 2048
    · rw [hq]
      exact Nat.mul_le_mul_left _ (by omega)
    · have hlt : a / 2048 + 1 ≤ b / 2048 := by omega
      calc 2 ^ (a / 2048) * (a % 2048 + 2048) ≤ 2 ^ (a / 2048) * 4096 := Nat.mul_le_mul_left _ (by omega)
        _ = 2 ^ (a / 2048 + 1) * 2048 := by ring
        _ ≤ 2 ^ (b / 2048) * 2048 := Nat.mul_le_mul_right _ (Nat.pow_le_pow_right (by norm_num) hlt)
        _ ≤ 2 ^ (b / 2048) * (b % 2048 + 2048) := Nat.mul_le_mul_left _ (by omega)
  · rw [Nat.div_lt_iff_lt_mul (by norm_num)]
    calc 2 ^ (b / 2048) * (b % 2048 + 2048) < 2 ^ (b / 2048) * 4096 :=
          Nat.mul_lt_mul_of_pos_left (by omega) (by positivity)
      _ ≤ 2 ^ 30 * 4096 := Nat.mul_le_mul_right _ (Nat.pow_le_pow_right (by norm_num) (by omega))
      _ = 2 ^ 31 * 2048 := by norm_num

/-! ## Weaknesses of the reader -/

/-- **C81** the reader panics on these eight bytes (not marked empty, but too short for `n`) -/
theorem C81_reader_panics (sd : Serde T) : fromSlice sd [0xC2, 2, 11, 0, 2, 0, 0, 0] = .panic := rfl

/-- **C81** the reader accepts a negative number of items -/
theorem C81_reader_negative (sd : Serde T) (hd : ∀ mem o, sd.deser mem o 0 = .ok []) :
    fromSlice sd [0xC2, 2, 11, 0, 2, 0, 0, 0, 255, 255, 255, 255, 255, 255, 255, 255] =
      .ok ⟨2, -1, 3, [], 0⟩ := by
  have h : (min (-1 : Int) ((2 : Nat) : Int)).toNat = 0 := by decide
  show (sd.deser _ 16 (min (-1 : Int) ((2 : Nat) : Int)).toNat >>= fun items => fromStates items (-1) 3 2) = _
  rw [h, hd]
  rfl

/-- **C81** `k` is written in 32 bits: an empty sketch comes back with `k` modulo `2^32` -/
theorem C81_large_k (sd : Serde T) {s : Sk T} (hn : s.n = 0) (hr : s.rf ≤ 3) (h2 : 2 ≤ s.k % 2 ^ 32) :
    ∃ (bytes : List Nat) (t : Sk T), toSlice sd s = .ok bytes ∧ fromSlice sd bytes = .ok (Sk.raw t) ∧
      t.k = s.k % 2 ^ 32 := by
  have h : emptyImage s = emptyImage (⟨s.k % 2 ^ 32, 0, s.rf, [], 0⟩ : Sk T) := by
    have hle : toLE 4 s.k = toLE 4 (s.k % 2 ^ 32) := by
      simp only [toLE, List.cons.injEq, and_true]
      omega
    simp only [emptyImage, hle]
  refine ⟨_, ⟨s.k % 2 ^ 32, 0, s.rf, [], initialCap (s.k % 2 ^ 32) s.rf⟩, toSlice_empty sd hr hn, ?_, rfl⟩
  rw [h]
  exact fromSlice_empty sd (s := ⟨s.k % 2 ^ 32, 0, s.rf, [], 0⟩) h2 (Nat.mod_lt _ (by norm_num)) hr

/-! ## Examples -/

/-- hypotheses of `C81_sketch` and `C81_union` -/
example : natEnv.Ok ∧ Lawful longs (fun v => v < 256 ^ 8) ∧ (∀ x ∈ [1, 2, 3, 4], x < 256 ^ 8) ∧
    (∀ i ∈ [Input.item 7, .sketch 2 3 [1, 2, 3]], i.Ok ∧ i.RfOk) :=
  ⟨natEnv_ok, fixed_lawful 8, by decide, by
    intro i hi
    simp only [List.mem_cons, List.not_mem_nil, or_false] at hi
    rcases hi with rfl | rfl
    · exact ⟨trivial, trivial⟩
    · exact ⟨le_refl 2, le_refl 3⟩⟩

/-- a sketch in sampling mode, written and read -/
example : toSlice longs (⟨2, 5, 3, [9, 300], 2⟩ : Sk Nat) =
    .ok [194, 2, 11, 0, 2, 0, 0, 0, 5, 0, 0, 0, 0, 0, 0, 0, 9, 0, 0, 0, 0, 0, 0, 0, 44, 1, 0, 0, 0, 0, 0, 0] ∧
    fromSlice longs [194, 2, 11, 0, 2, 0, 0, 0, 5, 0, 0, 0, 0, 0, 0, 0, 9, 0, 0, 0, 0, 0, 0, 0, 44, 1, 0,
      0, 0, 0, 0, 0] = .ok (⟨2, 5, 3, [9, 300], 2⟩ : Raw Nat) := by decide +kernel

end Verif.Reservoir
