import Verif.HllSerdeRun

/-!
# HLL: unions survive being written
-/

namespace Verif.Hll

variable {H : Type}

/-! ## `curMin` in a union -/

/-- of the 8-bit type, with `curMin = 0` -/
def Z8 (s : Sk H) : Prop := s.typ = .hll8 ∧ ∀ a, s = .hll a → a.curMin = 0

theorem promoteToHll_z8 {F : Fl H} {c : Coup} {a : Arr H} (h : promoteToHll F c = .ok a)
    (hc : c.typ = .hll8) : a.typ = .hll8 ∧ a.curMin = 0 := by
  unfold promoteToHll at h
  obtain ⟨b, hb, h⟩ := Outcome.bind_eq_ok.mp h
  have := foldlM_inv (fun a : Arr H => a.typ = .hll8 ∧ a.curMin = 0) (by
    intro s x s' hs hx
    unfold promoteStep at hx
    split at hx
    · have h4 : s.typ ≠ .hll4 := by rw [hs.1]; simp
      have := couponUpdate_keep h4 hx
      exact ⟨by rw [this.1]; exact hs.1, by rw [this.2 h4]; exact hs.2⟩
    · cases hx; exact hs) ⟨hc, rfl⟩ hb
  cases h
  exact this

theorem setUpdate_z8 {F : Fl H} {d : Coup} {c : Nat} {s : Sk H} (h : setUpdate F d c = .ok s)
    (hd : d.typ = .hll8) : Z8 s := by
  unfold setUpdate at h
  obtain ⟨e, _, h⟩ := Outcome.bind_eq_ok.mp h
  have hset : ∀ c : Coup, c.typ = .hll8 → Z8 (Sk.set c : Sk H) :=
    fun c hc => ⟨hc, fun a ha => by cases ha⟩
  cases e with
  | empty i =>
    simp only at h
    split at h
    · cases h; exact hset _ hd
    · split at h
      · obtain ⟨b, hb, h⟩ := Outcome.bind_eq_ok.mp h
        cases h
        have := promoteToHll_z8 hb hd
        exact ⟨this.1, fun a ha => by cases ha; exact this.2⟩
      · obtain ⟨b, hb, h⟩ := Outcome.bind_eq_ok.mp h
        cases h
        exact hset _ hd
  | _ => cases h; exact hset _ hd

theorem promoteToSet_z8 {F : Fl H} {d c : Coup} (h : promoteToSet F d = .ok c)
    (hd : d.typ = .hll8) : c.typ = .hll8 := by
  unfold promoteToSet at h
  obtain ⟨s, hs, h⟩ := Outcome.bind_eq_ok.mp h
  have h0 : s.typ = .hll8 := by
    unfold newSet at hs
    split at hs
    · cases hs
    · cases hs; exact hd
  refine foldlM_inv (fun c : Coup => c.typ = .hll8) ?_ h0 h
  intro s x s' hs hx
  unfold setUpdateKeep at hx
  obtain ⟨t, ht, hx⟩ := Outcome.bind_eq_ok.mp hx
  have := setUpdate_z8 ht hs
  cases t with
  | set c => cases hx; exact this.1
  | list c => cases hx
  | hll a => cases hx

theorem Z8.couponUpdate {F : Fl H} {s s' : Sk H} {c : Nat} (hz : Z8 s)
    (h : s.couponUpdate F c = .ok s') : Z8 s' := by
  cases s with
  | hll a =>
    have h : (a.couponUpdate F c >>= fun x => Outcome.ok (Sk.hll x)) = .ok s' := h
    obtain ⟨b, hb, h⟩ := Outcome.bind_eq_ok.mp h
    cases h
    have h8 : a.typ = .hll8 := hz.1
    have h4 : a.typ ≠ .hll4 := by rw [h8]; simp
    have hk := couponUpdate_keep h4 hb
    refine ⟨hk.1.trans h8, fun x hx => ?_⟩
    cases hx
    rw [hk.2 h4]
    exact hz.2 a rfl
  | set d => exact setUpdate_z8 h hz.1
  | list d =>
    have hd : d.typ = .hll8 := hz.1
    have h : listLoop F d c (2 ^ d.lg) 0 = .ok s' := h
    have key : ∀ n i, listLoop F d c n i = .ok s' → Z8 s' := by
      intro n
      induction n with
      | zero => intro i hi; cases hi
      | succ n ih =>
        intro i hi
        unfold listLoop at hi
        obtain ⟨e, _, hi⟩ := Outcome.bind_eq_ok.mp hi
        split at hi
        · simp only at hi
          split at hi
          · split at hi
            · obtain ⟨b, hb, hi⟩ := Outcome.bind_eq_ok.mp hi
              cases hi
              have := promoteToHll_z8 hb hd
              exact ⟨this.1, fun a ha => by cases ha; exact this.2⟩
            · obtain ⟨b, hb, hi⟩ := Outcome.bind_eq_ok.mp hi
              cases hi
              exact ⟨promoteToSet_z8 hb hd, fun a ha => by cases ha⟩
          · cases hi; exact ⟨hd, fun a ha => by cases ha⟩
        · split at hi
          · cases hi; exact ⟨hd, fun a ha => by cases ha⟩
          · exact ih _ hi
    exact key _ _ h

theorem mergeCoupons_z8 {F : Fl H} {l : List Nat} {s s' : Sk H} (hz : Z8 s)
    (h : mergeCoupons F l s = .ok s') : Z8 s' := by
  unfold mergeCoupons at h
  refine foldlM_inv Z8 ?_ hz h
  intro s x s' hs hx
  split at hx
  · exact hs.couponUpdate hx
  · cases hx; exact hs

theorem copyAs_z8 {F : Fl H} {a b : Arr H} (hz : a.typ ≠ .hll4 → a.curMin = 0)
    (h : a.copyAs F .hll8 = .ok b) : b.typ = .hll8 ∧ b.curMin = 0 := by
  unfold Arr.copyAs at h
  split at h
  · rename_i ht
    cases h
    exact ⟨ht.symm, hz (by rw [← ht]; simp)⟩
  · simp only at h
    unfold convert68 at h
    obtain ⟨st, hst, h⟩ := Outcome.bind_eq_ok.mp h
    have := foldlM_inv (fun st : Arr H × Int => st.1.typ = .hll8 ∧ st.1.curMin = 0) (by
      intro s x s' hs hx
      unfold convStep at hx
      obtain ⟨v, _, hx⟩ := Outcome.bind_eq_ok.mp hx
      split at hx
      · obtain ⟨t, ht, hx⟩ := Outcome.bind_eq_ok.mp hx
        cases hx
        have h4 : s.1.typ ≠ .hll4 := by rw [hs.1]; simp
        have := couponUpdate_keep h4 ht
        exact ⟨by rw [this.1]; exact hs.1, by rw [this.2 h4]; exact hs.2⟩
      · cases hx; exact hs) ⟨rfl, rfl⟩ hst
    cases h
    exact this

theorem unionHll_z8 {F : Fl H} {u : Union H} {a : Arr H} {s : Sk H} (hz : Z8 u.gadget)
    (ha : a.typ ≠ .hll4 → a.curMin = 0) (h : unionHll F u a = .ok s) : Z8 s := by
  have hcopy : ∀ b, a.copyAs F .hll8 = .ok b → Z8 (Sk.hll b) := by
    intro b hb
    have := copyAs_z8 ha hb
    exact ⟨this.1, fun x hx => by cases hx; exact this.2⟩
  unfold unionHll at h
  simp only at h
  split at h
  · obtain ⟨b, hb, h⟩ := Outcome.bind_eq_ok.mp h
    split at h
    · exact mergeCoupons_z8 (hcopy b hb) h
    · exact mergeCoupons_z8 (hcopy b hb) h
    · cases h
  · obtain ⟨b, hb, h⟩ := Outcome.bind_eq_ok.mp h
    split at h
    · exact mergeCoupons_z8 (hcopy b hb) h
    · exact mergeCoupons_z8 (hcopy b hb) h
    · cases h
  · cases h
  · cases h
  · split at h
    · rename_i g hg
      obtain ⟨b, hb, h⟩ := Outcome.bind_eq_ok.mp h
      cases h
      unfold mergeHll at hb
      split at hb
      · cases hb
      · split at hb
        · cases hb
        · obtain ⟨x, _, hb⟩ := Outcome.bind_eq_ok.mp hb
          cases hb
          refine ⟨?_, fun y hy => ?_⟩
          · have := hz.1
            rw [hg] at this
            exact this
          · cases hy
            exact hz.2 g hg
    · cases h
  · split at h
    · rename_i g hg
      obtain ⟨b, hb, h⟩ := Outcome.bind_eq_ok.mp h
      cases h
      unfold mergeHll at hb
      split at hb
      · cases hb
      · split at hb
        · cases hb
        · obtain ⟨x, _, hb⟩ := Outcome.bind_eq_ok.mp hb
          cases hb
          refine ⟨?_, fun y hy => ?_⟩
          · have := hz.1
            rw [hg] at this
            exact this
          · cases hy
            exact hz.2 g hg
    · cases h
  · obtain ⟨b, hb, h⟩ := Outcome.bind_eq_ok.mp h
    cases h
    exact hcopy b hb
  · cases h
  · cases h

theorem updateSketch_z8 {F : Fl H} {u u' : Union H} {s : Sk H} (hz : Z8 u.gadget)
    (hs : ZeroMin s) (h : u.updateSketch F s = .ok u') : Z8 u'.gadget := by
  unfold Union.updateSketch at h
  split at h
  · cases h
  · split at h
    · cases h; exact hz
    · cases s with
      | list c =>
        obtain ⟨g, hg, h⟩ := Outcome.bind_eq_ok.mp h
        cases h
        exact mergeCoupons_z8 hz hg
      | set c =>
        simp only at h
        split at h
        · cases h; exact ⟨rfl, fun a ha => by cases ha⟩
        · obtain ⟨g, hg, h⟩ := Outcome.bind_eq_ok.mp h
          cases h
          exact mergeCoupons_z8 hz hg
      | hll a =>
        obtain ⟨g, hg, h⟩ := Outcome.bind_eq_ok.mp h
        cases h
        exact unionHll_z8 hz (hs a rfl) hg

theorem unionOf_z8 {F : Fl H} {lgMaxK : Nat} {ins : List (Input H)}
    (hin : ∀ i ∈ ins, i.Ok F lgMaxK) {u : Union H} (hu : unionOf F lgMaxK ins = .ok u) :
    Z8 u.gadget := by
  unfold unionOf at hu
  obtain ⟨v, hv, hu'⟩ := Outcome.bind_eq_ok.mp hu
  clear hu
  rename' hu' => hu
  have h0 : Z8 v.gadget := by
    unfold newUnion newSketch at hv
    split at hv
    · cases hv; exact ⟨rfl, fun a ha => by cases ha⟩
    · cases hv
  clear hv
  induction ins generalizing v with
  | nil => cases hu; exact h0
  | cons i ins ih =>
    rw [List.foldlM_cons] at hu
    obtain ⟨w, hw, hu⟩ := Outcome.bind_eq_ok.mp hu
    refine ih (fun j hj => hin j (List.mem_cons_of_mem _ hj)) w hu ?_
    have hi := hin i (by simp)
    cases i with
    | item h =>
      have hw : (v.gadget.update F (coupon h.1 h.2) >>= fun g =>
        Outcome.ok { v with gadget := g }) = .ok w := hw
      obtain ⟨g, hg, hw⟩ := Outcome.bind_eq_ok.mp hw
      cases hw
      rw [update_valid (coupon_valid _ _)] at hg
      exact h0.couponUpdate hg
    | sketch s lgK typ hs =>
      obtain ⟨h4, h21, hs', _⟩ := hi
      rw [sketchOf_eq] at hs'
      exact updateSketch_z8 h0 (run_ok h4 h21 (coupons_valid hs) hs').zero hw

/-! ## The round trip -/

theorem absOf_keeps {F : Fl H} {lgK : Nat} {D : List Nat} (hn : D.Nodup) (hk : Keeps lgK D.length) :
    absOf F lgK D = .coup D := by
  induction D using List.reverseRecOn with
  | nil => rfl
  | append_singleton D x ih =>
    rw [List.length_append, List.length_singleton] at hk
    rw [List.nodup_append] at hn
    rw [absOf_append, ih hn.1 (hk.anti (by omega))]
    unfold AbsSk.step
    have hx : x ∉ D := fun hx => hn.2.2 x hx x (by simp) rfl
    simp only [if_neg hx, if_pos hk]

/-- the coupons of a list, merged into an empty sketch -/
theorem mergeList {F : Fl H} {c : Coup} {D : List Nat} (h : ListInv c D) :
    ∃ s', mergeCoupons F c.arr (.list (newList c.lgK .hll8)) = .ok s' ∧ Ref s' (.coup D) ∧
      s'.lgK = c.lgK ∧ s'.typ = .hll8 := by
  have hskip : mergeCoupons F c.arr (.list (newList c.lgK .hll8)) =
      D.foldlM (fun s x => s.couponUpdate F x) (Sk.list (newList c.lgK .hll8)) := by
    have hf : c.arr.filter (fun e => decide (e ≠ 0)) = D := by
      rw [h.arr]; exact filter_list_arr _ _ h.valid
    unfold mergeCoupons
    rw [← hf]
    rw [← foldlM_filter]
    congr 1
    funext s p
    by_cases hp : p = 0
    · rw [if_neg (by simpa using hp), if_pos hp]
    · rw [if_pos hp, if_neg hp]
  rw [hskip]
  obtain ⟨s', e1, e2, e3, e4⟩ := list_fold (f := fun (s : Sk H) x => s.couponUpdate F x) (l := D)
    (s0 := Sk.list (newList c.lgK .hll8))
    (fun pre s => Ref s (absOf F c.lgK pre) ∧ s.lgK = c.lgK ∧ s.typ = .hll8)
    ⟨newList_inv .hll8 h.h4 h.h21, rfl, rfl⟩
    (by
      rintro pre x post s hl ⟨r, l, t⟩
      have hx : ValidCoupon x := h.valid x (by rw [hl]; simp)
      rcases r.couponUpdate (F := F) hx with ⟨_, s', q1, q2, q3⟩ | ⟨q, _⟩
      · refine ⟨s', q1, ?_, q3.1.trans l, q3.2.1.trans t⟩
        rw [absOf_append, ← l]
        rw [l] at q2 ⊢
        exact q2
      · exact absurd (fun e => absurd (t.symm.trans e) (by simp)) q)
  rw [absOf_keeps h.nodup (Or.inl h.lt8)] at e2
  exact ⟨s', e1, e2, e3, e4⟩

theorem new_list_eq {c : Coup} (h : ListInv c []) (ht : c.typ = .hll8) : c = newList c.lgK .hll8 := by
  obtain ⟨lgK, typ, lg, count, arr⟩ := c
  have h1 := h.lg3
  have h2 := h.cnt
  have h3 := h.arr
  simp only at h1 h2 h3 ht
  subst h1 h2 h3 ht
  rfl

/-- A gadget without a pending rebuild: the union read back is in the same abstract state. -/
theorem union_round {F : Fl H} {B : Bits H} {s : Sk H} {A : AbsSk H} (h : Ref s A)
    (ht : s.typ = .hll8) (hr : ∀ a, s = .hll a → a.rebuild = false) (w : SkWritten B s)
    (compact : Bool) :
    ∃ b u, s.toSlice B compact = .ok b ∧ (∀ x ∈ b, x < 256) ∧ unionFromSlice F B b = .ok u ∧
      u.lgMaxK = s.lgK ∧ Ref u.gadget A ∧ Flags s u.gadget := by
  obtain ⟨b, s', e1, e2, e3, e4, e5⟩ := sk_round (F := F) h w compact false (by simp)
  have hfl := e5.flags hr
  have hlgs := h.lgK_bounds
  -- byte 3
  have h3 : byteAt b 3 = .ok s.lgK := by
    cases s with
    | list c =>
      cases A with
      | hll S => exact absurd h (by simp [Ref])
      | coup D =>
        obtain ⟨r, q, _⟩ := list_slice (c := c) (D := D) h compact
        have e1 : coupSlice true c compact = .ok b := e1
        rw [q] at e1
        cases e1
        have := hlgs.2
        exact byte_lgK (by show c.lgK < 256; have : c.lgK ≤ 21 := this; omega)
    | set c =>
      cases A with
      | hll S => exact absurd h (by simp [Ref])
      | coup D =>
        have q := set_slice (c := c) (D := D) h.1 compact
        have e1 : coupSlice false c compact = .ok b := e1
        rw [q] at e1
        cases e1
        have := hlgs.2
        exact byte_lgK (by show c.lgK < 256; have : c.lgK ≤ 21 := this; omega)
    | hll a =>
      have e1 : arrSlice B a (compact && a.typ == .hll4) = .ok b := e1
      unfold arrSlice at e1
      obtain ⟨x, _, e1⟩ := Outcome.bind_eq_ok.mp e1
      cases e1
      have := hlgs.2
      exact byte_lgK (by show a.lgK < 256; have : a.lgK ≤ 21 := this; omega)
  have hnew : (newUnion s.lgK : Outcome (Union H)) = .ok ⟨s.lgK, .list (newList s.lgK .hll8)⟩ := by
    unfold newUnion
    have : (newSketch s.lgK .hll8 : Outcome (Sk H)) = .ok (.list (newList s.lgK .hll8)) :=
      if_pos hlgs
    rw [this]; rfl
  have hgo : unionFromSlice F B b =
      Union.updateSketch F ⟨s.lgK, .list (newList s.lgK .hll8)⟩ s' := by
    unfold unionFromSlice
    rw [h3, Outcome.ok_bind, if_neg (by omega), e3, Outcome.ok_bind, hnew, Outcome.ok_bind]
  have hg8 : ¬ (Union.mk s.lgK (Sk.list (newList s.lgK .hll8) : Sk H)).gadget.typ ≠ .hll8 := by
    intro hh; exact hh rfl
  rw [← hfl.1] at hgo
  rw [← hfl.1] at hg8
  have ht' : s'.typ = .hll8 := hfl.2.1.trans ht
  have hbr := hlgs
  rw [← hfl.1] at hbr
  refine ⟨b, ?_⟩
  unfold Union.updateSketch at hgo
  rw [if_neg hg8] at hgo
  cases s' with
  | list c =>
    cases A with
    | hll S => exact absurd e4 (by simp [Ref])
    | coup D =>
      have hi : ListInv c D := e4
      by_cases hD : D = []
      · subst hD
        have hem : (Sk.list c : Sk H).isEmpty = true := by
          show (c.count == 0) = true
          rw [hi.cnt]; rfl
        rw [if_pos hem] at hgo
        refine ⟨_, e1, e2, hgo, hfl.1, ?_, ?_⟩
        · exact newList_inv .hll8 hbr.1 hbr.2
        · refine ⟨hfl.1, ht.symm, fun a a' _ e' => by cases e'⟩
      · have hem : ¬ (Sk.list c : Sk H).isEmpty = true := by
          show ¬ (c.count == 0) = true
          rw [hi.cnt]
          simpa using hD
        rw [if_neg hem] at hgo
        obtain ⟨g, g1, g2, g3, g4⟩ := mergeList (F := F) hi
        simp only at hgo
        have g1' : mergeCoupons F c.arr (Sk.list (newList (Sk.list c : Sk H).lgK .hll8)) = .ok g := g1
        rw [g1', Outcome.ok_bind] at hgo
        refine ⟨_, e1, e2, hgo, hfl.1, g2, g3.trans hfl.1, g4.trans ht.symm, ?_⟩
        intro a a' ea ea'
        have ea' : g = .hll a' := ea'
        subst ea'
        exact absurd g2 (by simp [Ref])
  | set c =>
    cases A with
    | hll S => exact absurd e4 (by simp [Ref])
    | coup D =>
      obtain ⟨hi, h8⟩ : SetInv c D ∧ 8 ≤ D.length := e4
      have hem : ¬ (Sk.set c : Sk H).isEmpty = true := by
        show ¬ (c.count == 0) = true
        rw [hi.cnt, beq_iff_eq]
        omega
      rw [if_neg hem] at hgo
      simp only at hgo
      rw [if_pos ⟨rfl, rfl⟩] at hgo
      have hc8 : c.typ = .hll8 := ht'
      have hcc : { c with typ := .hll8 } = c := by
        obtain ⟨lgK, typ, lg, count, arr⟩ := c
        have : typ = .hll8 := hc8
        rw [this]
      rw [hcc] at hgo
      exact ⟨_, e1, e2, hgo, hfl.1, ⟨hi, h8⟩, hfl⟩
  | hll a =>
    have hem : ¬ (Sk.hll a : Sk H).isEmpty = true := by simp [Sk.isEmpty]
    rw [if_neg hem] at hgo
    simp only at hgo
    have ha8 : a.typ = .hll8 := ht'
    have hcp : a.copyAs F .hll8 = .ok a := by
      unfold Arr.copyAs; exact if_pos ha8.symm
    have hu : unionHll F ⟨(Sk.hll a : Sk H).lgK, Sk.list (newList (Sk.hll a : Sk H).lgK .hll8)⟩ a =
        .ok (.hll a) := by
      unfold unionHll
      have hl : ¬ a.lgK > (Sk.hll a : Sk H).lgK := by show ¬ a.lgK > a.lgK; omega
      have he : (Sk.list (newList (Sk.hll a : Sk H).lgK .hll8) : Sk H).isEmpty = true := rfl
      simp only [if_neg hl, he, if_true]
      rw [hcp]
      rfl
    rw [hu, Outcome.ok_bind] at hgo
    exact ⟨_, e1, e2, hgo, hfl.1, e4, hfl⟩

end Verif.Hll
