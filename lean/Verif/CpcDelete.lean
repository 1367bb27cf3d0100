import Verif.CpcTable

/-!
# Deletion from the pair table of the CPC sketch

Deleting empties the slot, empties the rest of its cluster and inserts the items of the rest again.
-/

namespace Verif.Cpc

open Probe Outcome

/-- `q` is one of the positions `i, i+1, ..., i+d-1` (cyclically) -/
def Arc (size i d q : Nat) : Prop := ∃ t, t < d ∧ q = (i + t) % size

theorem Arc.succ {size i d q : Nat} : Arc size i (d + 1) q ↔ Arc size i d q ∨ q = (i + d) % size := by
  constructor
  · rintro ⟨t, ht, rfl⟩
    by_cases h : t = d
    · right; rw [h]
    · left; exact ⟨t, by omega, rfl⟩
  · rintro (⟨t, ht, rfl⟩ | rfl)
    · exact ⟨t, by omega, rfl⟩
    · exact ⟨d, by omega, rfl⟩

theorem pos_one (vb lg k i : Nat) :
    (sch vb lg).pos one k i = ((sch vb lg).start k + i) % 2 ^ lg := by
  unfold Scheme.pos one
  rw [Nat.mul_one]; rfl

/-- `slots'` is `slots` with the positions of the arc emptied -/
structure Cleared (lg : Nat) (slots slots' : List (Option Nat)) (i d : Nat) : Prop where
  len : slots'.length = slots.length
  inArc : ∀ q, q < slots.length → Arc (2 ^ lg) i d q → slots'[q]? = some none
  out : ∀ q, ¬ Arc (2 ^ lg) i d q → slots'[q]? = slots[q]?

section
variable {vb lg : Nat} {slots slots' : List (Option Nat)} {S : Finset Nat} {i d : Nat}

theorem add_mod_inj {n a s t : Nat} (hs : s < n) (ht : t < n) (h : (a + s) % n = (a + t) % n) :
    s = t := by
  have h1 : s ≡ t [MOD n] := Nat.ModEq.add_left_cancel' a h
  exact Nat.ModEq.eq_of_lt_of_lt h1 hs ht

/-- Emptying a full arc up to a free slot leaves a correct table. -/
theorem Cleared.core (hc : Cleared lg slots slots' i d) (h : Core vb lg slots S) {T : Finset Nat}
    (hend : slots[(i + d) % 2 ^ lg]? = some none)
    (hT : ∀ x, some x ∈ slots' ↔ x ∈ T) (hTS : T ⊆ S) : Core vb lg slots' T := by
  refine ⟨h.lgvb, ⟨by rw [hc.len, h.chain.len], ?_, ?_⟩, hT, fun x hx => h.valid x (hTS hx)⟩
  · intro p e hp he
    have hp' : p < slots.length := by
      rw [← hc.len]
      by_contra hcon
      rw [List.getElem?_eq_none (by omega)] at hp; cases hp
    have hna : ¬ Arc (2 ^ lg) i d p := by
      intro ha
      rw [hc.inArc p hp' ha] at hp
      simp only [Option.some.injEq] at hp
      subst hp; cases he
    rw [hc.out p hna] at hp
    obtain ⟨n, hn, hpn, hocc⟩ := h.chain.reach p e hp he
    refine ⟨n, hn, hpn, ?_⟩
    intro j hj
    have hj' := hocc j hj
    have : ¬ Arc (2 ^ lg) i d ((sch vb lg).pos one ((sch vb lg).key e) j) := by
      rintro ⟨t, ht, hq⟩
      -- from here on the probe sequence runs along the arc
      have hrun : ∀ m, (sch vb lg).pos one ((sch vb lg).key e) (j + m) = (i + (t + m)) % 2 ^ lg := by
        intro m
        rw [pos_one] at hq ⊢
        rw [show (sch vb lg).start ((sch vb lg).key e) + (j + m) =
          ((sch vb lg).start ((sch vb lg).key e) + j) + m by omega, ← Nat.mod_add_mod, hq,
          Nat.mod_add_mod]
        congr 1; omega
      by_cases hlt : n < j + (d - t)
      · apply hna
        refine ⟨t + (n - j), by omega, ?_⟩
        rw [← hrun, hpn]
        congr 1; omega
      · have hempty : slots[(sch vb lg).pos one ((sch vb lg).key e) (j + (d - t))]? = some none := by
          rw [hrun, show t + (d - t) = d by omega]
          exact hend
        by_cases heq : n = j + (d - t)
        · rw [← heq, ← hpn, hp] at hempty
          simp only [Option.some.injEq] at hempty
          subst hempty; cases he
        · obtain ⟨g, hg, hge⟩ := hocc (j + (d - t)) (by omega)
          rw [hempty] at hg
          simp only [Option.some.injEq] at hg
          subst hg; cases hge
    obtain ⟨g, hg, hge⟩ := hj'
    exact ⟨g, by rw [hc.out _ this]; exact hg, hge⟩
  · have back : ∀ (p : Nat) (e : Option Nat), slots'[p]? = some e → (sch vb lg).emp e = false →
        slots[p]? = some e := by
      intro p e hp he
      have hp' : p < slots.length := by
        rw [← hc.len]
        by_contra hcon
        rw [List.getElem?_eq_none (by omega)] at hp; cases hp
      have hna : ¬ Arc (2 ^ lg) i d p := by
        intro ha
        rw [hc.inArc p hp' ha] at hp
        simp only [Option.some.injEq] at hp
        subst hp; cases he
      rw [← hc.out p hna]; exact hp
    intro p q e f hp he hq hf hk
    exact h.chain.uniq p q e f (back p e hp he) he (back q f hq hf) hf hk

theorem Cleared.step (hc : Cleared lg slots slots' i d) (hl : slots.length = 2 ^ lg) :
    Cleared lg slots (slots'.set ((i + d) % 2 ^ lg) none) i (d + 1) := by
  have hlt : (i + d) % 2 ^ lg < slots'.length := by
    rw [hc.len, hl]; exact Nat.mod_lt _ (Nat.two_pow_pos _)
  refine ⟨by rw [List.length_set, hc.len], ?_, ?_⟩
  · intro q hq ha
    by_cases he : (i + d) % 2 ^ lg = q
    · rw [← he, List.getElem?_set_self hlt]
    · rw [List.getElem?_set_ne he]
      rcases Arc.succ.mp ha with ha | ha
      · exact hc.inArc q hq ha
      · exact absurd ha.symm he
  · intro q ha
    rw [Arc.succ, not_or] at ha
    rw [List.getElem?_set_ne (Ne.symm ha.2)]
    exact hc.out q ha.1

/-- The draining loop. -/
theorem drain_spec (h : Core vb lg slots S) {e : Nat} (he : e < 2 ^ lg)
    (hend : slots[(i + e) % 2 ^ lg]? = some none) :
    ∀ (fuel d : Nat) (p : PT) (acc : List Nat), d + fuel ≥ 2 ^ lg + 1 → 1 ≤ d → d ≤ e →
      (∀ t, t < d → ∃ x, slots[(i + t) % 2 ^ lg]? = some (some x)) →
      Cleared lg slots p.slots i d →
      (∀ y, y ∈ acc ↔ ∃ t, 1 ≤ t ∧ t < d ∧ slots[(i + t) % 2 ^ lg]? = some (some y)) →
      p.lg = lg → p.vb = vb → p.num = S.card - d →
      ∃ D p' acc', drainLoop (2 ^ lg - 1) fuel ((i + d) % 2 ^ lg) p acc = .ok (p', acc') ∧
        1 ≤ D ∧
        (∀ t, t < D → ∃ x, slots[(i + t) % 2 ^ lg]? = some (some x)) ∧
        slots[(i + D) % 2 ^ lg]? = some none ∧
        Cleared lg slots p'.slots i D ∧
        (∀ y, y ∈ acc' ↔ ∃ t, 1 ≤ t ∧ t < D ∧ slots[(i + t) % 2 ^ lg]? = some (some y)) ∧
        p'.lg = lg ∧ p'.vb = vb ∧ p'.num = S.card - D ∧ D ≤ e := by
  intro fuel
  induction fuel with
  | zero => intro d p acc hf h1 hd; omega
  | succ n ih =>
    intro d p acc hf h1 hde hfull hcl hacc hlg hvb hnum
    have hnotarc : ¬ Arc (2 ^ lg) i d ((i + d) % 2 ^ lg) := by
      rintro ⟨t, ht, hq⟩
      have := add_mod_inj (by omega) (by omega) hq
      omega
    have hget := hcl.out _ hnotarc
    have hlt : (i + d) % 2 ^ lg < slots.length := by
      rw [h.len]; exact Nat.mod_lt _ (Nat.two_pow_pos _)
    obtain ⟨s, hs⟩ : ∃ s, slots[(i + d) % 2 ^ lg]? = some s := ⟨_, List.getElem?_eq_getElem hlt⟩
    unfold drainLoop
    rw [hget, hs]
    cases s with
    | none =>
      exact ⟨d, p, acc, rfl, h1, hfull, hs, hcl, hacc, hlg, hvb, hnum, hde⟩
    | some x =>
      have hde' : d + 1 ≤ e := by
        by_contra hcon
        have : d = e := by omega
        rw [this, hend] at hs; cases hs
      have hnext : ((i + d) % 2 ^ lg + 1) &&& (2 ^ lg - 1) = (i + (d + 1)) % 2 ^ lg := by
        rw [and_mask, Nat.mod_add_mod]; rfl
      show ∃ D p' acc', drainLoop (2 ^ lg - 1) n (((i + d) % 2 ^ lg + 1) &&& (2 ^ lg - 1)) _ _ = _ ∧ _
      rw [hnext]
      apply ih (d + 1) _ _ (by omega) (by omega) hde'
      · intro t ht
        by_cases htd : t = d
        · rw [htd]; exact ⟨x, hs⟩
        · exact hfull t (by omega)
      · exact hcl.step h.len
      · intro y
        rw [List.mem_append, hacc, List.mem_singleton]
        constructor
        · rintro (⟨t, h1, h2, h3⟩ | rfl)
          · exact ⟨t, h1, by omega, h3⟩
          · exact ⟨d, h1, by omega, hs⟩
        · rintro ⟨t, h1, h2, h3⟩
          by_cases htd : t = d
          · right
            rw [htd, hs] at h3
            simpa using h3.symm
          · left; exact ⟨t, h1, by omega, h3⟩
      · exact hlg
      · exact hvb
      · show p.num - 1 = _
        omega

end

variable {p : PT} {vb : Nat} {S : Finset Nat}

theorem rebuild_spec (h : PTInv p vb S) {newLg : Nat} (h2 : 2 ≤ newLg) (h26 : newLg ≤ 26)
    (hv : newLg ≤ vb) (hroom : 4 * S.card ≤ 3 * 2 ^ newLg) :
    ∃ p', rebuild p newLg = .ok p' ∧ p'.lg = newLg ∧ PTInv p' vb S := by
  have := rebuildWith_spec h.core 1 h2 h26 hv hroom
  rw [← h.num, ← h.eta] at this
  exact this

theorem shrink_spec : ∀ (fuel : Nat) (p : PT), PTInv p vb S → p.lg ≤ fuel →
    ∃ p', shrinkLoop (fuel + 1) p = .ok p' ∧ PTInv p' vb S := by
  intro fuel
  induction fuel with
  | zero => intro p h hf; have := h.lg2; omega
  | succ n ih =>
    intro p h hf
    unfold shrinkLoop
    by_cases hc : 4 * p.num < 2 ^ p.lg ∧ p.lg > 2
    · rw [if_pos hc]
      have hl26 := h.lg26
      have hlv := h.core.lgvb
      obtain ⟨m, hm⟩ : ∃ m, p.lg = m + 1 := ⟨p.lg - 1, by omega⟩
      have hc1 := hc.1
      rw [h.num, hm, pow_succ] at hc1
      obtain ⟨p', h1, h2, h3⟩ := rebuild_spec h (newLg := p.lg - 1) (by omega) (by omega) (by omega)
        (by rw [hm, Nat.add_sub_cancel]; omega)
      rw [h1, ok_bind]
      exact ih p' h3 (by omega)
    · rw [if_neg hc]
      exact ⟨p, rfl, h⟩

/-- `maybeDelete` of a number that is not there -/
theorem maybeDelete_not_mem (h : PTInv p vb S) {x : Nat} (hx : x ∉ S) (hv : x < 2 ^ vb) :
    maybeDelete p x = .ok (p, false) := by
  obtain ⟨i, hl, hs, _⟩ := h.core.locate_not_mem (num := p.num) hx hv h.card_lt
  rw [← h.eta] at hl
  unfold maybeDelete
  rw [hl, ok_bind, if_pos hs]

/-- `maybeDelete` of a number that is there -/
theorem maybeDelete_mem (h : PTInv p vb S) {x : Nat} (hx : x ∈ S) :
    ∃ p', maybeDelete p x = .ok (p', true) ∧ PTInv p' vb (S.erase x) := by
  obtain ⟨i, hl, hs⟩ := h.core.locate_mem (num := p.num) hx
  rw [← h.eta] at hl
  have hlen := h.core.len
  have hilt : i < 2 ^ p.lg := by
    rw [← hlen]
    by_contra hcon
    rw [List.getElem?_eq_none (by omega)] at hs; cases hs
  unfold maybeDelete
  rw [hl, ok_bind, if_neg (by rw [hs]; simp)]
  -- there is a free slot
  obtain ⟨f, g, hf, hg⟩ := (items_length_lt_of_free (s := sch vb p.lg) (tbl := p.slots)).mpr
    (by rw [h.core.card, hlen]; exact h.card_lt)
  have hgn : g = none := by
    cases g with
    | none => rfl
    | some y => cases hg
  subst hgn
  have hflt : f < 2 ^ p.lg := by
    rw [← hlen]
    by_contra hcon
    rw [List.getElem?_eq_none (by omega)] at hf; cases hf
  obtain ⟨e, he, hfe⟩ : ∃ e, e < 2 ^ p.lg ∧ (i + e) % 2 ^ p.lg = f := by
    by_cases hif : i ≤ f
    · exact ⟨f - i, by omega, by rw [Nat.add_sub_cancel' hif, Nat.mod_eq_of_lt hflt]⟩
    · refine ⟨f + 2 ^ p.lg - i, by omega, ?_⟩
      rw [show i + (f + 2 ^ p.lg - i) = f + 2 ^ p.lg by omega, Nat.add_mod_right,
        Nat.mod_eq_of_lt hflt]
  rw [← hfe] at hf
  have hi0 : (i + 0) % 2 ^ p.lg = i := by rw [Nat.add_zero, Nat.mod_eq_of_lt hilt]
  have he1 : 1 ≤ e := by
    by_contra hcon
    have : e = 0 := by omega
    rw [this, hi0, hs] at hf; cases hf
  have hcl : Cleared p.lg p.slots (p.slots.set i none) i 1 := by
    have h0 : Cleared p.lg p.slots p.slots i 0 :=
      ⟨rfl, fun q _ ⟨t, ht, _⟩ => by omega, fun q _ => rfl⟩
    have := h0.step hlen
    rw [hi0] at this
    exact this
  have hcpos : 0 < S.card := Finset.card_pos.mpr ⟨x, hx⟩
  obtain ⟨D, q, acc, hd, hD1, hfull, hend, hclD, hacc, hlg, hvb, hnum, hDe⟩ :=
    drain_spec h.core he hf (2 ^ p.lg) 1 { p with slots := p.slots.set i none, num := p.num - 1 } []
      (by omega) (by omega) he1
      (by intro t ht; have : t = 0 := by omega
          rw [this, hi0]; exact ⟨x, hs⟩)
      hcl (by intro y; simp) rfl h.vbeq (by show p.num - 1 = _; rw [h.num])
  have hprobe : (i + 1) &&& (2 ^ p.lg - 1) = (i + 1) % 2 ^ p.lg := and_mask _ _
  rw [← hprobe] at hd
  have hd' : drainLoop (2 ^ p.lg - 1)
      (2 ^ ({ p with slots := p.slots.set i none, num := p.num - 1 } : PT).lg)
      ((i + 1) &&& (2 ^ p.lg - 1)) { p with slots := p.slots.set i none, num := p.num - 1 } [] =
      .ok (q, acc) := hd
  simp only [] at hd' ⊢
  rw [hd', ok_bind]
  simp only []
  -- the items left in the table
  obtain ⟨T, hTdef⟩ : ∃ T : Finset Nat, T = (q.slots.filterMap id).toFinset := ⟨_, rfl⟩
  have hcore0 : ∀ T : Finset Nat, (∀ y, some y ∈ q.slots ↔ y ∈ T) → T ⊆ S →
      Core vb p.lg q.slots T := fun T hT hTS => hclD.core h.core hend hT hTS
  have hT : ∀ y, some y ∈ q.slots ↔ y ∈ T := by
    intro y
    simp only [hTdef, List.mem_toFinset, List.mem_filterMap, id_eq, exists_eq_right]
  have hback : ∀ y, y ∈ T ↔ ∃ r, p.slots[r]? = some (some y) ∧ ¬ Arc (2 ^ p.lg) i D r := by
    intro y
    rw [← hT, List.mem_iff_getElem?]
    constructor
    · rintro ⟨r, hr⟩
      have hrl : r < p.slots.length := by
        rw [← hclD.len]
        by_contra hcon
        rw [List.getElem?_eq_none (by omega)] at hr; cases hr
      by_cases ha : Arc (2 ^ p.lg) i D r
      · rw [hclD.inArc r hrl ha] at hr; cases hr
      · exact ⟨r, by rw [← hclD.out r ha]; exact hr, ha⟩
    · rintro ⟨r, hr, ha⟩
      exact ⟨r, by rw [hclD.out r ha]; exact hr⟩
  have hTS : T ⊆ S := by
    intro y hy
    obtain ⟨r, hr, _⟩ := (hback y).mp hy
    exact (h.core.mem y).mp (List.mem_of_getElem? hr)
  have huniq : ∀ (r s y : Nat), p.slots[r]? = some (some y) → p.slots[s]? = some (some y) → r = s :=
    fun r s y hr hs => h.core.chain.uniq r s (some y) (some y) hr rfl hs rfl rfl
  have hsplit : S.erase x = T ∪ acc.toFinset := by
    ext y
    rw [Finset.mem_erase, Finset.mem_union, List.mem_toFinset, hacc, hback]
    constructor
    · rintro ⟨hne, hy⟩
      obtain ⟨r, hr⟩ := List.mem_iff_getElem?.mp ((h.core.mem y).mpr hy)
      by_cases ha : Arc (2 ^ p.lg) i D r
      · right
        obtain ⟨t, ht, hrt⟩ := ha
        refine ⟨t, ?_, ht, by rw [← hrt]; exact hr⟩
        by_contra hcon
        have ht0 : t = 0 := by omega
        rw [ht0, hi0] at hrt
        rw [hrt, hs] at hr
        simp only [Option.some.injEq] at hr
        exact hne hr.symm
      · left; exact ⟨r, hr, ha⟩
    · rintro (⟨r, hr, ha⟩ | ⟨t, h1, h2, h3⟩)
      · refine ⟨?_, (h.core.mem y).mp (List.mem_of_getElem? hr)⟩
        rintro rfl
        apply ha
        rw [huniq r i y hr hs]
        exact ⟨0, by omega, hi0.symm⟩
      · refine ⟨?_, (h.core.mem y).mp (List.mem_of_getElem? h3)⟩
        rintro rfl
        have h4 : (i + t) % 2 ^ p.lg = (i + 0) % 2 ^ p.lg := by
          rw [hi0]; exact huniq _ i y h3 hs
        have := add_mod_inj (n := 2 ^ p.lg) (by omega) (by omega) h4
        omega
  have hcoreT := hcore0 T hT hTS
  have hcardT : T.card = S.card - D := by
    -- the items of the arc are the values of an injective function on [0, D)
    have hinj : ∃ g : Nat → Nat, ∀ t, t < D → p.slots[(i + t) % 2 ^ p.lg]? = some (some (g t)) := by
      refine ⟨fun t => if ht : t < D then (hfull t ht).choose else 0, fun t ht => ?_⟩
      simp only [dif_pos ht]
      exact (hfull t ht).choose_spec
    obtain ⟨g, hg⟩ := hinj
    have hsd : S \ T = (Finset.range D).image g := by
      ext y
      rw [Finset.mem_sdiff, Finset.mem_image, hback]
      constructor
      · rintro ⟨hy, hno⟩
        obtain ⟨r, hr⟩ := List.mem_iff_getElem?.mp ((h.core.mem y).mpr hy)
        have ha : Arc (2 ^ p.lg) i D r := by
          by_contra ha
          exact hno ⟨r, hr, ha⟩
        obtain ⟨t, ht, hrt⟩ := ha
        refine ⟨t, Finset.mem_range.mpr ht, ?_⟩
        have := hg t ht
        rw [← hrt, hr] at this
        simpa using this.symm
      · rintro ⟨t, ht, rfl⟩
        have ht := Finset.mem_range.mp ht
        refine ⟨(h.core.mem _).mp (List.mem_of_getElem? (hg t ht)), ?_⟩
        rintro ⟨r, hr, ha⟩
        exact ha ⟨t, ht, huniq _ _ _ hr (hg t ht)⟩
    have hcimg : ((Finset.range D).image g).card = D := by
      rw [Finset.card_image_of_injOn, Finset.card_range]
      intro s hs t ht hst
      have hs := Finset.mem_range.mp (Finset.mem_coe.mp hs)
      have ht := Finset.mem_range.mp (Finset.mem_coe.mp ht)
      have h1 := hg s hs
      rw [hst] at h1
      exact add_mod_inj (by omega) (by omega) (huniq _ _ _ h1 (hg t ht))
    have := Finset.card_sdiff_add_card_eq_card hTS
    rw [hsd, hcimg] at this
    omega
  have hinvT : PTInv q vb T := by
    refine ⟨hvb, by rw [hlg]; exact h.lg2, by rw [hlg]; exact h.lg26, by rw [hlg]; exact hcoreT,
      by rw [hnum, hcardT], ?_⟩
    rw [hlg]
    have := h.load
    have := Finset.card_le_card hTS
    omega
  have herase : (S.erase x).card ≤ S.card := Finset.card_erase_le
  obtain ⟨q', h1, h2, h3⟩ := rebuild_fold (vb := vb) (T := S.erase x) 1
    (fun y hy => h.core.valid y (Finset.mem_of_mem_erase hy)) (acc.map some) q T hinvT
    (by rw [hsplit]; exact Finset.subset_union_left)
    (by
      intro y hy
      rw [hsplit, Finset.mem_union, List.mem_toFinset]
      right
      simpa using hy)
    (by rw [hlg]; have := h.load; omega)
  have h1' : List.foldlM (insStep maybeInsert) q (acc.map some) = .ok q' := h1
  rw [h1', ok_bind]
  have hmm : ((acc.map some).filterMap id).toFinset = acc.toFinset := by
    ext y; simp
  rw [hmm, ← hsplit] at h3
  obtain ⟨p', h4, h5⟩ := shrink_spec 63 q' h3 (by rw [h2, hlg]; have := h.lg26; omega)
  rw [h4, ok_bind]
  exact ⟨p', rfl, h5⟩

end Verif.Cpc
