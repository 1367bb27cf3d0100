import Verif.FreqMapInv

/-!
# Back-shifting deletion and the clean-up scan of the reverse-purge hash map
-/

set_option linter.unusedSectionVars false

namespace Verif.Freq

variable {κ : Type} [DecidableEq κ] {c : Cfg κ}

/-- When the slots behind the hole that could be affected are all "at home enough", the hole is an
ordinary free slot. -/
theorem close_hole {lg : Nat} {t : List (Slot κ)} {h : Nat} (hi : MapInv c lg t (some h))
    (drift : Nat)
    (hnear : ∀ j, 1 ≤ j → j < drift → ∀ s, t[(h + j) % 2 ^ lg]? = some s → s.st ≠ 0 → s.st ≤ j)
    (hstop : Free t ((h + drift) % 2 ^ lg) ∨ c.over drift = true) (hd1 : 1 ≤ drift) :
    MapInv c lg t none := by
  refine ⟨hi.len, ?_, hi.uniq⟩
  intro p s hp hs
  obtain ⟨d, h1, h2, h3, h4, h5⟩ := hi.path p s hp hs
  refine ⟨d, h1, h2, h3, h4, ?_⟩
  intro j0 hj0
  rcases h5 j0 hj0 with hO | hO
  · exact Or.inl hO
  · exfalso
    simp only [Option.some.injEq] at hO
    -- `s` sits `d - j0` behind the hole
    have hpj : p = (h + (d - j0)) % 2 ^ lg := by
      rw [h4, hO, Nat.mod_add_mod]
      congr 1; omega
    have hocc : ∀ i, 1 ≤ i → i ≤ d - j0 → Occ t ((h + i) % 2 ^ lg) := by
      intro i hi1 hi2
      by_cases hlast : i = d - j0
      · rw [hlast, ← hpj]; exact ⟨s, hp, hs⟩
      · have he : (h + i) % 2 ^ lg = (c.hash s.key + (j0 + i)) % 2 ^ lg := by
          rw [hO, Nat.mod_add_mod]; congr 1; omega
        rcases h5 (j0 + i) (by omega) with hh | hh
        · rw [he]; exact hh
        · exfalso
          simp only [Option.some.injEq] at hh
          rw [hO] at hh
          have := mod_inj (by omega) (by omega) hh
          omega
    by_cases hlt : d - j0 < drift
    · have := hnear (d - j0) (by omega) hlt s (by rw [← hpj]; exact hp) hs
      omega
    · rcases hstop with hfr | hov
      · exact not_free_of_occ (hocc drift hd1 (by omega)) hfr
      · rw [over_mono (by omega : drift ≤ d + 1) hov] at h3; cases h3

/-- Moving the entry at `h + drift` into the hole. -/
theorem move_inv {lg : Nat} {t : List (Slot κ)} {h : Nat} (hi : MapInv c lg t (some h))
    (hh : h < 2 ^ lg) (drift : Nat) (hd : 1 ≤ drift) (hdn : drift < 2 ^ lg) {z s : Slot κ}
    (_hz : t[h]? = some z) (_hz0 : z.st = 0) (hs : t[(h + drift) % 2 ^ lg]? = some s)
    (hgt : s.st > drift) :
    MapInv c lg ((t.set h ⟨s.key, s.val, s.st - drift⟩).set ((h + drift) % 2 ^ lg)
      { s with st := 0 }) (some ((h + drift) % 2 ^ lg)) := by
  have hl := hi.len
  have hne : h ≠ (h + drift) % 2 ^ lg := by
    intro e
    have : (h + 0) % 2 ^ lg = (h + drift) % 2 ^ lg := by
      rw [Nat.add_zero, Nat.mod_eq_of_lt hh]; exact e
    have := mod_inj (by omega) hdn this
    omega
  generalize hq : (h + drift) % 2 ^ lg = q at *
  have hqlt : q < t.length := lt_of_some hs
  have hget : ∀ p, ((t.set h ⟨s.key, s.val, s.st - drift⟩).set q { s with st := 0 })[p]? =
      if q = p then some { s with st := 0 } else if h = p then some ⟨s.key, s.val, s.st - drift⟩
      else t[p]? := by
    intro p
    rw [set_get (by rw [List.length_set]; exact hqlt), set_get (by omega)]
  have hs0 : s.st ≠ 0 := by omega
  obtain ⟨d, h1, h2, h3, h4, h5⟩ := hi.path q s hs hs0
  have hdd : drift ≤ d := by omega
  have hhome : (c.hash s.key + (d - drift)) % 2 ^ lg = h := by
    have := mod_back (n := 2 ^ lg) (a := c.hash s.key) (d := d) (h := h) (j := drift) (i := drift)
      (by rw [← h4, hq]) hdd (by omega)
    rw [this, Nat.sub_self, Nat.add_zero, Nat.mod_eq_of_lt hh]
  have hoccnew : ∀ p, Occ t p ∨ (some h : Option Nat) = some p →
      Occ ((t.set h ⟨s.key, s.val, s.st - drift⟩).set q { s with st := 0 }) p ∨
        (some q : Option Nat) = some p := by
    intro p hp
    by_cases hqp : q = p
    · exact Or.inr (by rw [hqp])
    · left
      by_cases hhp : h = p
      · exact ⟨⟨s.key, s.val, s.st - drift⟩, by rw [hget, if_neg hqp, if_pos hhp], by dsimp only; omega⟩
      · rcases hp with hp | hp
        · obtain ⟨r, hr, hr0⟩ := hp
          exact ⟨r, by rw [hget, if_neg hqp, if_neg hhp]; exact hr, hr0⟩
        · simp only [Option.some.injEq] at hp; exact absurd hp hhp
  refine ⟨by simpa using hl, ?_, ?_⟩
  · intro p r hr hr0
    rw [hget] at hr
    split at hr
    · simp only [Option.some.injEq] at hr; subst hr; exact absurd rfl hr0
    · split at hr
      · rename_i hhp
        simp only [Option.some.injEq] at hr
        subst hr
        dsimp only at *
        refine ⟨d - drift, by omega, by omega, not_over_mono (by omega) h3, by rw [hhome, hhp], ?_⟩
        intro j hj
        exact hoccnew _ (h5 j (by omega))
      · obtain ⟨d', g1, g2, g3, g4, g5⟩ := hi.path p r hr hr0
        exact ⟨d', g1, g2, g3, g4, fun j hj => hoccnew _ (g5 j hj)⟩
  · -- uniqueness
    have hback : ∀ (p : Nat) (r : Slot κ),
        ((t.set h ⟨s.key, s.val, s.st - drift⟩).set q { s with st := 0 })[p]? = some r →
        r.st ≠ 0 → ∃ p' r', t[p']? = some r' ∧ r'.st ≠ 0 ∧ r'.key = r.key ∧
          ((p = h ∧ p' = q) ∨ (p ≠ h ∧ p ≠ q ∧ p' = p)) := by
      intro p r hr hr0
      rw [hget] at hr
      split at hr
      · simp only [Option.some.injEq] at hr; subst hr; exact absurd rfl hr0
      · split at hr
        · rename_i hhp
          simp only [Option.some.injEq] at hr
          subst hr
          exact ⟨q, s, hs, hs0, rfl, Or.inl ⟨hhp.symm, rfl⟩⟩
        · rename_i hqp hhp
          exact ⟨p, r, hr, hr0, rfl, Or.inr ⟨fun e => hhp e.symm, fun e => hqp e.symm, rfl⟩⟩
    intro p p2 r u hr hr0 hu hu0 hk
    obtain ⟨p', r', a1, a2, a3, a4⟩ := hback p r hr hr0
    obtain ⟨p2', u', b1, b2, b3, b4⟩ := hback p2 u hu hu0
    have := hi.uniq p' p2' r' u' a1 a2 b1 b2 (by rw [a3, b3, hk])
    omega

theorem move_items {t : List (Slot κ)} {h q : Nat} {z s : Slot κ} (hne : h ≠ q)
    (hz : t[h]? = some z) (hz0 : z.st = 0) (hs : t[q]? = some s) (hs0 : s.st ≠ 0) (v : Int)
    (hv : v ≠ 0) :
    (items ((t.set h ⟨s.key, s.val, v⟩).set q { s with st := 0 })).Perm (items t) := by
  have h1 := items_fill hz hz0 (e := ⟨s.key, s.val, v⟩) hv
  have hq : (t.set h ⟨s.key, s.val, v⟩)[q]? = some s := by
    rw [List.getElem?_set_ne hne]; exact hs
  have h2 := items_clear hq hs0 (e := { s with st := 0 }) rfl
  exact List.Perm.cons_inv (h2.symm.trans h1)

/-- The deletion loop restores the invariant, keeps the contents, leaves everything from the free
slot `h + m` on alone, and does not bring non-positive counters into the slots before it. -/
theorem deleteLoop_spec (hok : c.Ok) {lg : Nat} (hfits : Fits c lg) :
    ∀ (fuel : Nat) (t : List (Slot κ)) (h drift m : Nat),
      MapInv c lg t (some h) → h < 2 ^ lg → (∃ z, t[h]? = some z ∧ z.st = 0) →
      1 ≤ drift → drift ≤ m → m < 2 ^ lg → Free t ((h + m) % 2 ^ lg) → m + 1 ≤ drift + fuel →
      c.over drift = false →
      (∀ j, 1 ≤ j → j < drift → ∀ s, t[(h + j) % 2 ^ lg]? = some s → s.st ≠ 0 → s.st ≤ j) →
      (∀ j, 1 ≤ j → j < m → ∀ s, t[(h + j) % 2 ^ lg]? = some s → s.st ≠ 0 → 0 < s.val) →
      ∃ t', deleteLoop c fuel t h ((h + drift) % 2 ^ lg) drift = .ok t' ∧ MapInv c lg t' none ∧
        (items t').Perm (items t) ∧
        (∀ j, m ≤ j → j < 2 ^ lg → t'[(h + j) % 2 ^ lg]? = t[(h + j) % 2 ^ lg]?) ∧
        (∀ j, j < m → ∀ s, t'[(h + j) % 2 ^ lg]? = some s → s.st ≠ 0 → 0 < s.val) := by
  intro fuel
  induction fuel with
  | zero => intro t h drift m _ _ _ _ _ _ _ hfu; omega
  | succ fuel ih =>
    intro t h drift m hi hh hz hd1 hdm hmn hfree hfu hov hnear hpos
    obtain ⟨z, hz, hz0⟩ := hz
    have hn := Nat.two_pow_pos lg
    have hl := hi.len
    have hplt : (h + drift) % 2 ^ lg < t.length := by rw [hl]; exact Nat.mod_lt _ hn
    obtain ⟨s, hs⟩ : ∃ s, t[(h + drift) % 2 ^ lg]? = some s :=
      ⟨_, List.getElem?_eq_getElem hplt⟩
    have hzero : (h + 0) % 2 ^ lg = h := by rw [Nat.add_zero, Nat.mod_eq_of_lt hh]
    have hposz : ∀ j, j < m → ∀ s, t[(h + j) % 2 ^ lg]? = some s → s.st ≠ 0 → 0 < s.val := by
      intro j hj r hr hr0
      by_cases hj0 : j = 0
      · subst hj0
        rw [hzero, hz] at hr
        simp only [Option.some.injEq] at hr
        subst hr
        exact absurd hz0 hr0
      · exact hpos j (by omega) hj r hr hr0
    rw [deleteLoop, hs]
    simp only
    by_cases hs0 : s.st = 0
    · rw [if_neg (by simp [hs0])]
      exact ⟨t, rfl, close_hole hi drift hnear (Or.inl ⟨s, hs, hs0⟩) hd1, List.Perm.refl _,
        fun _ _ _ => rfl, hposz⟩
    · rw [if_pos hs0]
      have hdne : drift ≠ m := by
        rintro rfl
        exact not_free_of_occ ⟨s, hs, hs0⟩ hfree
      have hw : wrap 2 (drift : Int) = drift := wrap2_nat (hfits drift (by omega) hov)
      rw [hw]
      by_cases hgt : s.st > drift
      · -- move
        obtain ⟨d, g1, g2, g3, _, _⟩ := hi.path _ s hs hs0
        have hw2 : wrap 2 (s.st - drift) = s.st - drift := by
          have : s.st - drift = ((d + 1 - drift : Nat) : Int) := by omega
          rw [this]
          apply wrap2_nat
          have := hfits (d + 1) g2 g3
          omega
        simp only [hgt, decide_true, if_true, Nat.zero_add, hw2]
        rw [show c.over 1 = false from hok]
        simp only [Bool.false_eq_true, if_false]
        have hinv := move_inv hi hh drift hd1 (by omega) hz hz0 hs hgt
        have hne : h ≠ (h + drift) % 2 ^ lg := by
          intro e
          have := mod_inj (n := 2 ^ lg) (h := h) (i := 0) (j := drift) (by omega) (by omega)
            (by rw [hzero]; exact e)
          omega
        have hitems := move_items hne hz hz0 hs hs0 (s.st - drift) (by omega)
        set t1 := (t.set h ⟨s.key, s.val, s.st - drift⟩).set ((h + drift) % 2 ^ lg)
          { s with st := 0 } with ht1
        have hget : ∀ p, t1[p]? =
            if (h + drift) % 2 ^ lg = p then some { s with st := 0 }
            else if h = p then some ⟨s.key, s.val, s.st - drift⟩ else t[p]? := by
          intro p
          rw [ht1, set_get (by rw [List.length_set]; exact hplt), set_get (by omega)]
        have hrel : ∀ j, ((h + drift) % 2 ^ lg + j) % 2 ^ lg = (h + (drift + j)) % 2 ^ lg := by
          intro j; rw [Nat.mod_add_mod, Nat.add_assoc]
        -- slots of the new table at distance j from h
        have hslot : ∀ j, j < 2 ^ lg → j ≠ 0 → j ≠ drift → t1[(h + j) % 2 ^ lg]? = t[(h + j) % 2 ^ lg]? := by
          intro j hj h0 hjd
          rw [hget, if_neg, if_neg]
          · intro e
            have := mod_inj (n := 2 ^ lg) (h := h) (i := 0) (j := j) (by omega) hj
              (by rw [hzero]; exact e)
            omega
          · intro e
            have := mod_inj (n := 2 ^ lg) (h := h) (i := drift) (j := j) (by omega) hj e
            omega
        have hstep : ((h + drift) % 2 ^ lg + 1) &&& (t.length - 1)
            = ((h + drift) % 2 ^ lg + 1) % 2 ^ lg := by rw [mask_eq hl]
        rw [hstep]
        obtain ⟨t', ht', r1, r2, r3, r4⟩ := ih t1 ((h + drift) % 2 ^ lg) 1 (m - drift) hinv
          (Nat.mod_lt _ hn) ⟨_, by rw [hget, if_pos rfl], rfl⟩ (by omega) (by omega) (by omega)
          (by
            rw [hrel, show drift + (m - drift) = m by omega]
            obtain ⟨f, hf, hf0⟩ := hfree
            exact ⟨f, by rw [hslot m hmn (by omega) (by omega)]; exact hf, hf0⟩)
          (by omega) hok (by intro j h1 h2; omega)
          (by
            intro j h1 h2 r hr hr0
            rw [hrel, hslot (drift + j) (by omega) (by omega) (by omega)] at hr
            exact hpos (drift + j) (by omega) (by omega) r hr hr0)
        refine ⟨t', ht', r1, r2.trans hitems, ?_, ?_⟩
        · intro j hj1 hj2
          have := r3 (j - drift) (by omega) (by omega)
          rw [hrel, show drift + (j - drift) = j by omega] at this
          rw [this, hslot j hj2 (by omega) (by omega)]
        · intro j hj r hr hr0
          by_cases hjd : drift ≤ j
          · have := r4 (j - drift) (by omega)
            rw [hrel, show drift + (j - drift) = j by omega] at this
            exact this r hr hr0
          · -- behind the moved entry: untouched by the recursion
            have hj' : ((h + drift) % 2 ^ lg + (2 ^ lg - drift + j)) % 2 ^ lg = (h + j) % 2 ^ lg := by
              rw [hrel, show h + (drift + (2 ^ lg - drift + j)) = h + j + 2 ^ lg by omega,
                Nat.add_mod_right]
            have := r3 (2 ^ lg - drift + j) (by omega) (by omega)
            rw [hj'] at this
            rw [this] at hr
            by_cases hj0 : j = 0
            · subst hj0
              rw [hzero, hget, if_neg (Ne.symm hne), if_pos rfl] at hr
              simp only [Option.some.injEq] at hr
              subst hr
              exact hpos drift hd1 (by omega) s hs hs0
            · rw [hslot j (by omega) hj0 (by omega)] at hr
              exact hpos j (by omega) hj r hr hr0
      · -- stay
        simp only [hgt, decide_false, Bool.false_eq_true, if_false]
        have hnear' : ∀ j, 1 ≤ j → j < drift + 1 → ∀ s, t[(h + j) % 2 ^ lg]? = some s → s.st ≠ 0 →
            s.st ≤ j := by
          intro j h1 h2 r hr hr0
          by_cases hj : j = drift
          · subst hj
            rw [hs] at hr
            simp only [Option.some.injEq] at hr
            subst hr
            omega
          · exact hnear j h1 (by omega) r hr hr0
        cases ho : c.over (drift + 1) with
        | true =>
          simp only [if_true]
          exact ⟨t, rfl, close_hole hi (drift + 1) hnear' (Or.inr ho) (by omega), List.Perm.refl _,
            fun _ _ _ => rfl, hposz⟩
        | false =>
          simp only [Bool.false_eq_true, if_false]
          rw [step_eq hl]
          exact ih t h (drift + 1) m hi hh ⟨z, hz, hz0⟩ (by omega) (by omega) hmn hfree (by omega) ho
            hnear' hpos

/-- `hashDelete` removes exactly the entry at `p`. -/
theorem hashDelete_spec (hok : c.Ok) {lg : Nat} (hfits : Fits c lg) {t : List (Slot κ)}
    (hi : MapInv c lg t none) {p m : Nat} {s : Slot κ} (hp : t[p]? = some s) (hs : s.st ≠ 0)
    (hm1 : 1 ≤ m) (hmn : m < 2 ^ lg) (hfree : Free t ((p + m) % 2 ^ lg))
    (hpos : ∀ j, 1 ≤ j → j < m → ∀ s, t[(p + j) % 2 ^ lg]? = some s → s.st ≠ 0 → 0 < s.val) :
    ∃ t', hashDelete c t p = .ok t' ∧ MapInv c lg t' none ∧
      (items t).Perm ((s.key, s.val) :: items t') ∧
      (∀ j, m ≤ j → j < 2 ^ lg → t'[(p + j) % 2 ^ lg]? = t[(p + j) % 2 ^ lg]?) ∧
      (∀ j, j < m → ∀ s, t'[(p + j) % 2 ^ lg]? = some s → s.st ≠ 0 → 0 < s.val) := by
  have hl := hi.len
  have hplt := lt_of_some hp
  have hplt' : p < 2 ^ lg := by omega
  have hget : ∀ q, (t.set p { s with st := 0 })[q]? =
      if p = q then some { s with st := 0 } else t[q]? := set_get hplt _
  have hinv : MapInv c lg (t.set p { s with st := 0 }) (some p) := by
    refine ⟨by simpa using hl, ?_, ?_⟩
    · intro q r hr hr0
      rw [hget] at hr
      split at hr
      · simp only [Option.some.injEq] at hr; subst hr; exact absurd rfl hr0
      · obtain ⟨d, h1, h2, h3, h4, h5⟩ := hi.path q r hr hr0
        refine ⟨d, h1, h2, h3, h4, ?_⟩
        intro j hj
        by_cases hpq : p = (c.hash r.key + j) % 2 ^ lg
        · exact Or.inr (by rw [← hpq])
        · rcases h5 j hj with hO | hO
          · obtain ⟨u, hu, hu0⟩ := hO
            exact Or.inl ⟨u, by rw [hget, if_neg hpq]; exact hu, hu0⟩
          · simp at hO
    · intro q q2 r u hr hr0 hu hu0 hk
      rw [hget] at hr hu
      split at hr
      · simp only [Option.some.injEq] at hr; subst hr; exact absurd rfl hr0
      · split at hu
        · simp only [Option.some.injEq] at hu; subst hu; exact absurd rfl hu0
        · exact hi.uniq q q2 r u hr hr0 hu hu0 hk
  have hslot : ∀ j, j < 2 ^ lg → j ≠ 0 →
      (t.set p { s with st := 0 })[(p + j) % 2 ^ lg]? = t[(p + j) % 2 ^ lg]? := by
    intro j hj h0
    rw [hget, if_neg]
    intro e
    have := mod_inj (n := 2 ^ lg) (h := p) (i := 0) (j := j) (by omega) hj
      (by rw [Nat.add_zero, Nat.mod_eq_of_lt hplt']; exact e)
    omega
  obtain ⟨t', ht', r1, r2, r3, r4⟩ := deleteLoop_spec hok hfits t.length
    (t.set p { s with st := 0 }) p 1 m hinv hplt' ⟨_, by rw [hget, if_pos rfl], rfl⟩ (by omega) hm1 hmn
    (by obtain ⟨f, hf, hf0⟩ := hfree; exact ⟨f, by rw [hslot m hmn (by omega)]; exact hf, hf0⟩)
    (by omega) hok (by intro j h1 h2; omega)
    (by intro j h1 h2 r hr hr0
        rw [hslot j (by omega) (by omega)] at hr
        exact hpos j h1 h2 r hr hr0)
  refine ⟨t', ?_, r1, ?_, ?_, r4⟩
  · unfold hashDelete
    rw [hp]
    simp only [Outcome.ofOption_some, Outcome.ok_bind]
    rw [mask_eq hl]
    exact ht'
  · exact (items_clear hp hs (e := { s with st := 0 }) rfl).trans (r2.symm.cons _)
  · intro j h1 h2
    rw [r3 j h1 h2, hslot j h2 (by omega)]

/-! ## the clean-up scan -/

theorem findFirst_spec {t : List (Slot κ)} :
    ∀ n, n ≤ t.length → (∃ p s, p < n ∧ t[p]? = some s ∧ s.st ≤ 0) →
      ∃ p s, p < n ∧ findFirst t n = .ok p ∧ t[p]? = some s ∧ s.st ≤ 0 := by
  intro n
  induction n with
  | zero => rintro _ ⟨p, s, hp, _⟩; omega
  | succ n ih =>
    rintro hn ⟨p, s, hp, hs, hst⟩
    have hg : t[n]? = some t[n] := List.getElem?_eq_getElem (by omega)
    rw [findFirst, hg]
    simp only
    by_cases h0 : t[n].st > 0
    · rw [if_pos h0]
      have hpn : p ≠ n := by
        rintro rfl
        rw [hg] at hs
        simp only [Option.some.injEq] at hs
        subst hs; omega
      obtain ⟨p', s', a1, a2, a3, a4⟩ := ih (by omega) ⟨p, s, by omega, hs, hst⟩
      exact ⟨p', s', by omega, a2, a3, a4⟩
    · rw [if_neg h0]
      exact ⟨n, t[n], by omega, rfl, hg, by omega⟩

/-- the positions visited by the two loops, as distances below `F` -/
theorem cleanOrder_eq (F n : Nat) (hF : F < n) :
    (List.range F).reverse ++ (List.range' (F + 1) (n - (F + 1))).reverse
      = (List.range' 1 (n - 1)).map (fun i => (F + (n - i)) % n) := by
  apply List.ext_getElem?
  intro i
  by_cases h1 : i < F
  · rw [List.getElem?_append_left (by simpa using h1)]
    rw [List.getElem?_reverse (by simpa using h1)]
    rw [List.getElem?_map, List.getElem?_range' (by omega)]
    simp only [List.length_range, Option.map_some]
    rw [List.getElem?_range (by omega)]
    congr 1
    rw [show F + (n - (1 + 1 * i)) = (F - 1 - i) + n by omega, Nat.add_mod_right,
      Nat.mod_eq_of_lt (by omega)]
  · by_cases h2 : i < n - 1
    · rw [List.getElem?_append_right (by simpa using Nat.le_of_not_lt h1)]
      simp only [List.length_reverse, List.length_range]
      rw [List.getElem?_reverse (by simp; omega)]
      simp only [List.length_range']
      rw [List.getElem?_map, List.getElem?_range' (by omega), List.getElem?_range' (by omega)]
      simp only [Option.map_some]
      congr 1
      rw [Nat.mod_eq_of_lt (by omega)]
      omega
    · rw [List.getElem?_eq_none (by simp; omega), List.getElem?_eq_none (by simp; omega)]

/-- The scan: `i` slots below `F` are done. -/
theorem cleanLoop_spec (hok : c.Ok) {lg : Nat} (hfits : Fits c lg) (F : Nat) (hF : F < 2 ^ lg) :
    ∀ (k i : Nat) (t : List (Slot κ)) (num : Nat), i + 1 + k = 2 ^ lg → MapInv c lg t none →
      Free t F → num = (items t).length →
      (∀ j, 1 ≤ j → j ≤ i → ∀ s, t[(F + (2 ^ lg - j)) % 2 ^ lg]? = some s → s.st ≠ 0 → 0 < s.val) →
      ∃ t' num', cleanLoop c ((List.range' (i + 1) k).map (fun i => (F + (2 ^ lg - i)) % 2 ^ lg)) t num
          = .ok (t', num') ∧ MapInv c lg t' none ∧ Free t' F ∧ num' = (items t').length ∧
        (items t').Perm ((items t).filter (fun e => decide (0 < e.2))) := by
  intro k
  induction k with
  | zero =>
    intro i t num hk hi hfree hnum hpos
    refine ⟨t, num, rfl, hi, hfree, hnum, ?_⟩
    have hall : ∀ e ∈ items t, 0 < e.2 := by
      rintro ⟨k, v⟩ he
      obtain ⟨p, s, hp, hs, hsk, hsv⟩ := mem_items.mp he
      have hplt := lt_of_some hp
      rw [hi.len] at hplt
      obtain ⟨j, hj, hjp⟩ := mod_reach F p (Nat.two_pow_pos lg) hplt
      by_cases hj0 : j = 0
      · subst hj0
        rw [Nat.add_zero, Nat.mod_eq_of_lt hF] at hjp
        rw [← hjp] at hp
        exact absurd hfree (fun h => not_free_of_occ ⟨s, hp, hs⟩ h)
      · have := hpos (2 ^ lg - j) (by omega) (by omega) s
          (by rw [show 2 ^ lg - (2 ^ lg - j) = j by omega, hjp]; exact hp) hs
        show 0 < v
        rw [← hsv]; exact this
    rw [List.filter_eq_self.mpr (by intro e he; simpa using hall e he)]
  | succ k ih =>
    intro i t num hk hi hfree hnum hpos
    rw [List.range'_succ, List.map_cons]
    have hn := Nat.two_pow_pos lg
    set p := (F + (2 ^ lg - (i + 1))) % 2 ^ lg with hp
    have hplt : p < t.length := by rw [hi.len]; exact Nat.mod_lt _ hn
    have hg : t[p]? = some t[p] := List.getElem?_eq_getElem hplt
    -- distances above p
    have hrel : ∀ j, j ≤ i + 1 → (p + j) % 2 ^ lg = (F + (2 ^ lg - (i + 1 - j))) % 2 ^ lg := by
      intro j hj
      rw [hp, Nat.mod_add_mod]
      congr 1; omega
    have hFrel : (p + (i + 1)) % 2 ^ lg = F := by
      rw [hrel _ (le_refl _), Nat.sub_self, Nat.sub_zero, Nat.add_mod_right, Nat.mod_eq_of_lt hF]
    rw [cleanLoop, hg]
    simp only
    by_cases hdel : t[p].st > 0 ∧ t[p].val ≤ 0
    · rw [if_pos hdel]
      obtain ⟨t1, ht1, r1, r2, r3, r4⟩ := hashDelete_spec hok hfits hi hg
        (by have := hdel.1; omega) (m := i + 1) (by omega) (by omega) (by rw [hFrel]; exact hfree)
        (by
          intro j h1 h2 r hr hr0
          rw [hrel j (by omega)] at hr
          exact hpos (i + 1 - j) (by omega) (by omega) r hr hr0)
      rw [ht1]
      simp only [Outcome.ok_bind]
      have hfree1 : Free t1 F := by
        obtain ⟨f, hf, hf0⟩ := hfree
        refine ⟨f, ?_, hf0⟩
        have := r3 (i + 1) (le_refl _) (by omega)
        rw [hFrel] at this
        rw [this]; exact hf
      have hnum1 : num - 1 = (items t1).length := by
        rw [hnum, r2.length_eq, List.length_cons, Nat.add_sub_cancel]
      obtain ⟨t', num', a1, a2, a3, a4, a5⟩ := ih (i + 1) t1 (num - 1) (by omega) r1 hfree1 hnum1
        (by
          intro j h1 h2 r hr hr0
          have := r4 (i + 1 - j) (by omega)
          rw [hrel _ (by omega), show i + 1 - (i + 1 - j) = j by omega] at this
          exact this r hr hr0)
      refine ⟨t', num', a1, a2, a3, a4, a5.trans ?_⟩
      have := r2.filter (fun e => decide (0 < e.2))
      rw [List.filter_cons_of_neg (by simpa using hdel.2)] at this
      exact this.symm
    · rw [if_neg hdel]
      exact ih (i + 1) t num (by omega) hi hfree hnum (by
        intro j h1 h2 r hr hr0
        by_cases hj : j = i + 1
        · subst hj
          rw [← hp, hg] at hr
          simp only [Option.some.injEq] at hr
          subst hr
          have := hi.pos hg hr0
          by_contra hcon
          exact hdel ⟨this, by omega⟩
        · exact hpos j h1 (by omega) r hr hr0)

/-- the optional last visit to the free slot does nothing -/
theorem cleanLoop_append_free {F : Nat} (t' : List (Slot κ)) (num' : Nat) (hfree : Free t' F) :
    ∀ (ps : List Nat) (t : List (Slot κ)) (num : Nat),
      cleanLoop c ps t num = .ok (t', num') → cleanLoop c (ps ++ [F]) t num = .ok (t', num') := by
  intro ps
  induction ps with
  | nil =>
    intro t num h
    simp only [cleanLoop, Outcome.ok.injEq, Prod.mk.injEq] at h
    obtain ⟨rfl, rfl⟩ := h
    obtain ⟨f, hf, hf0⟩ := hfree
    simp only [List.nil_append, cleanLoop, hf]
    rw [if_neg (by omega)]
  | cons p ps ih =>
    intro t num h
    rw [List.cons_append, cleanLoop]
    rw [cleanLoop] at h
    split
    · rename_i hn; rw [hn] at h; exact h
    · rename_i s hs
      rw [hs] at h
      simp only at h ⊢
      split
      · rename_i hc
        rw [if_pos hc] at h
        obtain ⟨t1, h1, h2⟩ := Outcome.bind_eq_ok.mp h
        rw [h1]
        exact ih t1 (num - 1) h2
      · rename_i hc
        rw [if_neg hc] at h
        exact ih t num h

/-- `keepOnlyPositiveCounts` keeps exactly the positive counters. -/
theorem keepOnlyPositive_spec (hok : c.Ok) {lg : Nat} (hfits : Fits c lg) {t : List (Slot κ)}
    (hi : MapInv c lg t none) (hfree : (items t).length < 2 ^ lg) :
    ∃ t', keepOnlyPositive c t (items t).length = .ok (t', (items t').length) ∧ MapInv c lg t' none ∧
      (items t').Perm ((items t).filter (fun e => decide (0 < e.2))) := by
  have hl := hi.len
  obtain ⟨p, hp, s, hs, hs0⟩ := free_of_items_lt (by rw [hl]; exact hfree)
  obtain ⟨F, f, hF, hFf, hFs, hFst⟩ := findFirst_spec t.length (le_refl _) ⟨p, s, hp, hs, by omega⟩
  have hf0 : f.st = 0 := by
    by_contra h0
    have := hi.pos hFs h0
    omega
  rw [hl] at hF
  obtain ⟨t', num', h1, h2, h3, h4, h5⟩ := cleanLoop_spec hok hfits F hF (2 ^ lg - 1) 0 t
    (items t).length (by omega) hi ⟨f, hFs, hf0⟩ rfl (by intro j h1 h2; omega)
  refine ⟨t', ?_, h2, h5⟩
  unfold keepOnlyPositive
  rw [hFf]
  simp only [Outcome.ok_bind]
  rw [← h4]
  unfold cleanOrder
  rw [hl, cleanOrder_eq F _ hF]
  cases c.visitFirst with
  | true => exact cleanLoop_append_free t' num' h3 _ _ _ h1
  | false => simpa using h1

end Verif.Freq
