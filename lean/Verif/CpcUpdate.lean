import Verif.CpcSketch

/-!
# One update of the CPC sketch
-/

namespace Verif.Cpc

open Outcome

theorem surp_insert_early {K off x : Nat} {S : Finset Nat} (hc : x % 64 < off) :
    surp K off (insert x S) = (surp K off S).erase x := by
  ext y
  simp only [mem_surp, Finset.mem_erase, Finset.mem_insert, not_or]
  constructor
  · rintro ⟨h1, ⟨h2, h3, h4⟩ | ⟨h2, h3⟩⟩
    · exact ⟨h3, h1, Or.inl ⟨h2, h4⟩⟩
    · refine ⟨?_, h1, Or.inr ⟨h2, ?_⟩⟩
      · rintro rfl; omega
      · rcases h3 with rfl | h3
        · omega
        · exact h3
  · rintro ⟨h0, h1, ⟨h2, h3⟩ | ⟨h2, h3⟩⟩
    · exact ⟨h1, Or.inl ⟨h2, h0, h3⟩⟩
    · exact ⟨h1, Or.inr ⟨h2, Or.inr h3⟩⟩

theorem surp_insert_mid {K off x : Nat} {S : Finset Nat} (hc : off ≤ x % 64) (hc' : x % 64 < off + 8) :
    surp K off (insert x S) = surp K off S := by
  ext y
  simp only [mem_surp, Finset.mem_insert, not_or]
  constructor
  · rintro ⟨h1, ⟨h2, h3, h4⟩ | ⟨h2, h3⟩⟩
    · exact ⟨h1, Or.inl ⟨h2, h4⟩⟩
    · refine ⟨h1, Or.inr ⟨h2, ?_⟩⟩
      rcases h3 with rfl | h3
      · omega
      · exact h3
  · rintro ⟨h1, ⟨h2, h3⟩ | ⟨h2, h3⟩⟩
    · refine ⟨h1, Or.inl ⟨h2, ?_, h3⟩⟩
      rintro rfl; omega
    · exact ⟨h1, Or.inr ⟨h2, Or.inr h3⟩⟩

theorem surp_insert_late {K off x : Nat} {S : Finset Nat} (hc : off + 8 ≤ x % 64) (hx : x < 64 * K) :
    surp K off (insert x S) = insert x (surp K off S) := by
  ext y
  simp only [mem_surp, Finset.mem_insert, not_or]
  constructor
  · rintro ⟨h1, ⟨h2, h3, h4⟩ | ⟨h2, h3⟩⟩
    · exact Or.inr ⟨h1, Or.inl ⟨h2, h4⟩⟩
    · rcases h3 with rfl | h3
      · exact Or.inl rfl
      · exact Or.inr ⟨h1, Or.inr ⟨h2, h3⟩⟩
  · rintro (rfl | ⟨h1, ⟨h2, h3⟩ | ⟨h2, h3⟩⟩)
    · exact ⟨hx, Or.inr ⟨hc, Or.inl rfl⟩⟩
    · refine ⟨h1, Or.inl ⟨h2, ?_, h3⟩⟩
      rintro rfl; omega
    · exact ⟨h1, Or.inr ⟨h2, Or.inr h3⟩⟩

theorem IsWindow.insert_out {K off x : Nat} {S : Finset Nat} {w : List (BitVec 8)}
    (h : IsWindow K off w S) (ho : off ≤ 56) (hc : x % 64 < off ∨ off + 8 ≤ x % 64) :
    IsWindow K off w (insert x S) := by
  refine ⟨h.1, fun r b hb j hj => ?_⟩
  rw [h.2 r b hb j hj]
  have h6 : 64 * r + (off + j) ≠ x := by omega
  simp only [Finset.mem_insert, h6, false_or]

theorem IsWindow.insert_in {K off x : Nat} {S : Finset Nat} {w : List (BitVec 8)}
    (h : IsWindow K off w S) (hc : off ≤ x % 64) (hc' : x % 64 < off + 8)
    {b : BitVec 8} (hb : w[x / 64]? = some b) :
    IsWindow K off (w.set (x / 64) (b ||| (1#8 <<< (x % 64 - off)))) (insert x S) := by
  have hlt : x / 64 < w.length := by
    by_contra hcon
    rw [List.getElem?_eq_none (by omega)] at hb; cases hb
  refine ⟨by rw [List.length_set]; exact h.1, fun r b' hb' j hj => ?_⟩
  by_cases he : x / 64 = r
  · subst he
    rw [List.getElem?_set_self hlt] at hb'
    simp only [Option.some.injEq] at hb'
    rw [← hb', BitVec.getLsbD_or, single_bit8 (by omega), h.2 _ _ hb j hj]
    by_cases h5 : j = x % 64 - off
    · have h6 : 64 * (x / 64) + (off + j) = x := by omega
      have h7 : decide (j = x % 64 - off) = true := by simpa using h5
      rw [h7, h6]
      simp
    · have h6 : 64 * (x / 64) + (off + j) ≠ x := by omega
      simp only [h5, decide_false, Bool.or_false, Finset.mem_insert, h6, false_or]
  · rw [List.getElem?_set_ne he] at hb'
    rw [h.2 r b' hb' j hj]
    have h6 : 64 * r + (off + j) ≠ x := by omega
    simp only [Finset.mem_insert, h6, false_or]

section
variable {c : Sk} {S : Finset Nat} {w : List (BitVec 8)} {t : PT} {x : Nat}

theorem sk_eta_pt (h : c.pt = some t) : { c with pt := some t } = c := by
  cases c; simp_all

theorem sk_eta_wp (hw : c.win = some w) (h : c.pt = some t) :
    { c with win := some w, pt := some t } = c := by
  cases c; simp_all

theorem windowedStore_mem (hw : c.win = some w) (hp : c.pt = some t)
    (hwin : IsWindow (2 ^ c.lgK) c.off w S)
    (hinv : PTInv t (6 + c.lgK) (surp (2 ^ c.lgK) c.off S)) (hx : x < 64 * 2 ^ c.lgK)
    (hS : x ∈ S) : windowedStore c x = .ok (c, false) := by
  unfold windowedStore
  simp only [and63, shr6, hw, hp]
  by_cases h1 : x % 64 < c.off
  · have hn : x ∉ surp (2 ^ c.lgK) c.off S := by
      rw [mem_surp]; rintro ⟨_, ⟨_, h⟩ | ⟨h, _⟩⟩
      · exact h hS
      · omega
    rw [if_pos h1, maybeDelete_not_mem hinv hn (by rw [two6]; exact hx), ok_bind]
    simp only [sk_eta_wp hw hp]
  · by_cases h2 : x % 64 < c.off + 8
    · have hlt : x / 64 < w.length := by rw [hwin.1]; omega
      rw [if_neg h1, if_pos h2, List.getElem?_eq_getElem hlt]
      have hsame : w[x / 64] ||| (1#8 <<< (x % 64 - c.off)) = w[x / 64] := by
        apply BitVec.eq_of_getLsbD_eq
        intro j hj
        rw [BitVec.getLsbD_or, single_bit8 (by omega)]
        by_cases h5 : j = x % 64 - c.off
        · rw [hwin.2 _ _ (List.getElem?_eq_getElem hlt) j hj]
          have h6 : 64 * (x / 64) + (c.off + j) = x := by omega
          rw [h6]
          simp [hS]
        · simp [h5]
      simp only [hsame, ne_eq, not_true_eq_false, if_false]
    · have hm : x ∈ surp (2 ^ c.lgK) c.off S := by
        rw [mem_surp]; exact ⟨hx, Or.inr ⟨by omega, hS⟩⟩
      rw [if_neg h1, if_neg h2, maybeInsert_mem hinv hm, ok_bind]
      simp only [sk_eta_wp hw hp]

theorem windowedStore_new (ho : c.off ≤ 56) (hw : c.win = some w) (hp : c.pt = some t)
    (hwin : IsWindow (2 ^ c.lgK) c.off w S)
    (hinv : PTInv t (6 + c.lgK) (surp (2 ^ c.lgK) c.off S)) (hx : x < 64 * 2 ^ c.lgK)
    (hS : x ∉ S) :
    (Cap (6 + c.lgK) (surp (2 ^ c.lgK) c.off (insert x S)).card ∧
      ∃ w' t', windowedStore c x = .ok ({ c with win := some w', pt := some t' }, true) ∧
        IsWindow (2 ^ c.lgK) c.off w' (insert x S) ∧
        PTInv t' (6 + c.lgK) (surp (2 ^ c.lgK) c.off (insert x S))) ∨
    (¬ Cap (6 + c.lgK) (surp (2 ^ c.lgK) c.off (insert x S)).card ∧
      ∀ r, windowedStore c x ≠ .ok r) := by
  unfold windowedStore
  simp only [and63, shr6, hw, hp]
  by_cases h1 : x % 64 < c.off
  · have hm : x ∈ surp (2 ^ c.lgK) c.off S := by
      rw [mem_surp]; exact ⟨hx, Or.inl ⟨h1, hS⟩⟩
    obtain ⟨t', e, h'⟩ := maybeDelete_mem hinv hm
    left
    rw [if_pos h1, e, ok_bind, surp_insert_early h1]
    exact ⟨h'.cap, w, t', rfl, hwin.insert_out ho (Or.inl h1), h'⟩
  · by_cases h2 : x % 64 < c.off + 8
    · have hlt : x / 64 < w.length := by rw [hwin.1]; omega
      rw [if_neg h1, if_pos h2, List.getElem?_eq_getElem hlt]
      have hdiff : w[x / 64] ||| (1#8 <<< (x % 64 - c.off)) ≠ w[x / 64] := by
        intro hcon
        have h3 := congrArg (fun b => b.getLsbD (x % 64 - c.off)) hcon
        rw [BitVec.getLsbD_or, single_bit8 (by omega),
          hwin.2 _ _ (List.getElem?_eq_getElem hlt) _ (by omega),
          show 64 * (x / 64) + (c.off + (x % 64 - c.off)) = x by omega] at h3
        simp [hS] at h3
      left
      rw [surp_insert_mid (by omega) h2]
      refine ⟨hinv.cap, _, t, ?_, hwin.insert_in (by omega) h2 (List.getElem?_eq_getElem hlt), hinv⟩
      simp only [hdiff, ne_eq, not_false_eq_true, if_true]
    · have hm : x ∉ surp (2 ^ c.lgK) c.off S := by
        rw [mem_surp]; rintro ⟨_, ⟨h, _⟩ | ⟨_, h⟩⟩
        · omega
        · exact hS h
      rw [if_neg h1, if_neg h2, surp_insert_late (by omega) hx, Finset.card_insert_of_notMem hm]
      rcases maybeInsert_spec hinv hm (by rw [two6]; exact hx) with ⟨hc, t', e, h'⟩ | ⟨hc, hf⟩
      · left
        refine ⟨hc, w, t', ?_, hwin.insert_out ho (Or.inr (by omega)), h'⟩
        rw [e, ok_bind]
      · right
        refine ⟨hc, fun r hr => ?_⟩
        obtain ⟨a, ha, _⟩ := Outcome.bind_eq_ok.mp hr
        exact hf a ha

end

/-- What an update with a new coupon `x` does besides the set: the registers of the estimators. -/
structure Stepped (c c' : Sk) (x : Nat) (S' : Finset Nat) : Prop where
  lgK : c'.lgK = c.lgK
  seed : c'.seed = c.seed
  merged : c'.merged = c.merged
  hip : c'.hip = c.hip + 2 ^ c.lgK / c.kxp
  off : c'.off = c.off ∨ c'.off = c.off + 1
  kxp : ¬ (c'.off = c.off + 1 ∧ c'.off % 8 = 0) → c'.kxp = c.kxp - invPow2 (x % 64 + 1)
  fresh : c'.off = c.off + 1 → c'.off % 8 = 0 →
    ∃ m, IsMatrix (2 ^ c.lgK) m S' ∧ c'.kxp = refreshKXP m

theorem valid_insert {K x : Nat} {S : Finset Nat} (hv : ∀ y ∈ S, y < 64 * K) (hx : x < 64 * K) :
    ∀ y ∈ insert x S, y < 64 * K := by
  intro y hy
  rcases Finset.mem_insert.mp hy with rfl | hy
  · exact hx
  · exact hv y hy

/-- `updateWindowed` with a coupon that is there already -/
theorem updateWindowed_mem {c : Sk} {S : Finset Nat} {w : List (BitVec 8)} {t : PT} {x : Nat}
    (h : SkInv c S) (hm : WinM c S w t) (hx : x < 64 * 2 ^ c.lgK) (hS : x ∈ S) :
    updateWindowed c x = .ok c := by
  have h1 := hm.off; have h2 := hm.many; have h3 := hm.hi; have h4 := h.num
  unfold updateWindowed
  rw [if_neg (by omega), if_neg (by omega), if_neg (by rw [h4]; omega),
    windowedStore_mem hm.win hm.pt hm.isWin hm.inv hx hS, ok_bind]
  rfl

/-- `updateWindowed` with a new coupon -/
theorem updateWindowed_new {c : Sk} {S : Finset Nat} {w : List (BitVec 8)} {t : PT} {x : Nat}
    (h : SkInv c S) (hm : WinM c S w t) (hx : x < 64 * 2 ^ c.lgK) (hS : x ∉ S) :
    (Room c.lgK (insert x S) ∧ ∃ c', updateWindowed c x = .ok c' ∧ SkInv c' (insert x S) ∧
      Stepped c c' x (insert x S)) ∨
    (¬ Room c.lgK (insert x S) ∧ ∀ r, updateWindowed c x ≠ .ok r) := by
  have ho := hm.off; have hmany := hm.many; have hhi := hm.hi; have hnum := h.num
  have hcard : (insert x S).card = S.card + 1 := Finset.card_insert_of_notMem hS
  have hbefore : correctOffset c.lgK ((insert x S).card - 1) = c.off := by
    rw [hcard, Nat.add_sub_cancel]; exact correctOffset_eq hm.hi hm.lo
  have hK4 : 2 ^ 4 ≤ 2 ^ c.lgK := Nat.pow_le_pow_right (by omega) h.lg4
  unfold updateWindowed
  rw [if_neg (by omega), if_neg (by omega), if_neg (by rw [hnum]; omega)]
  rcases windowedStore_new hm.off hm.win hm.pt hm.isWin hm.inv hx hS with
    ⟨hcap, w', t', e, hw', ht'⟩ | ⟨hcap, hf⟩
  swap
  · right
    refine ⟨fun hr => hcap (by have := hr.before; rwa [hbefore] at this), fun r hr => ?_⟩
    obtain ⟨a, ha, _⟩ := Outcome.bind_eq_ok.mp hr
    exact hf a ha
  rw [e, ok_bind]
  simp only [if_true]
  obtain ⟨c1, hc1⟩ : ∃ c1 : Sk, c1 = updateHIP
    { { c with win := some w', pt := some t' } with num := c.num + 1 } x := ⟨_, rfl⟩
  have f1 : c1.lgK = c.lgK := by rw [hc1]; rfl
  have f2 : c1.num = (insert x S).card := by rw [hc1, hcard, ← hnum]; rfl
  have f3 : c1.off = c.off := by rw [hc1]; rfl
  have f4 : c1.win = some w' := by rw [hc1]; rfl
  have f5 : c1.pt = some t' := by rw [hc1]; rfl
  have f6 : c1.fiCol = c.fiCol := by rw [hc1]; rfl
  have f7 : c1.kxp = c.kxp - invPow2 (x % 64 + 1) := by rw [hc1]; rfl
  have f8 : c1.hip = c.hip + 2 ^ c.lgK / c.kxp := by rw [hc1]; rfl
  have f9 : c1.seed = c.seed := by rw [hc1]; rfl
  have f10 : c1.merged = c.merged := by rw [hc1]; rfl
  have hcond : (8 * (updateHIP { { c with win := some w', pt := some t' } with num := c.num + 1 } x).num ≥
      (27 + 8 * (updateHIP { { c with win := some w', pt := some t' } with num := c.num + 1 } x).off) *
        2 ^ (updateHIP { { c with win := some w', pt := some t' } with num := c.num + 1 } x).lgK) ↔
      8 * (insert x S).card ≥ (27 + 8 * c.off) * 2 ^ c.lgK := by
    rw [← hc1, f1, f2, f3]
  by_cases hmove : 8 * (insert x S).card ≥ (27 + 8 * c.off) * 2 ^ c.lgK
  · rw [if_pos (hcond.mpr hmove)]
    rw [← hc1]
    have hwin1 : IsWindow (2 ^ c1.lgK) c1.off w' (insert x S) := by rw [f1, f3]; exact hw'
    have hinv1 : PTInv t' (6 + c1.lgK) (surp (2 ^ c1.lgK) c1.off (insert x S)) := by
      rw [f1, f3]; exact ht'
    rcases modifyOffset_spec f2 (by omega) f4 f5 (by omega) hwin1 hinv1 with
      ⟨h56, hcap2, w2, t2, fi, m, e2, hmat, hw2, ht2, hfi, hfile⟩ | ⟨hn, hf⟩
    · rw [f1, f3] at hcap2 hw2 ht2
      rw [f1] at hmat hfi
      rw [f3] at h56 hfile
      have hexp : (27 + 8 * (c.off + 1)) * 2 ^ c.lgK = (27 + 8 * c.off) * 2 ^ c.lgK + 8 * 2 ^ c.lgK := by
        ring
      have hexp2 : (19 + 8 * (c.off + 1)) * 2 ^ c.lgK = (27 + 8 * c.off) * 2 ^ c.lgK := by
        ring
      have hnew : 8 * (insert x S).card < (27 + 8 * (c.off + 1)) * 2 ^ c.lgK := by
        rw [hexp, hcard]; omega
      have hafter : correctOffset c.lgK (insert x S).card = c.off + 1 :=
        correctOffset_eq hnew (Or.inr (by rw [hexp2]; omega))
      left
      constructor
      · refine ⟨?_, by rw [hbefore]; exact hcap, by rw [hafter]; exact hcap2⟩
        have : (27 + 8 * (c.off + 1)) * 2 ^ c.lgK ≤ 475 * 2 ^ c.lgK :=
          Nat.mul_le_mul_right _ (by omega)
        omega
      rw [e2, ok_bind]
      dsimp +instances only []
      rw [if_neg (by omega), if_neg (by rw [f2, f1, f3]; omega)]
      refine ⟨_, rfl, ⟨by rw [f1]; exact h.lg4, by rw [f1]; exact h.lg26, f2, ?_,
        Or.inr (Or.inr ⟨w2, t2, ?_⟩)⟩, ?_⟩
      · rw [f1]; exact valid_insert h.valid hx
      · exact ⟨by rw [f1]; omega, rfl, rfl, by rw [f3]; exact h56, by rw [f1, f3]; exact hw2,
          by rw [f1, f3]; exact ht2, by rw [f1, f3]; exact hnew,
          Or.inr (by rw [f1, f3, hexp2]; omega), by rw [f1]; exact hfi, by rw [f3]; exact hfile⟩
      · refine ⟨f1, f9, f10, f8, Or.inr (by rw [f3]), ?_, ?_⟩
        · intro h8
          have h8' : ¬ (c1.off + 1) % 8 = 0 := by
            intro hcon; apply h8; exact ⟨by rw [f3], hcon⟩
          rw [← f7]
          exact if_neg h8'
        · intro _ h8
          exact ⟨m, hmat, if_pos h8⟩
    · right
      rw [f1, f3] at hn
      constructor
      · intro hr
        by_cases h56 : c.off + 1 ≤ 56
        · have hexp : (27 + 8 * (c.off + 1)) * 2 ^ c.lgK = (27 + 8 * c.off) * 2 ^ c.lgK + 8 * 2 ^ c.lgK := by
            ring
          have hexp2 : (19 + 8 * (c.off + 1)) * 2 ^ c.lgK = (27 + 8 * c.off) * 2 ^ c.lgK := by
            ring
          have hafter : correctOffset c.lgK (insert x S).card = c.off + 1 :=
            correctOffset_eq (by rw [hexp, hcard]; omega) (Or.inr (by rw [hexp2]; omega))
          have := hr.after
          rw [hafter] at this
          exact hn ⟨h56, this⟩
        · have h56' : c.off = 56 := by omega
          rw [h56'] at hmove
          have := hr.below
          omega
      · intro r hr
        obtain ⟨a, ha, _⟩ := Outcome.bind_eq_ok.mp hr
        exact hf a ha
  · rw [if_neg (fun hcon => hmove (hcond.mp hcon))]
    rw [← hc1]
    have hnew : 8 * (insert x S).card < (27 + 8 * c.off) * 2 ^ c.lgK := by omega
    have hlo : c.off = 0 ∨ (19 + 8 * c.off) * 2 ^ c.lgK ≤ 8 * (insert x S).card := by
      rcases hm.lo with h0 | h0
      · exact Or.inl h0
      · right; omega
    have hafter : correctOffset c.lgK (insert x S).card = c.off := correctOffset_eq hnew hlo
    left
    refine ⟨⟨?_, by rw [hbefore]; exact hcap, by rw [hafter]; exact hcap⟩, c1, rfl,
      ⟨by rw [f1]; exact h.lg4, by rw [f1]; exact h.lg26, f2, ?_, Or.inr (Or.inr ⟨w', t', ?_⟩)⟩, ?_⟩
    · have : (27 + 8 * c.off) * 2 ^ c.lgK ≤ 475 * 2 ^ c.lgK := Nat.mul_le_mul_right _ (by omega)
      omega
    · rw [f1]; exact valid_insert h.valid hx
    · exact ⟨by rw [f1]; omega, f4, f5, by rw [f3]; exact ho, by rw [f1, f3]; exact hw',
        by rw [f1, f3]; exact ht', by rw [f1, f3]; exact hnew, by rw [f1, f3]; exact hlo,
        by rw [f1, f6]; intro y hy hy2; exact Finset.mem_insert_of_mem (hm.fi y hy hy2),
        by rw [f3, f6]; exact hm.fiLe⟩
    · exact ⟨f1, f9, f10, f8, Or.inl f3, fun _ => f7, fun h1 => by omega⟩

/-- `updateSparse` with a coupon that is there already -/
theorem updateSparse_mem {c : Sk} {S : Finset Nat} {t : PT} {x : Nat} (h : SkInv c S)
    (hm : SparseM c S t) (hS : x ∈ S) : updateSparse c x = .ok c := by
  have h2 := hm.few; have h4 := h.num
  unfold updateSparse
  rw [if_neg (by omega)]
  simp only [hm.pt, maybeInsert_mem hm.inv hS, ok_bind]
  rw [sk_eta_pt hm.pt]
  rfl

/-- `updateSparse` with a new coupon always succeeds; also from the empty sketch with its new
table. -/
theorem updateSparse_new {c : Sk} {S : Finset Nat} {t : PT} {x : Nat}
    (h4 : 4 ≤ c.lgK) (h26 : c.lgK ≤ 26) (hnum : c.num = S.card)
    (hv : ∀ y ∈ S, y < 64 * 2 ^ c.lgK) (hfew : 32 * S.card < 3 * 2 ^ c.lgK)
    (hwin : c.win = none) (hoff : c.off = 0) (hfi : c.fiCol = 0) (hpt : c.pt = some t)
    (hinv : PTInv t (6 + c.lgK) S) (hx : x < 64 * 2 ^ c.lgK) (hS : x ∉ S) :
    Room c.lgK (insert x S) ∧ ∃ c', updateSparse c x = .ok c' ∧ SkInv c' (insert x S) ∧
      Stepped c c' x (insert x S) := by
  have hcard : (insert x S).card = S.card + 1 := Finset.card_insert_of_notMem hS
  have hK4 : 2 ^ 4 ≤ 2 ^ c.lgK := Nat.pow_le_pow_right (by omega) h4
  have hfew' : 32 * (insert x S).card < 3 * 2 ^ c.lgK + 32 := by omega
  refine ⟨room_of_few h4 h26 hfew', ?_⟩
  have hcap : Cap (6 + c.lgK) (S.card + 1) := by
    have := cap_of_few h4 h26 hfew'; rwa [hcard] at this
  rcases maybeInsert_spec hinv hS (by rw [two6]; exact hx) with ⟨_, t', e, h'⟩ | ⟨hn, _⟩
  swap
  · exact absurd hcap hn
  unfold updateSparse
  rw [if_neg (by omega)]
  simp only [hpt, e, ok_bind, if_true]
  obtain ⟨c1, hc1⟩ : ∃ c1 : Sk, c1 = updateHIP { { c with pt := some t' } with num := c.num + 1 } x :=
    ⟨_, rfl⟩
  have f1 : c1.lgK = c.lgK := by rw [hc1]; rfl
  have f2 : c1.num = (insert x S).card := by rw [hc1, hcard, ← hnum]; rfl
  have f3 : c1.off = 0 := by rw [hc1, ← hoff]; rfl
  have f4 : c1.win = none := by rw [hc1, ← hwin]; rfl
  have f5 : c1.pt = some t' := by rw [hc1]; rfl
  have f6 : c1.fiCol = 0 := by rw [hc1, ← hfi]; rfl
  have f7 : c1.kxp = c.kxp - invPow2 (x % 64 + 1) := by rw [hc1]; rfl
  have f8 : c1.hip = c.hip + 2 ^ c.lgK / c.kxp := by rw [hc1]; rfl
  have f9 : c1.seed = c.seed := by rw [hc1]; rfl
  have f10 : c1.merged = c.merged := by rw [hc1]; rfl
  have hcond : (32 * (updateHIP { { c with pt := some t' } with num := c.num + 1 } x).num ≥
      3 * 2 ^ (updateHIP { { c with pt := some t' } with num := c.num + 1 } x).lgK) ↔
      32 * (insert x S).card ≥ 3 * 2 ^ c.lgK := by
    rw [← hc1, f1, f2]
  by_cases hmany : 32 * (insert x S).card ≥ 3 * 2 ^ c.lgK
  · rw [if_pos (hcond.mpr hmany)]
    rw [← hc1]
    obtain ⟨w2, t2, e2, hw2, ht2⟩ := promoteSparse_spec (c := c1) (S := insert x S) (t := t')
      (by rw [f1]; exact h4) (by rw [f1]; exact h26) f5 (by rw [f1]; exact h')
      (by rw [f1]; exact hfew')
    rw [f1] at hw2 ht2
    refine ⟨_, e2, ⟨by rw [f1]; exact h4, by rw [f1]; exact h26, f2, ?_,
      Or.inr (Or.inr ⟨w2, t2, ?_⟩)⟩, ?_⟩
    · rw [f1]; exact valid_insert hv hx
    · exact ⟨by rw [f1]; omega, rfl, rfl, by rw [f3]; omega, by rw [f1, f3]; exact hw2,
        by rw [f1, f3]; exact ht2, by rw [f1, f3]; omega, Or.inl f3,
        by rw [f6]; intro y _ hy; omega, by rw [f3, f6]⟩
    · exact ⟨f1, f9, f10, f8, Or.inl (by rw [hoff]; exact f3), fun _ => f7,
        fun h1 => by rw [hoff] at h1; have : c1.off = 0 + 1 := h1; omega⟩
  · rw [if_neg (fun hcon => hmany (hcond.mp hcon))]
    rw [← hc1]
    refine ⟨c1, rfl, ⟨by rw [f1]; exact h4, by rw [f1]; exact h26, f2, ?_,
      Or.inr (Or.inl ⟨t', ?_⟩)⟩, ?_⟩
    · rw [f1]; exact valid_insert hv hx
    · exact ⟨by omega, by rw [f1]; omega, f4, f3, f6, f5, by rw [f1]; exact h'⟩
    · exact ⟨f1, f9, f10, f8, Or.inl (by rw [hoff]; exact f3), fun _ => f7,
        fun h1 => by rw [hoff] at h1; omega⟩

/-- the common body of `rowColUpdate` and `hashUpdate` -/
def body (c : Sk) (x : Nat) : Outcome Sk := do
  let c ← if c.num = 0 then promoteEmpty c else .ok c
  if 32 * c.num < 3 * 2 ^ c.lgK then updateSparse c x else updateWindowed c x

theorem body_mem {c : Sk} {S : Finset Nat} {x : Nat} (h : SkInv c S) (hx : x < 64 * 2 ^ c.lgK)
    (hS : x ∈ S) : body c x = .ok c := by
  have hne : c.num ≠ 0 := by rw [h.num]; exact Finset.card_ne_zero_of_mem hS
  have hnum := h.num
  unfold body
  rw [if_neg hne, ok_bind]
  beta_reduce
  rcases h.mode with hm | ⟨t, hm⟩ | ⟨w, t, hm⟩
  · rw [hm.set] at hS; simp at hS
  · have := hm.few
    rw [if_pos (by omega)]
    exact updateSparse_mem h hm hS
  · have := hm.many
    rw [if_neg (by omega)]
    exact updateWindowed_mem h hm hx hS

theorem body_new {c : Sk} {S : Finset Nat} {x : Nat} (h : SkInv c S) (hx : x < 64 * 2 ^ c.lgK)
    (hS : x ∉ S) :
    (Room c.lgK (insert x S) ∧ ∃ c', body c x = .ok c' ∧ SkInv c' (insert x S) ∧
      Stepped c c' x (insert x S)) ∨
    (¬ Room c.lgK (insert x S) ∧ ∀ r, body c x ≠ .ok r) := by
  have hnum := h.num
  have h4 := h.lg4
  have h26 := h.lg26
  have hK := Nat.two_pow_pos c.lgK
  unfold body
  rcases h.mode with hm | ⟨t, hm⟩ | ⟨w, t, hm⟩
  · have h0 : c.num = 0 := by rw [hnum, hm.set]; rfl
    obtain ⟨t0, e0, h0', _⟩ := PTInv.new (lg := 2) (vb := 6 + c.lgK) (by omega) (by omega) (by omega)
    left
    rw [if_pos h0]
    unfold promoteEmpty
    rw [e0, ok_bind, ok_bind]
    dsimp +instances only []
    rw [if_pos (by rw [h0]; omega)]
    have hS0 := hm.set
    subst hS0
    obtain ⟨hr, c', e, hi, hst⟩ := updateSparse_new (c := { c with pt := some t0 }) (S := ∅) (t := t0)
      h4 h26 (by simpa using hnum) (by simp) (by simp) hm.win hm.off hm.fi rfl h0' hx
      (by simp)
    exact ⟨hr, c', e, hi, ⟨hst.lgK, hst.seed, hst.merged, hst.hip, hst.off, hst.kxp, hst.fresh⟩⟩
  · have := hm.few
    have := hm.ne
    rw [if_neg (by omega), ok_bind]
    beta_reduce
    rw [if_pos (by omega)]
    left
    exact updateSparse_new h4 h26 hnum h.valid hm.few hm.win hm.off hm.fi hm.pt hm.inv hx hS
  · have := hm.many
    rw [if_neg (by omega), ok_bind]
    beta_reduce
    rw [if_neg (by omega)]
    exact updateWindowed_new h hm hx hS

theorem fi_lt {c : Sk} {S : Finset Nat} (h : SkInv c S) : c.fiCol ≤ 56 ∧
    ∀ x, x < 64 * 2 ^ c.lgK → x % 64 < c.fiCol → x ∈ S := by
  rcases h.mode with hm | ⟨t, hm⟩ | ⟨w, t, hm⟩
  · rw [hm.fi]; exact ⟨by omega, fun x _ hx => by omega⟩
  · rw [hm.fi]; exact ⟨by omega, fun x _ hx => by omega⟩
  · exact ⟨hm.fiLe.trans hm.off, hm.fi⟩

theorem rowColUpdate_eq {c : Sk} {S : Finset Nat} {x : Nat} (h : SkInv c S)
    (hx : x < 64 * 2 ^ c.lgK) : rowColUpdate c x = body c x := by
  unfold rowColUpdate
  rw [and63]
  by_cases hf : x % 64 < c.fiCol
  · rw [if_pos hf, body_mem h hx ((fi_lt h).2 x hx hf)]
  · rw [if_neg hf]; rfl

theorem clz_le (x : BitVec 64) : clz x ≤ 64 := by
  unfold clz
  cases h : (List.range 64).find? (fun i => x.getLsbD (63 - i)) with
  | none => simp
  | some i =>
    have := List.mem_of_find?_eq_some h
    rw [List.mem_range] at this
    simp; omega

/-- the coupon of a hash: the row from the low bits of the first word, the column the number of
leading zeros of the second, at most 63 -/
def coupon (lgK : Nat) (h : BitVec 64 × BitVec 64) : Nat :=
  64 * (h.1.toNat % 2 ^ lgK) + min 63 (clz h.2)

theorem coupon_lt (lgK : Nat) (h : BitVec 64 × BitVec 64) : coupon lgK h < 64 * 2 ^ lgK := by
  unfold coupon
  have := Nat.mod_lt h.1.toNat (Nat.two_pow_pos lgK)
  omega

theorem hashUpdate_eq {c : Sk} {S : Finset Nat} (h : SkInv c S) (h0 h1 : BitVec 64) :
    hashUpdate c h0 h1 = body c (coupon c.lgK (h0, h1)) := by
  have hx := coupon_lt c.lgK (h0, h1)
  have hf := fi_lt h
  unfold hashUpdate
  simp only []
  by_cases hc : clz h1 < c.fiCol
  · rw [if_pos hc, body_mem h hx]
    apply hf.2 _ hx
    unfold coupon
    simp only []
    omega
  · rw [if_neg hc]
    unfold body
    have hmin : (if clz h1 > 63 then 63 else clz h1) = min 63 (clz h1) := by
      split <;> omega
    rw [hmin]
    have hlg : ∀ c' : Sk, c'.lgK = c.lgK →
        ((h0.toNat &&& (2 ^ c'.lgK - 1)) <<< 6) ||| min 63 (clz h1) = coupon c.lgK (h0, h1) := by
      intro c' hc'
      rw [hc', Nat.and_two_pow_sub_one_eq_mod, join6 (by omega)]
      rfl
    by_cases h0n : c.num = 0
    · simp only [if_pos h0n]
      unfold promoteEmpty
      cases hn : newPT 2 (6 + c.lgK) with
      | ok t => simp only [ok_bind]; rw [hlg { c with pt := some t } rfl]
      | err e => rfl
      | panic => rfl
    · simp only [if_neg h0n, ok_bind]
      rw [hlg c rfl]

end Verif.Cpc
