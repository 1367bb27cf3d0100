import Verif.CpcMatrix

/-!
# The invariant of the CPC sketch

`SkInv c S`: the sketch `c` stands for the set `S` of coupons (`64 * row + column`).
-/

namespace Verif.Cpc

open Outcome

structure EmptyM (c : Sk) (S : Finset Nat) : Prop where
  set : S = ∅
  win : c.win = none
  off : c.off = 0
  fi : c.fiCol = 0

structure SparseM (c : Sk) (S : Finset Nat) (t : PT) : Prop where
  ne : 0 < S.card
  few : 32 * S.card < 3 * 2 ^ c.lgK
  win : c.win = none
  off : c.off = 0
  fi : c.fiCol = 0
  pt : c.pt = some t
  inv : PTInv t (6 + c.lgK) S

structure WinM (c : Sk) (S : Finset Nat) (w : List (BitVec 8)) (t : PT) : Prop where
  many : 3 * 2 ^ c.lgK ≤ 32 * S.card
  win : c.win = some w
  pt : c.pt = some t
  off : c.off ≤ 56
  isWin : IsWindow (2 ^ c.lgK) c.off w S
  inv : PTInv t (6 + c.lgK) (surp (2 ^ c.lgK) c.off S)
  hi : 8 * S.card < (27 + 8 * c.off) * 2 ^ c.lgK
  lo : c.off = 0 ∨ (19 + 8 * c.off) * 2 ^ c.lgK ≤ 8 * S.card
  fi : ∀ x, x < 64 * 2 ^ c.lgK → x % 64 < c.fiCol → x ∈ S
  fiLe : c.fiCol ≤ c.off

structure SkInv (c : Sk) (S : Finset Nat) : Prop where
  lg4 : 4 ≤ c.lgK
  lg26 : c.lgK ≤ 26
  num : c.num = S.card
  valid : ∀ x ∈ S, x < 64 * 2 ^ c.lgK
  mode : EmptyM c S ∨ (∃ t, SparseM c S t) ∨ (∃ w t, WinM c S w t)

theorem SkInv.new {lgK seed : Nat} (h4 : 4 ≤ lgK) (h26 : lgK ≤ 26) :
    ∃ c, newSk lgK seed = .ok c ∧ SkInv c ∅ ∧ c.lgK = lgK ∧ c.merged = false ∧ c.seed = seed ∧
      c.kxp = 2 ^ lgK ∧ c.hip = 0 := by
  unfold newSk
  rw [if_neg (by omega)]
  exact ⟨_, rfl, ⟨h4, h26, rfl, by simp, Or.inl ⟨rfl, rfl, rfl, rfl⟩⟩, rfl, rfl, rfl, rfl, rfl⟩

theorem new_err {lgK seed : Nat} (h : lgK < 4 ∨ 26 < lgK) : newSk lgK seed = .err "LgK" := by
  unfold newSk
  rw [if_pos (by omega)]

/-- `bitMatrixOfSketch` returns the matrix of the set of coupons. -/
theorem bitMatrix_spec {c : Sk} {S : Finset Nat} (h : SkInv c S) :
    ∃ m, bitMatrix c = .ok m ∧ IsMatrix (2 ^ c.lgK) m S := by
  have hvb := two6 c.lgK
  unfold bitMatrix
  rcases h.mode with hm | ⟨t, hm⟩ | ⟨w, t, hm⟩
  · have h0 : c.num = 0 := by rw [h.num, hm.set]; rfl
    rw [if_neg (by rw [hm.off]; omega), if_pos h0]
    refine ⟨_, rfl, (Rep.replicate _ _).congr ?_⟩
    intro r c hr hc
    simp [hm.set]
  · have h0 : c.num ≠ 0 := by rw [h.num]; have := hm.ne; omega
    rw [if_neg (by rw [hm.off]; omega), if_neg h0]
    simp only [hm.win, hm.pt, hm.off, ok_bind]
    exact assemble_sparse hvb hm.inv
  · have h0 : c.num ≠ 0 := by
      rw [h.num]; have := hm.many; have := Nat.two_pow_pos c.lgK; omega
    rw [if_neg (by have := hm.off; omega), if_neg h0]
    simp only [hm.win, hm.pt]
    exact assemble hm.off hvb hm.isWin hm.inv rfl

/-! ## Room -/

/-- The conditions under which a sketch can hold the coupons `S` having held one fewer: the window
stays within the 64 columns and the surprising values fit into the table, before and after the
window is moved. -/
structure Room (lgK : Nat) (S : Finset Nat) : Prop where
  below : 8 * S.card < 475 * 2 ^ lgK
  before : Cap (6 + lgK) (surp (2 ^ lgK) (correctOffset lgK (S.card - 1)) S).card
  after : Cap (6 + lgK) (surp (2 ^ lgK) (correctOffset lgK S.card) S).card

theorem correctOffset_eq {lgK n o : Nat} (hi : 8 * n < (27 + 8 * o) * 2 ^ lgK)
    (lo : o = 0 ∨ (19 + 8 * o) * 2 ^ lgK ≤ 8 * n) : correctOffset lgK n = o := by
  have hp := Nat.two_pow_pos lgK
  unfold correctOffset
  rw [Nat.shiftRight_eq_div_pow, pow_add, show (2 : Nat) ^ 3 = 8 by norm_num]
  generalize hK : 2 ^ lgK = K at *
  rcases lo with rfl | lo
  · split
    · rfl
    · apply Nat.div_eq_of_lt; omega
  · have e1 : (19 + 8 * o) * K = 19 * K + o * (K * 8) := by ring
    have e2 : (27 + 8 * o) * K = 19 * K + (o + 1) * (K * 8) := by ring
    rw [e1] at lo
    rw [e2] at hi
    rw [if_neg (by omega), Nat.div_eq_iff (by omega)]
    rw [Nat.add_mul] at hi
    constructor <;> omega

theorem cap_of_few {lgK n : Nat} (h4 : 4 ≤ lgK) (h26 : lgK ≤ 26) (h : 32 * n < 3 * 2 ^ lgK + 32) :
    Cap (6 + lgK) n := by
  unfold Cap
  have h1 : 2 ^ lgK ≤ 2 ^ (min 26 (6 + lgK)) := Nat.pow_le_pow_right (by omega) (by omega)
  have h2 : 2 ^ 4 ≤ 2 ^ lgK := Nat.pow_le_pow_right (by omega) h4
  omega

theorem cap_mono {vb n m : Nat} (h : Cap vb m) (hnm : n ≤ m) : Cap vb n := by
  unfold Cap at *; omega

theorem PTInv.cap {p : PT} {vb : Nat} {S : Finset Nat} (h : PTInv p vb S) : Cap vb S.card := by
  have h1 := h.load
  have h2 := h.core.lgvb
  have h3 := h.lg26
  have h4 : 2 ^ p.lg ≤ 2 ^ min 26 vb := Nat.pow_le_pow_right (by omega) (by omega)
  unfold Cap
  omega

theorem surp_zero_card (K : Nat) (S : Finset Nat) : (surp K 0 S).card ≤ S.card := by
  apply Finset.card_le_card
  intro x hx
  have := (mem_surp.mp hx).2
  rcases this with h | h
  · omega
  · exact h.2

/-- In sparse mode there is always room. -/
theorem room_of_few {lgK : Nat} {S : Finset Nat} (h4 : 4 ≤ lgK) (h26 : lgK ≤ 26)
    (h : 32 * S.card < 3 * 2 ^ lgK + 32) : Room lgK S := by
  have h2 : 2 ^ 4 ≤ 2 ^ lgK := Nat.pow_le_pow_right (by omega) h4
  have hz := surp_zero_card (2 ^ lgK) S
  refine ⟨by omega, ?_, ?_⟩
  · rw [correctOffset_eq (o := 0) (by omega) (Or.inl rfl)]
    exact cap_mono (cap_of_few h4 h26 h) hz
  · rw [correctOffset_eq (o := 0) (by omega) (Or.inl rfl)]
    exact cap_mono (cap_of_few h4 h26 h) hz

/-! ## Moving the window -/

theorem modifyOffset_spec {c : Sk} {S : Finset Nat} {w : List (BitVec 8)} {t : PT}
    (hnum : c.num = S.card) (hne : 0 < S.card)
    (hw : c.win = some w) (hp : c.pt = some t) (ho : c.off ≤ 56)
    (hwin : IsWindow (2 ^ c.lgK) c.off w S)
    (hinv : PTInv t (6 + c.lgK) (surp (2 ^ c.lgK) c.off S)) :
    (c.off + 1 ≤ 56 ∧ Cap (6 + c.lgK) (surp (2 ^ c.lgK) (c.off + 1) S).card ∧
      ∃ w' t' fi m, modifyOffset c (c.off + 1) =
          .ok { c with win := some w', pt := some t', off := c.off + 1, fiCol := fi,
                       kxp := if (c.off + 1) % 8 = 0 then refreshKXP m else c.kxp } ∧
        IsMatrix (2 ^ c.lgK) m S ∧
        IsWindow (2 ^ c.lgK) (c.off + 1) w' S ∧
        PTInv t' (6 + c.lgK) (surp (2 ^ c.lgK) (c.off + 1) S) ∧
        (∀ x, x < 64 * 2 ^ c.lgK → x % 64 < fi → x ∈ S) ∧ fi ≤ c.off + 1) ∨
    (¬ (c.off + 1 ≤ 56 ∧ Cap (6 + c.lgK) (surp (2 ^ c.lgK) (c.off + 1) S).card) ∧
      ∀ r, modifyOffset c (c.off + 1) ≠ .ok r) := by
  by_cases h57 : c.off + 1 ≤ 56
  swap
  · right
    refine ⟨fun hc => h57 hc.1, fun r hr => ?_⟩
    unfold modifyOffset at hr
    rw [if_pos (by omega)] at hr
    cases hr
  have hmat : ∃ m, bitMatrix c = .ok m ∧ IsMatrix (2 ^ c.lgK) m S := by
    unfold bitMatrix
    rw [if_neg (by omega), if_neg (by omega)]
    simp only [hw, hp]
    exact assemble ho (two6 c.lgK) hwin hinv rfl
  obtain ⟨m, em, hm⟩ := hmat
  have hsurp := rowsSurp_eq hm (off := c.off + 1) (by omega)
  have hcl := hinv.clear
  have hmod : modifyOffset c (c.off + 1) =
      (splitRows (c.off + 1) m 0 [] t.clear 0#64 >>= fun r => match r with
        | none => .panic
        | some (w, t, ored) =>
          .ok { c with win := some w, pt := some t, off := c.off + 1,
                       fiCol := min (ctz ored) (c.off + 1),
                       kxp := if (c.off + 1) % 8 = 0 then refreshKXP m else c.kxp }) := by
    unfold modifyOffset
    rw [if_neg (by omega), if_neg (by omega)]
    simp only [hw, hp, em, ok_bind]
    by_cases h8 : (c.off + 1) % 8 = 0
    · simp only [if_pos h8]; rfl
    · simp only [if_neg h8]; rfl
  rcases splitRows_spec (vb := 6 + c.lgK) (off := c.off + 1) m 0 [] t.clear 0#64 ∅ hcl (by simp)
      (by rw [Nat.zero_add, hm.1, two6]) (by unfold Cap; simp) with
    ⟨hc, t', o', e, h', hor⟩ | ⟨hc, hf⟩
  · left
    rw [Finset.empty_union, hsurp] at hc h'
    refine ⟨h57, hc, m.map (windowOf (c.off + 1)), t', min (ctz o') (c.off + 1), m, ?_, hm, isWindow_map hm (by omega), h', ?_, Nat.min_le_right _ _⟩
    · rw [hmod, e, ok_bind]
      simp only [List.nil_append]
    · apply fiCol_sound hm (by omega)
      intro col
      rw [hor col]; simp
  · right
    rw [Finset.empty_union, hsurp] at hc
    refine ⟨fun hcon => hc hcon.2, fun r hr => ?_⟩
    rw [hmod] at hr
    obtain ⟨a, ha, _⟩ := Outcome.bind_eq_ok.mp hr
    exact hf a ha

/-! ## Promotion to a window -/

theorem promote_fold {K vb : Nat} (hvb : 2 ^ vb = 64 * K) :
    ∀ (l : List (Option Nat)) (w : List (BitVec 8)) (t : PT) (S0 : Finset Nat),
      IsWindow K 0 w S0 → PTInv t vb (surp K 0 S0) →
      (∀ x, some x ∈ l → x < 64 * K ∧ x ∉ S0) → (l.filterMap id).Nodup →
      Cap vb (S0.card + (l.filterMap id).length) →
      ∃ w' t', l.foldlM promoteStep (w, t) = .ok (w', t') ∧
        IsWindow K 0 w' (S0 ∪ (l.filterMap id).toFinset) ∧
        PTInv t' vb (surp K 0 (S0 ∪ (l.filterMap id).toFinset)) := by
  intro l
  induction l with
  | nil => intro w t S0 hw ht _ _ _; exact ⟨w, t, rfl, by simpa using hw, by simpa using ht⟩
  | cons a l ih =>
    intro w t S0 hw ht hl hnd hcap
    rw [List.foldlM_cons]
    cases a with
    | none =>
      obtain ⟨w', t', e, h1, h2⟩ := ih w t S0 hw ht (fun x hx => hl x (List.mem_cons_of_mem _ hx))
        (by simpa using hnd) (by simpa using hcap)
      exact ⟨w', t', e, by simpa using h1, by simpa using h2⟩
    | some x =>
      obtain ⟨hx, hxS⟩ := hl x List.mem_cons_self
      have hnd' : some x ∉ l ∧ (l.filterMap id).Nodup := by
        simpa using hnd
      have hunion : S0 ∪ ((some x :: l).filterMap id).toFinset =
          insert x S0 ∪ (l.filterMap id).toFinset := by
        simp only [List.filterMap_cons, id_eq, List.toFinset_cons]
        rw [Finset.union_insert, Finset.insert_union]
      have hl' : ∀ y, some y ∈ l → y < 64 * K ∧ y ∉ insert x S0 := by
        intro y hy
        have := hl y (List.mem_cons_of_mem _ hy)
        refine ⟨this.1, ?_⟩
        rw [Finset.mem_insert, not_or]
        refine ⟨?_, this.2⟩
        rintro rfl
        exact hnd'.1 hy
      have hcap' : Cap vb ((insert x S0).card + (l.filterMap id).length) := by
        rw [Finset.card_insert_of_notMem hxS]
        simp only [List.filterMap_cons, id_eq, List.length_cons] at hcap
        rw [show S0.card + 1 + (l.filterMap id).length = S0.card + ((l.filterMap id).length + 1) by omega]
        exact hcap
      rw [hunion]
      by_cases hcol : x % 64 < 8
      · have hlt : x / 64 < w.length := by rw [hw.1]; omega
        have hstep : promoteStep (w, t) (some x) =
            .ok (w.set (x / 64) (w[x / 64] ||| (1#8 <<< (x % 64))), t) := by
          simp only [promoteStep, and63, shr6, if_pos hcol, List.getElem?_eq_getElem hlt]
        rw [hstep, ok_bind]
        apply ih _ _ _ _ _ hl' hnd'.2 hcap'
        · refine ⟨by rw [List.length_set]; exact hw.1, fun r b hb j hj => ?_⟩
          by_cases he : x / 64 = r
          · subst he
            rw [List.getElem?_set_self hlt] at hb
            simp only [Option.some.injEq] at hb
            rw [← hb, BitVec.getLsbD_or, single_bit8 hcol,
              hw.2 _ _ (List.getElem?_eq_getElem hlt) j hj]
            by_cases h5 : j = x % 64
            · have h6 : 64 * (x / 64) + (0 + j) = x := by omega
              simp [h5]
              left; omega
            · have h6 : 64 * (x / 64) + (0 + j) ≠ x := by omega
              simp only [h5, decide_false, Bool.or_false, Finset.mem_insert, h6, false_or]
          · rw [List.getElem?_set_ne he] at hb
            rw [hw.2 r b hb j hj]
            have h6 : 64 * r + (0 + j) ≠ x := by omega
            simp only [Finset.mem_insert, h6, false_or]
        · have : surp K 0 (insert x S0) = surp K 0 S0 := by
            ext y
            rw [mem_surp, mem_surp, Finset.mem_insert]
            constructor
            · rintro ⟨h1, h2 | ⟨h2, h3⟩⟩
              · omega
              · refine ⟨h1, Or.inr ⟨h2, ?_⟩⟩
                rcases h3 with rfl | h3
                · omega
                · exact h3
            · rintro ⟨h1, h2 | ⟨h2, h3⟩⟩
              · omega
              · exact ⟨h1, Or.inr ⟨h2, Or.inr h3⟩⟩
          rw [this]; exact ht
      · have hnm : x ∉ surp K 0 S0 := by
          rw [mem_surp]
          rintro ⟨_, h2 | ⟨_, h3⟩⟩
          · omega
          · exact hxS h3
        rcases maybeInsert_spec ht hnm (by rw [hvb]; exact hx) with ⟨_, t', e, h'⟩ | ⟨hc, _⟩
        · have hstep : promoteStep (w, t) (some x) = .ok (w, t') := by
            simp only [promoteStep, and63, if_neg hcol, e, ok_bind]
            rfl
          rw [hstep, ok_bind]
          apply ih _ _ _ _ _ hl' hnd'.2 hcap'
          · refine ⟨hw.1, fun r b hb j hj => ?_⟩
            rw [hw.2 r b hb j hj]
            have h6 : 64 * r + (0 + j) ≠ x := by omega
            simp only [Finset.mem_insert, h6, false_or]
          · have : surp K 0 (insert x S0) = insert x (surp K 0 S0) := by
              ext y
              simp only [mem_surp, Finset.mem_insert]
              constructor
              · rintro ⟨h1, h2 | ⟨h2, h3⟩⟩
                · omega
                · rcases h3 with rfl | h3
                  · left; rfl
                  · exact Or.inr ⟨h1, Or.inr ⟨h2, h3⟩⟩
              · rintro (rfl | ⟨h1, h2 | ⟨h2, h3⟩⟩)
                · exact ⟨hx, Or.inr ⟨by omega, Or.inl rfl⟩⟩
                · omega
                · exact ⟨h1, Or.inr ⟨h2, Or.inr h3⟩⟩
            rw [this]; exact h'
        · exfalso
          apply hc
          have := surp_zero_card K S0
          simp only [List.filterMap_cons, id_eq, List.length_cons] at hcap
          exact cap_mono hcap (by omega)

theorem promoteSparse_spec {c : Sk} {S : Finset Nat} {t : PT} (h4 : 4 ≤ c.lgK) (h26 : c.lgK ≤ 26)
    (hp : c.pt = some t) (hinv : PTInv t (6 + c.lgK) S) (hfew : 32 * S.card < 3 * 2 ^ c.lgK + 32) :
    ∃ w' t', promoteSparse c = .ok { c with win := some w', pt := some t' } ∧
      IsWindow (2 ^ c.lgK) 0 w' S ∧ PTInv t' (6 + c.lgK) (surp (2 ^ c.lgK) 0 S) := by
  obtain ⟨t0, e0, h0, _⟩ := PTInv.new (lg := 2) (vb := 6 + c.lgK) (by omega) (by omega) (by omega)
  have hfs : (t.slots.filterMap id).toFinset = S := by
    ext x
    rw [List.mem_toFinset, List.mem_filterMap]
    simp only [id_eq, exists_eq_right]
    exact hinv.core.mem x
  have hw0 : IsWindow (2 ^ c.lgK) 0 (List.replicate (2 ^ c.lgK) 0#8) ∅ := by
    refine ⟨by simp, fun r b hb j hj => ?_⟩
    have := List.mem_of_getElem? hb
    rw [List.mem_replicate] at this
    rw [this.2]; simp
  have hs0 : surp (2 ^ c.lgK) 0 ∅ = ∅ := by
    rw [Finset.eq_empty_iff_forall_notMem]
    intro x hx
    rcases (mem_surp.mp hx).2 with h | h
    · omega
    · simp at h
  have hlen : (t.slots.filterMap id).length = S.card := by
    rw [← hfs, List.toFinset_card_of_nodup hinv.core.nodup]
  obtain ⟨w', t', e, h1, h2⟩ := promote_fold (two6 c.lgK) t.slots _ t0 ∅ hw0 (by rw [hs0]; exact h0)
    (fun x hx => ⟨by rw [← two6]; exact hinv.core.valid x ((hinv.core.mem x).mp hx), by simp⟩)
    hinv.core.nodup (by rw [hlen]; simpa using cap_of_few h4 h26 hfew)
  rw [Finset.empty_union, hfs] at h1 h2
  refine ⟨w', t', ?_, h1, h2⟩
  unfold promoteSparse
  have htake : t.slots.take (2 ^ t.lg) = t.slots :=
    List.take_of_length_le (by rw [hinv.core.len])
  simp only [hp, e0, ok_bind, htake, e]

end Verif.Cpc
