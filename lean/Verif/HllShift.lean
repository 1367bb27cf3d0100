import Verif.HllRegs

/-!
# `shiftToBiggerCurMin` of the 4-bit array
-/

namespace Verif.Hll

open Probe

variable {H : Type}

/-- The 4-bit array `a` represents the registers `R`. -/
structure Core4 (a : Arr H) (R : List Nat) : Prop where
  h4 : 4 ≤ a.lgK
  h21 : a.lgK ≤ 21
  len : R.length = 2 ^ a.lgK
  le63 : ∀ v ∈ R, v ≤ 63
  blen : a.bytes.length = 2 ^ (a.lgK - 1)
  b256 : ∀ b ∈ a.bytes, b < 256
  low : ∀ v ∈ R, a.curMin ≤ v
  nib : ∀ j, j < 2 ^ a.lgK → getNibble a.bytes j = .ok (min 15 (R.getD j 0 - a.curMin))
  aux : AuxOpt a.aux a.lgK (excs R a.curMin)
  num : a.num = R.count a.curMin

theorem half_lt {lgK j : Nat} (h4 : 4 ≤ lgK) (hj : j < 2 ^ lgK) : j / 2 < 2 ^ (lgK - 1) := by
  have : 2 ^ lgK = 2 ^ (lgK - 1) * 2 := by rw [← pow_succ]; congr 1; omega
  omega

/-- first loop of `shiftToBiggerCurMin` -/
theorem shiftLoop_spec {bytes : List Nat} {lgK : Nat} (h4 : 4 ≤ lgK) (hasAux : Bool)
    (hlen : bytes.length = 2 ^ (lgK - 1)) (hb : ∀ b ∈ bytes, b < 256) (n : Nat → Nat)
    (hn : ∀ j, j < 2 ^ lgK → getNibble bytes j = .ok (n j) ∧ 0 < n j ∧ n j ≤ 15)
    (haux : ∀ j, j < 2 ^ lgK → n j = 15 → hasAux = true) :
    ∃ st, (List.range (2 ^ lgK)).foldlM (shiftStep hasAux) (bytes, 0, 0) = .ok st ∧
      st.1.length = 2 ^ (lgK - 1) ∧ (∀ b ∈ st.1, b < 256) ∧
      (∀ j, j < 2 ^ lgK → getNibble st.1 j = .ok (if n j < 15 then n j - 1 else 15)) ∧
      st.2.1 = (List.range (2 ^ lgK)).countP (fun j => decide (n j = 1)) ∧
      st.2.2 = (List.range (2 ^ lgK)).countP (fun j => decide (n j = 15)) := by
  obtain ⟨st, h1, h2⟩ := range_fold (f := shiftStep hasAux) (n := 2 ^ lgK)
    (s0 := (bytes, 0, 0))
    (fun i st => st.1.length = 2 ^ (lgK - 1) ∧ (∀ b ∈ st.1, b < 256) ∧
      (∀ j, j < 2 ^ lgK → getNibble st.1 j =
        .ok (if j < i then (if n j < 15 then n j - 1 else 15) else n j)) ∧
      st.2.1 = (List.range i).countP (fun j => decide (n j = 1)) ∧
      st.2.2 = (List.range i).countP (fun j => decide (n j = 15)))
    ⟨hlen, hb, fun j hj => by simpa using (hn j hj).1, by simp, by simp⟩
    (by
      rintro i ⟨b, x, y⟩ hi ⟨p1, p2, p3, p4, p5⟩
      simp only at p1 p2 p3 p4 p5
      have hni := hn i hi
      have hg := p3 i hi
      rw [if_neg (by omega)] at hg
      unfold shiftStep
      simp only
      rw [hg, Outcome.ok_bind, if_neg (by omega)]
      by_cases h15 : n i < 15
      · rw [if_pos h15]
        obtain ⟨b', e1, e2, e3, e4⟩ := putNibble_spec (bytes := b) (j := i) (v := n i - 1)
          (by rw [p1]; exact half_lt h4 hi) (by omega)
        rw [e1, Outcome.ok_bind]
        refine ⟨_, rfl, by rw [e2]; exact p1, e3 p2, ?_, ?_, ?_⟩
        · intro j hj
          rw [e4]
          by_cases hji : j = i
          · subst hji
            rw [if_pos rfl, if_pos (by omega), if_pos h15]
          · rw [if_neg hji, p3 j hj]
            by_cases hlt : j < i
            · rw [if_pos hlt, if_pos (show j < i + 1 by omega)]
            · rw [if_neg hlt, if_neg (show ¬ j < i + 1 by omega)]
        · simp only
          rw [List.range_succ, List.countP_append, ← p4]
          by_cases h1 : n i = 1
          · simp [h1]
          · rw [if_neg (by omega)]
            simp [h1]
        · simp only
          rw [List.range_succ, List.countP_append, ← p5]
          simp [show n i ≠ 15 by omega]
      · rw [if_neg h15]
        have hni15 : n i = 15 := by omega
        rw [if_pos (haux i hi hni15)]
        refine ⟨_, rfl, p1, p2, ?_, ?_, ?_⟩
        · intro j hj
          rw [p3 j hj]
          by_cases hji : j = i
          · subst hji
            rw [if_neg (by omega), if_pos (by omega), if_neg h15, hni15]
          · by_cases hlt : j < i
            · rw [if_pos hlt, if_pos (show j < i + 1 by omega)]
            · rw [if_neg hlt, if_neg (show ¬ j < i + 1 by omega)]
        · simp only
          rw [List.range_succ, List.countP_append, ← p4]
          simp [show n i ≠ 1 by omega]
        · simp only
          rw [List.range_succ, List.countP_append, ← p5]
          simp [hni15])
  obtain ⟨p1, p2, p3, p4, p5⟩ := h2
  exact ⟨st, h1, p1, p2, fun j hj => by rw [p3 j hj, if_pos hj], p4, p5⟩

/-- the body of the second loop, on decoded entries -/
def shiftAuxStep' (lgK c' : Nat) (st : List Nat × Option Aux × Int) (e : Nat × Nat) :
    Outcome (List Nat × Option Aux × Int) := shiftAuxStep lgK c' st (pair e.1 e.2)

/-- second loop of `shiftToBiggerCurMin` -/
theorem shiftAuxLoop_spec {lgK c' : Nat} (h4 : 4 ≤ lgK) (h21 : lgK ≤ 21) {bytes : List Nat}
    (hlen : bytes.length = 2 ^ (lgK - 1)) (hb : ∀ b ∈ bytes, b < 256) {base : Nat → Nat}
    (hbase : ∀ j, j < 2 ^ lgK → getNibble bytes j = .ok (base j)) (tokens : Nat)
    (L : List (Nat × Nat)) (hnd : (L.map Prod.fst).Nodup)
    (hL : ∀ e ∈ L, e.1 < 2 ^ lgK ∧ c' + 14 ≤ e.2 ∧ base e.1 = 15)
    (hroom : Room lgK L.length) :
    ∃ st, L.foldlM (shiftAuxStep' lgK c') (bytes, none, (tokens : Int)) = .ok st ∧
      st.1.length = 2 ^ (lgK - 1) ∧ (∀ b ∈ st.1, b < 256) ∧
      (∀ j, j < 2 ^ lgK → getNibble st.1 j = .ok (if (j, c' + 14) ∈ L then 14 else base j)) ∧
      AuxOpt st.2.1 lgK (L.filter (fun e => decide (c' + 15 ≤ e.2))) ∧
      (st.2.1 = none → L.filter (fun e => decide (c' + 15 ≤ e.2)) = []) ∧
      st.2.2 = (tokens : Int) - L.countP (fun e => decide (e.2 = c' + 14)) := by
  obtain ⟨st, h1, p1, p2, p3, p4, p5⟩ := list_fold (f := shiftAuxStep' lgK c') (l := L)
    (s0 := (bytes, none, (tokens : Int)))
    (fun pre st => st.1.length = 2 ^ (lgK - 1) ∧ (∀ b ∈ st.1, b < 256) ∧
      (∀ j, j < 2 ^ lgK → getNibble st.1 j = .ok (if (j, c' + 14) ∈ pre then 14 else base j)) ∧
      AuxOpt st.2.1 lgK (pre.filter (fun e => decide (c' + 15 ≤ e.2))) ∧
      st.2.2 = (tokens : Int) - pre.countP (fun e => decide (e.2 = c' + 14)))
    ⟨hlen, hb, by simpa using hbase, by simp [AuxOpt], by simp⟩
    (by
      rintro pre ⟨s, v⟩ post ⟨b, o, t⟩ hsplit ⟨p1, p2, p3, p4, p5⟩
      simp only at p1 p2 p3 p4 p5
      have hmem : (s, v) ∈ L := by rw [hsplit]; simp
      obtain ⟨hs, hv, hb15⟩ := hL _ hmem
      simp only at hs hv hb15
      have hs26 : s < 2 ^ 26 := lt_of_lt_of_le hs (Nat.pow_le_pow_right (by omega) (by omega))
      have hnotpre : s ∉ pre.map Prod.fst := by
        intro hin
        rw [hsplit, List.map_append, List.map_cons] at hnd
        exact (List.nodup_append.mp hnd).2.2 s hin s (by simp) rfl
      have hs14 : (s, c' + 14) ∉ pre := fun hin => hnotpre (List.mem_map.mpr ⟨_, hin, rfl⟩)
      unfold shiftAuxStep' shiftAuxStep
      simp only
      rw [if_neg (pair_ne hs26 (by omega)), pairVal_pair hs26, pairLow_pair hs26, and_mask,
        Nat.mod_eq_of_lt hs, if_neg (by omega), p3 s hs, if_neg hs14, hb15, Outcome.ok_bind,
        if_neg (by simp)]
      by_cases h14 : v - c' < 15
      · have hv14 : v = c' + 14 := by omega
        subst hv14
        rw [if_pos h14, if_neg (by simp)]
        obtain ⟨b', e1, e2, e3, e4⟩ := putNibble_spec (bytes := b) (j := s) (v := c' + 14 - c')
          (by rw [p1]; exact half_lt h4 hs) (by omega)
        rw [e1, Outcome.ok_bind]
        refine ⟨_, rfl, by rw [e2]; exact p1, e3 p2, ?_, ?_, ?_⟩
        · intro j hj
          rw [e4]
          by_cases hjs : j = s
          · subst hjs
            rw [if_pos rfl, if_pos (by simp)]
            congr 1; omega
          · rw [if_neg hjs, p3 j hj]
            have : (j, c' + 14) ∈ pre ++ [(s, c' + 14)] ↔ (j, c' + 14) ∈ pre := by
              simp [hjs]
            simp only [this]
        · simp only
          rw [List.filter_append]
          simpa [show ¬ c' + 15 ≤ c' + 14 by omega] using p4
        · simp only
          rw [List.countP_append, p5]
          simp
          omega
      · rw [if_neg h14]
        have hp4 : AuxOpt o lgK (pre.filter (fun e => decide (c' + 15 ≤ e.2))) := p4
        obtain ⟨m, hm, hinv⟩ := auxOrNew_spec h4 h21 hp4
        rw [hm, Outcome.ok_bind]
        have hnew : s ∉ (pre.filter (fun e => decide (c' + 15 ≤ e.2))).map Prod.fst := by
          intro hin
          obtain ⟨e, he, hes⟩ := List.mem_map.mp hin
          exact hnotpre (List.mem_map.mpr ⟨e, (List.mem_filter.mp he).1, hes⟩)
        have hroom' : Room lgK ((pre.filter (fun e => decide (c' + 15 ≤ e.2))).length + 1) := by
          apply hroom.mono
          rw [hsplit, List.length_append, List.length_cons]
          have := List.length_filter_le (fun e : Nat × Nat => decide (c' + 15 ≤ e.2)) pre
          omega
        rcases hinv.mustAdd hs (show 0 < v by omega) hnew with ⟨_, m', hm', hinv'⟩ | ⟨hno, _⟩
        · rw [hm', Outcome.ok_bind]
          refine ⟨_, rfl, p1, p2, ?_, ?_, ?_⟩
          · intro j hj
            rw [p3 j hj]
            have : (j, c' + 14) ∈ pre ++ [(s, v)] ↔ (j, c' + 14) ∈ pre := by
              simp only [List.mem_append, List.mem_singleton, Prod.mk.injEq, or_iff_left_iff_imp]
              rintro ⟨_, hv⟩; omega
            simp only [this]
          · simp only [AuxOpt]
            apply hinv'.perm
            rw [List.filter_append, List.filter_cons, if_pos (by simp; omega), List.filter_nil]
            exact (List.perm_append_singleton _ _).symm
          · simp only
            rw [List.countP_append, p5]
            simp
            omega
        · exact absurd hroom' hno)
  refine ⟨st, h1, p1, p2, p3, p4, ?_, p5⟩
  intro hn
  rw [hn] at p4
  exact p4

theorem foldlM_map' {σ α β : Type} (g : α → β) (f : σ → β → Outcome σ) (l : List α) (s : σ) :
    (l.map g).foldlM f s = l.foldlM (fun s x => f s (g x)) s := by
  induction l generalizing s with
  | nil => rfl
  | cons x l ih =>
    rw [List.map_cons, List.foldlM_cons, List.foldlM_cons]
    congr 1
    funext s'
    exact ih s'

/-- a list that is a permutation of a mapped list is the map of a permuted list -/
theorem perm_map_exists {α β : Type} {g : α → β} {l : List β} {L : List α} (h : l.Perm (L.map g)) :
    ∃ L' : List α, L'.Perm L ∧ l = L'.map g := by
  induction L generalizing l with
  | nil => exact ⟨[], List.Perm.refl _, by simpa using h⟩
  | cons x L ih =>
    rw [List.map_cons] at h
    have hx : g x ∈ l := h.mem_iff.mpr (by simp)
    obtain ⟨l1, l2, rfl⟩ := List.append_of_mem hx
    have h2 : (l1 ++ l2).Perm (L.map g) := (List.perm_cons _).mp (List.perm_middle.symm.trans h)
    obtain ⟨L', hp, he⟩ := ih h2
    refine ⟨L'.take l1.length ++ x :: L'.drop l1.length, ?_, ?_⟩
    · refine List.perm_middle.trans (List.Perm.cons x ?_)
      rw [List.take_append_drop]
      exact hp
    · rw [List.map_append, List.map_cons, List.map_take, List.map_drop, ← he]
      simp

theorem Core4.room {a : Arr H} {R : List Nat} (h : Core4 a R) : Room a.lgK (excs R a.curMin).length := by
  have haux := h.aux
  cases hm : a.aux with
  | none =>
    rw [hm] at haux
    rw [show excs R a.curMin = [] from haux]
    unfold Room; simp
  | some m =>
    rw [hm] at haux
    have hinv : AuxInv m a.lgK (excs R a.curMin) := haux
    have h1 := hinv.load
    rw [hinv.cnt] at h1
    have : 2 ^ m.lg ≤ 2 ^ (a.lgK - 1) :=
      Nat.pow_le_pow_right (by omega) (by have := hinv.lglt; omega)
    unfold Room; omega

/-- Second phase: the walk over the exception map. -/
theorem shiftAux_spec {lgK c' : Nat} (h4 : 4 ≤ lgK) (h21 : lgK ≤ 21) {bytes : List Nat}
    (hlen : bytes.length = 2 ^ (lgK - 1)) (hb : ∀ b ∈ bytes, b < 256) {base : Nat → Nat}
    (hbase : ∀ j, j < 2 ^ lgK → getNibble bytes j = .ok (base j))
    {o : Option Aux} {L : List (Nat × Nat)} (ho : AuxOpt o lgK L) (hroom : Room lgK L.length)
    (hL : ∀ e ∈ L, e.1 < 2 ^ lgK ∧ c' + 14 ≤ e.2 ∧ base e.1 = 15) :
    ∃ r, shiftAux lgK c' bytes L.length o = .ok r ∧
      r.1.length = 2 ^ (lgK - 1) ∧ (∀ b ∈ r.1, b < 256) ∧
      (∀ j, j < 2 ^ lgK → getNibble r.1 j = .ok (if (j, c' + 14) ∈ L then 14 else base j)) ∧
      AuxOpt r.2 lgK (L.filter (fun e => decide (c' + 15 ≤ e.2))) := by
  cases o with
  | none =>
    have hnil : L = [] := ho
    subst hnil
    refine ⟨(bytes, none), rfl, hlen, hb, by simpa using hbase, by simp [AuxOpt]⟩
  | some m =>
    have hinv : AuxInv m lgK L := ho
    unfold shiftAux
    have hskip : m.arr.foldlM (shiftAuxStep lgK c') (bytes, none, (L.length : Int)) =
        ((auxScheme lgK m.lg).items m.arr).foldlM (shiftAuxStep lgK c')
          (bytes, none, (L.length : Int)) := by
      apply foldlM_skip
      · intro s x hx
        have : x = 0 := by simpa [auxScheme] using hx
        unfold shiftAuxStep
        rw [if_pos this]
      · intro s x _; rfl
    obtain ⟨L', hp, he⟩ := perm_map_exists hinv.items
    have hnd : (L'.map Prod.fst).Nodup := (hp.map _).nodup_iff.mpr hinv.keys
    obtain ⟨st, h1, p1, p2, p3, p4, p5, p6⟩ := shiftAuxLoop_spec (lgK := lgK) (c' := c') h4 h21 hlen
      hb hbase L.length L' hnd (fun e he => hL e (hp.mem_iff.mp he))
      (by rw [hp.length_eq]; exact hroom)
    dsimp only
    rw [hskip, he, foldlM_map']
    have h1' : L'.foldlM (fun s x => shiftAuxStep lgK c' s (pair x.1 x.2))
        (bytes, none, (L.length : Int)) = .ok st := h1
    rw [h1', Outcome.ok_bind]
    have hp4 := p4.perm (hp.filter _)
    have hnib : ∀ j, j < 2 ^ lgK →
        getNibble st.1 j = .ok (if (j, c' + 14) ∈ L then 14 else base j) := by
      intro j hj
      rw [p3 j hj]
      simp only [hp.mem_iff]
    cases hst : st.2.1 with
    | none =>
      rw [hst] at hp4
      exact ⟨(st.1, none), rfl, p1, p2, hnib, hp4⟩
    | some m' =>
      rw [hst] at hp4
      have hinv' : AuxInv m' lgK (L.filter (fun e => decide (c' + 15 ≤ e.2))) := hp4
      have hcount : (m'.count : Int) = st.2.2 := by
        rw [p6, hinv'.cnt, hp.countP_eq]
        have hsum : (L.filter (fun e => decide (c' + 15 ≤ e.2))).length +
            L.countP (fun e => decide (e.2 = c' + 14)) = L.length := by
          rw [← List.countP_eq_length_filter,
            List.length_eq_countP_add_countP (fun e : Nat × Nat => decide (c' + 15 ≤ e.2)) (l := L)]
          congr 1
          apply List.countP_congr
          intro e he
          have := (hL e he).2.1
          simp only [decide_eq_true_eq]
          omega
        omega
      simp only
      rw [if_neg (by simpa using hcount)]
      exact ⟨(st.1, some m'), rfl, p1, p2, hnib, hp4⟩

/-- `shiftToBiggerCurMin` when no register equals `curMin` any more. -/
theorem shift_spec {a : Arr H} {R : List Nat} (h : Core4 a R) (h0 : a.num = 0) :
    ∃ a', shiftToBigger a = .ok a' ∧ Core4 a' R ∧
      a' = { a with bytes := a'.bytes, aux := a'.aux, curMin := a.curMin + 1, num := a'.num } := by
  have hcnt : R.count a.curMin = 0 := by have := h.num; omega
  have hgt : ∀ v ∈ R, a.curMin + 1 ≤ v := by
    intro v hv
    have h1 := h.low v hv
    have h2 : v ≠ a.curMin := by
      rintro rfl
      exact (List.count_eq_zero.mp hcnt) hv
    omega
  have hlen := h.len
  have hgtj : ∀ j, j < 2 ^ a.lgK → a.curMin + 1 ≤ R.getD j 0 :=
    fun j hj => hgt _ (getD_mem (by omega))
  obtain ⟨st, hst, q1, q2, q3, q4, q5⟩ := shiftLoop_spec h.h4 a.aux.isSome h.blen h.b256
    (fun j => min 15 (R.getD j 0 - a.curMin))
    (fun j hj => ⟨h.nib j hj, by have := hgtj j hj; omega, by omega⟩)
    (by
      intro j hj h15
      have hm : (j, R.getD j 0) ∈ excs R a.curMin :=
        mem_excs.mpr ⟨by omega, rfl, by omega⟩
      have haux := h.aux
      cases hx : a.aux with
      | none =>
        rw [hx] at haux
        have : excs R a.curMin = [] := haux
        rw [this] at hm; simp at hm
      | some m => rfl)
  unfold shiftToBigger
  rw [hst, Outcome.ok_bind]
  have htok : st.2.2 = (excs R a.curMin).length := by
    rw [q5, length_excs, ← hlen]
    refine Eq.trans ?_ (countP_range _)
    apply List.countP_congr
    intro j _
    simp only [decide_eq_true_eq]
    omega
  obtain ⟨r, hr, r1, r2, r3, r4⟩ := shiftAux_spec (c' := a.curMin + 1) h.h4 h.h21 q1 q2 q3 h.aux
    h.room (by
      rintro ⟨s, v⟩ he
      obtain ⟨e1, e2, e3⟩ := mem_excs.mp he
      simp only
      refine ⟨by omega, by omega, ?_⟩
      rw [if_neg (by omega)])
  rw [htok, hr, Outcome.ok_bind]
  refine ⟨_, rfl, ⟨h.h4, h.h21, h.len, h.le63, r1, r2, hgt, ?_, ?_, ?_⟩, rfl⟩
  · intro j hj
    simp only at hj ⊢
    rw [r3 j hj]
    have hg := hgtj j hj
    congr 1
    by_cases h14 : R.getD j 0 = a.curMin + 1 + 14
    · rw [if_pos (mem_excs.mpr ⟨by omega, h14.symm, by omega⟩)]
      omega
    · rw [if_neg (fun hm => h14 (mem_excs.mp hm).2.1.symm)]
      split <;> omega
  · simp only
    have hfil : (excs R a.curMin).filter (fun e => decide (a.curMin + 1 + 15 ≤ e.2)) =
        excs R (a.curMin + 1) := by
      unfold excs
      rw [List.filter_map, List.filter_filter]
      congr 1
      apply List.filter_congr
      intro j _
      simp only [Function.comp, ← Bool.decide_and, decide_eq_decide]
      omega
    rw [← hfil]
    exact r4
  · simp only
    rw [q4]
    congr 1
    rw [List.count_eq_countP, ← hlen]
    refine Eq.trans ?_ (countP_range _)
    apply List.countP_congr
    intro j hj
    have := hgtj j (by rw [← hlen]; exact List.mem_range.mp hj)
    simp only [decide_eq_true_eq, beq_iff_eq]
    omega

/-- The loop that raises `curMin` until a register equals it. -/
theorem shiftWhile_spec {R : List Nat} : ∀ (fuel : Nat) {a : Arr H}, Core4 a R →
    64 < a.curMin + fuel →
    ∃ a', shiftWhile fuel a = .ok a' ∧ Core4 a' R ∧ 1 ≤ a'.num ∧
      a' = { a with bytes := a'.bytes, aux := a'.aux, curMin := a'.curMin, num := a'.num } := by
  intro fuel
  induction fuel with
  | zero =>
    intro a h hf
    exfalso
    have hpos := Nat.two_pow_pos a.lgK
    have hm := getD_mem (R := R) (j := 0) (by rw [h.len]; exact hpos)
    have h1 := h.low _ hm
    have h2 := h.le63 _ hm
    omega
  | succ fuel ih =>
    intro a h hf
    rw [shiftWhile]
    by_cases h0 : a.num = 0
    · rw [if_pos h0]
      obtain ⟨a', e1, h1, e2⟩ := shift_spec h h0
      rw [e1, Outcome.ok_bind]
      have hc : a'.curMin = a.curMin + 1 := by rw [e2]
      obtain ⟨a'', e3, h3, hn, e4⟩ := ih h1 (by omega)
      refine ⟨a'', e3, h3, hn, ?_⟩
      rw [e4, e2]
    · rw [if_neg h0]
      refine ⟨a, rfl, h, ?_, rfl⟩
      have := h.num
      omega

end Verif.Hll
