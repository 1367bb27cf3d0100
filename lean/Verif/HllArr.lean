import Verif.HllShift

/-!
# The three register arrays refine one abstract array
-/

namespace Verif.Hll

open Probe

variable {H : Type}

/-- For the 6- and 8-bit arrays: the number of zero registers, exact unless a rebuild is pending. -/
def NumOk (a : Arr H) (R : List Nat) : Prop :=
  (R.count 0 : Int) ≤ a.num ∧
  (a.rebuild = false → (a.curMin = 0 ∧ a.num = R.count 0) ∨ (0 < a.curMin ∧ R.count 0 = 0))

/-- the packed bytes represent the registers -/
def Body (a : Arr H) (R : List Nat) : Prop :=
  match a.typ with
  | .hll4 => Core4 a R ∧ 1 ≤ a.num
  | .hll6 => a.bytes.length = arrBytes a.lgK .hll6 ∧ (∀ b ∈ a.bytes, b < 256) ∧
      (∀ j, j < 2 ^ a.lgK → get6Bit a.bytes j = .ok (R.getD j 0)) ∧ NumOk a R
  | .hll8 => a.bytes = R ∧ NumOk a R

/-- `a` represents the registers and accumulators `S`. -/
structure Rep (a : Arr H) (S : Regs H) : Prop where
  h4 : 4 ≤ a.lgK
  h21 : a.lgK ≤ 21
  len : S.R.length = 2 ^ a.lgK
  le63 : ∀ v ∈ S.R, v ≤ 63
  hip : a.hip = S.hip
  kxq0 : a.kxq0 = S.kxq0
  kxq1 : a.kxq1 = S.kxq1
  body : Body a S.R

/-- the fields an update leaves alone -/
def Same (a a' : Arr H) : Prop :=
  a'.lgK = a.lgK ∧ a'.typ = a.typ ∧ a'.ooo = a.ooo ∧ a'.rebuild = a.rebuild

theorem Same.refl (a : Arr H) : Same a a := ⟨rfl, rfl, rfl, rfl⟩

theorem Same.trans {a b c : Arr H} (h1 : Same a b) (h2 : Same b c) : Same a c :=
  ⟨h2.1.trans h1.1, h2.2.1.trans h1.2.1, h2.2.2.1.trans h1.2.2.1, h2.2.2.2.trans h1.2.2.2⟩

/-- Room for the exceptions of a 4-bit array when the registers go from `R` to `R'`. -/
def Fits (typ : Typ) (lgK : Nat) (R R' : List Nat) : Prop :=
  typ = .hll4 → Room lgK (R'.countP (fun v => decide (lowest R + 15 ≤ v)))

instance (typ : Typ) (lgK : Nat) (R R' : List Nat) : Decidable (Fits typ lgK R R') := by
  unfold Fits; infer_instance

/-! ## Reading -/

theorem six_idx {lgK j : Nat} (h4 : 4 ≤ lgK) (hj : j < 2 ^ lgK) :
    j * 6 / 8 + 1 < arrBytes lgK .hll6 := by
  have h2 : 2 ^ lgK = 4 * 2 ^ (lgK - 2) := by
    rw [show (4 : Nat) = 2 ^ 2 from rfl, ← pow_add]; congr 1; omega
  unfold arrBytes
  simp only
  rw [Nat.shiftRight_eq_div_pow]
  omega

theorem value6_eq (bytes : List Nat) (i : Nat) :
    (do let s ← getShort bytes (6 * i / 8)
        .ok ((s >>> ((6 * i % 8) &&& 7)) &&& 63) : Outcome Nat) = get6Bit bytes i := by
  unfold get6Bit
  have h1 : (i * 6) >>> 3 = 6 * i / 8 := by rw [Nat.shiftRight_eq_div_pow]; omega
  have h2 : (i * 6) &&& 7 = 6 * i % 8 := by
    rw [show (7 : Nat) = 2 ^ 3 - 1 from rfl, and_mask]; omega
  have h3 : (6 * i % 8) &&& 7 = 6 * i % 8 := by
    rw [show (7 : Nat) = 2 ^ 3 - 1 from rfl, and_mask]; omega
  rw [h1, h2, h3]

/-- Every register is read back. -/
theorem Rep.value {a : Arr H} {S : Regs H} (h : Rep a S) {j : Nat} (hj : j < 2 ^ a.lgK) :
    a.value j = .ok (S.R.getD j 0) := by
  have hb := h.body
  unfold Body at hb
  unfold Arr.value
  cases ht : a.typ with
  | hll4 =>
    rw [ht] at hb
    obtain ⟨hc, _⟩ := hb
    simp only
    rw [hc.nib j hj, Outcome.ok_bind]
    have hlow := hc.low _ (getD_mem (by rw [hc.len]; exact hj))
    by_cases h15 : min 15 (S.R.getD j 0 - a.curMin) = 15
    · rw [if_pos h15]
      have hm : (j, S.R.getD j 0) ∈ excs S.R a.curMin :=
        mem_excs.mpr ⟨by rw [hc.len]; exact hj, rfl, by omega⟩
      have haux := hc.aux
      cases hx : a.aux with
      | none =>
        rw [hx] at haux
        rw [show excs S.R a.curMin = [] from haux] at hm
        simp at hm
      | some m =>
        rw [hx] at haux
        exact AuxInv.mustFind haux hm
    · rw [if_neg h15]
      congr 1; omega
  | hll6 =>
    rw [ht] at hb
    simp only
    rw [value6_eq, hb.2.2.1 j hj]
  | hll8 =>
    rw [ht] at hb
    simp only
    have hlt : j < S.R.length := by rw [h.len]; exact hj
    rw [hb.1, List.getElem?_eq_getElem hlt, Outcome.ofOption_some, Outcome.ok_bind, ← getD_eq hlt,
      and63]
    have := h.le63 _ (getD_mem hlt)
    congr 1; omega

/-! ## A fresh array -/

/-- the registers of a fresh array -/
def emptyRegs (F : Fl H) (lgK : Nat) : Regs H :=
  { R := List.replicate (2 ^ lgK) 0, hip := F.zero, kxq0 := 2 ^ lgK * 2 ^ 63, kxq1 := 0 }

theorem emptyRegs_getD (F : Fl H) (lgK j : Nat) : (emptyRegs F lgK).R.getD j 0 = 0 := by
  unfold emptyRegs
  simp only
  rw [List.getD_eq_getElem?_getD, List.getElem?_replicate]
  split <;> rfl

theorem emptyRegs_exact (F : Fl H) (lgK : Nat) : (emptyRegs F lgK).Exact := by
  constructor
  · simp [emptyRegs, w0]
  · simp [emptyRegs, w1]

theorem excs_zero {R : List Nat} {c : Nat} (h : ∀ v ∈ R, v < c + 15) : excs R c = [] := by
  apply List.eq_nil_of_length_eq_zero
  rw [length_excs, List.countP_eq_zero]
  intro v hv
  have := h v hv
  simp only [decide_eq_true_eq]
  omega

theorem newArr_rep (F : Fl H) {lgK : Nat} (typ : Typ) (h4 : 4 ≤ lgK) (h21 : lgK ≤ 21) :
    Rep (newArr F lgK typ) (emptyRegs F lgK) := by
  refine ⟨h4, h21, by simp [emptyRegs, newArr], by simp [emptyRegs], rfl, rfl, rfl, ?_⟩
  have hnum : NumOk (newArr F lgK typ) (emptyRegs F lgK).R := by
    refine ⟨by simp [newArr, emptyRegs], fun _ => Or.inl ⟨rfl, by simp [newArr, emptyRegs]⟩⟩
  have hpos := Nat.two_pow_pos lgK
  unfold Body
  cases typ with
  | hll4 =>
    refine ⟨⟨h4, h21, by simp [emptyRegs, newArr], by simp [emptyRegs], by simp [newArr, arrBytes],
      ?_, by simp [newArr], ?_, ?_, ?_⟩, ?_⟩
    · intro b hb
      simp only [newArr, List.mem_replicate] at hb
      omega
    · intro j hj
      have hj' : j < 2 ^ lgK := hj
      rw [emptyRegs_getD]
      exact getNibble_replicate (half_lt h4 hj')
    · show AuxOpt none _ _
      exact excs_zero (by simp [emptyRegs])
    · simp [newArr, emptyRegs]
    · show (1 : Int) ≤ 2 ^ lgK
      exact_mod_cast hpos
  | hll6 =>
    refine ⟨by simp [newArr], ?_, ?_, hnum⟩
    · intro b hb
      simp only [newArr, List.mem_replicate] at hb
      omega
    · intro j hj
      rw [emptyRegs_getD]
      exact get6Bit_replicate (six_idx h4 hj)
  | hll8 => exact ⟨rfl, hnum⟩

/-! ## Updates -/

theorem step_of_gt {F : Fl H} {lgK : Nat} {S : Regs H} {j v : Nat} (h : S.R.getD j 0 < v) :
    S.step F lgK j v =
      { R := S.R.set j v, hip := F.step lgK S.kxq0 S.kxq1 S.hip,
        kxq0 := S.kxq0 - w0 (S.R.getD j 0) + w0 v, kxq1 := S.kxq1 - w1 (S.R.getD j 0) + w1 v } := by
  unfold Regs.step; exact if_pos h

theorem step_of_le {F : Fl H} {lgK : Nat} {S : Regs H} {j v : Nat} (h : v ≤ S.R.getD j 0) :
    S.step F lgK j v = S := by
  unfold Regs.step; exact if_neg (by omega)

theorem set_le63 {R : List Nat} {j v : Nat} (h : ∀ x ∈ R, x ≤ 63) (hv : v ≤ 63) :
    ∀ x ∈ R.set j v, x ≤ 63 := by
  intro x hx
  rcases List.mem_or_eq_of_mem_set hx with h1 | h1
  · exact h x h1
  · omega

/-- the tail of the 6- and 8-bit updates -/
theorem kxqTail_spec {F : Fl H} {a : Arr H} {R : List Nat} {j v : Nat} (hj : j < R.length)
    (hv : R.getD j 0 < v) (h63 : v ≤ 63) (hn : NumOk a R) :
    ∃ a', kxqTail F a (R.getD j 0) v = .ok a' ∧ NumOk a' (R.set j v) ∧
      a' = { a with
        hip := F.step a.lgK a.kxq0 a.kxq1 a.hip
        kxq0 := a.kxq0 - w0 (R.getD j 0) + w0 v
        kxq1 := a.kxq1 - w1 (R.getD j 0) + w1 v
        num := a'.num } := by
  have hc := count_set (v := v) hj 0
  rw [if_neg (by omega : ¬ v = 0)] at hc
  unfold kxqTail
  rw [hipAndKxQ_spec hv h63, Outcome.ok_bind]
  by_cases h0 : R.getD j 0 = 0
  · rw [if_pos h0]
    rw [if_pos h0] at hc
    have hn1 := hn.1
    rw [if_neg (by simp only; omega)]
    refine ⟨_, rfl, ⟨by simp only; omega, ?_⟩, rfl⟩
    intro hr
    rcases hn.2 hr with ⟨h1, h2⟩ | ⟨h1, h2⟩
    · exact Or.inl ⟨h1, by simp only; omega⟩
    · exfalso
      have := List.count_eq_zero.mp h2
      exact this (h0 ▸ getD_mem hj)
  · rw [if_neg h0]
    rw [if_neg h0] at hc
    have hn1 := hn.1
    refine ⟨_, rfl, ⟨by simp only; omega, ?_⟩, rfl⟩
    intro hr
    rcases hn.2 hr with ⟨h1, h2⟩ | ⟨h1, h2⟩
    · exact Or.inl ⟨h1, by simp only; omega⟩
    · exact Or.inr ⟨h1, by omega⟩

theorem hll8Update_spec {F : Fl H} {a : Arr H} {S : Regs H} (h : Rep a S) (ht : a.typ = .hll8)
    {j v : Nat} (hj : j < 2 ^ a.lgK) (h63 : v ≤ 63) :
    ∃ a', hll8Update F a j v = .ok a' ∧ Rep a' (S.step F a.lgK j v) ∧ Same a a' := by
  have hb := h.body
  unfold Body at hb
  rw [ht] at hb
  have hlt : j < S.R.length := by rw [h.len]; exact hj
  have hold : S.R[j] &&& 63 = S.R.getD j 0 := by
    rw [← getD_eq hlt, and63]
    have := h.le63 _ (getD_mem hlt)
    omega
  unfold hll8Update
  rw [hb.1, List.getElem?_eq_getElem hlt, Outcome.ofOption_some, Outcome.ok_bind]
  simp only
  rw [hold]
  by_cases hv : S.R.getD j 0 < v
  · rw [if_pos hv, step_of_gt hv, and63, Nat.mod_eq_of_lt (by omega)]
    obtain ⟨a', e1, e2, e3⟩ := kxqTail_spec (F := F)
      (a := { a with bytes := S.R.set j v }) hlt hv h63 hb.2
    refine ⟨a', e1, ?_, ?_⟩
    · rw [e3] at e2 ⊢
      refine ⟨h.h4, h.h21, by simpa using h.len, set_le63 h.le63 h63, ?_, ?_, ?_, ?_⟩
      · simp only; rw [h.kxq0, h.kxq1, h.hip]
      · simp only; rw [h.kxq0]
      · simp only; rw [h.kxq1]
      · unfold Body
        simp only [ht]
        exact ⟨trivial, e2⟩
    · rw [e3]; exact ⟨rfl, rfl, rfl, rfl⟩
  · rw [if_neg hv, step_of_le (by omega)]
    exact ⟨a, rfl, h, Same.refl a⟩

theorem hll6Update_spec {F : Fl H} {a : Arr H} {S : Regs H} (h : Rep a S) (ht : a.typ = .hll6)
    {j v : Nat} (hj : j < 2 ^ a.lgK) (h63 : v ≤ 63) :
    ∃ a', hll6Update F a j v = .ok a' ∧ Rep a' (S.step F a.lgK j v) ∧ Same a a' := by
  have hb := h.body
  unfold Body at hb
  rw [ht] at hb
  obtain ⟨b1, b2, b3, b4⟩ := hb
  have hlt : j < S.R.length := by rw [h.len]; exact hj
  unfold hll6Update
  rw [b3 j hj, Outcome.ok_bind]
  by_cases hv : S.R.getD j 0 < v
  · rw [if_pos hv, step_of_gt hv]
    obtain ⟨b', p1, p2, p3, p4⟩ := put6Bit_spec (arr := a.bytes) (j := j) (v := v)
      (by rw [b1]; exact six_idx h.h4 hj) (by omega)
    rw [p1, Outcome.ok_bind]
    obtain ⟨a', e1, e2, e3⟩ := kxqTail_spec (F := F)
      (a := { a with bytes := b' }) hlt hv h63 b4
    refine ⟨a', e1, ?_, ?_⟩
    · rw [e3] at e2 ⊢
      refine ⟨h.h4, h.h21, by simpa using h.len, set_le63 h.le63 h63, ?_, ?_, ?_, ?_⟩
      · simp only; rw [h.kxq0, h.kxq1, h.hip]
      · simp only; rw [h.kxq0]
      · simp only; rw [h.kxq1]
      · unfold Body
        simp only [ht]
        refine ⟨by rw [p2, b1], p3 b2, ?_, e2⟩
        intro i hi
        rw [p4, getD_set hlt]
        by_cases hij : i = j
        · rw [if_pos hij, if_pos hij]
        · rw [if_neg hij, if_neg hij, b3 i hi]
    · rw [e3]; exact ⟨rfl, rfl, rfl, rfl⟩
  · rw [if_neg hv, step_of_le (by omega)]
    exact ⟨a, rfl, h, Same.refl a⟩

/-! ### The 4-bit array -/

theorem hll4Finish_spec {a : Arr H} {R : List Nat} {old : Nat}
    (h : Core4 { a with num := R.count a.curMin } R) (h63 : a.curMin ≤ 63)
    (hnum : a.num = R.count a.curMin + (if old = a.curMin then 1 else 0))
    (h1 : old = a.curMin ∨ 1 ≤ a.num) :
    ∃ a', hll4Finish a old a.curMin = .ok a' ∧ Core4 a' R ∧ 1 ≤ a'.num ∧
      a' = { a with bytes := a'.bytes, aux := a'.aux, curMin := a'.curMin, num := a'.num } := by
  unfold hll4Finish
  by_cases hold : old = a.curMin
  · rw [if_pos hold, if_neg (by rw [hnum, if_pos hold]; omega)]
    rw [if_pos hold] at hnum
    have : ({ a with num := a.num - 1 } : Arr H) = { a with num := R.count a.curMin } := by
      rw [hnum]; simp
    rw [this]
    obtain ⟨a', e1, e2, e3, e4⟩ := shiftWhile_spec 100 h (by simp only; omega)
    exact ⟨a', e1, e2, e3, e4⟩
  · rw [if_neg hold]
    rw [if_neg hold] at hnum
    have : a = { a with num := R.count a.curMin } := by
      cases a; simp only at hnum ⊢; simp only [hnum]; simp
    refine ⟨a, rfl, by rw [this]; exact h, ?_, rfl⟩
    rcases h1 with h1 | h1
    · exact absurd h1 hold
    · exact h1

theorem Core4.lowest {a : Arr H} {R : List Nat} (h : Core4 a R) (h1 : 1 ≤ a.num) :
    lowest R = a.curMin ∧ a.curMin ≤ 63 := by
  have hm : a.curMin ∈ R := by
    by_contra hc
    have := h.num
    rw [List.count_eq_zero.mpr hc] at this
    omega
  have h63 := h.le63 _ hm
  exact ⟨lowest_eq h.low h63 hm, h63⟩

theorem rep_of_core4 {F : Fl H} {lgK : Nat} {a a' a1 : Arr H} {S : Regs H} {j v : Nat}
    (ha : a.hip = S.hip ∧ a.kxq0 = S.kxq0 ∧ a.kxq1 = S.kxq1) (hl : lgK = a.lgK)
    (hv : S.R.getD j 0 < v) (ht : a.typ = .hll4) (hc : Core4 a' (S.R.set j v)) (hn : 1 ≤ a'.num)
    (e1 : a1 = { a with
      hip := F.step a.lgK a.kxq0 a.kxq1 a.hip
      kxq0 := a.kxq0 - w0 (S.R.getD j 0) + w0 v
      kxq1 := a.kxq1 - w1 (S.R.getD j 0) + w1 v
      bytes := a1.bytes, aux := a1.aux })
    (e : a' = { a1 with bytes := a'.bytes, aux := a'.aux, curMin := a'.curMin, num := a'.num }) :
    Rep a' (S.step F lgK j v) ∧ Same a a' := by
  subst hl
  rw [step_of_gt hv]
  have hs : Same a a' := by rw [e, e1]; exact ⟨rfl, rfl, rfl, rfl⟩
  refine ⟨⟨hc.h4, hc.h21, hc.len, hc.le63, ?_, ?_, ?_, ?_⟩, hs⟩
  · rw [e, e1]; simp only; rw [ha.1, ha.2.1, ha.2.2]
  · rw [e, e1]; simp only; rw [ha.2.1]
  · rw [e, e1]; simp only; rw [ha.2.2]
  · unfold Body
    rw [hs.2.1, ht]
    exact ⟨hc, hn⟩

theorem hll4Update_spec {F : Fl H} {a : Arr H} {S : Regs H} (h : Rep a S) (ht : a.typ = .hll4)
    {j v : Nat} (hj : j < 2 ^ a.lgK) (h63 : v ≤ 63) :
    (Room a.lgK ((S.step F a.lgK j v).R.countP (fun x => decide (lowest S.R + 15 ≤ x))) ∧
      ∃ a', hll4Update F a j v = .ok a' ∧ Rep a' (S.step F a.lgK j v) ∧ Same a a') ∨
    (¬ Room a.lgK ((S.step F a.lgK j v).R.countP (fun x => decide (lowest S.R + 15 ≤ x))) ∧
      ∃ e, hll4Update F a j v = .err e) := by
  have hb := h.body
  unfold Body at hb
  rw [ht] at hb
  obtain ⟨hc, hn⟩ := hb
  obtain ⟨hlow, hc63⟩ := hc.lowest hn
  have hlt : j < S.R.length := by rw [h.len]; exact hj
  have hge := hc.low _ (getD_mem hlt)
  have hv63 := h.le63 _ (getD_mem hlt)
  rw [hlow]
  have ha : a.hip = S.hip ∧ a.kxq0 = S.kxq0 ∧ a.kxq1 = S.kxq1 := ⟨h.hip, h.kxq0, h.kxq1⟩
  have hroom0 : Room a.lgK (S.R.countP (fun x => decide (a.curMin + 15 ≤ x))) := by
    rw [← length_excs]; exact hc.room
  unfold hll4Update
  rw [hc.nib j hj, Outcome.ok_bind]
  by_cases hle : v ≤ min 15 (S.R.getD j 0 - a.curMin) + a.curMin
  · rw [if_pos hle, step_of_le (by omega)]
    exact Or.inl ⟨hroom0, a, rfl, h, Same.refl a⟩
  · rw [if_neg hle]
    have hset := excs_set (c := a.curMin) (v := v) hlt
    obtain ⟨L, hL1, hL2⟩ := hset
    have hcs := count_set (v := v) hlt a.curMin
    rw [if_neg (by omega : ¬ v = a.curMin)] at hcs
    by_cases h15 : min 15 (S.R.getD j 0 - a.curMin) = 15
    · rw [if_pos h15]
      have hm : (j, S.R.getD j 0) ∈ excs S.R a.curMin := mem_excs.mpr ⟨hlt, rfl, by omega⟩
      rw [if_pos (by omega)] at hL1
      rw [if_pos (by omega)] at hL2
      unfold hll4UpdateAux
      cases hx : a.aux with
      | none =>
        exfalso
        have haux := hc.aux
        rw [hx] at haux
        rw [show excs S.R a.curMin = [] from haux] at hm
        simp at hm
      | some m =>
        have haux := hc.aux
        rw [hx] at haux
        have hinv : AuxInv m a.lgK (excs S.R a.curMin) := haux
        simp only
        rw [hinv.mustFind hm, Outcome.ok_bind]
        by_cases hv : v ≤ S.R.getD j 0
        · rw [if_pos hv, step_of_le hv]
          exact Or.inl ⟨hroom0, a, rfl, h, Same.refl a⟩
        · rw [if_neg hv, hipAndKxQ_spec (by omega) h63, Outcome.ok_bind, if_neg (by omega),
            if_pos (by omega)]
          obtain ⟨m', hm', hinv'⟩ := (hinv.perm hL1).mustReplace (show 0 < v by omega)
          rw [hm', Outcome.ok_bind]
          refine Or.inl ⟨?_, ?_⟩
          · rw [step_of_gt (by omega)]
            simp only
            rw [← length_excs, hL2.length_eq]
            rw [← length_excs, hL1.length_eq] at hroom0
            simpa using hroom0
          · have hold : ¬ S.R.getD j 0 = a.curMin := by omega
            rw [if_neg hold] at hcs
            have hcore : Core4 ({ a with
                hip := F.step a.lgK a.kxq0 a.kxq1 a.hip
                kxq0 := a.kxq0 - w0 (S.R.getD j 0) + w0 v
                kxq1 := a.kxq1 - w1 (S.R.getD j 0) + w1 v
                aux := some m', num := (S.R.set j v).count a.curMin } : Arr H) (S.R.set j v) := by
              refine ⟨hc.h4, hc.h21, by simpa using hc.len, set_le63 hc.le63 h63, hc.blen, hc.b256,
                ?_, ?_, ?_, rfl⟩
              · intro x hx
                rcases List.mem_or_eq_of_mem_set hx with h1 | h1
                · exact hc.low x h1
                · simp only; omega
              · intro i hi
                simp only at hi ⊢
                rw [hc.nib i hi, getD_set hlt]
                by_cases hij : i = j
                · rw [if_pos hij, hij]; congr 1; omega
                · rw [if_neg hij]
              · simp only [AuxOpt]
                exact hinv'.perm hL2.symm
            obtain ⟨a', e1, e2, e3, e4⟩ := hll4Finish_spec (a := { a with
                hip := F.step a.lgK a.kxq0 a.kxq1 a.hip
                kxq0 := a.kxq0 - w0 (S.R.getD j 0) + w0 v
                kxq1 := a.kxq1 - w1 (S.R.getD j 0) + w1 v
                aux := some m' }) (old := S.R.getD j 0) hcore hc63
              (by simp only; rw [if_neg hold, hc.num]; omega) (Or.inr hn)
            obtain ⟨r1, r2⟩ := rep_of_core4 (F := F) ha rfl (by omega) ht e2 e3 rfl e4
            exact ⟨a', e1, r1, r2⟩
    · rw [if_neg h15]
      have hold : min 15 (S.R.getD j 0 - a.curMin) + a.curMin = S.R.getD j 0 := by omega
      rw [hold]
      rw [if_neg (by omega), List.nil_append] at hL1
      unfold hll4UpdateNib
      rw [hipAndKxQ_spec (by omega) h63, Outcome.ok_bind, if_neg (by omega)]
      have hlow' : ∀ x ∈ S.R.set j v, a.curMin ≤ x := by
        intro x hx
        rcases List.mem_or_eq_of_mem_set hx with h1 | h1
        · exact hc.low x h1
        · omega
      by_cases hv15 : v - a.curMin ≥ 15
      · rw [if_pos hv15]
        rw [if_pos (by omega)] at hL2
        simp only
        obtain ⟨b', p1, p2, p3, p4⟩ := putNibble_spec (bytes := a.bytes) (j := j) (v := 15)
          (by rw [hc.blen]; exact half_lt hc.h4 hj) (by omega)
        rw [p1, Outcome.ok_bind]
        obtain ⟨m, hm, hinv⟩ := auxOrNew_spec hc.h4 hc.h21 (hc.aux.perm hL1)
        rw [hm, Outcome.ok_bind]
        have hnew : j ∉ L.map Prod.fst := by
          intro hin
          obtain ⟨⟨s, w⟩, he, hes⟩ := List.mem_map.mp hin
          have hs : s = j := hes
          subst hs
          obtain ⟨_, q2, q3⟩ := mem_excs.mp (hL1.mem_iff.mpr he)
          omega
        have hlen : (S.step F a.lgK j v).R.countP (fun x => decide (a.curMin + 15 ≤ x)) =
            L.length + 1 := by
          rw [step_of_gt (by omega)]
          simp only
          rw [← length_excs, hL2.length_eq]
          simp
        rw [hlen]
        rcases hinv.mustAdd hj (show 0 < v by omega) hnew with ⟨hr, m', hm', hinv'⟩ | ⟨hr, e, he⟩
        · refine Or.inl ⟨hr, ?_⟩
          rw [hm', Outcome.ok_bind]
          have hcore : Core4 ({ a with
              hip := F.step a.lgK a.kxq0 a.kxq1 a.hip
              kxq0 := a.kxq0 - w0 (S.R.getD j 0) + w0 v
              kxq1 := a.kxq1 - w1 (S.R.getD j 0) + w1 v
              bytes := b', aux := some m', num := (S.R.set j v).count a.curMin } : Arr H)
              (S.R.set j v) := by
            refine ⟨hc.h4, hc.h21, by simpa using hc.len, set_le63 hc.le63 h63,
              by rw [← hc.blen]; exact p2, p3 hc.b256, hlow', ?_, ?_, rfl⟩
            · intro i hi
              simp only at hi ⊢
              rw [p4, getD_set hlt]
              by_cases hij : i = j
              · rw [if_pos hij, if_pos hij]; congr 1; omega
              · rw [if_neg hij, if_neg hij, hc.nib i hi]
            · simp only [AuxOpt]
              exact hinv'.perm hL2.symm
          obtain ⟨a', e1, e2, e3, e4⟩ := hll4Finish_spec (a := { a with
              hip := F.step a.lgK a.kxq0 a.kxq1 a.hip
              kxq0 := a.kxq0 - w0 (S.R.getD j 0) + w0 v
              kxq1 := a.kxq1 - w1 (S.R.getD j 0) + w1 v
              bytes := b', aux := some m' }) (old := S.R.getD j 0) hcore hc63
            (by
              simp only; rw [hc.num]
              by_cases ho : S.R.getD j 0 = a.curMin
              · rw [if_pos ho] at hcs ⊢; omega
              · rw [if_neg ho] at hcs ⊢; omega)
            (Or.inr hn)
          obtain ⟨r1, r2⟩ := rep_of_core4 (F := F) ha rfl (by omega) ht e2 e3 rfl e4
          exact ⟨a', e1, r1, r2⟩
        · refine Or.inr ⟨hr, e, ?_⟩
          rw [he, Outcome.err_bind]
      · rw [if_neg hv15]
        rw [if_neg (by omega), List.nil_append] at hL2
        simp only
        obtain ⟨b', p1, p2, p3, p4⟩ := putNibble_spec (bytes := a.bytes) (j := j)
          (v := v - a.curMin) (by rw [hc.blen]; exact half_lt hc.h4 hj) (by omega)
        rw [p1, Outcome.ok_bind]
        refine Or.inl ⟨?_, ?_⟩
        · rw [step_of_gt (by omega)]
          simp only
          rw [← length_excs, hL2.length_eq]
          rw [← length_excs, hL1.length_eq] at hroom0
          exact hroom0
        · have hcore : Core4 ({ a with
              hip := F.step a.lgK a.kxq0 a.kxq1 a.hip
              kxq0 := a.kxq0 - w0 (S.R.getD j 0) + w0 v
              kxq1 := a.kxq1 - w1 (S.R.getD j 0) + w1 v
              bytes := b', num := (S.R.set j v).count a.curMin } : Arr H)
              (S.R.set j v) := by
            refine ⟨hc.h4, hc.h21, by simpa using hc.len, set_le63 hc.le63 h63,
              by rw [← hc.blen]; exact p2, p3 hc.b256, hlow', ?_, ?_, rfl⟩
            · intro i hi
              simp only at hi ⊢
              rw [p4, getD_set hlt]
              by_cases hij : i = j
              · rw [if_pos hij, if_pos hij]; congr 1; omega
              · rw [if_neg hij, if_neg hij, hc.nib i hi]
            · exact hc.aux.perm (hL1.trans hL2.symm)
          obtain ⟨a', e1, e2, e3, e4⟩ := hll4Finish_spec (a := { a with
              hip := F.step a.lgK a.kxq0 a.kxq1 a.hip
              kxq0 := a.kxq0 - w0 (S.R.getD j 0) + w0 v
              kxq1 := a.kxq1 - w1 (S.R.getD j 0) + w1 v
              bytes := b' }) (old := S.R.getD j 0) hcore hc63
            (by
              simp only; rw [hc.num]
              by_cases ho : S.R.getD j 0 = a.curMin
              · rw [if_pos ho] at hcs ⊢; omega
              · rw [if_neg ho] at hcs ⊢; omega)
            (Or.inr hn)
          obtain ⟨r1, r2⟩ := rep_of_core4 (F := F) ha rfl (by omega) ht e2 e3 rfl e4
          exact ⟨a', e1, r1, r2⟩

/-- `couponUpdate` of a register array of any type. -/
theorem Rep.couponUpdate {F : Fl H} {a : Arr H} {S : Regs H} (h : Rep a S) {c : Nat}
    (hc : c < 2 ^ 32) :
    (Fits a.typ a.lgK S.R (S.step F a.lgK (c % 2 ^ a.lgK) (c / 2 ^ 26)).R ∧
      ∃ a', a.couponUpdate F c = .ok a' ∧
        Rep a' (S.step F a.lgK (c % 2 ^ a.lgK) (c / 2 ^ 26)) ∧ Same a a') ∨
    (¬ Fits a.typ a.lgK S.R (S.step F a.lgK (c % 2 ^ a.lgK) (c / 2 ^ 26)).R ∧
      ∃ e, a.couponUpdate F c = .err e) := by
  unfold Arr.couponUpdate Fits
  simp only
  rw [and_mask, Nat.shiftRight_eq_div_pow]
  have hj : c % 2 ^ a.lgK < 2 ^ a.lgK := Nat.mod_lt _ (Nat.two_pow_pos _)
  have hv : c / 2 ^ 26 ≤ 63 := by omega
  cases ht : a.typ with
  | hll4 =>
    simp only [true_imp_iff]
    have := hll4Update_spec (F := F) h ht hj hv
    exact this
  | hll6 => exact Or.inl ⟨by simp, hll6Update_spec h ht hj hv⟩
  | hll8 => exact Or.inl ⟨by simp, hll8Update_spec h ht hj hv⟩

end Verif.Hll
