import Verif.HllArr
import Mathlib.Data.List.Dedup

/-!
# Coupon streams and the registers they determine
-/

namespace Verif.Hll

variable {H : Type}

/-- a coupon: six-bit non-zero value above a 26-bit address -/
def ValidCoupon (c : Nat) : Prop := 2 ^ 26 ≤ c ∧ c < 2 ^ 32

instance (c : Nat) : Decidable (ValidCoupon c) := by unfold ValidCoupon; infer_instance

/-- Specification: the register of slot `j` after the coupons `cs` is the largest value (upper six
bits) among the coupons whose address is `j` modulo `2^lgK`. -/
def regOf (lgK : Nat) (cs : List Nat) (j : Nat) : Nat :=
  ((cs.filter (fun c => c % 2 ^ lgK = j)).map (fun c => c / 2 ^ 26)).foldr max 0

/-- number of distinct coupons -/
def distinct (cs : List Nat) : Nat := cs.dedup.length

theorem regOf_le {lgK : Nat} {cs : List Nat} {j v : Nat} :
    regOf lgK cs j ≤ v ↔ ∀ c ∈ cs, c % 2 ^ lgK = j → c / 2 ^ 26 ≤ v := by
  unfold regOf
  induction cs with
  | nil => simp
  | cons c cs ih =>
    rw [List.filter_cons]
    by_cases h : c % 2 ^ lgK = j
    · rw [if_pos (by simpa using h), List.map_cons, List.foldr_cons, Nat.max_le, ih,
        List.forall_mem_cons]
      simp [h]
    · rw [if_neg (by simpa using h), ih, List.forall_mem_cons]
      simp [h]

theorem regOf_congr {lgK : Nat} {cs ds : List Nat} (h : ∀ x, x ∈ cs ↔ x ∈ ds) (j : Nat) :
    regOf lgK cs j = regOf lgK ds j := by
  apply Nat.le_antisymm
  · rw [regOf_le]
    intro c hc hj
    exact regOf_le.mp (le_refl _) c ((h c).mp hc) hj
  · rw [regOf_le]
    intro c hc hj
    exact regOf_le.mp (le_refl _) c ((h c).mpr hc) hj

theorem regOf_append {lgK : Nat} (cs ds : List Nat) (j : Nat) :
    regOf lgK (cs ++ ds) j = max (regOf lgK cs j) (regOf lgK ds j) := by
  apply Nat.le_antisymm
  · rw [regOf_le]
    intro c hc hj
    rcases List.mem_append.mp hc with h | h
    · exact le_trans (regOf_le.mp (le_refl _) c h hj) (Nat.le_max_left _ _)
    · exact le_trans (regOf_le.mp (le_refl _) c h hj) (Nat.le_max_right _ _)
  · apply Nat.max_le.mpr
    constructor
    · rw [regOf_le]
      intro c hc hj
      exact regOf_le.mp (le_refl _) c (by simp [hc]) hj
    · rw [regOf_le]
      intro c hc hj
      exact regOf_le.mp (le_refl _) c (by simp [hc]) hj

theorem regOf_singleton (lgK c j : Nat) :
    regOf lgK [c] j = if c % 2 ^ lgK = j then c / 2 ^ 26 else 0 := by
  unfold regOf
  by_cases h : c % 2 ^ lgK = j <;> simp [h]

theorem regOf_nil (lgK j : Nat) : regOf lgK [] j = 0 := rfl

/-- Folding to fewer slots: a slot of the coarse array collects the fine slots congruent to it. -/
theorem regOf_fold {lgK lgK' : Nat} (h : lgK' ≤ lgK) (cs : List Nat) (i j : Nat)
    (hij : i % 2 ^ lgK' = j) : regOf lgK cs i ≤ regOf lgK' cs j := by
  rw [regOf_le]
  intro c hc hci
  apply regOf_le.mp (le_refl _) c hc
  rw [← hij, ← hci, Nat.mod_mod_of_dvd _ (pow_dvd_pow 2 h)]

theorem distinct_eq {D cs : List Nat} (hn : D.Nodup) (h : ∀ x, x ∈ D ↔ x ∈ cs) :
    distinct cs = D.length := by
  unfold distinct
  apply List.Perm.length_eq
  rw [List.perm_ext_iff_of_nodup (List.nodup_dedup _) hn]
  intro x
  rw [List.mem_dedup, h]

/-! ## The abstract array fed with coupons -/

/-- one coupon -/
def Regs.feed1 (F : Fl H) (lgK : Nat) (S : Regs H) (c : Nat) : Regs H :=
  S.step F lgK (c % 2 ^ lgK) (c / 2 ^ 26)

def Regs.feed (F : Fl H) (lgK : Nat) (S : Regs H) (cs : List Nat) : Regs H :=
  cs.foldl (Regs.feed1 F lgK) S

theorem Regs.feed_append (F : Fl H) (lgK : Nat) (S : Regs H) (cs : List Nat) (c : Nat) :
    S.feed F lgK (cs ++ [c]) = (S.feed F lgK cs).feed1 F lgK c := by
  unfold Regs.feed; rw [List.foldl_append]; rfl

theorem Regs.feed_length (F : Fl H) (lgK : Nat) (S : Regs H) (cs : List Nat) :
    (S.feed F lgK cs).R.length = S.R.length := by
  induction cs using List.reverseRecOn with
  | nil => rfl
  | append_singleton cs c ih =>
    rw [Regs.feed_append]
    unfold Regs.feed1
    rw [Regs.step_length, ih]

theorem Regs.feed_getD {F : Fl H} {lgK : Nat} {S : Regs H} (h : S.R.length = 2 ^ lgK)
    (cs : List Nat) (j : Nat) :
    (S.feed F lgK cs).R.getD j 0 = max (S.R.getD j 0) (regOf lgK cs j) := by
  induction cs using List.reverseRecOn with
  | nil => rw [regOf_nil]; simp [Regs.feed]
  | append_singleton cs c ih =>
    rw [Regs.feed_append, regOf_append, regOf_singleton]
    unfold Regs.feed1
    have hlt : c % 2 ^ lgK < (S.feed F lgK cs).R.length := by
      rw [Regs.feed_length, h]; exact Nat.mod_lt _ (Nat.two_pow_pos _)
    rw [Regs.step_getD hlt]
    by_cases hj : j = c % 2 ^ lgK
    · rw [if_pos hj, if_pos hj.symm, ← hj, ih]; omega
    · rw [if_neg hj, if_neg (fun e => hj e.symm), ih]; omega

theorem Regs.feed_exact {F : Fl H} {lgK : Nat} {S : Regs H} (h : S.R.length = 2 ^ lgK)
    (he : S.Exact) (cs : List Nat) : (S.feed F lgK cs).Exact := by
  induction cs using List.reverseRecOn with
  | nil => exact he
  | append_singleton cs c ih =>
    rw [Regs.feed_append]
    apply ih.step
    rw [Regs.feed_length, h]; exact Nat.mod_lt _ (Nat.two_pow_pos _)

theorem feed_empty_getD (F : Fl H) (lgK : Nat) (cs : List Nat) (j : Nat) :
    ((emptyRegs F lgK).feed F lgK cs).R.getD j 0 = regOf lgK cs j := by
  rw [Regs.feed_getD (by simp [emptyRegs]), emptyRegs_getD, Nat.zero_max]

/-- Few coupons leave many zero registers. -/
theorem feed_empty_zeros (F : Fl H) (lgK : Nat) (cs : List Nat) :
    2 ^ lgK ≤ ((emptyRegs F lgK).feed F lgK cs).R.count 0 + cs.length := by
  induction cs using List.reverseRecOn with
  | nil => simp [Regs.feed, emptyRegs]
  | append_singleton cs c ih =>
    rw [Regs.feed_append, List.length_append]
    unfold Regs.feed1 Regs.step
    split
    · have hlt : c % 2 ^ lgK < ((emptyRegs F lgK).feed F lgK cs).R.length := by
        rw [Regs.feed_length]; simpa [emptyRegs] using Nat.mod_lt _ (Nat.two_pow_pos _)
      have := count_set (v := c / 2 ^ 26) hlt 0
      simp only [List.length_singleton]
      split at this <;> split at this <;> omega
    · simp only [List.length_singleton]
      omega

theorem countP_excl_zero (R : List Nat) (m : Nat) :
    R.countP (fun v => decide (m + 15 ≤ v)) + R.count 0 ≤ R.length := by
  induction R with
  | nil => simp
  | cons a R ih =>
    rw [List.countP_cons, List.count_cons, List.length_cons]
    by_cases h1 : m + 15 ≤ a
    · have h2 : ¬ a = 0 := by omega
      simp [h1, h2]; omega
    · by_cases h2 : a = 0 <;> simp [h1, h2] <;> omega

/-- the exceptions are at most the coupons -/
theorem feed_empty_excs (F : Fl H) (lgK m : Nat) (cs : List Nat) :
    ((emptyRegs F lgK).feed F lgK cs).R.countP (fun v => decide (m + 15 ≤ v)) ≤ cs.length := by
  have h1 := feed_empty_zeros F lgK cs
  have h2 := countP_excl_zero ((emptyRegs F lgK).feed F lgK cs).R m
  rw [Regs.feed_length] at h2
  have h3 : (emptyRegs F lgK).R.length = 2 ^ lgK := by simp [emptyRegs]
  omega

/-- the registers are determined by their values -/
theorem regs_eq {R : List Nat} {n : Nat} (h : R.length = n) {f : Nat → Nat}
    (hf : ∀ j, j < n → R.getD j 0 = f j) : R = (List.range n).map f := by
  rw [← map_range_getD R, h]
  apply List.map_congr_left
  intro j hj
  exact hf j (List.mem_range.mp hj)

/-- specification: all registers of a stream -/
def regsOf (lgK : Nat) (cs : List Nat) : List Nat := (List.range (2 ^ lgK)).map (regOf lgK cs)

theorem regsOf_getD {lgK j : Nat} (cs : List Nat) (hj : j < 2 ^ lgK) :
    (regsOf lgK cs).getD j 0 = regOf lgK cs j := by
  unfold regsOf
  rw [List.getD_eq_getElem?_getD, List.getElem?_map, List.getElem?_range hj]
  rfl

theorem regsOf_length (lgK : Nat) (cs : List Nat) : (regsOf lgK cs).length = 2 ^ lgK := by
  simp [regsOf]

theorem regsOf_congr {lgK : Nat} {cs ds : List Nat} (h : ∀ x, x ∈ cs ↔ x ∈ ds) :
    regsOf lgK cs = regsOf lgK ds := by
  unfold regsOf
  apply List.map_congr_left
  intro j _
  exact regOf_congr h j

theorem feed_empty_R (F : Fl H) (lgK : Nat) (cs : List Nat) :
    ((emptyRegs F lgK).feed F lgK cs).R = regsOf lgK cs :=
  regs_eq (by rw [Regs.feed_length]; simp [emptyRegs]) (fun j _ => feed_empty_getD F lgK cs j)

/-- Feeding a coupon to registers of a stream gives the registers of the longer stream. -/
theorem feed1_R {F : Fl H} {lgK : Nat} {S : Regs H} {cs : List Nat} (h : S.R = regsOf lgK cs)
    (c : Nat) : (S.feed1 F lgK c).R = regsOf lgK (cs ++ [c]) := by
  have hlen : S.R.length = 2 ^ lgK := by rw [h, regsOf_length]
  unfold Regs.feed1
  apply regs_eq (by rw [Regs.step_length, hlen])
  intro j hj
  rw [Regs.step_getD (by rw [hlen]; exact Nat.mod_lt _ (Nat.two_pow_pos _)), regOf_append,
    regOf_singleton, h]
  by_cases hjc : j = c % 2 ^ lgK
  · rw [if_pos hjc, if_pos hjc.symm, ← hjc, regsOf_getD _ hj]
  · rw [if_neg hjc, if_neg (fun e => hjc e.symm), regsOf_getD _ hj, Nat.max_zero]

theorem regOf_le63 {lgK : Nat} {cs : List Nat} (h : ∀ c ∈ cs, ValidCoupon c) (j : Nat) :
    regOf lgK cs j ≤ 63 := by
  rw [regOf_le]
  intro c hc _
  have := (h c hc).2
  omega

theorem countP_mono_regsOf {lgK : Nat} (cs : List Nat) (c m : Nat) :
    (regsOf lgK cs).countP (fun v => decide (m ≤ v)) ≤
      (regsOf lgK (cs ++ [c])).countP (fun v => decide (m ≤ v)) := by
  unfold regsOf
  rw [List.countP_map, List.countP_map]
  apply List.countP_mono_left
  intro j _ hj
  simp only [Function.comp, decide_eq_true_eq] at hj ⊢
  rw [regOf_append]
  omega

/-! ## Room for the exceptions of the 4-bit array -/

/-- Specification of when a 4-bit array with registers given by `cs` has room for one more coupon:
the number of registers at least fifteen above the smallest old register is at most three eighths of
the slots. -/
def RoomAt (typ : Typ) (lgK : Nat) (cs : List Nat) (c : Nat) : Prop :=
  typ = .hll4 → 8 ≤ distinct (cs ++ [c]) →
    Room lgK ((regsOf lgK (cs ++ [c])).countP (fun v => decide (lowest (regsOf lgK cs) + 15 ≤ v)))

instance (typ : Typ) (lgK : Nat) (cs : List Nat) (c : Nat) : Decidable (RoomAt typ lgK cs c) := by
  unfold RoomAt; infer_instance

/-- every step of the stream has room -/
def RoomAll (typ : Typ) (lgK : Nat) (cs : List Nat) : Prop :=
  ∀ p c, p ++ [c] <+: cs → RoomAt typ lgK p c

theorem roomAll_append {typ : Typ} {lgK : Nat} {cs : List Nat} {c : Nat} :
    RoomAll typ lgK (cs ++ [c]) ↔ RoomAll typ lgK cs ∧ RoomAt typ lgK cs c := by
  constructor
  · intro h
    exact ⟨fun p d hp => h p d (hp.trans (List.prefix_append _ _)), h cs c (List.prefix_refl _)⟩
  · rintro ⟨h1, h2⟩ p d hp
    rcases List.prefix_concat_iff.mp hp with h | h
    · obtain ⟨rfl, h'⟩ := List.append_inj' h rfl
      simp only [List.cons.injEq, and_true] at h'
      subst h'
      exact h2
    · exact h1 p d h

theorem lowest_zero {R : List Nat} (h : 0 < R.count 0) : lowest R = 0 := by
  have := lowest_le (List.count_pos_iff.mp h)
  omega

/-! ## Promotion -/

/-- loading the coupons `L` into a fresh array -/
theorem load_spec {F : Fl H} {lgK : Nat} {typ : Typ} (h4 : 4 ≤ lgK) (h21 : lgK ≤ 21)
    (L : List Nat) (hv : ∀ c ∈ L, ValidCoupon c) (hlen : L.length ≤ 2 ^ lgK) :
    ((typ = .hll4 → Room lgK ((regsOf lgK L).countP (fun v => decide (0 + 15 ≤ v)))) ∧
      ∃ a, L.foldlM (fun a c => Arr.couponUpdate F a c) (newArr F lgK typ) = .ok a ∧
        Rep a ((emptyRegs F lgK).feed F lgK L) ∧ Same (newArr F lgK typ) a) ∨
    (¬ (typ = .hll4 → Room lgK ((regsOf lgK L).countP (fun v => decide (0 + 15 ≤ v)))) ∧
      ∃ e, L.foldlM (fun a c => Arr.couponUpdate F a c) (newArr F lgK typ) = .err e) := by
  induction L using List.reverseRecOn with
  | nil =>
    refine Or.inl ⟨?_, _, rfl, newArr_rep F typ h4 h21, Same.refl _⟩
    intro _
    have := feed_empty_excs F lgK 0 []
    rw [feed_empty_R] at this
    exact (show Room lgK 0 by unfold Room; omega).mono this
  | append_singleton L c ih =>
    rw [List.foldlM_append]
    rw [List.length_append, List.length_singleton] at hlen
    rcases ih (fun x hx => hv x (by simp [hx])) (by omega) with ⟨hr, a, ha, hrep, hs⟩ | ⟨hr, e, he⟩
    · rw [ha, Outcome.ok_bind, List.foldlM_cons]
      have hlgK : a.lgK = lgK := hs.1
      have htyp : a.typ = typ := hs.2.1
      have hz := feed_empty_zeros F lgK L
      have hlow : lowest ((emptyRegs F lgK).feed F lgK L).R = 0 := lowest_zero (by omega)
      have hstep := hrep.couponUpdate (F := F) (hv c (by simp)).2
      rw [hlgK, htyp] at hstep
      unfold Fits at hstep
      rw [hlow] at hstep
      have hfe : ((emptyRegs F lgK).feed F lgK L).step F lgK (c % 2 ^ lgK) (c / 2 ^ 26) =
          (emptyRegs F lgK).feed F lgK (L ++ [c]) := by rw [Regs.feed_append]; rfl
      rw [hfe, feed_empty_R] at hstep
      rcases hstep with ⟨q1, a', q2, q3, q4⟩ | ⟨q1, e, q2⟩
      · refine Or.inl ⟨q1, a', ?_, q3, hs.trans q4⟩
        rw [q2, Outcome.ok_bind, List.foldlM_nil]; rfl
      · refine Or.inr ⟨q1, e, ?_⟩
        rw [q2, Outcome.err_bind]
    · refine Or.inr ⟨?_, e, by rw [he, Outcome.err_bind]⟩
      intro hcon
      apply hr
      intro ht
      exact (hcon ht).mono (countP_mono_regsOf L c _)

theorem Rep.setHip {a : Arr H} {S : Regs H} (h : Rep a S) (x : H) (b : Bool) :
    Rep { a with hip := x, ooo := b } { S with hip := x } := by
  refine ⟨h.h4, h.h21, h.len, h.le63, rfl, h.kxq0, h.kxq1, ?_⟩
  have hb := h.body
  unfold Body at *
  cases ht : a.typ with
  | hll4 =>
    rw [ht] at hb
    simp only
    exact ⟨⟨hb.1.h4, hb.1.h21, hb.1.len, hb.1.le63, hb.1.blen, hb.1.b256, hb.1.low, hb.1.nib,
      hb.1.aux, hb.1.num⟩, hb.2⟩
  | hll6 => rw [ht] at hb; exact hb
  | hll8 => rw [ht] at hb; exact hb

/-- `promoteListToHll`, `promoteSetToHll`: `L` are the coupons in storage order. -/
theorem promoteToHll_spec {F : Fl H} {c : Coup} (h4 : 4 ≤ c.lgK) (h21 : c.lgK ≤ 21)
    {L : List Nat} (hL : c.arr.filter (fun e => decide (e ≠ 0)) = L) (hv : ∀ c ∈ L, ValidCoupon c)
    (hlen : L.length ≤ 2 ^ c.lgK) :
    ((c.typ = .hll4 → Room c.lgK ((regsOf c.lgK L).countP (fun v => decide (0 + 15 ≤ v)))) ∧
      ∃ a, promoteToHll F c = .ok a ∧
        Rep a { (emptyRegs F c.lgK).feed F c.lgK L with hip := F.est c.count } ∧
        Same (newArr F c.lgK c.typ) a) ∨
    (¬ (c.typ = .hll4 → Room c.lgK ((regsOf c.lgK L).countP (fun v => decide (0 + 15 ≤ v)))) ∧
      ∃ e, promoteToHll F c = .err e) := by
  unfold promoteToHll
  have hfold : c.arr.foldlM (promoteStep F)
      ({ newArr F c.lgK c.typ with kxq0 := 2 ^ c.lgK * 2 ^ 63 } : Arr H) =
      L.foldlM (fun a c => Arr.couponUpdate F a c) (newArr F c.lgK c.typ) := by
    rw [← hL]
    exact foldlM_skip (fun e => decide (e ≠ 0)) c.arr
      (fun s x hx => by
        unfold promoteStep; rw [if_neg (by simpa using hx)])
      (fun s x hx => by unfold promoteStep; rw [if_pos (by simpa using hx)]) _
  simp only
  rw [hfold]
  rcases load_spec (F := F) (typ := c.typ) h4 h21 L hv hlen with ⟨h1, a, h2, h3, h5⟩ | ⟨h1, e, h2⟩
  · refine Or.inl ⟨h1, _, by rw [h2, Outcome.ok_bind], ?_, ?_⟩
    · unfold Arr.putOoo
      simp only [Bool.false_eq_true, if_false]
      exact h3.setHip _ _
    · exact ⟨h5.1, h5.2.1, rfl, h5.2.2.2⟩
  · exact Or.inr ⟨h1, e, by rw [h2, Outcome.err_bind]⟩

end Verif.Hll
