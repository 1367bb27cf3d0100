import Verif.HllCoup

/-!
# A sketch of any type refines one abstract machine
-/

namespace Verif.Hll

variable {H : Type}

/-- The abstract sketch: a duplicate-free coupon list, later registers with accumulators. -/
inductive AbsSk (H : Type) where
  | coup (D : List Nat)
  | hll (S : Regs H)

/-- `n` distinct coupons are kept as coupons: fewer than eight, or (from `lgK = 8` on) at most three
quarters of an eighth of the slots -/
def Keeps (lgK n : Nat) : Prop := n < 8 ∨ (8 ≤ lgK ∧ 4 * n ≤ 3 * 2 ^ (lgK - 3))

instance (lgK n : Nat) : Decidable (Keeps lgK n) := by unfold Keeps; infer_instance

/-- the array a set of coupons is promoted to -/
def promoted (F : Fl H) (lgK : Nat) (D : List Nat) : Regs H :=
  { R := regsOf lgK D, hip := F.est D.length,
    kxq0 := ((regsOf lgK D).map w0).sum, kxq1 := ((regsOf lgK D).map w1).sum }

/-- one coupon -/
def AbsSk.step (F : Fl H) (lgK : Nat) (A : AbsSk H) (x : Nat) : AbsSk H :=
  match A with
  | .coup D =>
    if x ∈ D then .coup D
    else if Keeps lgK (D.length + 1) then .coup (D ++ [x])
    else .hll (promoted F lgK (D ++ [x]))
  | .hll S => .hll (S.feed1 F lgK x)

/-- the sketch `s` is in the abstract state `A` -/
def Ref (s : Sk H) (A : AbsSk H) : Prop :=
  match s, A with
  | .list c, .coup D => ListInv c D
  | .set c, .coup D => SetInv c D ∧ 8 ≤ D.length
  | .hll a, .hll S => Rep a S
  | _, _ => False

/-- flags are kept by updates and clear after a promotion -/
def Frame (s s' : Sk H) : Prop :=
  s'.lgK = s.lgK ∧ s'.typ = s.typ ∧
  match s, s' with
  | .hll a, .hll a' => a'.ooo = a.ooo ∧ a'.rebuild = a.rebuild
  | _, .hll a' => a'.ooo = false ∧ a'.rebuild = false
  | _, _ => True

/-- there is room for the exceptions of the 4-bit array after the coupon `x` -/
def AbsRoom (typ : Typ) (F : Fl H) (lgK : Nat) (A : AbsSk H) (x : Nat) : Prop :=
  typ = .hll4 →
  match A with
  | .coup D => x ∉ D → ¬ Keeps lgK (D.length + 1) →
      Room lgK ((regsOf lgK (D ++ [x])).countP (fun v => decide (0 + 15 ≤ v)))
  | .hll S => Room lgK ((S.feed1 F lgK x).R.countP (fun v => decide (lowest S.R + 15 ≤ v)))

theorem Ref.lgK_bounds {s : Sk H} {A : AbsSk H} (h : Ref s A) : 4 ≤ s.lgK ∧ s.lgK ≤ 21 := by
  cases s with
  | list c =>
    cases A with
    | coup D => exact ⟨ListInv.h4 h, ListInv.h21 h⟩
    | hll S => exact absurd h (by simp [Ref])
  | set c =>
    cases A with
    | coup D =>
      have h1 := h.1.lg5
      have h2 := h.1.lgle
      exact ⟨by show 4 ≤ c.lgK; omega, h.1.h21⟩
    | hll S => exact absurd h (by simp [Ref])
  | hll a =>
    cases A with
    | coup D => exact absurd h (by simp [Ref])
    | hll S => exact ⟨Rep.h4 h, Rep.h21 h⟩

/-- a promotion of the coupons `L` (in storage order), `D` in arrival order -/
theorem promote_ref {F : Fl H} {c : Coup} (h4 : 4 ≤ c.lgK) (h21 : c.lgK ≤ 21) {D : List Nat}
    (hL : (c.arr.filter (fun e => decide (e ≠ 0))).Perm D) (hv : ∀ c ∈ D, ValidCoupon c)
    (hlen : D.length ≤ 2 ^ c.lgK) (hcnt : c.count = D.length) :
    ((c.typ = .hll4 → Room c.lgK ((regsOf c.lgK D).countP (fun v => decide (0 + 15 ≤ v)))) ∧
      ∃ a, promoteToHll F c = .ok a ∧ Rep a (promoted F c.lgK D) ∧ Same (newArr F c.lgK c.typ) a) ∨
    (¬ (c.typ = .hll4 → Room c.lgK ((regsOf c.lgK D).countP (fun v => decide (0 + 15 ≤ v)))) ∧
      ∃ e, promoteToHll F c = .err e) := by
  have hreg := regsOf_congr (lgK := c.lgK) (fun x => hL.mem_iff (a := x))
  have hspec := promoteToHll_spec (F := F) h4 h21 rfl (fun x hx => hv x (hL.mem_iff.mp hx))
    (by rw [hL.length_eq]; exact hlen)
  rw [hreg] at hspec
  rcases hspec with ⟨h1, a, h2, h3, h5⟩ | h
  · refine Or.inl ⟨h1, a, h2, ?_, h5⟩
    have hex := Regs.feed_exact (F := F) (lgK := c.lgK) (S := emptyRegs F c.lgK)
      (by simp [emptyRegs]) (emptyRegs_exact F c.lgK)
      (c.arr.filter (fun e => decide (e ≠ 0)))
    have he : promoted F c.lgK D = { (emptyRegs F c.lgK).feed F c.lgK
        (c.arr.filter (fun e => decide (e ≠ 0))) with hip := F.est c.count } := by
      unfold promoted
      dsimp only
      rw [hex.1, hex.2, feed_empty_R, hreg, hcnt]
    rw [he]
    exact h3
  · exact Or.inr h

theorem Outcome_map_ok {α β : Type} {x : Outcome α} {a : α} (h : x = .ok a) (f : α → β) :
    (x >>= fun y => Outcome.ok (f y)) = .ok (f a) := by rw [h]; rfl

/-- One update of a sketch. -/
theorem Ref.couponUpdate {F : Fl H} {s : Sk H} {A : AbsSk H} (h : Ref s A) {x : Nat}
    (hx : ValidCoupon x) :
    (AbsRoom s.typ F s.lgK A x ∧ ∃ s', s.couponUpdate F x = .ok s' ∧
      Ref s' (A.step F s.lgK x) ∧ Frame s s') ∨
    (¬ AbsRoom s.typ F s.lgK A x ∧ ∃ e, s.couponUpdate F x = .err e) := by
  cases s with
  | list c =>
    cases A with
    | hll S => exact absurd h (by simp [Ref])
    | coup D =>
      have h : ListInv c D := h
      show (AbsRoom c.typ F c.lgK _ x ∧ ∃ s', listUpdate F c x = .ok s' ∧ _) ∨
        (_ ∧ ∃ e, listUpdate F c x = .err e)
      by_cases hm : x ∈ D
      · left
        refine ⟨fun _ hn => absurd hm hn, .list c, ?_, ?_, ⟨rfl, rfl, trivial⟩⟩
        · rw [listUpdate_eq h, if_pos hm]
        · simp only [AbsSk.step, if_pos hm]; exact h
      · have hlt := h.lt8
        have hstep : AbsSk.step F (Sk.list c : Sk H).lgK (.coup D) x =
            if Keeps c.lgK (D.length + 1) then .coup (D ++ [x])
            else .hll (promoted F c.lgK (D ++ [x])) := if_neg hm
        rw [hstep]
        rcases listUpdate_new (F := F) h hm hx with
          ⟨h8, c', e1, e2, e3, e4⟩ | ⟨h8, hk, c', e1, e2, e3, e4⟩ | ⟨h8, hk, c', e1, e2, e3, e4, e5⟩
        · left
          have hkeep : Keeps c.lgK (D.length + 1) := Or.inl h8
          rw [if_pos hkeep]
          exact ⟨fun _ _ hn => absurd hkeep hn, _, e1, e2, ⟨e3, e4, trivial⟩⟩
        · left
          have hpow : 32 ≤ 2 ^ (c.lgK - 3) := by
            rw [show 32 = 2 ^ 5 from rfl]; exact Nat.pow_le_pow_right (by omega) (by omega)
          have hkeep : Keeps c.lgK (D.length + 1) := Or.inr ⟨hk, by omega⟩
          rw [if_pos hkeep]
          exact ⟨fun _ _ hn => absurd hkeep hn, _, e1, ⟨e2, by simp; omega⟩, ⟨e3, e4, trivial⟩⟩
        · have hkeep : ¬ Keeps c.lgK (D.length + 1) := by unfold Keeps; omega
          rw [if_neg hkeep]
          have hvalid : ∀ e ∈ D ++ [x], ValidCoupon e := by
            intro e he
            rcases List.mem_append.mp he with he | he
            · exact h.valid e he
            · rw [List.mem_singleton.mp he]; exact hx
          have h16 : 2 ^ 4 ≤ 2 ^ c.lgK := Nat.pow_le_pow_right (by omega) h.h4
          rcases promote_ref (F := F) (c := c') (by rw [e3]; exact h.h4) (by rw [e3]; exact h.h21)
            (D := D ++ [x]) (by rw [e2]) hvalid (by rw [e3]; simp; omega) (by rw [e5]; simp) with
            ⟨r1, a, r2, r3, r4⟩ | ⟨r1, e, r2⟩
          · left
            rw [e3, e4] at r1
            rw [e3] at r3
            refine ⟨fun ht _ _ => r1 ht, .hll a, ?_, r3, ?_⟩
            · rw [e1]; exact Outcome_map_ok r2 _
            · exact ⟨r4.1.trans e3, r4.2.1.trans e4, r4.2.2.1, r4.2.2.2⟩
          · right
            rw [e3, e4] at r1
            refine ⟨fun hc => r1 (fun ht => hc ht hm hkeep), e, ?_⟩
            rw [e1, r2]; rfl
  | set c =>
    cases A with
    | hll S => exact absurd h (by simp [Ref])
    | coup D =>
      obtain ⟨h, hlen8⟩ : SetInv c D ∧ 8 ≤ D.length := h
      show (AbsRoom c.typ F c.lgK _ x ∧ ∃ s', setUpdate F c x = .ok s' ∧ _) ∨
        (_ ∧ ∃ e, setUpdate F c x = .err e)
      by_cases hm : x ∈ D
      · left
        refine ⟨fun _ hn => absurd hm hn, .set c, ?_, ?_, ⟨rfl, rfl, trivial⟩⟩
        · rw [setUpdate_mem h hm]
        · simp only [AbsSk.step, if_pos hm]; exact ⟨h, hlen8⟩
      · have hstep : AbsSk.step F (Sk.set c : Sk H).lgK (.coup D) x =
            if Keeps c.lgK (D.length + 1) then .coup (D ++ [x])
            else .hll (promoted F c.lgK (D ++ [x])) := if_neg hm
        rw [hstep]
        have hlg := h.lg5
        have hlg2 := h.lgle
        have hperm : (x :: D).Perm (D ++ [x]) := (List.perm_append_singleton _ _).symm
        rcases setUpdate_new (F := F) h hm hx with ⟨hk, c', e1, e2, e3, e4, _⟩ | ⟨hk, c', e1, e2, e3, e4, e5⟩
        · left
          have hkeep : Keeps c.lgK (D.length + 1) := Or.inr ⟨by omega, hk⟩
          rw [if_pos hkeep]
          exact ⟨fun _ _ hn => absurd hkeep hn, _, e1, ⟨e2.perm hperm, by simp; omega⟩,
            ⟨e3, e4, trivial⟩⟩
        · have hkeep : ¬ Keeps c.lgK (D.length + 1) := by unfold Keeps; omega
          rw [if_neg hkeep]
          have hvalid : ∀ e ∈ D ++ [x], ValidCoupon e := by
            intro e he
            rcases List.mem_append.mp he with he | he
            · exact h.valid e he
            · rw [List.mem_singleton.mp he]; exact hx
          have hpow : 2 ^ c.lg ≤ 2 ^ (c.lgK - 3) := Nat.pow_le_pow_right (by omega) (by omega)
          have hpow2 : 2 ^ c.lgK = 8 * 2 ^ (c.lgK - 3) := by
            rw [show 8 = 2 ^ 3 from rfl, ← pow_add]; congr 1; omega
          have hpos := Nat.two_pow_pos c.lg
          have hload := h.load
          rw [h.cnt] at hload
          rcases promote_ref (F := F) (c := c') (by rw [e3]; omega) (by rw [e3]; exact h.h21)
            (D := D ++ [x]) (e2.trans hperm) hvalid (by rw [e3]; simp; omega) (by rw [e5]; simp) with
            ⟨r1, a, r2, r3, r4⟩ | ⟨r1, e, r2⟩
          · left
            rw [e3, e4] at r1
            rw [e3] at r3
            refine ⟨fun ht _ _ => r1 ht, .hll a, ?_, r3, ?_⟩
            · rw [e1]; exact Outcome_map_ok r2 _
            · exact ⟨r4.1.trans e3, r4.2.1.trans e4, r4.2.2.1, r4.2.2.2⟩
          · right
            rw [e3, e4] at r1
            refine ⟨fun hc => r1 (fun ht => hc ht hm hkeep), e, ?_⟩
            rw [e1, r2]; rfl
  | hll a =>
    cases A with
    | coup D => exact absurd h (by simp [Ref])
    | hll S =>
      have h : Rep a S := h
      rcases h.couponUpdate (F := F) hx.2 with ⟨r1, a', r2, r3, r4⟩ | ⟨r1, e, r2⟩
      · exact Or.inl ⟨r1, .hll a', by show (a.couponUpdate F x >>= _) = _; rw [r2]; rfl, r3,
          ⟨r4.1, r4.2.1, r4.2.2.1, r4.2.2.2⟩⟩
      · exact Or.inr ⟨r1, e, by show (a.couponUpdate F x >>= _) = _; rw [r2]; rfl⟩

/-! ## What an abstract state says about the stream -/

/-- `A` stands for the stream `cs` (registers with `2^lgK` slots) -/
def AbsSk.Of (lgK : Nat) (A : AbsSk H) (cs : List Nat) : Prop :=
  match A with
  | .coup D => D.Nodup ∧ ∀ x, x ∈ D ↔ x ∈ cs
  | .hll S => S.R = regsOf lgK cs

theorem AbsSk.Of.step {F : Fl H} {lgK : Nat} {A : AbsSk H} {cs : List Nat} (h : A.Of lgK cs)
    (x : Nat) : (A.step F lgK x).Of lgK (cs ++ [x]) := by
  cases A with
  | coup D =>
    obtain ⟨hn, hm⟩ := h
    unfold AbsSk.step
    simp only
    by_cases hx : x ∈ D
    · rw [if_pos hx]
      refine ⟨hn, fun y => ?_⟩
      rw [hm, List.mem_append, List.mem_singleton]
      constructor
      · exact Or.inl
      · rintro (h | rfl)
        · exact h
        · exact (hm _).mp hx
    · rw [if_neg hx]
      have hmem : ∀ y, y ∈ D ++ [x] ↔ y ∈ cs ++ [x] := by
        intro y; rw [List.mem_append, List.mem_append, hm]
      by_cases hk : Keeps lgK (D.length + 1)
      · rw [if_pos hk]
        refine ⟨?_, hmem⟩
        rw [List.nodup_append]
        refine ⟨hn, by simp, ?_⟩
        intro a ha b hb hab
        rw [List.mem_singleton] at hb
        exact hx (by rw [← hb, ← hab]; exact ha)
      · rw [if_neg hk]
        exact regsOf_congr hmem
  | hll S => exact feed1_R h x

/-- the state after a stream -/
def absOf (F : Fl H) (lgK : Nat) (cs : List Nat) : AbsSk H :=
  cs.foldl (AbsSk.step F lgK) (.coup [])

theorem absOf_append (F : Fl H) (lgK : Nat) (cs : List Nat) (x : Nat) :
    absOf F lgK (cs ++ [x]) = (absOf F lgK cs).step F lgK x := by
  unfold absOf; rw [List.foldl_append]; rfl

theorem absOf_of (F : Fl H) (lgK : Nat) (cs : List Nat) : (absOf F lgK cs).Of lgK cs := by
  induction cs using List.reverseRecOn with
  | nil => exact ⟨List.nodup_nil, by simp⟩
  | append_singleton cs c ih => rw [absOf_append]; exact ih.step c

theorem Keeps.anti {lgK m n : Nat} (h : Keeps lgK n) (hmn : m ≤ n) : Keeps lgK m := by
  unfold Keeps at *; omega

theorem distinct_mono (cs : List Nat) (x : Nat) : distinct cs ≤ distinct (cs ++ [x]) := by
  unfold distinct
  apply List.Subperm.length_le
  apply List.subperm_of_subset (List.nodup_dedup _)
  intro y hy
  rw [List.mem_dedup] at hy ⊢
  simp [hy]

/-- the number of distinct coupons decides the mode -/
theorem absOf_mode (F : Fl H) (lgK : Nat) (cs : List Nat) :
    match absOf F lgK cs with
    | .coup D => D.length = distinct cs ∧ Keeps lgK (distinct cs)
    | .hll S => ¬ Keeps lgK (distinct cs) ∧ S.Exact := by
  induction cs using List.reverseRecOn with
  | nil =>
    show 0 = distinct [] ∧ Keeps lgK (distinct [])
    exact ⟨rfl, Or.inl (by simp [distinct])⟩
  | append_singleton cs x ih =>
    have hof := absOf_of F lgK (cs ++ [x])
    have hof0 := absOf_of F lgK cs
    rw [absOf_append] at hof ⊢
    cases hA : absOf F lgK cs with
    | coup D =>
      rw [hA] at ih hof hof0
      have ihD : D.length = distinct cs ∧ Keeps lgK (distinct cs) := ih
      unfold AbsSk.step at hof ⊢
      simp only at hof ⊢
      by_cases hx : x ∈ D
      · rw [if_pos hx] at hof ⊢
        have hd := distinct_eq hof.1 hof.2
        simp only
        rw [hd]
        exact ⟨rfl, by rw [ihD.1]; exact ihD.2⟩
      · rw [if_neg hx] at hof ⊢
        have hn : (D ++ [x]).Nodup := by
          rw [List.nodup_append]
          refine ⟨hof0.1, by simp, ?_⟩
          intro a ha b hb hab
          rw [List.mem_singleton] at hb
          exact hx (by rw [← hb, ← hab]; exact ha)
        have hd : distinct (cs ++ [x]) = D.length + 1 := by
          rw [distinct_eq hn (fun y => by rw [List.mem_append, List.mem_append, hof0.2])]
          simp
        by_cases hk : Keeps lgK (D.length + 1)
        · rw [if_pos hk]
          simp only
          rw [hd]
          exact ⟨by simp, hk⟩
        · rw [if_neg hk]
          simp only
          rw [hd]
          exact ⟨hk, rfl, rfl⟩
    | hll S =>
      rw [hA] at ih hof0
      have ihS : ¬ Keeps lgK (distinct cs) ∧ S.Exact := ih
      show ¬ Keeps lgK (distinct (cs ++ [x])) ∧ (S.feed1 F lgK x).Exact
      refine ⟨fun h => ihS.1 (h.anti (distinct_mono cs x)), ?_⟩
      apply ihS.2.step
      have : S.R = regsOf lgK cs := hof0
      rw [this, regsOf_length]
      exact Nat.mod_lt _ (Nat.two_pow_pos _)

/-- with few distinct coupons most registers are zero -/
theorem regsOf_zeros (lgK : Nat) (cs : List Nat) :
    2 ^ lgK ≤ (regsOf lgK cs).count 0 + distinct cs := by
  have h := feed_empty_zeros (H := Unit) ⟨(), fun _ _ _ _ => (), fun _ => ()⟩ lgK cs.dedup
  rw [feed_empty_R, regsOf_congr (fun x => List.mem_dedup)] at h
  exact h

theorem regsOf_excs (lgK m : Nat) (cs : List Nat) :
    (regsOf lgK cs).countP (fun v => decide (m + 15 ≤ v)) ≤ distinct cs := by
  have h := feed_empty_excs (H := Unit) ⟨(), fun _ _ _ _ => (), fun _ => ()⟩ lgK m cs.dedup
  rw [feed_empty_R, regsOf_congr (fun x => List.mem_dedup)] at h
  exact h

/-- the room condition in terms of the stream -/
theorem absRoom_iff {F : Fl H} {typ : Typ} {lgK : Nat} (h4 : 4 ≤ lgK) (cs : List Nat) (x : Nat) :
    AbsRoom typ F lgK (absOf F lgK cs) x ↔ RoomAt typ lgK cs x := by
  have hof := absOf_of F lgK cs
  have hmode := absOf_mode F lgK cs
  unfold AbsRoom RoomAt
  refine imp_congr_right (fun _ => ?_)
  cases hA : absOf F lgK cs with
  | coup D =>
    rw [hA] at hof hmode
    have hmode : D.length = distinct cs ∧ Keeps lgK (distinct cs) := hmode
    obtain ⟨hn, hm⟩ : D.Nodup ∧ ∀ x, x ∈ D ↔ x ∈ cs := hof
    simp only
    have hmem : ∀ y, y ∈ D ++ [x] ↔ y ∈ cs ++ [x] := by
      intro y; rw [List.mem_append, List.mem_append, hm]
    rw [regsOf_congr hmem]
    have h16 : 2 ^ 4 ≤ 2 ^ lgK := Nat.pow_le_pow_right (by omega) h4
    have hp3 : 8 ≤ lgK → 2 ^ lgK = 8 * 2 ^ (lgK - 3) := by
      intro h8
      rw [show 8 = 2 ^ 3 from rfl, ← pow_add]; congr 1; omega
    have hp1 : 2 ^ lgK = 2 * 2 ^ (lgK - 1) := by
      rw [← pow_succ']; congr 1; omega
    have hz := regsOf_zeros lgK cs
    have hlow : lowest (regsOf lgK cs) = 0 := by
      apply lowest_zero
      have := hmode.2
      unfold Keeps at this
      omega
    rw [hlow]
    have hex := regsOf_excs lgK 0 (cs ++ [x])
    by_cases hx : x ∈ D
    · have hd : distinct (cs ++ [x]) = distinct cs := by
        rw [← hmode.1, distinct_eq hn]
        intro y
        rw [hm, List.mem_append, List.mem_singleton]
        constructor
        · exact Or.inl
        · rintro (h | rfl)
          · exact h
          · exact (hm _).mp hx
      have hkeep := hmode.2
      rw [hd] at hex ⊢
      refine ⟨fun _ h8 => ?_, fun _ hn => absurd hx hn⟩
      unfold Keeps at hkeep
      unfold Room
      have := hp3 (by omega)
      omega
    · have hn' : (D ++ [x]).Nodup := by
        rw [List.nodup_append]
        refine ⟨hn, by simp, ?_⟩
        intro a ha b hb hab
        rw [List.mem_singleton] at hb
        exact hx (by rw [← hb, ← hab]; exact ha)
      have hd : distinct (cs ++ [x]) = D.length + 1 := by
        rw [distinct_eq hn' hmem]; simp
      rw [hd] at hex ⊢
      by_cases hk : Keeps lgK (D.length + 1)
      · refine ⟨fun _ h8 => ?_, fun _ _ hnk => absurd hk hnk⟩
        unfold Keeps at hk
        unfold Room
        have := hp3 (by omega)
        omega
      · refine ⟨fun h _ => h hx hk, fun h _ _ => h ?_⟩
        unfold Keeps at hk
        omega
  | hll S =>
    rw [hA] at hof hmode
    have hof : S.R = regsOf lgK cs := hof
    have hmode : ¬ Keeps lgK (distinct cs) ∧ S.Exact := hmode
    simp only
    rw [feed1_R hof, hof]
    have h8 : 8 ≤ distinct (cs ++ [x]) := by
      have h1 := distinct_mono cs x
      have h2 := hmode.1
      unfold Keeps at h2
      omega
    exact ⟨fun h _ => h, fun h => h h8⟩

/-! ## Whole streams -/

/-- the public operations: a new sketch fed with coupons -/
def run (F : Fl H) (lgK : Nat) (typ : Typ) (cs : List Nat) : Outcome (Sk H) := do
  let s ← newSketch lgK typ
  cs.foldlM (fun s c => s.update F c) s

theorem valid_shift {c : Nat} (h : ValidCoupon c) : ¬ c >>> 26 = 0 := by
  have := h.1
  rw [Nat.shiftRight_eq_div_pow]
  omega

theorem run_spec {F : Fl H} {lgK : Nat} {typ : Typ} (h4 : 4 ≤ lgK) (h21 : lgK ≤ 21)
    (cs : List Nat) (hv : ∀ c ∈ cs, ValidCoupon c) :
    (RoomAll typ lgK cs ∧ ∃ s, run F lgK typ cs = .ok s ∧ Ref s (absOf F lgK cs) ∧
      s.lgK = lgK ∧ s.typ = typ ∧ ∀ a, s = .hll a → a.ooo = false ∧ a.rebuild = false) ∨
    (¬ RoomAll typ lgK cs ∧ ∃ e, run F lgK typ cs = .err e) := by
  have hnew : (newSketch lgK typ : Outcome (Sk H)) = .ok (.list (newList lgK typ)) :=
    if_pos ⟨h4, h21⟩
  unfold run
  rw [hnew, Outcome.ok_bind]
  induction cs using List.reverseRecOn with
  | nil =>
    refine Or.inl ⟨?_, _, rfl, newList_inv typ h4 h21, rfl, rfl, fun a h => by cases h⟩
    intro p c hp
    have := hp.length_le
    simp at this
  | append_singleton cs x ih =>
    rw [List.foldlM_append]
    rcases ih (fun c hc => hv c (by simp [hc])) with ⟨hr, s, e1, e2, e3, e4, e5⟩ | ⟨hr, e, he⟩
    · rw [e1, Outcome.ok_bind, List.foldlM_cons]
      have hx := hv x (by simp)
      have hupd : s.update F x = s.couponUpdate F x := if_neg (valid_shift hx)
      rw [hupd, absOf_append]
      have := e2.couponUpdate (F := F) hx
      rw [e3, e4, absRoom_iff h4] at this
      rcases this with ⟨r1, s', r2, r3, r4⟩ | ⟨r1, e, r2⟩
      · refine Or.inl ⟨roomAll_append.mpr ⟨hr, r1⟩, s', ?_, r3, r4.1.trans e3, r4.2.1.trans e4, ?_⟩
        · rw [r2]; rfl
        · intro a ha
          subst ha
          have hf := r4.2.2
          cases s with
          | list c => exact hf
          | set c => exact hf
          | hll b =>
            obtain ⟨q1, q2⟩ := e5 b rfl
            exact ⟨hf.1.trans q1, hf.2.trans q2⟩
      · refine Or.inr ⟨fun h => r1 (roomAll_append.mp h).2, e, ?_⟩
        rw [r2]; rfl
    · exact Or.inr ⟨fun h => hr (roomAll_append.mp h).1, e, by rw [he]; rfl⟩

end Verif.Hll
