import Verif.HllUnion

/-!
# Properties C28 - C31: HLL sketches and their union

A sketch of `lgK` is fed with the 128-bit hashes of the items.  A hash determines a *coupon*: a
26-bit address and a six-bit value.  The specification of a stream of coupons is

* `distinct cs`, the number of different coupons;
* `Keeps lgK n`, the rule that decides whether `n` coupons are kept as they are;
* `regOf lgK cs j`, the largest value among the coupons whose address is `j` modulo `2^lgK`.
-/

namespace Verif.Hll

variable {H : Type}

/-! ## What a sketch shows -/

/-- Registers never hit, as the estimators see it (hll/harmonic_numbers.go and
composite_interpolation.go use `numAtCurMin` if `curMin = 0`, else 0). -/
def Arr.unhit (a : Arr H) : Int := if a.curMin = 0 then a.num else 0

/-- `s` shows the stream `cs`: as the set of its different coupons, or as the register maxima with
exact auxiliary counts. -/
def Shows (s : Sk H) (lgK : Nat) (typ : Typ) (cs : List Nat) : Prop :=
  s.lgK = lgK ∧ s.typ = typ ∧
  ((Keeps lgK (distinct cs) ∧ ∃ c : Coup, (s = .list c ∨ s = .set c) ∧ c.count = distinct cs ∧
      (c.arr.filter (fun e => decide (e ≠ 0))).Nodup ∧
      ∀ x, x ∈ c.arr.filter (fun e => decide (e ≠ 0)) ↔ x ∈ cs) ∨
   (¬ Keeps lgK (distinct cs) ∧ ∃ a : Arr H, s = .hll a ∧
      (∀ j, j < 2 ^ lgK → a.value j = .ok (regOf lgK cs j)) ∧
      (a.rebuild = false →
        a.unhit = (List.range (2 ^ lgK)).countP (fun j => regOf lgK cs j = 0) ∧
        a.kxq0 + a.kxq1 = ((List.range (2 ^ lgK)).map (fun j => (2 : Int) ^ (63 - regOf lgK cs j))).sum)))

/-- The coupon of a 128-bit hash is valid. -/
theorem coupon_valid (lo hi : Nat) : ValidCoupon (coupon lo hi) := by
  unfold ValidCoupon coupon
  have hm : lo &&& (2 ^ 26 - 1) < 2 ^ 26 := by
    rw [Nat.and_two_pow_sub_one_eq_mod]; exact Nat.mod_lt _ (by omega)
  rw [← Nat.shiftLeft_add_eq_or_of_lt hm, Nat.shiftLeft_eq]
  generalize lo &&& (2 ^ 26 - 1) = l at hm
  have : min (lz64 hi) 62 ≤ 62 := Nat.min_le_right _ _
  generalize min (lz64 hi) 62 = m at this
  omega

theorem Rep.unhit {a : Arr H} {S : Regs H} (h : Rep a S) (hr : a.rebuild = false) :
    a.unhit = S.R.count 0 := by
  have hb := h.body
  unfold Body at hb
  unfold Arr.unhit
  have hnum : NumOk a S.R → (if a.curMin = 0 then a.num else 0) = (S.R.count 0 : Int) := by
    intro hn
    rcases hn.2 hr with ⟨h1, h2⟩ | ⟨h1, h2⟩
    · rw [if_pos h1, h2]
    · rw [if_neg (by omega), h2]; rfl
  cases ht : a.typ with
  | hll4 =>
    rw [ht] at hb
    obtain ⟨hc, _⟩ := hb
    by_cases h0 : a.curMin = 0
    · rw [if_pos h0, hc.num, h0]
    · rw [if_neg h0]
      have : S.R.count 0 = 0 := by
        rw [List.count_eq_zero]
        intro hm
        have := hc.low _ hm
        omega
      rw [this]; rfl
  | hll6 => rw [ht] at hb; exact hnum hb.2.2.2
  | hll8 => rw [ht] at hb; exact hnum hb.2

theorem Good.shows {s : Sk H} {A : AbsSk H} {cs : List Nat} (h : Good s A cs) :
    Shows s s.lgK s.typ cs := by
  refine ⟨rfl, rfl, ?_⟩
  cases A with
  | coup D =>
    left
    refine ⟨h.keeps, ?_⟩
    obtain ⟨c, h1, h2, h3⟩ := h.coupons
    have hof := h.of
    exact ⟨c, h1, by rw [h2, distinct_eq hof.1 hof.2], h3.nodup_iff.mpr hof.1,
      fun x => h3.mem_iff.trans (hof.2 x)⟩
  | hll S =>
    right
    have href := h.ref
    cases s with
    | list c => exact absurd href (by simp [Ref])
    | set c => exact absurd href (by simp [Ref])
    | hll a =>
      have hrep : Rep a S := href
      obtain ⟨h1, h2⟩ := h.hll a S rfl rfl
      have hof : S.R = regsOf a.lgK cs := h.of
      refine ⟨h2, a, rfl, ?_, fun hr => ⟨?_, ?_⟩⟩
      · intro j hj
        have hj' : j < 2 ^ a.lgK := hj
        rw [hrep.value hj', hof, regsOf_getD _ hj']
        rfl
      · rw [hrep.unhit hr, hof]
        unfold regsOf List.count
        rw [List.countP_map]
        congr 1
      · have := h1 hr
        unfold Regs.Total at this
        rw [hrep.kxq0, hrep.kxq1, this, hof]
        unfold regsOf
        rw [List.map_map]
        rfl

/-- a sketch built from a stream -/
theorem run_good {F : Fl H} {lgK : Nat} {typ : Typ} (h4 : 4 ≤ lgK) (h21 : lgK ≤ 21)
    {cs : List Nat} (hv : ∀ c ∈ cs, ValidCoupon c) {s : Sk H} (hs : run F lgK typ cs = .ok s) :
    Good s (absOf F lgK cs) cs ∧ s.lgK = lgK ∧ s.typ = typ ∧
      ∀ a, s = .hll a → a.ooo = false ∧ a.rebuild = false := by
  rcases run_spec (F := F) (typ := typ) h4 h21 cs hv with ⟨_, s', e1, e2, e3, e4, e5⟩ | ⟨_, e, he⟩
  · rw [hs] at e1
    cases e1
    refine ⟨⟨e2, by rw [e3]; exact absOf_of F lgK cs, ?_⟩, e3, e4, e5⟩
    intro a S ha hA
    have hm := absOf_mode F lgK cs
    rw [hA] at hm
    have : a.lgK = lgK := by rw [← e3, ha]; rfl
    rw [this]
    exact ⟨fun _ => hm.2.total, hm.1⟩
  · rw [hs] at he; cases he

/-! ## C28 -/

/-- A sketch of `lgK` and `typ`, fed with items that have the hashes `hs` in this order. -/
def sketchOf (F : Fl H) (lgK : Nat) (typ : Typ) (hs : List (Nat × Nat)) : Outcome (Sk H) := do
  let s ← newSketch lgK typ
  hs.foldlM (fun s h => s.updateHash F h) s

/-- the coupons of a stream of hashes -/
def coupons (hs : List (Nat × Nat)) : List Nat := hs.map (fun h => coupon h.1 h.2)

theorem coupons_valid (hs : List (Nat × Nat)) : ∀ c ∈ coupons hs, ValidCoupon c := by
  intro c hc
  obtain ⟨h, _, rfl⟩ := List.mem_map.mp hc
  exact coupon_valid _ _

theorem sketchOf_eq (F : Fl H) (lgK : Nat) (typ : Typ) (hs : List (Nat × Nat)) :
    sketchOf F lgK typ hs = run F lgK typ (coupons hs) := by
  unfold sketchOf run coupons
  congr 1
  funext s
  rw [List.foldlM_map]
  rfl

/-- **C28.** For every stream of items and every `lgK` and target type: the updates succeed exactly
when the exception table of the 4-bit type has room at every step (`RoomAll`, vacuous for the other
types); then the sketch shows the stream: below the promotion threshold exactly the set of its
coupons, above it in every slot the largest value addressed to that slot, with the exact number of
empty slots and the exact sum of `2^-value`. -/
theorem C28_registers (F : Fl H) {lgK : Nat} (typ : Typ) (h4 : 4 ≤ lgK) (h21 : lgK ≤ 21)
    (hs : List (Nat × Nat)) :
    (RoomAll typ lgK (coupons hs) ∧ ∃ s, sketchOf F lgK typ hs = .ok s ∧
      Shows s lgK typ (coupons hs) ∧ ∀ a, s = .hll a → a.rebuild = false ∧ a.ooo = false) ∨
    (¬ RoomAll typ lgK (coupons hs) ∧ ∃ e, sketchOf F lgK typ hs = .err e) := by
  rw [sketchOf_eq]
  rcases run_spec (F := F) (typ := typ) h4 h21 (coupons hs) (coupons_valid hs) with
    ⟨h1, s, e1, _⟩ | h
  · obtain ⟨g1, g2, g3, g4⟩ := run_good h4 h21 (coupons_valid hs) e1
    refine Or.inl ⟨h1, s, e1, ?_, fun a ha => ⟨(g4 a ha).2, (g4 a ha).1⟩⟩
    have := g1.shows
    rw [g2, g3] at this
    exact this
  · exact Or.inr h

/-- the 6- and 8-bit types never fail -/
theorem C28_never_fails (F : Fl H) {lgK : Nat} {typ : Typ} (ht : typ ≠ .hll4) (h4 : 4 ≤ lgK)
    (h21 : lgK ≤ 21) (hs : List (Nat × Nat)) :
    ∃ s, sketchOf F lgK typ hs = .ok s ∧ Shows s lgK typ (coupons hs) := by
  rcases C28_registers F typ h4 h21 hs with ⟨_, s, h1, h2, _⟩ | ⟨h1, _⟩
  · exact ⟨s, h1, h2⟩
  · exact absurd (fun p c _ e => absurd e ht) h1

/-- the arithmetic used only for witnesses below -/
def U : Fl Unit := ⟨(), fun _ _ _ _ => (), fun _ => ()⟩

/-- hash with the given coupon address and value -/
def hashFor (addr v : Nat) : Nat × Nat := (addr, 2 ^ (64 - v))

/-- the registers of a sketch -/
def Sk.registers : Sk H → List (Outcome Nat)
  | .hll a => (List.range (2 ^ a.lgK)).map a.value
  | _ => []

example : coupon (hashFor 21 5).1 (hashFor 21 5).2 = 5 * 2 ^ 26 + 21 := by decide +kernel

/-- ten items in a sketch with sixteen slots, promoted at the eighth: slot 5 holds the larger of the
two values sent to addresses 5 and 21 -/
example : (match sketchOf U 4 .hll6 ((List.range 8).map (fun i => hashFor i 2) ++
      [hashFor 21 9, hashFor 5 7]) with
    | .ok s => s.registers
    | _ => []) =
    ([2, 2, 2, 2, 2, 9, 2, 2, 0, 0, 0, 0, 0, 0, 0, 0].map Outcome.ok) := by decide +kernel

/-- The 4-bit type can fail on a legal stream: seven of sixteen registers at least fifteen above
the smallest. -/
theorem C28_hll4_can_fail : ∃ e, sketchOf U 4 .hll4 ((List.range 8).map (fun i => hashFor i 16)) =
    .err e := by
  rcases C28_registers U .hll4 (lgK := 4) (by omega) (by omega)
    ((List.range 8).map (fun i => hashFor i 16)) with ⟨h, _⟩ | ⟨_, h⟩
  · exfalso
    have := h (coupons ((List.range 7).map (fun i => hashFor i 16))) (coupon 7 (2 ^ 48))
      (by decide +kernel)
    revert this
    decide +kernel
  · exact h

/-! ## C29 -/

/-- **C29.** Fed with the same stream, two sketches of the same `lgK` and any two target types are
in the same mode with the same coupon count, the same registers, and the same state of all three
estimators; hence all estimates and bounds, which are functions of these, agree. -/
theorem C29_types_agree (F : Fl H) {lgK : Nat} {t1 t2 : Typ} (h4 : 4 ≤ lgK) (h21 : lgK ≤ 21)
    {hs : List (Nat × Nat)} {s1 s2 : Sk H} (h1 : sketchOf F lgK t1 hs = .ok s1)
    (h2 : sketchOf F lgK t2 hs = .ok s2) :
    (∃ c1 c2 : Coup, ((s1 = .list c1 ∧ s2 = .list c2) ∨ (s1 = .set c1 ∧ s2 = .set c2)) ∧
      c1.count = c2.count) ∨
    (∃ a1 a2 : Arr H, s1 = .hll a1 ∧ s2 = .hll a2 ∧ a1.lgK = a2.lgK ∧
      (∀ j, j < 2 ^ lgK → a1.value j = a2.value j) ∧ a1.hip = a2.hip ∧ a1.kxq0 = a2.kxq0 ∧
      a1.kxq1 = a2.kxq1 ∧ a1.unhit = a2.unhit ∧ a1.ooo = a2.ooo) := by
  rw [sketchOf_eq] at h1 h2
  obtain ⟨g1, l1, _, f1⟩ := run_good h4 h21 (coupons_valid hs) h1
  obtain ⟨g2, l2, _, f2⟩ := run_good h4 h21 (coupons_valid hs) h2
  have r1 := g1.ref
  have r2 := g2.ref
  cases hA : absOf F lgK (coupons hs) with
  | coup D =>
    rw [hA] at r1 r2
    left
    cases s1 with
    | list c1 =>
      cases s2 with
      | list c2 => exact ⟨c1, c2, Or.inl ⟨rfl, rfl⟩, by rw [ListInv.cnt r1, ListInv.cnt r2]⟩
      | set c2 => have := ListInv.lt8 r1; have := r2.2; omega
      | hll a => exact absurd r2 (by simp [Ref])
    | set c1 =>
      cases s2 with
      | list c2 => have := ListInv.lt8 r2; have := r1.2; omega
      | set c2 => exact ⟨c1, c2, Or.inr ⟨rfl, rfl⟩, by rw [r1.1.cnt, r2.1.cnt]⟩
      | hll a => exact absurd r2 (by simp [Ref])
    | hll a => exact absurd r1 (by simp [Ref])
  | hll S =>
    rw [hA] at r1 r2
    right
    cases s1 with
    | list c => exact absurd r1 (by simp [Ref])
    | set c => exact absurd r1 (by simp [Ref])
    | hll a1 =>
      cases s2 with
      | list c => exact absurd r2 (by simp [Ref])
      | set c => exact absurd r2 (by simp [Ref])
      | hll a2 =>
        have r1 : Rep a1 S := r1
        have r2 : Rep a2 S := r2
        have l1 : a1.lgK = lgK := l1
        have l2 : a2.lgK = lgK := l2
        obtain ⟨o1, b1⟩ := f1 a1 rfl
        obtain ⟨o2, b2⟩ := f2 a2 rfl
        refine ⟨a1, a2, rfl, rfl, by rw [l1, l2], ?_, by rw [r1.hip, r2.hip],
          by rw [r1.kxq0, r2.kxq0], by rw [r1.kxq1, r2.kxq1], by rw [r1.unhit b1, r2.unhit b2],
          by rw [o1, o2]⟩
        intro j hj
        rw [r1.value (by rw [l1]; exact hj), r2.value (by rw [l2]; exact hj)]

/-- **C29, conversions.** `CopyAs` to any type succeeds exactly when the exceptions fit (always for
the 6- and 8-bit types); the copy shows the same stream, and keeps the HIP estimate and the
out-of-order flag. -/
theorem C29_copy (F : Fl H) {lgK : Nat} {t1 : Typ} (h4 : 4 ≤ lgK) (h21 : lgK ≤ 21)
    {hs : List (Nat × Nat)} {s : Sk H} (h : sketchOf F lgK t1 hs = .ok s) (t2 : Typ) :
    (CopyRoom t2 lgK (coupons hs) ∧ ∃ s', s.copyAs F t2 = .ok s' ∧ Shows s' lgK t2 (coupons hs) ∧
      ∀ a', s' = .hll a' → a'.rebuild = false ∧ ∃ a, s = .hll a ∧ a'.ooo = a.ooo ∧ a'.hip = a.hip) ∨
    (¬ CopyRoom t2 lgK (coupons hs) ∧ ∃ e, s.copyAs F t2 = .err e) := by
  rw [sketchOf_eq] at h
  obtain ⟨g, l, _, f⟩ := run_good h4 h21 (coupons_valid hs) h
  rcases g.copyAs (F := F) t2 with ⟨r0, s', B, r1, r2, r3, r4, r5⟩ | ⟨r0, e, r1⟩
  · left
    rw [l] at r0 r3
    refine ⟨r0, s', r1, ?_, ?_⟩
    · have := r2.shows
      rw [r3, r4] at this
      exact this
    · intro a' ha'
      obtain ⟨a, ha, q1, q2, q3⟩ := r5 a' ha'
      exact ⟨q3 (f a ha).2, a, ha, q1, q2⟩
  · right
    rw [l] at r0
    exact ⟨r0, e, r1⟩

/-- the same nine items in all three types -/
example : ((([Typ.hll4, .hll6, .hll8].map (fun t =>
    match sketchOf U 4 t ((List.range 9).map (fun i => hashFor (3 * i) (i + 2))) with
    | .ok s => s.registers
    | _ => [])).dedup).length) = 1 := by decide +kernel

/-! ## C30 -/

/-- Inputs of a union: items, given by their hash, and sketches built from streams of items. -/
inductive Input (H : Type) where
  | item (h : Nat × Nat)
  | sketch (s : Sk H) (lgK : Nat) (typ : Typ) (hs : List (Nat × Nat))

def Input.hashes : Input H → List (Nat × Nat)
  | .item h => [h]
  | .sketch _ _ _ hs => hs

/-- Sketches are built with the public operations.  Those with more than a few coupons (register
mode) have the `lgK` of the union; the others may have any. -/
def Input.Ok (F : Fl H) (lgMaxK : Nat) : Input H → Prop
  | .item _ => True
  | .sketch s lgK typ hs => 4 ≤ lgK ∧ lgK ≤ 21 ∧ sketchOf F lgK typ hs = .ok s ∧
      (Keeps lgK (distinct (coupons hs)) ∨ lgK = lgMaxK)

/-- one input into the union -/
def Union.input (F : Fl H) (u : Union H) : Input H → Outcome (Union H)
  | .item h => u.updateHash F h
  | .sketch s _ _ _ => u.updateSketch F s

/-- a fresh union given the inputs in this order -/
def unionOf (F : Fl H) (lgMaxK : Nat) (ins : List (Input H)) : Outcome (Union H) := do
  let u ← newUnion lgMaxK
  ins.foldlM (Union.input F) u

def Input.op : Input H → UOp H
  | .item h => .item (coupon h.1 h.2)
  | .sketch s _ _ hs => .sketch s (coupons hs)

theorem unionOf_eq (F : Fl H) (lgMaxK : Nat) (ins : List (Input H)) :
    unionOf F lgMaxK ins = unionAll F lgMaxK (ins.map Input.op) := by
  unfold unionOf unionAll
  congr 1
  funext u
  rw [List.foldlM_map]
  congr 1
  funext u i
  cases i <;> rfl

theorem Input.op_ok {F : Fl H} {lgMaxK : Nat} {i : Input H} (h : i.Ok F lgMaxK) :
    i.op.Ok lgMaxK := by
  cases i with
  | item h => exact coupon_valid _ _
  | sketch s lgK typ hs =>
    obtain ⟨h4, h21, hs', hk⟩ := h
    rw [sketchOf_eq] at hs'
    obtain ⟨g, l, _, _⟩ := run_good h4 h21 (coupons_valid hs) hs'
    refine ⟨⟨_, g⟩, ?_⟩
    intro a ha
    subst ha
    obtain ⟨S, hS, _⟩ := g.hll_shape
    have l' : a.lgK = lgK := l
    rcases hk with hk | hk
    · have := (g.hll a S rfl hS).2
      rw [l'] at this
      exact absurd hk this
    · rw [l', hk]

theorem ops_stream (ins : List (Input H)) :
    (ins.map Input.op).flatMap UOp.stream = coupons (ins.flatMap Input.hashes) := by
  induction ins with
  | nil => rfl
  | cons i ins ih =>
    rw [List.map_cons, List.flatMap_cons, ih, List.flatMap_cons]
    unfold coupons
    rw [List.map_append]
    cases i <;> rfl

/-- **C30 (partial).** For every sequence of items and sketches, where sketches in register mode
have the `lgK` of the union: the union succeeds, its gadget shows the concatenation of all streams,
and `GetResult` of any type shows it too (with all auxiliary counts recomputed), failing only if the
exceptions of a requested 4-bit result do not fit.

Missing for the full statement: register-mode sketches of another `lgK`.  With a larger one the code
returns an error (`C30_larger_rejected`), with a smaller one the union is wrong
(`C30_smaller_violated`). -/
theorem C30_union_partial (F : Fl H) {lgMaxK : Nat} (h4 : 4 ≤ lgMaxK) (h21 : lgMaxK ≤ 21)
    {ins : List (Input H)} (hin : ∀ i ∈ ins, i.Ok F lgMaxK) (typ : Typ) :
    ∃ u, unionOf F lgMaxK ins = .ok u ∧
      Shows u.gadget lgMaxK .hll8 (coupons (ins.flatMap Input.hashes)) ∧
      ((CopyRoom typ lgMaxK (coupons (ins.flatMap Input.hashes)) ∧
        ∃ u' r, u.getResult F typ = .ok (u', r) ∧
          Shows r lgMaxK typ (coupons (ins.flatMap Input.hashes)) ∧
          Shows u'.gadget lgMaxK .hll8 (coupons (ins.flatMap Input.hashes)) ∧
          ∀ a, r = .hll a → a.rebuild = false) ∨
       (¬ CopyRoom typ lgMaxK (coupons (ins.flatMap Input.hashes)) ∧
        ∃ e, u.getResult F typ = .err e)) := by
  rw [unionOf_eq]
  obtain ⟨u, A, e1, _, e3, e4, e5⟩ := unionAll_spec (F := F) h4 h21 (ins.map Input.op) (by
    intro o ho
    obtain ⟨i, hi, rfl⟩ := List.mem_map.mp ho
    exact Input.op_ok (hin i hi))
  rw [ops_stream] at e5
  refine ⟨u, e1, ?_, ?_⟩
  · have := e5.shows
    rw [e3, e4] at this
    exact this
  · have hres := getResult_spec (F := F) e5 e3 typ
    rw [e4] at hres
    rcases hres with ⟨r0, u', r, A', B, r1, r2, _, r4, r5, r6, r7, r8, r9⟩ | h
    · refine Or.inl ⟨r0, u', r, r1, ?_, ?_, r9⟩
      · have := r6.shows
        rw [r7, r8] at this
        exact this
      · have := r2.shows
        rw [r4, r5] at this
        exact this
    · exact Or.inr h

theorem Shows.congr {s : Sk H} {lgK : Nat} {typ : Typ} {cs ds : List Nat} (h : Shows s lgK typ cs)
    (hm : ∀ x, x ∈ cs ↔ x ∈ ds) : Shows s lgK typ ds := by
  obtain ⟨h1, h2, h3⟩ := h
  refine ⟨h1, h2, ?_⟩
  rw [← distinct_congr hm]
  have hr : ∀ j, regOf lgK ds j = regOf lgK cs j := fun j => (regOf_congr hm j).symm
  simp only [hr]
  rcases h3 with ⟨a, c, b1, b2, b3, b4⟩ | h3
  · exact Or.inl ⟨a, c, b1, b2, b3, fun x => (b4 x).trans (hm x)⟩
  · exact Or.inr h3

/-- **C30, order.** The order of the inputs does not matter: for inputs with the same items, in any
order and split over sketches in any way, the results show the same. -/
theorem C30_order_partial (F : Fl H) {lgMaxK : Nat} (h4 : 4 ≤ lgMaxK) (h21 : lgMaxK ≤ 21)
    {ins ins' : List (Input H)} (hin : ∀ i ∈ ins, i.Ok F lgMaxK) (hin' : ∀ i ∈ ins', i.Ok F lgMaxK)
    (hsame : ∀ h, h ∈ ins.flatMap Input.hashes ↔ h ∈ ins'.flatMap Input.hashes)
    {u u' v v' : Union H} {r r' : Sk H} {typ : Typ} (hu : unionOf F lgMaxK ins = .ok u)
    (hu' : unionOf F lgMaxK ins' = .ok u') (hr : u.getResult F typ = .ok (v, r))
    (hr' : u'.getResult F typ = .ok (v', r')) :
    Shows r lgMaxK typ (coupons (ins.flatMap Input.hashes)) ∧
    Shows r' lgMaxK typ (coupons (ins.flatMap Input.hashes)) := by
  have key : ∀ (i : List (Input H)) (w v : Union H) (q : Sk H), (∀ x ∈ i, x.Ok F lgMaxK) →
      unionOf F lgMaxK i = .ok w → w.getResult F typ = .ok (v, q) →
      Shows q lgMaxK typ (coupons (i.flatMap Input.hashes)) := by
    intro i w v q hi hw hq
    obtain ⟨w', e1, _, e3⟩ := C30_union_partial F h4 h21 hi typ
    rw [hw] at e1
    cases e1
    rcases e3 with ⟨_, _, _, f1, f2, _⟩ | ⟨_, e, f1⟩
    · rw [hq] at f1
      cases f1
      exact f2
    · rw [hq] at f1; cases f1
  refine ⟨key ins u v r hin hu hr, (key ins' u' v' r' hin' hu' hr').congr (fun x => ?_)⟩
  unfold coupons
  simp only [List.mem_map, hsame]

/-- eight items in a sketch of sixteen slots and three in a list of another size -/
example : ∃ s1 s2 : Sk Unit,
    (Input.sketch s1 4 .hll4 ((List.range 8).map (fun i => hashFor i 2))).Ok U 4 ∧
    (Input.sketch s2 9 .hll6 ((List.range 3).map (fun i => hashFor (2 * i) 3))).Ok U 4 := by
  obtain ⟨s2, h2, _⟩ := C28_never_fails U (lgK := 9) (typ := .hll6) (by simp) (by omega) (by omega)
    ((List.range 3).map (fun i => hashFor (2 * i) 3))
  rcases C28_registers U .hll4 (lgK := 4) (by omega) (by omega)
    ((List.range 8).map (fun i => hashFor i 2)) with ⟨_, s1, h1, _⟩ | ⟨_, e, he⟩
  · exact ⟨s1, s2, ⟨by omega, by omega, h1, Or.inr rfl⟩,
      ⟨by omega, by omega, h2, Or.inl (by decide +kernel)⟩⟩
  · exfalso
    have hok : (match sketchOf U 4 .hll4 ((List.range 8).map (fun i => hashFor i 2)) with
      | .ok _ => true | _ => false) = true := by decide +kernel
    rw [he] at hok
    simp at hok

/-- A register-mode source with more slots than a register-mode gadget is rejected. -/
theorem C30_larger_rejected (F : Fl H) (u : Union H) {g a : Arr H} (hg : u.gadget = .hll g)
    (ht : g.typ = .hll8) (hlt : g.lgK < a.lgK) : ∃ e, u.updateSketch F (.hll a) = .err e := by
  have he : u.gadget.isEmpty = false := by rw [hg]; rfl
  have hne : ¬ (u.gadget.isEmpty = true) := by rw [he]; simp
  unfold Union.updateSketch
  rw [if_neg (by rw [hg]; show ¬ g.typ ≠ .hll8; rw [ht]; simp), if_neg (by simp [Sk.isEmpty])]
  simp only
  unfold unionHll
  rw [if_neg hne, hg]
  by_cases h : a.lgK > u.lgMaxK
  · rw [if_pos h]
    simp only [mergeHll]
    rw [if_pos hlt]
    exact ⟨_, rfl⟩
  · rw [if_neg h]
    simp only [mergeHll]
    rw [if_pos hlt]
    exact ⟨_, rfl⟩

/-- What the code does with a register-mode source of fewer slots than the register-mode gadget:
slot `j` of the source is merged into slot `j` of the gadget, although its coupons belong to
several slots. -/
theorem C30_smaller_merges_wrong_slots (F : Fl H) {u : Union H} {A B : AbsSk H} {cs ds : List Nat}
    {g a : Arr H} (hu : Good u.gadget A cs) (hg : u.gadget = .hll g) (ht : g.typ = .hll8)
    (hs : Good (.hll a) B ds) (hmax : a.lgK ≤ u.lgMaxK) (hlt : a.lgK < g.lgK) :
    ∃ u' g', u.updateSketch F (.hll a) = .ok u' ∧ u'.gadget = .hll g' ∧ g'.lgK = g.lgK ∧
      ∀ j, j < 2 ^ g.lgK → g'.value j = .ok
        (if j < 2 ^ a.lgK then max (regOf a.lgK ds j) (regOf g.lgK cs j) else regOf g.lgK cs j) := by
  rw [hg] at hu
  obtain ⟨T, rfl, hT⟩ := hu.hll_shape
  obtain ⟨S, rfl, hS⟩ := hs.hll_shape
  obtain ⟨Q, t', f1, f2, f3, f4, f5, f6⟩ := mergeHll_spec (F := F) hS hT ht (by omega)
  have hne : ¬ (u.gadget.isEmpty = true) := by rw [hg]; simp [Sk.isEmpty]
  have hTR : T.R = regsOf g.lgK cs := hu.of
  have hSR : S.R = regsOf a.lgK ds := hs.of
  refine ⟨{ u with gadget := .hll (t'.putOoo F true) }, t'.putOoo F true, ?_, rfl, f4, ?_⟩
  · unfold Union.updateSketch
    rw [if_neg (by rw [hg]; show ¬ g.typ ≠ .hll8; rw [ht]; simp), if_neg (by simp [Sk.isEmpty])]
    simp only
    unfold unionHll
    rw [if_neg hne, hg, if_neg (show ¬ a.lgK > u.lgMaxK by omega)]
    simp only [Nat.zero_add]
    rw [f1]
    rfl
  · intro j hj
    have hl : (t'.putOoo F true).lgK = g.lgK := f4
    rw [f3.value (by rw [hl]; exact hj)]
    simp only
    rw [f2.2 j, hTR, hSR, regsOf_getD _ hj]
    by_cases hja : j < 2 ^ a.lgK
    · rw [if_pos hja, if_pos hja, regsOf_getD _ hja]
    · rw [if_neg hja, if_neg hja]

/-- items of the gadget and of the source for the witness -/
def gadgetItems : List (Nat × Nat) := (List.range 8).map (fun i => hashFor (i + 8) 1)
def sourceItems : List (Nat × Nat) := hashFor 19 5 :: (List.range 7).map (fun i => hashFor (i + 8) 1)

/-- **C30 is violated** for a register-mode source of smaller `lgK`: a union of 32 slots gets eight
items directly and then a sketch of 16 slots with an item of address 19.  Slot 3 of the union holds
that item's value although no item has an address that is 3 modulo 32. -/
theorem C30_smaller_violated :
    (do let src ← sketchOf U 4 .hll8 sourceItems
        let u ← newUnion 5
        let u ← gadgetItems.foldlM (fun u h => u.updateHash U h) u
        let u ← u.updateSketch U src
        let (_, r) ← u.getResult U .hll8
        .ok (r.lgK, r.registers[3]?) : Outcome (Nat × Option (Outcome Nat))) =
      .ok (5, some (.ok 5)) ∧
    regOf 5 (coupons (gadgetItems ++ sourceItems)) 3 = 0 ∧
    regOf 5 (coupons (gadgetItems ++ sourceItems)) 19 = 5 := by
  decide +kernel

/-- **Stale estimates.** After merging two register-mode sketches the union's own estimate methods
(hll/union.go l.127-133: they use the gadget as it is) work with the old sum: it is not the sum over
the registers the union holds. -/
theorem C30_estimate_stale :
    (do let s1 ← sketchOf U 4 .hll8 ((List.range 8).map (fun i => hashFor i 1))
        let s2 ← sketchOf U 4 .hll8 ((List.range 8).map (fun i => hashFor (i + 8) 1))
        let u ← newUnion 4
        let u ← u.updateSketch U s1
        let u ← u.updateSketch U s2
        match u.gadget with
        | .hll a => .ok (a.kxq0 + a.kxq1, a.unhit, u.gadget.registers.dedup)
        | _ => .panic : Outcome (Int × Int × List (Outcome Nat))) =
      .ok (8 * 2 ^ 63 + 8 * 2 ^ 62, 8, [.ok 1]) := by
  decide +kernel

/-! ## C31 -/

/-- **C31, four bits.** -/
theorem C31_nibble {bytes : List Nat} {j v : Nat} (h : j / 2 < bytes.length) (hv : v < 16) :
    ∃ b', putNibble bytes j v = .ok b' ∧ b'.length = bytes.length ∧
      getNibble b' j = .ok v ∧ ∀ i, i ≠ j → getNibble b' i = getNibble bytes i := by
  obtain ⟨b', h1, h2, _, h4⟩ := putNibble_spec h hv
  exact ⟨b', h1, h2, by rw [h4 j, if_pos rfl], fun i hi => by rw [h4 i, if_neg hi]⟩

/-- **C31, six bits.** The array has one spare byte, so that the two-byte access stays inside. -/
theorem C31_six_bits {arr : List Nat} {j v : Nat} (h : j * 6 / 8 + 1 < arr.length) (hv : v < 64) :
    ∃ b', put6Bit arr j v = .ok b' ∧ b'.length = arr.length ∧
      get6Bit b' j = .ok v ∧ ∀ i, i ≠ j → get6Bit b' i = get6Bit arr i := by
  obtain ⟨b', h1, h2, _, h4⟩ := put6Bit_spec h hv
  exact ⟨b', h1, h2, by rw [h4 j, if_pos rfl], fun i hi => by rw [h4 i, if_neg hi]⟩

/-- every slot of the array the sketch allocates is in range -/
theorem C31_six_bits_in_range {lgK j : Nat} (h4 : 4 ≤ lgK) (hj : j < 2 ^ lgK) :
    j * 6 / 8 + 1 < (List.replicate (arrBytes lgK .hll6) 0).length := by
  rw [List.length_replicate]; exact six_idx h4 hj

example : (5 * 6 / 8 + 1 < (List.replicate 13 0).length) ∧
    (put6Bit (List.replicate 13 0xff) 5 9 >>= fun b => get6Bit b 5) = .ok 9 := by decide

example : (5 / 2 < [0x12, 0x34, 0x56].length) ∧ (9 < 16) ∧
    putNibble [0x12, 0x34, 0x56] 5 9 = .ok [0x12, 0x34, 0x96] := by decide

end Verif.Hll
