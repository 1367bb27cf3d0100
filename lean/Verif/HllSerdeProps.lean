import Verif.HllSerdeUnion

/-!
# Properties C83 - C85: HLL serialization

* C83: what is written can be read back, and the copy behaves like the original; sizes.
* C84: what happens to the slice a sketch was read from.
* C85: images that were not written by a sketch.
-/

namespace Verif.Hll

variable {H : Type}

/-! ## C83 -/

/-- more items into a sketch -/
def Sk.feed (F : Fl H) (s : Sk H) (hs : List (Nat × Nat)) : Outcome (Sk H) :=
  hs.foldlM (fun s h => s.updateHash F h) s

theorem feed_eq (F : Fl H) (s : Sk H) (hs : List (Nat × Nat)) :
    s.feed F hs = (coupons hs).foldlM (Sk.update F) s := by
  unfold Sk.feed coupons
  rw [List.foldlM_map]
  rfl

/-- both succeed and are alike, or both fail -/
def BothAlike (x y : Outcome (Sk H)) : Prop :=
  (∃ s s', x = .ok s ∧ y = .ok s' ∧ Alike s s') ∨ (∃ e e', x = .err e ∧ y = .err e')

/-- **C83, sketches.** A sketch of any `lgK` and type, fed with any stream: `ToCompactSlice` and
`ToUpdatableSlice` succeed; `NewHllSketchFromSlice` accepts the bytes, with and without
`checkRebuild`; the sketch read back is alike; and after any further items both are alike again, or
both report an error. -/
theorem C83_round_trip (F : Fl H) {B : Bits H} (hB : B.Lawful) {lgK : Nat} {typ : Typ} (h4 : 4 ≤ lgK)
    (h21 : lgK ≤ 21) {hs : List (Nat × Nat)} {s : Sk H} (h : sketchOf F lgK typ hs = .ok s)
    (compact check : Bool) :
    ∃ b s', s.toSlice B compact = .ok b ∧ (∀ x ∈ b, x < 256) ∧ fromSlice F B b check = .ok s' ∧
      Alike s s' ∧ ∀ more, BothAlike (s.feed F more) (s'.feed F more) := by
  rw [sketchOf_eq] at h
  have hr := run_ok h4 h21 (coupons_valid hs) h
  obtain ⟨b, s', e1, e2, e3, e4, e5⟩ := sk_round (F := F) hr.ref (hr.written hB) compact check
    (fun _ => hr.rebuild)
  have hf := e5.flags hr.rebuild
  refine ⟨b, s', e1, e2, e3, hr.ref.alike e4 hf, fun more => ?_⟩
  rw [feed_eq, feed_eq]
  rcases hr.ref.together (F := F) e4 hf (coupons more) (coupons_valid more) with
    ⟨t, t', A', q1, q2, q3, q4, q5⟩ | ⟨e, e', q1, q2⟩
  · exact Or.inl ⟨t, t', q1, q2, q3.alike q4 q5⟩
  · exact Or.inr ⟨e, e', q1, q2⟩

/-- bytes of the packed registers -/
def packedSize (lgK : Nat) : Typ → Nat
  | .hll4 => 2 ^ lgK / 2
  | .hll6 => 2 ^ lgK * 3 / 4 + 1
  | .hll8 => 2 ^ lgK

/-- number of registers fifteen or more above the lowest one -/
def exceptions (lgK : Nat) (cs : List Nat) : Nat :=
  (regsOf lgK cs).countP (fun v => decide (lowest (regsOf lgK cs) + 15 ≤ v))

/-- the size of a compact image -/
def compactSize (lgK : Nat) (typ : Typ) (cs : List Nat) : Nat :=
  if Keeps lgK (distinct cs) then (if distinct cs < 8 then 8 else 12) + 4 * distinct cs
  else 40 + packedSize lgK typ + (if typ = .hll4 then 4 * exceptions lgK cs else 0)

theorem arrBytes_eq {lgK : Nat} (h4 : 4 ≤ lgK) (typ : Typ) : arrBytes lgK typ = packedSize lgK typ := by
  cases typ with
  | hll4 =>
    have : 2 ^ lgK = 2 * 2 ^ (lgK - 1) := by rw [← pow_succ']; congr 1; omega
    unfold arrBytes packedSize
    simp only
    omega
  | hll6 =>
    unfold arrBytes packedSize
    simp only [Nat.shiftRight_eq_div_pow]
  | hll8 => rfl

/-- **C83, sizes.** The updatable image has exactly `GetUpdatableSerializationBytes` bytes, the compact
one the size that the number of coupons, or the number of exceptions, determines. -/
theorem C83_sizes (F : Fl H) {B : Bits H} (hB : B.Lawful) {lgK : Nat} {typ : Typ} (h4 : 4 ≤ lgK)
    (h21 : lgK ≤ 21) {hs : List (Nat × Nat)} {s : Sk H} (h : sketchOf F lgK typ hs = .ok s) :
    (∃ b, s.toSlice B false = .ok b ∧ s.updatableBytes = .ok b.length) ∧
    (∃ b, s.toSlice B true = .ok b ∧ b.length = compactSize lgK typ (coupons hs)) := by
  rw [sketchOf_eq] at h
  have hr := run_ok h4 h21 (coupons_valid hs) h
  obtain ⟨g, l, t, _⟩ := run_good h4 h21 (coupons_valid hs) h
  have href := hr.ref
  have hm := absOf_mode F lgK (coupons hs)
  have hof := absOf_of F lgK (coupons hs)
  have hw := hr.written hB
  unfold compactSize
  cases hA : absOf F lgK (coupons hs) with
  | coup D =>
    rw [hA] at href hm
    simp only at hm
    rw [if_pos hm.2, ← hm.1]
    cases s with
    | hll a => exact absurd href (by simp [Ref])
    | list c =>
      have hi : ListInv c D := href
      have h8 := hi.lt8
      obtain ⟨r, e1, _, _, e2⟩ := list_slice hi false
      obtain ⟨r', e1', _, e2', _⟩ := list_slice hi true
      refine ⟨⟨_, e1, ?_⟩, ⟨_, e1', ?_⟩⟩
      · simp only [Sk.updatableBytes, List.length_append, preamble_length, ints_length, e2 rfl,
          hi.lg3, Nat.shiftLeft_eq]
        congr 1
        omega
      · simp only [List.length_append, preamble_length, ints_length, e2' rfl, List.length_nil]
        rw [if_pos h8]
        omega
    | set c =>
      obtain ⟨hi, h8⟩ : SetInv c D ∧ 8 ≤ D.length := href
      refine ⟨⟨_, set_slice hi false, ?_⟩, ⟨_, set_slice hi true, ?_⟩⟩
      · simp only [Sk.updatableBytes, List.length_append, preamble_length, ints_length, toLE_length,
          setInts, Nat.shiftLeft_eq, Bool.false_eq_true, if_false, hi.arr_length]
        congr 1
        omega
      · simp only [List.length_append, preamble_length, ints_length, toLE_length, setInts, if_true,
          (set_items hi).length_eq]
        rw [if_neg (by omega)]
        omega
  | hll S =>
    rw [hA] at href hm hof
    simp only at hm
    rw [if_neg hm.1]
    cases s with
    | list c => exact absurd href (by simp [Ref])
    | set c => exact absurd href (by simp [Ref])
    | hll a =>
      have hrep : Rep a S := href
      have hl : a.lgK = lgK := l
      have ht : a.typ = typ := t
      have hR : S.R = regsOf lgK (coupons hs) := hof
      have hbytes : a.bytes.length = packedSize lgK typ := by
        rw [hrep.bytes_length, hl, ht, arrBytes_eq h4]
      constructor
      · obtain ⟨cnt, lg, xs, a', e1, _, e3, _⟩ := arr_round (F := F) hrep (hw a rfl) false (by simp)
        refine ⟨_, e1, ?_⟩
        rw [hllImage_length]
        show (match a.typ with | .hll4 => _ | _ => _ : Outcome Nat) = _
        unfold auxLen at e3
        cases htt : a.typ with
        | hll4 =>
          rw [htt] at e3
          cases hx : a.aux with
          | none =>
            rw [hx] at e3
            simp only at e3 ⊢
            cases hlg : lgAuxTable[a.lgK]? with
            | none => rw [hlg] at e3; cases e3
            | some q =>
              rw [hlg] at e3
              injection e3 with e3
              simp only [Nat.shiftLeft_eq, ← e3]
          | some m =>
            rw [hx] at e3
            simp only at e3 ⊢
            injection e3 with e3
            rw [Nat.shiftLeft_eq, ← e3]
        | hll6 =>
          rw [htt] at e3
          simp only at e3 ⊢
          injection e3 with e3
          rw [← e3]; rfl
        | hll8 =>
          rw [htt] at e3
          simp only at e3 ⊢
          injection e3 with e3
          rw [← e3]; rfl
      · obtain ⟨cnt, lg, xs, a', e1, _, e3, _⟩ := arr_round (F := F) hrep (hw a rfl)
          (true && a.typ == .hll4) (by
            intro hh
            rw [Bool.and_eq_true, beq_iff_eq] at hh
            exact hh.2)
        refine ⟨_, e1, ?_⟩
        rw [hllImage_length, hbytes]
        congr 1
        unfold auxLen at e3
        have hb := hrep.body
        unfold Body at hb
        by_cases h4t : typ = .hll4
        · rw [if_pos h4t]
          rw [ht, h4t] at e3 hb
          obtain ⟨hc, hn⟩ := hb
          have hlow := (hc.lowest hn).1
          have hexc : exceptions lgK (coupons hs) = (excs S.R a.curMin).length := by
            unfold exceptions
            rw [length_excs, ← hR, hlow]
          rw [hexc]
          have haux := hc.aux
          cases hx : a.aux with
          | none =>
            rw [hx] at e3 haux
            have hnil : excs S.R a.curMin = [] := haux
            rw [hnil]
            injection e3 with e3
            rw [← e3]; rfl
          | some m =>
            rw [hx] at e3 haux
            have hinv : AuxInv m a.lgK (excs S.R a.curMin) := haux
            injection e3 with e3
            rw [← e3, hinv.cnt]
        · rw [if_neg h4t]
          rw [ht] at e3
          cases typ with
          | hll4 => exact absurd rfl h4t
          | hll6 => injection e3 with e3; exact e3.symm
          | hll8 => injection e3 with e3; exact e3.symm

/-- **C83, unions.** A union of any items and sketches (those in register mode with the union's `lgK`):
`ToCompactSlice` and `ToUpdatableSlice` succeed, and `NewUnionFromSlice` reads a union with the same
`lgK` whose gadget is alike, now and after any further items.  The hypothesis `hk` says that the two
accumulators of the gadget are float64 values. -/
theorem C83_union (F : Fl H) {B : Bits H} (hB : B.Lawful) {lgMaxK : Nat} (h4 : 4 ≤ lgMaxK)
    (h21 : lgMaxK ≤ 21) {ins : List (Input H)} (hin : ∀ i ∈ ins, i.Ok F lgMaxK) {u : Union H}
    (hu : unionOf F lgMaxK ins = .ok u)
    (hk : ∀ a, checkRebuild u.gadget = .ok (.hll a) → B.Keeps a.kxq0 ∧ B.Keeps a.kxq1)
    (compact : Bool) :
    ∃ u1 b u2, u.toSlice B compact = .ok (u1, b) ∧ (∀ x ∈ b, x < 256) ∧
      unionFromSlice F B b = .ok u2 ∧ u1.lgMaxK = lgMaxK ∧ u2.lgMaxK = lgMaxK ∧
      Shows u1.gadget lgMaxK .hll8 (coupons (ins.flatMap Input.hashes)) ∧
      Alike u1.gadget u2.gadget ∧
      ∀ more, BothAlike (u1.gadget.feed F more) (u2.gadget.feed F more) := by
  have hz := unionOf_z8 hin hu
  rw [unionOf_eq] at hu
  obtain ⟨u', A, e1, e2, e3, e4, e5⟩ := unionAll_spec (F := F) h4 h21 (ins.map Input.op) (by
    intro o ho
    obtain ⟨i, hi, rfl⟩ := List.mem_map.mp ho
    exact Input.op_ok (hin i hi))
  rw [hu] at e1
  cases e1
  rw [ops_stream] at e5
  obtain ⟨g, A', r1, r2, r3, r4, r5⟩ := checkRebuild_spec e5 e3
  have hrb : ∀ a, g = .hll a → a.rebuild = false := fun a ha => (r5 a ha).1
  have hw : SkWritten B g := by
    intro a ha
    subst ha
    obtain ⟨k0, k1⟩ := hk a r1
    obtain ⟨S, rfl, hrep⟩ := r2.hll_shape
    have hrb := hrb a rfl
    have hp : (2 : Nat) ^ a.lgK ≤ 2 ^ 21 := Nat.pow_le_pow_right (by omega) hrep.h21
    have hnums : 0 ≤ a.num ∧ a.num < 2 ^ 32 ∧ a.curMin < 256 := by
      cases hg : u.gadget with
      | list c => rw [hg] at r1; cases r1
      | set c => rw [hg] at r1; cases r1
      | hll x =>
        rw [hg] at r1 e5
        unfold checkRebuild at r1
        simp only at r1
        by_cases hc : x.rebuild = true ∧ x.typ = .hll8
        · rw [if_pos hc] at r1
          obtain ⟨T, rfl, hrepx⟩ := e5.hll_shape
          obtain ⟨q0, q1, q2, _⟩ := rebuild_fold hrepx
          rw [q2, Outcome.ok_bind] at r1
          injection r1 with r1
          injection r1 with r1
          rw [← r1]
          have hpos : 0 < T.R.length := by rw [hrepx.len]; exact Nat.two_pow_pos _
          have h63 := hrepx.le63 _ (lowest_mem hpos hrepx.le63)
          have hcnt := List.count_le_length (a := lowest T.R) (l := T.R)
          have hlen := hrepx.len
          have hxl : x.lgK = a.lgK := by rw [← r1]
          rw [hxl] at hlen
          simp only
          omega
        · rw [if_neg hc] at r1
          injection r1 with r1
          injection r1 with r1
          subst r1
          exact hrep.nums hrb (fun _ => hz.2 _ hg)
    exact ⟨hnums.1, hnums.2.1, hnums.2.2, hB.hip _, k0, k1⟩
  obtain ⟨b, u2, q1, q2, q3, q4, q5, q6⟩ := union_round (F := F) r2.ref r4 hrb hw compact
  refine ⟨{ u with gadget := g }, b, u2, ?_, q2, q3, e2, ?_, ?_, r2.ref.alike q5 q6, fun more => ?_⟩
  · unfold Union.toSlice
    rw [r1, Outcome.ok_bind, q1, Outcome.ok_bind]
  · rw [q4, r3, e4]
  · have := r2.shows
    rw [r3, e4, r4] at this
    exact this
  · rw [feed_eq, feed_eq]
    rcases r2.ref.together (F := F) q5 q6 (coupons more) (coupons_valid more) with
      ⟨t, t', A', q1, q2, q3, q4, q5⟩ | ⟨e, e', q1, q2⟩
    · exact Or.inl ⟨t, t', q1, q2, q3.alike q4 q5⟩
    · exact Or.inr ⟨e, e', q1, q2⟩

/-! ### Non-vacuity -/

/-- nine items, one of them with a large value -/
def nineItems : List (Nat × Nat) := hashFor 20 40 :: (List.range 8).map (fun i => hashFor i (i + 2))

/-- the conclusion of the round trip, computed: mode, size and registers of the copy -/
def tripOf (lgK : Nat) (typ : Typ) (hs : List (Nat × Nat)) (compact : Bool) :
    Option (Nat × List (Outcome Nat)) :=
  match sketchOf U lgK typ hs with
  | .ok s =>
    match s.toSlice sampleBits compact with
    | .ok b =>
      match fromSlice U sampleBits b true with
      | .ok s' => some (b.length, s'.registers)
      | _ => none
    | _ => none
  | _ => none

/-- a 4-bit sketch with one exception (slot 4): 40 + 8 + 4 bytes -/
example : tripOf 4 .hll4 nineItems true = some (52,
    [2, 3, 4, 5, 40, 7, 8, 9, 0, 0, 0, 0, 0, 0, 0, 0].map Outcome.ok) := by decide +kernel

example : tripOf 4 .hll6 nineItems false = some (53,
    [2, 3, 4, 5, 40, 7, 8, 9, 0, 0, 0, 0, 0, 0, 0, 0].map Outcome.ok) := by decide +kernel

example : tripOf 10 .hll8 nineItems true = some (12 + 4 * 9, []) := by decide +kernel

/-- the theorem applies to these sketches -/
example : ∃ s, sketchOf U 4 .hll4 nineItems = .ok s ∧ ∃ b s', s.toSlice sampleBits true = .ok b ∧
    fromSlice U sampleBits b true = .ok s' ∧ Alike s s' := by
  rcases C28_registers U .hll4 (lgK := 4) (by omega) (by omega) nineItems with ⟨_, s, h, _⟩ | ⟨_, h⟩
  · obtain ⟨b, s', e1, _, e3, e4, _⟩ := C83_round_trip U sampleBits_lawful (by omega) (by omega) h true true
    exact ⟨s, h, b, s', e1, e3, e4⟩
  · obtain ⟨e, he⟩ := h
    exfalso
    have : (match sketchOf U 4 .hll4 nineItems with | .err _ => true | _ => false) = false := by
      decide +kernel
    rw [he] at this
    cases this

/-- the accumulators of a union of an 8-bit and a 4-bit sketch (a rebuild is pending) satisfy `hk` -/
example : (match sketchOf U 4 .hll8 ((List.range 9).map (fun i => hashFor i (i + 2))),
      sketchOf U 4 .hll4 ((List.range 9).map (fun i => hashFor (i + 3) 5)) with
    | .ok s, .ok t =>
      match unionOf U 4 [.sketch s 4 .hll8 [], .sketch t 4 .hll4 []] with
      | .ok u =>
        match u.gadget, checkRebuild u.gadget with
        | .hll g, .ok (.hll a) => g.rebuild && decide (a.kxq1 = 0 ∧
            sampleBits.kOf (sampleBits.kTo a.kxq0) = a.kxq0 ∧ sampleBits.kTo a.kxq0 < 256 ^ 8 ∧
            sampleBits.kOf (sampleBits.kTo 0) = 0)
        | _, _ => false
      | _ => false
    | _, _ => false) = true := by decide +kernel

/-! ## C84 -/

theorem value_onSlice {a a' : Arr H} (ht : a.typ ≠ .hll4) (h1 : a'.typ = a.typ)
    (h2 : a'.bytes = a.bytes) (j : Nat) : a'.value j = a.value j := by
  unfold Arr.value
  rw [h1, h2]
  cases h : a.typ with
  | hll4 => exact absurd h ht
  | hll6 => rfl
  | hll8 => rfl

/-- an array read from an image is a view of that image -/
theorem onSlice_read {pre post : List Nat} {a : Arr H} (hp : pre.length = 40)
    (hb : a.bytes.length = arrBytes a.lgK a.typ) : a.onSlice (pre ++ a.bytes ++ post) = a := by
  unfold Arr.onSlice
  have : ((pre ++ a.bytes ++ post).drop 40).take (arrBytes a.lgK a.typ) = a.bytes := by
    rw [List.append_assoc, ← hp, List.drop_left, ← hb, List.take_left]
  rw [this]

/-- one update through the slice -/
theorem sharedUpdate_ok {F : Fl H} {pre post : List Nat} {a a' : Arr H} {c : Nat}
    (hp : pre.length = 40) (hb : a.bytes.length = arrBytes a.lgK a.typ)
    (hb' : a'.bytes.length = a.bytes.length) (h : a.couponUpdate F c = .ok a') :
    sharedUpdate F (pre ++ a.bytes ++ post) a c = .ok (pre ++ a'.bytes ++ post, a') := by
  unfold sharedUpdate
  rw [onSlice_read hp hb, h, Outcome.ok_bind]
  congr 2
  have h1 : (pre ++ a.bytes ++ post).take 40 = pre := by
    rw [List.append_assoc, ← hp, List.take_left]
  have h2 : (pre ++ a.bytes ++ post).drop (40 + a'.bytes.length) = post := by
    rw [hb', ← hp, ← List.length_append, List.drop_left]
  rw [h1, h2]

/-- **C84 is violated.** The doc comment of `NewHllSketchFromSlice` says the slice is not modified and
not retained.  Take any sketch of the 6- or 8-bit type in register mode, its image `b`, and the sketch
read from `b`.  Any item that raises a register changes the caller's slice, and every other sketch that
was read from the slice then shows the raised register although it was given no item. -/
theorem C84_slice_retained (F : Fl H) {B : Bits H} (hB : B.Lawful) {lgK : Nat} {typ : Typ}
    (ht : typ ≠ .hll4) (h4 : 4 ≤ lgK) (h21 : lgK ≤ 21) {hs : List (Nat × Nat)} {s : Sk H}
    (h : sketchOf F lgK typ hs = .ok s) (hn : ¬ Keeps lgK (distinct (coupons hs))) (x : Nat × Nat)
    (hx : regOf lgK (coupons hs) (coupon x.1 x.2 % 2 ^ lgK) < coupon x.1 x.2 / 2 ^ 26) :
    ∃ b a b' a', s.toSlice B false = .ok b ∧ fromSlice F B b true = .ok (.hll a) ∧
      sharedUpdate F b a (coupon x.1 x.2) = .ok (b', a') ∧ b' ≠ b ∧
      a.value (coupon x.1 x.2 % 2 ^ lgK) = .ok (regOf lgK (coupons hs) (coupon x.1 x.2 % 2 ^ lgK)) ∧
      (a.onSlice b').value (coupon x.1 x.2 % 2 ^ lgK) = .ok (coupon x.1 x.2 / 2 ^ 26) := by
  rw [sketchOf_eq] at h
  have hr := run_ok h4 h21 (coupons_valid hs) h
  obtain ⟨g, l, t, _⟩ := run_good h4 h21 (coupons_valid hs) h
  have href := hr.ref
  have hm := absOf_mode F lgK (coupons hs)
  have hof := absOf_of F lgK (coupons hs)
  have hw := hr.written hB
  obtain ⟨b, s', e1, _, e3, e4, e5⟩ := sk_round (F := F) href hw false true (fun _ => hr.rebuild)
  cases hA : absOf F lgK (coupons hs) with
  | coup D => rw [hA] at hm; exact absurd hm.2 hn
  | hll S =>
    rw [hA] at href hof e4
    cases s with
    | list c => exact absurd href (by simp [Ref])
    | set c => exact absurd href (by simp [Ref])
    | hll a0 =>
      cases s' with
      | list c => exact absurd e4 (by simp [Ref])
      | set c => exact absurd e4 (by simp [Ref])
      | hll a =>
        have hrep0 : Rep a0 S := href
        have hrep : Rep a S := e4
        have hsn : a = { a0 with aux := a.aux } := e5
        have hl : a.lgK = lgK := by rw [hsn]; exact l
        have hty : a.typ = typ := by rw [hsn]; exact t
        have hR : S.R = regsOf lgK (coupons hs) := hof
        have hbytes : a.bytes = a0.bytes := by rw [hsn]
        have hbl := hrep.bytes_length
        -- the image
        obtain ⟨cnt, lg, xs, _, i1, _⟩ := arr_round (F := F) hrep0 (hw a0 rfl) false (by simp)
        have e1' : arrSlice B a0 false = .ok b := e1
        rw [i1] at e1'
        injection e1' with e1'
        rw [hllImage_head, ← hbytes, ← List.append_assoc] at e1'
        have hpl := hllHead_length B a0 (flagsOf false false a0.ooo a0.rebuild) cnt lg
        generalize hllHead B a0 (flagsOf false false a0.ooo a0.rebuild) cnt lg = pre at e1' hpl
        -- the update
        have hvc := coupon_valid x.1 x.2
        have hj : coupon x.1 x.2 % 2 ^ lgK < 2 ^ lgK := Nat.mod_lt _ (Nat.two_pow_pos _)
        generalize coupon x.1 x.2 = c at *
        rcases hrep.couponUpdate (F := F) hvc.2 with ⟨_, a', u1, u2, u3⟩ | ⟨u1, _⟩
        · have hl' : a'.lgK = lgK := u3.1.trans hl
          have hty' : a'.typ = typ := u3.2.1.trans hty
          have hbl' : a'.bytes.length = a.bytes.length := by
            rw [u2.bytes_length, hbl, hl', hl, hty', hty]
          have hsh := sharedUpdate_ok (post := xs) hpl hbl hbl' u1
          have hv : a.value (c % 2 ^ lgK) = .ok (regOf lgK (coupons hs) (c % 2 ^ lgK)) := by
            rw [hrep.value (by rw [hl]; exact hj), hR, regsOf_getD _ hj]
          have hv' : a'.value (c % 2 ^ lgK) = .ok (c / 2 ^ 26) := by
            rw [u2.value (by rw [hl']; exact hj)]
            have hlen : S.R.length = 2 ^ lgK := by rw [hrep.len, hl]
            have hget : S.R.getD (c % 2 ^ lgK) 0 < c / 2 ^ 26 := by
              rw [hR, regsOf_getD _ hj]; exact hx
            unfold Regs.step
            rw [hl, if_pos hget]
            simp only
            rw [getD_set (by rw [hlen]; exact hj), if_pos rfl]
          have hview : (a.onSlice (pre ++ a'.bytes ++ xs)).bytes = a'.bytes := by
            show ((pre ++ a'.bytes ++ xs).drop 40).take (arrBytes a.lgK a.typ) = a'.bytes
            rw [List.append_assoc, ← hpl, List.drop_left, ← hbl, ← hbl', List.take_left]
          have hval : (a.onSlice (pre ++ a'.bytes ++ xs)).value (c % 2 ^ lgK) = .ok (c / 2 ^ 26) := by
            rw [← hv']
            exact value_onSlice (by rw [hty']; exact ht) (by rw [hty']; exact hty) hview _
          rw [← e1'] at e3 e1
          refine ⟨_, a, pre ++ a'.bytes ++ xs, a', e1, e3, hsh, ?_, hv, hval⟩
          intro heq
          rw [heq, onSlice_read hpl hbl, hv] at hval
          injection hval with hval
          omega
        · exact absurd (fun hh => absurd (hty.symm.trans hh) ht) u1

/-- one coupon after the other through the slice -/
def sharedFeed (F : Fl H) (st : List Nat × Arr H) (cs : List Nat) : Outcome (List Nat × Arr H) :=
  cs.foldlM (fun st c => sharedUpdate F st.1 st.2 c) st

/-- **C84, what holds.** As long as only one sketch uses the slice and nobody else writes to it, the
sketch behaves as if it had its own copy, and only the bytes of the registers change: not the header
and not the exceptions. -/
theorem C84_sole_user_partial (F : Fl H) {a : Arr H} {S : Regs H} (h : Rep a S)
    {pre post : List Nat} (hp : pre.length = 40) (hs : List (Nat × Nat)) :
    (∃ a', (coupons hs).foldlM (Arr.couponUpdate F) a = .ok a' ∧
      sharedFeed F (pre ++ a.bytes ++ post, a) (coupons hs) = .ok (pre ++ a'.bytes ++ post, a') ∧
      a'.bytes.length = a.bytes.length) ∨
    (∃ e, (coupons hs).foldlM (Arr.couponUpdate F) a = .err e ∧
      ∃ e', sharedFeed F (pre ++ a.bytes ++ post, a) (coupons hs) = .err e') := by
  have hv := coupons_valid hs
  generalize coupons hs = cs at *
  unfold sharedFeed
  induction cs generalizing a S with
  | nil => exact Or.inl ⟨a, rfl, rfl, rfl⟩
  | cons c cs ih =>
    rw [List.foldlM_cons, List.foldlM_cons]
    simp only
    have hc := hv c (by simp)
    rcases h.couponUpdate (F := F) hc.2 with ⟨_, a', u1, u2, u3⟩ | ⟨_, e, u1⟩
    · have hbl' : a'.bytes.length = a.bytes.length := by
        rw [u2.bytes_length, h.bytes_length, u3.1, u3.2.1]
      rw [u1, Outcome.ok_bind, sharedUpdate_ok hp h.bytes_length hbl' u1, Outcome.ok_bind]
      rcases ih u2 (fun x hx => hv x (List.mem_cons_of_mem _ hx)) with ⟨a2, q1, q2, q3⟩ | q
      · exact Or.inl ⟨a2, q1, q2, q3.trans hbl'⟩
      · exact Or.inr q
    · refine Or.inr ⟨e, by rw [u1]; rfl, e, ?_⟩
      unfold sharedUpdate
      rw [onSlice_read hp h.bytes_length, u1]
      rfl

/-- An eleventh item into the first of two sketches read from one slice: the second, which got
nothing, shows value 9 in slot 5, too. -/
example : (match sketchOf U 4 .hll8 ((List.range 10).map (fun i => hashFor i 2)) with
    | .ok s =>
      match s.toSlice sampleBits false with
      | .ok b =>
        match fromSlice U sampleBits b true with
        | .ok (.hll a) =>
          match sharedUpdate U b a (coupon (hashFor 5 9).1 (hashFor 5 9).2) with
          | .ok (b', _) => some (a.value 5, (a.onSlice b').value 5, decide (b' = b))
          | _ => none
        | _ => none
      | _ => none
    | _ => none) = some (.ok 2, .ok 9, false) := by decide +kernel

/-! ## C85 -/

/-- the header an image must have: eight bytes, family 7, version 1, a preamble length that fits the
mode and is present -/
def Header (data : List Nat) : Prop :=
  8 ≤ data.length ∧ data.getD 2 0 = 7 ∧ data.getD 1 0 = 1 ∧ 4 * (data.getD 0 0 % 64) ≤ data.length ∧
  (data.getD 0 0 % 64 = 2 ∨ data.getD 0 0 % 64 = 3 ∨ data.getD 0 0 % 64 = 10) ∧
  (data.getD 7 0 % 4 = 0 → data.getD 0 0 % 64 = 2) ∧ (data.getD 7 0 % 4 = 1 → data.getD 0 0 % 64 = 3) ∧
  (data.getD 7 0 % 4 = 2 → data.getD 0 0 % 64 = 10)

theorem byteAt_getD {data : List Nat} {i : Nat} (h : i < data.length) :
    byteAt data i = .ok (data.getD i 0) := by
  obtain ⟨x, r, hx⟩ : ∃ x r, data.drop i = x :: r := by
    cases hd : data.drop i with
    | nil => rw [List.drop_eq_nil_iff] at hd; omega
    | cons x r => exact ⟨x, r, rfl⟩
  have hdata : data = data.take i ++ x :: r := by rw [← hx, List.take_append_drop]
  have hget : data.getD i 0 = x := by
    rw [List.getD_eq_getElem?_getD, hdata, List.getElem?_append_right (by simp)]
    simp [Nat.min_eq_left (by omega : i ≤ data.length)]
  rw [hget]
  unfold byteAt getLE getT
  rw [if_pos (by omega), hx]
  simp [fromLE]

/-- **C85, what holds.** Every slice without a consistent header is rejected with an error. -/
theorem C85_header_partial (F : Fl H) (B : Bits H) (data : List Nat) (check : Bool)
    (h : ¬ Header data) : ∃ e, fromSlice F B data check = .err e := by
  unfold fromSlice
  by_cases h8 : data.length < 8
  · exact ⟨_, if_pos h8⟩
  · rw [if_neg h8]
    have hc : ∃ e, checkPreamble data = .err e := by
      unfold checkPreamble
      rw [if_neg (by omega), byteAt_getD (by omega), Outcome.ok_bind]
      simp only [show (63 : Nat) = 2 ^ 6 - 1 from rfl, show (3 : Nat) = 2 ^ 2 - 1 from rfl,
        Nat.and_two_pow_sub_one_eq_mod]
      split
      · exact ⟨_, rfl⟩
      · rw [byteAt_getD (by omega), Outcome.ok_bind, byteAt_getD (by omega), Outcome.ok_bind,
          byteAt_getD (by omega), Outcome.ok_bind]
        repeat' split
        all_goals first | exact ⟨_, rfl⟩ | skip
        exfalso
        apply h
        refine ⟨by omega, by omega, by omega, by omega, ?_, ?_, ?_, ?_⟩ <;>
        · simp only [show (2 : Nat) ^ 6 = 64 from rfl, show (2 : Nat) ^ 2 = 4 from rfl] at *
          omega
    obtain ⟨e, he⟩ := hc
    exact ⟨e, by rw [he]; rfl⟩

example : ¬ Header [2, 1, 8, 4, 3, 4, 0, 0] := by unfold Header; decide

/-- **C85 is violated.** With a consistent header the reader indexes the slice without checking: a
LIST image that announces a coupon and ends; a LIST image with nine coupons; a register image that
stops after its preamble; a register image with `lgK = 0`; mode bits 3 with a preamble of two
integers. -/
theorem C85_panics :
    fromSlice U sampleBits [2, 1, 7, 4, 3, 0, 1, 0] true = .panic ∧
    fromSlice U sampleBits ([2, 1, 7, 4, 3, 0, 9, 0] ++ List.replicate 36 1) true = .panic ∧
    fromSlice U sampleBits ([10, 1, 7, 4, 0, 0, 0, 10] ++ List.replicate 32 0) true = .panic ∧
    fromSlice U sampleBits ([10, 1, 7, 0, 0, 0, 0, 2] ++ List.replicate 32 0) true = .panic ∧
    fromSlice U sampleBits [2, 1, 7, 12, 5, 0, 0, 3] true = .panic := by
  refine ⟨?_, ?_, ?_, ?_, ?_⟩ <;> rfl

/-- `NewUnionFromSlice` looks at the fourth byte before any check. -/
theorem C85_union_panics : unionFromSlice U sampleBits [2, 1, 7] = .panic := rfl

end Verif.Hll
