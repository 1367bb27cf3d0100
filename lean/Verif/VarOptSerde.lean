import Verif.VarOptSerdeModel
import Verif.VarOptUnion
import Verif.ItemSerde
import Verif.Buf

/-! # VarOpt encoders and decoders: lemmas -/

namespace Verif.VarOpt

open Verif.Items Outcome

variable {T : Type}

private theorem and7 (i : Nat) : i &&& 7 = i % 8 := Nat.and_two_pow_sub_one_eq_mod i 3

private theorem setBit {v j : Nat} (h : v < 2 ^ j) (b : Bool) :
    (if b then v ||| 1 <<< j else v) = v + 2 ^ j * b.toNat := by
  cases b
  · simp
  · have := Nat.two_pow_add_eq_or_of_lt h 1
    simp only [if_true, Bool.toNat_true, Nat.one_shiftLeft]
    rw [Nat.or_comm]
    simp only [Nat.mul_one] at this ⊢
    omega

/-- bit `j` of a number known modulo `2^(j+1)` -/
private theorem getBit {B v j : Nat} {b : Bool} (hv : v < 2 ^ j)
    (h : B % 2 ^ (j + 1) = v + 2 ^ j * b.toNat) :
    B % 2 ^ j = v ∧ decide ((B >>> j) &&& 1 = 1) = b := by
  have h1 := Nat.mod_pow_succ (x := B) (b := 2) (k := j)
  rw [Nat.shiftRight_eq_div_pow, Nat.and_one_is_mod]
  have h2 : B % 2 ^ j < 2 ^ j := Nat.mod_lt _ (Nat.two_pow_pos j)
  have h3 : B / 2 ^ j % 2 = 0 ∨ B / 2 ^ j % 2 = 1 := by omega
  rw [h] at h1
  rcases h3 with h3 | h3 <;> cases b <;> simp only [h3, Bool.toNat_true, Bool.toNat_false, Nat.mul_one, Nat.mul_zero] at h1 ⊢ <;>
    refine ⟨by omega, ?_⟩ <;> simp <;> omega

theorem marks_rt (ms : List Bool) : ∀ (i val : Nat), val < 2 ^ (i % 8) →
    (i % 8 ≠ 0 → ∃ B tail, writeMarks ms i val = toLE 1 B ++ tail ∧ B < 256 ∧
      B % 2 ^ (i % 8) = val ∧ ∀ a c : List Nat,
        readMarks (a ++ (tail ++ c)) ms.length i a.length B = .ok (ms, a.length + tail.length)) ∧
    (i % 8 = 0 → ∀ (a c : List Nat) (v : Nat),
      readMarks (a ++ (writeMarks ms i val ++ c)) ms.length i a.length v =
        .ok (ms, a.length + (writeMarks ms i val).length)) := by
  induction ms with
  | nil =>
    intro i val hv
    constructor
    · intro h
      refine ⟨val, [], ?_, ?_, ?_, ?_⟩
      · simp only [writeMarks, and7, List.append_nil]
        rw [if_pos (by omega)]
      · have : 2 ^ (i % 8) ≤ 2 ^ 8 := Nat.pow_le_pow_right (by omega) (by omega)
        omega
      · exact Nat.mod_eq_of_lt hv
      · intro a c; rfl
    · intro h a c v
      simp only [writeMarks, and7, h]
      rfl
  | cons b bs ih =>
    intro i val hv
    have hset := setBit hv b
    constructor
    · intro h
      by_cases h7 : i % 8 = 7
      · have hi : (i + 1) % 8 = 0 := by omega
        have hB : (val + 2 ^ (i % 8) * b.toNat) % 2 ^ (i % 8 + 1) = val + 2 ^ (i % 8) * b.toNat := by
          apply Nat.mod_eq_of_lt
          have := Bool.toNat_le b
          have : 2 ^ (i % 8) * b.toNat ≤ 2 ^ (i % 8) * 1 := Nat.mul_le_mul_left _ this
          rw [Nat.pow_succ]; omega
        refine ⟨val + 2 ^ (i % 8) * b.toNat, writeMarks bs (i + 1) 0, ?_, ?_, ?_, ?_⟩
        · simp only [writeMarks, and7, hset]
          rw [if_pos h7]
        · have := Bool.toNat_le b
          rw [h7] at hv ⊢
          omega
        · exact (getBit hv hB).1
        · intro a c
          have := (ih (i + 1) 0 (Nat.two_pow_pos _)).2 hi a c (val + 2 ^ (i % 8) * b.toNat)
          simp only [List.length_cons, readMarks, and7]
          rw [if_neg h]
          simp only [ok_bind]
          rw [this]
          simp only [ok_bind, (getBit hv hB).2]
      · have hi : (i + 1) % 8 = i % 8 + 1 := by omega
        have hlt : val + 2 ^ (i % 8) * b.toNat < 2 ^ ((i + 1) % 8) := by
          have := Bool.toNat_le b
          have : 2 ^ (i % 8) * b.toNat ≤ 2 ^ (i % 8) * 1 := Nat.mul_le_mul_left _ this
          rw [hi, Nat.pow_succ]; omega
        obtain ⟨B, tail, e, hB, hm, hr⟩ := (ih (i + 1) _ hlt).1 (by omega)
        rw [hi] at hm
        refine ⟨B, tail, ?_, hB, (getBit hv hm).1, ?_⟩
        · simp only [writeMarks, and7, hset]
          rw [if_neg h7, e]
        · intro a c
          simp only [List.length_cons, readMarks, and7]
          rw [if_neg h]
          simp only [ok_bind]
          rw [hr a c]
          simp only [ok_bind, (getBit hv hm).2]
    · intro h a c v
      have hi : (i + 1) % 8 = i % 8 + 1 := by omega
      have hlt : val + 2 ^ (i % 8) * b.toNat < 2 ^ ((i + 1) % 8) := by
        have := Bool.toNat_le b
        have : 2 ^ (i % 8) * b.toNat ≤ 2 ^ (i % 8) * 1 := Nat.mul_le_mul_left _ this
        rw [hi, Nat.pow_succ]; omega
      obtain ⟨B, tail, e, hB, hm, hr⟩ := (ih (i + 1) _ hlt).1 (by omega)
      rw [hi] at hm
      have ew : writeMarks (b :: bs) i val = toLE 1 B ++ tail := by
        simp only [writeMarks, and7, hset]
        rw [if_neg (by omega), e]
      rw [ew]
      simp only [List.length_cons, readMarks, and7]
      rw [if_pos h]
      have hc : checkLen (a ++ (toLE 1 B ++ tail ++ c)) (a.length + 1) = .ok () := by
        unfold checkLen
        rw [if_neg]
        simp only [List.length_append, toLE_length]; omega
      rw [hc]
      simp only [ok_bind]
      rw [List.append_assoc, getLE_at rfl (by omega)]
      simp only [ok_bind]
      have := hr (a ++ toLE 1 B) c
      simp only [List.append_assoc, List.length_append, toLE_length] at this
      rw [this]
      have hg := (getBit hv hm).2
      simp only [ok_bind, hg, List.length_append, toLE_length, Nat.add_assoc]

theorem marks_read (ms : List Bool) (a c : List Nat) :
    readMarks (a ++ (writeMarks ms 0 0 ++ c)) ms.length 0 a.length 0 =
      .ok (ms, a.length + (writeMarks ms 0 0).length) :=
  (marks_rt ms 0 0 (by simp)).2 rfl a c 0

/-! ## weights -/

/-- the number survives the conversion to bits and back -/
def Codec.Exact (F : Codec) (w : ℚ) : Prop := F.bits w < 256 ^ 8 ∧ F.val (F.bits w) = some w

theorem readWeights_ok {F : Codec} (ws : List ℚ) : ∀ (a c : List Nat),
    (∀ w ∈ ws, 0 < w ∧ F.Exact w) →
    readWeights F (a ++ ((ws.flatMap fun w => toLE 8 (F.bits w)) ++ c)) ws.length a.length =
      .ok ws := by
  induction ws with
  | nil => intro a c _; rfl
  | cons w ws ih =>
    intro a c h
    obtain ⟨h0, h1, h2⟩ := h w (by simp)
    simp only [List.flatMap_cons, List.length_cons, readWeights, List.append_assoc]
    rw [getLE_at rfl h1]
    simp only [ok_bind, h2]
    rw [if_neg (by simpa using h0)]
    have := ih (a ++ toLE 8 (F.bits w)) c (fun x hx => h x (by simp [hx]))
    simp only [List.append_assoc, List.length_append, toLE_length] at this
    rw [this]
    rfl

/-! ## items -/

theorem readItems_ok {sd : Serde T} {P : T → Prop} (hsd : Lawful sd P) (xs : List T)
    (h : ∀ x ∈ xs, P x) (a c : List Nat) :
    readItems sd (a ++ (sd.many xs ++ c)) a.length xs.length =
      .ok (xs, a.length + (sd.many xs).length) := by
  unfold readItems
  rw [hsd.sizeMany xs a c h]
  simp only [ok_bind]
  have hc : checkLen (a ++ (sd.many xs ++ c)) (a.length + (sd.many xs).length) = .ok () := by
    unfold checkLen
    rw [if_neg]
    simp only [List.length_append]; omega
  rw [hc]
  simp only [ok_bind]
  rw [hsd.deser xs a c h]
  rfl


/-! ## the whole sketch -/

/-- What is needed of a sketch with samples to be written and read back. -/
structure Encodable (F : Codec) (P : T → Prop) (s : Sk T) : Prop where
  k1 : 1 ≤ s.k
  k2 : s.k ≤ 2 ^ 31 - 2
  n1 : 0 < s.n
  n2 : s.n < 2 ^ 63
  weights : ∀ x ∈ s.slots.take s.h, 0 < x.weight ∧ F.Exact x.weight
  hItems : ∀ x ∈ s.slots.take s.h, P x.item
  rItems : ∀ x ∈ (s.slots.drop (s.h + 1)).take s.r, P x.item
  tot : s.r ≠ 0 → 0 < s.totalWeightR ∧ F.Exact s.totalWeightR
  tot0 : s.r = 0 → s.totalWeightR = 0
  warm : s.r = 0 → s.slots.length = s.h ∧ s.n = s.h ∧ s.h ≤ s.k
  full : s.r ≠ 0 → s.slots.length = s.k + 1 ∧ s.h + s.r = s.k ∧ s.k < s.n

/-- the sketch that comes back -/
def decoded (zero : T) (s : Sk T) : Sk T :=
  { s with
    slots := (s.slots.take s.h).map (fun x => ⟨x.item, x.weight, s.gadget && x.mark⟩) ++
      if s.r > 0 then
        ⟨zero, -1, false⟩ :: ((s.slots.drop (s.h + 1)).take s.r).map fun x => ⟨x.item, -1, false⟩
      else []
    m := if s.r > 0 then 1 else 0
    numMarksInH := if s.gadget then (s.slots.take s.h).countP Slot.mark else 0 }

/-- the image of a sketch with samples -/
def image (b0 flags k n h r : Nat) (rest : List Nat) : List Nat :=
  toLE 1 b0 ++ (toLE 1 2 ++ (toLE 1 13 ++ (toLE 1 flags ++ (toLE 4 k ++ (toLE 8 n ++
    (toLE 4 h ++ (toLE 4 r ++ rest)))))))

theorem image_length (b0 flags k n h r : Nat) (rest : List Nat) :
    (image b0 flags k n h r rest).length = 24 + rest.length := by
  simp only [image, List.length_append, toLE_length]; omega

theorem checkLen_ok {data : List Nat} {e : Nat} (h : e ≤ data.length) : checkLen data e = .ok () := by
  unfold checkLen; rw [if_neg (by omega)]

theorem first_byte (rf : Nat) (hrf : rf < 4) (pre : Nat) (hp : pre < 5) :
    ((pre &&& 0x3F) ||| (rf <<< 6)) < 256 ∧ ((pre &&& 0x3F) ||| (rf <<< 6)) &&& 0x3F = pre ∧
      (((pre &&& 0x3F) ||| (rf <<< 6)) >>> 6) &&& 3 = rf := by
  have : ∀ rf < 4, ∀ pre < 5, ((pre &&& 0x3F) ||| (rf <<< 6)) < 256 ∧
      ((pre &&& 0x3F) ||| (rf <<< 6)) &&& 0x3F = pre ∧
      (((pre &&& 0x3F) ||| (rf <<< 6)) >>> 6) &&& 3 = rf := by decide +kernel
  exact this rf hrf pre hp

theorem mkSlots_eq (zero : T) (H R : List (Slot T)) (g : Bool) :
    mkSlots zero H.length R.length (H.map Slot.weight) (if g then H.map Slot.mark else [])
      (H.map Slot.item) (R.map Slot.item) =
    H.map (fun x => ⟨x.item, x.weight, g && x.mark⟩) ++
      if R.length > 0 then ⟨zero, -1, false⟩ :: R.map fun x => ⟨x.item, -1, false⟩ else [] := by
  have h1 : ∀ (L : List (Slot T)) (f : Nat → Slot T) (g : Slot T → Slot T),
      (∀ i (hi : i < L.length), f i = g L[i]) → (List.range L.length).map f = L.map g := by
    intro L f g h
    apply List.ext_getElem
    · simp
    · intro i h1 h2
      simp only [List.getElem_map, List.getElem_range]
      exact h i (by simpa using h1)
  unfold mkSlots
  congr 1
  · apply h1
    intro i hi
    cases g <;> simp [hi]
  · split
    · congr 1
      apply h1
      intro i hi
      simp [hi]
    · rfl

theorem ceilPow2_pow (n : Nat) : ∃ j, Reservoir.ceilPow2 n = 2 ^ j ∧ (n ≤ 2 ^ j ∨ j = 30) := by
  unfold Reservoir.ceilPow2
  split
  · exact ⟨0, rfl, by omega⟩
  · split
    · exact ⟨30, rfl, by omega⟩
    · refine ⟨_, rfl, Or.inl ?_⟩
      have h1 := Nat.lt_log2_self (n := (n - 1) * 2)
      rw [Nat.pow_succ] at h1
      omega

theorem dataSize_warm {k h rf : Nat} (k1 : 1 ≤ k) (k2 : k ≤ 2 ^ 31 - 2) (hk : h ≤ k) :
    ∃ a, dataSize 3 k h h 0 rf = .ok a ∧ h ≤ a := by
  unfold dataSize
  rw [if_neg (by omega), if_pos hk]
  simp only [ne_eq, not_true_eq_false, if_false, gt_iff_lt, Nat.lt_irrefl]
  refine ⟨_, rfl, ?_⟩
  obtain ⟨jk, ek, _⟩ := ceilPow2_pow k
  obtain ⟨jh, eh, hh⟩ := ceilPow2_pow h
  simp only [ek, eh, Nat.log2_two_pow]
  have hge : jh ≤ Reservoir.startingSubMultiple jk rf jh := by
    unfold Reservoir.startingSubMultiple
    split
    · omega
    · split
      · omega
      · exact Nat.le_add_left _ _
  generalize Reservoir.startingSubMultiple jk rf jh = j at hge
  have hp : 2 ^ jh ≤ 2 ^ j := Nat.pow_le_pow_right (by omega) hge
  unfold Reservoir.adjustedSize
  rcases hh with hh | hh
  · split <;> split <;> omega
  · subst hh
    rw [if_pos (show k < 2 ^ j * 2 by omega)]
    split <;> omega

theorem dataSize_full {k n h r rf : Nat} (k1 : 1 ≤ k) (k2 : k ≤ 2 ^ 31 - 2) (hn : k < n)
    (hh : h + r = k) : dataSize 4 k n h r rf = .ok (k + 1) := by
  unfold dataSize
  rw [if_neg (by omega), if_neg (by omega), if_neg (by omega), if_neg]
  rw [hh, Nat.mod_eq_of_lt (by omega)]
  omega

/-- the bytes after the counts -/
def body (F : Codec) (sd : Serde T) (s : Sk T) : List Nat :=
  (if s.r > 0 then toLE 8 (F.bits s.totalWeightR) else []) ++
    (((s.slots.take s.h).flatMap fun x => toLE 8 (F.bits x.weight)) ++
    ((if s.gadget then writeMarks ((s.slots.take s.h).map Slot.mark) 0 0 else []) ++
    (sd.many ((s.slots.take s.h).map Slot.item) ++
      if s.r > 0 then sd.many (((s.slots.drop (s.h + 1)).take s.r).map Slot.item) else [])))

def preLongs (s : Sk T) : Nat := if s.r = 0 then 3 else 4

theorem encode_eq {F : Codec} {sd : Serde T} {P : T → Prop} {s : Sk T} (he : Encodable F P s)
    (rf : Nat) : encode F sd rf s =
      .ok (image ((preLongs s &&& 0x3F) ||| (rf <<< 6)) (if s.gadget then 128 else 0) s.k s.n s.h s.r
        (body F sd s)) := by
  have hn := he.n1
  have hlen : s.h ≤ s.slots.length ∧
      s.slots.length = if s.r > 0 then s.h + (s.r + 1) else s.h := by
    by_cases hr : s.r = 0
    · have := he.warm hr
      rw [if_neg (by omega)]; omega
    · have := he.full hr
      rw [if_pos (by omega)]; omega
  unfold encode
  have hne : ¬ (s.n = 0 ∧ s.r = 0) := by omega
  simp only [if_neg hne]
  rw [if_neg (by omega), if_neg (by rw [← hlen.2]; simp)]
  unfold image body preLongs
  by_cases hr : s.r = 0
  · simp [hr, List.append_assoc]
  · simp [hr, Nat.pos_of_ne_zero hr, List.append_assoc]

theorem readTotal_ok {F : Codec} {P : T → Prop} {sd : Serde T} {s : Sk T} (he : Encodable F P s)
    (b0 flags : Nat) :
    readTotal F (image b0 flags s.k s.n s.h s.r (body F sd s)) (preLongs s) s.r =
      .ok (s.totalWeightR, if s.r = 0 then 24 else 32) := by
  by_cases hr : s.r = 0
  · simp only [readTotal, preLongs, hr, if_true, he.tot0 hr]
    rfl
  · obtain ⟨h0, h1, h2⟩ := he.tot hr
    simp only [readTotal, preLongs, hr, if_false, if_true]
    have hc : checkLen (image b0 flags s.k s.n s.h s.r (body F sd s)) 32 = .ok () := by
      apply checkLen_ok
      rw [image_length]
      simp only [body, if_pos (Nat.pos_of_ne_zero hr), List.length_append, toLE_length]
      omega
    have hg : getLE (image b0 flags s.k s.n s.h s.r (body F sd s)) 24 8 =
        .ok (F.bits s.totalWeightR) := by
      simp only [image, body, if_pos (Nat.pos_of_ne_zero hr)]
      have h1' : F.bits s.totalWeightR < 2 ^ 64 := by
        have : (256 : Nat) ^ 8 = 2 ^ 64 := by norm_num
        omega
      readLE
    rw [hc]
    simp only [ok_bind, hg, h2]
    rw [if_neg (by simp only [false_or]; exact not_le.mpr h0)]

theorem decodeFull_ok {F : Codec} {P : T → Prop} {sd : Serde T} (hsd : Lawful sd P) (zero : T)
    {s : Sk T} (he : Encodable F P s) (b0 flags rf : Nat) :
    decodeFull F sd zero (image b0 flags s.k s.n s.h s.r (body F sd s)) (preLongs s) rf s.k s.gadget =
      .ok (decoded zero s, rf) := by
  have hn2 := he.n2
  have hk1 := he.k1
  have hk2 := he.k2
  have hhk : s.h + s.r ≤ s.k := by
    by_cases hr : s.r = 0
    · have := he.warm hr; omega
    · have := he.full hr; omega
  have g1 : getLE (image b0 flags s.k s.n s.h s.r (body F sd s)) 8 8 = .ok s.n := by
    unfold image; readLE
  have g2 : getLE (image b0 flags s.k s.n s.h s.r (body F sd s)) 16 4 = .ok s.h := by
    unfold image; readLE
  have g3 : getLE (image b0 flags s.k s.n s.h s.r (body F sd s)) 20 4 = .ok s.r := by
    unfold image; readLE
  have hil := image_length b0 flags s.k s.n s.h s.r (body F sd s)
  -- the parts of the slices
  have hHl : (s.slots.take s.h).length = s.h := by
    rw [List.length_take]
    by_cases hr : s.r = 0
    · have := he.warm hr; omega
    · have := he.full hr; omega
  have hRl : ((s.slots.drop (s.h + 1)).take s.r).length = s.r := by
    rw [List.length_take, List.length_drop]
    by_cases hr : s.r = 0
    · omega
    · have := he.full hr; omega
  obtain ⟨alloc, hd, ha1, ha2⟩ : ∃ a, dataSize (preLongs s) s.k s.n s.h s.r rf = .ok a ∧
      (s.r = 0 → s.h ≤ a) ∧ (s.r ≠ 0 → a = s.k + 1) := by
    by_cases hr : s.r = 0
    · obtain ⟨w1, w2, w3⟩ := he.warm hr
      obtain ⟨a, h1, h2⟩ := dataSize_warm (rf := rf) hk1 hk2 w3
      refine ⟨a, ?_, fun _ => h2, fun h => absurd hr h⟩
      rw [w2, hr]
      simpa only [preLongs, hr, if_true] using h1
    · obtain ⟨f1, f2, f3⟩ := he.full hr
      refine ⟨s.k + 1, ?_, fun h => absurd h hr, fun _ => rfl⟩
      simpa only [preLongs, hr, if_false] using dataSize_full (rf := rf) hk1 hk2 f3 f2
  -- the image in parts
  obtain ⟨A, hA, hAl⟩ : ∃ A : List Nat, (image b0 flags s.k s.n s.h s.r (body F sd s) = A ++
      (((s.slots.take s.h).flatMap fun x => toLE 8 (F.bits x.weight)) ++
      ((if s.gadget then writeMarks ((s.slots.take s.h).map Slot.mark) 0 0 else []) ++
      (sd.many ((s.slots.take s.h).map Slot.item) ++
        if s.r > 0 then sd.many (((s.slots.drop (s.h + 1)).take s.r).map Slot.item) else [])))) ∧
      A.length = (if s.r = 0 then 24 else 32) := by
    refine ⟨toLE 1 b0 ++ (toLE 1 2 ++ (toLE 1 13 ++ (toLE 1 flags ++ (toLE 4 s.k ++ (toLE 8 s.n ++
      (toLE 4 s.h ++ (toLE 4 s.r ++
      (if s.r > 0 then toLE 8 (F.bits s.totalWeightR) else [])))))))), ?_, ?_⟩
    · simp only [image, body, List.append_assoc]
    · by_cases hr : s.r = 0
      · simp [hr]
      · simp [hr, Nat.pos_of_ne_zero hr]
  set H := s.slots.take s.h with hH
  set R := (s.slots.drop (s.h + 1)).take s.r with hR
  set W := H.flatMap fun x => toLE 8 (F.bits x.weight) with hWd
  have hWl : W.length = s.h * 8 := by
    have : ∀ L : List (Slot T), (L.flatMap fun x => toLE 8 (F.bits x.weight)).length = L.length * 8 := by
      intro L
      induction L with
      | nil => rfl
      | cons x L ih => simp only [List.flatMap_cons, List.length_append, toLE_length, ih, List.length_cons]; omega
    rw [hWd, this, hHl]
  set M : List Nat := if s.gadget then writeMarks (H.map Slot.mark) 0 0 else [] with hM
  set I := sd.many (H.map Slot.item) with hI
  set J : List Nat := if s.r > 0 then sd.many (R.map Slot.item) else [] with hJ
  have rW : readWeights F (A ++ (W ++ (M ++ (I ++ J)))) s.h A.length = .ok (H.map Slot.weight) := by
    have := readWeights_ok (F := F) (H.map Slot.weight) A (M ++ (I ++ J)) (by
      intro w hw
      obtain ⟨x, hx, rfl⟩ := List.mem_map.mp hw
      exact he.weights x hx)
    rw [List.flatMap_map, List.length_map, hHl] at this
    exact this
  have rM : marksPart s.gadget (A ++ (W ++ (M ++ (I ++ J)))) s.h (A.length + s.h * 8) =
      .ok (if s.gadget then H.map Slot.mark else [], A.length + s.h * 8 + M.length) := by
    unfold marksPart
    cases hg : s.gadget
    · simp [hM, hg]
    · have := marks_read (H.map Slot.mark) (A ++ W) (I ++ J)
      simp only [List.append_assoc, List.length_append, hWl, List.length_map, hHl] at this
      simp only [hM, hg, if_true]
      exact this
  have rI : readItems sd (A ++ (W ++ (M ++ (I ++ J)))) (A.length + s.h * 8 + M.length) s.h =
      .ok (H.map Slot.item, A.length + s.h * 8 + M.length + I.length) := by
    have := readItems_ok hsd (H.map Slot.item) (by
      intro x hx
      obtain ⟨y, hy, rfl⟩ := List.mem_map.mp hx
      exact he.hItems y hy) (A ++ (W ++ M)) J
    simp only [List.append_assoc, List.length_append, hWl, List.length_map, hHl] at this
    rw [Nat.add_assoc A.length]
    exact this
  have rJ : rPart sd (A ++ (W ++ (M ++ (I ++ J)))) (A.length + s.h * 8 + M.length + I.length) s.r =
      .ok (R.map Slot.item, A.length + s.h * 8 + M.length + I.length + J.length) := by
    unfold rPart
    by_cases hr : s.r > 0
    · have := readItems_ok hsd (R.map Slot.item) (by
        intro x hx
        obtain ⟨y, hy, rfl⟩ := List.mem_map.mp hx
        exact he.rItems y hy) (A ++ (W ++ (M ++ I))) []
      simp only [List.append_assoc, List.append_nil, List.length_append, hWl, List.length_map, hRl] at this
      simp only [hJ, if_pos hr]
      simp only [Nat.add_assoc] at this ⊢
      exact this
    · have hR0 : R = [] := List.length_eq_zero_iff.mp (by omega)
      simp [hJ, hr, hR0]
  have cW : checkLen (A ++ (W ++ (M ++ (I ++ J)))) (A.length + s.h * 8) = .ok () := by
    apply checkLen_ok
    simp only [List.length_append, hWl]; omega
  have hslots : mkSlots zero s.h s.r (H.map Slot.weight) (if s.gadget then H.map Slot.mark else [])
      (H.map Slot.item) (R.map Slot.item) = (decoded zero s).slots := by
    have := mkSlots_eq zero H R s.gadget
    rw [hHl, hRl] at this
    exact this
  unfold decodeFull
  rw [checkLen_ok (by omega), checkLen_ok (by omega), checkLen_ok (by omega)]
  simp only [ok_bind, g1, g2, g3, hd, readTotal_ok he]
  rw [if_neg (by
    by_cases hr : s.r = 0
    · rw [if_pos hr]; have := ha1 hr; omega
    · rw [if_neg hr]; omega)]
  rw [hA, ← hAl, cW]
  simp only [ok_bind, rW]
  rw [if_neg (by
    rintro ⟨h1, h2⟩
    rw [if_neg (by omega), ha2 (by omega)] at h2
    have := he.full (by omega)
    omega)]
  simp only [rM, ok_bind, rI, rJ]
  rw [if_neg (by omega), hslots]
  congr 2
  simp only [decoded]
  congr 1
  cases hg : s.gadget
  · rfl
  · simp only [if_true, List.countP_map]
    rfl

theorem decode_encode {F : Codec} {P : T → Prop} {sd : Serde T} (hsd : Lawful sd P) (zero : T)
    {s : Sk T} (he : Encodable F P s) {rf : Nat} (hrf : rf < 4) :
    ∃ b, encode F sd rf s = .ok b ∧ decode F sd zero b = .ok (decoded zero s, rf) := by
  refine ⟨_, encode_eq he rf, ?_⟩
  have hpre : preLongs s = 3 ∨ preLongs s = 4 := by unfold preLongs; split <;> simp
  obtain ⟨f1, f2, f3⟩ := first_byte rf hrf (preLongs s) (by omega)
  have hk2 := he.k2
  have hfl : (if s.gadget then 128 else 0) < 256 := by split <;> omega
  generalize hb : ((preLongs s &&& 0x3F) ||| (rf <<< 6)) = b0 at f1 f2 f3 ⊢
  have hil := image_length b0 (if s.gadget then 128 else 0) s.k s.n s.h s.r (body F sd s)
  have key := decodeFull_ok hsd zero he b0 (if s.gadget then 128 else 0) rf
  have g0 : getLE (image b0 (if s.gadget then 128 else 0) s.k s.n s.h s.r (body F sd s)) 0 1 = .ok b0 := by
    unfold image; readLE
  have g1 : getLE (image b0 (if s.gadget then 128 else 0) s.k s.n s.h s.r (body F sd s)) 1 1 = .ok 2 := by
    unfold image; readLE
  have g2 : getLE (image b0 (if s.gadget then 128 else 0) s.k s.n s.h s.r (body F sd s)) 2 1 = .ok 13 := by
    unfold image; readLE
  have g3 : getLE (image b0 (if s.gadget then 128 else 0) s.k s.n s.h s.r (body F sd s)) 3 1 =
      .ok (if s.gadget then 128 else 0) := by
    unfold image; readLE
  have g4 : getLE (image b0 (if s.gadget then 128 else 0) s.k s.n s.h s.r (body F sd s)) 4 4 = .ok s.k := by
    unfold image; readLE
  have hf4 : (if s.gadget then 128 else 0) &&& 4 = 0 := by cases s.gadget <;> rfl
  have hfg : decide ((if s.gadget then 128 else 0) &&& 128 ≠ 0) = s.gadget := by
    cases s.gadget <;> rfl
  unfold decode
  rw [if_neg (by omega)]
  simp only [g0, g1, g2, g3, g4, ok_bind, f2, f3]
  have hcp : checkPre (preLongs s) ((if s.gadget then 128 else 0) &&& 4 ≠ 0) = .ok () := by
    unfold checkPre
    rw [if_neg (by simp [hf4]), if_neg (by omega)]
  rw [hcp]
  simp only [ok_bind, ne_eq, not_true_eq_false, if_false, hf4]
  have hfg' : (decide ¬(if s.gadget then 128 else 0) &&& 128 = 0) = s.gadget := hfg
  rw [hfg']
  exact key

theorem encode_empty (F : Codec) (sd : Serde T) (zero : T) {k rf : Nat} (g : Bool) (k1 : 1 ≤ k)
    (k2 : k ≤ 2 ^ 31 - 2) (hrf : rf < 4) :
    ∃ b, encode F sd rf ⟨[], g, k, 0, 0, 0, 0, 0, 0⟩ = .ok b ∧ b.length = 8 ∧
      decode F sd zero b = .ok (⟨[], g, k, 0, 0, 0, 0, 0, 0⟩, rf) := by
  obtain ⟨f1, f2, f3⟩ := first_byte rf hrf 1 (by omega)
  set b0 := ((1 &&& 0x3F) ||| (rf <<< 6)) with hb
  set fl := (if g then 128 else 0) ||| 4 with hf
  have hfl : fl < 256 ∧ fl &&& 4 = 4 ∧ decide (fl &&& 128 ≠ 0) = g := by cases g <;> decide
  refine ⟨toLE 1 b0 ++ (toLE 1 2 ++ (toLE 1 13 ++ (toLE 1 fl ++ toLE 4 k))), ?_, ?_, ?_⟩
  · simp [encode, hb, hf]
  · simp only [List.length_append, toLE_length]
  · have e : toLE 4 k = toLE 4 k ++ [] := by simp
    rw [e]
    have g0 : getLE (toLE 1 b0 ++ (toLE 1 2 ++ (toLE 1 13 ++ (toLE 1 fl ++ (toLE 4 k ++ []))))) 0 1 = .ok b0 := by
      readLE
    have g1 : getLE (toLE 1 b0 ++ (toLE 1 2 ++ (toLE 1 13 ++ (toLE 1 fl ++ (toLE 4 k ++ []))))) 1 1 = .ok 2 := by
      readLE
    have g2 : getLE (toLE 1 b0 ++ (toLE 1 2 ++ (toLE 1 13 ++ (toLE 1 fl ++ (toLE 4 k ++ []))))) 2 1 = .ok 13 := by
      readLE
    have g3 : getLE (toLE 1 b0 ++ (toLE 1 2 ++ (toLE 1 13 ++ (toLE 1 fl ++ (toLE 4 k ++ []))))) 3 1 = .ok fl := by
      have := hfl.1
      readLE
    have g4 : getLE (toLE 1 b0 ++ (toLE 1 2 ++ (toLE 1 13 ++ (toLE 1 fl ++ (toLE 4 k ++ []))))) 4 4 = .ok k := by
      readLE
    unfold decode
    rw [if_neg (by simp only [List.length_append, toLE_length]; omega)]
    simp only [g0, g1, g2, g3, g4, ok_bind, f2, f3]
    have hcp : checkPre 1 (fl &&& 4 ≠ 0) = .ok () := by
      unfold checkPre
      rw [if_pos (by omega), if_neg (by simp)]
    rw [hcp]
    simp only [ok_bind, ne_eq, not_true_eq_false, if_false, hfl.2.1]
    rw [if_pos (by omega)]
    unfold new
    rw [if_neg (by omega)]
    have := hfl.2.2
    simp only [ne_eq] at this
    simp only [this, ok_bind]


/-! ## The sketch that comes back -/

/-- The numbers of a sketch are float64 values and its items are such that the serializer keeps them. -/
structure Savable (F : Codec) (P : T → Prop) (s : Sk T) : Prop where
  heavy : ∀ x ∈ s.hSlots, F.Exact x.weight
  tot : s.r ≠ 0 → F.Exact s.totalWeightR
  items : ∀ q ∈ s.samples, P q.1

theorem Inv.encodable {F : Codec} {P : T → Prop} {s : Sk T} {src : List (T × ℚ)}
    {e : (T → Bool) → ℚ} (h : Inv s src e) (ht : Tight s) (k2 : s.k ≤ 2 ^ 31 - 2) (n1 : 0 < s.n)
    (n2 : s.n < 2 ^ 63) (hseen : s.n = src.length) (hover : s.r ≠ 0 → s.k < src.length)
    (tot0 : s.r = 0 → s.totalWeightR = 0) (hs : Savable F P s) : Encodable F P s := by
  have v : Valid s := h.valid (by omega)
  have hsam := v.samples_eq
  have hitems := hs.items
  rw [hsam] at hitems
  refine ⟨v.k1, k2, n1, n2, ?_, ?_, ?_, ?_, tot0, ?_, ?_⟩
  · exact fun x hx => ⟨v.hpos x hx, hs.heavy x hx⟩
  · intro x hx
    exact hitems (x.item, x.weight) (List.mem_append_left _ (List.mem_map_of_mem hx))
  · intro x hx
    have hx' : x ∈ s.rSlots := by
      unfold Sk.rSlots Sk.numSamples
      by_cases hr : s.r = 0
      · rw [hr] at hx; simp at hx
      · have h1 := v.full hr
        rw [show min s.k (s.h + s.r) - s.h = s.r by omega]
        exact hx
    exact hitems (x.item, s.totalWeightR / s.r)
      (List.mem_append_right _ (List.mem_map_of_mem (f := fun x => (x.item, s.totalWeightR / s.r)) hx'))
  · exact fun hr => ⟨v.tot hr, hs.tot hr⟩
  · intro hr
    rcases h with w | h
    · refine ⟨w.len, ?_, w.le⟩
      rw [hseen, w.src]
      unfold pairs
      rw [List.length_map, w.len]
    · exact absurd hr h.r_ne
  · intro hr
    exact ⟨ht hr, v.full hr, by have := hover hr; omega⟩

theorem decoded_regions {F : Codec} {P : T → Prop} {s : Sk T} (he : Encodable F P s) (zero : T) :
    (decoded zero s).hSlots = s.hSlots.map (fun x => ⟨x.item, x.weight, s.gadget && x.mark⟩) ∧
    (decoded zero s).rSlots = s.rSlots.map (fun x => ⟨x.item, -1, false⟩) := by
  have hHl : (s.slots.take s.h).length = s.h := by
    rw [List.length_take]
    by_cases hr : s.r = 0
    · have := he.warm hr; omega
    · have := he.full hr; omega
  constructor
  · unfold Sk.hSlots decoded
    dsimp only
    rw [List.take_append_of_le_length (by rw [List.length_map, hHl]), List.take_of_length_le]
    rw [List.length_map, hHl]
  · unfold Sk.rSlots decoded Sk.numSamples
    dsimp only
    by_cases hr : s.r = 0
    · have := he.warm hr
      rw [show min s.k (s.h + s.r) - s.h = 0 by omega]
      simp
    · have hf := he.full hr
      rw [show min s.k (s.h + s.r) - s.h = s.r by omega, if_pos (by omega)]
      generalize hH' : (List.map (fun x : Slot T => (⟨x.item, x.weight, s.gadget && x.mark⟩ : Slot T))
        (List.take s.h s.slots)) = H'
      have hl' : (H' ++ [(⟨zero, -1, false⟩ : Slot T)]).length = s.h + 1 := by
        rw [← hH', List.length_append, List.length_map, hHl]; rfl
      have e : ∀ R' : List (Slot T), H' ++ ⟨zero, -1, false⟩ :: R' =
          (H' ++ [⟨zero, -1, false⟩]) ++ R' := by intro R'; simp
      rw [e, ← hl', List.drop_left, List.take_of_length_le]
      rw [List.length_map, List.length_take]
      omega

theorem decoded_samples {F : Codec} {P : T → Prop} {s : Sk T} (he : Encodable F P s) (zero : T) :
    (decoded zero s).samples = s.samples := by
  obtain ⟨h1, h2⟩ := decoded_regions he zero
  unfold Sk.samples
  rw [h1, h2, List.map_map, List.map_map]
  rfl

/-- the same with the counter of M as the sketch keeps it between updates -/
def settle (s : Sk T) : Sk T := { s with m := 0 }

theorem decoded_valid {F : Codec} {P : T → Prop} {s : Sk T} (he : Encodable F P s) (v : Valid s)
    (zero : T) : Valid (settle (decoded zero s)) := by
  obtain ⟨h1, h2⟩ := decoded_regions he zero
  refine ⟨v.k1, rfl, ?_, ?_, ?_, v.le, v.full, v.tot, v.count⟩
  · show (decoded zero s).hSlots.length = s.h
    rw [h1, List.length_map, v.hlen]
  · show (decoded zero s).rSlots.length = s.r
    rw [h2, List.length_map, v.rlen]
  · show ∀ x ∈ (decoded zero s).hSlots, 0 < x.weight
    rw [h1]
    intro x hx
    obtain ⟨y, hy, rfl⟩ := List.mem_map.1 hx
    exact v.hpos y hy

theorem decoded_warm {s : Sk T} {src : List (T × ℚ)} {e : (T → Bool) → ℚ} (w : Warm s src e)
    (hm : s.gadget = false → ∀ x ∈ s.slots, x.mark = false) (zero : T) : decoded zero s = s := by
  have hr := w.r0
  have hH : s.slots.take s.h = s.slots := by rw [← w.len, List.take_length]
  have hmap : s.slots.map (fun x => (⟨x.item, x.weight, s.gadget && x.mark⟩ : Slot T)) = s.slots := by
    conv_rhs => rw [← List.map_id s.slots]
    apply List.map_congr_left
    intro x hx
    cases hg : s.gadget
    · have := hm hg x hx
      cases x
      simp_all
    · cases x; simp
  have hcnt : (if s.gadget then s.slots.countP Slot.mark else 0) = s.numMarksInH := by
    rw [w.marks]
    cases hg : s.gadget
    · have : s.slots.countP Slot.mark = 0 := by
        rw [List.countP_eq_zero]
        intro x hx
        rw [hm hg x hx]
        simp
      rw [this]; rfl
    · rfl
  unfold decoded
  rw [hH, hmap, hcnt, if_neg (by omega), if_neg (by omega), List.append_nil, ← w.m0]

/-- A decoded sketch in sampling mode refuses every update. -/
theorem decoded_stuck {F : Codec} {P : T → Prop} {s : Sk T} (he : Encodable F P s) (zero : T)
    (hr : s.r ≠ 0) (x : Slot T) : ∃ msg, update (decoded zero s) x = .err msg := by
  obtain ⟨f1, f2, f3⟩ := he.full hr
  generalize hd : decoded zero s = d
  have dr : d.r = s.r := by rw [← hd]; rfl
  have dh : d.h = s.h := by rw [← hd]; rfl
  have dk : d.k = s.k := by rw [← hd]; rfl
  have dm : d.m = 1 := by
    rw [← hd]
    show (if s.r > 0 then 1 else 0) = 1
    rw [if_pos (by omega)]
  have dl : d.slots.length = s.k + 1 := by
    rw [← hd]
    show (_ ++ _ : List (Slot T)).length = _
    rw [if_pos (by omega)]
    simp only [List.length_append, List.length_map, List.length_take, List.length_cons,
      List.length_drop]
    omega
  have hest : ∀ w n, ∃ msg, updateEst { d with n := n } x w = .err msg := by
    intro w n
    unfold updateEst
    dsimp only
    split
    · unfold updateLight
      dsimp only
      rw [if_neg (by omega)]
      unfold put
      rw [if_pos (by omega), Rand.ofOutcome_ok, Rand.ret_bind]
      unfold growCandidateSet
      dsimp only
      rw [if_pos (by omega)]
      exact ⟨_, rfl⟩
    · split
      · unfold updateHeavyR1
        dsimp only
        rw [if_pos (by omega)]
        exact ⟨_, rfl⟩
      · unfold updateHeavyGeneral
        dsimp only
        rw [if_pos (by omega)]
        exact ⟨_, rfl⟩
  unfold update
  split
  · exact ⟨_, rfl⟩
  · unfold updateCore
    dsimp only
    rw [if_neg (by omega)]
    split
    · unfold wAt
      rw [List.getElem?_eq_getElem (by omega)]
      dsimp only
      rw [Rand.ofOutcome_ok, Rand.ret_bind]
      split
      · exact ⟨_, rfl⟩
      · exact hest _ _
    · exact hest _ _

/-! ## The union -/

/-- what comes back of a union with samples -/
def Un.decoded (zero : T) (u : Un T) : Un T := { u with gadget := VarOpt.decoded zero u.gadget }

theorem union_decode_encode {F : Codec} {P : T → Prop} {sd : Serde T} (hsd : Lawful sd P) (zero : T)
    {u : Un T} (he : Encodable F P u.gadget) {rf : Nat} (hrf : rf < 4) (hs : u.gadget.numSamples ≠ 0)
    (hk : u.k < 2 ^ 32) (hn : u.n < 2 ^ 63) (ht : F.Exact u.outerTauNumer)
    (hd : u.outerTauDenom < 2 ^ 63) :
    ∃ b, u.encode F sd rf = .ok b ∧ unionDecode F sd zero b = .ok (u.decoded zero, rf) := by
  obtain ⟨g, hg1, hg2⟩ := decode_encode hsd zero he hrf
  obtain ⟨ht1, ht2⟩ := ht
  have ht1' : F.bits u.outerTauNumer < 2 ^ 64 := by
    have : (256 : Nat) ^ 8 = 2 ^ 64 := by norm_num
    omega
  refine ⟨toLE 1 4 ++ (toLE 1 2 ++ (toLE 1 14 ++ (toLE 1 0 ++ (toLE 4 u.k ++ (toLE 8 u.n ++
      (toLE 8 (F.bits u.outerTauNumer) ++ (toLE 8 u.outerTauDenom ++ g))))))), ?_, ?_⟩
  · unfold Un.encode
    rw [if_neg hs, hg1]
    rfl
  · generalize hD : toLE 1 4 ++ (toLE 1 2 ++ (toLE 1 14 ++ (toLE 1 0 ++ (toLE 4 u.k ++ (toLE 8 u.n ++
      (toLE 8 (F.bits u.outerTauNumer) ++ (toLE 8 u.outerTauDenom ++ g))))))) = D
    have hl : D.length = 32 + g.length := by
      rw [← hD]; simp only [List.length_append, toLE_length]; omega
    have g0 : getLE D 0 1 = .ok 4 := by rw [← hD]; readLE
    have g1 : getLE D 1 1 = .ok 2 := by rw [← hD]; readLE
    have g2 : getLE D 2 1 = .ok 14 := by rw [← hD]; readLE
    have g3 : getLE D 3 1 = .ok 0 := by rw [← hD]; readLE
    have g4 : getLE D 4 4 = .ok u.k := by rw [← hD]; readLE
    have g5 : getLE D 8 8 = .ok u.n := by rw [← hD]; readLE
    have g6 : getLE D 16 8 = .ok (F.bits u.outerTauNumer) := by rw [← hD]; readLE
    have g7 : getLE D 24 8 = .ok u.outerTauDenom := by rw [← hD]; readLE
    have hsl : slice D 32 D.length = .ok g := by
      have e : D = (toLE 1 4 ++ (toLE 1 2 ++ (toLE 1 14 ++ (toLE 1 0 ++ (toLE 4 u.k ++ (toLE 8 u.n ++
        (toLE 8 (F.bits u.outerTauNumer) ++ toLE 8 u.outerTauDenom))))))) ++ (g ++ []) := by
        rw [← hD]; simp only [List.append_assoc, List.append_nil]
      rw [e]
      exact slice_here (by simp only [List.length_append, toLE_length])
        (by simp only [List.length_append, toLE_length, List.length_nil]; omega)
    unfold unionDecode
    rw [checkLen_ok (by omega), checkLen_ok (by omega), checkLen_ok (by omega), checkLen_ok (by omega),
      checkLen_ok (by omega), checkLen_ok (by omega), checkLen_ok (by omega), checkLen_ok (by omega)]
    simp only [ok_bind, g0, g1, g2, g3, g4, g5, g6, g7, hsl, hg2, ht2]
    simp only [ne_eq, OfNat.ofNat_ne_one, not_false_eq_true, not_true_eq_false, and_false, ite_false,
      Nat.zero_and]
    rw [if_neg (by omega)]
    rfl

theorem union_empty (F : Codec) (sd : Serde T) (zero : T) {k rf : Nat} (k1 : 1 ≤ k)
    (k2 : k ≤ 2 ^ 31 - 2) :
    ∃ b, (⟨⟨[], true, k, 0, 0, 0, 0, 0, 0⟩, k, 0, 0, 0⟩ : Un T).encode F sd rf = .ok b ∧
      unionDecode F sd zero b = .ok (⟨⟨[], true, k, 0, 0, 0, 0, 0, 0⟩, k, 0, 0, 0⟩, 3) := by
  refine ⟨toLE 1 1 ++ (toLE 1 2 ++ (toLE 1 14 ++ (toLE 1 4 ++ (toLE 4 k ++ [])))), ?_, ?_⟩
  · simp [Un.encode, Sk.numSamples]
  · generalize hD : toLE 1 1 ++ (toLE 1 2 ++ (toLE 1 14 ++ (toLE 1 4 ++ (toLE 4 k ++ [])))) = D
    have hl : D.length = 8 := by
      rw [← hD]; simp only [List.length_append, toLE_length, List.length_nil]
    have g0 : getLE D 0 1 = .ok 1 := by rw [← hD]; readLE
    have g1 : getLE D 1 1 = .ok 2 := by rw [← hD]; readLE
    have g2 : getLE D 2 1 = .ok 14 := by rw [← hD]; readLE
    have g3 : getLE D 3 1 = .ok 4 := by rw [← hD]; readLE
    have g4 : getLE D 4 4 = .ok k := by rw [← hD]; readLE
    unfold unionDecode
    rw [checkLen_ok (by omega), checkLen_ok (by omega), checkLen_ok (by omega), checkLen_ok (by omega),
      checkLen_ok (by omega)]
    simp only [ok_bind, g0, g1, g2, g3, g4]
    simp [newUnion, new, show ¬ (k = 0 ∨ 2147483646 < k) by omega]

/-- `Result` does not look at the counter of M. -/
theorem result_settle (zero : T) (u : Un T) :
    u.result zero = Un.result zero { u with gadget := settle u.gadget } := rfl

/-- The decoded union is a valid union for the same samples, up to the counter of M. -/
theorem UInv.decoded {F : Codec} {P : T → Prop} {u : Un T} {src : List (T × ℚ)}
    {e : (T → Bool) → ℚ} (h : UInv u src e) (he : Encodable F P u.gadget) (zero : T) :
    UInv { u.decoded zero with gadget := settle (u.decoded zero).gadget } src e := by
  have hinv : Inv (settle (VarOpt.decoded zero u.gadget)) src e ∧
      (u.gadget.r = 0 → VarOpt.decoded zero u.gadget = u.gadget) := by
    rcases h.inv with w | ⟨H, g, R, rest, rw', c⟩
    · have hd := decoded_warm w (fun hg => by rw [h.gadget] at hg; cases hg) zero
      refine ⟨Or.inl ?_, fun _ => hd⟩
      rw [hd]
      exact ⟨w.k1, rfl, w.r0, w.len, w.le, w.pos, w.marks, w.src, w.est⟩
    · have hr : u.gadget.r ≠ 0 := by have := c.r1; omega
      refine ⟨Or.inr ⟨H, ⟨zero, -1, false⟩, R.map (fun x => ⟨x.item, -1, false⟩), [], rw', ?_⟩,
        fun h => absurd h hr⟩
      have e1 : u.gadget.slots.take u.gadget.h = H := by
        rw [c.slots, ← c.hlen, List.take_left]
      have e2 : (u.gadget.slots.drop (u.gadget.h + 1)).take u.gadget.r = R := by
        have e1 : u.gadget.slots = (H ++ [g]) ++ (R ++ rest) := by rw [c.slots]; simp
        have e2 : u.gadget.h + 1 = (H ++ [g]).length := by simp [c.hlen]
        rw [e2, e1, List.drop_left, ← c.rlen, List.take_left]
      have e3 : H.map (fun x => (⟨x.item, x.weight, u.gadget.gadget && x.mark⟩ : Slot T)) = H := by
        rw [h.gadget]
        simp
      refine ⟨?_, c.hlen, rfl, by rw [List.length_map]; exact c.rlen, c.full, c.r1, c.tot, c.heap,
        c.hge, ?_, ?_, c.light, c.sub, ?_⟩
      · show (_ ++ _ : List (Slot T)) = _
        rw [e1, e2, e3, if_pos (by omega), List.append_nil]
      · intro _
        show (if u.gadget.gadget then (u.gadget.slots.take u.gadget.h).countP Slot.mark else 0) = _
        rw [h.gadget, e1]
        rfl
      · rw [c.items, List.map_map]; rfl
      · intro p
        rw [c.est p]
        show _ = wsum p H + u.gadget.totalWeightR / u.gadget.r * _
        congr 3
        unfold cnt
        rw [List.countP_map]
        rfl
  refine ⟨hinv.1, ?_, h.gadget, h.k, h.count, ?_, h.tot0, h.seen, h.over, h.fresh⟩
  · intro hr
    have hr' : u.gadget.r ≠ 0 := hr
    obtain ⟨f1, f2, f3⟩ := he.full hr'
    show (_ ++ _ : List (Slot T)).length = u.gadget.k + 1
    rw [if_pos (by omega)]
    simp only [List.length_append, List.length_map, List.length_take, List.length_cons,
      List.length_drop]
    omega
  · intro hr
    have hd := hinv.2 hr
    have b := h.books hr
    refine ⟨?_, ?_, ?_⟩
    · show u.outerTauDenom ≤ (VarOpt.decoded zero u.gadget).slots.countP Slot.mark
      rw [hd]; exact b.le
    · show (VarOpt.decoded zero u.gadget).slots.countP Slot.mark ≠ 0 → _
      rw [hd]; exact b.some
    · show (VarOpt.decoded zero u.gadget).slots.countP Slot.mark = u.outerTauDenom →
        ∀ x ∈ (VarOpt.decoded zero u.gadget).slots, _
      rw [hd]; exact b.all

/-- Taking the result of a union in sampling mode with marks left gives a sketch that cannot be
written. -/
theorem migrate_too_long {u : Un T} {src : List (T × ℚ)} {e : (T → Bool) → ℚ} (hu : UInv u src e)
    (hr : u.gadget.r ≠ 0) (hm : u.gadget.numMarksInH ≠ 0) :
    Rand.All (fun s => s.r ≠ 0 ∧ s.n ≠ 0 ∧ s.h ≤ s.slots.length ∧ s.h + (s.r + 1) < s.slots.length)
      u.migrate := by
  have hE : EstI u.gadget src e := by
    rcases hu.inv with w | h
    · exact absurd w.r0 hr
    · exact h
  have hhp := marks_pos_h hE hu.gadget (Nat.pos_of_ne_zero hm)
  have hkk : u.migrateCopy.k = u.gadget.k := by
    show (if u.gadget.r = 0 ∧ u.gadget.h < u.gadget.k then u.gadget.h else u.gadget.k) = u.gadget.k
    rw [if_neg (fun h => hr h.1)]
  have hcopy : EstI u.migrateCopy src e := by
    obtain ⟨H, g, R, rest, rw', c⟩ := hE
    exact ⟨H, g, R, rest, rw', ⟨c.slots, c.hlen, rfl, c.rlen, by rw [hkk]; exact c.full, c.r1, c.tot,
      c.heap, c.hge, c.marks, c.items, c.light, c.sub, c.est⟩⟩
  have hnp : 0 < u.n := by
    have h1 := hu.inv.count
    have h3 := hu.count
    omega
  have hl : lengthsOk u.gadget := Or.inr ⟨Nat.pos_of_ne_zero hr, hu.tight hr⟩
  have hfull : u.gadget.k = u.gadget.h + u.gadget.r := by
    obtain ⟨H, g, R, rest, rw', c⟩ := hE
    exact c.full.symm
  have heq : u.migrate = (decreaseK u.migrateCopy >>= finishMigrate) := by
    unfold Un.migrate
    rw [if_neg (by omega), if_neg (fun h => h hl), if_neg (fun h => h (Or.inr hfull)),
      if_neg (by rw [hkk]; omega)]
  rw [heq]
  refine (decreaseK_est hcopy hu.gadget hhp hnp).1.bind fun t ht => ?_
  obtain ⟨e', hi, _⟩ := ht.inv
  refine (finishMigrate_spec hi (by rw [ht.gadget]; exact hu.gadget)
    (by rw [ht.n]; exact hnp)).1.mono fun t' ht' => ?_
  obtain ⟨ht', _⟩ := ht'
  obtain ⟨e'', hi'', _⟩ := ht'.inv
  have h1 := ht'.len
  have h2 := ht.len
  have h3 : u.migrateCopy.slots.length = u.gadget.k + 1 := hu.tight hr
  have h4 := ht.k
  have h5 := ht'.k
  have h6 : t'.n = u.n := ht'.n.trans ht.n
  have h7 := hi''.r_ne
  obtain ⟨H, g, R, rest, rw', c⟩ := hi''
  have h8 := c.full
  omega

end Verif.VarOpt
