import Verif.VarOptSerdeProps

/-!
# C110: the advertised size of a serialized VarOpt sketch
-/

namespace Verif.VarOpt

open Verif.Items Rand

variable {T : Type}

/-- `SerializedSizeBytes`, sampling/varopt_items_sketch.go l.784-809 (`preambleIntsEmpty` is 1,
reservoir_items_sketch.go l.311) -/
def serializedSizeBytes (sd : Serde T) (s : Sk T) : Outcome Nat :=
  if s.n = 0 then .ok 8
  else
    let base := if s.r = 0 then 3 * 8 else 4 * 8
    let base := base + s.h * 8
    let base := if s.gadget then base + s.h / 8 + (if s.h % 8 > 0 then 1 else 0) else base
    match s.all with
    | .ok l => .ok (base + (l.map fun q => sd.sizeOf q.1).sum)
    | .err e => .err e
    | .panic => .panic

theorem low3 (i : Nat) : i &&& 7 = i % 8 := Nat.and_two_pow_sub_one_eq_mod i 3

theorem writeMarks_length (ms : List Bool) : ∀ i val,
    (writeMarks ms i val).length = (ms.length + i % 8) / 8 + (if (ms.length + i % 8) % 8 > 0 then 1 else 0) := by
  induction ms with
  | nil =>
    intro i val
    simp only [writeMarks, low3, List.length_nil]
    split <;> simp <;> omega
  | cons b ms ih =>
    intro i val
    simp only [writeMarks, low3]
    split
    · rw [List.length_append, toLE_length, ih, List.length_cons]
      rename_i h
      have h1 : (i + 1) % 8 = 0 := by omega
      rw [h1, h]
      split <;> split <;> omega
    · rw [ih, List.length_cons]
      rename_i h
      have h1 : (i + 1) % 8 = i % 8 + 1 := by omega
      rw [h1]
      split <;> split <;> omega

theorem encode_length (F : Codec) {sd : Serde T} {P : T → Prop} (hsd : Lawful sd P) (rf : Nat)
    {s : Sk T} (hn : s.n ≠ 0)
    (hlen : s.slots.length = if s.r > 0 then s.h + (s.r + 1) else s.h) (hk : s.h + s.r ≤ s.k) :
    ∃ b, encode F sd rf s = .ok b ∧ serializedSizeBytes sd s = .ok b.length := by
  have hle : s.h ≤ s.slots.length := by split at hlen <;> omega
  have hns : s.numSamples = s.h + s.r := by unfold Sk.numSamples; omega
  have hall : s.all = .ok s.samples := by
    unfold Sk.all
    rw [if_pos]
    refine ⟨hle, fun hr => Or.inr ?_⟩
    rw [hns, hlen, if_pos hr]; omega
  have hflat : ∀ l : List (Slot T),
      (l.flatMap fun x => toLE 8 (F.bits x.weight)).length = l.length * 8 := by
    intro l
    induction l with
    | nil => rfl
    | cons x l ih => rw [List.flatMap_cons, List.length_append, toLE_length, ih, List.length_cons]; omega
  have hsum : ∀ l : List (Slot T), ∀ w : Slot T → ℚ,
      ((l.map fun x => (x.item, w x)).map fun q => sd.sizeOf q.1).sum
        = (sd.many (l.map Slot.item)).length := by
    intro l w
    rw [← hsd.total, List.map_map, List.map_map]
    rfl
  have ht : (s.slots.take s.h).length = s.h := by rw [List.length_take]; omega
  obtain ⟨b, hb⟩ : ∃ b, encode F sd rf s = .ok b := by
    unfold encode
    simp only []
    rw [if_neg (by tauto), if_neg (by omega), if_neg (by rw [hlen]; simp)]
    exact ⟨_, rfl⟩
  refine ⟨b, hb, ?_⟩
  · unfold encode at hb
    simp only [] at hb
    rw [if_neg (by tauto), if_neg (by omega), if_neg (by rw [hlen]; simp)] at hb
    injection hb with hb
    rw [← hb]
    unfold serializedSizeBytes
    rw [if_neg hn, hall]
    simp only []
    congr 1
    unfold Sk.samples Sk.hSlots Sk.rSlots
    rw [hns, show s.h + s.r - s.h = s.r by omega, List.map_append, List.sum_append,
      hsum]
    have hm := writeMarks_length ((s.slots.take s.h).map Slot.mark) 0 0
    rw [List.length_map, ht] at hm
    simp only [Nat.zero_mod, Nat.add_zero] at hm
    simp only [List.length_append, toLE_length, hflat, ht]
    by_cases hr : s.r = 0
    · have hr' : ¬ s.r > 0 := by omega
      cases hg : s.gadget
      · simp only [if_pos hr, if_neg hr', Bool.false_eq_true, if_false, List.length_nil, List.map_nil,
          List.sum_nil]
        omega
      · simp only [if_pos hr, if_neg hr', if_true, List.length_nil, List.map_nil, List.sum_nil, hm]
        omega
    · have hr' : s.r > 0 := by omega
      cases hg : s.gadget
      · simp only [if_neg hr, if_pos hr', Bool.false_eq_true, if_false, List.length_nil, toLE_length,
          hsum]
        omega
      · simp only [if_neg hr, if_pos hr', if_true, toLE_length, hsum, hm]
        omega

/-- **C110.** For every stream of positive weights, whatever the generator returned, the sketch is
written without error and the number of bytes written is exactly what `SerializedSizeBytes` said. -/
theorem C110_size (F : Codec) {sd : Serde T} {P : T → Prop} (hsd : Lawful sd P) {k : Nat} (rf : Nat)
    (h1 : 1 ≤ k) (h2 : k ≤ 2 ^ 31 - 2) (stream : List (T × ℚ)) (hw : ∀ q ∈ stream, 0 < q.2) :
    All (fun s => ∃ b, encode F sd rf s = .ok b ∧ serializedSizeBytes sd s = .ok b.length)
      (sample k stream) := by
  refine (sample_spec h1 h2 hw).1.mono fun s i => ?_
  by_cases hne : stream = []
  · subst hne
    rw [sample_empty i]
    obtain ⟨b, hb⟩ : ∃ b, encode F sd rf (⟨[], false, k, 0, 0, 0, 0, 0, 0⟩ : Sk T) = .ok b := by
      unfold encode
      exact ⟨_, if_pos ⟨rfl, rfl⟩⟩
    refine ⟨b, hb, ?_⟩
    unfold encode at hb
    simp only [] at hb
    rw [if_pos ⟨trivial, trivial⟩] at hb
    injection hb with hb
    rw [← hb]
    simp only [serializedSizeBytes, if_true, List.length_append, toLE_length]
  · obtain ⟨e', hi, _⟩ := i.inv
    rw [List.nil_append] at hi
    have hpos : 0 < stream.length := List.length_pos_of_ne_nil hne
    have hn : s.n = stream.length := by rw [i.n]; simp
    have ht := i.tight (fun h => absurd rfl h)
    have v : Valid s := hi.valid (by omega)
    refine encode_length F hsd rf (by omega) ?_ ?_
    · by_cases hr : s.r = 0
      · rw [if_neg (by omega)]
        rcases hi with w | h
        · exact w.len
        · exact absurd hr h.r_ne
      · have := v.full hr
        have := ht hr
        rw [if_pos (by omega)]; omega
    · by_cases hr : s.r = 0
      · rcases hi with w | h
        · have := w.le; omega
        · exact absurd hr h.r_ne
      · have := v.full hr; omega

/-- a stream in sampling mode, fixed-width items; and strings -/
example := C110_size natCodec (fixed_lawful 8) (k := 2) 3 (by decide) (by decide) _ example_weights
example := C110_size natCodec strings_lawful (k := 1) 3 (by decide) (by decide)
  [([104, 105], 2), ([], 5)] (by simp)

end Verif.VarOpt
