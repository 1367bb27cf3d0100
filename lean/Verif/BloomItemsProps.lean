import Verif.XxHash

/-!
# C120: which calls concern the same item of a Bloom filter; C27: which images are accepted
-/

namespace Verif.Bloom

/-- The two items cannot be told apart: the three calls on any filter do the same with them. -/
def SameItem (d e : Datum) : Prop :=
  ∀ f : Filter, f.updateDatum xx d = f.updateDatum xx e ∧ f.queryDatum xx d = f.queryDatum xx e ∧
    f.queryAndUpdateDatum xx d = f.queryAndUpdateDatum xx e

theorem sameItem_of_hashes {d e : Datum} (h : ∀ seed, hashes xx seed d = hashes xx seed e) :
    SameItem d e := by
  intro f
  refine ⟨?_, ?_, ?_⟩
  · unfold Filter.updateDatum; rw [h]
  · unfold Filter.queryDatum; rw [h]
  · unfold Filter.queryAndUpdateDatum; rw [h]

theorem hashes_long (v seed : Word) :
    hashes xx seed (.long v) = hashes xx seed (.slice (toLE 8 v.toNat)) := by
  show some (hashLong v seed, hashLong v (hashLong v seed)) = some
    (Xx.xxh64 (toLE 8 v.toNat) seed, Xx.xxh64 (toLE 8 v.toNat) (Xx.xxh64 (toLE 8 v.toNat) seed))
  rw [hashLong_eq, hashLong_eq]

theorem hashes_float (b seed : Word) :
    hashes xx seed (.float b) = hashes xx seed (.long (Items.canonicalDouble b)) := by
  rw [hashes_long, ← canonFloat_eq]
  rfl

/-- C120.  The hash of an integer is the published xxHash64 of its eight little-endian bytes, for
every seed. -/
theorem C120_reference (v seed : Word) : hashLong v seed = Xx.xxh64 (toLE 8 v.toNat) seed :=
  hashLong_eq v seed

/-- C120.  An integer, its eight little-endian bytes and the array holding just that integer are one
item.  An array of integers, or of floating point numbers, is the item given by the bytes of its
elements in order; a string that is not empty is the item given by its bytes.  Empty strings and
empty arrays change nothing and are never found. -/
theorem C120_same_bytes (v : Word) (vs : List Word) (bs : List Nat) :
    SameItem (.long v) (.slice (toLE 8 v.toNat)) ∧
    SameItem (.longArray [v]) (.long v) ∧
    (vs ≠ [] → SameItem (.longArray vs) (.slice (vs.flatMap fun w => toLE 8 w.toNat)) ∧
      SameItem (.floatArray vs) (.slice (vs.flatMap fun w => toLE 8 w.toNat))) ∧
    (bs ≠ [] → SameItem (.str bs) (.slice bs)) ∧
    (∀ f : Filter, ∀ d ∈ [Datum.str [], .longArray [], .floatArray []],
      f.updateDatum xx d = .ok f ∧ f.queryDatum xx d = .ok (f, false) ∧
      f.queryAndUpdateDatum xx d = .ok (f, false)) := by
  have one : toLE 8 v.toNat = [v].flatMap fun w => toLE 8 w.toNat := by
    rw [List.flatMap_cons, List.flatMap_nil, List.append_nil]
  refine ⟨sameItem_of_hashes (hashes_long v), sameItem_of_hashes fun seed => ?_, fun h => ?_,
    fun h => ?_, ?_⟩
  · rw [hashes_long, one]
    rfl
  · obtain ⟨w, ws, rfl⟩ := List.exists_cons_of_ne_nil h
    exact ⟨sameItem_of_hashes fun _ => rfl, sameItem_of_hashes fun _ => rfl⟩
  · obtain ⟨w, ws, rfl⟩ := List.exists_cons_of_ne_nil h
    exact sameItem_of_hashes fun _ => rfl
  · intro f d hd
    simp only [List.mem_cons, List.not_mem_nil, or_false] at hd
    rcases hd with rfl | rfl | rfl <;> exact ⟨rfl, rfl, rfl⟩

/-- C120.  Two different integers never have the same hash values, whatever the seed: already the
first of the two values differs. -/
theorem C120_integers_differ (seed v w : Word) :
    ((hashes xx seed (.long v)).map Prod.fst = (hashes xx seed (.long w)).map Prod.fst ↔ v = w) ∧
    (hashes xx seed (.long v) = hashes xx seed (.long w) ↔ v = w) := by
  have key : ∀ e : hashLong v seed = hashLong w seed, v = w := fun e => hashLong_inj e
  refine ⟨⟨fun h => key (Option.some.inj h), fun h => by rw [h]⟩,
    ⟨fun h => key (congrArg Prod.fst (Option.some.inj h)), fun h => by rw [h]⟩⟩

/-- C120.  Two floating point numbers are one item exactly when they are the same number (all NaNs
being one number and both zeros being zero); otherwise they have different hash values.  A floating
point number and an integer are one item only when the integer is the bit pattern of the number. -/
theorem C120_floats (a b v : Word) :
    (Items.value a = Items.value b → SameItem (.float a) (.float b)) ∧
    (∀ seed, hashes xx seed (.float a) = hashes xx seed (.float b) ↔
      Items.value a = Items.value b) ∧
    (∀ seed, hashes xx seed (.float a) = hashes xx seed (.long v) ↔
      Items.canonicalDouble a = v) := by
  have key : ∀ seed, hashes xx seed (.float a) = hashes xx seed (.float b) ↔
      Items.value a = Items.value b := by
    intro seed
    rw [hashes_float, hashes_float, (C120_integers_differ seed _ _).2]
    exact (Items.C91_float_bits a b).1
  refine ⟨fun h => sameItem_of_hashes fun seed => (key seed).2 h, key, fun seed => ?_⟩
  rw [hashes_float, (C120_integers_differ seed _ _).2]

/-- The two zeros are one item, one and two are not; the integer one is not the number one. -/
example : SameItem (.float 0#64) (.float 0x8000000000000000#64) ∧
    hashes xx 9001#64 (.float 0x3ff0000000000000#64) ≠
      hashes xx 9001#64 (.float 0x4000000000000000#64) ∧
    hashes xx 9001#64 (.float 0x3ff0000000000000#64) ≠ hashes xx 9001#64 (.long 1#64) := by
  refine ⟨(C120_floats _ _ 0).1 ?_, fun h => ?_, fun h => ?_⟩
  · exact ((Items.C91_float_bits _ _).1).1 (by decide +kernel)
  · have h1 := ((C120_floats _ _ 0).2.1 _).1 h
    exact absurd (((Items.C91_float_bits _ _).1).2 h1) (by decide +kernel)
  · exact absurd (((C120_floats _ 0 _).2.2 _).1 h) (by decide +kernel)

/-- Published test values of xxHash64 (these are checks of the specification, not of the code). -/
example : Xx.xxh64 [] 0 = 0xef46db3751d8e999#64 ∧ Xx.xxh64 [97] 0 = 0xd24ec4f1a98c6e5b#64 ∧
    Xx.xxh64 [97, 98, 99] 0 = 0x44bc2cf5ad770999#64 ∧
    Xx.xxh64 ([78, 111, 98, 111, 100, 121, 32, 105, 110, 115, 112, 101, 99, 116, 115, 32, 116, 104,
      101, 32, 115, 112, 97, 109, 109, 105, 115, 104, 32, 114, 101, 112, 101, 116, 105, 116, 105,
      111, 110]) 0 = 0xfbcea83c8a378bf1#64 := by decide +kernel

/-! ## Images -/

theorem readWords_ok (buf : List Nat) : ∀ (n off : Nat), off + 8 * n ≤ buf.length →
    readWords buf n off =
      .ok ((List.range n).map fun i => BitVec.ofNat 64 (getT buf (off + 8 * i) 8)) := by
  intro n
  induction n with
  | zero => intro off _; rfl
  | succ n ih =>
    intro off h
    rw [readWords, getLE_ok (by omega), Outcome.ok_bind, ih (off + 8) (by omega), Outcome.ok_bind,
      List.range_succ_eq_map, List.map_cons, List.map_map]
    simp only [Outcome.pure_eq, Nat.mul_zero, Nat.add_zero]
    congr 2
    apply List.map_congr_left
    intro i _
    simp only [Function.comp, Nat.succ_eq_add_one]
    rw [show off + 8 + 8 * i = off + 8 * (i + 1) by omega]

/-- A field of an image. -/
def field (buf : List Nat) (o k : Nat) : Nat := fromLE ((buf.drop o).take k)

/-- What an image must look like, and the filter it stands for: the third and fourth line for an
empty filter, the others for one with bits.  The count of set bits is taken from the image unless
that holds the mark for "unknown", and then it is counted. -/
structure Image (buf : List Nat) (r : Filter) : Prop where
  header : 24 ≤ buf.length ∧ field buf 1 1 = 1 ∧ field buf 2 1 = 21 ∧ field buf 4 2 ≠ 0
  parameters : r.seed = BitVec.ofNat 64 (field buf 8 8) ∧ r.numHashes = field buf 4 2 ∧
    r.isDirty = false ∧ r.capacityBits = 64 * field buf 16 4
  empty : (field buf 3 1).testBit 2 = true → field buf 0 1 = 3 ∧ buf.length = 24 ∧
    r.numBitsSet = 0 ∧ r.bitArray = List.replicate (field buf 16 4) 0#64
  full : (field buf 3 1).testBit 2 = false → field buf 0 1 = 4 ∧
    buf.length = 32 + 8 * field buf 16 4 ∧
    r.bitArray = ((List.range (field buf 16 4)).map fun i =>
      BitVec.ofNat 64 (field buf (32 + 8 * i) 8)) ∧
    r.numBitsSet = (if field buf 24 8 = 2 ^ 64 - 1 then popcount r.bitArray else field buf 24 8)

theorem and4_iff (n : Nat) : ((n &&& 4) != 0) = n.testBit 2 := by
  rw [Nat.testBit_eq_decide_div_mod_eq]
  have h : n &&& 4 = 4 * (n / 4 % 2) := by
    apply Nat.eq_of_testBit_eq
    intro i
    rw [Nat.testBit_and, show (4 : Nat) = 2 ^ 2 from rfl, Nat.testBit_two_pow,
      Nat.testBit_two_pow_mul]
    by_cases h2 : 2 = i
    · subst h2
      simp [Nat.testBit_eq_decide_div_mod_eq]
    · by_cases h3 : 2 ≤ i
      · obtain ⟨j, rfl⟩ : ∃ j, i = 3 + j := ⟨i - 3, by omega⟩
        have : (n / 2 ^ 2 % 2).testBit (3 + j - 2) = false := by
          rw [show 3 + j - 2 = j + 1 by omega, Nat.testBit_succ]
          rw [show n / 2 ^ 2 % 2 / 2 = 0 by omega]
          exact Nat.zero_testBit j
        rw [this]
        simp
        omega
      · simp [h2, h3]
  rw [h]
  by_cases hc : n / 4 % 2 = 1
  · simp [hc]
  · rw [show n / 4 % 2 = 0 by omega]; simp

/-- C27.  Exactly the images of that form are accepted, and each gives the filter it stands for; in
particular trailing or missing bytes are refused, and an image whose count is marked "unknown" gives
a filter with the exact count.  No image makes the call panic. -/
theorem C27_accepted_images (buf : List Nat) (r : Filter) :
    (fromSlice buf = .ok r ↔ Image buf r) ∧ fromSlice buf ≠ .panic := by
  by_cases hl : buf.length < 24
  · have h : fromSlice buf = .err "insufficient data" := if_pos hl
    rw [h]
    exact ⟨⟨fun h => (nomatch h), fun h => absurd h.header.1 (by omega)⟩, by simp⟩
  unfold fromSlice
  rw [if_neg hl]
  rw [getLE_ok (by omega)]; simp only [Outcome.ok_bind]
  rw [getLE_ok (by omega)]; simp only [Outcome.ok_bind]
  rw [getLE_ok (by omega)]; simp only [Outcome.ok_bind]
  rw [getLE_ok (by omega)]; simp only [Outcome.ok_bind]
  rw [getLE_ok (by omega)]; simp only [Outcome.ok_bind]
  rw [getLE_ok (by omega)]; simp only [Outcome.ok_bind]
  rw [getLE_ok (by omega)]; simp only [Outcome.ok_bind]
  have hg : ∀ o k, getT buf o k = field buf o k := fun _ _ => rfl
  simp only [hg, and4_iff]
  by_cases h1 : field buf 1 1 = 1
  swap
  · rw [if_pos h1]
    exact ⟨⟨fun h => (nomatch h), fun h => absurd h.header.2.1 h1⟩, by simp⟩
  rw [if_neg (not_not.2 h1)]
  by_cases h2 : field buf 2 1 = 21
  swap
  · rw [if_pos h2]
    exact ⟨⟨fun h => (nomatch h), fun h => absurd h.header.2.2.1 h2⟩, by simp⟩
  rw [if_neg (not_not.2 h2)]
  cases he : (field buf 3 1).testBit 2 with
  | true =>
    simp only [if_true]
    by_cases h3 : field buf 0 1 = 3
    swap
    · rw [if_pos h3]
      exact ⟨⟨fun h => (nomatch h), fun h => absurd (h.empty he).1 h3⟩, by simp⟩
    rw [if_neg (not_not.2 h3)]
    by_cases h4 : field buf 4 2 = 0
    · rw [if_pos h4]
      exact ⟨⟨fun h => (nomatch h), fun h => absurd h4 h.header.2.2.2⟩, by simp⟩
    rw [if_neg h4]
    by_cases h5 : buf.length = 24
    swap
    · rw [if_pos h5]
      exact ⟨⟨fun h => (nomatch h), fun h => absurd (h.empty he).2.1 h5⟩, by simp⟩
    rw [if_neg (not_not.2 h5)]
    refine ⟨⟨fun h => ?_, fun h => ?_⟩, by simp⟩
    · obtain rfl := Outcome.ok.inj h
      exact ⟨⟨by omega, h1, h2, h4⟩, ⟨rfl, rfl, rfl, Nat.mul_comm _ _⟩,
        fun _ => ⟨h3, h5, rfl, rfl⟩, fun h => by rw [he] at h; simp at h⟩
    · obtain ⟨p1, p2, p3, p4⟩ := h.parameters
      obtain ⟨-, -, e1, e2⟩ := h.empty he
      obtain ⟨seed, nh, dirty, cap, nbs, arr⟩ := r
      simp only at p1 p2 p3 p4 e1 e2
      subst p1 p2 p3 p4 e1 e2
      rw [Nat.mul_comm]
  | false =>
    simp only [Bool.false_eq_true, if_false]
    by_cases h3 : field buf 0 1 = 4
    swap
    · rw [if_pos h3]
      exact ⟨⟨fun h => (nomatch h), fun h => absurd (h.full he).1 h3⟩, by simp⟩
    rw [if_neg (not_not.2 h3)]
    by_cases h4 : field buf 4 2 = 0
    · rw [if_pos h4]
      exact ⟨⟨fun h => (nomatch h), fun h => absurd h4 h.header.2.2.2⟩, by simp⟩
    rw [if_neg h4]
    by_cases h5 : buf.length = 32 + field buf 16 4 * 8
    swap
    · rw [if_pos h5]
      exact ⟨⟨fun h => (nomatch h), fun h => absurd (h.full he).2.1 (by omega)⟩, by simp⟩
    rw [if_neg (not_not.2 h5), getLE_ok (by omega), Outcome.ok_bind,
      readWords_ok _ _ _ (by omega), Outcome.ok_bind]
    simp only [hg, countBitsSet_eq]
    generalize hw : (List.range (field buf 16 4)).map (fun i =>
      BitVec.ofNat 64 (field buf (32 + 8 * i) 8)) = ws
    have hmark : (0xFFFFFFFFFFFFFFFF : Nat) = 2 ^ 64 - 1 := by norm_num
    rw [hmark]
    by_cases h6 : field buf 24 8 = 2 ^ 64 - 1
    · rw [if_pos h6]
      refine ⟨⟨fun h => ?_, fun h => ?_⟩, by simp⟩
      · obtain rfl := Outcome.ok.inj h
        refine ⟨⟨by omega, h1, h2, h4⟩, ⟨rfl, rfl, rfl, Nat.mul_comm _ _⟩,
          fun h => by rw [he] at h; simp at h, fun _ => ⟨h3, by omega, hw.symm, ?_⟩⟩
        rw [if_pos h6]
      · obtain ⟨p1, p2, p3, p4⟩ := h.parameters
        obtain ⟨-, -, e1, e2⟩ := h.full he
        rw [if_pos h6] at e2
        rw [hw] at e1
        obtain ⟨seed, nh, dirty, cap, nbs, arr⟩ := r
        simp only at p1 p2 p3 p4 e1 e2
        subst p1 p2 p3 p4 e1 e2
        rw [Nat.mul_comm]
    · rw [if_neg h6]
      refine ⟨⟨fun h => ?_, fun h => ?_⟩, by simp⟩
      · obtain rfl := Outcome.ok.inj h
        refine ⟨⟨by omega, h1, h2, h4⟩, ⟨rfl, rfl, rfl, Nat.mul_comm _ _⟩,
          fun h => by rw [he] at h; simp at h, fun _ => ⟨h3, by omega, hw.symm, ?_⟩⟩
        rw [if_neg h6]
      · obtain ⟨p1, p2, p3, p4⟩ := h.parameters
        obtain ⟨-, -, e1, e2⟩ := h.full he
        rw [if_neg h6] at e2
        rw [hw] at e1
        obtain ⟨seed, nh, dirty, cap, nbs, arr⟩ := r
        simp only at p1 p2 p3 p4 e1 e2
        subst p1 p2 p3 p4 e1 e2
        rw [Nat.mul_comm]

/-- An image with one word, an unknown count and three set bits. -/
example : fromSlice ([4, 1, 21, 0, 2, 0, 0, 0] ++ [9, 0, 0, 0, 0, 0, 0, 0] ++ [1, 0, 0, 0, 0, 0, 0, 0]
    ++ [255, 255, 255, 255, 255, 255, 255, 255] ++ [7, 0, 0, 0, 0, 0, 0, 0]) =
    .ok ⟨9#64, 2, false, 64, 3, [7#64]⟩ := by decide +kernel

end Verif.Bloom
