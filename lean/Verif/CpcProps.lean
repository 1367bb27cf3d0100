import Verif.CpcUnionRun

/-!
# Properties of the CPC sketch and its union (C62 - C66)

A hashed item is a pair of 64-bit words `(h0, h1)` (the two halves of the 128-bit MurmurHash3).
The specification of the sketch is a set of cells: item `(h0, h1)` hits row `h0 mod 2^lgK` and
column `63 - log2 h1`, the number of leading zeros of `h1`, at most 63.
-/

namespace Verif.Cpc

open Outcome

/-! ## Specification -/

/-- a hashed item -/
abbrev Hash := BitVec 64 × BitVec 64

/-- the cell of an item -/
def Hits (lgK : Nat) (h : Hash) (r c : Nat) : Prop :=
  h.1.toNat % 2 ^ lgK = r ∧ 63 - Nat.log2 h.2.toNat = c

instance (lgK : Nat) (h : Hash) (r c : Nat) : Decidable (Hits lgK h r c) := by
  unfold Hits; infer_instance

/-- `m` has exactly the bits of the items of `hs` -/
def MatrixOf (lgK : Nat) (hs : List Hash) (m : List (BitVec 64)) : Prop :=
  m.length = 2 ^ lgK ∧ ∀ r row, m[r]? = some row → ∀ c, c < 64 →
    (row.getLsbD c = true ↔ ∃ h ∈ hs, Hits lgK h r c)

/-- the number of distinct cells hit by the items -/
def cells (lgK : Nat) (hs : List Hash) : Nat :=
  (hs.map fun h => (h.1.toNat % 2 ^ lgK, 63 - Nat.log2 h.2.toNat)).toFinset.card

theorem clz_log (x : BitVec 64) : min 63 (clz x) = 63 - Nat.log2 x.toNat := by
  have hx : x = BitVec.ofNat 64 x.toNat := by simp
  have hlt := x.isLt
  by_cases h0 : x.toNat = 0
  · have h64 : 63 ≤ clz x := by
      by_contra hcon
      have := (clz_eq_iff (n := x.toNat) (c := clz x) hlt (by omega)).mp (by rw [← hx])
      have h2 := Nat.two_pow_pos (63 - clz x)
      omega
    rw [h0]
    simp only [Nat.log2_zero]
    omega
  · have h1 : 2 ^ Nat.log2 x.toNat ≤ x.toNat := Nat.log2_self_le h0
    have h2 : x.toNat < 2 ^ (Nat.log2 x.toNat + 1) := Nat.lt_log2_self
    have h3 : Nat.log2 x.toNat < 64 := by
      by_contra hcon
      have : 2 ^ 64 ≤ 2 ^ Nat.log2 x.toNat := Nat.pow_le_pow_right (by omega) (by omega)
      omega
    have := (clz_eq_iff (n := x.toNat) (c := 63 - Nat.log2 x.toNat) hlt (by omega)).mpr
      ⟨by rw [show 63 - (63 - Nat.log2 x.toNat) = Nat.log2 x.toNat by omega]; exact h1,
       by rw [show 64 - (63 - Nat.log2 x.toNat) = Nat.log2 x.toNat + 1 by omega]; exact h2⟩
    rw [← hx] at this
    omega

theorem mem_coupons {lgK : Nat} {hs : List Hash} {r c : Nat} (hc : c < 64) :
    64 * r + c ∈ coupons lgK hs ↔ ∃ h ∈ hs, Hits lgK h r c := by
  unfold coupons coupon Hits
  simp only [List.mem_toFinset, List.mem_map]
  constructor
  · rintro ⟨p, hp, he⟩
    refine ⟨p, hp, by omega, ?_⟩
    rw [← clz_log]; omega
  · rintro ⟨p, hp, h1, h2⟩
    refine ⟨p, hp, ?_⟩
    rw [clz_log]; omega

theorem matrixOf_iff {lgK : Nat} {hs : List Hash} {m : List (BitVec 64)} :
    MatrixOf lgK hs m ↔ IsMatrix (2 ^ lgK) m (coupons lgK hs) := by
  constructor
  · rintro ⟨h1, h2⟩
    refine ⟨h1, fun r row hr c hc => ?_⟩
    have h3 := h2 r row hr c hc
    rw [← mem_coupons hc] at h3
    cases hb : row.getLsbD c
    · rw [hb] at h3
      simp only [Bool.false_eq_true, false_iff] at h3
      exact (decide_eq_false h3).symm
    · exact (decide_eq_true (h3.mp hb)).symm
  · intro h
    refine ⟨h.1, fun r row hr c hc => ?_⟩
    rw [h.bit hr hc, decide_eq_true_eq, mem_coupons hc]

theorem cells_eq (lgK : Nat) (hs : List Hash) : cells lgK hs = (coupons lgK hs).card := by
  unfold cells coupons
  have hmap : hs.map (coupon lgK) =
      (hs.map fun h => (h.1.toNat % 2 ^ lgK, 63 - Nat.log2 h.2.toNat)).map
        (fun p : Nat × Nat => 64 * p.1 + p.2) := by
    rw [List.map_map]
    apply List.map_congr_left
    intro h _
    show 64 * (h.1.toNat % 2 ^ lgK) + min 63 (clz h.2) = _
    rw [clz_log]; rfl
  rw [hmap]
  have himg : ∀ l : List (Nat × Nat), (l.map (fun p : Nat × Nat => 64 * p.1 + p.2)).toFinset =
      l.toFinset.image (fun p : Nat × Nat => 64 * p.1 + p.2) := by
    intro l; ext x; simp
  rw [himg]
  symm
  apply Finset.card_image_of_injOn
  intro a ha b hb hab
  simp only [Finset.mem_coe, List.mem_toFinset, List.mem_map] at ha hb
  obtain ⟨h, _, rfl⟩ := ha
  obtain ⟨h', _, rfl⟩ := hb
  simp only at hab
  have e1 : 63 - Nat.log2 h.2.toNat < 64 := by omega
  have e2 : 63 - Nat.log2 h'.2.toNat < 64 := by omega
  ext
  · show h.1.toNat % 2 ^ lgK = h'.1.toNat % 2 ^ lgK
    omega
  · show 63 - Nat.log2 h.2.toNat = 63 - Nat.log2 h'.2.toNat
    omega

theorem coupons_congr {lgK : Nat} {hs hs' : List Hash} (h : ∀ x, x ∈ hs ↔ x ∈ hs') :
    coupons lgK hs = coupons lgK hs' := by
  unfold coupons
  ext x
  simp only [List.mem_toFinset, List.mem_map, h]

theorem start {lgK seed : Nat} {c : Sk} (hc : newSk lgK seed = .ok c) :
    SkInv c ∅ ∧ c.lgK = lgK ∧ c.seed = seed ∧ c.merged = false ∧ c.kxp = 2 ^ lgK ∧ c.hip = 0 := by
  by_cases h : 4 ≤ lgK ∧ lgK ≤ 26
  · obtain ⟨c', e, h1, h2, h3, h4, h5, h6⟩ := SkInv.new (seed := seed) h.1 h.2
    rw [e] at hc
    cases hc
    exact ⟨h1, h2, h4, h3, h5, h6⟩
  · rw [new_err (by omega)] at hc
    cases hc

theorem run_start {lgK seed : Nat} {c c' : Sk} {hs : List Hash} (hc : newSk lgK seed = .ok c)
    (hr : run c hs = .ok c') :
    SkInv c' (coupons lgK hs) ∧ c'.lgK = lgK ∧ c'.seed = seed ∧ c'.merged = false := by
  obtain ⟨h1, h2, h3, h4, _⟩ := start hc
  obtain ⟨h5, h6, h7, h8⟩ := run_sound hs h1 hr
  rw [Finset.empty_union, h2] at h5
  exact ⟨h5, h6.trans h2, h7.trans h3, h8.trans h4⟩

/-! ## C62: the content of a sketch is the set of cells hit by its stream -/

/-- The bit matrix of a sketch has exactly the bits hit by the stream, the number of coupons is
their number, and the sketch validates. -/
theorem C62_matrix {lgK seed : Nat} {c c' : Sk} {hs : List Hash} (hc : newSk lgK seed = .ok c)
    (hr : run c hs = .ok c') :
    (∃ m, bitMatrix c' = .ok m ∧ MatrixOf lgK hs m) ∧ c'.num = cells lgK hs ∧
      validate c' = .ok true := by
  obtain ⟨h, hl, _, _⟩ := run_start hc hr
  obtain ⟨m, em, hm⟩ := bitMatrix_spec h
  rw [hl] at hm
  refine ⟨⟨m, em, matrixOf_iff.mpr hm⟩, by rw [h.num, cells_eq], ?_⟩
  unfold validate
  have hv : ∀ x ∈ coupons lgK hs, x < 64 * 2 ^ lgK := by
    intro x hx; have := h.valid x hx; rwa [hl] at this
  rw [em, ok_bind, countBits_eq hm hv, h.num]
  simp

/-- Order and repetitions of the items do not matter. -/
theorem C62_order {lgK seed seed' : Nat} {c d c' d' : Sk} {hs hs' : List Hash}
    (hc : newSk lgK seed = .ok c) (hd : newSk lgK seed' = .ok d)
    (hr : run c hs = .ok c') (hr' : run d hs' = .ok d') (he : ∀ x, x ∈ hs ↔ x ∈ hs') :
    bitMatrix c' = bitMatrix d' ∧ c'.num = d'.num := by
  obtain ⟨h1, hl1, _, _⟩ := run_start hc hr
  obtain ⟨h2, hl2, _, _⟩ := run_start hd hr'
  rw [← coupons_congr he] at h2
  obtain ⟨m1, e1, hm1⟩ := bitMatrix_spec h1
  obtain ⟨m2, e2, hm2⟩ := bitMatrix_spec h2
  rw [hl1] at hm1
  rw [hl2] at hm2
  rw [e1, e2, hm1.ext hm2, h1.num, h2.num]
  exact ⟨rfl, rfl⟩

/-- An item met before leaves the sketch exactly as it is: estimate, counters, tables. -/
theorem C62_duplicate {lgK seed : Nat} {c c' : Sk} {hs : List Hash} (hc : newSk lgK seed = .ok c)
    (hr : run c hs = .ok c') {h : Hash} (hh : h ∈ hs) : hashUpdate c' h.1 h.2 = .ok c' := by
  obtain ⟨hi, hl, _, _⟩ := run_start hc hr
  apply hash_known hi
  rw [hl]
  unfold coupons
  simp only [List.mem_toFinset, List.mem_map]
  exact ⟨h, hh, rfl⟩

/-- The sketch agrees with the reference bit matrix of the package. -/
theorem C62_reference {lgK seed : Nat} {c c' : Sk} {hs : List Hash} (hc : newSk lgK seed = .ok c)
    (hr : run c hs = .ok c') :
    ∃ b, (BM.new lgK).run hs = .ok b ∧ bitMatrix c' = .ok b.rows ∧ c'.num = b.num := by
  obtain ⟨h, hl, _, _⟩ := run_start hc hr
  have hz : IsMatrix (2 ^ lgK) (BM.new lgK).rows ∅ :=
    (Rep.replicate _ _).congr (by intro r c _ _; simp)
  obtain ⟨b, eb, _, hb, nb⟩ := BM.run_spec hs (b := BM.new lgK) hz rfl
  rw [Finset.empty_union] at hb nb
  obtain ⟨m, em, hm⟩ := bitMatrix_spec h
  rw [hl] at hm
  exact ⟨b, eb, by rw [em, hm.ext hb], by rw [h.num, nb]; rfl⟩

/-- `lgK` outside 4 .. 26 is refused. -/
theorem C62_lgK {lgK seed : Nat} : (∃ c, newSk lgK seed = .ok c) ↔ 4 ≤ lgK ∧ lgK ≤ 26 := by
  constructor
  · rintro ⟨c, e⟩
    by_contra hcon
    rw [new_err (by omega)] at e
    cases e
  · rintro ⟨h1, h2⟩
    obtain ⟨c, e, _⟩ := SkInv.new (seed := seed) h1 h2
    exact ⟨c, e⟩

/-! ## C63: when updates succeed -/

/-- Any stream hitting fewer than `25 * 2^lgK` distinct cells is accepted, for `lgK` up to 20. -/
theorem C63_accepts {lgK seed : Nat} {c : Sk} (hc : newSk lgK seed = .ok c) (h20 : lgK ≤ 20)
    {hs : List Hash} (hn : cells lgK hs < 25 * 2 ^ lgK) : ∃ c', run c hs = .ok c' := by
  obtain ⟨h, hl, _⟩ := start hc
  rw [run_iff hs h]
  intro n _
  right
  rw [hl, Finset.empty_union]
  apply room_of_moderate h20
  rw [cells_eq] at hn
  refine lt_of_le_of_lt (Finset.card_le_card ?_) hn
  intro x hx
  unfold coupons at *
  simp only [List.mem_toFinset, List.mem_map] at *
  obtain ⟨a, ha, he⟩ := hx
  exact ⟨a, List.mem_of_mem_take ha, he⟩

/-- the surprises of a set of cells with the window at column `o`: cells missing before the window
and cells present behind it -/
def surprises (lgK o : Nat) (B : Nat → Nat → Prop) [∀ r c, Decidable (B r c)] : Nat :=
  ((Finset.range (2 ^ lgK) ×ˢ Finset.range 64).filter fun p =>
    (p.2 < o ∧ ¬ B p.1 p.2) ∨ (o + 8 ≤ p.2 ∧ B p.1 p.2)).card

theorem surprises_eq {lgK o : Nat} {S : Finset Nat} :
    (surp (2 ^ lgK) o S).card = surprises lgK o (fun r c => 64 * r + c ∈ S) := by
  unfold surprises
  symm
  apply Finset.card_bij (fun p _ => 64 * p.1 + p.2)
  · intro p hp
    simp only [Finset.mem_filter, Finset.mem_product, Finset.mem_range] at hp
    rw [mem_surp]
    have h1 : (64 * p.1 + p.2) % 64 = p.2 := by omega
    rw [h1]
    exact ⟨by omega, hp.2⟩
  · intro a ha b hb hab
    simp only [Finset.mem_filter, Finset.mem_product, Finset.mem_range] at ha hb
    ext <;> omega
  · intro x hx
    rw [mem_surp] at hx
    refine ⟨(x / 64, x % 64), ?_, by simp only; omega⟩
    simp only [Finset.mem_filter, Finset.mem_product, Finset.mem_range]
    rw [show 64 * (x / 64) + x % 64 = x by omega]
    exact ⟨⟨by omega, by omega⟩, hx.2⟩

/-- the first column of the window of a sketch with `n` coupons -/
def windowAt (lgK n : Nat) : Nat :=
  if 8 * n < 19 * 2 ^ lgK then 0 else (8 * n - 19 * 2 ^ lgK) / (8 * 2 ^ lgK)

/-- the surprises with the window at `o` fit into the greatest table, three quarters full -/
def Fits (lgK o : Nat) (hs : List Hash) : Prop :=
  4 * surprises lgK o (fun r c => ∃ h ∈ hs, Hits lgK h r c) ≤ 3 * 2 ^ min 26 (6 + lgK)

theorem windowAt_eq (lgK n : Nat) : correctOffset lgK n = windowAt lgK n := by
  unfold correctOffset windowAt
  rw [Nat.shiftRight_eq_div_pow, pow_add, show (2 : Nat) ^ 3 = 8 by norm_num, Nat.mul_comm _ 8]

theorem fits_iff {lgK o : Nat} {hs : List Hash} :
    Cap (6 + lgK) (surp (2 ^ lgK) o (coupons lgK hs)).card ↔ Fits lgK o hs := by
  unfold Cap Fits
  rw [surprises_eq]
  have : surprises lgK o (fun r c => 64 * r + c ∈ coupons lgK hs) =
      surprises lgK o (fun r c => ∃ h ∈ hs, Hits lgK h r c) := by
    unfold surprises
    congr 1
    apply Finset.filter_congr
    intro p hp
    rw [Finset.mem_product, Finset.mem_range, Finset.mem_range] at hp
    beta_reduce
    rw [mem_coupons hp.2]
  rw [this]

/-- Exactly when a sketch accepts an item: its cell was hit before, or there are fewer than
`475/8 * 2^lgK` cells and the surprises fit, before and after the window moves. -/
theorem C63_step_iff {lgK seed : Nat} {c c' : Sk} {hs : List Hash} (hc : newSk lgK seed = .ok c)
    (hr : run c hs = .ok c') (h : Hash) :
    (∃ c'', hashUpdate c' h.1 h.2 = .ok c'') ↔
      cells lgK (hs ++ [h]) = cells lgK hs ∨
      (8 * cells lgK (hs ++ [h]) < 475 * 2 ^ lgK ∧
        Fits lgK (windowAt lgK (cells lgK (hs ++ [h]) - 1)) (hs ++ [h]) ∧
        Fits lgK (windowAt lgK (cells lgK (hs ++ [h]))) (hs ++ [h])) := by
  obtain ⟨hi, hl, _, _⟩ := run_start hc hr
  have hins : coupons lgK (hs ++ [h]) = insert (coupon lgK h) (coupons lgK hs) := by
    rw [coupons_append, Finset.union_comm]; simp [coupons]
  have hroom : Room lgK (coupons lgK (hs ++ [h])) ↔ (8 * cells lgK (hs ++ [h]) < 475 * 2 ^ lgK ∧
        Fits lgK (windowAt lgK (cells lgK (hs ++ [h]) - 1)) (hs ++ [h]) ∧
        Fits lgK (windowAt lgK (cells lgK (hs ++ [h]))) (hs ++ [h])) := by
    rw [← fits_iff, ← fits_iff, ← windowAt_eq, ← windowAt_eq, cells_eq]
    exact ⟨fun h => ⟨h.below, h.before, h.after⟩, fun h => ⟨h.1, h.2.1, h.2.2⟩⟩
  have hsame : cells lgK (hs ++ [h]) = cells lgK hs ↔ coupon lgK h ∈ coupons lgK hs := by
    rw [cells_eq, cells_eq, hins]
    constructor
    · intro he
      by_contra hcon
      rw [Finset.card_insert_of_notMem hcon] at he
      omega
    · intro he
      rw [Finset.insert_eq_of_mem he]
  rw [← hroom, hsame, hins]
  by_cases hx : coupon lgK h ∈ coupons lgK hs
  · simp only [hx, true_or, iff_true]
    exact ⟨c', hash_known (h0 := h.1) (h1 := h.2) hi (by rw [hl]; exact hx)⟩
  · simp only [hx, false_or]
    have := hash_new (h0 := h.1) (h1 := h.2) hi (by rw [hl]; exact hx)
    rw [hl] at this
    rcases this with ⟨h1, c'', e, _⟩ | ⟨h1, h2⟩
    · exact ⟨fun _ => h1, fun _ => ⟨c'', e⟩⟩
    · exact ⟨fun ⟨r, hr⟩ => absurd hr (h2 r), fun hcon => absurd hcon h1⟩

/-- hashes hitting all 16 rows and the columns 32 .. 63 -/
def hostile : List Hash :=
  (List.range 512).map fun i => (BitVec.ofNat 64 (i % 16), BitVec.ofNat 64 (2 ^ (31 - i / 16)))

theorem hostile_coupons : coupons 4 hostile = (Finset.range 1024).filter (32 ≤ · % 64) := by
  ext x
  obtain ⟨r, c, hc, rfl⟩ : ∃ r c, c < 64 ∧ x = 64 * r + c := ⟨x / 64, x % 64, by omega, by omega⟩
  rw [mem_coupons hc, Finset.mem_filter, Finset.mem_range]
  unfold hostile Hits
  simp only [List.mem_map, List.mem_range]
  have hval : ∀ i, i < 512 → (BitVec.ofNat 64 (i % 16)).toNat % 2 ^ 4 = i % 16 ∧
      63 - Nat.log2 (BitVec.ofNat 64 (2 ^ (31 - i / 16))).toNat = 32 + i / 16 := by
    intro i hi
    have hp : 2 ^ (31 - i / 16) < 2 ^ 64 := Nat.pow_lt_pow_right (by omega) (by omega)
    rw [BitVec.toNat_ofNat, BitVec.toNat_ofNat, Nat.mod_eq_of_lt hp, Nat.log2_two_pow]
    constructor <;> omega
  constructor
  · rintro ⟨h, ⟨i, hi, rfl⟩, h1, h2⟩
    obtain ⟨e1, e2⟩ := hval i hi
    replace h1 := e1.symm.trans h1
    replace h2 := e2.symm.trans h2
    have h3 : (64 * r + c) % 64 = c := by omega
    rw [h3]
    omega
  · rintro ⟨h1, h2⟩
    refine ⟨_, ⟨16 * (c - 32) + r, by omega, rfl⟩, ?_⟩
    obtain ⟨e1, e2⟩ := hval (16 * (c - 32) + r) (by omega)
    rw [e1, e2]
    omega

/-- There are streams of 512 items that the smallest sketch does not accept: an update fails when
the surprising cells no longer fit into the table. -/
theorem C63_refused (seed : Nat) :
    ∃ c, newSk 4 seed = .ok c ∧ hostile.length = 512 ∧ ∀ c', run c hostile ≠ .ok c' := by
  obtain ⟨c, e, h, hl, _⟩ := SkInv.new (lgK := 4) (seed := seed) (by omega) (by omega)
  refine ⟨c, e, by simp [hostile], fun c' hr => ?_⟩
  have h1 := (run_iff hostile h).mp ⟨c', hr⟩ 511 (by simp [hostile])
  rw [hl, Finset.empty_union, Finset.empty_union] at h1
  have htake : hostile.take (511 + 1) = hostile := by
    apply List.take_of_length_le; simp [hostile]
  rw [htake, hostile_coupons] at h1
  rcases h1 with h1 | h1
  · have hmem : 64 * 15 + 63 ∈ coupons 4 (hostile.take 511) := by
      apply h1
      rw [Finset.mem_filter, Finset.mem_range]; omega
    rw [mem_coupons (by omega)] at hmem
    obtain ⟨x, hx, h2, h3⟩ := hmem
    unfold hostile at hx
    rw [← List.map_take, List.take_range, List.mem_map] at hx
    obtain ⟨i, hi, rfl⟩ := hx
    rw [List.mem_range] at hi
    have hp : 2 ^ (31 - i / 16) < 2 ^ 64 := Nat.pow_lt_pow_right (by omega) (by omega)
    simp only [BitVec.toNat_ofNat, Nat.mod_eq_of_lt hp, Nat.log2_two_pow] at h2 h3
    omega
  · have h2 := h1.after
    have hcard : ((Finset.range 1024).filter (32 ≤ · % 64)).card = 512 := by decide +kernel
    rw [hcard] at h2
    have hs : (surp (2 ^ 4) (correctOffset 4 512) ((Finset.range 1024).filter (32 ≤ · % 64))).card =
        896 := by
      have hset : surp (2 ^ 4) (correctOffset 4 512) ((Finset.range 1024).filter (32 ≤ · % 64)) =
          (Finset.range 1024).filter fun x => x % 64 < 29 ∨ 37 ≤ x % 64 := by
        have ho : correctOffset 4 512 = 29 := by decide
        ext x
        rw [mem_surp, ho, Finset.mem_filter, Finset.mem_filter, Finset.mem_range]
        omega
      rw [hset]
      decide +kernel
    rw [hs] at h2
    unfold Cap at h2
    rw [show min 26 (6 + 4) = 10 from rfl] at h2
    omega

/-! ## C64: the running estimate -/

/-- Feeding `n` fresh random items to a new sketch, the mean of the estimate is `n`, up to a
factor between `1 - 2^-52` and 1, for `n` up to `83/8 * 2^lgK`. -/
theorem C64_mean {lgK seed : Nat} {c : Sk} (hc : newSk lgK seed = .ok c) (h20 : lgK ≤ 20) {n : Nat}
    (hn : 8 * n ≤ 83 * 2 ^ lgK) :
    (n : ℚ) * (1 - 1 / 2 ^ 52) ≤ meanHip n c ∧ meanHip n c ≤ n := by
  obtain ⟨h, hl, _, _, hk, hh⟩ := start hc
  have := meanHip_bounds n h (KInv.new (by rw [hl]; exact hk)) (by omega)
    (by rw [hl, Finset.card_empty]; omega)
  rw [hh, zero_add, zero_add] at this
  exact this

theorem kinv_run (hs : List Hash) : ∀ {c c' : Sk} {S : Finset Nat}, SkInv c S → KInv c S →
    run c hs = .ok c' → KInv c' (S ∪ coupons c.lgK hs) := by
  induction hs with
  | nil =>
    intro c c' S _ hk he
    cases he
    simpa [coupons] using hk
  | cons a hs ih =>
    intro c c' S h hk he
    unfold run at he
    rw [List.foldlM_cons] at he
    obtain ⟨c1, e1, e2⟩ := Outcome.bind_eq_ok.mp he
    rw [coupons_cons, Finset.union_insert, ← Finset.insert_union]
    by_cases hx : coupon c.lgK a ∈ S
    · rw [hash_known (h0 := a.1) (h1 := a.2) h hx] at e1
      cases e1
      rw [Finset.insert_eq_of_mem hx]
      exact ih h hk e2
    · rcases hash_new (h0 := a.1) (h1 := a.2) h hx with ⟨_, c2, e, hi, hst⟩ | ⟨_, hf⟩
      · rw [e] at e1
        cases e1
        have := ih hi (hk.step (coupon_lt _ _) hx hst) e2
        rw [hst.lgK] at this
        exact this
      · exact absurd e1 (hf c1)

/-- One more random item: the mean of the estimate grows by exactly one, less a correction that is
due to the items whose hash has 63 or 64 leading zeros. -/
theorem C64_step {lgK seed : Nat} {c c' : Sk} (hc : newSk lgK seed = .ok c) (h20 : lgK ≤ 20)
    {hs : List Hash} (hr : run c hs = .ok c') (hn : 8 * (cells lgK hs + 1) < 83 * 2 ^ lgK) :
    mean (hipAfter c') = c'.hip + 1 -
      ((Finset.range (2 ^ lgK)).filter fun r => ∃ h ∈ hs, Hits lgK h r 63).card / 2 ^ 64 / c'.kxp := by
  classical
  obtain ⟨h0, hl0, _, _, hk0, _⟩ := start hc
  obtain ⟨h, hl, _, _⟩ := run_start hc hr
  have hk := kinv_run hs h0 (KInv.new (by rw [hl0]; exact hk0)) hr
  rw [Finset.empty_union, hl0] at hk
  rw [cells_eq] at hn
  have hstep := mean_step h hk (off_small h (by rw [hl]; omega)) (by
    intro x _
    rw [hl]
    apply room_of_moderate h20
    have := Finset.card_insert_le x (coupons lgK hs)
    omega)
  rw [hstep, hl]
  have hcount : (2 ^ lgK : ℚ) - freeLast (2 ^ lgK) (coupons lgK hs) =
      ((Finset.range (2 ^ lgK)).filter fun r => ∃ h ∈ hs, Hits lgK h r 63).card := by
    have e1 : ((Finset.range (2 ^ lgK)).filter fun r => ∃ h ∈ hs, Hits lgK h r 63) =
        (Finset.range (2 ^ lgK)).filter fun r => 64 * r + 63 ∈ coupons lgK hs := by
      apply Finset.filter_congr
      intro r _
      rw [mem_coupons (by omega)]
    rw [e1]
    unfold freeLast
    have := Finset.card_filter_add_card_filter_not (s := Finset.range (2 ^ lgK))
      (fun r => 64 * r + 63 ∈ coupons lgK hs)
    rw [Finset.card_range] at this
    have h2 : ((2 ^ lgK : Nat) : ℚ) = 2 ^ lgK := by push_cast; rfl
    have h3 : ((((Finset.range (2 ^ lgK)).filter fun r => 64 * r + 63 ∈ coupons lgK hs).card : Nat) : ℚ) +
        (((Finset.range (2 ^ lgK)).filter fun r => 64 * r + 63 ∉ coupons lgK hs).card : Nat) =
        2 ^ lgK := by
      rw [← h2, ← Nat.cast_add]
      exact congrArg _ this
    linarith
  rw [hcount]
  unfold invPow2
  ring

theorem kxp_le {c : Sk} {S : Finset Nat} (hk : KInv c S) : c.kxp ≤ 2 ^ c.lgK := by
  have h1 : kappa (2 ^ c.lgK) S ≤ kappa (2 ^ c.lgK) ∅ := by
    unfold kappa
    apply Finset.sum_le_sum_of_subset_of_nonneg
    · rw [Finset.sdiff_empty]; exact Finset.sdiff_subset
    · intro x _ _; exact (invPow2_pos _).le
  have h2 := hk.hi
  rw [kappa_empty] at h1
  push_cast at h1
  linarith

theorem card_le_hip (hs : List Hash) : ∀ {c c' : Sk} {S : Finset Nat}, SkInv c S → KInv c S →
    (S.card : ℚ) ≤ c.hip → 8 * (S ∪ coupons c.lgK hs).card < 83 * 2 ^ c.lgK →
    run c hs = .ok c' → ((S ∪ coupons c.lgK hs).card : ℚ) ≤ c'.hip := by
  induction hs with
  | nil =>
    intro c c' S _ _ hS _ he
    cases he
    simpa [coupons] using hS
  | cons a hs ih =>
    intro c c' S h hk hS hsmall he
    unfold run at he
    rw [List.foldlM_cons] at he
    obtain ⟨c1, e1, e2⟩ := Outcome.bind_eq_ok.mp he
    rw [coupons_cons, Finset.union_insert, ← Finset.insert_union] at hsmall ⊢
    by_cases hx : coupon c.lgK a ∈ S
    · rw [hash_known (h0 := a.1) (h1 := a.2) h hx] at e1
      cases e1
      rw [Finset.insert_eq_of_mem hx] at hsmall ⊢
      exact ih h hk hS hsmall e2
    · rcases hash_new (h0 := a.1) (h1 := a.2) h hx with ⟨_, c2, e, hi, hst⟩ | ⟨_, hf⟩
      · rw [e] at e1
        cases e1
        have hx' : coupon c.lgK (a.1, a.2) ∉ S := hx
        have hsub : S.card ≤ (insert (coupon c.lgK a) S ∪ coupons c.lgK hs).card :=
          Finset.card_le_card ((Finset.subset_insert _ _).trans Finset.subset_union_left)
        have hpos := kxp_pos hk (off_small h (by omega))
        have hge : (1 : ℚ) ≤ 2 ^ c.lgK / c.kxp := (one_le_div hpos).mpr (kxp_le hk)
        have hcard : ((insert (coupon c.lgK (a.1, a.2)) S).card : ℚ) ≤ c1.hip := by
          rw [Finset.card_insert_of_notMem hx', hst.hip]
          push_cast
          linarith
        have := ih (c' := c') hi (hk.step (coupon_lt _ _) hx hst) hcard
        rw [hst.lgK] at this
        exact this hsmall e2
      · exact absurd e1 (hf c1)

/-- The estimate is at least the number of cells hit. -/
theorem C64_lower {lgK seed : Nat} {c c' : Sk} (hc : newSk lgK seed = .ok c) {hs : List Hash}
    (hr : run c hs = .ok c') (hn : 8 * cells lgK hs < 83 * 2 ^ lgK) :
    (cells lgK hs : ℚ) ≤ c'.hip := by
  obtain ⟨h0, hl0, _, _, hk0, hh0⟩ := start hc
  rw [cells_eq] at hn ⊢
  have := card_le_hip hs h0 (KInv.new (by rw [hl0]; exact hk0)) (by simp [hh0])
    (by rw [hl0, Finset.empty_union]; exact hn) hr
  rwa [hl0, Finset.empty_union] at this

/-! ## C65: unions -/

/-- a sketch made from a stream: `p` is its `lgK` with its items -/
def Built (seed : Nat) (p : Nat × List Hash) (c : Sk) : Prop :=
  ∃ c0, newSk p.1 seed = .ok c0 ∧ run c0 p.2 = .ok c

/-- the smallest `lgK` among the union's own and those of the sketches with items -/
def lgOf (lgK : Nat) (parts : List (Nat × List Hash)) : Nat :=
  ((parts.filter fun p => p.2 ≠ []).map (·.1)).foldl min lgK

/-- all items -/
def allItems (parts : List (Nat × List Hash)) : List Hash := parts.flatMap (·.2)

theorem coupons_card_zero {lgK : Nat} {hs : List Hash} : (coupons lgK hs).card = 0 ↔ hs = [] := by
  rw [Finset.card_eq_zero]
  unfold coupons
  simp

theorem built_list {seed : Nat} {parts : List (Nat × List Hash)} {srcs : List Sk}
    (h : List.Forall₂ (Built seed) parts srcs) :
    ∃ l : List (Sk × Finset Nat), l.map (·.1) = srcs ∧
      (∀ p ∈ l, SkInv p.1 p.2 ∧ p.1.seed = seed) ∧
      (∀ lg, minLg lg l = lgOf lg parts) ∧
      (∀ lg b S, b ≤ lgOf lg parts → fold b (unionSet S l) = fold b S ∪ coupons b (allItems parts)) := by
  induction h with
  | nil =>
    refine ⟨[], rfl, by simp, fun lg => rfl, fun lg b S _ => ?_⟩
    rw [unionSet]
    simp [allItems, coupons]
  | @cons p c parts srcs hpc _ ih =>
    obtain ⟨l, h1, h2, h3, h4⟩ := ih
    obtain ⟨c0, e0, e1⟩ := hpc
    obtain ⟨hi, hl, hs, _⟩ := run_start e0 e1
    have hlg : ∀ lg, lgOf lg (p :: parts) = lgOf (if p.2 = [] then lg else min lg p.1) parts := by
      intro lg
      unfold lgOf
      by_cases hp : p.2 = []
      · rw [List.filter_cons_of_neg (by simpa using hp), if_pos hp]
      · rw [List.filter_cons_of_pos (by simpa using hp), if_neg hp]
        rfl
    have hmin : ∀ lg, lgOf lg parts ≤ lg := fun lg => by rw [← h3]; exact minLg_le _ _
    refine ⟨(c, coupons p.1 p.2) :: l, by rw [List.map_cons, h1], ?_, ?_, ?_⟩
    · intro q hq
      rcases List.mem_cons.mp hq with rfl | hq
      · exact ⟨hi, hs⟩
      · exact h2 q hq
    · intro lg
      rw [minLg, hlg, h3]
      simp only [coupons_card_zero, hl]
    · intro lg b S hb
      rw [hlg] at hb
      rw [unionSet, h4 _ b _ hb, fold_union]
      have hall : allItems (p :: parts) = p.2 ++ allItems parts := rfl
      rw [hall, coupons_append, ← Finset.union_assoc]
      congr 2
      by_cases hp : p.2 = []
      · rw [hp]; rfl
      · rw [if_neg hp] at hb
        have := hmin (min lg p.1)
        exact fold_coupons (by omega) _

theorem startUn {lgK seed : Nat} {u : Un} (hu : newUn lgK seed = .ok u) :
    UnInv u ∅ ∧ u.lgK = lgK ∧ u.seed = seed := by
  by_cases h : 4 ≤ lgK ∧ lgK ≤ 26
  · obtain ⟨u', e, h1, h2, h3⟩ := UnInv.new (seed := seed) h.1 h.2
    rw [e] at hu
    cases hu
    exact ⟨h1, h2, h3⟩
  · rw [newUn_err (by omega)] at hu
    cases hu

theorem union_inv {lgK seed : Nat} {u u' : Un} {parts : List (Nat × List Hash)} {srcs : List Sk}
    (hu : newUn lgK seed = .ok u) (hb : List.Forall₂ (Built seed) parts srcs)
    (hr : unionAll u srcs = .ok u') :
    UnInv u' (coupons (lgOf lgK parts) (allItems parts)) ∧ u'.lgK = lgOf lgK parts ∧
      u'.seed = seed := by
  obtain ⟨h, hl, hs⟩ := startUn hu
  obtain ⟨l, h1, h2, h3, h4⟩ := built_list hb
  rw [← h1] at hr
  obtain ⟨h5, h6, h7⟩ := unionAll_sound l h (fun p hp => by rw [hs]; exact h2 p hp) hr
  rw [hl, h3] at h5 h6
  rw [h4 lgK _ _ (Nat.le_refl _)] at h5
  have : fold (lgOf lgK parts) ∅ = ∅ := rfl
  rw [this, Finset.empty_union] at h5
  exact ⟨h5, h6, h7.trans hs⟩

/-- The union of sketches of streams is the sketch of all items, at the smallest `lgK`. -/
theorem C65_union {lgK seed : Nat} {u u' : Un} {parts : List (Nat × List Hash)} {srcs : List Sk}
    (hu : newUn lgK seed = .ok u) (hb : List.Forall₂ (Built seed) parts srcs)
    (hr : unionAll u srcs = .ok u') :
    u'.lgK = lgOf lgK parts ∧
    (∃ m, u'.bitMatrix = .ok m ∧ MatrixOf (lgOf lgK parts) (allItems parts) m) ∧
    u'.numCoupons = .ok (cells (lgOf lgK parts) (allItems parts)) := by
  obtain ⟨h, hl, _⟩ := union_inv hu hb hr
  obtain ⟨m, em, hm⟩ := unBitMatrix_spec h
  rw [hl] at hm
  exact ⟨hl, ⟨m, em, matrixOf_iff.mpr hm⟩, by rw [unNum_spec h, cells_eq]⟩

/-- The result of the union is a sketch with that content, marked as merged. -/
theorem C65_result {lgK seed : Nat} {u u' : Un} {parts : List (Nat × List Hash)} {srcs : List Sk}
    (hu : newUn lgK seed = .ok u) (hb : List.Forall₂ (Built seed) parts srcs)
    (hr : unionAll u srcs = .ok u')
    (hbig : 8 * cells (lgOf lgK parts) (allItems parts) < 475 * 2 ^ lgOf lgK parts) {r : Sk}
    (he : u'.result = .ok r) :
    r.lgK = lgOf lgK parts ∧ r.seed = seed ∧ r.merged = true ∧
    r.num = cells (lgOf lgK parts) (allItems parts) ∧
    (∃ m, bitMatrix r = .ok m ∧ MatrixOf (lgOf lgK parts) (allItems parts) m) ∧
    validate r = .ok true := by
  obtain ⟨h, hl, hs⟩ := union_inv hu hb hr
  rw [cells_eq] at hbig ⊢
  obtain ⟨hi, rl, rs, rm⟩ := (result_spec h (by rw [hl]; exact hbig)).2 r he
  obtain ⟨m, em, hm⟩ := bitMatrix_spec hi
  have hv := hi.valid
  rw [rl, hl] at hm hv
  refine ⟨rl.trans hl, rs.trans hs, rm, hi.num, ⟨m, em, matrixOf_iff.mpr hm⟩, ?_⟩
  unfold validate
  rw [em, ok_bind, countBits_eq hm hv, hi.num]
  simp

/-- With a moderate number of cells in the end every update of the union succeeds, and so does
asking for the result. -/
theorem C65_accepts {lgK seed : Nat} {u : Un} {parts : List (Nat × List Hash)} {srcs : List Sk}
    (hu : newUn lgK seed = .ok u) (hb : List.Forall₂ (Built seed) parts srcs) (h20 : lgK ≤ 20)
    (hn : cells (lgOf lgK parts) (allItems parts) < 25 * 2 ^ lgOf lgK parts) :
    ∃ u' r, unionAll u srcs = .ok u' ∧ u'.result = .ok r := by
  obtain ⟨h, hl, hs⟩ := startUn hu
  obtain ⟨l, h1, h2, h3, h4⟩ := built_list hb
  have hfold : fold (lgOf lgK parts) ∅ = ∅ := rfl
  rw [cells_eq] at hn
  obtain ⟨u', hr⟩ := unionAll_total l h (fun p hp => by rw [hs]; exact h2 p hp) (by omega) (by
    rw [hl, h3, h4 lgK _ _ (Nat.le_refl _), hfold, Finset.empty_union]
    exact hn)
  rw [h1] at hr
  obtain ⟨hi, hl', _⟩ := union_inv hu hb hr
  have hle : lgOf lgK parts ≤ lgK := by rw [← h3]; exact minLg_le _ _
  have hroom := room_of_moderate (lgK := lgOf lgK parts) (by omega) hn
  obtain ⟨r, e, _⟩ := (result_spec hi (by rw [hl']; exact hroom.below)).1
    (by rw [hl']; exact hroom.after)
  exact ⟨u', r, hr, e⟩

/-- Neither the order nor the grouping of the items over sketches matters: two unions with the same
items and the same smallest `lgK` agree. -/
theorem C65_order {lgK lgK' seed seed' : Nat} {u v u' v' : Un}
    {parts parts' : List (Nat × List Hash)} {srcs srcs' : List Sk}
    (hu : newUn lgK seed = .ok u) (hv : newUn lgK' seed' = .ok v)
    (hb : List.Forall₂ (Built seed) parts srcs) (hb' : List.Forall₂ (Built seed') parts' srcs')
    (hr : unionAll u srcs = .ok u') (hr' : unionAll v srcs' = .ok v')
    (hlg : lgOf lgK parts = lgOf lgK' parts')
    (he : ∀ x, x ∈ allItems parts ↔ x ∈ allItems parts') :
    u'.bitMatrix = v'.bitMatrix ∧ u'.numCoupons = v'.numCoupons := by
  obtain ⟨h1, l1, _⟩ := union_inv hu hb hr
  obtain ⟨h2, l2, _⟩ := union_inv hv hb' hr'
  rw [← hlg, ← coupons_congr he] at h2
  obtain ⟨m1, e1, hm1⟩ := unBitMatrix_spec h1
  obtain ⟨m2, e2, hm2⟩ := unBitMatrix_spec h2
  rw [l1] at hm1
  rw [l2, ← hlg] at hm2
  rw [e1, e2, hm1.ext hm2, unNum_spec h1, unNum_spec h2]
  exact ⟨rfl, rfl⟩

/-- Sketches made with another seed are refused; empty sketches change nothing, not even `lgK`. -/
theorem C65_seed_empty (u : Un) (src : Sk) :
    (u.seed ≠ src.seed → ∃ e, u.update src = .err e) ∧
    (u.seed = src.seed → src.num = 0 → u.update src = .ok u) := by
  refine ⟨fun h => ⟨_, update_seed h⟩, fun h h0 => ?_⟩
  unfold Un.update
  rw [if_neg (by simpa using h), if_pos (flavor_cases.1.mpr h0)]

/-! ## C66: copies, resets and flavors -/

/-- A copy equals the sketch. -/
theorem C66_copy {lgK seed : Nat} {c c' : Sk} {hs : List Hash} (hc : newSk lgK seed = .ok c)
    (hr : run c hs = .ok c') : copySk c' = .ok c' := by
  obtain ⟨h, hl, _, _⟩ := run_start hc hr
  by_cases h0 : hs = []
  · subst h0
    cases hr
    unfold newSk at hc
    split at hc
    · cases hc
    · rename_i hlg
      cases hc
      unfold copySk newSk
      rw [if_neg hlg]
      rfl
  · apply copySk_eq h
    rcases Nat.eq_zero_or_pos (coupons lgK hs).card with h1 | h1
    · exact absurd (coupons_card_zero.mp h1) h0
    · exact h1

/-- A reset sketch is a new sketch, and so behaves like one. -/
theorem C66_reset {lgK seed : Nat} {c c' : Sk} {hs : List Hash} (hc : newSk lgK seed = .ok c)
    (hr : run c hs = .ok c') : reset c' = c := by
  obtain ⟨_, hl, hs', _⟩ := run_start hc hr
  unfold newSk at hc
  split at hc
  · cases hc
  · cases hc
    unfold reset
    rw [hl, hs']

/-- The flavor reported by a sketch depends only on the number of cells hit, with the window where
the flavor says. -/
theorem C66_flavor {lgK seed : Nat} {c c' : Sk} {hs : List Hash} (hc : newSk lgK seed = .ok c)
    (hr : run c hs = .ok c') :
    (flavor c'.lgK c'.num = .empty ↔ hs = []) ∧
    (flavor c'.lgK c'.num = .sparse ↔ hs ≠ [] ∧ 32 * cells lgK hs < 3 * 2 ^ lgK) ∧
    (flavor c'.lgK c'.num = .hybrid ↔ 3 * 2 ^ lgK ≤ 32 * cells lgK hs ∧ 2 * cells lgK hs < 2 ^ lgK) ∧
    (flavor c'.lgK c'.num = .pinned ↔ 2 ^ lgK ≤ 2 * cells lgK hs ∧ 8 * cells lgK hs < 27 * 2 ^ lgK) ∧
    (flavor c'.lgK c'.num = .sliding ↔ 27 * 2 ^ lgK ≤ 8 * cells lgK hs) ∧
    (c'.win.isSome ↔ 3 * 2 ^ lgK ≤ 32 * cells lgK hs) ∧
    c'.off = windowAt lgK (cells lgK hs) := by
  obtain ⟨h, hl, _, _⟩ := run_start hc hr
  have hp := Nat.two_pow_pos lgK
  have hz := @coupons_card_zero lgK hs
  rw [h.num, cells_eq, hl]
  have hwin : (c'.win.isSome ↔ 3 * 2 ^ lgK ≤ 32 * (coupons lgK hs).card) ∧
      c'.off = windowAt lgK (coupons lgK hs).card := by
    rw [← windowAt_eq]
    rcases h.mode with hm | ⟨t, hm⟩ | ⟨w, t, hm⟩
    · rw [hm.win, hm.off, hm.set]
      refine ⟨by simp, ?_⟩
      unfold correctOffset
      rw [if_pos (by rw [Finset.card_empty]; omega)]
    · have hf := hm.few
      rw [hl] at hf
      rw [hm.win, hm.off]
      refine ⟨by simp; omega, ?_⟩
      unfold correctOffset
      rw [if_pos (by omega)]
    · have h1 := hm.many
      have h2 := hm.hi
      have h3 := hm.lo
      rw [hl] at h1 h2 h3
      rw [hm.win]
      exact ⟨by simp [h1], (correctOffset_eq h2 h3).symm⟩
  refine ⟨?_, ?_, ?_, ?_, ?_, hwin⟩
  · rw [flavor_cases.1, hz]
  · rw [flavor_cases.2.1, Nat.pos_iff_ne_zero, ne_eq, hz]
  · unfold flavor
    generalize (coupons lgK hs).card = n
    generalize 2 ^ lgK = K at hp
    split
    · simp; omega
    · split
      · simp; omega
      · split
        · simp; omega
        · split <;> simp <;> omega
  · unfold flavor
    generalize (coupons lgK hs).card = n
    generalize 2 ^ lgK = K at hp
    split
    · simp; omega
    · split
      · simp; omega
      · split
        · simp; omega
        · split <;> simp <;> omega
  · rw [flavor_cases.2.2]

/-! ## Non-vacuity -/

/-- three items, two of them alike, in a sketch of 16 rows -/
example : (do
    let c ← newSk 4 9001
    let c ← run c [(5, 1), (21, 2 ^ 63), (5, 1)]
    Outcome.ok (c.num, flavor c.lgK c.num, c.merged)) = .ok (2, .hybrid, false) := by
  decide +kernel

/-- a union of two such sketches with different `lgK` -/
example : (do
    let c ← newSk 5 9001
    let c ← run c [(37, 1), (5, 2)]
    let d ← newSk 4 9001
    let d ← run d [(5, 1)]
    let u ← newUn 10 9001
    let u ← unionAll u [c, d]
    let n ← u.numCoupons
    Outcome.ok (n, u.lgK)) = .ok (2, 4) := by
  decide +kernel

/-- and the result of a union in sparse mode -/
example : (do
    let c ← newSk 5 9001
    let c ← run c [(37, 1)]
    let u ← newUn 10 9001
    let u ← unionAll u [c]
    let r ← u.result
    Outcome.ok (r.num, r.lgK, r.merged)) = .ok (1, 5, true) := by
  decide +kernel

end Verif.Cpc
