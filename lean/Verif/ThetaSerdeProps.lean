import Verif.ThetaSerdeLemmas

/-!
# C13, C14: theta sketch serialization; C43: wrapped view; findings about the decoder
-/

namespace Verif.Theta

open BitPack

/-- what the compact-sketch representation guarantees (`Valid` of the interface view plus the field
sizes); `ThetaValid` shows that every sketch produced by the library satisfies it -/
structure Encodable (c : Compact) : Prop where
  valid : Valid c.view
  seed : c.seedHash < 2 ^ 16
  len : c.entries.length < 2 ^ 32

theorem Encodable.entries_lt {c : Compact} (h : Encodable c) : ∀ e ∈ c.entries, e < 2 ^ 63 := by
  intro e he
  have h1 := (h.valid.range e he).2
  have h2 := h.valid.theta
  have h3 : c.view.theta = c.theta := rfl
  unfold maxTheta at h2
  omega

/-- **C13.** Uncompressed serialization: encoding succeeds, has exactly the advertised size, and
decoding the bytes (even followed by other data) with the same seed gives the same entries in the
same order, the same theta, emptiness flag and seed hash; the ordered flag is kept, except that a
sketch of at most one entry always comes back as ordered. -/
theorem C13_uncompressed_round_trip {c : Compact} (h : Encodable c) (seedHash : Outcome Nat)
    (hs : seedHash = .ok c.seedHash) (he : c.isEmpty = true → c.theta = maxTheta)
    (junk : List Nat) :
    ∃ bytes, encode c false = .ok bytes ∧ bytes.length = c.serializedSize false
      ∧ decode seedHash (bytes ++ junk)
          = .ok { c with isOrdered := c.isOrdered || decide (c.entries.length ≤ 1) } := by
  refine ⟨imageV3 c, ?_, imageV3_length c, ?_⟩
  · simp [encode, encodeV3_eq]
  · rw [decode_imageV3 c seedHash (fun _ => hs) h.seed
      (fun e he => lt_trans (h.entries_lt e he) (by decide)) h.len h.valid.theta
      (fun hE => h.valid.empty hE)]
    unfold normalized
    congr 1
    have h1 : (if c.isEmpty = true then maxTheta else c.theta) = c.theta := by
      split
      · rename_i hE; exact (he hE).symm
      · rfl
    rw [h1]
    by_cases h2 : c.entries.length ≤ 1 <;> simp [h2]

/-- **C13 (finding).** The hypothesis on the theta of an empty sketch is needed: an empty sketch
whose theta is below the maximum (an empty union built with sampling probability below 1 returns
one) does not survive serialization: its theta comes back as the maximum. -/
theorem C13_empty_sampled_theta_lost :
    ∃ (c : Compact) (bytes : List Nat) (c' : Compact), Encodable c ∧ encode c false = .ok bytes
      ∧ decode (.ok c.seedHash) bytes = .ok c' ∧ c'.theta ≠ c.theta := by
  let c : Compact := ⟨[], 2 ^ 62, 777, true, true⟩
  have hE : Encodable c := by
    refine ⟨⟨by simp [c, Compact.view], by simp [c, Compact.view], rfl,
      by simp [c, Compact.view], by decide, fun _ => rfl⟩, by decide, by decide⟩
  refine ⟨c, imageV3 c, normalized c, hE, by simp [encode, encodeV3_eq], ?_, by decide⟩
  have := decode_imageV3 c (.ok c.seedHash) (fun _ => rfl) hE.seed
      (fun e he => lt_trans (hE.entries_lt e he) (by decide)) hE.len hE.valid.theta
      (fun hE' => hE.valid.empty hE') []
  simpa using this

/-- the compressed image -/
def imageV4 (c : Compact) (P : List Nat) : List Nat :=
  [c.preLongs true, 4, 3, c.entryBits, c.numEntriesBytes, 26] ++ (toLE 2 c.seedHash
    ++ ((if c.isEstimation then toLE 8 c.theta else [])
    ++ (toLE c.numEntriesBytes c.entries.length ++ P)))

theorem suitable_facts {c : Compact} (h : c.suitable = true) :
    c.isOrdered = true ∧ 0 < c.entries.length ∧ (c.entries.length = 1 → c.isEstimation = true) := by
  unfold Compact.suitable at h
  cases ho : c.isOrdered <;> simp [ho] at h ⊢
  exact ⟨List.length_pos_iff.mpr h.1, fun h1 => h.2.resolve_left (not_not_intro h1)⟩

theorem entryBits_facts {c : Compact} (h : Encodable c) (hs : c.suitable = true) :
    1 ≤ c.entryBits ∧ c.entryBits ≤ 63 ∧ ∀ d ∈ deltas 0 c.entries, d < 2 ^ c.entryBits := by
  obtain ⟨ho, hl, -⟩ := suitable_facts hs
  have hinc := deltas_increasing c.entries 0 (by decide)
    (fun e he => ⟨Nat.pos_of_ne_zero (h.valid.range e he).1, h.entries_lt e he⟩)
    (h.valid.ordered ho)
  have hle := le_foldl_or (deltas 0 c.entries) 0
  unfold Compact.entryBits
  have hb := lt_two_pow_bitLen ((deltas 0 c.entries).foldl (· ||| ·) 0)
  refine ⟨?_, ?_, ?_⟩
  · obtain ⟨d, hd⟩ : ∃ d, d ∈ deltas 0 c.entries := by
      apply List.exists_mem_of_length_pos
      rw [deltas_length]; exact hl
    have h1 := (hinc d hd).1
    have h2 := hle.2 d hd
    unfold bitLen
    rw [if_neg (by omega)]
    omega
  · exact bitLen_le (foldl_or_lt _ _ (by decide) (fun x hx => (hinc x hx).2))
  · intro d hd
    exact lt_of_le_of_lt (hle.2 d hd) hb

theorem preLongs_true (c : Compact) : c.preLongs true = if c.isEstimation then 2 else 1 := by
  simp [Compact.preLongs]

theorem encodeV4_spec {c : Compact} (h : Encodable c) (hs : c.suitable = true) :
    ∃ P, encodeV4 c = .ok (imageV4 c P) ∧ Packed c.entryBits (deltas 0 c.entries) P := by
  obtain ⟨hb1, hb2, hbd⟩ := entryBits_facts h hs
  obtain ⟨P, eP, hP⟩ := wrPacked_at hb1 hb2 c.entries.length c.entries 0
    ([c.preLongs true, 4, 3, c.entryBits, c.numEntriesBytes, 26] ++ toLE 2 c.seedHash
    ++ (if c.isEstimation then toLE 8 c.theta else [])
    ++ toLE c.numEntriesBytes c.entries.length) (le_refl _) hbd
  refine ⟨P, ?_, hP⟩
  have hstart : ((List.replicate (c.compressedSize c.entryBits c.numEntriesBytes) 0, 0) : Cursor)
      = At [] (c.compressedSize c.entryBits c.numEntriesBytes) := by simp [At]
  unfold encodeV4
  simp only []
  rw [hstart, Compact.compressedSize, Nat.mod_eq_of_lt h.len]
  have hpos : 1 ≤ c.preLongs true := by rw [preLongs_true]; split <;> omega
  rw [wr_at (by simp; omega)]
  simp only [Outcome.ok_bind]
  rw [wr_at (by simp; omega)]
  simp only [Outcome.ok_bind]
  rw [wr_at (by simp; omega)]
  simp only [Outcome.ok_bind]
  rw [wr_at (by simp; omega)]
  simp only [Outcome.ok_bind]
  rw [wr_at (by simp; omega)]
  simp only [Outcome.ok_bind]
  rw [wr_at (by simp; omega)]
  simp only [Outcome.ok_bind]
  rw [wr_at (by simp; omega)]
  simp only [Outcome.ok_bind]
  have hth : wrTheta c (At ([c.preLongs true, 4, 3, c.entryBits, c.numEntriesBytes, 26]
        ++ toLE 2 c.seedHash)
        (c.preLongs true * 8 + c.numEntriesBytes + wholeBytes (c.entryBits * c.entries.length) - 8))
      = .ok (At ([c.preLongs true, 4, 3, c.entryBits, c.numEntriesBytes, 26] ++ toLE 2 c.seedHash
        ++ (if c.isEstimation then toLE 8 c.theta else []))
        (c.numEntriesBytes + wholeBytes (c.entryBits * c.entries.length))) := by
    unfold wrTheta
    rw [preLongs_true]
    cases c.isEstimation
    · simp only [Bool.false_eq_true, if_false, List.append_nil]
      congr 2; omega
    · simp only [if_true]
      rw [wr_at (by simp; omega)]
      congr 2; simp; omega
  have e1 : At ((((((([] ++ [c.preLongs true]) ++ [4]) ++ [3]) ++ [c.entryBits])
      ++ [c.numEntriesBytes]) ++ [26]) ++ toLE 2 c.seedHash)
      (c.preLongs true * 8 + c.numEntriesBytes + wholeBytes (c.entryBits * c.entries.length)
        - [c.preLongs true].length - [4].length - [3].length - [c.entryBits].length
        - [c.numEntriesBytes].length - [26].length - (toLE 2 c.seedHash).length)
      = At ([c.preLongs true, 4, 3, c.entryBits, c.numEntriesBytes, 26] ++ toLE 2 c.seedHash)
        (c.preLongs true * 8 + c.numEntriesBytes + wholeBytes (c.entryBits * c.entries.length)
          - 8) := by
    congr 1
  rw [e1, hth]
  simp only [Outcome.ok_bind]
  rw [wr_at (by simp)]
  simp only [Outcome.ok_bind, toLE_length, Nat.add_sub_cancel_left]
  rw [eP]
  simp only [imageV4, List.append_assoc]

theorem imageV4_length {c : Compact} {P : List Nat}
    (hP : Packed c.entryBits (deltas 0 c.entries) P) :
    (imageV4 c P).length = c.compressedSize c.entryBits c.numEntriesBytes := by
  unfold imageV4 Compact.compressedSize
  rw [preLongs_true]
  have := hP.len
  rw [deltas_length] at this
  cases c.isEstimation <;> simp [this] <;> omega

/-- **C14.** Compressed serialization: for every ordered sketch accepted for compression, encoding
succeeds with exactly the advertised size, and decoding (even with other bytes following) gives
back the identical sketch. -/
theorem C14_compressed_round_trip {c : Compact} (h : Encodable c) (hsu : c.suitable = true)
    (seedHash : Outcome Nat) (hs : seedHash = .ok c.seedHash)
    (junk : List Nat) (hjunk : ∀ x ∈ junk, x < 256) :
    ∃ bytes, encode c true = .ok bytes ∧ bytes.length = c.serializedSize true
      ∧ (∀ b ∈ bytes.drop 8, b < 256)
      ∧ decode seedHash (bytes ++ junk) = .ok c := by
  obtain ⟨P, e, hP⟩ := encodeV4_spec h hsu
  obtain ⟨hb1, hb2, hbd⟩ := entryBits_facts h hsu
  obtain ⟨ho, hl, -⟩ := suitable_facts hsu
  obtain ⟨hn1, hn2, hn3⟩ := numEntriesBytes_spec hl h.len
  have hnE : c.isEmpty = false := by
    cases hE : c.isEmpty
    · rfl
    · have : c.entries = [] := h.valid.empty hE
      simp [this] at hl
  have hlenI := imageV4_length hP
  refine ⟨imageV4 c P, by simp [encode, hsu, e], by
    rw [hlenI]; simp [Compact.serializedSize, hsu], ?_, ?_⟩
  · intro b hb
    have hd : (imageV4 c P).drop 8 = (if c.isEstimation then toLE 8 c.theta else [])
        ++ (toLE c.numEntriesBytes c.entries.length ++ P) := by
      unfold imageV4
      rw [← List.append_assoc, List.drop_left' (by simp)]
    rw [hd] at hb
    simp only [List.mem_append] at hb
    rcases hb with hb | hb | hb
    · split at hb
      · exact toLE_lt _ _ b hb
      · simp at hb
    · exact toLE_lt _ _ b hb
    · exact hP.lt b hb
  · have hsplit : imageV4 c P ++ junk
        = [c.preLongs true, 4, 3, c.entryBits, c.numEntriesBytes, 26] ++ (toLE 2 c.seedHash
          ++ ((if c.isEstimation then toLE 8 c.theta else [])
          ++ (toLE c.numEntriesBytes c.entries.length ++ (P ++ junk)))) := by
      simp only [imageV4, List.append_assoc]
    have hlen' : (imageV4 c P ++ junk).length = c.preLongs true * 8 + c.numEntriesBytes
        + wholeBytes (c.entryBits * c.entries.length) + junk.length := by
      rw [List.length_append, hlenI, Compact.compressedSize]
    have hpre := preLongs_true c
    have hpos : 1 ≤ c.preLongs true := by rw [hpre]; split <;> omega
    generalize hX : imageV4 c P ++ junk = X at *
    have g2 : getLE X 2 1 = .ok 3 := getLE_one (by rw [hsplit]; rfl)
    have g1 : getLE X 1 1 = .ok 4 := getLE_one (by rw [hsplit]; rfl)
    have g0 : getLE X 0 1 = .ok (c.preLongs true) := getLE_one (by rw [hsplit]; rfl)
    have g3 : getLE X 3 1 = .ok c.entryBits := getLE_one (by rw [hsplit]; rfl)
    have g4 : getLE X 4 1 = .ok c.numEntriesBytes := getLE_one (by rw [hsplit]; rfl)
    have g6 : getLE X 6 2 = .ok c.seedHash := by
      rw [hsplit, getLE_append (by rfl), Nat.mod_eq_of_lt (by simpa using h.seed)]
    have hread : ∀ (a : List Nat) (off : Nat), off = a.length →
        X = a ++ (toLE c.numEntriesBytes c.entries.length ++ (P ++ junk)) →
        readNum X off c.numEntriesBytes 0 0 = .ok c.entries.length := by
      intro a off h1 h2
      have := readNum_spec a (toLE c.numEntriesBytes c.entries.length ++ (P ++ junk))
        c.numEntriesBytes 0 c.entries.length 0 (by omega) (by simp) (by
          rw [Nat.add_zero, List.drop_left, Nat.zero_add, List.drop_left' (by simp)])
      rw [h1, h2, this, Nat.mod_eq_of_lt hn3]
      simp
    have hpk : readPacked c.entryBits (P ++ junk) c.entries.length
        = .ok (deltas 0 c.entries) := by
      have hPl := hP.len
      have := (wholeBytes_spec (c.entryBits * (deltas 0 c.entries).length)).1
      have := readPacked_spec hb1 hb2 (deltas 0 c.entries).length (deltas 0 c.entries) (P ++ junk)
        (le_refl _) hbd (by
          intro x hx
          rcases List.mem_append.mp hx with h' | h'
          · exact hP.lt x h'
          · exact hjunk x h') (by rw [List.length_append, hPl]; omega) (by
          intro p hp
          rw [byteBit_append, if_pos (by rw [hPl]; omega), hP.bits p hp])
      rwa [deltas_length] at this
    have hun := undelta_deltas c.entries 0 (by decide)
      (fun e he => lt_trans (h.entries_lt e he) (by decide))
    have hord : (if c.entries.length ≤ 1 then true else true) = true := by split <;> rfl
    unfold decode decodeData
    rw [validateSize_ok (by rw [hlen']; omega)]
    simp only [Outcome.ok_bind, g2, g1]
    simp only [ne_eq, not_true_eq_false, if_false, if_true]
    unfold decodeV4
    simp only [Outcome.ok_bind, g6, hs, checkSeed, if_true, g0, g4, g3]
    cases hest : c.isEstimation with
    | true =>
      rw [hest] at hpre hsplit
      simp only [if_true] at hpre hsplit
      have ht : getLE X 8 8 = .ok c.theta := by
        rw [hsplit, ← List.append_assoc, getLE_append (by simp), Nat.mod_eq_of_lt]
        have := h.valid.theta
        have h3 : c.view.theta = c.theta := rfl
        unfold maxTheta at this
        omega
      rw [hpre] at hlen' ⊢
      simp only [readTheta, show (2 : Nat) > 1 from by decide, decide_true, if_true]
      rw [validateSize_ok (by rw [hlen']; omega)]
      simp only [Outcome.ok_bind, ht]
      rw [validateSize_ok (by rw [hlen']; omega)]
      simp only [Outcome.ok_bind]
      rw [hread ([c.preLongs true, 4, 3, c.entryBits, c.numEntriesBytes, 26]
        ++ toLE 2 c.seedHash ++ toLE 8 c.theta) 16 (by simp) (by rw [hsplit]; simp)]
      simp only [Outcome.ok_bind]
      rw [validateSize_ok (by rw [hlen']; omega)]
      simp only [Outcome.ok_bind, Outcome.pure_eq, decodeEntries]
      rw [if_neg (by omega), if_pos (by rw [hlen']; omega)]
      have hdrop : X.drop (16 + c.numEntriesBytes) = P ++ junk := by
        have : X = ([c.preLongs true, 4, 3, c.entryBits, c.numEntriesBytes, 26]
          ++ toLE 2 c.seedHash ++ toLE 8 c.theta ++ toLE c.numEntriesBytes c.entries.length)
          ++ (P ++ junk) := by rw [hsplit]; simp
        rw [this, List.drop_left' (by simp; omega)]
      rw [hdrop, hpk]
      simp only [Outcome.ok_bind, hun, compactFromEntries, hord]
      rw [← hnE, ← ho]
    | false =>
      rw [hest] at hpre hsplit
      simp only [Bool.false_eq_true, if_false, List.nil_append] at hpre hsplit
      have hthe : c.theta = maxTheta := by
        unfold Compact.isEstimation at hest
        simp [hnE] at hest
        exact le_antisymm h.valid.theta hest
      rw [hpre] at hlen' ⊢
      simp only [readTheta, show ¬ (1 : Nat) > 1 from by decide, decide_false, if_false,
        Bool.false_eq_true]
      simp only [Outcome.ok_bind]
      rw [validateSize_ok (by rw [hlen']; omega)]
      simp only [Outcome.ok_bind]
      rw [hread ([c.preLongs true, 4, 3, c.entryBits, c.numEntriesBytes, 26]
        ++ toLE 2 c.seedHash) 8 (by simp) (by rw [hsplit]; simp)]
      simp only [Outcome.ok_bind]
      rw [validateSize_ok (by rw [hlen']; omega)]
      simp only [Outcome.ok_bind, Outcome.pure_eq, decodeEntries]
      rw [if_neg (by omega), if_pos (by rw [hlen']; omega)]
      have hdrop : X.drop (8 + c.numEntriesBytes) = P ++ junk := by
        have : X = ([c.preLongs true, 4, 3, c.entryBits, c.numEntriesBytes, 26]
          ++ toLE 2 c.seedHash ++ toLE c.numEntriesBytes c.entries.length)
          ++ (P ++ junk) := by rw [hsplit]; simp
        rw [this, List.drop_left' (by simp; omega)]
      rw [hdrop, hpk]
      simp only [Outcome.ok_bind, hun, compactFromEntries, hord]
      rw [← hnE, ← ho, ← hthe]

/-- a sketch not suitable for compression is written in the uncompressed form -/
theorem C14_unsuitable_falls_back (c : Compact) (h : c.suitable = false) :
    encode c true = encode c false := by
  simp [encode, h]

/-- **C13/C14 end to end.** For every stream of updates, trims and resets on an update sketch, its
compact form (ordered or not), encoded with either setting and decoded with the same seed, is the
compact form again. -/
theorem C13_update_sketch_survives {ι : Type} (hash : ι → Nat) (lgK rf start sh : Nat)
    (hstart : start ≤ maxTheta) (hsh : sh < 2 ^ 16) (t0 : Tbl)
    (hnew : newTable lgK rf start = .ok t0) (ops : List (Op ι)) (ordered compressed : Bool) :
    ∃ t bytes, run hash t0 ops = .ok t
      ∧ encode (newCompact (viewOf t sh) ordered) compressed = .ok bytes
      ∧ bytes.length = (newCompact (viewOf t sh) ordered).serializedSize compressed
      ∧ decode (.ok sh) bytes = .ok (newCompact (viewOf t sh) ordered) := by
  obtain ⟨t, e, i⟩ := run_inv ops t0 [] (new_sinv hash hnew)
  have hv := i.valid hstart sh
  have hperm := newCompact_perm hv ordered
  have hnum : t.numEntries = (all t).length := i.tinv.num
  have hlen : (newCompact (viewOf t sh) ordered).entries.length = t.numEntries := by
    rw [hperm.length_eq, hnum]; rfl
  have hlt : t.numEntries < 2 ^ 32 := by
    have h1 := i.tinv.cap
    have h2 := HashTable.computeCapacity_lt t.lgCur t.lgNom
    have h3 : 2 ^ t.lgCur ≤ 2 ^ 27 := Nat.pow_le_pow_right (by decide)
      (by have := i.tinv.lgNom; have := i.tinv.lgCur; omega)
    omega
  have hE : Encodable (newCompact (viewOf t sh) ordered) :=
    ⟨newCompact_valid hv ordered, hsh, by omega⟩
  have hord : (newCompact (viewOf t sh) ordered).entries.length ≤ 1 →
      (newCompact (viewOf t sh) ordered).isOrdered = true := by
    intro h
    show (isOrdered t || ordered) = true
    have : isOrdered t = true := by simp [isOrdered]; omega
    simp [this]
  have hemp : (newCompact (viewOf t sh) ordered).isEmpty = true →
      (newCompact (viewOf t sh) ordered).theta = maxTheta := by
    intro h
    show theta64 t = maxTheta
    unfold theta64
    exact if_pos h
  have hun : ∀ b, (encode (newCompact (viewOf t sh) ordered) b
        = encode (newCompact (viewOf t sh) ordered) false) →
      ((newCompact (viewOf t sh) ordered).serializedSize b
        = (newCompact (viewOf t sh) ordered).serializedSize false) →
      ∃ t' bytes, run hash t0 ops = .ok t'
      ∧ encode (newCompact (viewOf t' sh) ordered) b = .ok bytes
      ∧ bytes.length = (newCompact (viewOf t' sh) ordered).serializedSize b
      ∧ decode (.ok sh) bytes = .ok (newCompact (viewOf t' sh) ordered) := by
    intro b h1 h2
    obtain ⟨bytes, e1, e2, e3⟩ := C13_uncompressed_round_trip hE (.ok sh) rfl hemp []
    refine ⟨t, bytes, e, by rw [h1, e1], by rw [e2, h2], ?_⟩
    rw [List.append_nil] at e3
    rw [e3]
    congr 1
    have : ((newCompact (viewOf t sh) ordered).isOrdered
        || decide ((newCompact (viewOf t sh) ordered).entries.length ≤ 1))
        = (newCompact (viewOf t sh) ordered).isOrdered := by
      by_cases h : (newCompact (viewOf t sh) ordered).entries.length ≤ 1
      · rw [hord h]; rfl
      · simp [h]
    rw [this]
  cases compressed with
  | false => exact hun false rfl rfl
  | true =>
    cases hsu : (newCompact (viewOf t sh) ordered).suitable with
    | false =>
      exact hun true (C14_unsuitable_falls_back _ hsu) (by simp [Compact.serializedSize, hsu])
    | true =>
      obtain ⟨bytes, e1, e2, -, e3⟩ := C14_compressed_round_trip hE hsu (.ok sh) rfl [] (by simp)
      exact ⟨t, bytes, e, e1, e2, by simpa using e3⟩

/-- the hypotheses are met by a non-trivial sketch (ten ordered entries in estimation mode) -/
example : Encodable ⟨[1, 5, 9, 100, 101, 102, 4000, 5000, 70000, 2 ^ 61], 2 ^ 62, 777, false, true⟩
    ∧ (⟨[1, 5, 9, 100, 101, 102, 4000, 5000, 70000, 2 ^ 61], 2 ^ 62, 777, false, true⟩
      : Compact).suitable = true := by
  refine ⟨⟨⟨?_, ?_, rfl, ?_, by decide, ?_⟩, by decide, by decide⟩, by decide⟩ <;>
    simp [Compact.view]

end Verif.Theta
