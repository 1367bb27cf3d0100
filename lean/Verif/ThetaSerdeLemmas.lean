import Verif.ThetaSerdeModel
import Verif.ThetaValid

/-!
# Lemmas for theta serialization
-/

namespace Verif.Theta

open BitPack

/-- the little-endian images of the entries -/
def entryBytes (l : List Nat) : List Nat := l.flatMap (toLE 8)

theorem entryBytes_length (l : List Nat) : (entryBytes l).length = l.length * 8 := by
  induction l with
  | nil => rfl
  | cons a l ih =>
    simp only [entryBytes, List.flatMap_cons, List.length_append, toLE_length, List.length_cons] at *
    omega

theorem wrEntries_at (l : List Nat) : ∀ (d : List Nat) (n : Nat), l.length * 8 ≤ n →
    wrEntries l (At d n) = .ok (At (d ++ entryBytes l) (n - l.length * 8)) := by
  induction l with
  | nil => intro d n _; simp [wrEntries, entryBytes]
  | cons e l ih =>
    intro d n h
    simp only [List.length_cons] at h
    simp only [wrEntries]
    rw [wr_at (by simp; omega)]
    simp only [Outcome.ok_bind]
    rw [ih _ _ (by simp; omega)]
    congr 2
    · simp [entryBytes]
    · simp only [toLE_length, List.length_cons]; omega

theorem readEntries_spec (c : List Nat) : ∀ (l : List Nat) (a : List Nat) (start i : Nat),
    (∀ e ∈ l, e < 2 ^ 64) → start + i * 8 = a.length →
    readEntries (a ++ (entryBytes l ++ c)) start l.length i = .ok l := by
  intro l
  induction l with
  | nil => intro a start i _ _; rfl
  | cons e l ih =>
    intro a start i hl ha
    have h1 : a ++ (entryBytes (e :: l) ++ c) = a ++ (toLE 8 e ++ (entryBytes l ++ c)) := by
      simp [entryBytes]
    have h2 : a ++ (toLE 8 e ++ (entryBytes l ++ c)) = (a ++ toLE 8 e) ++ (entryBytes l ++ c) := by
      simp
    have h3 : e % 256 ^ 8 = e := Nat.mod_eq_of_lt (by simpa using hl e (by simp))
    simp only [List.length_cons, readEntries]
    rw [h1, getLE_append ha]
    simp only [Outcome.ok_bind]
    rw [h2, ih (a ++ toLE 8 e) start (i + 1) (fun x hx => hl x (by simp [hx])) (by simp; omega)]
    rw [h3]; rfl

/-! ## Version 3 -/

/-- the uncompressed image, field by field -/
def imageV3 (c : Compact) : List Nat :=
  [c.preLongs false, 3, 3, 0, 0, flagsV3 c] ++ toLE 2 c.seedHash
    ++ (if c.preLongs false > 1 then toLE 4 c.entries.length ++ [0, 0, 0, 0] else [])
    ++ (if c.isEstimation then toLE 8 c.theta else [])
    ++ entryBytes c.entries

theorem preLongs_cases (c : Compact) :
    (c.isEstimation = true ∧ c.isEmpty = false ∧ c.preLongs false = 3)
    ∨ (c.isEstimation = false ∧ (c.isEmpty = true ∨ c.entries.length = 1) ∧ c.preLongs false = 1)
    ∨ (c.isEstimation = false ∧ c.isEmpty = false ∧ c.entries.length ≠ 1
        ∧ c.preLongs false = 2) := by
  unfold Compact.preLongs
  cases he : c.isEstimation
  · by_cases h1 : c.entries.length = 1
    · simp [h1]
    · cases h2 : c.isEmpty <;> simp [h1]
  · left
    unfold Compact.isEstimation at he
    cases h2 : c.isEmpty
    · simp
    · simp [h2] at he

theorem encodeV3_eq (c : Compact) : encodeV3 c = .ok (imageV3 c) := by
  have hstart : ((List.replicate (c.serializedSize false) 0, 0) : Cursor)
      = At [] (c.serializedSize false) := by simp [At]
  have hsize : c.serializedSize false = c.preLongs false * 8 + c.entries.length * 8 := by
    simp [Compact.serializedSize]
  unfold encodeV3
  rw [hstart, hsize]
  have hpos : 1 ≤ c.preLongs false := by
    rcases preLongs_cases c with h | h | h <;> omega
  simp only [Outcome.pure_eq]
  rw [wr_at (by simp; omega)]
  simp only [Outcome.ok_bind]
  rw [wr_at (by simp; omega)]
  simp only [Outcome.ok_bind]
  rw [wr_at (by simp; omega)]
  simp only [Outcome.ok_bind]
  rw [skip_at (by simp; omega)]
  simp only [Outcome.ok_bind]
  rw [wr_at (by simp; omega)]
  simp only [Outcome.ok_bind]
  rw [wr_at (by simp; omega)]
  simp only [Outcome.ok_bind]
  unfold wrNum wrTheta imageV3
  rcases preLongs_cases c with ⟨h1, h2, h3⟩ | ⟨h1, h2, h3⟩ | ⟨h1, h2, h2', h3⟩
  · rw [h3, h1]
    simp only [if_true, show (3 : Nat) > 1 from by decide]
    rw [wr_at (by simp; omega)]
    simp only [Outcome.ok_bind]
    rw [skip_at (by simp; omega)]
    simp only [Outcome.ok_bind]
    rw [wr_at (by simp; omega)]
    simp only [Outcome.ok_bind]
    rw [wrEntries_at _ _ _ (by simp; omega)]
    simp [At, List.replicate]
    omega
  · rw [h3, h1]
    simp only [show ¬ (1 : Nat) > 1 from by decide, if_false, Outcome.ok_bind, Bool.false_eq_true]
    rw [wrEntries_at _ _ _ (by simp; omega)]
    simp [At, List.replicate]
    omega
  · rw [h3, h1]
    simp only [show (2 : Nat) > 1 from by decide, if_true, if_false, Outcome.ok_bind,
      Bool.false_eq_true]
    rw [wr_at (by simp; omega)]
    simp only [Outcome.ok_bind]
    rw [skip_at (by simp; omega)]
    simp only [Outcome.ok_bind]
    rw [wrEntries_at _ _ _ (by simp; omega)]
    simp [At, List.replicate]
    omega

theorem imageV3_length (c : Compact) : (imageV3 c).length = c.serializedSize false := by
  have hsize : c.serializedSize false = c.preLongs false * 8 + c.entries.length * 8 := by
    simp [Compact.serializedSize]
  rw [hsize]
  unfold imageV3
  rcases preLongs_cases c with ⟨h1, h2, h3⟩ | ⟨h1, h2, h3⟩ | ⟨h1, h2, h2', h3⟩ <;>
    simp [h1, h3, entryBytes_length] <;> omega

theorem flagsV3_lt (c : Compact) : flagsV3 c < 256 := by
  unfold flagsV3
  cases c.isEmpty <;> cases c.isOrdered <;> decide

theorem flagsV3_empty (c : Compact) : (flagsV3 c).testBit 2 = c.isEmpty := by
  unfold flagsV3
  cases c.isEmpty <;> cases c.isOrdered <;> decide

theorem flagsV3_ordered (c : Compact) : (flagsV3 c).testBit 4 = c.isOrdered := by
  unfold flagsV3
  cases c.isEmpty <;> cases c.isOrdered <;> decide

/-- reading one byte inside a literal prefix -/
theorem getLE_one {l : List Nat} {o b : Nat} (h : l[o]? = some b) : getLE l o 1 = .ok b := by
  have ho : o < l.length := (List.getElem?_eq_some_iff.mp h).1
  rw [getLE_ok (by omega)]
  unfold getT
  rw [List.drop_eq_getElem_cons ho]
  simp only [List.take_succ_cons, List.take_zero, fromLE]
  have := (List.getElem?_eq_some_iff.mp h).2
  simp [this]

theorem validateSize_ok {l : List Nat} {n : Nat} (h : n ≤ l.length) :
    validateSize l n = .ok () := if_neg (by omega)

/-- what `Encode` + `Decode` give in the uncompressed form -/
def normalized (c : Compact) : Compact :=
  ⟨c.entries, if c.isEmpty then maxTheta else c.theta, c.seedHash, c.isEmpty,
    if c.entries.length ≤ 1 then true else c.isOrdered⟩

theorem decode_imageV3 (c : Compact) (seedHash : Outcome Nat)
    (hseed : c.isEmpty = false → seedHash = .ok c.seedHash) (hsh : c.seedHash < 2 ^ 16)
    (hent : ∀ e ∈ c.entries, e < 2 ^ 64) (hlen : c.entries.length < 2 ^ 32)
    (hth : c.theta ≤ maxTheta) (hemp : c.isEmpty = true → c.entries = []) (junk : List Nat) :
    decode seedHash (imageV3 c ++ junk) = .ok (normalized c) := by
  have hL := imageV3_length c
  have hsize : c.serializedSize false = c.preLongs false * 8 + c.entries.length * 8 := by
    simp [Compact.serializedSize]
  have hpos : 1 ≤ c.preLongs false := by
    rcases preLongs_cases c with h | h | h <;> omega
  have hlen' : (imageV3 c ++ junk).length = c.preLongs false * 8 + c.entries.length * 8
      + junk.length := by
    rw [List.length_append, hL, hsize]
  have hsplit : imageV3 c ++ junk = [c.preLongs false, 3, 3, 0, 0, flagsV3 c]
      ++ (toLE 2 c.seedHash
      ++ ((if c.preLongs false > 1 then toLE 4 c.entries.length ++ [0, 0, 0, 0] else [])
      ++ ((if c.isEstimation then toLE 8 c.theta else [])
      ++ (entryBytes c.entries ++ junk)))) := by
    simp only [imageV3, List.append_assoc]
  have g2 : getLE (imageV3 c ++ junk) 2 1 = .ok 3 := getLE_one (by rw [hsplit]; rfl)
  have g1 : getLE (imageV3 c ++ junk) 1 1 = .ok 3 := getLE_one (by rw [hsplit]; rfl)
  have g0 : getLE (imageV3 c ++ junk) 0 1 = .ok (c.preLongs false) :=
    getLE_one (by rw [hsplit]; rfl)
  have g5 : getLE (imageV3 c ++ junk) 5 1 = .ok (flagsV3 c) := getLE_one (by rw [hsplit]; rfl)
  have g6 : getLE (imageV3 c ++ junk) 6 2 = .ok c.seedHash := by
    rw [hsplit, getLE_append (by rfl), Nat.mod_eq_of_lt (by simpa using hsh)]
  have hent' : ∀ a st, st = a.length → imageV3 c ++ junk = a ++ (entryBytes c.entries ++ junk) →
      readEntries (imageV3 c ++ junk) st c.entries.length 0 = .ok c.entries := by
    intro a st h1 h2
    rw [h2]
    exact readEntries_spec junk c.entries a st 0 hent (by omega)
  unfold decode decodeData
  rw [validateSize_ok (by rw [hlen']; omega)]
  simp only [Outcome.ok_bind, g2, g1]
  simp only [ne_eq, not_true_eq_false, if_false, if_true, show (3 : Nat) ≠ 4 from by decide]
  unfold decodeV3
  simp only [Outcome.ok_bind, g6, g5, flagsV3_empty]
  cases hE : c.isEmpty with
  | true =>
    simp only [if_true, Outcome.pure_eq, Outcome.ok_bind, decodeEntries, readEntries]
    simp [compactFromEntries, normalized, hE, hemp hE]
  | false =>
    simp only [Bool.false_eq_true, if_false, hseed hE, Outcome.ok_bind, checkSeed, if_true]
    unfold decodeV3Rest
    simp only [g0, Outcome.ok_bind]
    rcases preLongs_cases c with ⟨h1, h2, h3⟩ | ⟨h1, h2, h3⟩ | ⟨h1, h2, h2', h3⟩
    · -- estimation
      have ht : getLE (imageV3 c ++ junk) 16 8 = .ok c.theta := by
        have : imageV3 c ++ junk = ([c.preLongs false, 3, 3, 0, 0, flagsV3 c]
            ++ toLE 2 c.seedHash ++ toLE 4 c.entries.length ++ [0, 0, 0, 0])
            ++ (toLE 8 c.theta ++ (entryBytes c.entries ++ junk)) := by
          rw [hsplit, h1, h3]; simp
        rw [this, getLE_append (by simp), Nat.mod_eq_of_lt]
        unfold maxTheta at hth; omega
      have hn : getLE (imageV3 c ++ junk) 8 4 = .ok c.entries.length := by
        have : imageV3 c ++ junk = ([c.preLongs false, 3, 3, 0, 0, flagsV3 c]
            ++ toLE 2 c.seedHash) ++ (toLE 4 c.entries.length ++ ([0, 0, 0, 0]
            ++ (toLE 8 c.theta ++ (entryBytes c.entries ++ junk)))) := by
          rw [hsplit, h1, h3]; simp
        rw [this, getLE_append (by simp), Nat.mod_eq_of_lt (by simpa using hlen)]
      have hr := hent' ([c.preLongs false, 3, 3, 0, 0, flagsV3 c]
            ++ toLE 2 c.seedHash ++ toLE 4 c.entries.length ++ [0, 0, 0, 0] ++ toLE 8 c.theta) 24
            (by simp) (by rw [hsplit, h1, h3]; simp)
      simp only [h3, readTheta, show (3 : Nat) > 2 from by decide, decide_true, if_true]
      rw [validateSize_ok (by rw [hlen']; omega)]
      simp only [Outcome.ok_bind, ht, show (3 : Nat) ≠ 1 from by decide, if_false, hn]
      rw [validateSize_ok (by rw [hlen']; omega)]
      simp only [Outcome.ok_bind, Outcome.pure_eq, decodeEntries, if_true, hr, flagsV3_ordered]
      simp [compactFromEntries, normalized, hE]
    · -- single entry
      have h4 : c.entries.length = 1 := by
        rcases h2 with h2 | h2
        · simp [hE] at h2
        · exact h2
      have hthe : c.theta = maxTheta := by
        unfold Compact.isEstimation at h1
        simp [hE] at h1
        omega
      have hr := hent' ([c.preLongs false, 3, 3, 0, 0, flagsV3 c] ++ toLE 2 c.seedHash) 8
            (by simp) (by rw [hsplit, h1, h3]; simp)
      simp only [h3, readTheta, show ¬ (1 : Nat) > 2 from by decide, decide_false, if_false,
        Outcome.ok_bind, if_true, Bool.false_eq_true]
      rw [validateSize_ok (by rw [hlen']; omega)]
      simp only [Outcome.ok_bind, Outcome.pure_eq, decodeEntries, if_true]
      rw [h4] at hr
      simp only [hr, Outcome.ok_bind]
      simp [compactFromEntries, normalized, hE, h4, hthe]
    · have hthe : c.theta = maxTheta := by
        unfold Compact.isEstimation at h1
        simp [hE] at h1
        omega
      have hn : getLE (imageV3 c ++ junk) 8 4 = .ok c.entries.length := by
        have : imageV3 c ++ junk = ([c.preLongs false, 3, 3, 0, 0, flagsV3 c]
            ++ toLE 2 c.seedHash) ++ (toLE 4 c.entries.length ++ ([0, 0, 0, 0]
            ++ (entryBytes c.entries ++ junk))) := by
          rw [hsplit, h1, h3]; simp
        rw [this, getLE_append (by simp), Nat.mod_eq_of_lt (by simpa using hlen)]
      have hr := hent' ([c.preLongs false, 3, 3, 0, 0, flagsV3 c]
            ++ toLE 2 c.seedHash ++ toLE 4 c.entries.length ++ [0, 0, 0, 0]) 16
            (by simp) (by rw [hsplit, h1, h3]; simp)
      simp only [h3, readTheta, show ¬ (2 : Nat) > 2 from by decide, decide_false, if_false,
        Outcome.ok_bind, Bool.false_eq_true, show (2 : Nat) ≠ 1 from by decide, hn]
      rw [validateSize_ok (by rw [hlen']; omega)]
      simp only [Outcome.ok_bind, Outcome.pure_eq, decodeEntries, if_true, hr, flagsV3_ordered]
      simp [compactFromEntries, normalized, hE, hthe]

/-! ## Version 4 -/

theorem byteBit_append {a b : List Nat} {p : Nat} :
    byteBit (a ++ b) p = if p < 8 * a.length then byteBit a p else byteBit b (p - 8 * a.length) := by
  unfold byteBit
  by_cases h : p < 8 * a.length
  · rw [if_pos h]
    simp only [List.getD]
    rw [List.getElem?_append_left (by omega)]
  · rw [if_neg h]
    simp only [List.getD]
    rw [List.getElem?_append_right (by omega)]
    have h1 : (p - 8 * a.length) / 8 = p / 8 - a.length := by omega
    have h2 : (p - 8 * a.length) % 8 = p % 8 := by omega
    rw [h1, h2]

theorem byteBit_drop {a : List Nat} {n p : Nat} : byteBit (a.drop n) p = byteBit a (8 * n + p) := by
  unfold byteBit
  have h1 : (8 * n + p) / 8 = n + p / 8 := by omega
  have h2 : (8 * n + p) % 8 = p % 8 := by omega
  rw [h1, h2]
  simp [List.getD, List.getElem?_drop]

theorem byteBit_take {a : List Nat} {n p : Nat} (h : p < 8 * n) :
    byteBit (a.take n) p = byteBit a p := by
  unfold byteBit
  simp only [List.getD]
  rw [List.getElem?_take_of_lt (by omega)]

theorem streamBit_append {a b : List Nat} {n p : Nat} (hn : 1 ≤ n) :
    streamBit (a ++ b) n p
      = if p < n * a.length then streamBit a n p else streamBit b n (p - n * a.length) := by
  unfold streamBit
  by_cases h : p < n * a.length
  · rw [if_pos h]
    have : p / n < a.length := Nat.div_lt_of_lt_mul h
    simp only [List.getD]
    rw [List.getElem?_append_left this]
  · rw [if_neg h]
    obtain ⟨q, rfl⟩ : ∃ q, p = n * a.length + q := ⟨p - n * a.length, by omega⟩
    have h1 : (n * a.length + q) / n = a.length + q / n := by
      rw [Nat.mul_add_div (by omega)]
    have h2 : (n * a.length + q) % n = q % n := Nat.mul_add_mod ..
    rw [h1, h2, Nat.add_sub_cancel_left]
    simp only [List.getD]
    rw [List.getElem?_append_right (Nat.le_add_right _ _), Nat.add_sub_cancel_left]

theorem wholeBytes_spec (b : Nat) : b ≤ 8 * wholeBytes b ∧ wholeBytes b = (b + 7) / 8 := by
  unfold wholeBytes
  split <;> omega

theorem deltas_length (l : List Nat) : ∀ prev, (deltas prev l).length = l.length := by
  induction l with
  | nil => intro _; rfl
  | cons a l ih => intro prev; simp [deltas, ih]

/-- `P` is the packed image of the `n`-bit values `ds` -/
structure Packed (n : Nat) (ds P : List Nat) : Prop where
  len : P.length = wholeBytes (n * ds.length)
  lt : ∀ x ∈ P, x < 256
  bits : ∀ p < n * ds.length, byteBit P p = streamBit ds n p

theorem wrRest_at {n : Nat} (hn : 1 ≤ n) (ds d : List Nat) :
    ∃ P, wrRest n ds (At d (wholeBytes (n * ds.length))) = .ok (d ++ P) ∧ Packed n ds P := by
  obtain ⟨h1, h2⟩ := wholeBytes_spec (n * ds.length)
  obtain ⟨out, i, o, e, ho, hp, hl, hb, hs, ht, hx⟩ := packSeq_spec n hn ds
    (List.replicate (wholeBytes (n * ds.length)) 0) 0 0 (by omega) (by simp; omega) (by omega)
  refine ⟨out, ?_, ?_, hx (by simp), by simpa using hs⟩
  · simp [wrRest, At, e]
  · rw [hl]; simp

theorem wrBlock_at {n m : Nat} (h1 : 1 ≤ n) (h2 : n ≤ 63) (ds d : List Nat) (hl : ds.length = 8)
    (hv : ∀ v ∈ ds, v < 2 ^ n) (hm : n ≤ m) :
    ∃ B, wrBlock n ds (At d m) = .ok (At (d ++ B) (m - n)) ∧ B.length = n ∧ (∀ x ∈ B, x < 256)
      ∧ ∀ p < n * 8, byteBit B p = streamBit ds n p := by
  obtain ⟨out, e, el, es, ej, ex⟩ := C11_block_pack_stream h1 h2 ds (List.replicate m 0) (by omega)
    hv (by simpa using hm)
  have hol : out.length = m := by simpa using el
  have hout : out = out.take n ++ List.replicate (m - n) 0 := by
    apply List.ext_getElem?
    intro j
    by_cases hj : j < n
    · rw [List.getElem?_append_left (by simp; omega), List.getElem?_take_of_lt hj]
    · rw [List.getElem?_append_right (by simp; omega), ej j (by omega)]
      simp only [List.length_take, List.getElem?_replicate]
      split <;> split <;> first | rfl | omega
  refine ⟨out.take n, ?_, by simp; omega, ?_, ?_⟩
  · unfold wrBlock At
    simp only [List.drop_left, e, List.take_left]
    congr 2
    · rw [List.append_assoc, ← hout]
    · simp; omega
  · intro x hx
    exact ex (by simp) x (List.mem_of_mem_take hx)
  · intro p hp
    rw [byteBit_take (by omega), es p (by omega)]

theorem wrPacked_at {n : Nat} (h1 : 1 ≤ n) (h2 : n ≤ 63) : ∀ (k : Nat) (l : List Nat) (prev : Nat)
    (d : List Nat), l.length ≤ k → (∀ v ∈ deltas prev l, v < 2 ^ n) →
    ∃ P, wrPacked n prev l (At d (wholeBytes (n * l.length))) = .ok (d ++ P)
      ∧ Packed n (deltas prev l) P := by
  intro k
  induction k with
  | zero =>
    intro l prev d hl _
    obtain rfl : l = [] := List.length_eq_zero_iff.mp (by omega)
    obtain ⟨P, e, hP⟩ := wrRest_at h1 [] d
    exact ⟨P, by simpa [wrPacked, deltas] using e, by simpa [deltas] using hP⟩
  | succ k ih =>
    intro l prev d hl hv
    unfold wrPacked
    split
    · rename_i prev _ _ _ e0 e1 e2 e3 e4 e5 e6 e7 l
      have hsplit : deltas prev (e0 :: e1 :: e2 :: e3 :: e4 :: e5 :: e6 :: e7 :: l)
          = deltas prev [e0, e1, e2, e3, e4, e5, e6, e7] ++ deltas e7 l := by
        simp [deltas]
      rw [hsplit] at hv ⊢
      have hwb : wholeBytes (n * (e0 :: e1 :: e2 :: e3 :: e4 :: e5 :: e6 :: e7 :: l).length)
          = n + wholeBytes (n * l.length) := by
        rw [(wholeBytes_spec _).2, (wholeBytes_spec _).2]
        simp only [List.length_cons]
        rw [show n * (l.length + 1 + 1 + 1 + 1 + 1 + 1 + 1 + 1) = n * l.length + 8 * n by ring]
        omega
      rw [hwb]
      obtain ⟨B, eB, hBl, hBx, hBs⟩ := wrBlock_at h1 h2
        (deltas prev [e0, e1, e2, e3, e4, e5, e6, e7]) d (by simp [deltas])
        (fun v h => hv v (by simp only [List.mem_append]; left; exact h))
        (show n ≤ n + wholeBytes (n * l.length) by omega)
      obtain ⟨P, eP, hP⟩ := ih l e7 (d ++ B) (by simp at hl; omega)
        (fun v h => hv v (by simp only [List.mem_append]; right; exact h))
      refine ⟨B ++ P, ?_, ?_, ?_, ?_⟩
      · rw [eB]
        simp only [Outcome.ok_bind, Nat.add_sub_cancel_left]
        rw [eP, List.append_assoc]
      · rw [List.length_append, hBl, hP.len, List.length_append, deltas_length, deltas_length,
          (wholeBytes_spec _).2, (wholeBytes_spec _).2]
        simp only [List.length_cons, List.length_nil]
        rw [Nat.mul_add]
        omega
      · intro x hx
        rcases List.mem_append.mp hx with h | h
        · exact hBx x h
        · exact hP.lt x h
      · intro p hp
        rw [streamBit_append h1, byteBit_append, hBl]
        have h8 : (deltas prev [e0, e1, e2, e3, e4, e5, e6, e7]).length = 8 := by simp [deltas]
        rw [h8]
        rw [List.length_append, h8, Nat.mul_add] at hp
        by_cases hp8 : p < n * 8
        · rw [if_pos (by omega), if_pos hp8, hBs p hp8]
        · rw [if_neg (by omega), if_neg hp8, Nat.mul_comm 8 n]
          exact hP.bits _ (by omega)
    · rename_i prev l _ _ _ _
      obtain ⟨P, e, hP⟩ := wrRest_at h1 (deltas prev l) d
      rw [deltas_length] at e
      exact ⟨P, e, hP⟩

theorem readPacked_spec {n : Nat} (h1 : 1 ≤ n) (h2 : n ≤ 63) : ∀ (k : Nat) (ds ptr : List Nat),
    ds.length ≤ k → (∀ v ∈ ds, v < 2 ^ n) → (∀ x ∈ ptr, x < 256) →
    n * ds.length ≤ 8 * ptr.length →
    (∀ p < n * ds.length, byteBit ptr p = streamBit ds n p) →
    readPacked n ptr ds.length = .ok ds := by
  intro k
  induction k with
  | zero =>
    intro ds ptr hl _ _ _ _
    obtain rfl : ds = [] := List.length_eq_zero_iff.mp (by omega)
    unfold readPacked
    simp [readTail, unpackSeq]
  | succ k ih =>
    intro ds ptr hl hv hx hr hs
    unfold readPacked
    by_cases h8 : ds.length ≥ 8
    · rw [if_pos h8]
      have hnp : n ≤ ptr.length := by
        have : n * 8 ≤ n * ds.length := Nat.mul_le_mul_left _ h8
        omega
      obtain ⟨vs, e, el, eb, -⟩ := C11_block_unpack_stream h1 h2 (List.replicate 8 0) ptr (by simp)
        hnp hx (by simp)
      have hvs : vs = ds.take 8 := by
        apply List.ext_getElem (by simp at el ⊢; omega)
        intro i hi1 hi2
        have hi8 : i < 8 := by simp at hi2; omega
        apply Nat.eq_of_testBit_eq
        intro b
        have h3 := eb i hi8 b
        simp only [List.getD, List.getElem?_eq_getElem hi1, Option.getD_some] at h3
        rw [h3, List.getElem_take]
        have hid : i < ds.length := by omega
        by_cases hbn : b < n
        · have hlt : i * n + (n - 1 - b) < n * ds.length := by
            have : i * n + n ≤ n * ds.length := by
              calc i * n + n = n * (i + 1) := by ring
                _ ≤ n * ds.length := Nat.mul_le_mul_left _ (by omega)
            omega
          rw [hs _ hlt]
          unfold streamBit
          have hd : (i * n + (n - 1 - b)) / n = i := by
            rw [Nat.mul_comm, Nat.mul_add_div (by omega), Nat.div_eq_of_lt (by omega)]; rfl
          have hm : (i * n + (n - 1 - b)) % n = n - 1 - b := by
            rw [Nat.mul_comm, Nat.mul_add_mod, Nat.mod_eq_of_lt (by omega)]
          rw [hd, hm]
          simp only [List.getD, List.getElem?_eq_getElem hid, Option.getD_some, hbn, decide_true,
            Bool.true_and]
          congr 1; omega
        · rw [testBit_ge (hv _ (List.getElem_mem hid)) (by omega)]
          simp [hbn]
      have hblk : readBlock n ptr = .ok (ds.take 8, ptr.drop n) := by
        unfold readBlock
        rw [e]
        simp only [hvs]
        rw [if_pos hnp]
      rw [hblk]
      simp only [Outcome.ok_bind]
      have hdl : (ds.drop 8).length = ds.length - 8 := by simp
      have hmul : n * ds.length = n * 8 + n * (ds.length - 8) := by
        rw [← Nat.mul_add]; congr 1; omega
      have := ih (ds.drop 8) (ptr.drop n) (by omega)
        (fun v h => hv v (List.mem_of_mem_drop h)) (fun x h => hx x (List.mem_of_mem_drop h))
        (by rw [hdl, List.length_drop]; omega)
        (by
          intro p hp
          rw [byteBit_drop, hs _ (by rw [hdl] at hp; omega)]
          conv_lhs => rw [← List.take_append_drop 8 ds]
          rw [streamBit_append h1]
          have : (ds.take 8).length = 8 := by simp; omega
          rw [this, if_neg (by omega)]
          congr 1; omega)
      rw [hdl] at this
      rw [this]
      simp
    · rw [if_neg h8]
      obtain ⟨i, o, e, -, -⟩ := unpackSeq_spec n h1 (by omega) ptr hx ds 0 0 (by omega) (by omega)
        hv (by simpa using hs)
      simp [readTail, e]

theorem undelta_deltas (l : List Nat) : ∀ prev, prev < 2 ^ 64 → (∀ e ∈ l, e < 2 ^ 64) →
    undelta prev (deltas prev l) = l := by
  induction l with
  | nil => intro _ _ _; rfl
  | cons e l ih =>
    intro prev hp hl
    have he := hl e (by simp)
    have h1 : ((e + (2 ^ 64 - prev % 2 ^ 64)) % 2 ^ 64 + prev) % 2 ^ 64 = e := by omega
    simp only [deltas, undelta, h1]
    rw [ih e he (fun x hx => hl x (by simp [hx]))]

theorem lt_two_pow_bitLen (x : Nat) : x < 2 ^ bitLen x := by
  unfold bitLen
  split
  · omega
  · exact Nat.lt_log2_self

theorem bitLen_le {x n : Nat} (h : x < 2 ^ n) : bitLen x ≤ n := by
  unfold bitLen
  split
  · omega
  · rename_i h0
    exact (Nat.log2_lt h0).mpr h

theorem le_foldl_or (l : List Nat) : ∀ a, a ≤ l.foldl (· ||| ·) a ∧
    ∀ x ∈ l, x ≤ l.foldl (· ||| ·) a := by
  induction l with
  | nil => intro a; simp
  | cons b l ih =>
    intro a
    have := ih (a ||| b)
    simp only [List.foldl_cons, List.mem_cons]
    refine ⟨le_trans Nat.left_le_or this.1, ?_⟩
    rintro x (rfl | h)
    · exact le_trans Nat.right_le_or this.1
    · exact this.2 x h

theorem foldl_or_lt {n : Nat} (l : List Nat) : ∀ a, a < 2 ^ n → (∀ x ∈ l, x < 2 ^ n) →
    l.foldl (· ||| ·) a < 2 ^ n := by
  induction l with
  | nil => intro a h _; exact h
  | cons b l ih =>
    intro a h hl
    exact ih _ (Nat.or_lt_two_pow h (hl b (by simp))) (fun x hx => hl x (by simp [hx]))

theorem deltas_increasing (l : List Nat) : ∀ prev, prev < 2 ^ 63 → (∀ e ∈ l, prev < e ∧ e < 2 ^ 63) →
    l.Pairwise (· < ·) → ∀ d ∈ deltas prev l, 1 ≤ d ∧ d < 2 ^ 63 := by
  induction l with
  | nil => intro _ _ _ _ d hd; simp [deltas] at hd
  | cons e l ih =>
    intro prev hp hl hs d hd
    have he := hl e (by simp)
    rw [List.pairwise_cons] at hs
    simp only [deltas, List.mem_cons] at hd
    rcases hd with rfl | hd
    · omega
    · exact ih e he.2 (fun x hx => ⟨hs.1 x hx, (hl x (by simp [hx])).2⟩) hs.2 d hd

theorem readNum_spec (a c : List Nat) : ∀ (k i v acc : Nat), i + k ≤ 4 → acc < 256 ^ i →
    (a ++ c).drop (a.length + i) = toLE k v ++ c.drop (i + k) →
    readNum (a ++ c) a.length k i acc = .ok (acc + 256 ^ i * (v % 256 ^ k)) := by
  intro k
  induction k with
  | zero => intro i v acc _ _ _; simp [readNum, Nat.mod_one]
  | succ k ih =>
    intro i v acc hik hacc hd
    have hb : (a ++ c)[a.length + i]? = some (v % 256) := by
      have := congrArg (fun l => l[0]?) hd
      rw [List.getElem?_append_right (Nat.le_add_right _ _), Nat.add_sub_cancel_left]
      simpa [List.getElem?_drop, toLE] using this
    simp only [readNum]
    rw [getLE_one hb]
    simp only [Outcome.ok_bind]
    have h8 : i * 8 % 256 = 8 * i := by omega
    have hpow : (256 : Nat) ^ i = 2 ^ (8 * i) := by rw [show (256 : Nat) = 2 ^ 8 from rfl, ← pow_mul]
    have hle : 256 ^ (i + 1) ≤ 256 ^ 4 := Nat.pow_le_pow_right (by decide) (by omega)
    have hlt : v % 256 * 256 ^ i < 2 ^ 32 := by
      have : v % 256 < 256 := Nat.mod_lt _ (by decide)
      have h3 : v % 256 * 256 ^ i ≤ 255 * 256 ^ i := Nat.mul_le_mul_right _ (by omega)
      rw [pow_succ] at hle
      have : 0 < 256 ^ i := Nat.pow_pos (by decide)
      have h4 : (256 : Nat) ^ 4 = 2 ^ 32 := by decide
      omega
    have hacc' : acc ||| (v % 256) <<< (i * 8 % 256) % 2 ^ 32 = acc + v % 256 * 256 ^ i := by
      rw [h8, Nat.shiftLeft_eq, ← hpow, Nat.mod_eq_of_lt hlt, hpow, ← Nat.shiftLeft_eq,
        Nat.or_comm, ← Nat.shiftLeft_add_eq_or_of_lt (hpow ▸ hacc), Nat.add_comm]
    rw [hacc']
    have hrec := ih (i + 1) (v / 256) (acc + v % 256 * 256 ^ i) (by omega) (by
        rw [pow_succ]
        have : v % 256 < 256 := Nat.mod_lt _ (by decide)
        have h3 : v % 256 * 256 ^ i ≤ 255 * 256 ^ i := Nat.mul_le_mul_right _ (by omega)
        omega) (by
        have := congrArg (fun l => l.drop 1) hd
        simp only [List.drop_drop, toLE, List.cons_append, List.drop_succ_cons, List.drop_zero] at this
        rw [← Nat.add_assoc, this]
        congr 2; omega)
    rw [hrec, pow_succ, pow_succ, Nat.mul_comm (256 ^ k) 256, Nat.mod_mul]
    congr 1
    ring

theorem numEntriesBytes_spec {c : Compact} (h0 : 0 < c.entries.length)
    (h : c.entries.length < 2 ^ 32) :
    1 ≤ c.numEntriesBytes ∧ c.numEntriesBytes ≤ 4
      ∧ c.entries.length < 256 ^ c.numEntriesBytes := by
  unfold Compact.numEntriesBytes
  rw [Nat.mod_eq_of_lt h, if_neg (by omega), (wholeBytes_spec _).2]
  have h1 := bitLen_le h
  have h2 := lt_two_pow_bitLen c.entries.length
  have h3 : 1 ≤ bitLen c.entries.length := by
    unfold bitLen; rw [if_neg (by omega)]; omega
  refine ⟨by omega, by omega, lt_of_lt_of_le h2 ?_⟩
  rw [show (256 : Nat) = 2 ^ 8 from rfl, ← pow_mul]
  exact Nat.pow_le_pow_right (by decide) (by omega)

end Verif.Theta
