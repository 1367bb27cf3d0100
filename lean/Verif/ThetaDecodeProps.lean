import Verif.ThetaSerdeProps

/-!
# C43: the wrapped sketch shows the decoded sketch; C44: decoding malformed bytes
-/

namespace Verif.Theta

open BitPack

/-! ## Shifting the buffer -/

theorem unpackLoop_drop (bytes : List Nat) (k : Nat) : ∀ (fuel bits value idx : Nat),
    unpackLoop bytes fuel bits value (k + idx)
      = (unpackLoop (bytes.drop k) fuel bits value idx).map fun r => (r.1, k + r.2.1, r.2.2) := by
  intro fuel
  induction fuel with
  | zero => intro bits value idx; rfl
  | succ fuel ih =>
    intro bits value idx
    unfold unpackLoop
    by_cases h : bits ≥ 8
    · rw [if_pos h, if_pos h, List.getElem?_drop]
      cases bytes[k + idx]? with
      | none => rfl
      | some y => simp only []; rw [Nat.add_assoc, ih]
    · rw [if_neg h, if_neg h]; rfl

theorem unpackBits_drop (n : Nat) (bytes : List Nat) (k idx off : Nat) :
    unpackBits n bytes (k + idx) off
      = (unpackBits n (bytes.drop k) idx off).map fun r => (r.1, k + r.2.1, r.2.2) := by
  unfold unpackBits
  simp only [List.getElem?_drop]
  cases bytes[k + idx]? with
  | none => rfl
  | some y =>
    simp only []
    have hidx : (if 8 - off = min (8 - off) n then k + idx + 1 else k + idx)
        = k + (if 8 - off = min (8 - off) n then idx + 1 else idx) := by
      split <;> omega
    rw [hidx, unpackLoop_drop]
    cases unpackLoop (bytes.drop k) (n + 1) (n - min (8 - off) n) _ _ with
    | none => rfl
    | some r =>
      obtain ⟨v, i, b⟩ := r
      simp only [Option.map_some]
      by_cases hb : b > 0
      · rw [if_pos hb, if_pos hb]
        cases bytes[k + i]? <;> rfl
      · rw [if_neg hb, if_neg hb]; rfl

theorem unpackBits_lt {n : Nat} {bytes : List Nat} (hx : ∀ x ∈ bytes, x < 256)
    {idx off v i o : Nat} (h : unpackBits n bytes idx off = some (v, i, o)) : v < 2 ^ 64 := by
  unfold unpackBits at h
  cases hy : bytes[idx]? with
  | none => simp [hy] at h
  | some y =>
    have hyb : y < 256 := hx y (List.mem_of_getElem? hy)
    simp only [hy] at h
    have hv0 : (y >>> (8 - off - min (8 - off) n) &&& 2 ^ min (8 - off) n - 1) < 2 ^ 64 := by
      refine Nat.lt_of_le_of_lt Nat.and_le_left ?_
      rw [Nat.shiftRight_eq_div_pow]
      exact Nat.lt_of_le_of_lt (Nat.div_le_self _ _) (by omega)
    cases hl : unpackLoop bytes (n + 1) (n - min (8 - off) n)
        (y >>> (8 - off - min (8 - off) n) &&& 2 ^ min (8 - off) n - 1)
        (if 8 - off = min (8 - off) n then idx + 1 else idx) with
    | none => simp only [hl] at h; exact absurd h (by simp)
    | some r =>
      obtain ⟨w, i', b⟩ := r
      have hw := unpackLoop_lt bytes hx _ _ _ _ _ _ _ hv0 hl
      simp only [hl] at h
      split at h
      · cases hz : bytes[i']? with
        | none => simp [hz] at h
        | some z =>
          have hzb : z < 256 := hx z (List.mem_of_getElem? hz)
          simp only [hz, Option.some.injEq, Prod.mk.injEq] at h
          rw [← h.1]
          refine Nat.or_lt_two_pow (Nat.mod_lt _ (Nat.two_pow_pos _)) ?_
          rw [Nat.shiftRight_eq_div_pow]
          exact Nat.lt_of_le_of_lt (Nat.div_le_self _ _) (by omega)
      · simp only [Option.some.injEq, Prod.mk.injEq] at h
        rw [← h.1]; exact hw

theorem wrapTail_eq (n : Nat) (bytes : List Nat) (k : Nat) : ∀ (c idx off prev : Nat)
    (vs : List Nat) (i o : Nat), unpackSeq n (bytes.drop k) c idx off = some (vs, i, o) →
    wrapTail n bytes c (k + idx) off prev = .ok (undelta prev vs) := by
  intro c
  induction c with
  | zero =>
    intro idx off prev vs i o h
    simp only [unpackSeq, Option.some.injEq, Prod.mk.injEq] at h
    rw [← h.1]; rfl
  | succ c ih =>
    intro idx off prev vs i o h
    unfold unpackSeq at h
    unfold wrapTail
    rw [unpackBits_drop]
    cases hu : unpackBits n (bytes.drop k) idx off with
    | none => simp [hu] at h
    | some r =>
      obtain ⟨v, i1, o1⟩ := r
      simp only [hu] at h
      cases hs : unpackSeq n (bytes.drop k) c i1 o1 with
      | none => simp [hs] at h
      | some r2 =>
        obtain ⟨vs', i2, o2⟩ := r2
        simp only [hs, Option.some.injEq, Prod.mk.injEq] at h
        simp only [Option.map_some]
        rw [ih i1 o1 _ vs' i2 o2 hs, ← h.1]
        rfl

theorem undelta_length (l : List Nat) : ∀ prev, (undelta prev l).length = l.length := by
  induction l with
  | nil => intro _; rfl
  | cons d l ih => intro prev; simp [undelta, ih]

theorem undelta_lt (l : List Nat) : ∀ prev, ∀ x ∈ undelta prev l, x < 2 ^ 64 := by
  induction l with
  | nil => intro _ x hx; simp [undelta] at hx
  | cons d l ih =>
    intro prev x hx
    simp only [undelta, List.mem_cons] at hx
    rcases hx with rfl | hx
    · exact Nat.mod_lt _ (Nat.two_pow_pos _)
    · exact ih _ x hx

theorem undelta_append (a b : List Nat) : ∀ prev, undelta prev (a ++ b)
    = undelta prev a ++ undelta ((undelta prev a).getLastD prev) b := by
  induction a with
  | nil => intro prev; rfl
  | cons d a ih =>
    intro prev
    simp only [List.cons_append, undelta, ih]
    rw [List.getLastD_cons]

/-- the block unpacker overwrites all eight words: the old buffer content does not matter -/
theorem unpackBlock8_init {n : Nat} {ptr i1 i2 vs : List Nat} (hx : ∀ x ∈ ptr, x < 256)
    (h1 : i1.length = 8) (h2 : i2.length = 8) (l1 : ∀ x ∈ i1, x < 2 ^ 64)
    (l2 : ∀ x ∈ i2, x < 2 ^ 64) (hn : n ≤ ptr.length)
    (h : unpackBlock8 i1 ptr n = some (some vs)) : unpackBlock8 i2 ptr n = some (some vs) := by
  have hr : 1 ≤ n ∧ n ≤ 63 := by
    by_contra hc
    have := (C11_other_widths_error (n := n) (by omega) i1 ptr)
    have h3 := (C11_other_widths_error (n := n) (by omega) ptr i1)
    have h4 : unpackBlock8 i1 ptr n = some none := this.2
    rw [h] at h4
    simp at h4
  obtain ⟨o1, e1, el1, eb1, -⟩ := C11_block_unpack_stream hr.1 hr.2 i1 ptr (by omega) hn hx l1
  obtain ⟨o2, e2, el2, eb2, -⟩ := C11_block_unpack_stream hr.1 hr.2 i2 ptr (by omega) hn hx l2
  rw [h] at e1
  simp only [Option.some.injEq] at e1
  subst e1
  rw [e2]
  congr 2
  apply List.ext_getElem (by omega)
  intro i hi1 hi2
  apply Nat.eq_of_testBit_eq
  intro b
  have q1 := eb1 i (by omega) b
  have q2 := eb2 i (by omega) b
  rw [← q1] at q2
  simpa [List.getD, hi1, hi2] using q2

theorem wrapPacked_eq (n : Nat) (bytes : List Nat) (hx : ∀ x ∈ bytes, x < 256) :
    ∀ (k c : Nat) (buffer : List Nat) (idx prev : Nat) (ds : List Nat), c ≤ k →
    buffer.length = 8 → (∀ x ∈ buffer, x < 2 ^ 64) → idx ≤ bytes.length →
    readPacked n (bytes.drop idx) c = .ok ds →
    wrapPacked n bytes c buffer idx prev = .ok (undelta prev ds) := by
  intro k
  induction k with
  | zero =>
    intro c buffer idx prev ds hc hb hbl hi h
    obtain rfl : c = 0 := by omega
    unfold readPacked at h
    unfold wrapPacked
    simp only [show ¬ (0 : Nat) ≥ 8 from by decide, if_false] at h ⊢
    simp only [readTail, unpackSeq, Outcome.ok.injEq] at h
    rw [← h]; rfl
  | succ k ih =>
    intro c buffer idx prev ds hc hb hbl hi h
    unfold readPacked at h
    unfold wrapPacked
    by_cases h8 : c ≥ 8
    · rw [if_pos h8] at h ⊢
      unfold readBlock at h
      cases hu : unpackBlock8 (List.replicate 8 0) (bytes.drop idx) n with
      | none => simp only [hu, Outcome.panic_bind] at h; exact absurd h (by simp)
      | some r =>
        cases r with
        | none => simp only [hu, Outcome.err_bind] at h; exact absurd h (by simp)
        | some vs =>
          simp only [hu] at h
          by_cases hn : n ≤ (bytes.drop idx).length
          · rw [if_pos hn] at h
            simp only [Outcome.ok_bind, List.drop_drop] at h
            cases hr : readPacked n (bytes.drop (idx + n)) (c - 8) with
            | err e => simp [hr] at h
            | panic => simp [hr] at h
            | ok l =>
              simp only [hr, Outcome.ok_bind, Outcome.pure_eq, Outcome.ok.injEq] at h
              have hdx : ∀ x ∈ bytes.drop idx, x < 256 := fun x hm => hx x (List.mem_of_mem_drop hm)
              have hb2 := unpackBlock8_init hdx (by simp) hb (by simp) hbl hn hu
              have hvl : vs.length = 8 := by
                have hrr : 1 ≤ n ∧ n ≤ 63 := by
                  by_contra hcc
                  have := (C11_other_widths_error (n := n) (by omega) buffer (bytes.drop idx)).2
                  rw [hb2] at this
                  simp at this
                obtain ⟨o1, e1, el1, -, -⟩ := C11_block_unpack_stream hrr.1 hrr.2 buffer
                  (bytes.drop idx) (by omega) hn hdx hbl
                rw [hb2] at e1
                simp only [Option.some.injEq] at e1
                rw [e1, el1, hb]
              have hw : wrapBlock n bytes buffer idx = .ok vs := by
                unfold wrapBlock
                rw [if_pos hi, hb2]
              rw [hw]
              simp only [Outcome.ok_bind]
              have hn' : idx + n ≤ bytes.length := by simp at hn; omega
              rw [ih (c - 8) (undelta prev vs) (idx + n) _ l (by omega)
                (by rw [undelta_length, hvl]) (undelta_lt vs prev) hn' hr, ← h, undelta_append]
              rfl
          · rw [if_neg hn] at h; simp at h
    · rw [if_neg h8] at h ⊢
      unfold readTail at h
      cases hs : unpackSeq n (bytes.drop idx) c 0 0 with
      | none => simp [hs] at h
      | some r =>
        obtain ⟨vs, i, o⟩ := r
        simp only [hs, Outcome.ok.injEq] at h
        have := wrapTail_eq n bytes idx c 0 0 prev vs i o hs
        rw [Nat.add_zero] at this
        rw [this, h]

/-- **C43.** Whenever a byte string decodes to a sketch, wrapping the same bytes succeeds and shows
the same theta, emptiness, seed hash and number of entries, and iterating over the wrapped sketch
yields exactly the decoded entries in order, for every serial version, compressed or not. -/
theorem C43_wrapped_equals_decoded (seedHash : Outcome Nat) (bytes : List Nat)
    (hx : ∀ x ∈ bytes, x < 256) (c : Compact) (h : decode seedHash bytes = .ok c) :
    ∃ d, decodeData seedHash bytes = .ok d ∧ d.theta = c.theta ∧ d.isEmpty = c.isEmpty
      ∧ d.seedHash = c.seedHash ∧ wrapAll d bytes = .ok c.entries
      ∧ (c.entries.length ≤ 1 ∨ d.isOrdered = c.isOrdered) := by
  unfold decode at h
  cases hd : decodeData seedHash bytes with
  | err e => simp [hd] at h
  | panic => simp [hd] at h
  | ok d =>
    simp only [hd, Outcome.ok_bind] at h
    cases he : decodeEntries d bytes with
    | err e => simp [he] at h
    | panic => simp [he] at h
    | ok es =>
      simp only [he, Outcome.ok_bind, Outcome.pure_eq, Outcome.ok.injEq] at h
      subst h
      refine ⟨d, rfl, rfl, rfl, rfl, ?_, ?_⟩
      · show wrapAll d bytes = .ok es
        unfold wrapAll
        unfold decodeEntries at he
        by_cases h64 : d.entryBits = 64
        · rw [if_pos h64] at he ⊢; exact he
        · rw [if_neg h64] at he ⊢
          by_cases hst : d.start ≤ bytes.length
          · rw [if_pos hst] at he ⊢
            cases hp : readPacked d.entryBits (bytes.drop d.start) d.num with
            | err e => simp [hp] at he
            | panic => simp [hp] at he
            | ok ds =>
              simp only [hp, Outcome.ok_bind, Outcome.pure_eq, Outcome.ok.injEq] at he
              rw [wrapPacked_eq d.entryBits (bytes.drop d.start)
                (fun x hm => hx x (List.mem_of_mem_drop hm)) d.num d.num (List.replicate 8 0) 0 0 ds
                (le_refl _) (by simp) (by simp) (by simp) (by simpa using hp), he]
          · rw [if_neg hst] at he; simp at he
      · show es.length ≤ 1 ∨ d.isOrdered = if es.length ≤ 1 then true else d.isOrdered
        by_cases h1 : es.length ≤ 1
        · left; exact h1
        · right; rw [if_neg h1]

/-! ## Malformed input -/

theorem unpackBits_total {n : Nat} {bytes : List Nat} {idx off : Nat} (hx : ∀ x ∈ bytes, x < 256)
    (ho : off < 8) (hn : 1 ≤ n) (hr : 8 * idx + off + n ≤ 8 * bytes.length) :
    ∃ v i o, unpackBits n bytes idx off = some (v, i, o) ∧ o < 8
      ∧ 8 * i + o = 8 * idx + off + n := by
  unfold unpackBits
  have hi : idx < bytes.length := by omega
  simp only [List.getElem?_eq_getElem hi]
  by_cases hc : n < 8 - off
  · have hm : min (8 - off) n = n := by omega
    rw [hm, if_neg (by omega), Nat.sub_self]
    have : ∀ v, unpackLoop bytes (n + 1) 0 v idx = some (v, idx, 0) := by
      intro v; simp [unpackLoop]
    rw [this]
    exact ⟨_, _, _, rfl, by omega, by omega⟩
  · have hm : min (8 - off) n = 8 - off := by omega
    rw [hm, if_pos rfl]
    obtain ⟨v, e, -⟩ := unpackLoop_spec bytes hx (n + 1) (n - (8 - off))
      (bytes[idx] >>> (8 - off - (8 - off)) &&& 2 ^ (8 - off) - 1) (idx + 1) (by omega) (by omega)
    rw [e]
    simp only
    by_cases h0 : (n - (8 - off)) % 8 > 0
    · rw [if_pos h0]
      have hi2 : idx + 1 + (n - (8 - off)) / 8 < bytes.length := by omega
      simp only [List.getElem?_eq_getElem hi2]
      exact ⟨_, _, _, rfl, by omega, by omega⟩
    · rw [if_neg h0]
      exact ⟨_, _, _, rfl, by omega, by omega⟩

theorem unpackSeq_total {n : Nat} {bytes : List Nat} (hx : ∀ x ∈ bytes, x < 256) (hn : 1 ≤ n) :
    ∀ (c idx off : Nat), off < 8 → 8 * idx + off + n * c ≤ 8 * bytes.length →
    ∃ r, unpackSeq n bytes c idx off = some r := by
  intro c
  induction c with
  | zero => intro idx off _ _; exact ⟨_, rfl⟩
  | succ c ih =>
    intro idx off ho hr
    rw [Nat.mul_add, Nat.mul_one] at hr
    obtain ⟨v, i, o, e, ho', hp⟩ := unpackBits_total (n := n) (idx := idx) hx ho hn (by omega)
    obtain ⟨r, er⟩ := ih i o ho' (by omega)
    obtain ⟨vs, i2, o2⟩ := r
    exact ⟨(v :: vs, i2, o2), by simp [unpackSeq, e, er]⟩

theorem readPacked_no_panic {n : Nat} (hn : 1 ≤ n) : ∀ (k c : Nat) (ptr : List Nat), c ≤ k →
    (∀ x ∈ ptr, x < 256) → n * c ≤ 8 * ptr.length → readPacked n ptr c ≠ .panic := by
  intro k
  induction k with
  | zero =>
    intro c ptr hc _ _
    obtain rfl : c = 0 := by omega
    unfold readPacked
    simp [readTail, unpackSeq]
  | succ k ih =>
    intro c ptr hc hx hr
    unfold readPacked
    by_cases h8 : c ≥ 8
    · rw [if_pos h8]
      have hmul : n * c = n * 8 + n * (c - 8) := by
        rw [← Nat.mul_add]; congr 1; omega
      unfold readBlock
      by_cases h63 : n ≤ 63
      · obtain ⟨vs, e, -, -, -⟩ := C11_block_unpack_stream hn h63 (List.replicate 8 0) ptr (by simp)
          (by omega) hx (by simp)
        rw [e]
        simp only [if_pos (show n ≤ ptr.length by omega), Outcome.ok_bind]
        have := ih (c - 8) (ptr.drop n) (by omega) (fun x h => hx x (List.mem_of_mem_drop h))
          (by simp; omega)
        cases hq : readPacked n (ptr.drop n) (c - 8) with
        | ok l => simp
        | err e => simp
        | panic => exact absurd hq this
      · rw [(C11_other_widths_error (n := n) (by omega) (List.replicate 8 0) ptr).2]
        simp
    · rw [if_neg h8]
      unfold readTail
      obtain ⟨r, e⟩ := unpackSeq_total hx hn c 0 0 (by omega) (by omega)
      rw [e]
      simp

theorem readEntries_total (bytes : List Nat) (start : Nat) : ∀ (c i : Nat),
    start + (i + c) * 8 ≤ bytes.length → ∃ l, readEntries bytes start c i = .ok l := by
  intro c
  induction c with
  | zero => intro i _; exact ⟨[], rfl⟩
  | succ c ih =>
    intro i h
    obtain ⟨l, e⟩ := ih (i + 1) (by omega)
    simp only [readEntries]
    rw [getLE_ok (by omega)]
    simp only [Outcome.ok_bind, e]
    exact ⟨_, rfl⟩

theorem readNum_total (bytes : List Nat) (off : Nat) : ∀ (c i acc : Nat),
    off + i + c ≤ bytes.length → ∃ v, readNum bytes off c i acc = .ok v := by
  intro c
  induction c with
  | zero => intro i acc _; exact ⟨acc, rfl⟩
  | succ c ih =>
    intro i acc h
    simp only [readNum]
    rw [getLE_ok (by omega)]
    simp only [Outcome.ok_bind]
    exact ih _ _ (by omega)

/-- data whose entries can be read without leaving the buffer -/
def Readable (bytes : List Nat) (d : Data) : Prop :=
  (d.entryBits = 64 ∧ d.start + d.num * 8 ≤ bytes.length)
  ∨ (d.entryBits ≠ 64 ∧ d.start ≤ bytes.length ∧ (d.entryBits = 0 ∨
      d.entryBits * d.num ≤ 8 * (bytes.length - d.start)))

/-- neither panics nor leaves the buffer -/
def Safe (bytes : List Nat) (x : Outcome Data) : Prop :=
  match x with
  | .ok d => Readable bytes d
  | .err _ => True
  | .panic => False

theorem safe_validate {bytes : List Nat} {n : Nat} {f : Unit → Outcome Data}
    (h : n ≤ bytes.length → Safe bytes (f ())) : Safe bytes (validateSize bytes n >>= f) := by
  unfold validateSize
  split
  · trivial
  · exact h (by omega)

theorem safe_decodeOld {bytes : List Nat} {sh : Nat} (h : 24 ≤ bytes.length) :
    Safe bytes (decodeOld bytes sh) := by
  unfold decodeOld
  rw [getLE_ok (by omega), getLE_ok (by omega)]
  simp only [Outcome.ok_bind]
  split
  · exact Or.inl ⟨rfl, by simp⟩
  · apply safe_validate
    intro hl
    refine Or.inl ⟨rfl, ?_⟩
    show 24 + getT bytes 8 4 * 8 ≤ bytes.length
    omega

theorem safe_seed {bytes : List Nat} {sh : Nat} {seedHash : Outcome Nat} {f : Unit → Outcome Data}
    (hs : seedHash ≠ .panic) (h : Safe bytes (f ())) :
    Safe bytes (do let e ← seedHash; let u ← checkSeed sh e; f u) := by
  cases seedHash with
  | panic => exact absurd rfl hs
  | err e => trivial
  | ok e =>
    simp only [Outcome.ok_bind, checkSeed]
    split
    · exact h
    · trivial

theorem safe_decodeData {bytes : List Nat} {seedHash : Outcome Nat} (hs : seedHash ≠ .panic)
    (hl : 24 ≤ bytes.length) : Safe bytes (decodeData seedHash bytes) := by
  unfold decodeData
  apply safe_validate
  intro _
  rw [getLE_ok (by omega)]
  simp only [Outcome.ok_bind]
  split
  · trivial
  · rw [getLE_ok (by omega)]
    simp only [Outcome.ok_bind]
    split
    · -- version 4
      unfold decodeV4
      rw [getLE_ok (by omega : 6 + 2 ≤ bytes.length)]
      simp only [Outcome.ok_bind]
      apply safe_seed hs
      rw [getLE_ok (by omega : 0 + 1 ≤ bytes.length)]
      simp only [Outcome.ok_bind]
      have hth : ∃ t, readTheta (decide (getT bytes 0 1 > 1)) bytes 16 8 = .ok t := by
        unfold readTheta
        split
        · rw [validateSize_ok (by omega), getLE_ok (by omega)]
          exact ⟨_, rfl⟩
        · exact ⟨_, rfl⟩
      obtain ⟨t, ht⟩ := hth
      rw [ht, getLE_ok (by omega : 4 + 1 ≤ bytes.length)]
      simp only [Outcome.ok_bind]
      apply safe_validate
      intro hnb
      obtain ⟨num, hnum⟩ := readNum_total bytes
        (if decide (getT bytes 0 1 > 1) = true then 16 else 8) (getT bytes 4 1) 0 0 (by omega)
      rw [hnum, getLE_ok (by omega : 3 + 1 ≤ bytes.length)]
      simp only [Outcome.ok_bind]
      apply safe_validate
      intro hsz
      have hw := (wholeBytes_spec (getT bytes 3 1 * num)).1
      by_cases h64 : getT bytes 3 1 = 64
      · refine Or.inl ⟨h64, ?_⟩
        rw [h64] at hw hsz
        show (if decide (getT bytes 0 1 > 1) = true then 16 else 8) + getT bytes 4 1 + num * 8
          ≤ bytes.length
        omega
      · refine Or.inr ⟨h64, hnb, Or.inr ?_⟩
        show getT bytes 3 1 * num ≤ 8 * (bytes.length
          - ((if decide (getT bytes 0 1 > 1) = true then 16 else 8) + getT bytes 4 1))
        omega
    · split
      · -- version 3
        unfold decodeV3
        rw [getLE_ok (by omega : 6 + 2 ≤ bytes.length), getLE_ok (by omega : 5 + 1 ≤ bytes.length)]
        simp only [Outcome.ok_bind]
        split
        · exact Or.inl ⟨rfl, by simp⟩
        · apply safe_seed hs
          unfold decodeV3Rest
          rw [getLE_ok (by omega : 0 + 1 ≤ bytes.length)]
          simp only [Outcome.ok_bind]
          have hth : ∃ t, readTheta (decide (getT bytes 0 1 > 2)) bytes 24 16 = .ok t := by
            unfold readTheta
            split
            · rw [validateSize_ok (by omega), getLE_ok (by omega)]
              exact ⟨_, rfl⟩
            · exact ⟨_, rfl⟩
          obtain ⟨t, ht⟩ := hth
          rw [ht]
          simp only [Outcome.ok_bind]
          split
          · apply safe_validate
            intro _
            exact Or.inl ⟨rfl, by show 8 + 1 * 8 ≤ _; omega⟩
          · rw [getLE_ok (by omega : 8 + 4 ≤ bytes.length)]
            simp only [Outcome.ok_bind]
            apply safe_validate
            intro hsz
            refine Or.inl ⟨rfl, ?_⟩
            show (if decide (getT bytes 0 1 > 2) = true then 3 else 2) * 8 + getT bytes 8 4 * 8
              ≤ bytes.length
            omega
      · split
        · -- version 2
          unfold decodeV2
          rw [getLE_ok (by omega : 0 + 1 ≤ bytes.length), getLE_ok (by omega : 6 + 2 ≤ bytes.length)]
          simp only [Outcome.ok_bind]
          apply safe_seed hs
          split
          · exact Or.inl ⟨rfl, by simp⟩
          · split
            · unfold decodeV2Exact
              rw [getLE_ok (by omega)]
              simp only [Outcome.ok_bind]
              split
              · exact Or.inl ⟨rfl, by simp⟩
              · apply safe_validate
                intro hsz
                refine Or.inl ⟨rfl, ?_⟩
                show 16 + getT bytes 8 4 * 8 ≤ bytes.length
                omega
            · split
              · exact safe_decodeOld hl
              · trivial
        · split
          · unfold decodeV1
            cases seedHash with
            | panic => exact absurd rfl hs
            | err e => trivial
            | ok e => exact safe_decodeOld hl
          · trivial

/-- **C44 (partial).** Decoding never panics on a byte string of at least 24 bytes, whatever the
bytes, unless it claims to be a version-4 image whose entries have zero bits.
Missing: the full claim "no byte string makes `Decode` panic" is false, see
`C44_decode_panics_on_short_input` and `C44_decode_panics_on_zero_width`. -/
theorem C44_decode_no_panic_partial (seedHash : Outcome Nat) (hs : seedHash ≠ .panic)
    (bytes : List Nat) (hx : ∀ x ∈ bytes, x < 256) (hl : 24 ≤ bytes.length)
    (hz : ¬ (getT bytes 1 1 = 4 ∧ getT bytes 3 1 = 0)) :
    decode seedHash bytes ≠ .panic := by
  unfold decode
  have hsafe := safe_decodeData hs hl (bytes := bytes)
  cases hd : decodeData seedHash bytes with
  | err e => simp
  | panic => rw [hd] at hsafe; exact hsafe.elim
  | ok d =>
    rw [hd] at hsafe
    simp only [Outcome.ok_bind]
    suffices h : decodeEntries d bytes ≠ .panic by
      cases he : decodeEntries d bytes with
      | ok es => simp
      | err e => simp
      | panic => exact absurd he h
    unfold decodeEntries
    rcases hsafe with ⟨h64, hst⟩ | ⟨h64, hst, hb⟩
    · rw [if_pos h64]
      obtain ⟨l, e⟩ := readEntries_total bytes d.start d.num 0 (by omega)
      rw [e]; simp
    · rw [if_neg h64, if_pos hst]
      have hz' : d.entryBits ≠ 0 := by
        intro h0
        -- only version 4 produces a width other than 64
        apply hz
        unfold decodeData at hd
        rw [validateSize_ok (by omega), getLE_ok (by omega)] at hd
        simp only [Outcome.ok_bind] at hd
        split at hd
        · simp at hd
        · rw [getLE_ok (by omega)] at hd
          simp only [Outcome.ok_bind] at hd
          split at hd
          · rename_i hv
            refine ⟨hv, ?_⟩
            unfold decodeV4 at hd
            simp only [Outcome.bind_eq_ok] at hd
            obtain ⟨a1, -, a2, -, a3, -, a4, -, a5, -, a6, -, a7, -, a8, -, a9, h9, a10, -, h11⟩ := hd
            rw [getLE_ok (by omega)] at h9
            simp only [Outcome.ok.injEq] at h9
            simp only [Outcome.pure_eq, Outcome.ok.injEq] at h11
            rw [← h11] at h0
            simp only at h0
            omega
          · exfalso
            apply h64
            have hold : ∀ sh, decodeOld bytes sh = .ok d → d.entryBits = 64 := by
              intro sh ho
              unfold decodeOld at ho
              simp only [Outcome.bind_eq_ok] at ho
              obtain ⟨_, -, _, -, ho⟩ := ho
              split at ho
              · simp only [Outcome.pure_eq, Outcome.ok.injEq] at ho; rw [← ho]
              · simp only [Outcome.bind_eq_ok] at ho
                obtain ⟨_, -, ho⟩ := ho
                simp only [Outcome.pure_eq, Outcome.ok.injEq] at ho; rw [← ho]
            split at hd
            · unfold decodeV3 at hd
              simp only [Outcome.bind_eq_ok] at hd
              obtain ⟨_, -, _, -, hd⟩ := hd
              split at hd
              · simp only [Outcome.pure_eq, Outcome.ok.injEq] at hd; rw [← hd]
              · unfold decodeV3Rest at hd
                simp only [Outcome.bind_eq_ok] at hd
                obtain ⟨_, -, _, -, _, -, _, -, hd⟩ := hd
                split at hd
                · simp only [Outcome.bind_eq_ok] at hd
                  obtain ⟨_, -, hd⟩ := hd
                  simp only [Outcome.pure_eq, Outcome.ok.injEq] at hd; rw [← hd]
                · simp only [Outcome.bind_eq_ok] at hd
                  obtain ⟨_, -, _, -, hd⟩ := hd
                  simp only [Outcome.pure_eq, Outcome.ok.injEq] at hd; rw [← hd]
            · split at hd
              · unfold decodeV2 at hd
                simp only [Outcome.bind_eq_ok] at hd
                obtain ⟨_, -, _, -, _, -, _, -, hd⟩ := hd
                split at hd
                · simp only [Outcome.pure_eq, Outcome.ok.injEq] at hd; rw [← hd]
                · split at hd
                  · unfold decodeV2Exact at hd
                    simp only [Outcome.bind_eq_ok] at hd
                    obtain ⟨_, -, hd⟩ := hd
                    split at hd
                    · simp only [Outcome.pure_eq, Outcome.ok.injEq] at hd; rw [← hd]
                    · simp only [Outcome.bind_eq_ok] at hd
                      obtain ⟨_, -, hd⟩ := hd
                      simp only [Outcome.pure_eq, Outcome.ok.injEq] at hd; rw [← hd]
                  · split at hd
                    · exact hold _ hd
                    · simp at hd
              · split at hd
                · unfold decodeV1 at hd
                  simp only [Outcome.bind_eq_ok] at hd
                  obtain ⟨_, -, hd⟩ := hd
                  exact hold _ hd
                · simp at hd
      have := readPacked_no_panic (n := d.entryBits) (by omega) d.num d.num (bytes.drop d.start)
        (le_refl _) (fun x h => hx x (List.mem_of_mem_drop h))
        (by rw [List.length_drop]; rcases hb with hb | hb <;> omega)
      cases hq : readPacked d.entryBits (bytes.drop d.start) d.num with
      | ok l => simp
      | err e => simp
      | panic => exact absurd hq this

/-- **C44 (finding).** An 8-byte version-3 image that announces more than one entry makes `Decode`
panic instead of returning an error. -/
theorem C44_decode_panics_on_short_input :
    decode (.ok 777) ([2, 3, 3, 0, 0, 0] ++ [9, 3]) = .panic := by decide +kernel

/-- **C44 (finding).** A version-4 image that announces one entry of zero bits makes `Decode`
panic. -/
theorem C44_decode_panics_on_zero_width :
    decode (.ok 777) [1, 4, 3, 0, 1, 26, 9, 3, 1] = .panic := by decide +kernel

end Verif.Theta
