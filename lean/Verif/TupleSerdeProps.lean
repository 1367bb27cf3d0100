import Verif.TupleSerdeModel
import Verif.TupleANotBProps
import Verif.TupleUnionProps

/-!
# C58-C60: serialization of tuple sketches
-/

namespace Verif.Tuple

open Theta (maxTheta)

variable {σ : Type}

/-- What fits the wire format: field widths, an empty sketch has no entries and theta 1, and a sketch
with at most one entry counts as ordered. -/
structure WireOk (c : Compact σ) : Prop where
  theta : c.theta < 2 ^ 64
  seed : c.seedHash < 2 ^ 16
  hashes : ∀ e ∈ c.entries, e.1 < 2 ^ 64
  count : c.entries.length < 2 ^ 32
  empty : c.isEmpty = true → c.entries = [] ∧ c.theta = maxTheta
  ordered : c.entries.length ≤ 1 → c.isOrdered = true
  max : c.theta ≤ maxTheta

/-- The summary `s` is written, and read back whatever follows it. -/
def RoundTrips (C : Codec σ) (s : σ) : Prop :=
  ∃ b, C.write s = .ok b ∧ ∀ r, C.read (b ++ r) = .ok (s, r)

theorem writeEntries_read (C : Codec σ) : ∀ (es : List (Entry σ)),
    (∀ e ∈ es, e.1 < 2 ^ 64 ∧ RoundTrips C e.2) →
    ∃ b, writeEntries C es = .ok b ∧ ∀ r, Rd.times (readEntry C) es.length (b ++ r) = .ok (es, r) := by
  intro es
  induction es with
  | nil => intro _; exact ⟨[], rfl, fun r => rfl⟩
  | cons e es ih =>
    intro h
    obtain ⟨b, hb, hr⟩ := ih (fun x hx => h x (by simp [hx]))
    obtain ⟨h1, s, hs, hrs⟩ := h e (by simp)
    refine ⟨toLE 8 e.1 ++ s ++ b, by simp [writeEntries, hs, hb], ?_⟩
    intro r
    have h2 : readEntry C (toLE 8 e.1 ++ s ++ b ++ r) = .ok (e, b ++ r) := by
      unfold readEntry
      rw [List.append_assoc, List.append_assoc, Rd.bind_ok (Rd.le_append (by simpa using h1) _),
        Rd.bind_ok (hrs _)]
      rfl
    simp only [List.length_cons, Rd.times, Rd.bind]
    rw [h2]
    simp only
    rw [hr]
    rfl

theorem flags_bits (a b : Bool) :
    let f := (1 <<< 3) ||| (1 <<< 1) ||| (if a then 1 <<< 2 else 0) ||| (if b then 1 <<< 4 else 0)
    f < 256 ∧ f.testBit 2 = a ∧ f.testBit 4 = b := by
  cases a <;> cases b <;> decide

/-- C58: what `Encode` writes, `Decode` reads back: the same sketch, and exactly the bytes written are
consumed. -/
theorem C58_round_trip (C : Codec σ) (c : Compact σ) (sh : Option Nat) (hc : WireOk c)
    (hs : c.isEmpty = true ∨ sh = some c.seedHash) (hC : ∀ e ∈ c.entries, RoundTrips C e.2) :
    ∃ b, encode C c = .ok b ∧ ∀ r, decode C sh (b ++ r) = .ok (c, r) := by
  obtain ⟨b, hb, hr⟩ := writeEntries_read C c.entries (fun e he => ⟨hc.hashes e he, hC e he⟩)
  refine ⟨_, by simp only [encode, hb, Outcome.ok_bind]; rfl, ?_⟩
  intro r
  obtain ⟨f1, f2, f3⟩ := flags_bits c.isEmpty c.isOrdered
  have hpre : c.preLongs < 256 := by unfold Compact.preLongs; split <;> [decide; split <;> decide]
  simp only [List.append_assoc]
  unfold decode
  rw [Rd.bind_ok (Rd.le_append (by simpa using hpre) _), Rd.bind_ok (Rd.le_append (by decide) _),
    Rd.bind_ok (Rd.le_append (by decide) _), Rd.bind_ok (Rd.le_append (by decide) _),
    Rd.bind_ok (Rd.le_append (by decide) _),
    Rd.bind_ok (Rd.le_append (k := 1) (v := flagsOf c) (by rw [pow_one]; exact f1) _),
    Rd.bind_ok (Rd.le_append (by simpa using hc.seed) _)]
  rw [if_neg (by decide), if_neg (by decide), if_neg (by decide)]
  have e2 : (flagsOf c).testBit 2 = c.isEmpty := f2
  have e4 : (flagsOf c).testBit 4 = c.isOrdered := f3
  rw [e2, e4]
  have hchk : ∀ r, checkSeed (!c.isEmpty) sh c.seedHash r = .ok ((), r) := by
    intro r
    unfold checkSeed
    rcases hs with h | h
    · simp [h]
    · subst h; split <;> simp
  rw [Rd.bind_ok (hchk _)]
  have hcount : ∀ r, readCounts c.isEmpty c.preLongs
      ((if c.preLongs > 1 then toLE 4 (c.entries.length % 2 ^ 32) ++ toLE 4 0 else []) ++
        ((if c.isEstimation then toLE 8 c.theta else []) ++ r))
      = .ok ((c.entries.length, c.theta), r) := by
    intro r
    unfold readCounts
    by_cases he : c.isEmpty = true
    · obtain ⟨h1, h2⟩ := hc.empty he
      have h3 : c.isEstimation = false := by simp [Compact.isEstimation, he]
      have h4 : c.preLongs = 1 := by simp [Compact.preLongs, h3, he]
      simp [he, h1, h2, h3, h4]
    · have he' : c.isEmpty = false := by simpa using he
      rw [if_neg he]
      by_cases hest : c.isEstimation = true
      · have h4 : c.preLongs = 3 := by simp [Compact.preLongs, hest]
        rw [h4, hest, if_neg (by decide), if_pos (by decide)]
        simp only [List.append_assoc, if_true]
        rw [Rd.bind_ok (Rd.le_append (by rw [Nat.mod_eq_of_lt hc.count]; simpa using hc.count) _),
          Rd.bind_ok (Rd.le_append (by decide) _)]
        simp only [show (3 : Nat) > 2 from by decide, if_true]
        rw [Rd.bind_ok (Rd.le_append (by simpa using hc.theta) _), Nat.mod_eq_of_lt hc.count]
        rfl
      · have hest' : c.isEstimation = false := by simpa using hest
        have hth : c.theta = maxTheta := by
          have h5 : ¬ c.theta < maxTheta := by
            simpa [Compact.isEstimation, he'] using hest'
          have := hc.max
          omega
        by_cases h1 : c.entries.length = 1
        · have h4 : c.preLongs = 1 := by simp [Compact.preLongs, hest', h1]
          simp [h4, h1, hest', hth]
        · have h4 : c.preLongs = 2 := by simp [Compact.preLongs, hest', h1, he']
          rw [h4, hest', if_neg (by decide), if_pos (by decide)]
          simp only [List.append_assoc, Bool.false_eq_true, if_false, List.nil_append]
          rw [Rd.bind_ok (Rd.le_append (by rw [Nat.mod_eq_of_lt hc.count]; simpa using hc.count) _),
            Rd.bind_ok (Rd.le_append (by decide) _)]
          have hcount := hc.count
          simp [hth]; omega
  rw [Rd.bind_ok (hcount _)]
  simp only
  rw [Rd.bind_ok (hr _)]
  simp only [Rd.pure_apply, Outcome.ok.injEq, Prod.mk.injEq, and_true]
  unfold compactFromEntries
  by_cases hl : c.entries.length ≤ 1
  · rw [if_pos hl, ← hc.ordered hl]
  · rw [if_neg hl]

theorem readEntry_strict {C : Codec σ} (hC : Rd.Strict C.read) : Rd.Strict (readEntry C) :=
  (Rd.Strict.le 8).bind fun _ => hC.bind fun _ => Rd.Strict.pure _

theorem checkSeed_strict (n : Bool) (o : Option Nat) (sh : Nat) : Rd.Strict (checkSeed n o sh) := by
  unfold checkSeed
  split
  · split
    · exact Rd.Strict.fail _
    · exact Rd.Strict.ite (Rd.Strict.fail _) (Rd.Strict.pure _)
  · exact Rd.Strict.pure _

theorem decode_strict {C : Codec σ} (hC : Rd.Strict C.read) (sh : Option Nat) :
    Rd.Strict (decode C sh) := by
  unfold decode
  iterate 7 refine (Rd.Strict.le _).bind fun _ => ?_
  refine Rd.Strict.ite (Rd.Strict.fail _) (Rd.Strict.ite (Rd.Strict.fail _)
    (Rd.Strict.ite (Rd.Strict.fail _) ?_))
  refine (checkSeed_strict _ _ _).bind fun _ => ?_
  refine Rd.Strict.bind ?_ fun p => ?_
  · unfold readCounts
    refine Rd.Strict.ite (Rd.Strict.pure _) (Rd.Strict.ite (Rd.Strict.pure _) ?_)
    refine (Rd.Strict.le _).bind fun _ => (Rd.Strict.le _).bind fun _ => Rd.Strict.ite ?_
      (Rd.Strict.pure _)
    exact (Rd.Strict.le _).bind fun _ => Rd.Strict.pure _
  · exact (Rd.Strict.times (readEntry_strict hC) _).bind fun _ => Rd.Strict.pure _

/-- C58: the decoder never panics, whatever the bytes, and accepts no proper prefix of the bytes of a
sketch (if the summary reader is like that). -/
theorem C58_damaged_input (C : Codec σ) (hC : Rd.Strict C.read) (sh : Option Nat) (b : List Nat) :
    decode C sh b ≠ .panic ∧
    ∀ c r, decode C sh b = .ok (c, r) → ∃ u, b = u ++ r ∧
      ∀ p, p <+: u → p ≠ u → ∃ m, decode C sh p = .err m := by
  refine ⟨(decode_strict hC sh).safe b, ?_⟩
  intro c r h
  obtain ⟨u, h1, -, h3⟩ := (decode_strict hC sh).used _ _ _ h
  exact ⟨u, h1, h3⟩

/-! ## Arrays of numbers -/

/-- the additional demands for arrays of numbers of `w` bytes -/
structure ANWireOk (w : Nat) (c : ANCompact) : Prop where
  theta : c.sketch.theta < 2 ^ 64
  seed : c.sketch.seedHash < 2 ^ 16
  hashes : ∀ e ∈ c.sketch.entries, e.1 < 2 ^ 64
  count : c.sketch.entries.length < 2 ^ 32
  ordered : c.sketch.entries.length ≤ 1 → c.sketch.isOrdered = true
  numValues : c.numValues < 256
  lengths : ∀ e ∈ c.sketch.entries, e.2.length = c.numValues
  values : ∀ e ∈ c.sketch.entries, ∀ x ∈ e.2, x < 256 ^ w

theorem anFlags_bits (a b c : Bool) :
    let f := (if a then 1 <<< 2 else 0) ||| (if b then 1 <<< 3 else 0) ||| (if c then 1 <<< 4 else 0)
    f < 256 ∧ f.testBit 2 = a ∧ f.testBit 3 = b ∧ f.testBit 4 = c := by
  cases a <;> cases b <;> cases c <;> decide

/-- C59: array-of-numbers sketches of every value type survive serialization. -/
theorem C59_array_of_numbers_round_trip (w : Nat) (c : ANCompact) (sh : Option Nat)
    (hc : ANWireOk w c) (hs : c.sketch.entries = [] ∨ sh = some c.sketch.seedHash) (r : List Nat) :
    anDecode w sh (anEncode w c ++ r) = .ok (c, r) := by
  obtain ⟨f1, f2, f3, f4⟩ := anFlags_bits c.sketch.isEmpty
    (decide (c.sketch.entries.length % 2 ^ 32 > 0)) c.sketch.isOrdered
  simp only [decide_eq_true_eq] at f1 f2 f3 f4
  have e2 : (anFlags c).testBit 2 = c.sketch.isEmpty := f2
  have e3 : (anFlags c).testBit 3 = decide (c.sketch.entries.length % 2 ^ 32 > 0) := f3
  have e4 : (anFlags c).testBit 4 = c.sketch.isOrdered := f4
  unfold anEncode anDecode
  simp only [List.append_assoc]
  rw [Rd.bind_ok (Rd.le_append (by decide) _), Rd.bind_ok (Rd.le_append (by decide) _),
    Rd.bind_ok (Rd.le_append (by decide) _), Rd.bind_ok (Rd.le_append (by decide) _),
    Rd.bind_ok (Rd.le_append (k := 1) (v := anFlags c) (by rw [pow_one]; exact f1) _),
    Rd.bind_ok (Rd.le_append (by simpa using hc.numValues) _),
    Rd.bind_ok (Rd.le_append (by simpa using hc.seed) _)]
  rw [if_neg (by decide), if_neg (by decide), if_neg (by decide), e2, e3, e4]
  have hmod : c.sketch.entries.length % 2 ^ 32 = c.sketch.entries.length :=
    Nat.mod_eq_of_lt hc.count
  rw [hmod]
  have hchk : ∀ r, checkSeed (decide (c.sketch.entries.length > 0)) sh c.sketch.seedHash r
      = .ok ((), r) := by
    intro r
    unfold checkSeed
    rcases hs with h | h
    · simp [h]
    · subst h; split <;> simp
  rw [Rd.bind_ok (hchk _), Rd.bind_ok (Rd.le_append (by simpa using hc.theta) _)]
  have hent : anEntries w c.numValues (decide (c.sketch.entries.length > 0))
      ((if c.sketch.entries.length > 0 then
        toLE 4 c.sketch.entries.length ++ (toLE 4 0 ++
          (c.sketch.entries.flatMap (fun e => toLE 8 e.1) ++
            c.sketch.entries.flatMap (fun e => e.2.flatMap (toLE w))))
        else []) ++ r) = .ok (c.sketch.entries, r) := by
    unfold anEntries
    by_cases h0 : c.sketch.entries.length > 0
    · simp only [h0, decide_true, if_true, List.append_assoc]
      rw [Rd.bind_ok (Rd.le_append (by simpa using hc.count) _),
        Rd.bind_ok (Rd.le_append (by decide) _)]
      have t1 := Rd.times_append (f := Rd.le 8) (toLE 8) (c.sketch.entries.map Prod.fst)
        (by
          intro a ha r
          obtain ⟨e, he, rfl⟩ := List.mem_map.mp ha
          exact Rd.le_append (by simpa using hc.hashes e he) r)
        (c.sketch.entries.flatMap (fun e => e.2.flatMap (toLE w)) ++ r)
      rw [List.length_map, List.flatMap_map] at t1
      rw [Rd.bind_ok t1]
      have t2 := Rd.times_append (f := Rd.times (Rd.le w) c.numValues) (fun s => s.flatMap (toLE w))
        (c.sketch.entries.map Prod.snd)
        (by
          intro a ha r
          obtain ⟨e, he, rfl⟩ := List.mem_map.mp ha
          rw [← hc.lengths e he]
          exact Rd.times_append (f := Rd.le w) (toLE w) e.2
            (fun x hx r => Rd.le_append (hc.values e he x hx) r) r) r
      rw [List.length_map, List.flatMap_map] at t2
      rw [Rd.bind_ok t2]
      simp only [Rd.pure_apply, Outcome.ok.injEq, Prod.mk.injEq, and_true]
      exact (List.zip_of_prod rfl rfl).symm
    · have : c.sketch.entries = [] := List.eq_nil_of_length_eq_zero (by omega)
      simp [this]
  rw [Rd.bind_ok hent]
  simp only [Rd.pure_apply, Outcome.ok.injEq, Prod.mk.injEq, and_true]
  unfold compactFromEntries
  by_cases hl : c.sketch.entries.length ≤ 1
  · rw [if_pos hl, ← hc.ordered hl]
  · rw [if_neg hl]

/-- C59: no panic, no proper prefix accepted. -/
theorem C59_damaged_input (w : Nat) (sh : Option Nat) (b : List Nat) :
    anDecode w sh b ≠ .panic ∧
    ∀ c r, anDecode w sh b = .ok (c, r) → ∃ u, b = u ++ r ∧
      ∀ p, p <+: u → p ≠ u → ∃ m, anDecode w sh p = .err m := by
  have hst : Rd.Strict (anDecode w sh) := by
    unfold anDecode
    iterate 7 refine (Rd.Strict.le _).bind fun _ => ?_
    refine Rd.Strict.ite (Rd.Strict.fail _) (Rd.Strict.ite (Rd.Strict.fail _)
      (Rd.Strict.ite (Rd.Strict.fail _) ?_))
    refine (checkSeed_strict _ _ _).bind fun _ => (Rd.Strict.le _).bind fun _ => ?_
    refine Rd.Strict.bind ?_ fun _ => Rd.Strict.pure _
    unfold anEntries
    refine Rd.Strict.ite ?_ (Rd.Strict.pure _)
    refine (Rd.Strict.le _).bind fun _ => (Rd.Strict.le _).bind fun _ => ?_
    refine ((Rd.Strict.le _).times _).bind fun _ => ?_
    exact (((Rd.Strict.le _).times _).times _).bind fun _ => Rd.Strict.pure _
  refine ⟨hst.safe b, ?_⟩
  intro c r h
  obtain ⟨u, h1, -, h3⟩ := hst.used _ _ _ h
  exact ⟨u, h1, h3⟩

/-! ## Arrays of strings -/

theorem stringsTotal_lt (vs : List Str) : stringsTotalBytes vs < 2 ^ 32 := by
  have key : ∀ (vs : List Str) (t : Nat), t < 2 ^ 32 →
      vs.foldl (fun t v => (t + v.length % 2 ^ 32) % 2 ^ 32) t < 2 ^ 32 := by
    intro vs
    induction vs with
    | nil => intro t ht; exact ht
    | cons v vs ih => intro t _; exact ih _ (Nat.mod_lt _ (by decide))
  exact key vs _ (Nat.mod_lt _ (by decide))

/-- C60: at most 127 strings of less than 4 GB are read back as written; more are refused. -/
theorem C60_strings_round_trip (vs : List Str) (h4 : ∀ v ∈ vs, v.length < 2 ^ 32) :
    (vs.length ≤ 127 → RoundTrips strings vs) ∧
    (127 < vs.length → ∃ m, strings.write vs = .err m) := by
  constructor
  · intro hl
    refine ⟨_, if_neg (by omega), ?_⟩
    intro r
    show readStrings _ = _
    unfold readStrings
    simp only [List.append_assoc]
    rw [Rd.bind_ok (Rd.le_append (by simpa using stringsTotal_lt vs) _),
      Rd.bind_ok (Rd.le_append (by rw [pow_one]; omega) _), if_neg (by omega)]
    refine Rd.times_append (f := readString) _ vs ?_ r
    intro v hv r
    unfold readString
    have := h4 v hv
    rw [List.append_assoc, Nat.mod_eq_of_lt this, Rd.bind_ok (Rd.le_append (by simpa using this) _)]
    exact Rd.bytes_append rfl r
  · intro hl
    exact ⟨_, if_pos (by omega)⟩

/-- C60: the size in front of the strings is the number of bytes written, itself included (as long as
it fits). -/
theorem C60_size_field (vs : List Str) (b : List Nat) (h : strings.write vs = .ok b)
    (hb : b.length < 2 ^ 32) : fromLE (b.take 4) = b.length := by
  have hw : strings.write vs = if vs.length > 127 then .err "string slice length must be <= 127"
      else .ok (toLE 4 (stringsTotalBytes vs) ++ (toLE 1 vs.length ++
        vs.flatMap (fun v => toLE 4 (v.length % 2 ^ 32) ++ v))) := rfl
  rw [hw] at h
  by_cases hl : vs.length > 127
  · rw [if_pos hl] at h; cases h
  · rw [if_neg hl] at h
    obtain rfl := Outcome.ok.inj h
    have hlen : ∀ l : List Str, (l.flatMap (fun v => toLE 4 (v.length % 2 ^ 32) ++ v)).length =
        4 * l.length + (l.map List.length).sum := by
      intro l
      induction l with
      | nil => rfl
      | cons v l ih =>
        rw [List.flatMap_cons, List.length_append, List.length_append, toLE_length, ih,
          List.length_cons, List.map_cons, List.sum_cons]
        omega
    have hfold : ∀ (l : List Str) (t : Nat), t + (l.map List.length).sum < 2 ^ 32 →
        l.foldl (fun t v => (t + v.length % 2 ^ 32) % 2 ^ 32) t = t + (l.map List.length).sum := by
      intro l
      induction l with
      | nil => intro t _; rfl
      | cons v l ih =>
        intro t ht
        rw [List.map_cons, List.sum_cons] at ht ⊢
        rw [List.foldl_cons, show (t + v.length % 2 ^ 32) % 2 ^ 32 = t + v.length by omega,
          ih _ (by omega)]
        omega
    rw [List.length_append, List.length_append, toLE_length, toLE_length, hlen] at hb ⊢
    rw [List.take_left' (toLE_length 4 _), fromLE_toLE_of_lt (by simpa using stringsTotal_lt vs)]
    unfold stringsTotalBytes
    rw [hfold _ _ (by omega)]
    omega

theorem strings_strict : Rd.Strict strings.read := by
  show Rd.Strict readStrings
  unfold readStrings
  refine (Rd.Strict.le _).bind fun _ => (Rd.Strict.le _).bind fun _ => ?_
  refine Rd.Strict.ite (Rd.Strict.fail _) (Rd.Strict.times ?_ _)
  unfold readString
  exact (Rd.Strict.le _).bind fun _ => Rd.Strict.bytes _

/-- C60: a sketch of arrays of strings survives serialization, and damaged bytes never panic. -/
theorem C60_sketch_round_trip (c : Compact (List Str)) (sh : Option Nat) (hc : WireOk c)
    (hs : c.isEmpty = true ∨ sh = some c.seedHash)
    (hv : ∀ e ∈ c.entries, e.2.length ≤ 127 ∧ ∀ v ∈ e.2, v.length < 2 ^ 32) :
    (∃ b, encode strings c = .ok b ∧ ∀ r, decode strings sh (b ++ r) = .ok (c, r)) ∧
    ∀ b, decode strings sh b ≠ .panic :=
  ⟨C58_round_trip strings c sh hc hs
    (fun e he => (C60_strings_round_trip e.2 (hv e he).2).1 (hv e he).1),
   fun b => (C58_damaged_input strings strings_strict sh b).1⟩

/-- C60: without commas inside the strings, the bytes hashed as key determine the list of strings
(other than the empty list). -/
theorem C60_keys_distinct : ∀ (vs ws : List Str), vs ≠ [] → ws ≠ [] →
    (∀ v ∈ vs, 44 ∉ v) → (∀ w ∈ ws, 44 ∉ w) → keyBytes vs = keyBytes ws → vs = ws := by
  have split : ∀ (a b c d : List Nat), 44 ∉ a → 44 ∉ b → a ++ [44] ++ c = b ++ [44] ++ d →
      a = b ∧ c = d := by
    intro a
    induction a with
    | nil =>
      intro b c d _ hb h
      cases b with
      | nil => simpa using h
      | cons x b => simp at h; simp [← h.1] at hb
    | cons x a ih =>
      intro b c d ha hb h
      cases b with
      | nil => simp at h; simp [h.1] at ha
      | cons y b =>
        simp only [List.cons_append, List.cons.injEq] at h
        obtain ⟨h1, h2⟩ := ih b c d (by simp at ha; exact ha.2) (by simp at hb; exact hb.2) h.2
        exact ⟨by rw [h.1, h1], h2⟩
  intro vs
  induction vs with
  | nil => intro ws h; exact absurd rfl h
  | cons v vs ih =>
    intro ws _ hw hv1 hw1 he
    cases ws with
    | nil => exact absurd rfl hw
    | cons w ws =>
      have hv44 := hv1 v (by simp)
      have hw44 := hw1 w (by simp)
      cases vs with
      | nil =>
        cases ws with
        | nil => simp only [keyBytes] at he; rw [he]
        | cons w' ws =>
          simp only [keyBytes] at he
          rw [he] at hv44
          simp at hv44
      | cons v' vs =>
        cases ws with
        | nil =>
          simp only [keyBytes] at he
          rw [← he] at hw44
          simp at hw44
        | cons w' ws =>
          simp only [keyBytes] at he
          obtain ⟨h1, h2⟩ := split _ _ _ _ hv44 hw44 he
          rw [h1, ih (w' :: ws) (by simp) (by simp) (fun x hx => hv1 x (by simp [hx]))
            (fun x hx => hw1 x (by simp [hx])) h2]

/-- C60: with commas, different keys collide whatever the hash function: `["a,b"]` and `["a","b"]`;
so do the empty list and `[""]`. -/
theorem C60_keys_collide :
    keyBytes [[97, 44, 98]] = keyBytes [[97], [98]] ∧ keyBytes [] = keyBytes [[]] := by
  decide

/-! ## Sketches that occur -/

theorem newCompact_wireOk {V : Type} (new : σ) (upd : σ → V → σ) (app : σ → σ → σ) {v : View σ}
    (hv : Valid v) (hord : v.numRetained ≤ 1 → v.isOrdered = true)
    (hemp : v.isEmpty = true → v.theta = maxTheta) (hn : v.numRetained < 2 ^ 32)
    (hs : v.seedHash < 2 ^ 16) (ordered : Bool) :
    WireOk (newCompact (values new upd app) v () ordered).1 := by
  have hp : (newCompact (values new upd app) v () ordered).1.entries.Perm v.all := by
    show (if _ then _ else _ : List (Entry σ)).Perm _
    rw [cloneAll_values]
    split
    · exact sortE_perm _
    · exact List.Perm.refl _
  have hnum : v.numRetained = v.all.length := by
    have := hv.num
    simpa [View.keys] using this
  have hth : v.theta ≤ maxTheta := hv.theta
  have hmax : maxTheta < 2 ^ 64 := by decide
  refine { theta := ?_, seed := hs, hashes := ?_, count := ?_, empty := ?_, ordered := ?_, max := hth }
  · exact lt_of_le_of_lt hth hmax
  · intro e he
    have h1 := hv.range e.1 (List.mem_map.mpr ⟨e, hp.mem_iff.mp he, rfl⟩)
    have h2 : e.1 < v.theta := h1.2
    omega
  · rw [hp.length_eq, ← hnum]; exact hn
  · intro hem
    have hall : v.all = [] := List.map_eq_nil_iff.mp (hv.empty hem)
    exact ⟨List.Perm.eq_nil (hall ▸ hp), hemp hem⟩
  · intro hl
    rw [hp.length_eq, ← hnum] at hl
    show (v.isOrdered || ordered) = true
    rw [hord hl]; rfl

/-- C58: the compact form of a sketch after any history survives serialization (summaries by value;
for summaries behind pointers take their contents). -/
theorem C58_history_round_trip {ι V : Type} (C : Codec σ) (hC : ∀ s, RoundTrips C s) (new : σ)
    (upd : σ → V → σ) (app : σ → σ → σ) (hash : ι → Nat) {lgK rf start sh : Nat} {t0 : Tbl σ}
    (hnew : newTable (values new upd app) lgK rf start = .ok t0) (hstart : start ≤ maxTheta)
    (hsh : sh < 2 ^ 16) (ops : List (Op ι V)) (ordered : Bool) :
    ∃ t, run (values new upd app) hash t0 () ops = .ok (t, ()) ∧
      ∃ b, encode C (newCompact (values new upd app) (viewOf t sh) () ordered).1 = .ok b ∧
        ∀ r, decode C (some sh) (b ++ r) =
          .ok ((newCompact (values new upd app) (viewOf t sh) () ordered).1, r) := by
  obtain ⟨t, h, e, i⟩ := run_tsinv (F := []) (h0 := ()) (values_laws new upd app) ops t0 () []
    (new_tsinv hash hnew trivial)
  refine ⟨t, e, ?_⟩
  have hw : WireOk (newCompact (values new upd app) (viewOf t sh) () ordered).1 := by
    refine newCompact_wireOk new upd app (i.valid hstart sh) ?_ ?_ ?_ hsh ordered
    · intro h; exact decide_eq_true h
    · intro hem
      show theta64 t = maxTheta
      exact if_pos hem
    · show t.numEntries < 2 ^ 32
      have h1 := i.tinv.cap
      have h2 := HashTable.computeCapacity_lt t.lgCur t.lgNom
      have h3 := i.tinv.lgCur
      have h4 := i.tinv.lgNom
      have h5 : 2 ^ t.lgCur ≤ 2 ^ 27 := Nat.pow_le_pow_right (by decide) (by omega)
      omega
  exact C58_round_trip C _ (some sh) hw (Or.inr rfl) (fun e _ => hC e.2)

/-- C58 does not extend to the result of an empty sampling union: it is empty with theta below 1, and
theta is not written. -/
theorem C58_empty_union_loses_theta :
    ∃ u : Union Nat, newUnion (values 0 (fun a (b : Nat) => a + b) (· + ·)) 5 0 (2 ^ 62) = .ok u ∧
    ∃ c : Compact Nat, u.result (values 0 (fun a (b : Nat) => a + b) (· + ·)) (some 7) true = .ok c ∧
    c.theta = 2 ^ 62 ∧
    ∃ b c', encode ⟨fun s => .ok (toLE 8 s), Rd.le 8⟩ c = .ok b ∧
      decode ⟨fun s => .ok (toLE 8 s), Rd.le 8⟩ (some 7) b = .ok (c', []) ∧ c'.theta = maxTheta := by
  refine ⟨_, rfl, _, rfl, rfl, _, _, rfl, rfl, rfl⟩

/-! ## The hypotheses are met -/

/-- one 8-byte number per entry -/
def longs : Codec Nat := ⟨fun s => .ok (toLE 8 (s % 2 ^ 64)), Rd.le 8⟩

example : WireOk (⟨[(5, [[97]]), (9, [])], 2 ^ 62, 37, false, true⟩ : Compact (List Str)) ∧
    (∀ e ∈ ([(5, [[97]]), (9, [])] : List (Entry (List Str))),
      e.2.length ≤ 127 ∧ ∀ v ∈ e.2, v.length < 2 ^ 32) := by
  refine ⟨⟨by decide, by decide, by decide, by decide, by decide, by decide, by decide⟩, by decide⟩

example : ANWireOk 8 ⟨⟨[(5, [1, 2]), (9, [3, 4])], 2 ^ 62, 37, false, true⟩, 2⟩ :=
  ⟨by decide, by decide, by decide, by decide, by decide, by decide, by decide, by decide⟩

example : encode longs ⟨[(5, 1)], maxTheta, 37, false, true⟩ =
    .ok [1, 3, 9, 1, 0, 26, 37, 0, 5, 0, 0, 0, 0, 0, 0, 0, 1, 0, 0, 0, 0, 0, 0, 0] := by decide

example : ∀ s : Fin (2 ^ 64), RoundTrips longs s.1 := by
  intro s
  refine ⟨_, rfl, ?_⟩
  intro r
  have h := s.2
  rw [Nat.mod_eq_of_lt h]
  exact Rd.le_append (k := 8) (lt_of_lt_of_eq h (by decide)) r

/-- a codec for every value of a type, as `C58_history_round_trip` asks -/
example : ∀ s : Bool, RoundTrips
    ⟨fun s => .ok (toLE 1 s.toNat), do let n ← Rd.le 1; pure (decide (n = 1))⟩ s := by
  intro s
  refine ⟨_, rfl, ?_⟩
  intro r
  show (Rd.le 1 >>= fun n => pure (decide (n = 1)) : Rd Bool) _ = _
  rw [Rd.bind_ok (Rd.le_append (by cases s <;> decide) r)]
  cases s <;> rfl

end Verif.Tuple
