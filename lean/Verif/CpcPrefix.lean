import Verif.CpcBits

/-!
# The code tables are prefix codes, and the decoding tables invert them
-/

namespace Verif.Cpc

open Outcome

/-- Splits a set of codes `(code, length)` by the lowest bit; at the end there is at most one. -/
def pf : Nat → List (Nat × Nat) → Bool
  | _, [] => true
  | _, [_] => true
  | 0, _ => false
  | d + 1, l =>
    l.all (fun c => c.2 != 0) &&
    pf d ((l.filter (fun c => c.1 % 2 == 0)).map (fun c => (c.1 / 2, c.2 - 1))) &&
    pf d ((l.filter (fun c => c.1 % 2 == 1)).map (fun c => (c.1 / 2, c.2 - 1)))

/-- No bit string begins with both codes. -/
def Apart (a b : Nat × Nat) : Prop := ¬ ∃ p, p % 2 ^ a.2 = a.1 ∧ p % 2 ^ b.2 = b.1

theorem halve {p c l : Nat} (hl : l ≠ 0) (h : p % 2 ^ l = c) :
    p % 2 = c % 2 ∧ (p / 2) % 2 ^ (l - 1) = c / 2 := by
  obtain ⟨k, rfl⟩ : ∃ k, l = k + 1 := ⟨l - 1, by omega⟩
  rw [pow_succ, Nat.mul_comm, Nat.mod_mul] at h
  subst h
  rw [Nat.add_sub_cancel]
  have := Nat.mod_lt p (show 2 > 0 by omega)
  constructor
  · omega
  · omega

theorem pf_apart : ∀ (d : Nat) (l : List (Nat × Nat)), pf d l = true → l.Pairwise Apart := by
  intro d
  induction d with
  | zero =>
    intro l h
    match l, h with
    | [], _ => exact List.Pairwise.nil
    | [_], _ => exact List.pairwise_singleton _ _
    | a :: b :: l, h => simp [pf] at h
  | succ d ih =>
    intro l h
    match l, h with
    | [], _ => exact List.Pairwise.nil
    | [_], _ => exact List.pairwise_singleton _ _
    | a :: b :: l, h =>
      rw [pf] at h
      · generalize a :: b :: l = l at h
        rw [Bool.and_eq_true, Bool.and_eq_true] at h
        obtain ⟨⟨h0, h1⟩, h2⟩ := h
        have p1 := ih _ h1
        have p2 := ih _ h2
        rw [List.pairwise_map, List.pairwise_filter] at p1 p2
        have hall : ∀ c ∈ l, c.2 ≠ 0 := by
          intro c hc
          have := List.all_eq_true.mp h0 c hc
          simpa using this
        have p3 := List.Pairwise.and p1 p2
        refine List.Pairwise.imp_of_mem ?_ p3
        intro a b ha hb hab
        rintro ⟨p, hpa, hpb⟩
        obtain ⟨a1, a2⟩ := halve (hall a ha) hpa
        obtain ⟨b1, b2⟩ := halve (hall b hb) hpb
        rcases Nat.mod_two_eq_zero_or_one p with hp | hp
        · exact hab.1 (by simp; omega) (by simp; omega) ⟨p / 2, a2, b2⟩
        · exact hab.2 (by simp; omega) (by simp; omega) ⟨p / 2, a2, b2⟩
      · intro hx
        exact absurd hx (by simp)
      · intro x hx
        exact absurd hx (by simp)

/-- code and length of an entry -/
def codeOf (e : Nat) : Nat := e &&& 0xFFF
def lenOf (e : Nat) : Nat := e >>> 12

def goodTable (enc : List Nat) : Bool :=
  enc.all (fun e => 1 ≤ lenOf e && lenOf e ≤ 12 && codeOf e < 2 ^ lenOf e) &&
  decide (enc.length ≤ 256) && pf 12 (enc.map (fun e => (codeOf e, lenOf e)))

structure Good (enc : List Nat) : Prop where
  entry : ∀ e ∈ enc, 1 ≤ lenOf e ∧ lenOf e ≤ 12 ∧ codeOf e < 2 ^ lenOf e
  len : enc.length ≤ 256
  apart : ∀ i j a b : Nat, i < j → enc[i]? = some a → enc[j]? = some b →
    ∀ p, p % 2 ^ lenOf a = codeOf a → p % 2 ^ lenOf b = codeOf b → False

theorem good_of {enc : List Nat} (h : goodTable enc = true) : Good enc := by
  unfold goodTable at h
  rw [Bool.and_eq_true, Bool.and_eq_true] at h
  obtain ⟨⟨h1, h2⟩, h3⟩ := h
  refine ⟨?_, by simpa using h2, ?_⟩
  · intro e he
    have := List.all_eq_true.mp h1 e he
    simp only [Bool.and_eq_true, decide_eq_true_eq] at this
    exact ⟨this.1.1, this.1.2, this.2⟩
  · intro i j a b hij ha hb p hpa hpb
    have hp := pf_apart _ _ h3
    rw [List.pairwise_map, List.pairwise_iff_getElem] at hp
    obtain ⟨hi, ei⟩ := List.getElem?_eq_some_iff.mp ha
    obtain ⟨hj, ej⟩ := List.getElem?_eq_some_iff.mp hb
    have := hp i j hi hj hij
    rw [ei, ej] at this
    exact this ⟨p, hpa, hpb⟩

set_option maxRecDepth 20000 in
theorem unaryTable_good : Good unaryTable := good_of (by decide +kernel)

set_option maxRecDepth 20000 in
theorem byteTables_check : byteTables.all (fun t => goodTable t && (t.length == 256)) = true := by
  decide +kernel

theorem byteTables_good {ph : Nat} {enc : List Nat} (h : byteTables[ph]? = some enc) :
    Good enc ∧ enc.length = 256 := by
  have := List.all_eq_true.mp byteTables_check enc (List.mem_of_getElem? h)
  rw [Bool.and_eq_true] at this
  exact ⟨good_of this.1, by simpa using this.2⟩

/-! ## The decoding table -/

def entryOf (e b : Nat) : Nat := (lenOf e <<< 8) ||| b

/-- writing one code -/
theorem entries_fold {e b : Nat} (hc : codeOf e < 2 ^ lenOf e) (h12 : lenOf e ≤ 12) :
    ∀ (n : Nat), n ≤ 2 ^ (12 - lenOf e) → ∀ t : List Nat, t.length = 4096 →
    let t' := (List.range n).foldl
      (fun t g => t.set ((codeOf e ||| (g <<< lenOf e)) &&& 0xFFF) (entryOf e b)) t
    t'.length = 4096 ∧ ∀ p < 4096, t'[p]? =
      if p % 2 ^ lenOf e = codeOf e ∧ p / 2 ^ lenOf e < n then some (entryOf e b) else t[p]? := by
  intro n
  induction n with
  | zero => intro _ t ht; exact ⟨ht, fun p _ => by simp⟩
  | succ n ih =>
    intro hn t ht
    obtain ⟨l1, g1⟩ := ih (by omega) t ht
    simp only [List.range_succ, List.foldl_append, List.foldl_cons, List.foldl_nil]
    refine ⟨by rw [List.length_set]; exact l1, ?_⟩
    intro p hp
    have h4096 : (2 : Nat) ^ lenOf e * 2 ^ (12 - lenOf e) = 4096 := by
      rw [← pow_add, Nat.add_sub_cancel' h12]; rfl
    have hidx : (codeOf e ||| (n <<< lenOf e)) &&& 0xFFF = codeOf e + 2 ^ lenOf e * n := by
      rw [or_shift hc, show (0xFFF : Nat) = 2 ^ 12 - 1 from rfl, Nat.and_two_pow_sub_one_eq_mod]
      apply Nat.mod_eq_of_lt
      have : 2 ^ lenOf e * (n + 1) ≤ 4096 := by rw [← h4096]; exact Nat.mul_le_mul_left _ hn
      rw [Nat.mul_add] at this
      omega
    rw [hidx, List.getElem?_set]
    by_cases hpn : codeOf e + 2 ^ lenOf e * n = p
    · have hm : p % 2 ^ lenOf e = codeOf e := by
        rw [← hpn, Nat.add_mul_mod_self_left, Nat.mod_eq_of_lt hc]
      have hd : p / 2 ^ lenOf e = n := by
        rw [← hpn, Nat.add_mul_div_left _ _ (by positivity), Nat.div_eq_of_lt hc, Nat.zero_add]
      rw [if_pos hpn, if_pos (by rw [l1]; omega), if_pos ⟨hm, by omega⟩]
    · rw [if_neg hpn, g1 p hp]
      have hiff : (p % 2 ^ lenOf e = codeOf e ∧ p / 2 ^ lenOf e < n) ↔
          (p % 2 ^ lenOf e = codeOf e ∧ p / 2 ^ lenOf e < n + 1) := by
        constructor
        · rintro ⟨h1, h2⟩; exact ⟨h1, by omega⟩
        · rintro ⟨h1, h2⟩
          refine ⟨h1, ?_⟩
          by_contra h3
          have h4 : p / 2 ^ lenOf e = n := by omega
          apply hpn
          rw [← h1, ← h4]
          exact Nat.mod_add_div p _
      simp only [hiff]

theorem decodingEntries_spec {e b : Nat} (hc : codeOf e < 2 ^ lenOf e) (h12 : lenOf e ≤ 12)
    {t : List Nat} (ht : t.length = 4096) :
    (decodingEntries t e b).length = 4096 ∧ ∀ p < 4096, (decodingEntries t e b)[p]? =
      if p % 2 ^ lenOf e = codeOf e then some (entryOf e b) else t[p]? := by
  obtain ⟨h1, h2⟩ := entries_fold (b := b) hc h12 (1 <<< (12 - lenOf e))
    (by rw [Nat.shiftLeft_eq, Nat.one_mul]) t ht
  refine ⟨h1, fun p hp => ?_⟩
  have h4096 : (2 : Nat) ^ lenOf e * 2 ^ (12 - lenOf e) = 4096 := by
    rw [← pow_add, Nat.add_sub_cancel' h12]; rfl
  have hd : p / 2 ^ lenOf e < 1 <<< (12 - lenOf e) := by
    rw [Nat.shiftLeft_eq, Nat.one_mul]
    apply Nat.div_lt_of_lt_mul
    rw [h4096]; exact hp
  have := h2 p hp
  simp only [hd, and_true] at this
  exact this

theorem table_fold {enc : List Nat} (h : Good enc) : ∀ n ≤ enc.length,
    let t := (List.range n).foldl (fun t b => decodingEntries t (enc.getD b 0) b)
      (List.replicate 4096 0)
    t.length = 4096 ∧ ∀ b < n, ∀ e, enc[b]? = some e → ∀ p < 4096, p % 2 ^ lenOf e = codeOf e →
      t[p]? = some (entryOf e b) := by
  intro n
  induction n with
  | zero => intro _; exact ⟨List.length_replicate, fun b hb => by omega⟩
  | succ n ih =>
    intro hn
    obtain ⟨l1, g1⟩ := ih (by omega)
    simp only [List.range_succ, List.foldl_append, List.foldl_cons, List.foldl_nil]
    obtain ⟨e0, he0⟩ : ∃ e, enc[n]? = some e := ⟨_, List.getElem?_eq_getElem (by omega)⟩
    have hg : enc.getD n 0 = e0 := by rw [List.getD_eq_getElem?_getD, he0]; rfl
    obtain ⟨_, h12, hc⟩ := h.entry e0 (List.mem_of_getElem? he0)
    rw [hg]
    obtain ⟨l2, g2⟩ := decodingEntries_spec (b := n) hc h12 l1
    refine ⟨l2, ?_⟩
    intro b hb e he p hp hpe
    rw [g2 p hp]
    by_cases hbn : b = n
    · subst hbn
      rw [he0] at he
      cases he
      rw [if_pos hpe]
    · rw [if_neg (fun hp0 => h.apart b n e e0 (by omega) he he0 p hpe hp0)]
      exact g1 b (by omega) e he p hp hpe

/-- A bit string that begins with the code of `b` is decoded as `b`, and the length of the code is
found. -/
theorem decode_spec {enc : List Nat} (h : Good enc) {b e p : Nat} (he : enc[b]? = some e)
    (hp : p < 4096) (hpe : p % 2 ^ lenOf e = codeOf e) :
    ∃ x, (makeDecodingTable enc)[p]? = some x ∧ x >>> 8 = lenOf e ∧ x &&& 0xFF = b := by
  obtain ⟨hb, -⟩ := List.getElem?_eq_some_iff.mp he
  have hb2 : b < 2 ^ 8 := by have := h.len; omega
  refine ⟨_, (table_fold h enc.length le_rfl).2 b hb e he p hp hpe, ?_, ?_⟩
  · unfold entryOf
    rw [← Nat.shiftLeft_add_eq_or_of_lt hb2, Nat.shiftLeft_eq, Nat.shiftRight_eq_div_pow,
      Nat.add_comm, Nat.add_mul_div_right _ _ (by positivity), Nat.div_eq_of_lt hb2, Nat.zero_add]
  · unfold entryOf
    rw [← Nat.shiftLeft_add_eq_or_of_lt hb2, Nat.shiftLeft_eq,
      show (0xFF : Nat) = 2 ^ 8 - 1 from rfl, Nat.and_two_pow_sub_one_eq_mod, Nat.add_comm,
      Nat.add_mul_mod_self_right, Nat.mod_eq_of_lt hb2]

theorem makeDecodingTable_length {enc : List Nat} (h : Good enc) :
    (makeDecodingTable enc).length = 4096 := (table_fold h enc.length le_rfl).1

end Verif.Cpc
