import Verif.HashTableLemmas

/-!
# The invariant of reachable hash tables and the effect of each operation on it
-/

namespace Verif.HashTable

open Probe

variable {α : Type} {E : Elem α}

/-- Invariant of the tables used by sketches and unions. -/
structure TInv (E : Elem α) (t : Table α) : Prop where
  chain : TChain E t.lgCur t.entries
  lgNom : t.lgNom ≤ 26
  lgCur : t.lgCur ≤ t.lgNom + 1
  lgPos : 1 ≤ t.lgCur
  grow : t.lgCur ≤ t.lgNom → 1 ≤ t.rf ∧ t.rf ≤ 32
  num : t.numEntries = (itemsOf E t.entries).length
  cap : t.numEntries ≤ computeCapacity t.lgCur t.lgNom
  below : ∀ e ∈ itemsOf E t.entries, E.key e < t.theta

theorem computeCapacity_lt (lgCur lgNom : Nat) : computeCapacity lgCur lgNom < 2 ^ lgCur := by
  have := Nat.two_pow_pos lgCur
  unfold computeCapacity
  split <;> omega

theorem capacity_full {lgCur lgNom : Nat} (h : lgNom < lgCur) (h2 : lgCur ≤ lgNom + 1) :
    2 ^ lgNom ≤ computeCapacity lgCur lgNom := by
  have hp := Nat.two_pow_pos lgNom
  have : lgCur = lgNom + 1 := by omega
  subst this
  unfold computeCapacity
  rw [if_neg (by omega), pow_succ]
  omega

theorem computeCapacity_le {lgCur lgNom : Nat} (h2 : lgCur ≤ lgNom + 1) :
    computeCapacity lgCur lgNom ≤ 15 * 2 ^ (lgNom + 1) / 16 := by
  unfold computeCapacity
  split
  · rename_i h
    have : 2 ^ lgCur ≤ 2 ^ lgNom := Nat.pow_le_pow_right (by omega) h
    rw [pow_succ]; omega
  · have : lgCur = lgNom + 1 := by omega
    rw [this]

theorem capacity_grow {lgCur lgNew lgNom : Nat} (h0 : 1 ≤ lgCur) (h : lgCur < lgNew)
    : 2 ^ lgCur / 2 + 1 ≤ computeCapacity lgNew lgNom := by
  have h1 : 2 ^ (lgCur + 1) ≤ 2 ^ lgNew := Nat.pow_le_pow_right (by omega) h
  have h2 : 2 ^ 1 ≤ 2 ^ lgCur := Nat.pow_le_pow_right (by omega) h0
  rw [pow_succ] at h1
  unfold computeCapacity
  split <;> omega

theorem TInv.find_total {t : Table α} (h : TInv E t) (k : Nat) :
    (∃ p, t.find E k = .empty p ∧ p < t.entries.length ∧ ∀ e ∈ itemsOf E t.entries, E.key e ≠ k) ∨
    (∃ p e, t.find E k = .found p ∧ t.entries[p]? = some e ∧ E.key e = k ∧ e ∈ itemsOf E t.entries) := by
  have hlg : t.lgCur ≤ 32 := by have := h.lgNom; have := h.lgCur; omega
  by_cases hex : ∃ e ∈ itemsOf E t.entries, E.key e = k
  · obtain ⟨e, he, hk⟩ := hex
    right
    obtain ⟨p, hf, hp⟩ := h.chain.find_present hlg he
    rw [hk] at hf
    exact ⟨p, e, hf, hp, hk, he⟩
  · left
    have habs : ∀ e ∈ itemsOf E t.entries, E.key e ≠ k := fun e he hk => hex ⟨e, he, hk⟩
    obtain ⟨p, hf, hp, _⟩ := h.chain.find_absent hlg k habs (by
      have := h.cap; have := computeCapacity_lt t.lgCur t.lgNom; have := h.num; omega)
    exact ⟨p, hf, hp, habs⟩

theorem filter_below_self {t : Table α} {l : List α} (h : ∀ e ∈ l, E.key e < t.theta) :
    l.filter (fun e => decide (E.key e < t.theta)) = l := by
  rw [List.filter_eq_self]; intro e he; simpa using h e he

/-- Parameters that no table operation changes. -/
structure SameParams (t t' : Table α) : Prop where
  lgNom : t'.lgNom = t.lgNom
  rf : t'.rf = t.rf
  start : t'.startTheta = t.startTheta

theorem SameParams.refl (t : Table α) : SameParams t t := ⟨rfl, rfl, rfl⟩

theorem SameParams.trans {a b c : Table α} (h : SameParams a b) (h' : SameParams b c) :
    SameParams a c :=
  ⟨by rw [h'.lgNom, h.lgNom], by rw [h'.rf, h.rf], by rw [h'.start, h.start]⟩

/-- Effect of `rebuild` on a full-size table. -/
theorem rebuild_inv {t : Table α} (hchain : TChain E t.lgCur t.entries) (hlgN : t.lgNom ≤ 26)
    (hcur : t.lgCur = t.lgNom + 1) (hnum : t.numEntries = (itemsOf E t.entries).length)
    (hnom : 2 ^ t.lgNom < t.numEntries) (hbelow : ∀ e ∈ itemsOf E t.entries, E.key e < t.theta) :
    ∃ t', t.rebuild E = .ok t' ∧ TInv E t' ∧ SameParams t t' ∧ t'.isEmpty = t.isEmpty ∧
      t'.theta < t.theta ∧ t'.numEntries = 2 ^ t.lgNom ∧
      (∃ e ∈ itemsOf E t.entries, E.key e = t'.theta) ∧
      (itemsOf E t'.entries).Perm
        ((itemsOf E t.entries).filter (fun e => decide (E.key e < t'.theta))) := by
  obtain ⟨es, pivot, hpm, e1, c1, l1, p1⟩ := rebuild_spec t hchain (by omega) hnum hnom
  refine ⟨_, e1, ?_, ⟨rfl, rfl, rfl⟩, rfl, hbelow pivot hpm, rfl, ⟨pivot, hpm, rfl⟩, p1⟩
  exact { chain := c1, lgNom := hlgN, lgCur := by simp; omega, lgPos := by simp; omega,
          grow := by intro hh; simp at hh; omega, num := l1.symm,
          cap := capacity_full (by simp; omega) (by simp; omega),
          below := by
            intro e he
            have := p1.mem_iff.mp he
            rw [List.mem_filter] at this
            simpa using this.2 }

/-- Effect of `Insert` at the slot found by the search. -/
theorem insert_inv {t : Table α} (h : TInv E t) {e : α} (hk : E.key e ≠ 0)
    (hth : E.key e < t.theta) {p : Nat} (hf : t.find E (E.key e) = .empty p) :
    ∃ t', t.insert E p e = .ok t' ∧ TInv E t' ∧ SameParams t t' ∧ t'.isEmpty = t.isEmpty ∧
      t'.theta ≤ t.theta ∧
      (itemsOf E t'.entries).Perm
        ((e :: itemsOf E t.entries).filter (fun x => decide (E.key x < t'.theta))) ∧
      (t'.theta ≠ t.theta →
        15 * 2 ^ (t.lgNom + 1) / 16 < (itemsOf E t.entries).length + 1 ∧
        t'.numEntries = 2 ^ t.lgNom ∧ ∃ x ∈ e :: itemsOf E t.entries, E.key x = t'.theta) := by
  have hN := h.lgNom
  have hC := h.lgCur
  obtain ⟨c1, p1, habs, hp⟩ := h.chain.set_empty (by omega) hk hf
  unfold Table.insert
  rw [if_pos hp]
  have hbelow : ∀ x ∈ itemsOf E (t.entries.set p e), E.key x < t.theta := by
    intro x hx
    rcases List.mem_cons.mp (p1.mem_iff.mp hx) with rfl | hx
    · exact hth
    · exact h.below x hx
  have hnum' : t.numEntries + 1 = (itemsOf E (t.entries.set p e)).length := by
    rw [p1.length_eq, List.length_cons, ← h.num]
  simp only
  by_cases hcap : t.numEntries + 1 > computeCapacity t.lgCur t.lgNom
  · rw [if_pos hcap]
    by_cases hle : t.lgCur ≤ t.lgNom
    · rw [if_pos hle]
      obtain ⟨g1, g2⟩ := h.grow hle
      have hnew : min ((t.lgCur + t.rf) % 256) ((t.lgNom + 1) % 256) =
          min (t.lgCur + t.rf) (t.lgNom + 1) := by
        rw [Nat.mod_eq_of_lt (by omega), Nat.mod_eq_of_lt (by omega)]
      have hcc := h.cap
      have hcapeq : computeCapacity t.lgCur t.lgNom = 2 ^ t.lgCur / 2 := by
        simp [computeCapacity, hle]
      have hgrow := capacity_grow (lgNom := t.lgNom) h.lgPos
        (show t.lgCur < min (t.lgCur + t.rf) (t.lgNom + 1) by omega)
      have hlt := computeCapacity_lt (min (t.lgCur + t.rf) (t.lgNom + 1)) t.lgNom
      obtain ⟨es, e2, c2, p2⟩ := resize_spec
        { t with entries := t.entries.set p e, numEntries := t.numEntries + 1 } c1
        (min (t.lgCur + t.rf) (t.lgNom + 1)) hnew.symm (by omega) (by
          simp only
          rw [← hnum']; omega)
      refine ⟨_, e2, ?_, ⟨rfl, rfl, rfl⟩, rfl, le_refl _, ?_, fun hne => absurd rfl hne⟩
      · exact { chain := c2, lgNom := hN, lgCur := by simp, lgPos := by simp; omega,
                grow := fun _ => ⟨g1, g2⟩, num := by
                  simp only; rw [p2.length_eq]; exact hnum',
                cap := by simp only; omega,
                below := fun x hx => hbelow x (p2.mem_iff.mp hx) }
      · simp only
        rw [filter_below_self (by
          intro x hx
          exact hbelow x (p1.mem_iff.mpr hx))]
        exact p2.trans p1
    · rw [if_neg hle]
      have hcapfull := capacity_full (show t.lgNom < t.lgCur by omega) hC
      have hcur : t.lgCur = t.lgNom + 1 := by omega
      have hcapeq : computeCapacity t.lgCur t.lgNom = 15 * 2 ^ (t.lgNom + 1) / 16 := by
        simp [computeCapacity, hcur]
      obtain ⟨t', e2, i2, s2, em2, th2, n2, ⟨x, hx, hxk⟩, p2⟩ := rebuild_inv
        (t := { t with entries := t.entries.set p e, numEntries := t.numEntries + 1 }) c1 hN
        hcur hnum' (by simp only; omega) hbelow
      refine ⟨t', e2, i2, ⟨s2.lgNom, s2.rf, s2.start⟩, em2, le_of_lt th2,
        p2.trans (p1.filter _), fun _ => ⟨?_, ?_, x, p1.mem_iff.mp hx, hxk⟩⟩
      · rw [← h.num, ← hcapeq]; omega
      · rw [n2]
  · rw [if_neg hcap]
    refine ⟨_, rfl, ?_, ⟨rfl, rfl, rfl⟩, rfl, le_refl _, ?_, fun hne => absurd rfl hne⟩
    · exact { chain := c1, lgNom := hN, lgCur := hC, lgPos := h.lgPos, grow := h.grow,
              num := hnum', cap := by simp only; omega, below := hbelow }
    · simp only
      rw [filter_below_self (by
        intro x hx
        exact hbelow x (p1.mem_iff.mpr hx))]
      exact p1

/-- If more than `2^lgNom` entries are held the table has its full size. -/
theorem TInv.full_of_many {t : Table α} (h : TInv E t) (hn : 2 ^ t.lgNom < t.numEntries) :
    t.lgCur = t.lgNom + 1 := by
  by_contra hne
  have hC := h.lgCur
  have hle : t.lgCur ≤ t.lgNom := by omega
  have hcap := h.cap
  have hcapeq : computeCapacity t.lgCur t.lgNom = 2 ^ t.lgCur / 2 := by
    simp [computeCapacity, hle]
  have : 2 ^ t.lgCur ≤ 2 ^ t.lgNom := Nat.pow_le_pow_right (by omega) hle
  omega

theorem trim_inv {t : Table α} (h : TInv E t) :
    ∃ t', t.trim E = .ok t' ∧ TInv E t' ∧ SameParams t t' ∧ t'.isEmpty = t.isEmpty ∧
      t'.theta ≤ t.theta ∧ (itemsOf E t'.entries).length = min (itemsOf E t.entries).length (2 ^ t.lgNom) ∧
      (itemsOf E t'.entries).Perm
        ((itemsOf E t.entries).filter (fun x => decide (E.key x < t'.theta))) ∧
      (t'.theta ≠ t.theta → 2 ^ t.lgNom < (itemsOf E t.entries).length ∧
        ∃ x ∈ itemsOf E t.entries, E.key x = t'.theta) := by
  unfold Table.trim
  by_cases hn : t.numEntries > 2 ^ t.lgNom
  · rw [if_pos hn]
    obtain ⟨t', e2, i2, s2, em2, th2, n2, hx, p2⟩ := rebuild_inv h.chain h.lgNom
      (h.full_of_many hn) h.num hn h.below
    refine ⟨t', e2, i2, s2, em2, le_of_lt th2, ?_, p2, fun _ => ⟨by rw [← h.num]; exact hn, hx⟩⟩
    rw [← i2.num, n2, ← h.num]; omega
  · rw [if_neg hn]
    refine ⟨t, rfl, h, SameParams.refl t, rfl, le_refl _, ?_, ?_, fun hne => absurd rfl hne⟩
    · rw [← h.num]; omega
    · rw [filter_below_self h.below]

theorem startingSub_spec {lgNom rf : Nat} (h5 : 5 ≤ lgNom) (h26 : lgNom ≤ 26) :
    startingSubMultiple (lgNom + 1) 5 rf ≤ lgNom + 1 ∧ 5 ≤ startingSubMultiple (lgNom + 1) 5 rf ∧
      (startingSubMultiple (lgNom + 1) 5 rf ≤ lgNom → 1 ≤ rf ∧ rf ≤ 32) := by
  unfold startingSubMultiple
  rw [if_neg (by omega)]
  by_cases h0 : rf = 0
  · rw [if_pos h0]; omega
  · rw [if_neg h0]
    have h1 : (lgNom + 1 - 5) % rf < rf := Nat.mod_lt _ (by omega)
    have h2 : (lgNom + 1 - 5) % rf ≤ lgNom + 1 - 5 := Nat.mod_le _ _
    refine ⟨by omega, by omega, ?_⟩
    intro hle
    refine ⟨by omega, ?_⟩
    by_contra hgt
    rw [Nat.mod_eq_of_lt (by omega)] at hle
    omega

/-- A new table (constructor of sketches and unions). -/
theorem new_inv {lgNom rf th : Nat} (h5 : 5 ≤ lgNom) (h26 : lgNom ≤ 26) (em : Bool) :
    TInv E (Table.new E (startingSubMultiple (lgNom + 1) 5 rf) lgNom rf th th em) ∧
    itemsOf E (Table.new E (startingSubMultiple (lgNom + 1) 5 rf) lgNom rf th th em).entries = [] := by
  obtain ⟨a, b, c⟩ := startingSub_spec (rf := rf) h5 h26
  have he : (Table.new E (startingSubMultiple (lgNom + 1) 5 rf) lgNom rf th th em).entries =
      List.replicate (2 ^ startingSubMultiple (lgNom + 1) 5 rf) E.zero := by
    simp only [Table.new]; rw [if_pos (by omega)]
  refine ⟨?_, by rw [he, itemsOf_replicate]⟩
  exact { chain := by rw [he]; exact TChain.replicate E _, lgNom := h26, lgCur := a,
          lgPos := by simp only [Table.new]; omega, grow := c,
          num := by rw [he, itemsOf_replicate]; rfl,
          cap := Nat.zero_le _,
          below := by rw [he, itemsOf_replicate]; simp }

theorem chain_clear {lg : Nat} {entries : List α} (hlen : entries.length = 2 ^ lg)
    (hz : ∀ e ∈ entries, E.key e = 0) : TChain E lg entries := by
  have hno : ∀ (p : Nat) (e : α), entries[p]? = some e → (scheme E lg).emp e = false → False := by
    intro p e hp he
    exact (emp_false_iff lg e).mp he (hz e (List.mem_of_getElem? hp))
  exact ⟨hlen, fun p e hp he => (hno p e hp he).elim, fun p q e f hp he => (hno p e hp he).elim⟩

theorem reset_inv {t : Table α} (h : TInv E t) (h5 : 5 ≤ t.lgNom) :
    TInv E (t.reset E) ∧ itemsOf E (t.reset E).entries = [] ∧ SameParams t (t.reset E) ∧
      (t.reset E).isEmpty = true ∧ (t.reset E).theta = t.startTheta := by
  obtain ⟨a, b, c⟩ := startingSub_spec (rf := t.rf) h5 h.lgNom
  have hz : ∀ e ∈ (t.reset E).entries, E.key e = 0 := by
    intro e he
    simp only [Table.reset] at he
    split at he
    · rw [List.mem_replicate] at he; rw [he.2, E.key_zero]
    · obtain ⟨x, hx, rfl⟩ := List.mem_map.mp he
      split
      · exact E.key_clear x
      · rename_i hk; simpa using hk
  have hlen : (t.reset E).entries.length = 2 ^ (t.reset E).lgCur := by
    simp only [Table.reset]
    split
    · simp
    · rename_i hk
      have hk' : startingSubMultiple (t.lgNom + 1) 5 t.rf = t.lgCur := by
        by_contra hne; exact hk hne
      rw [List.length_map, hk']; exact h.chain.len
  have hit : itemsOf E (t.reset E).entries = [] := by
    rw [itemsOf, List.filter_eq_nil_iff]
    intro e he; simp [hz e he]
  refine ⟨?_, hit, ⟨rfl, rfl, rfl⟩, rfl, rfl⟩
  exact { chain := chain_clear hlen hz, lgNom := h.lgNom, lgCur := a,
          lgPos := by simp only [Table.reset]; omega, grow := c,
          num := by rw [hit]; rfl, cap := Nat.zero_le _,
          below := by rw [hit]; simp }

end Verif.HashTable
