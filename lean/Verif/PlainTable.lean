import Verif.HashTableInv

/-!
# Hash tables sized in advance

The set operations build tables large enough for everything put into them: these either never
exceed their capacity, or (resize factor 0, nominal size = current size) are rehashed in place.
-/

namespace Verif.HashTable

open Probe

variable {α : Type} {E : Elem α}

/-- A well-formed table of a fixed size. -/
structure Plain (E : Elem α) (t : Table α) : Prop where
  chain : TChain E t.lgCur t.entries
  lg : t.lgCur ≤ 32
  mode : t.lgCur = t.lgNom + 1 ∨ (t.lgCur = t.lgNom ∧ t.rf = 0)
  num : t.numEntries = (itemsOf E t.entries).length

/-- Fields that filling a plain table leaves alone. -/
structure SameShape (t t' : Table α) : Prop where
  lgCur : t'.lgCur = t.lgCur
  lgNom : t'.lgNom = t.lgNom
  rf : t'.rf = t.rf
  theta : t'.theta = t.theta
  isEmpty : t'.isEmpty = t.isEmpty

theorem SameShape.refl (t : Table α) : SameShape t t := ⟨rfl, rfl, rfl, rfl, rfl⟩

theorem SameShape.trans {a b c : Table α} (h : SameShape a b) (h' : SameShape b c) :
    SameShape a c :=
  ⟨by rw [h'.lgCur, h.lgCur], by rw [h'.lgNom, h.lgNom], by rw [h'.rf, h.rf],
   by rw [h'.theta, h.theta], by rw [h'.isEmpty, h.isEmpty]⟩

theorem Plain.find_absent {t : Table α} (h : Plain E t) {k : Nat}
    (habs : ∀ e ∈ itemsOf E t.entries, E.key e ≠ k)
    (hroom : (itemsOf E t.entries).length < 2 ^ t.lgCur) : ∃ p, t.find E k = .empty p := by
  obtain ⟨p, hf, -⟩ := h.chain.find_absent h.lg k habs hroom
  exact ⟨p, hf⟩

theorem Plain.find_present {t : Table α} (h : Plain E t) {e : α} (he : e ∈ itemsOf E t.entries) :
    ∃ p, t.find E (E.key e) = .found p ∧ t.entries[p]? = some e :=
  h.chain.find_present h.lg he

theorem Plain.insert {t : Table α} (h : Plain E t) {e : α} (hk : E.key e ≠ 0) {p : Nat}
    (hf : t.find E (E.key e) = .empty p)
    (hroom : (itemsOf E t.entries).length + 1 ≤ 15 * 2 ^ t.lgCur / 16) :
    ∃ t', t.insert E p e = .ok t' ∧ Plain E t' ∧ SameShape t t' ∧
      (itemsOf E t'.entries).Perm (e :: itemsOf E t.entries) := by
  obtain ⟨c1, p1, -, hp⟩ := h.chain.set_empty h.lg hk hf
  have hlg := h.lg
  have hnum' : t.numEntries + 1 = (itemsOf E (t.entries.set p e)).length := by
    rw [p1.length_eq, List.length_cons, ← h.num]
  have h2 := Nat.two_pow_pos t.lgCur
  unfold Table.insert
  rw [if_pos hp]
  simp only
  by_cases hcap : t.numEntries + 1 > computeCapacity t.lgCur t.lgNom
  · rw [if_pos hcap]
    rcases h.mode with hm | ⟨hm, hrf⟩
    · exfalso
      have : computeCapacity t.lgCur t.lgNom = 15 * 2 ^ t.lgCur / 16 := by
        simp [computeCapacity, hm]
      rw [h.num] at hcap
      omega
    · rw [if_pos (by omega)]
      obtain ⟨es, e2, c2, p2⟩ := resize_spec
        { t with entries := t.entries.set p e, numEntries := t.numEntries + 1 } c1 t.lgCur
        (by simp only; rw [hrf, Nat.mod_eq_of_lt (by omega), Nat.mod_eq_of_lt (by omega)]; omega)
        hlg (by simp only; rw [← hnum', h.num]; omega)
      exact ⟨_, e2, ⟨c2, hlg, Or.inr ⟨hm, hrf⟩, (by
          simp only; rw [p2.length_eq]; exact hnum')⟩, ⟨rfl, rfl, rfl, rfl, rfl⟩, p2.trans p1⟩
  · rw [if_neg hcap]
    exact ⟨_, rfl, { chain := c1, lg := hlg, mode := h.mode, num := hnum' },
      ⟨rfl, rfl, rfl, rfl, rfl⟩, p1⟩

/-- a fresh table of size `2^lg` -/
theorem plain_new {lg nom rf st th : Nat} {em : Bool} (h1 : 1 ≤ lg) (h32 : lg ≤ 32)
    (hm : lg = nom + 1 ∨ (lg = nom ∧ rf = 0)) :
    Plain E (Table.new E lg nom rf st th em) ∧
      itemsOf E (Table.new E lg nom rf st th em).entries = [] := by
  have he : (Table.new E lg nom rf st th em).entries = List.replicate (2 ^ lg) E.zero := by
    simp only [Table.new]; rw [if_pos (by omega)]
  refine ⟨?_, by rw [he, itemsOf_replicate]⟩
  exact { chain := by rw [he]; exact TChain.replicate E _, lg := h32, mode := hm,
          num := by rw [he, itemsOf_replicate]; rfl }

end Verif.HashTable
