import Verif.TupleModel

/-!
# Forgetting the summaries

Every operation of the tuple hash table, applied to a table whose summaries are forgotten, is the
corresponding operation of the theta hash table.  Stated for any slot type `α` with keys `E.key`.
-/

namespace Verif

/-- apply a function to the result of a call -/
def Outcome.map {α β : Type} (f : α → β) : Outcome α → Outcome β
  | .ok a => .ok (f a)
  | .err e => .err e
  | .panic => .panic

namespace Outcome
variable {α β γ : Type}

@[simp] theorem map_ok (f : α → β) (a : α) : (Outcome.ok a).map f = .ok (f a) := rfl
@[simp] theorem map_err (f : α → β) (e : String) : (Outcome.err e : Outcome α).map f = .err e := rfl
@[simp] theorem map_panic (f : α → β) : (Outcome.panic : Outcome α).map f = .panic := rfl

theorem map_bind (x : Outcome α) (g : α → Outcome β) (f : β → γ) :
    (x >>= g).map f = x >>= fun a => (g a).map f := by
  cases x <;> rfl

theorem bind_map (x : Outcome α) (f : α → β) (g : β → Outcome γ) :
    (x.map f >>= g) = x >>= fun a => g (f a) := by
  cases x <;> rfl

theorem bind_congr {x : Outcome α} {f g : α → Outcome β} (h : ∀ a, f a = g a) :
    (x >>= f) = x >>= g := by
  cases x <;> simp [h]

theorem map_eq_ok {x : Outcome α} {f : α → β} {b : β} :
    x.map f = .ok b ↔ ∃ a, x = .ok a ∧ f a = b := by
  cases x <;> simp

end Outcome

namespace QuickSelect
variable {α β : Type} {f : α → β} {lt : α → α → Bool} {lt' : β → β → Bool}

theorem swap_map (arr : List α) (i j : Nat) :
    swap (arr.map f) i j = (swap arr i j).map (List.map f) := by
  unfold swap
  rw [List.getElem?_map, List.getElem?_map]
  cases arr[i]? <;> cases arr[j]? <;> simp [List.map_set]

variable (hlt : ∀ a b, lt a b = lt' (f a) (f b))
include hlt

theorem scanUp_map (arr : List α) (v : α) (hi : Nat) : ∀ fuel i,
    scanUp lt' (arr.map f) (f v) hi fuel i = scanUp lt arr v hi fuel i := by
  intro fuel
  induction fuel with
  | zero => intro i; rfl
  | succ fuel ih =>
    intro i
    simp only [scanUp, List.getElem?_map]
    cases arr[i + 1]? with
    | none => rfl
    | some x => simp only [Option.map_some, ← hlt, ih]

theorem scanDown_map (arr : List α) (v : α) (lo : Nat) : ∀ fuel j,
    scanDown lt' (arr.map f) (f v) lo fuel j = scanDown lt arr v lo fuel j := by
  intro fuel
  induction fuel with
  | zero => intro j; rfl
  | succ fuel ih =>
    intro j
    cases j with
    | zero => rfl
    | succ j =>
      simp only [scanDown, List.getElem?_map]
      cases arr[j]? with
      | none => rfl
      | some x => simp only [Option.map_some, ← hlt, ih]

theorem partitionLoop_map (v : α) (lo hi : Nat) : ∀ fuel (arr : List α) i j,
    partitionLoop lt' (f v) lo hi fuel (arr.map f) i j =
      (partitionLoop lt v lo hi fuel arr i j).map (fun p => (p.1.map f, p.2)) := by
  intro fuel
  induction fuel with
  | zero => intro arr i j; rfl
  | succ fuel ih =>
    intro arr i j
    simp only [partitionLoop, List.length_map, scanUp_map hlt, scanDown_map hlt]
    cases scanUp lt arr v hi (arr.length + 1) i with
    | none => rfl
    | some i' =>
      cases hd : scanDown lt arr v lo (arr.length + 1) j with
      | none => rfl
      | some j' =>
        cases j' with
        | zero => rfl
        | succ j1 =>
          simp only [swap_map]
          split
          · rfl
          · cases swap arr (i' + 1) j1 with
            | none => rfl
            | some arr' => simp only [Option.map_some, ih]

theorem partition_map (arr : List α) (lo hi : Nat) :
    partition lt' (arr.map f) lo hi = (partition lt arr lo hi).map (fun p => (p.1.map f, p.2)) := by
  simp only [partition, List.getElem?_map]
  cases arr[lo]? with
  | none => rfl
  | some v =>
    simp only [Option.map_some, List.length_map, partitionLoop_map hlt]
    cases partitionLoop lt v lo hi (arr.length + 1) arr lo (hi + 1) with
    | none => rfl
    | some p =>
      simp only [Option.map_some, swap_map]
      cases swap p.1 lo p.2 <;> rfl

theorem quickSelectLoop_map (pivot : Nat) : ∀ fuel (arr : List α) lo hi,
    quickSelectLoop lt' pivot fuel (arr.map f) lo hi =
      (quickSelectLoop lt pivot fuel arr lo hi).map (fun p => (p.1.map f, f p.2)) := by
  intro fuel
  induction fuel with
  | zero => intro arr lo hi; rfl
  | succ fuel ih =>
    intro arr lo hi
    simp only [quickSelectLoop, partition_map hlt]
    split
    · cases partition lt arr lo hi.toNat with
      | none => rfl
      | some p =>
        simp only [Option.map_some]
        split
        · rw [List.getElem?_map]
          cases p.1[pivot]? <;> rfl
        · split
          · rw [ih]
          · rw [ih]
    · rw [List.getElem?_map]
      cases arr[pivot]? <;> rfl

theorem quickSelect_map (arr : List α) (lo : Nat) (hi : Int) (pivot : Nat) :
    quickSelect lt' (arr.map f) lo hi pivot =
      (quickSelect lt arr lo hi pivot).map (fun p => (p.1.map f, f p.2)) := by
  simp only [quickSelect, List.length_map, quickSelectLoop_map hlt]

end QuickSelect

namespace HashTable

open Probe

variable {α : Type} (E : Elem α)

/-- the same table without the summaries -/
def strip (t : Table α) : Table Nat :=
  ⟨t.entries.map E.key, t.theta, t.numEntries, t.lgCur, t.lgNom, t.rf, t.startTheta, t.isEmpty⟩

theorem findLoop_map {β : Type} (f : α → β) (emp hit : β → Bool) (next : Nat → Nat) (start : Nat)
    (tbl : List α) : ∀ fuel idx, findLoop emp hit next start (tbl.map f) fuel idx =
      findLoop (fun e => emp (f e)) (fun e => hit (f e)) next start tbl fuel idx := by
  intro fuel
  induction fuel with
  | zero => intro idx; rfl
  | succ fuel ih =>
    intro idx
    simp only [findLoop, List.getElem?_map]
    cases tbl[idx]? with
    | none => rfl
    | some e => simp only [Option.map_some, ih]

theorem findIn_map (es : List α) (lg k : Nat) :
    findIn Theta.elem (es.map E.key) lg k = findIn E es lg k := by
  unfold findIn Scheme.find
  rw [findLoop_map]
  rfl

theorem find_strip (t : Table α) (k : Nat) : (strip E t).find Theta.elem k = t.find E k :=
  findIn_map E _ _ _

theorem place_map (lg : Nat) (es : List α) (e : α) :
    place Theta.elem lg (es.map E.key) (E.key e) = (place E lg es e).map (List.map E.key) := by
  unfold place
  rw [show Theta.elem.key (E.key e) = E.key e from rfl, findIn_map]
  cases findIn E es lg (E.key e) with
  | found i => simp [List.map_set]
  | empty i => simp [List.map_set]
  | full =>
    simp only [List.length_map]
    split <;> simp [List.map_set]
  | panic => rfl

theorem placeAll_map (lg : Nat) : ∀ (l es : List α),
    placeAll Theta.elem lg (es.map E.key) (l.map E.key) =
      (placeAll E lg es l).map (List.map E.key) := by
  intro l
  induction l with
  | nil => intro es; rfl
  | cons e l ih =>
    intro es
    simp only [List.map_cons, placeAll, place_map]
    rw [show Theta.elem.key (E.key e) = E.key e from rfl]
    split
    · rw [Outcome.bind_map, Outcome.map_bind]
      exact Outcome.bind_congr (fun a => ih a)
    · exact ih es

theorem placeEach_map (lg : Nat) : ∀ (l es : List α),
    placeEach Theta.elem lg (es.map E.key) (l.map E.key) =
      (placeEach E lg es l).map (List.map E.key) := by
  intro l
  induction l with
  | nil => intro es; rfl
  | cons e l ih =>
    intro es
    simp only [List.map_cons, placeEach, place_map]
    rw [Outcome.bind_map, Outcome.map_bind]
    exact Outcome.bind_congr (fun a => ih a)

theorem replicate_map (n : Nat) : (List.replicate n E.zero).map E.key =
    List.replicate n Theta.elem.zero := by
  rw [List.map_replicate, E.key_zero]; rfl

theorem resize_strip (t : Table α) :
    (strip E t).resize Theta.elem = (t.resize E).map (strip E) := by
  unfold Table.resize
  simp only [strip, List.length_map]
  split
  · rfl
  · rw [← List.map_take, ← replicate_map E, placeAll_map, Outcome.bind_map, Outcome.map_bind]
    rfl

theorem firstEmpty_map (es : List α) (size : Nat) : ∀ fuel i,
    firstEmpty Theta.elem (es.map E.key) size fuel i = firstEmpty E es size fuel i := by
  intro fuel
  induction fuel with
  | zero => intro i; rfl
  | succ fuel ih =>
    intro i
    simp only [firstEmpty, List.getElem?_map]
    cases es[i]? with
    | none => rfl
    | some e => simp only [Option.map_some, ih]; rfl

theorem consolidateLoop_map (size num : Nat) : ∀ fuel (es : List α) i j,
    consolidateLoop Theta.elem size num fuel (es.map E.key) i j =
      (consolidateLoop E size num fuel es i j).map (List.map E.key) := by
  intro fuel
  induction fuel with
  | zero => intro es i j; rfl
  | succ fuel ih =>
    intro es i j
    simp only [consolidateLoop, List.getElem?_map]
    split
    · cases es[j]? with
      | none => rfl
      | some e =>
        have hset : ((es.map E.key).set i (E.key e)).set j Theta.elem.zero =
            ((es.set i e).set j E.zero).map E.key := by
          rw [List.map_set, List.map_set, E.key_zero]; rfl
        simp only [Option.map_some, hset, ih]
        rw [show Theta.elem.key (E.key e) = E.key e from rfl]
        split
        · split <;> rfl
        · rfl
    · rfl

theorem consolidate_map (es : List α) (size num : Nat) :
    consolidateNonEmpty Theta.elem (es.map E.key) size num =
      (consolidateNonEmpty E es size num).map (List.map E.key) := by
  unfold consolidateNonEmpty
  rw [firstEmpty_map, Outcome.map_bind]
  exact Outcome.bind_congr (fun i => consolidateLoop_map E size num _ _ _ _)

theorem ltKey_map (a b : α) : ltKey E a b = ltKey Theta.elem (E.key a) (E.key b) := rfl

theorem rebuild_strip (t : Table α) :
    (strip E t).rebuild Theta.elem = (t.rebuild E).map (strip E) := by
  unfold Table.rebuild
  simp only [strip]
  rw [consolidate_map, Outcome.bind_map, Outcome.map_bind]
  apply Outcome.bind_congr
  intro es
  simp only [List.length_map]
  split
  · rfl
  · rw [← List.map_take, QuickSelect.quickSelect_map (ltKey_map E)]
    cases QuickSelect.quickSelect (ltKey E) (es.take t.numEntries) 0 ((t.numEntries : Int) - 1)
      (2 ^ t.lgNom) with
    | none => rfl
    | some p =>
      simp only [Option.map_some]
      rw [← List.map_drop, ← List.map_append, List.getElem?_map]
      cases (p.1 ++ es.drop t.numEntries)[2 ^ t.lgNom]? with
      | none => rfl
      | some pivot =>
        simp only [Option.map_some]
        rw [← List.map_take, ← replicate_map E, placeEach_map, Outcome.bind_map, Outcome.map_bind]
        rfl

theorem insert_strip (t : Table α) (i : Nat) (e : α) :
    (strip E t).insert Theta.elem i (E.key e) = (t.insert E i e).map (strip E) := by
  have h1 := resize_strip E { t with entries := t.entries.set i e, numEntries := t.numEntries + 1 }
  have h2 := rebuild_strip E { t with entries := t.entries.set i e, numEntries := t.numEntries + 1 }
  have hs : strip E { t with entries := t.entries.set i e, numEntries := t.numEntries + 1 } =
      { strip E t with
        entries := (strip E t).entries.set i (E.key e)
        numEntries := (strip E t).numEntries + 1 } := by
    simp [strip, List.map_set]
  rw [hs] at h1 h2
  unfold Table.insert
  by_cases h0 : i < t.entries.length
  · have h0' : i < (strip E t).entries.length := by simpa [strip] using h0
    rw [if_pos h0, if_pos h0']
    by_cases h3 : t.numEntries + 1 > computeCapacity t.lgCur t.lgNom
    · have h3' : (strip E t).numEntries + 1 > computeCapacity (strip E t).lgCur (strip E t).lgNom := h3
      simp only [if_pos h3, if_pos h3']
      by_cases h4 : t.lgCur ≤ t.lgNom
      · have h4' : (strip E t).lgCur ≤ (strip E t).lgNom := h4
        simp only [if_pos h4, if_pos h4', h1]
      · have h4' : ¬ (strip E t).lgCur ≤ (strip E t).lgNom := h4
        simp only [if_neg h4, if_neg h4', h2]
    · have h3' : ¬ (strip E t).numEntries + 1 > computeCapacity (strip E t).lgCur (strip E t).lgNom := h3
      simp only [if_neg h3, if_neg h3', Outcome.map_ok, hs]
  · have h0' : ¬ i < (strip E t).entries.length := by simpa [strip] using h0
    rw [if_neg h0, if_neg h0']
    rfl

theorem trim_strip (t : Table α) : (strip E t).trim Theta.elem = (t.trim E).map (strip E) := by
  unfold Table.trim
  rw [rebuild_strip]
  by_cases h : t.numEntries > 2 ^ t.lgNom
  · have h' : (strip E t).numEntries > 2 ^ (strip E t).lgNom := h
    rw [if_pos h, if_pos h']
  · have h' : ¬ (strip E t).numEntries > 2 ^ (strip E t).lgNom := h
    rw [if_neg h, if_neg h']; rfl

theorem new_strip (lgCur lgNom rf st th : Nat) (em : Bool) :
    strip E (Table.new E lgCur lgNom rf st th em) = Table.new Theta.elem lgCur lgNom rf st th em := by
  simp only [strip, Table.new]
  split
  · rw [replicate_map]
  · rfl

theorem screen_strip (t : Table α) (k : Nat) : (strip E t).screen k = t.screen k := rfl

end HashTable
end Verif
