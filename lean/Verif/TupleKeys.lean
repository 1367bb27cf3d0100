import Verif.TupleStrip
import Verif.HashTableInv
import Verif.PlainTable

/-!
# The hashes of a tuple sketch evolve exactly as those of a theta sketch
-/

namespace Verif.HashTable

open Probe

variable {α : Type} (E : Elem α)

theorem findLoop_found {emp hit : α → Bool} {next : Nat → Nat} {start : Nat} {tbl : List α} :
    ∀ {fuel idx i}, findLoop emp hit next start tbl fuel idx = .found i →
      ∃ e, tbl[i]? = some e ∧ hit e = true ∧ emp e = false := by
  intro fuel
  induction fuel with
  | zero => intro idx i h; simp [findLoop] at h
  | succ fuel ih =>
    intro idx i h
    simp only [findLoop] at h
    cases hx : tbl[idx]? with
    | none => rw [hx] at h; simp at h
    | some e =>
      rw [hx] at h
      simp only at h
      split at h
      · simp at h
      · rename_i h1
        split at h
        · rename_i h2
          simp only [Res.found.injEq] at h
          subst h
          exact ⟨e, hx, h2, by simpa using h1⟩
        · split at h
          · simp at h
          · exact ih h

theorem find_found_get {t : Table α} {k i : Nat} (h : t.find E k = .found i) :
    ∃ e, t.entries[i]? = some e ∧ E.key e = k ∧ E.key e ≠ 0 := by
  obtain ⟨e, h1, h2, h3⟩ := findLoop_found h
  exact ⟨e, h1, by simpa [scheme] using h2, by simpa [scheme] using h3⟩

theorem set_key_map {es : List α} {i : Nat} {e e' : α} (h : es[i]? = some e)
    (hk : E.key e' = E.key e) : (es.set i e').map E.key = es.map E.key := by
  rw [List.map_set, hk]
  apply List.ext_getElem?
  intro j
  by_cases hj : i = j
  · subst hj
    have hi : i < es.length := by
      by_contra hc
      rw [List.getElem?_eq_none (by omega)] at h; cases h
    rw [List.getElem?_set_self (by simpa using hi), List.getElem?_map, h]; rfl
  · rw [List.getElem?_set_ne hj]

theorem itemsOf_map (es : List α) :
    itemsOf Theta.elem (es.map E.key) = (itemsOf E es).map E.key := by
  unfold itemsOf
  rw [List.filter_map]
  rfl

variable {E}

/-- Overwriting an entry by one with the same key. -/
theorem itemsOf_set {es : List α} {i : Nat} {e e' : α} (h : es[i]? = some e) (hk0 : E.key e ≠ 0)
    (hk : E.key e' = E.key e) :
    ∃ rest, (itemsOf E es).Perm (e :: rest) ∧ (itemsOf E (es.set i e')).Perm (e' :: rest) := by
  have := items_set_occ (s := scheme E 0) h (by simpa [scheme] using hk0)
    (e := e') (by simpa [scheme, hk] using hk0)
  simpa only [items_scheme] using this

theorem TInv.set {t : Table α} (h : TInv E t) {i : Nat} {e e' : α} (hi : t.entries[i]? = some e)
    (hk0 : E.key e ≠ 0) (hk : E.key e' = E.key e) : TInv E { t with entries := t.entries.set i e' } := by
  obtain ⟨rest, p1, p2⟩ := itemsOf_set hi hk0 hk
  refine { chain := Chain.replace h.chain hi ((emp_false_iff _ _).mpr hk0)
             ((emp_false_iff _ _).mpr (by rw [hk]; exact hk0)) hk,
           lgNom := h.lgNom, lgCur := h.lgCur, lgPos := h.lgPos, grow := h.grow,
           num := ?_, cap := h.cap, below := ?_ }
  · simp only
    rw [p2.length_eq, List.length_cons, h.num, p1.length_eq, List.length_cons]
  · intro x hx
    rcases List.mem_cons.mp (p2.mem_iff.mp hx) with rfl | hx
    · rw [hk]; exact h.below e (p1.mem_iff.mpr (by simp))
    · exact h.below x (p1.mem_iff.mpr (by simp [hx]))

theorem Plain.set {t : Table α} (h : Plain E t) {i : Nat} {e e' : α} (hi : t.entries[i]? = some e)
    (hk0 : E.key e ≠ 0) (hk : E.key e' = E.key e) :
    Plain E { t with entries := t.entries.set i e' } := by
  obtain ⟨rest, p1, p2⟩ := itemsOf_set hi hk0 hk
  refine { chain := Chain.replace h.chain hi ((emp_false_iff _ _).mpr hk0)
             ((emp_false_iff _ _).mpr (by rw [hk]; exact hk0)) hk,
           lg := h.lg, mode := h.mode, num := ?_ }
  simp only
  rw [p2.length_eq, List.length_cons, h.num, p1.length_eq, List.length_cons]

theorem TInv.withEmpty {t : Table α} (b : Bool) (h : TInv E t) : TInv E { t with isEmpty := b } :=
  { chain := h.chain, lgNom := h.lgNom, lgCur := h.lgCur, lgPos := h.lgPos, grow := h.grow,
    num := h.num, cap := h.cap, below := h.below }

end Verif.HashTable

namespace Verif.Tuple

open Probe HashTable
open Theta (Status maxTheta lgSizeFromCount pred8)

variable {H S V : Type} (K : Kind H S V)

/-- the table of hashes -/
abbrev keysT (t : Tbl S) : Theta.Tbl := strip (elem K) t

theorem all_keys (t : Tbl S) : (all t).map Prod.fst = Theta.all (keysT K t) :=
  (itemsOf_map (elem K) t.entries).symm

theorem all_items (t : Tbl S) : all t = itemsOf (elem K) t.entries := rfl

theorem newTable_keys (lgK rf st : Nat) :
    (newTable K lgK rf st).map (keysT K) = Theta.newTable lgK rf st := by
  unfold newTable Theta.newTable
  split
  · rfl
  · split
    · rfl
    · simp only [Outcome.map_ok, keysT, new_strip]

theorem set_keys (t : Tbl S) {i : Nat} {e : Entry S} (h : t.entries[i]? = some e) (s : S) :
    keysT K { t with entries := t.entries.set i (e.1, s) } = keysT K t := by
  have := set_key_map (elem K) (e' := (e.1, s)) h rfl
  simp only [keysT, strip]
  rw [this]

theorem update_keys (t : Tbl S) (h : H) (h1 : Nat) (v : V) :
    (update K t h h1 v).map (fun r => (keysT K r.1, r.2.2)) = Theta.update (keysT K t) h1 := by
  unfold update Theta.update
  have hs : ({ keysT K t with isEmpty := false } : Theta.Tbl) = keysT K { t with isEmpty := false } := rfl
  rw [hs]
  generalize hg : ({ t with isEmpty := false } : Tbl S) = t1
  simp only [screen_strip, find_strip]
  cases t1.screen (h1 >>> 1) with
  | exceedsTheta => rfl
  | zeroHash => rfl
  | pass =>
    simp only
    cases hf : t1.find (elem K) (h1 >>> 1) with
    | empty i =>
      simp only
      have hi := insert_strip (elem K) t1 i (h1 >>> 1, (K.update (K.make h).2 (K.make h).1 v).1)
      rw [show (elem K).key (h1 >>> 1, (K.update (K.make h).2 (K.make h).1 v).1) = h1 >>> 1 from rfl] at hi
      rw [hi, Outcome.bind_map, Outcome.map_bind]
      rfl
    | found i =>
      obtain ⟨e, he, -, -⟩ := find_found_get (elem K) hf
      simp only [he, Outcome.map_ok, set_keys K t1 he]
    | full => rfl
    | panic => rfl

theorem clearAll_keys : ∀ (es : List (Entry S)) (h : H),
    (clearAll K es h).1.map Prod.fst = es.map (fun _ => 0) := by
  intro es
  induction es with
  | nil => intro h; rfl
  | cons e es ih =>
    intro h
    simp only [clearAll]
    split
    · simp [ih]
    · rename_i h0
      simp only [List.map_cons, ih]
      have : e.1 = 0 := by simpa using h0
      rw [this]

theorem reset_keys (t : Tbl S) (h : H) :
    keysT K (reset K t h).1 = (keysT K t).reset Theta.elem := by
  have hrep : ∀ n, (List.replicate n (elem K).zero).map (elem K).key =
      List.replicate n Theta.elem.zero := replicate_map (elem K)
  unfold reset Table.reset
  dsimp +instances only [keysT, strip]
  by_cases hl : startingSubMultiple (t.lgNom + 1) 5 t.rf ≠ t.lgCur
  · simp only [if_pos hl, hrep]
  · simp only [if_neg hl]
    have h1 := clearAll_keys K t.entries h
    have h2 : (t.entries.map (elem K).key).map
        (fun e => if Theta.elem.key e ≠ 0 then Theta.elem.clear e else e) =
        t.entries.map (fun _ => 0) := by
      rw [List.map_map]
      apply List.map_congr_left
      intro e _
      simp only [Function.comp_apply]
      split
      · rfl
      · rename_i h0
        have h0' : (elem K).key e = 0 := not_not.mp h0
        exact h0'
    rw [h2, ← h1]; rfl

/-- a tuple sketch read as a theta sketch -/
def View.keys (v : View S) : Theta.View :=
  ⟨v.isEmpty, v.isOrdered, v.theta, v.seedHash, v.numRetained, v.all.map Prod.fst⟩

def Compact.keys (c : Compact S) : Theta.Compact :=
  ⟨c.entries.map Prod.fst, c.theta, c.seedHash, c.isEmpty, c.isOrdered⟩

theorem viewOf_keys (t : Tbl S) (sh : Nat) : (viewOf t sh).keys = Theta.viewOf (keysT K t) sh := by
  simp only [View.keys, viewOf, Theta.viewOf, all_keys K]
  rfl

theorem sortE_keys (l : List (Entry S)) : (sortE l).map Prod.fst = sortN (l.map Prod.fst) := by
  unfold sortE sortN
  exact List.map_mergeSort (fun _ _ _ _ => rfl)

theorem sortE_perm (l : List (Entry S)) : (sortE l).Perm l := List.mergeSort_perm _ _

theorem cloneAll_keys : ∀ (es : List (Entry S)) (h : H),
    (cloneAll K es h).1.map Prod.fst = es.map Prod.fst := by
  intro es
  induction es with
  | nil => intro h; rfl
  | cons e es ih => intro h; simp only [cloneAll, List.map_cons, ih]

theorem cloneAll_length (es : List (Entry S)) (h : H) : (cloneAll K es h).1.length = es.length := by
  have := congrArg List.length (cloneAll_keys K es h)
  simpa using this

theorem newCompact_keys {v : View S} (hv : v.isEmpty = true → v.all = []) (h : H) (o : Bool) :
    (newCompact K v h o).1.keys = Theta.newCompact v.keys o := by
  dsimp +instances only [newCompact, Theta.newCompact, Compact.keys, View.keys]
  congr 1
  cases hem : v.isEmpty with
  | true => rw [hv hem]; simp [cloneAll, sortE]
  | false =>
    simp only [Bool.not_false, if_true]
    split
    · rw [sortE_keys, cloneAll_keys]
    · rw [cloneAll_keys]

theorem compactFromEntries_keys (em o : Bool) (sh th : Nat) (es : List (Entry S)) :
    (compactFromEntries em o sh th es).keys =
      Theta.compactFromEntries em o sh th (es.map Prod.fst) := by
  simp only [compactFromEntries, Theta.compactFromEntries, Compact.keys, List.length_map]

/-! ## union -/

def Union.keys (u : Union S) : Theta.Union := ⟨keysT K u.table, u.theta⟩

theorem newUnion_keys (lgK rf st : Nat) :
    (newUnion K lgK rf st).map (Union.keys K) = Theta.newUnion lgK rf st := by
  unfold newUnion Theta.newUnion
  rw [← newTable_keys K, Outcome.bind_map, Outcome.map_bind]
  rfl

theorem unionLoop_keys (uT : Nat) (ord : Bool) : ∀ (es : List (Entry S)) (t : Tbl S) (h : H),
    (unionLoop K uT ord es t h).map (fun r => keysT K r.1) =
      Theta.unionLoop uT ord (es.map Prod.fst) (keysT K t) := by
  intro es
  induction es with
  | nil => intro t h; rfl
  | cons e es ih =>
    intro t h
    simp only [unionLoop, List.map_cons, Theta.unionLoop, find_strip]
    have hth : (keysT K t).theta = t.theta := rfl
    simp only [hth]
    split
    · cases hf : t.find (elem K) e.1 with
      | empty i =>
        simp only
        have hi := insert_strip (elem K) t i e
        rw [show (elem K).key e = e.1 from rfl] at hi
        rw [hi, Outcome.bind_map, Outcome.map_bind]
        exact Outcome.bind_congr (fun a => ih a h)
      | found i =>
        obtain ⟨x, hx, -, -⟩ := find_found_get (elem K) hf
        simp only [hx]
        rw [ih, set_keys K t hx]
      | full => rfl
      | panic => rfl
    · split
      · rfl
      · exact ih t h

theorem Union.update_keys (u : Union S) (h : H) (sh : Option Nat) (v : View S) :
    (u.update K h sh v).map (fun r => r.1.keys K) = (u.keys K).update sh v.keys := by
  unfold Union.update Theta.Union.update
  have he : v.keys.isEmpty = v.isEmpty := rfl
  rw [he]
  split
  · rfl
  · cases sh with
    | none => rfl
    | some sh =>
      simp only [show v.keys.seedHash = v.seedHash from rfl]
      split
      · rfl
      · have := unionLoop_keys K (min u.theta v.theta) v.isOrdered v.all
          { u.table with isEmpty := false } h
        rw [Outcome.map_bind]
        rw [show ({ (u.keys K).table with isEmpty := false } : Theta.Tbl) =
          keysT K { u.table with isEmpty := false } from rfl]
        rw [show Theta.unionLoop (min (u.keys K).theta v.keys.theta) v.keys.isOrdered v.keys.all
          (keysT K { u.table with isEmpty := false }) = _ from this.symm, Outcome.bind_map]
        rfl

theorem Union.reset_keys (u : Union S) (h : H) :
    (u.reset K h).1.keys K = (u.keys K).reset := by
  simp only [Union.reset, Theta.Union.reset, Union.keys, Tuple.reset_keys]
  congr 1

theorem filter_keys (es : List (Entry S)) (p : Nat → Bool) :
    (es.filter (fun e => p e.1)).map Prod.fst = (es.map Prod.fst).filter p := by
  rw [List.filter_map]; rfl

theorem Union.result_keys (u : Union S) (sh : Option Nat) (o : Bool) :
    (u.result K sh o).map Compact.keys = (u.keys K).result sh o := by
  unfold Union.result Theta.Union.result
  cases sh with
  | none => rfl
  | some sh =>
    dsimp +instances only [Union.keys, keysT, strip]
    split
    · rw [Outcome.map_ok, compactFromEntries_keys]; rfl
    · rw [Outcome.map_bind]
      have hent : ∀ (q : Prop) [Decidable q] (th : Nat),
          (if q then (u.table.entries.map (elem K).key).filter (fun e => e != 0)
            else (u.table.entries.map (elem K).key).filter (fun e => e != 0 && decide (e < th))) =
          (if q then u.table.entries.filter (fun e => e.1 != 0)
            else u.table.entries.filter (fun e => e.1 != 0 && decide (e.1 < th))).map (elem K).key := by
        intro q _ th
        split
        · exact (filter_keys u.table.entries (fun e => e != 0)).symm
        · exact (filter_keys u.table.entries (fun e => e != 0 && decide (e < th))).symm
      rw [hent]
      generalize (if u.theta ≥ u.table.theta then u.table.entries.filter (fun e => e.1 != 0)
            else u.table.entries.filter (fun e => e.1 != 0 && decide (e.1 < min u.theta u.table.theta))) = es
      simp only [List.length_map]
      by_cases hlen : es.length > 2 ^ u.table.lgNom
      · rw [if_pos hlen, if_pos hlen, QuickSelect.quickSelect_map (ltKey_map (elem K))]
        cases QuickSelect.quickSelect (ltKey (elem K)) es 0 ((es.length : Int) - 1) (2 ^ u.table.lgNom) with
        | none => rfl
        | some p =>
          simp only [Option.map_some, List.getElem?_map]
          cases p.1[2 ^ u.table.lgNom]? with
          | none => rfl
          | some e =>
            simp only [Option.map_some, Outcome.ok_bind, Outcome.pure_eq, Outcome.map_ok,
              compactFromEntries_keys, ← List.map_take]
            split
            · rw [sortE_keys]; rfl
            · rfl
      · rw [if_neg hlen, if_neg hlen]
        simp only [Outcome.ok_bind, Outcome.pure_eq, Outcome.map_ok, compactFromEntries_keys]
        split
        · rw [sortE_keys]; rfl
        · rfl

/-! ## intersection -/

def Inter.keys (s : Inter S) : Theta.Inter := ⟨keysT K s.table, s.isValid⟩

theorem newInter_keys : (newInter K).keys K = Theta.newInter := by
  simp only [newInter, Theta.newInter, Inter.keys, keysT, new_strip]

theorem interCopy_keys : ∀ (es : List (Entry S)) (t : Tbl S),
    (interCopy K es t).map (keysT K) = Theta.interCopy (es.map Prod.fst) (keysT K t) := by
  intro es
  induction es with
  | nil => intro t; rfl
  | cons e es ih =>
    intro t
    simp only [interCopy, List.map_cons, Theta.interCopy, find_strip]
    have hi := fun i => insert_strip (elem K) t i e
    simp only [show (elem K).key e = e.1 from rfl] at hi
    cases t.find (elem K) e.1 with
    | empty i =>
      simp only [hi, Outcome.bind_map, Outcome.map_bind]
      exact Outcome.bind_congr (fun a => ih a)
    | found i => rfl
    | full =>
      simp only [hi, Outcome.bind_map, Outcome.map_bind]
      exact Outcome.bind_congr (fun a => ih a)
    | panic => rfl

theorem interFill_keys : ∀ (es : List (Entry S)) (t : Tbl S),
    (interFill K es t).map (keysT K) = Theta.interFill (es.map Prod.fst) (keysT K t) := by
  intro es
  induction es with
  | nil => intro t; rfl
  | cons e es ih =>
    intro t
    simp only [interFill, List.map_cons, Theta.interFill, find_strip]
    have hi := fun i => insert_strip (elem K) t i e
    simp only [show (elem K).key e = e.1 from rfl] at hi
    cases t.find (elem K) e.1 with
    | empty i =>
      simp only [hi, Outcome.bind_map, Outcome.map_bind]
      exact Outcome.bind_congr (fun a => ih a)
    | found i =>
      simp only [hi, Outcome.bind_map, Outcome.map_bind]
      exact Outcome.bind_congr (fun a => ih a)
    | full => rfl
    | panic => rfl

theorem interMatch_keys (ord : Bool) (mm : Nat) : ∀ (es : List (Entry S)) (t : Tbl S) (h : H)
    (ms : List (Entry S)) (c : Nat),
    (interMatch K ord mm es t h ms c).map (fun r => (r.1.map Prod.fst, r.2.1)) =
      Theta.interMatch (keysT K t) ord mm (es.map Prod.fst) (ms.map Prod.fst) c := by
  intro es
  induction es with
  | nil => intro t h ms c; rfl
  | cons e es ih =>
    intro t h ms c
    simp only [interMatch, List.map_cons, Theta.interMatch, find_strip]
    have hth : (keysT K t).theta = t.theta := rfl
    simp only [hth, List.length_map]
    split
    · cases hf : t.find (elem K) e.1 with
      | empty i => exact ih t h ms (c + 1)
      | full => exact ih t h ms (c + 1)
      | panic => rfl
      | found i =>
        obtain ⟨x, hx, -, -⟩ := find_found_get (elem K) hf
        have hx' : (keysT K t).entries[i]? = some x.1 := by
          simp only [keysT, strip, List.getElem?_map, hx]; rfl
        simp only [hx, hx']
        split
        · rfl
        · rw [ih, set_keys K t hx]
          simp
    · split
      · rfl
      · exact ih t h ms (c + 1)

/-- `Theta.Inter.update` after the checks; `t` is the table with the new theta and flag -/
def thetaTail (t : Theta.Tbl) (valid : Bool) (v : Theta.View) (em : Bool) (th : Nat) :
    Outcome Theta.Inter :=
  if valid && t.numEntries == 0 then .ok ⟨t, valid⟩
  else if v.numRetained = 0 then
    .ok ⟨Table.new Theta.elem 0 0 0 maxTheta th em, true⟩
  else if !valid then do
    let t ← Theta.interCopy v.all (Table.new Theta.elem (lgSizeFromCount v.numRetained)
      (pred8 (lgSizeFromCount v.numRetained)) 0 maxTheta th em)
    if t.numEntries ≠ v.numRetained then
      .err "num entries mismatch, possibly corrupted input sketch"
    else pure ⟨t, true⟩
  else do
    let (ms, count) ← Theta.interMatch t v.isOrdered (min t.numEntries v.numRetained) v.all [] 0
    if count > v.numRetained then .err "more keys than expected, possibly corrupted input sketch"
    else if !v.isOrdered && decide (count < v.numRetained) then
      .err "fewer keys than expected, possibly corrupted input sketch"
    else if ms.length = 0 then
      pure ⟨if th = maxTheta then Table.new Theta.elem 0 0 0 maxTheta th true
        else Table.new Theta.elem 0 0 0 maxTheta th em, valid⟩
    else do
      let t ← Theta.interFill ms (Table.new Theta.elem (lgSizeFromCount ms.length)
        (pred8 (lgSizeFromCount ms.length)) 0 maxTheta th em)
      pure ⟨t, valid⟩

/-- `Inter.update` after the checks -/
def tupleTail (t : Tbl S) (h : H) (valid : Bool) (v : View S) (em : Bool) (th : Nat) :
    Outcome (Inter S × H) :=
  if valid && t.numEntries == 0 then .ok (⟨t, valid⟩, h)
  else if v.numRetained = 0 then
    .ok (⟨Table.new (elem K) 0 0 0 maxTheta th em, true⟩, h)
  else if !valid then do
    let t ← interCopy K v.all (Table.new (elem K) (lgSizeFromCount v.numRetained)
      (pred8 (lgSizeFromCount v.numRetained)) 0 maxTheta th em)
    if t.numEntries ≠ v.numRetained then
      .err "num entries mismatch, possibly corrupted input sketch"
    else pure (⟨t, true⟩, h)
  else do
    let (ms, count, h) ← interMatch K v.isOrdered (min t.numEntries v.numRetained) v.all t h [] 0
    if count > v.numRetained then .err "more keys than expected, possibly corrupted input sketch"
    else if !v.isOrdered && decide (count < v.numRetained) then
      .err "fewer keys than expected, possibly corrupted input sketch"
    else if ms.length = 0 then
      pure (⟨if th = maxTheta then Table.new (elem K) 0 0 0 maxTheta th true
        else Table.new (elem K) 0 0 0 maxTheta th em, valid⟩, h)
    else do
      let t ← interFill K ms (Table.new (elem K) (lgSizeFromCount ms.length)
        (pred8 (lgSizeFromCount ms.length)) 0 maxTheta th em)
      pure (⟨t, valid⟩, h)

theorem thetaTail_eq (s : Theta.Inter) (sh : Nat) (v : Theta.View) (c1 : ¬ s.table.isEmpty = true)
    (c2 : ¬ (!v.isEmpty && v.seedHash != sh) = true) :
    s.update (some sh) v = thetaTail
      { s.table with
        isEmpty := v.isEmpty
        theta := if v.isEmpty then maxTheta else min s.table.theta v.theta } s.isValid v v.isEmpty
      (if v.isEmpty then maxTheta else min s.table.theta v.theta) := by
  have c1' : s.table.isEmpty = false := by simpa using c1
  have hor : (s.table.isEmpty || v.isEmpty) = v.isEmpty := by rw [c1', Bool.false_or]
  conv_rhs => rw [← hor]
  unfold Theta.Inter.update
  rw [if_neg c1]
  simp only
  rw [if_neg c2]
  rfl

theorem tupleTail_eq (s : Inter S) (h : H) (sh : Nat) (v : View S) (c1 : ¬ s.table.isEmpty = true)
    (c2 : ¬ (!v.isEmpty && v.seedHash != sh) = true) :
    s.update K h (some sh) v = tupleTail K
      { s.table with
        isEmpty := v.isEmpty
        theta := if v.isEmpty then maxTheta else min s.table.theta v.theta } h s.isValid v v.isEmpty
      (if v.isEmpty then maxTheta else min s.table.theta v.theta) := by
  have c1' : s.table.isEmpty = false := by simpa using c1
  have hor : (s.table.isEmpty || v.isEmpty) = v.isEmpty := by rw [c1', Bool.false_or]
  conv_rhs => rw [← hor]
  unfold Inter.update
  rw [if_neg c1]
  simp only
  rw [if_neg c2]
  rfl

theorem tail_keys (t : Tbl S) (h : H) (valid : Bool) (v : View S) (em : Bool) (th : Nat) :
    (tupleTail K t h valid v em th).map (fun r => r.1.keys K) =
      thetaTail (keysT K t) valid v.keys em th := by
  unfold tupleTail thetaTail
  dsimp +instances only [View.keys, keysT, strip]
  split
  · rfl
  · split
    · simp only [Outcome.map_ok, Inter.keys, keysT, new_strip]
    · split
      · rw [Outcome.map_bind, ← new_strip (elem K), ← interCopy_keys, Outcome.bind_map]
        apply Outcome.bind_congr
        intro t
        rw [show (keysT K t).numEntries = t.numEntries from rfl]
        split <;> rfl
      · rw [Outcome.map_bind]
        have hm := interMatch_keys K v.isOrdered (min t.numEntries v.numRetained) v.all t h [] 0
        simp only [List.map_nil, keysT, strip] at hm
        rw [← hm, Outcome.bind_map]
        apply Outcome.bind_congr
        intro r
        obtain ⟨ms, c, h'⟩ := r
        simp only [List.length_map]
        split
        · rfl
        · split
          · rfl
          · split
            · simp only [Outcome.pure_eq, Outcome.map_ok, Inter.keys]
              congr 2
              split
              · exact new_strip (elem K) _ _ _ _ _ _
              · exact new_strip (elem K) _ _ _ _ _ _
            · rw [Outcome.map_bind, ← new_strip (elem K), ← interFill_keys, Outcome.bind_map]
              rfl

theorem Inter.update_keys (s : Inter S) (h : H) (sh : Option Nat) (v : View S) :
    (s.update K h sh v).map (fun r => r.1.keys K) = (s.keys K).update sh v.keys := by
  by_cases c1 : s.table.isEmpty = true
  · unfold Inter.update Theta.Inter.update
    rw [if_pos c1, if_pos (show (s.keys K).table.isEmpty = true from c1)]; rfl
  · cases sh with
    | none =>
      unfold Inter.update Theta.Inter.update
      rw [if_neg c1, if_neg (show ¬ (s.keys K).table.isEmpty = true from c1)]; rfl
    | some sh =>
      by_cases c2 : (!v.isEmpty && v.seedHash != sh) = true
      · unfold Inter.update Theta.Inter.update
        rw [if_neg c1, if_neg (show ¬ (s.keys K).table.isEmpty = true from c1)]
        simp only
        rw [if_pos c2, if_pos (show (!v.keys.isEmpty && v.keys.seedHash != sh) = true from c2)]; rfl
      · rw [tupleTail_eq K s h sh v c1 c2, thetaTail_eq (s.keys K) sh v.keys c1 c2, tail_keys]
        rfl

theorem Inter.result_keys (s : Inter S) (h : H) (sh : Option Nat) (o : Bool) :
    (s.result K h sh o).map (fun r => r.1.keys) = (s.keys K).result sh o := by
  unfold Inter.result Theta.Inter.result
  rw [show (s.keys K).isValid = s.isValid from rfl]
  split
  · rfl
  · cases sh with
    | none => rfl
    | some sh =>
      dsimp +instances only [Inter.keys, keysT, strip]
      simp only [Outcome.map_ok, compactFromEntries_keys]
      congr 2
      by_cases hn : s.table.numEntries > 0
      · simp only [if_pos hn]
        have hf := filter_keys s.table.entries (fun e => e != 0)
        by_cases ho : o = true
        · simp only [if_pos ho, sortE_keys, cloneAll_keys]
          rw [hf]; rfl
        · simp only [if_neg ho, cloneAll_keys]
          rw [hf]; rfl
      · simp only [if_neg hn]; rfl

/-! ## A-not-B -/

theorem computeSortBased_keys (a : View S) (b : Theta.View) (th : Nat) :
    (computeSortBased a b th).map Prod.fst = Theta.computeSortBased a.keys b th :=
  filter_keys a.all (fun e => !b.all.contains e && decide (e < th))

theorem scanA_keys (t : Theta.Tbl) (th : Nat) (ord : Bool) : ∀ (es acc : List (Entry S)),
    (scanA t th ord es acc).map (List.map Prod.fst) =
      Theta.scanA t th ord (es.map Prod.fst) (acc.map Prod.fst) := by
  intro es
  induction es with
  | nil => intro acc; rfl
  | cons e es ih =>
    intro acc
    simp only [scanA, List.map_cons, Theta.scanA]
    split
    · cases t.find Theta.elem e.1 with
      | empty i => simp only [ih]; simp
      | found i => exact ih acc
      | full => exact ih acc
      | panic => rfl
    · split
      · rfl
      · exact ih acc

theorem aNotBEntries_keys (a : View S) (b : Theta.View) (th : Nat) :
    (aNotBEntries a b th).map (List.map Prod.fst) = Theta.aNotBEntries a.keys b th := by
  unfold aNotBEntries Theta.aNotBEntries
  split
  · exact congrArg Outcome.ok (filter_keys a.all (fun e => decide (e < th)))
  · rw [show a.keys.isOrdered = a.isOrdered from rfl]
    split
    · exact congrArg Outcome.ok (computeSortBased_keys a b th)
    · unfold computeHashBased Theta.computeHashBased
      rw [Outcome.map_bind]
      exact Outcome.bind_congr (fun t => scanA_keys t th a.isOrdered a.all [])

theorem aNotB_keys {a : View S} (ha : a.isEmpty = true → a.all = []) (b : Theta.View) (h : H)
    (sh : Option Nat) (o : Bool) :
    (aNotB K a b h sh o).map (fun r => r.1.keys) = Theta.aNotB a.keys b sh o := by
  unfold aNotB Theta.aNotB
  have e1 : a.keys.isEmpty = a.isEmpty := rfl
  have e2 : a.keys.numRetained = a.numRetained := rfl
  have e3 : a.keys.seedHash = a.seedHash := rfl
  have e4 : a.keys.theta = a.theta := rfl
  have e5 : a.keys.isOrdered = a.isOrdered := rfl
  simp only [e1, e2, e3, e4, e5, ← newCompact_keys K ha h o]
  cases sh with
  | none => rfl
  | some sh =>
    simp only
    split
    · rfl
    · split
      · rfl
      · split
        · rfl
        · split
          · rfl
          · rw [Outcome.map_bind, ← aNotBEntries_keys, Outcome.bind_map]
            apply Outcome.bind_congr
            intro es
            simp only [Outcome.pure_eq, Outcome.map_ok, compactFromEntries_keys, List.length_map,
              cloneAll_length]
            congr 2
            split
            · rw [sortE_keys, cloneAll_keys]
            · rw [cloneAll_keys]

end Verif.Tuple
