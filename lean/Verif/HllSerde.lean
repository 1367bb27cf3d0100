import Verif.HllSerdeModel
import Verif.HllProps

/-!
# HLL serialization: helper lemmas
-/

namespace Verif.Hll

open Probe

variable {H : Type}

/-! ## The preamble -/

theorem preamble_append (p k l f b m : Nat) (r : List Nat) :
    preamble p k l f b m ++ r = toLE 1 (p &&& 63) ++ (toLE 1 1 ++ (toLE 1 7 ++ (toLE 1 k ++ (toLE 1 l ++
    (toLE 1 f ++ (toLE 1 b ++ (toLE 1 m ++ r))))))) := by
  unfold preamble; simp only [List.append_assoc]

@[simp] theorem preamble_length (p k l f b m : Nat) : (preamble p k l f b m).length = 8 := by
  unfold preamble; simp

theorem preamble_lt (p k l f b m : Nat) : ∀ x ∈ preamble p k l f b m, x < 256 := by
  intro x hx
  unfold preamble at hx
  simp only [List.mem_append] at hx
  rcases hx with h | h | h | h | h | h | h | h <;> exact toLE_lt _ _ _ h

section
variable {p k l f b m : Nat} {r : List Nat}

theorem byte_pre (h : p < 64) : byteAt (preamble p k l f b m ++ r) 0 = .ok p := by
  have e : p &&& 63 = p := by
    rw [show 63 = 2 ^ 6 - 1 from rfl, Nat.and_two_pow_sub_one_eq_mod]; exact Nat.mod_eq_of_lt h
  unfold byteAt; rw [preamble_append, e]; readLE
theorem byte_ver : byteAt (preamble p k l f b m ++ r) 1 = .ok 1 := by
  unfold byteAt; rw [preamble_append]; readLE
theorem byte_fam : byteAt (preamble p k l f b m ++ r) 2 = .ok 7 := by
  unfold byteAt; rw [preamble_append]; readLE
theorem byte_lgK (h : k < 256) : byteAt (preamble p k l f b m ++ r) 3 = .ok k := by
  unfold byteAt; rw [preamble_append]; readLE
theorem byte_lgArr (h : l < 256) : byteAt (preamble p k l f b m ++ r) 4 = .ok l := by
  unfold byteAt; rw [preamble_append]; readLE
theorem byte_flags (h : f < 256) : byteAt (preamble p k l f b m ++ r) 5 = .ok f := by
  unfold byteAt; rw [preamble_append]; readLE
theorem byte_six (h : b < 256) : byteAt (preamble p k l f b m ++ r) 6 = .ok b := by
  unfold byteAt; rw [preamble_append]; readLE
theorem byte_mode (h : m < 256) : byteAt (preamble p k l f b m ++ r) 7 = .ok m := by
  unfold byteAt; rw [preamble_append]; readLE

/-- a field behind the preamble -/
theorem getLE_body {o n : Nat} (h : 8 ≤ o) :
    getLE (preamble p k l f b m ++ r) o n = getLE r (o - 8) n := by
  rw [preamble_append]
  repeat rw [getLE_skip (by omega)]
  congr 1
end

theorem flagsOf_lt (e c o r : Bool) : flagsOf e c o r < 256 := by
  revert e c o r; decide

theorem flagsOf_compact (e c o r : Bool) : decide (flagsOf e c o r &&& 8 > 0) = c := by
  revert e c o r; decide

theorem flagsOf_ooo (e c o r : Bool) : decide (flagsOf e c o r &&& 16 > 0) = o := by
  revert e c o r; decide

theorem flagsOf_rebuild (e c o r : Bool) : decide (flagsOf e c o r &&& 32 > 0) = r := by
  revert e c o r; decide

theorem modeOf_lt {cur : Nat} (h : cur < 4) (t : Typ) : modeOf cur t < 256 := by
  have : ∀ c : Fin 4, ∀ t : Typ, modeOf c.val t < 256 := by
    intro c t; revert c; cases t <;> decide
  exact this ⟨cur, h⟩ t

theorem modeOf_cur {cur : Nat} (h : cur < 4) (t : Typ) : modeOf cur t &&& 3 = cur := by
  have : ∀ c : Fin 4, ∀ t : Typ, modeOf c.val t &&& 3 = c.val := by
    intro c t; revert c; cases t <;> decide
  exact this ⟨cur, h⟩ t

theorem modeOf_typ {cur : Nat} (h : cur < 4) (t : Typ) : (modeOf cur t &&& 12) >>> 2 = t.id := by
  have : ∀ c : Fin 4, ∀ t : Typ, (modeOf c.val t &&& 12) >>> 2 = t.id := by
    intro c t; revert c; cases t <;> decide
  exact this ⟨cur, h⟩ t

/-- the preamble of an image is accepted -/
theorem checkPreamble_ok {p k l f b : Nat} {t : Typ} {cur : Nat} {r : List Nat}
    (h : (cur = 0 ∧ p = 2) ∨ (cur = 1 ∧ p = 3) ∨ (cur = 2 ∧ p = 10)) (hl : 4 * p ≤ 8 + r.length) :
    checkPreamble (preamble p k l f b (modeOf cur t) ++ r) = .ok cur := by
  have hc : cur < 4 := by omega
  unfold checkPreamble
  rw [if_neg (by simp), byte_pre (by omega), Outcome.ok_bind]
  have e : p &&& 63 = p := by
    rw [show 63 = 2 ^ 6 - 1 from rfl, Nat.and_two_pow_sub_one_eq_mod]
    exact Nat.mod_eq_of_lt (by omega)
  dsimp only
  rw [e, if_neg (by simp only [List.length_append, preamble_length]; omega),
    byte_ver, Outcome.ok_bind, byte_fam, Outcome.ok_bind, byte_mode (modeOf_lt hc t), Outcome.ok_bind,
    modeOf_cur hc]
  rw [if_neg (by omega), if_neg (by omega), if_neg (by omega), if_neg (by omega), if_neg (by omega),
    if_neg (by omega)]

theorem couponTyp_ok {p k l f b : Nat} {t : Typ} {cur : Nat} {r : List Nat} (hc : cur < 4) :
    couponTyp (preamble p k l f b (modeOf cur t) ++ r) = .ok t := by
  unfold couponTyp
  rw [byte_mode (modeOf_lt hc t), Outcome.ok_bind, modeOf_typ hc]
  cases t <;> rfl

/-! ## Sequences of integers -/

@[simp] theorem ints_nil : ints [] = [] := rfl

theorem ints_cons (x : Nat) (l : List Nat) : ints (x :: l) = toLE 4 x ++ ints l := rfl

theorem ints_length (l : List Nat) : (ints l).length = 4 * l.length := by
  induction l with
  | nil => rfl
  | cons x l ih => rw [ints_cons]; simp only [List.length_append, toLE_length, ih, List.length_cons]; omega

theorem ints_lt (l : List Nat) : ∀ x ∈ ints l, x < 256 := by
  intro x hx
  unfold ints at hx
  obtain ⟨y, _, hy⟩ := List.mem_flatMap.mp hx
  exact toLE_lt _ _ _ hy

theorem ints_append (a b : List Nat) : ints (a ++ b) = ints a ++ ints b := by
  unfold ints; rw [List.flatMap_append]

theorem intsIn_exact {n : Nat} {l : List Nat} (h : l.length = n) : intsIn n l = .ok (ints l) := by
  unfold intsIn
  rw [if_pos (by omega), h, Nat.sub_self]
  simp

theorem readInts_ok {l : List Nat} (hl : ∀ x ∈ l, x < 2 ^ 32) {pre post : List Nat} {o : Nat}
    (ho : o = pre.length) : readInts (pre ++ (ints l ++ post)) l.length o = .ok l := by
  induction l generalizing pre o with
  | nil => rfl
  | cons x l ih =>
    simp only [List.length_cons]
    unfold readInts
    rw [ints_cons, List.append_assoc, getLE_at ho (by
      have := hl x (by simp); exact lt_of_lt_of_le this (by decide)), Outcome.ok_bind]
    rw [← List.append_assoc, ih (fun y hy => hl y (by simp [hy]))
      (by simp only [List.length_append, toLE_length]; omega)]
    rfl

theorem getLE_ints {l : List Nat} (hl : ∀ x ∈ l, x < 2 ^ 32) {pre post : List Nat} {o i : Nat}
    (ho : o = pre.length) (hi : i < l.length) :
    getLE (pre ++ (ints l ++ post)) (o + 4 * i) 4 = .ok l[i] := by
  have e : l = l.take i ++ l[i] :: l.drop (i + 1) := by
    rw [← List.drop_eq_getElem_cons hi, List.take_append_drop]
  conv_lhs => rw [e]
  rw [ints_append, ints_cons]
  simp only [List.append_assoc]
  rw [← List.append_assoc]
  refine getLE_at ?_ (lt_of_lt_of_le (hl _ (List.getElem_mem _)) (by decide))
  simp only [List.length_append, ints_length, List.length_take]
  omega

theorem foldlM_congr' {σ α : Type} {f g : σ → α → Outcome σ} {l : List α} {s : σ}
    (h : ∀ x ∈ l, ∀ s, f s x = g s x) : l.foldlM f s = l.foldlM g s := by
  induction l generalizing s with
  | nil => rfl
  | cons x l ih =>
    rw [List.foldlM_cons, List.foldlM_cons, h x (by simp)]
    congr 1
    funext s'
    exact ih (fun y hy => h y (by simp [hy]))

theorem range_map_getD (l : List Nat) : (List.range l.length).map (fun i => l.getD i 0) = l := by
  apply List.ext_getElem
  · simp
  · intro i h1 h2
    simp only [List.getElem_map, List.getElem_range]
    rw [List.getD_eq_getElem?_getD, List.getElem?_eq_getElem h2]; rfl

/-- a loop that reads one integer per round is a loop over the integers -/
theorem foldlM_ints {σ : Type} {f : σ → Nat → Outcome σ} {g : σ → Nat → Outcome σ} {l : List Nat}
    {pre post : List Nat} {o : Nat} (hl : ∀ x ∈ l, x < 2 ^ 32) (ho : o = pre.length)
    (hf : ∀ s i, f s i = getLE (pre ++ (ints l ++ post)) (o + 4 * i) 4 >>= g s) (s : σ) :
    (List.range l.length).foldlM f s = l.foldlM g s := by
  have h1 : (List.range l.length).foldlM f s =
      (List.range l.length).foldlM (fun s i => g s (l.getD i 0)) s := by
    apply foldlM_congr'
    intro i hi s
    rw [List.mem_range] at hi
    rw [hf, getLE_ints hl ho hi, Outcome.ok_bind, List.getD_eq_getElem?_getD,
      List.getElem?_eq_getElem hi]
    rfl
  rw [h1]
  conv_rhs => rw [← range_map_getD l, List.foldlM_map]

theorem valid_lt {l : List Nat} (h : ∀ x ∈ l, ValidCoupon x) : ∀ x ∈ l, x < 2 ^ 32 :=
  fun x hx => (h x hx).2

/-! ## LIST -/

theorem list_slice {c : Coup} {D : List Nat} (h : ListInv c D) (compact : Bool) :
    ∃ r, coupSlice true c compact = .ok (preamble 2 c.lgK c.lg (flagsOf (c.count == 0) compact false false)
        c.count (modeOf 0 c.typ) ++ (ints D ++ r)) ∧ (∀ x ∈ r, x < 256) ∧
      (compact = true → r = []) ∧ (compact = false → r.length = 4 * (8 - D.length)) := by
  unfold coupSlice coupData
  cases compact with
  | true =>
    rw [if_pos rfl, h.arr, filter_list_arr _ _ h.valid, intsIn_exact h.cnt.symm]
    exact ⟨[], by simp, by simp, fun _ => rfl, by simp⟩
  | false =>
    rw [if_neg (by simp), intsIn_exact (by rw [h.length, h.lg3]; rfl)]
    refine ⟨ints (List.replicate (8 - D.length) 0), ?_, ints_lt _, by simp, ?_⟩
    · rw [h.arr, ints_append]; rfl
    · intro _; rw [ints_length]; simp

theorem listOf_ok {c : Coup} {D r : List Nat} (h : ListInv c D) (f : Nat) :
    (listOf (preamble 2 c.lgK c.lg f c.count (modeOf 0 c.typ) ++ (ints D ++ r)) : Outcome (Sk H)) =
      .ok (.list c) := by
  have h21 := h.h21
  have h8 := h.lt8
  unfold listOf
  rw [byte_lgK (by omega), Outcome.ok_bind, couponTyp_ok (by omega), Outcome.ok_bind,
    byte_six (by rw [h.cnt]; omega), Outcome.ok_bind, h.cnt,
    readInts_ok (valid_lt h.valid) (by simp), Outcome.ok_bind, if_pos (by omega)]
  congr 2
  rw [← h.arr, ← h.cnt, ← h.lg3]

/-! ## SET -/

theorem set_items {c : Coup} {D : List Nat} (h : SetInv c D) :
    (c.arr.filter (fun e => decide (e ≠ 0))).Perm D := by
  rw [← items_coup c.lg]; exact h.items

theorem SetInv.arr_length {c : Coup} {D : List Nat} (h : SetInv c D) : c.arr.length = 2 ^ c.lg :=
  h.chain.len

theorem set_arr_lt {c : Coup} {D : List Nat} (h : SetInv c D) : ∀ x ∈ c.arr, x < 2 ^ 32 := by
  intro x hx
  by_cases h0 : x = 0
  · subst h0; decide
  · exact (h.valid x ((set_items h).mem_iff.mp (List.mem_filter.mpr ⟨hx, by simpa using h0⟩))).2

theorem set_count_lt {c : Coup} {D : List Nat} (h : SetInv c D) : c.count < 2 ^ 32 := by
  have h1 := h.load
  have h2 : 2 ^ c.lg ≤ 2 ^ 21 :=
    Nat.pow_le_pow_right (by omega) (by have := h.lgle; have := h.h21; omega)
  omega

/-- the integers written for a set -/
def setInts (c : Coup) (compact : Bool) : List Nat :=
  if compact then c.arr.filter (fun e => decide (e ≠ 0)) else c.arr

theorem set_slice {c : Coup} {D : List Nat} (h : SetInv c D) (compact : Bool) :
    coupSlice false c compact = .ok (preamble 3 c.lgK c.lg (flagsOf (c.count == 0) compact false false)
        0 (modeOf 1 c.typ) ++ (toLE 4 c.count ++ ints (setInts c compact))) := by
  unfold coupSlice coupData setInts
  cases compact with
  | true =>
    rw [if_pos rfl, intsIn_exact (by rw [(set_items h).length_eq, h.cnt])]
    rfl
  | false =>
    rw [if_neg (by simp), intsIn_exact h.arr_length]
    rfl

/-- the coupons are re-inserted one by one -/
theorem setKeep_all {F : Fl H} {c0 : Coup} (h0 : SetInv c0 []) {l : List Nat} (hnd : l.Nodup)
    (hv : ∀ x ∈ l, ValidCoupon x) (hroom : 4 * l.length ≤ 3 * 2 ^ (c0.lgK - 3)) :
    ∃ c, l.foldlM (setKeep F) c0 = .ok c ∧ SetInv c l ∧ c.lgK = c0.lgK ∧ c.typ = c0.typ := by
  refine list_fold (f := setKeep F) (l := l)
    (fun pre s => SetInv s pre ∧ s.lgK = c0.lgK ∧ s.typ = c0.typ) ⟨h0, rfl, rfl⟩ ?_
  rintro pre x post s hD ⟨p1, p2, p3⟩
  have hx : x ∉ pre := by
    intro hx
    rw [hD] at hnd
    exact (List.nodup_append.mp hnd).2.2 x hx x (by simp) rfl
  have hlen : l.length = pre.length + (post.length + 1) := by rw [hD]; simp
  rcases setUpdate_new (F := F) p1 hx (hv x (by rw [hD]; simp)) with
    ⟨_, c', q1, q2, q3, q4, _⟩ | ⟨hno, _⟩
  · refine ⟨c', ?_, q2.perm (List.perm_append_singleton _ _).symm, by rw [q3, p2], by rw [q4, p3]⟩
    unfold setKeep
    rw [q1]; rfl
  · rw [p2] at hno; omega

theorem setOf_ok {F : Fl H} {c : Coup} {D : List Nat} (h : SetInv c D) (h8 : 8 ≤ D.length)
    (compact : Bool) :
    ∃ c', setOf F 1 (preamble 3 c.lgK c.lg (flagsOf (c.count == 0) compact false false)
        0 (modeOf 1 c.typ) ++ (toLE 4 c.count ++ ints (setInts c compact))) = .ok (.set c') ∧
      SetInv c' D ∧ c'.lgK = c.lgK ∧ c'.typ = c.typ ∧ (compact = false → c' = c) := by
  have h21 := h.h21
  have hle := h.lgle
  have h5 := h.lg5
  have hcl := set_count_lt h
  have hit := set_items h
  obtain ⟨s0, e0, i0, hk0, ht0, _⟩ := newSet_inv (typ := c.typ) (by omega : 8 ≤ c.lgK) h21
  unfold setOf
  rw [byte_lgK (by omega), Outcome.ok_bind, couponTyp_ok (by omega), Outcome.ok_bind, e0,
    Outcome.ok_bind, byte_flags (flagsOf_lt _ _ _ _), Outcome.ok_bind, getLE_body (by omega),
    getLE_first (lt_of_lt_of_le hcl (by decide)), Outcome.ok_bind, byte_lgArr (by omega),
    Outcome.ok_bind]
  have hlg : setLg 1 c.lg c.count c.lgK = .ok c.lg := if_neg (by omega)
  rw [hlg, Outcome.ok_bind]
  have hfl := flagsOf_compact (c.count == 0) compact false false
  cases compact with
  | true =>
    rw [if_pos (by simpa using hfl)]
    unfold setInts
    rw [if_pos rfl, ← List.append_assoc]
    obtain ⟨c', q1, q2, q3, q4⟩ := setKeep_all (F := F) i0 (l := c.arr.filter (fun e => decide (e ≠ 0)))
      (hit.nodup_iff.mpr h.nodup) (fun x hx => h.valid x (hit.mem_iff.mp hx)) (by
        rw [hit.length_eq, hk0, ← h.cnt]
        have := Nat.pow_le_pow_right (n := 2) (by omega) (by omega : c.lg ≤ c.lgK - 3)
        have := h.load
        omega)
    have hcnt : c.count = (c.arr.filter (fun e => decide (e ≠ 0))).length := by
      rw [hit.length_eq, h.cnt]
    have := foldlM_ints (f := setReadStep F (preamble 3 c.lgK c.lg
      (flagsOf (c.count == 0) true false false) 0 (modeOf 1 c.typ) ++ toLE 4 c.count ++
        ints (c.arr.filter (fun e => decide (e ≠ 0)))) (memArrStart 1)) (g := setKeep F)
      (l := c.arr.filter (fun e => decide (e ≠ 0)))
      (pre := preamble 3 c.lgK c.lg (flagsOf (c.count == 0) true false false) 0 (modeOf 1 c.typ) ++
        toLE 4 c.count) (post := []) (o := 12)
      (fun x hx => set_arr_lt h x (List.mem_filter.mp hx).1) (by simp)
      (by intro s i; rw [List.append_nil]; rfl) s0
    rw [← hcnt] at this
    rw [this, q1]
    exact ⟨c', rfl, q2.perm hit, by rw [q3, hk0], by rw [q4, ht0], by simp⟩
  | false =>
    rw [if_neg (by simpa using hfl), if_neg (by omega)]
    unfold setInts
    rw [if_neg (by simp), ← List.append_assoc]
    have := readInts_ok (set_arr_lt h) (pre := preamble 3 c.lgK c.lg
      (flagsOf (c.count == 0) false false false) 0 (modeOf 1 c.typ) ++ toLE 4 c.count) (post := [])
      (o := 12) (by simp)
    rw [h.arr_length, List.append_nil] at this
    rw [this]
    exact ⟨c, rfl, h, rfl, rfl, fun _ => rfl⟩

/-! ## The exception map -/

/-- slot and value of a stored exception -/
def unpair (lgK p : Nat) : Nat × Nat := (pairLow p &&& (2 ^ lgK - 1), pairVal p)

theorem unpair_pair {lgK s v : Nat} (h26 : lgK ≤ 26) (hs : s < 2 ^ lgK) :
    unpair lgK (pair s v) = (s, v) := by
  have h1 : s < 2 ^ 26 := lt_of_lt_of_le hs (Nat.pow_le_pow_right (by omega) h26)
  unfold unpair
  rw [pairLow_pair h1, pairVal_pair h1, and_mask, Nat.mod_eq_of_lt hs]

theorem aux_items (lgK lg : Nat) (arr : List Nat) :
    (auxScheme lgK lg).items arr = arr.filter (fun e => decide (e ≠ 0)) := by
  unfold Scheme.items auxScheme
  apply List.filter_congr
  intro x _
  by_cases h : x = 0 <;> simp [h]

section
variable {m : Aux} {lgK : Nat} {L : List (Nat × Nat)}

theorem AuxInv.stored (h : AuxInv m lgK L) :
    (m.arr.filter (fun e => decide (e ≠ 0))).Perm (L.map fun e => pair e.1 e.2) := by
  rw [← aux_items lgK m.lg]; exact h.items

theorem AuxInv.stored_len (h : AuxInv m lgK L) :
    (m.arr.filter (fun e => decide (e ≠ 0))).length = m.count := by
  rw [h.stored.length_eq, List.length_map, h.cnt]

theorem AuxInv.unpaired (h : AuxInv m lgK L) :
    ((m.arr.filter (fun e => decide (e ≠ 0))).map (unpair lgK)).Perm L := by
  refine (h.stored.map (unpair lgK)).trans ?_
  rw [List.map_map]
  have : L.map (unpair lgK ∘ fun e => pair e.1 e.2) = L := by
    conv_rhs => rw [← List.map_id L]
    apply List.map_congr_left
    intro e he
    exact unpair_pair h.lgK26 (h.valid e he).1
  rw [this]

theorem AuxInv.room (h : AuxInv m lgK L) : Room lgK L.length := by
  unfold Room
  have h1 := h.load
  have h2 := Nat.pow_le_pow_right (n := 2) (by omega) (by have := h.lglt; omega : m.lg ≤ lgK - 1)
  rw [h.cnt] at h1
  omega

theorem AuxInv.arr_lt (h : AuxInv m lgK L) (h63 : ∀ e ∈ L, e.2 ≤ 63) : ∀ x ∈ m.arr, x < 2 ^ 32 := by
  intro x hx
  by_cases h0 : x = 0
  · subst h0; decide
  · have := h.stored.mem_iff.mp (List.mem_filter.mpr ⟨hx, by simpa using h0⟩)
    obtain ⟨e, he, rfl⟩ := List.mem_map.mp this
    have h1 := h.lt26 (h.valid e he).1
    have h2 := h63 e he
    rw [pair_eq h1]
    omega

/-- the step with the integer already read -/
def addPair (lgK : Nat) (m : Aux) (p : Nat) : Outcome Aux :=
  m.mustAdd (pairLow p &&& (2 ^ lgK - 1)) (pairVal p)

/-- all exceptions are added to a fresh table -/
theorem addPairs (h : AuxInv m lgK L) {lg : Nat} (h2 : 2 ≤ lg) (hlt : lg < lgK) :
    ∃ m', (m.arr.filter (fun e => decide (e ≠ 0))).foldlM (addPair lgK) (newAux lg lgK) = .ok m' ∧
      AuxInv m' lgK L := by
  have hroom := h.room
  have hup := h.unpaired
  have hlen := h.stored_len
  rw [h.cnt] at hlen
  revert hup hlen
  generalize m.arr.filter (fun e => decide (e ≠ 0)) = l
  intro hup hlen
  obtain ⟨m', q1, q2⟩ := list_fold (f := addPair lgK) (l := l)
    (fun pre s => AuxInv s lgK (pre.map (unpair lgK))) (s0 := newAux lg lgK)
    (newAux_inv h2 hlt h.lgK26) (by
      rintro pre p post s hD hs
      have hmem : unpair lgK p ∈ L := hup.mem_iff.mp (List.mem_map_of_mem (by rw [hD]; simp))
      have hkeys : (l.map (unpair lgK)).map Prod.fst |>.Nodup :=
        (hup.map Prod.fst).nodup_iff.mpr h.keys
      have hnew : (unpair lgK p).1 ∉ (pre.map (unpair lgK)).map Prod.fst := by
        intro hx
        rw [hD] at hkeys
        simp only [List.map_append, List.map_cons] at hkeys
        exact (List.nodup_append.mp hkeys).2.2 _ hx _ (by simp) rfl
      have hl : l.length = pre.length + (post.length + 1) := by rw [hD]; simp
      rcases hs.mustAdd (h.valid _ hmem).1 (h.valid _ hmem).2 hnew with ⟨_, m', e1, e2⟩ | ⟨hno, _⟩
      · refine ⟨m', e1, ?_⟩
        rw [List.map_append]
        exact e2.perm (List.perm_append_singleton _ _).symm
      · exact absurd (hroom.mono (by simp only [List.length_map]; omega)) hno)
  exact ⟨m', q1, q2.perm hup⟩

theorem ceilPow2_le {n j : Nat} (h : n ≤ 2 ^ j) : ∃ i, ceilPow2 n = 2 ^ i ∧ i ≤ j := by
  unfold ceilPow2 Reservoir.ceilPow2
  split
  · exact ⟨0, rfl, Nat.zero_le _⟩
  · split
    · refine ⟨30, rfl, ?_⟩
      by_contra hj
      have := Nat.pow_lt_pow_right (a := 2) (by omega) (by omega : j < 30)
      omega
    · refine ⟨_, rfl, ?_⟩
      have : Nat.log2 ((n - 1) * 2) < j + 1 := by
        rw [Nat.log2_lt (by omega), Nat.pow_succ]
        omega
      omega

/-- the table size for a compact image -/
theorem computeLgArr_ok (h : AuxInv m lgK L) (h4 : 4 ≤ lgK) (h21 : lgK ≤ 21) :
    ∃ lg, computeLgArr 2 m.count lgK = .ok lg ∧ 2 ≤ lg ∧ lg < lgK := by
  obtain ⟨t, et, t2, tlt⟩ := lgAux_ok ⟨lgK, by omega⟩ h4
  simp only at et tlt
  have hload := h.load
  obtain ⟨i, ei, hi⟩ := ceilPow2_le (n := m.count) (j := m.lg) (by omega)
  unfold computeLgArr
  dsimp only
  rw [ei, if_neg (by omega), et]
  dsimp only
  refine ⟨_, rfl, le_trans t2 (Nat.le_max_left _ _), ?_⟩
  have hl := h.lglt
  split
  · rename_i hgt
    have : i < m.lg := by
      rcases Nat.lt_or_ge i m.lg with h' | h'
      · exact h'
      · have : i = m.lg := by omega
        subst this; omega
    rw [Nat.shiftLeft_eq, ← Nat.pow_succ, Nat.log2_two_pow]
    omega
  · rw [Nat.log2_two_pow]
    omega

/-- the integers written for the exceptions -/
def auxInts (m : Aux) (compact : Bool) : List Nat :=
  if compact then m.arr.filter (fun e => decide (e ≠ 0)) else m.arr

theorem auxSlice_some (h : AuxInv m lgK L) (compact : Bool) :
    auxSlice lgK (some m) compact = .ok (m.count, m.lg, ints (auxInts m compact)) := by
  unfold auxSlice auxInts
  cases compact with
  | true =>
    simp only [if_true]
    rw [intsIn_exact h.stored_len, Outcome.ok_bind, if_neg (by rw [h.stored_len]; simp)]
  | false =>
    have hl : m.arr.length = 2 ^ m.lg := h.chain.len
    simp only [Bool.false_eq_true, if_false]
    rw [if_neg (by omega), List.take_of_length_le (by omega)]

theorem foldlM_filter {σ : Type} {g : σ → Nat → Outcome σ} (l : List Nat) (s : σ) :
    l.foldlM (fun s p => if p = 0 then Outcome.ok s else g s p) s =
      (l.filter (fun e => decide (e ≠ 0))).foldlM g s := by
  induction l generalizing s with
  | nil => rfl
  | cons x l ih =>
    rw [List.foldlM_cons]
    by_cases hx : x = 0
    · rw [if_pos hx, List.filter_cons_of_neg (by simp [hx])]
      exact ih s
    · rw [if_neg hx, List.filter_cons_of_pos (by simp [hx]), List.foldlM_cons]
      congr 1
      funext s'
      exact ih s'

theorem auxOf_ok (h : AuxInv m lgK L) (h4 : 4 ≤ lgK) (h21 : lgK ≤ 21) (h63 : ∀ e ∈ L, e.2 ≤ 63)
    (compact : Bool) {pre : List Nat} (hpre : pre.length = 40 + 2 ^ (lgK - 1))
    (hb : byteAt (pre ++ ints (auxInts m compact)) 4 = .ok m.lg) :
    ∃ m', auxOf (pre ++ ints (auxInts m compact)) (40 + 2 ^ (lgK - 1)) lgK m.count compact = .ok m' ∧
      AuxInv m' lgK L := by
  unfold auxOf
  cases compact with
  | true =>
    obtain ⟨lg, e1, e2, e3⟩ := computeLgArr_ok h h4 h21
    obtain ⟨m', q1, q2⟩ := addPairs h e2 e3
    rw [if_pos rfl, e1, Outcome.ok_bind]
    refine ⟨m', ?_, q2⟩
    rw [← q1]
    unfold auxInts
    rw [if_pos rfl]
    have := foldlM_ints (f := auxReadStep (pre ++ (ints (m.arr.filter (fun e => decide (e ≠ 0))) ++ []))
        (40 + 2 ^ (lgK - 1)) lgK true) (g := addPair lgK)
      (l := m.arr.filter (fun e => decide (e ≠ 0)))
      (pre := pre) (post := []) (o := 40 + 2 ^ (lgK - 1))
      (fun x hx => h.arr_lt h63 x (List.mem_filter.mp hx).1) hpre.symm
      (by
        intro s i
        unfold auxReadStep addPair
        congr 1) (newAux lg lgK)
    rw [h.stored_len, List.append_nil] at this
    exact this
  | false =>
    obtain ⟨m', q1, q2⟩ := addPairs h h.lg2 h.lglt
    have hlt := h.lglt
    rw [if_neg (by simp), hb, Outcome.ok_bind, if_neg (by omega)]
    refine ⟨m', ?_, q2⟩
    rw [← q1]
    unfold auxInts
    rw [if_neg (by simp), ← foldlM_filter]
    have := foldlM_ints (f := auxReadStep (pre ++ (ints m.arr ++ []))
        (40 + 2 ^ (lgK - 1)) lgK false)
      (g := fun s p => if p = 0 then Outcome.ok s else addPair lgK s p) (l := m.arr)
      (pre := pre) (post := []) (o := 40 + 2 ^ (lgK - 1)) (h.arr_lt h63) hpre.symm
      (by
        intro s i
        unfold auxReadStep addPair
        congr 1
        funext p
        by_cases hp : p = 0 <;> simp [hp]) (newAux m.lg lgK)
    have hl : m.arr.length = 2 ^ m.lg := h.chain.len
    rw [hl, List.append_nil] at this
    exact this

end

/-! ## Register arrays -/

/-- the numbers of `a` survive being written: they are in range, and the floats are kept -/
structure Written (B : Bits H) (a : Arr H) : Prop where
  num0 : 0 ≤ a.num
  num1 : a.num < 2 ^ 32
  curMin : a.curMin < 256
  hip : B.hipTo a.hip < 256 ^ 8 ∧ B.hipOf (B.hipTo a.hip) = a.hip
  kxq0 : B.kTo a.kxq0 < 256 ^ 8 ∧ B.kOf (B.kTo a.kxq0) = a.kxq0
  kxq1 : B.kTo a.kxq1 < 256 ^ 8 ∧ B.kOf (B.kTo a.kxq1) = a.kxq1

theorem Rep.bytes_length {a : Arr H} {S : Regs H} (h : Rep a S) :
    a.bytes.length = arrBytes a.lgK a.typ := by
  have hb := h.body
  unfold Body at hb
  cases ht : a.typ with
  | hll4 => rw [ht] at hb; exact hb.1.blen
  | hll6 => rw [ht] at hb; exact hb.1
  | hll8 => rw [ht] at hb; rw [hb.1, h.len]; rfl

theorem Rep.bytes_lt {a : Arr H} {S : Regs H} (h : Rep a S) : ∀ b ∈ a.bytes, b < 256 := by
  have hb := h.body
  unfold Body at hb
  cases ht : a.typ with
  | hll4 => rw [ht] at hb; exact hb.1.b256
  | hll6 => rw [ht] at hb; exact hb.2.1
  | hll8 =>
    rw [ht] at hb
    intro b hm
    rw [hb.1] at hm
    have := h.le63 b hm
    omega

/-- the image of an array -/
def hllImage (B : Bits H) (a : Arr H) (flags cnt lg : Nat) (xs : List Nat) : List Nat :=
  preamble 10 a.lgK lg flags a.curMin (modeOf 2 a.typ) ++
    (toLE 8 (B.hipTo a.hip) ++ (toLE 8 (B.kTo a.kxq0) ++ (toLE 8 (B.kTo a.kxq1) ++
    (toLE 4 (toU 4 a.num) ++ (toLE 4 cnt ++ (a.bytes ++ xs))))))

theorem hllImage_length (B : Bits H) (a : Arr H) (flags cnt lg : Nat) (xs : List Nat) :
    (hllImage B a flags cnt lg xs).length = 40 + a.bytes.length + xs.length := by
  unfold hllImage
  simp only [List.length_append, preamble_length, toLE_length]
  omega

theorem hllImage_lt {B : Bits H} {a : Arr H} {flags cnt lg : Nat} {xs : List Nat}
    (hb : ∀ b ∈ a.bytes, b < 256) (hx : ∀ b ∈ xs, b < 256) :
    ∀ b ∈ hllImage B a flags cnt lg xs, b < 256 := by
  intro b hm
  unfold hllImage at hm
  simp only [List.mem_append] at hm
  rcases hm with h | h | h | h | h | h | h | h
  · exact preamble_lt _ _ _ _ _ _ _ h
  · exact toLE_lt _ _ _ h
  · exact toLE_lt _ _ _ h
  · exact toLE_lt _ _ _ h
  · exact toLE_lt _ _ _ h
  · exact toLE_lt _ _ _ h
  · exact hb _ h
  · exact hx _ h

/-- the forty bytes before the array -/
def hllHead (B : Bits H) (a : Arr H) (flags cnt lg : Nat) : List Nat :=
  preamble 10 a.lgK lg flags a.curMin (modeOf 2 a.typ) ++
    (toLE 8 (B.hipTo a.hip) ++ (toLE 8 (B.kTo a.kxq0) ++ (toLE 8 (B.kTo a.kxq1) ++
    (toLE 4 (toU 4 a.num) ++ toLE 4 cnt))))

theorem hllHead_length (B : Bits H) (a : Arr H) (flags cnt lg : Nat) :
    (hllHead B a flags cnt lg).length = 40 := by
  unfold hllHead
  simp only [List.length_append, preamble_length, toLE_length]

theorem hllImage_head (B : Bits H) (a : Arr H) (flags cnt lg : Nat) (xs : List Nat) :
    hllImage B a flags cnt lg xs = hllHead B a flags cnt lg ++ (a.bytes ++ xs) := by
  unfold hllImage hllHead
  simp only [List.append_assoc]

theorem toU_of_range {x : Int} (h0 : 0 ≤ x) (h1 : x < 2 ^ 32) : ((toU 4 x : Nat) : Int) = x := by
  unfold toU
  rw [Int.toNat_of_nonneg (Int.emod_nonneg _ (by decide)), Int.emod_eq_of_lt h0 (by simpa using h1)]

theorem commonOf_ok {F : Fl H} {B : Bits H} {a : Arr H} {S : Regs H} (h : Rep a S) (w : Written B a)
    (compact : Bool) (cnt lg : Nat) (xs : List Nat) :
    commonOf F B a.lgK a.typ (hllImage B a (flagsOf false compact a.ooo a.rebuild) cnt lg xs) =
      .ok { a with aux := none } := by
  have hs : slice (hllImage B a (flagsOf false compact a.ooo a.rebuild) cnt lg xs) 40
      (40 + arrBytes a.lgK a.typ) = .ok a.bytes := by
    rw [hllImage_head]
    exact slice_here (hllHead_length ..).symm (by rw [h.bytes_length])
  unfold commonOf
  have e5 : byteAt (hllImage B a (flagsOf false compact a.ooo a.rebuild) cnt lg xs) 5 =
      .ok (flagsOf false compact a.ooo a.rebuild) := byte_flags (flagsOf_lt _ _ _ _)
  have e6 : byteAt (hllImage B a (flagsOf false compact a.ooo a.rebuild) cnt lg xs) 6 =
      .ok a.curMin := byte_six w.curMin
  have e8 : getLE (hllImage B a (flagsOf false compact a.ooo a.rebuild) cnt lg xs) 8 8 =
      .ok (B.hipTo a.hip) := by
    unfold hllImage; rw [getLE_body (by omega)]; exact getLE_first w.hip.1
  have e16 : getLE (hllImage B a (flagsOf false compact a.ooo a.rebuild) cnt lg xs) 16 8 =
      .ok (B.kTo a.kxq0) := by
    unfold hllImage
    rw [getLE_body (by omega), getLE_skip (by omega)]; exact getLE_first w.kxq0.1
  have e24 : getLE (hllImage B a (flagsOf false compact a.ooo a.rebuild) cnt lg xs) 24 8 =
      .ok (B.kTo a.kxq1) := by
    unfold hllImage
    rw [getLE_body (by omega), getLE_skip (by omega), getLE_skip (by omega)]
    exact getLE_first w.kxq1.1
  have e32 : getLE (hllImage B a (flagsOf false compact a.ooo a.rebuild) cnt lg xs) 32 4 =
      .ok (toU 4 a.num) := by
    unfold hllImage
    rw [getLE_body (by omega), getLE_skip (by omega), getLE_skip (by omega), getLE_skip (by omega)]
    exact getLE_first (toU_lt _ _)
  rw [e5, Outcome.ok_bind, e6, Outcome.ok_bind, e8, Outcome.ok_bind, e16, Outcome.ok_bind, e24,
    Outcome.ok_bind, e32, Outcome.ok_bind, hs, Outcome.ok_bind, flagsOf_ooo, flagsOf_rebuild,
    w.hip.2, w.kxq0.2, w.kxq1.2, toU_of_range w.num0 w.num1]
  rfl

/-- the same registers with another layout of the exceptions -/
theorem Rep.withAux {a : Arr H} {S : Regs H} (h : Rep a S) {o : Option Aux}
    (ho : a.typ = .hll4 → AuxOpt o a.lgK (excs S.R a.curMin)) : Rep { a with aux := o } S := by
  refine ⟨h.h4, h.h21, h.len, h.le63, h.hip, h.kxq0, h.kxq1, ?_⟩
  have hb := h.body
  unfold Body at hb ⊢
  dsimp only
  cases ht : a.typ with
  | hll4 =>
    rw [ht] at hb
    obtain ⟨c, hn⟩ := hb
    exact ⟨⟨c.h4, c.h21, c.len, c.le63, c.blen, c.b256, c.low, c.nib, ho ht, c.num⟩, hn⟩
  | hll6 => rw [ht] at hb; exact hb
  | hll8 => rw [ht] at hb; exact hb

/-- `a'` is `a` with another layout of the exceptions -/
def SameNums (a a' : Arr H) : Prop := a' = { a with aux := a'.aux }

theorem aux_count_lt {m : Aux} {lgK : Nat} {L : List (Nat × Nat)} (h : AuxInv m lgK L) :
    m.count < 256 ^ 4 := by
  have h1 := h.load
  have h2 := Nat.pow_le_pow_right (n := 2) (by omega)
    (by have := h.lglt; have := h.lgK26; omega : m.lg ≤ 25)
  omega

/-- size of the exceptions in the image -/
def auxLen (a : Arr H) (compact : Bool) : Outcome Nat :=
  match a.typ, a.aux, compact with
  | .hll4, none, true => .ok 0
  | .hll4, none, false =>
    match lgAuxTable[a.lgK]? with
    | none => .panic
    | some lg => .ok (4 * 2 ^ lg)
  | .hll4, some m, true => .ok (4 * m.count)
  | .hll4, some m, false => .ok (4 * 2 ^ m.lg)
  | _, _, _ => .ok 0

theorem arr_round {F : Fl H} {B : Bits H} {a : Arr H} {S : Regs H} (h : Rep a S) (w : Written B a)
    (compact : Bool) (hc : compact = true → a.typ = .hll4) :
    ∃ cnt lg xs a', arrSlice B a compact =
        .ok (hllImage B a (flagsOf false compact a.ooo a.rebuild) cnt lg xs) ∧
      (∀ b ∈ xs, b < 256) ∧ auxLen a compact = .ok xs.length ∧
      arrOf F B a.typ (hllImage B a (flagsOf false compact a.ooo a.rebuild) cnt lg xs) = .ok a' ∧
      Rep a' S ∧ SameNums a a' := by
  have h21 := h.h21
  have h4 := h.h4
  have hb := h.body
  -- the part of the decoder before the exceptions
  have hdec : ∀ cnt lg xs, lg < 256 →
      arrOf F B a.typ (hllImage B a (flagsOf false compact a.ooo a.rebuild) cnt lg xs) =
      withAux (hllImage B a (flagsOf false compact a.ooo a.rebuild) cnt lg xs) a.lgK a.typ
        { a with aux := none } := by
    intro cnt lg xs _
    unfold arrOf
    have e3 : byteAt (hllImage B a (flagsOf false compact a.ooo a.rebuild) cnt lg xs) 3 =
      .ok a.lgK := byte_lgK (by omega)
    rw [e3, Outcome.ok_bind, if_neg (by omega), if_neg (by omega), commonOf_ok h w, Outcome.ok_bind]
  by_cases ht : a.typ = .hll4
  · unfold Body at hb
    rw [ht] at hb
    have haux := hb.1.aux
    have hfl : ∀ cnt lg xs, byteAt (hllImage B a (flagsOf false compact a.ooo a.rebuild) cnt lg xs) 5 =
      .ok (flagsOf false compact a.ooo a.rebuild) := fun _ _ _ => byte_flags (flagsOf_lt _ _ _ _)
    have h36 : ∀ cnt lg xs, cnt < 256 ^ 4 →
        getLE (hllImage B a (flagsOf false compact a.ooo a.rebuild) cnt lg xs) 36 4 = .ok cnt := by
      intro cnt lg xs hcnt
      unfold hllImage
      rw [getLE_body (by omega), getLE_skip (by omega), getLE_skip (by omega), getLE_skip (by omega),
        getLE_skip (by omega)]
      exact getLE_first hcnt
    cases hx : a.aux with
    | none =>
      rw [hx] at haux
      have hnil : excs S.R a.curMin = [] := haux
      have hs : ∃ xs, auxSlice a.lgK none compact = .ok (0, 0, xs) ∧ (∀ b ∈ xs, b < 256) ∧
          auxLen a compact = .ok xs.length := by
        unfold auxSlice auxLen
        rw [ht, hx]
        cases compact with
        | true => exact ⟨[], rfl, by simp, rfl⟩
        | false =>
          obtain ⟨t, et, _, _⟩ := lgAux_ok ⟨a.lgK, by omega⟩ h4
          simp only at et
          simp only [Bool.false_eq_true, if_false, et]
          exact ⟨_, rfl, by simp, by rw [List.length_replicate, Nat.shiftLeft_eq]⟩
      obtain ⟨xs, e1, e2, e3⟩ := hs
      refine ⟨0, 0, xs, { a with aux := none }, ?_, e2, e3, ?_, h.withAux (fun _ => hnil), rfl⟩
      · unfold arrSlice auxImage
        rw [ht, hx]
        dsimp only
        rw [e1]
        unfold hllImage
        rw [ht]
        rfl
      · rw [hdec _ _ _ (by omega)]
        unfold withAux
        rw [ht]
        dsimp only
        rw [h36 _ _ _ (by omega), Outcome.ok_bind, hfl, Outcome.ok_bind]
        rfl
    | some m =>
      rw [hx] at haux
      have hinv : AuxInv m a.lgK (excs S.R a.curMin) := haux
      have h63 : ∀ e ∈ excs S.R a.curMin, e.2 ≤ 63 := by
        rintro ⟨s, v⟩ he
        obtain ⟨h1, h2, _⟩ := mem_excs.mp he
        have := h.le63 _ (getD_mem h1)
        simp only
        omega
      have hlt := hinv.lglt
      have hcl := aux_count_lt hinv
      have hlen : auxLen a compact = .ok (ints (auxInts m compact)).length := by
        unfold auxLen auxInts
        rw [ht, hx, ints_length]
        cases compact with
        | true => rw [if_pos rfl, hinv.stored_len]
        | false =>
          have hl : m.arr.length = 2 ^ m.lg := hinv.chain.len
          rw [if_neg (by simp), hl]
      have henc : arrSlice B a compact = .ok (hllImage B a (flagsOf false compact a.ooo a.rebuild)
          m.count m.lg (ints (auxInts m compact))) := by
        unfold arrSlice auxImage
        rw [ht, hx]
        dsimp only
        rw [auxSlice_some hinv]
        unfold hllImage
        rw [ht]
        rfl
      by_cases h0 : m.count > 0
      · have hpl : (hllHead B a (flagsOf false compact a.ooo a.rebuild) m.count m.lg ++
            a.bytes).length = 40 + 2 ^ (a.lgK - 1) := by
          rw [List.length_append, hllHead_length, h.bytes_length, ht]; rfl
        have himg : hllImage B a (flagsOf false compact a.ooo a.rebuild) m.count m.lg
            (ints (auxInts m compact)) =
            hllHead B a (flagsOf false compact a.ooo a.rebuild) m.count m.lg ++ a.bytes ++
              ints (auxInts m compact) := by
          rw [hllImage_head, List.append_assoc]
        obtain ⟨m', q1, q2⟩ := auxOf_ok hinv h4 h21 h63 compact hpl (by
          rw [← himg]; exact byte_lgArr (by omega))
        rw [← himg] at q1
        refine ⟨_, _, _, { a with aux := some m' }, henc, ints_lt _, hlen, ?_,
          h.withAux (fun _ => q2), rfl⟩
        rw [hdec _ _ _ (by omega)]
        unfold withAux
        rw [ht]
        dsimp only
        rw [h36 _ _ _ hcl, Outcome.ok_bind, hfl, Outcome.ok_bind, flagsOf_compact]
        unfold auxPart
        rw [if_pos h0, q1]
        rfl
      · refine ⟨_, _, _, { a with aux := none }, henc, ints_lt _, hlen, ?_, h.withAux (fun _ => ?_), rfl⟩
        · rw [hdec _ _ _ (by omega)]
          unfold withAux
          rw [ht]
          dsimp only
          rw [h36 _ _ _ hcl, Outcome.ok_bind, hfl, Outcome.ok_bind]
          unfold auxPart
          rw [if_neg h0]
          rfl
        · show excs S.R a.curMin = []
          have := hinv.cnt
          exact List.length_eq_zero_iff.mp (by omega)
  · refine ⟨0, 0, [], { a with aux := none }, ?_, by simp, ?_, ?_,
      h.withAux (fun h' => absurd h' ht), rfl⟩
    · unfold arrSlice auxImage
      cases hh : a.typ with
      | hll4 => exact absurd hh ht
      | hll6 => unfold hllImage; rw [hh]; rfl
      | hll8 => unfold hllImage; rw [hh]; rfl
    · unfold auxLen
      cases hh : a.typ with
      | hll4 => exact absurd hh ht
      | hll6 => rfl
      | hll8 => rfl
    · rw [hdec _ _ _ (by omega)]
      unfold withAux
      cases hh : a.typ with
      | hll4 => exact absurd hh ht
      | hll6 => rfl
      | hll8 => rfl

/-! ## Whole sketches -/

/-- what a sketch in HLL mode needs to survive being written -/
def SkWritten (B : Bits H) (s : Sk H) : Prop := ∀ a, s = .hll a → Written B a

/-- the flags are the same -/
def SameFlags (s s' : Sk H) : Prop :=
  match s, s' with
  | .hll a, .hll a' => SameNums a a'
  | .list c, .list c' => c' = c
  | .set c, .set c' => c'.lgK = c.lgK ∧ c'.typ = c.typ
  | _, _ => False

/-- Any sketch in a known abstract state: it is written, and what is read back is in the same abstract
state. -/
theorem sk_round {F : Fl H} {B : Bits H} {s : Sk H} {A : AbsSk H} (h : Ref s A) (w : SkWritten B s)
    (compact check : Bool) (hc : check = true → ∀ a, s = .hll a → a.rebuild = false) :
    ∃ b s', s.toSlice B compact = .ok b ∧ (∀ x ∈ b, x < 256) ∧
      fromSlice F B b check = .ok s' ∧ Ref s' A ∧ SameFlags s s' := by
  cases s with
  | list c =>
    cases A with
    | hll S => exact absurd h (by simp [Ref])
    | coup D =>
      have h : ListInv c D := h
      obtain ⟨r, e1, e2, _, _⟩ := list_slice h compact
      refine ⟨_, .list c, e1, ?_, ?_, h, rfl⟩
      · intro x hx
        simp only [List.mem_append] at hx
        rcases hx with hx | hx | hx
        · exact preamble_lt _ _ _ _ _ _ _ hx
        · exact ints_lt _ _ hx
        · exact e2 _ hx
      · unfold fromSlice
        rw [if_neg (by simp only [List.length_append, preamble_length]; omega),
          checkPreamble_ok (by omega) (by simp), Outcome.ok_bind, if_neg (by omega), if_pos rfl]
        exact listOf_ok h _
  | set c =>
    cases A with
    | hll S => exact absurd h (by simp [Ref])
    | coup D =>
      obtain ⟨h1, h8⟩ : SetInv c D ∧ 8 ≤ D.length := h
      obtain ⟨c', q1, q2, q3, q4, _⟩ := setOf_ok (F := F) h1 h8 compact
      refine ⟨_, .set c', set_slice h1 compact, ?_, ?_, ⟨q2, h8⟩, q3, q4⟩
      · intro x hx
        simp only [List.mem_append] at hx
        rcases hx with hx | hx | hx
        · exact preamble_lt _ _ _ _ _ _ _ hx
        · exact toLE_lt _ _ _ hx
        · exact ints_lt _ _ hx
      · unfold fromSlice
        rw [if_neg (by simp only [List.length_append, preamble_length]; omega),
          checkPreamble_ok (by omega) (by simp only [List.length_append, toLE_length]; omega),
          Outcome.ok_bind, if_neg (by omega), if_neg (by omega)]
        exact q1
  | hll a =>
    cases A with
    | coup D => exact absurd h (by simp [Ref])
    | hll S =>
      have h : Rep a S := h
      have w := w a rfl
      obtain ⟨cnt, lg, xs, a', e1, e2, _, e4, e5, e6⟩ := arr_round (F := F) h w
        (compact && a.typ == .hll4) (by
          intro hh
          rw [Bool.and_eq_true, beq_iff_eq] at hh
          exact hh.2)
      refine ⟨_, .hll a', e1, hllImage_lt h.bytes_lt e2, ?_, e5, e6⟩
      have hb7 : byteAt (hllImage B a (flagsOf false (compact && a.typ == .hll4) a.ooo a.rebuild)
          cnt lg xs) 7 = .ok (modeOf 2 a.typ) := byte_mode (modeOf_lt (by omega) _)
      have hlen := hllImage_length B a (flagsOf false (compact && a.typ == .hll4) a.ooo a.rebuild)
          cnt lg xs
      unfold fromSlice
      rw [if_neg (by omega)]
      have hcp : checkPreamble (hllImage B a (flagsOf false (compact && a.typ == .hll4) a.ooo a.rebuild)
          cnt lg xs) = .ok 2 := by
        apply checkPreamble_ok (by omega)
        simp only [List.length_append, toLE_length]
        omega
      rw [hcp, Outcome.ok_bind, if_pos rfl]
      unfold hllOf
      rw [hb7, Outcome.ok_bind, modeOf_typ (by omega)]
      cases ht : a.typ with
      | hll4 => rw [ht] at e4; simp only [Typ.id]; rw [e4]; rfl
      | hll6 => rw [ht] at e4; simp only [Typ.id]; rw [e4]; rfl
      | hll8 =>
        rw [ht] at e4
        simp only [Typ.id]
        rw [e4, Outcome.ok_bind]
        cases check with
        | false => rfl
        | true =>
          rw [if_pos rfl]
          have hr := hc rfl a rfl
          have : a'.rebuild = false := by rw [e6]; exact hr
          unfold checkRebuild
          dsimp only
          rw [if_neg (by rw [this]; simp)]

end Verif.Hll
