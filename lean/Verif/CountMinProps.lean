import Verif.CountMinModel
import Mathlib.Data.List.Nodup
import Mathlib.Algebra.BigOperators.Group.List.Basic
import Mathlib.Algebra.Order.BigOperators.Group.List

/-!
# C20-C22: Count-min sketch
-/

namespace Verif.CountMin

/-! ## specification -/

/-- A stream of weighted updates. -/
abbrev Stream := List (List Nat × Int)

/-- Spec: total weight of the (non-empty) items of the stream that satisfy `p`. -/
def weightOf (s : Stream) (p : List Nat → Bool) : Int :=
  (s.map (fun e => if e.1 ≠ [] ∧ p e.1 = true then e.2 else 0)).sum

/-- Spec: total absolute weight of the stream's non-empty items. -/
def absWeight (s : Stream) : Int := (s.map (fun e => if e.1 ≠ [] then |e.2| else 0)).sum

/-- Processing a stream. -/
def runStream (P : Prims) : Sketch → Stream → Outcome Sketch
  | c, [] => .ok c
  | c, e :: s => do let c' ← c.update P e.1 e.2; runStream P c' s

/-! ## helper facts -/

theorem weightOf_cons (e : List Nat × Int) (s : Stream) (p : List Nat → Bool) :
    weightOf (e :: s) p = (if e.1 ≠ [] ∧ p e.1 = true then e.2 else 0) + weightOf s p := by
  simp [weightOf]

theorem weightOf_append (s t : Stream) (p : List Nat → Bool) :
    weightOf (s ++ t) p = weightOf s p + weightOf t p := by
  simp [weightOf]

theorem absWeight_append (s t : Stream) : absWeight (s ++ t) = absWeight s + absWeight t := by
  simp [absWeight]

theorem absWeight_nonneg (s : Stream) : 0 ≤ absWeight s := by
  induction s with
  | nil => simp [absWeight]
  | cons e s ih =>
    simp only [absWeight, List.map_cons, List.sum_cons] at *
    split
    · have := abs_nonneg e.2; omega
    · omega

theorem abs_weightOf_le (s : Stream) (p : List Nat → Bool) : |weightOf s p| ≤ absWeight s := by
  induction s with
  | nil => simp [weightOf, absWeight]
  | cons e s ih =>
    simp only [weightOf, absWeight, List.map_cons, List.sum_cons] at *
    refine le_trans (abs_add_le _ _) ?_
    have : |(if e.1 ≠ [] ∧ p e.1 = true then e.2 else 0)| ≤ (if e.1 ≠ [] then |e.2| else 0) := by
      split
      · rename_i h; rw [if_pos h.1]
      · split
        · simp
        · simp
    omega

theorem weightOf_mono (s : Stream) (hs : ∀ e ∈ s, 0 ≤ e.2) (p q : List Nat → Bool)
    (hpq : ∀ x, p x = true → q x = true) : weightOf s p ≤ weightOf s q := by
  induction s with
  | nil => simp [weightOf]
  | cons e s ih =>
    rw [weightOf_cons, weightOf_cons]
    have h1 := ih (fun x hx => hs x (by simp [hx]))
    have h2 := hs e (by simp)
    have : (if e.1 ≠ [] ∧ p e.1 = true then e.2 else 0) ≤
        (if e.1 ≠ [] ∧ q e.1 = true then e.2 else 0) := by
      split
      · rename_i h; rw [if_pos ⟨h.1, hpq _ h.2⟩]
      · split
        · exact h2
        · exact le_refl _
    omega

theorem weightOf_true_eq (s : Stream) (hs : ∀ e ∈ s, 0 ≤ e.2) :
    weightOf s (fun _ => true) = absWeight s := by
  induction s with
  | nil => simp [weightOf, absWeight]
  | cons e s ih =>
    have h1 := ih (fun x hx => hs x (by simp [hx]))
    have h2 := hs e (by simp)
    simp only [weightOf, absWeight, List.map_cons, List.sum_cons] at *
    rw [h1]
    simp [abs_of_nonneg h2]

theorem addAll_spec (w : Int) : ∀ (locs : List Nat) (sl : List Int), locs.Nodup →
    (∀ h ∈ locs, h < sl.length) →
    ∃ sl', addAll w locs sl = .ok sl' ∧ sl'.length = sl.length ∧
      ∀ j, sl'[j]? = if j ∈ locs then (sl[j]?).map (fun v => wrap 8 (v + w)) else sl[j]? := by
  intro locs
  induction locs with
  | nil => intro sl _ _; exact ⟨sl, rfl, rfl, fun j => by simp⟩
  | cons h hs ih =>
    intro sl hnd hlt
    have hh := hlt h (by simp)
    rw [List.nodup_cons] at hnd
    obtain ⟨sl', e, hl, sp⟩ := ih (sl.set h (wrap 8 (sl[h] + w))) hnd.2
      (by intro x hx; simp; exact hlt x (by simp [hx]))
    refine ⟨sl', ?_, by simpa using hl, ?_⟩
    · rw [addAll, List.getElem?_eq_getElem hh]; exact e
    · intro j
      rw [sp j]
      by_cases hj : j = h
      · subst hj
        rw [if_neg hnd.1, if_pos (by simp), List.getElem?_set_self hh, List.getElem?_eq_getElem hh]
        rfl
      · rw [List.getElem?_set_ne (Ne.symm hj)]
        by_cases hm : j ∈ hs
        · rw [if_pos hm, if_pos (by simp [hm])]
        · rw [if_neg hm, if_neg (by simp [hj, hm])]

theorem minAll_spec (sl : List Int) : ∀ (locs : List Nat) (e : Int),
    (∀ h ∈ locs, h < sl.length) →
    ∃ r, minAll sl locs e = .ok r ∧ r ≤ e ∧ (∀ h ∈ locs, ∀ v, sl[h]? = some v → r ≤ v) ∧
      (r = e ∨ ∃ h ∈ locs, sl[h]? = some r) := by
  intro locs
  induction locs with
  | nil => intro e _; exact ⟨e, rfl, le_refl _, by simp, Or.inl rfl⟩
  | cons h hs ih =>
    intro e hlt
    have hh := hlt h (by simp)
    obtain ⟨r, er, r1, r2, r3⟩ := ih (min e sl[h]) (fun x hx => hlt x (by simp [hx]))
    refine ⟨r, ?_, le_trans r1 (min_le_left _ _), ?_, ?_⟩
    · rw [minAll, List.getElem?_eq_getElem hh]; exact er
    · intro x hx v hv
      rcases List.mem_cons.mp hx with rfl | hx
      · rw [List.getElem?_eq_getElem hh] at hv
        simp at hv; subst hv
        exact le_trans r1 (min_le_right _ _)
      · exact r2 x hx v hv
    · rcases r3 with r3 | ⟨x, hx, hv⟩
      · rcases min_choice e sl[h] with hm | hm
        · left; rw [r3, hm]
        · right; exact ⟨h, by simp, by rw [List.getElem?_eq_getElem hh, r3, hm]⟩
      · exact Or.inr ⟨x, by simp [hx], hv⟩

/-- bucket of an item in row `i` -/
def row (P : Prims) (c : Sketch) (i : Nat) (item : List Nat) : Nat :=
  P.hash item (c.hashSeeds.getD i 0) % c.numBuckets.toNat

theorem locsFrom_eq (P : Prims) (c : Sketch) (item : List Nat) :
    ∀ (ss : List Int) (k : Nat), locsFrom P c item k ss =
      (List.range ss.length).map (fun i => (k + i) * c.numBuckets.toNat +
        P.hash item (ss.getD i 0) % c.numBuckets.toNat) := by
  intro ss
  induction ss with
  | nil => intro k; simp [locsFrom]
  | cons s ss ih =>
    intro k
    rw [locsFrom, ih, List.length_cons, List.range_succ_eq_map]
    simp only [List.map_cons, List.map_map]
    congr 1
    apply List.map_congr_left
    intro i _
    simp only [Function.comp, List.getD_cons_succ]
    rw [show k + 1 + i = k + (i + 1) by omega]

theorem getHashes_eq (P : Prims) (c : Sketch) (item : List Nat) :
    c.getHashes P item = (List.range c.hashSeeds.length).map (fun i =>
      i * c.numBuckets.toNat + row P c i item) := by
  rw [Sketch.getHashes, locsFrom_eq]
  simp [row]

/-- Representation invariant relating a sketch to the stream it has processed. -/
structure Inv (P : Prims) (c : Sketch) (s : Stream) : Prop where
  nb : 3 ≤ c.numBuckets
  nbr : InRange 4 c.numBuckets
  nh : 0 ≤ c.numHashes
  nhr : InRange 1 c.numHashes
  small : c.numBuckets * c.numHashes < 2 ^ 30
  seeds : c.hashSeeds = P.seeds c.seed c.numHashes.toNat
  len : c.slice.length = c.numBuckets.toNat * c.numHashes.toNat
  total : c.totalWeight = wrap 8 (absWeight s)
  cell : ∀ i b, i < c.numHashes.toNat → b < c.numBuckets.toNat →
    c.slice[i * c.numBuckets.toNat + b]? =
      some (wrap 8 (weightOf s (fun x => row P c i x == b)))

theorem Inv.seedsLen {P : Prims} {c : Sketch} {s : Stream} (h : Inv P c s) :
    c.hashSeeds.length = c.numHashes.toNat := by rw [h.seeds, P.seeds_length]

theorem row_lt {P : Prims} {c : Sketch} (h : 3 ≤ c.numBuckets) (i : Nat) (x : List Nat) :
    row P c i x < c.numBuckets.toNat := Nat.mod_lt _ (by omega)

theorem cell_inj {n i j a b : Nat} (ha : a < n) (hb : b < n) (h : i * n + a = j * n + b) :
    i = j ∧ a = b := by
  have hn : 0 < n := by omega
  have h1 : (i * n + a) / n = i := by
    rw [Nat.mul_comm, Nat.mul_add_div hn, Nat.div_eq_of_lt ha]; omega
  have h2 : (j * n + b) / n = j := by
    rw [Nat.mul_comm, Nat.mul_add_div hn, Nat.div_eq_of_lt hb]; omega
  have : i = j := by rw [← h1, ← h2, h]
  subst this
  exact ⟨rfl, by omega⟩

theorem locs_lt {P : Prims} {c : Sketch} {s : Stream} (h : Inv P c s) (item : List Nat) :
    ∀ l ∈ c.getHashes P item, l < c.slice.length := by
  intro l hl
  rw [getHashes_eq, h.seedsLen] at hl
  simp only [List.mem_map, List.mem_range] at hl
  obtain ⟨i, hi, rfl⟩ := hl
  have hr := row_lt (P := P) h.nb i item
  rw [h.len]
  have : (i + 1) * c.numBuckets.toNat ≤ c.numBuckets.toNat * c.numHashes.toNat := by
    rw [Nat.mul_comm]; exact Nat.mul_le_mul_left _ hi
  have h2 : (i + 1) * c.numBuckets.toNat = i * c.numBuckets.toNat + c.numBuckets.toNat := by ring
  omega

theorem locs_nodup {P : Prims} {c : Sketch} {s : Stream} (h : Inv P c s) (item : List Nat) :
    (c.getHashes P item).Nodup := by
  rw [getHashes_eq]
  apply List.Nodup.map_on
  · intro i _ j _ hij
    exact (cell_inj (row_lt h.nb i item) (row_lt h.nb j item) hij).1
  · exact List.nodup_range

theorem mem_locs {P : Prims} {c : Sketch} {s : Stream} (h : Inv P c s) (item : List Nat)
    {i b : Nat} (hi : i < c.numHashes.toNat) (hb : b < c.numBuckets.toNat) :
    i * c.numBuckets.toNat + b ∈ c.getHashes P item ↔ row P c i item = b := by
  rw [getHashes_eq, h.seedsLen]
  simp only [List.mem_map, List.mem_range]
  constructor
  · rintro ⟨j, _, hj⟩
    obtain ⟨e1, e2⟩ := cell_inj (row_lt h.nb j item) hb hj
    subst e1; exact e2
  · intro hr
    exact ⟨i, hi, by rw [hr]⟩

theorem update_inv {P : Prims} {c : Sketch} {s : Stream} (h : Inv P c s) (item : List Nat)
    (w : Int) : ∃ c', c.update P item w = .ok c' ∧ Inv P c' (s ++ [(item, w)]) ∧
      c'.seed = c.seed ∧ c'.numHashes = c.numHashes ∧ c'.numBuckets = c.numBuckets := by
  unfold Sketch.update
  by_cases hi : item.length = 0
  · rw [if_pos hi]
    have hnil : item = [] := List.eq_nil_of_length_eq_zero hi
    refine ⟨c, rfl, ?_, rfl, rfl, rfl⟩
    refine { h with total := ?_, cell := ?_ }
    · rw [h.total, absWeight_append]; simp [absWeight, hnil]
    · intro i b h1 h2
      rw [h.cell i b h1 h2, weightOf_append]; simp [weightOf, hnil]
  · rw [if_neg hi]
    have hnil : item ≠ [] := fun hh => hi (by rw [hh]; rfl)
    obtain ⟨sl, e, hl, sp⟩ := addAll_spec w (c.getHashes P item) c.slice (locs_nodup h item)
      (locs_lt h item)
    simp only [e, Outcome.ok_bind, Outcome.pure_eq]
    refine ⟨_, rfl, ?_, rfl, rfl, rfl⟩
    refine { nb := h.nb, nbr := h.nbr, nh := h.nh, nhr := h.nhr, small := h.small,
             seeds := h.seeds, len := by simp [hl, h.len], total := ?_, cell := ?_ }
    · simp only
      rw [absWeight_append]
      have : absWeight [(item, w)] = |w| := by simp [absWeight, hnil]
      rw [this, h.total]
      split
      · rename_i hw
        rw [wrap_add_left, wrap_add_right, abs_of_neg hw]
      · rename_i hw
        rw [wrap_add_left, abs_of_nonneg (by omega)]
    · intro i b h1 h2
      simp only at h1 h2 ⊢
      rw [sp, h.cell i b h1 h2, weightOf_append]
      have hw : weightOf [(item, w)] (fun x => row P c i x == b) =
          if row P c i item = b then w else 0 := by
        simp [weightOf, hnil]
      have hw' : weightOf [(item, w)] (fun x => row P
          { c with slice := sl,
                   totalWeight := if w < 0 then wrap 8 (c.totalWeight + wrap 8 (-w))
                                  else wrap 8 (c.totalWeight + w) } i x == b) =
          if row P c i item = b then w else 0 := hw
      by_cases hr : row P c i item = b
      · rw [if_pos ((mem_locs h item h1 h2).mpr hr)]
        simp only [Option.map_some, Option.some.injEq]
        rw [hw', if_pos hr, wrap_add_left]
        rfl
      · rw [if_neg (fun hm => hr ((mem_locs h item h1 h2).mp hm)), hw', if_neg hr, add_zero]
        rfl

theorem new_inv (P : Prims) (nh nb seed : Int) (hnh : 0 ≤ nh) (hnhr : InRange 1 nh)
    (hnbr : InRange 4 nb) (hsmall : nb * nh < 2 ^ 30) (c : Sketch)
    (he : new P nh nb seed = .ok c) :
    Inv P c [] ∧ c.seed = seed ∧ c.numHashes = nh ∧ c.numBuckets = nb := by
  unfold new at he
  split at he
  · cases he
  rename_i h3
  have hr : InRange 4 (nb * nh) := by
    have : 0 ≤ nb * nh := Int.mul_nonneg (by omega) hnh
    constructor <;> norm_num <;> omega
  rw [wrap_of_inRange hr] at he
  split at he
  · cases he
  split at he
  · cases he
  split at he
  · cases he
  simp only [Outcome.ok.injEq] at he
  subst he
  refine ⟨?_, rfl, rfl, rfl⟩
  have hlen : (nb * nh).toNat = nb.toNat * nh.toNat := Int.toNat_mul (by omega) hnh
  refine { nb := by simp; omega, nbr := hnbr, nh := hnh, nhr := hnhr, small := hsmall, seeds := rfl,
           len := by simp [hlen], total := ?_, cell := ?_ }
  · simp [absWeight]; rfl
  · intro i b h1 h2
    simp only at h1 h2 ⊢
    rw [List.getElem?_replicate, if_pos]
    · simp [weightOf]; rfl
    · rw [hlen]
      have : (i + 1) * nb.toNat ≤ nb.toNat * nh.toNat := by
        rw [Nat.mul_comm]; exact Nat.mul_le_mul_left _ h1
      have h2 : (i + 1) * nb.toNat = i * nb.toNat + nb.toNat := by ring
      omega

theorem run_inv (P : Prims) : ∀ (t : Stream) (c : Sketch) (s : Stream), Inv P c s →
    ∃ c', runStream P c t = .ok c' ∧ Inv P c' (s ++ t) ∧ c'.seed = c.seed ∧
      c'.numHashes = c.numHashes ∧ c'.numBuckets = c.numBuckets := by
  intro t
  induction t with
  | nil => intro c s h; exact ⟨c, rfl, by simpa using h, rfl, rfl, rfl⟩
  | cons e t ih =>
    intro c s h
    obtain ⟨c1, e1, i1, a1, a2, a3⟩ := update_inv h e.1 e.2
    obtain ⟨c2, e2, i2, b1, b2, b3⟩ := ih c1 (s ++ [e]) i1
    refine ⟨c2, by simp [runStream, e1, e2], by simpa using i2, ?_, ?_, ?_⟩
    · rw [b1, a1]
    · rw [b2, a2]
    · rw [b3, a3]

theorem estimate_of_inv {P : Prims} {c : Sketch} {s : Stream} (h : Inv P c s) (item : List Nat)
    (hi : item ≠ []) : ∃ r, c.getEstimate P item = .ok r ∧ r ≤ 2 ^ 63 - 1 ∧
      (∀ i, i < c.numHashes.toNat →
        r ≤ wrap 8 (weightOf s (fun x => row P c i x == row P c i item))) ∧
      (r = 2 ^ 63 - 1 ∨ ∃ i, i < c.numHashes.toNat ∧
        r = wrap 8 (weightOf s (fun x => row P c i x == row P c i item))) := by
  obtain ⟨r, e, r1, r2, r3⟩ := minAll_spec c.slice (c.getHashes P item) (2 ^ 63 - 1) (locs_lt h item)
  have hne : item.length ≠ 0 := by
    intro hh; exact hi (List.eq_nil_of_length_eq_zero hh)
  refine ⟨r, by rw [Sketch.getEstimate, if_neg hne]; exact e, r1, ?_, ?_⟩
  · intro i hlt
    refine r2 (i * c.numBuckets.toNat + row P c i item) ?_ _
      (h.cell i _ hlt (row_lt h.nb i item))
    exact (mem_locs h item hlt (row_lt h.nb i item)).mpr rfl
  · rcases r3 with r3 | ⟨l, hl, hv⟩
    · exact Or.inl r3
    · right
      rw [getHashes_eq, h.seedsLen] at hl
      simp only [List.mem_map, List.mem_range] at hl
      obtain ⟨i, hlt, rfl⟩ := hl
      rw [h.cell i _ hlt (row_lt h.nb i item)] at hv
      simp only [Option.some.injEq] at hv
      exact ⟨i, hlt, hv.symm⟩

theorem wrap_weightOf {s : Stream} (hs : absWeight s < 2 ^ 63) (p : List Nat → Bool) :
    wrap 8 (weightOf s p) = weightOf s p := by
  apply wrap_of_inRange
  have h := abs_weightOf_le s p
  rw [abs_le] at h
  constructor <;> norm_num <;> omega

/-! ## the properties -/

/-- C20.  For every stream of non-negative weights (total below 2^63), every choice of hash
functions and every non-empty item: the estimate is at least the item's true weight and at most the
total weight of the stream. -/
theorem C20_estimate_bounds (P : Prims) (nh nb seed : Int) (hnh : 1 ≤ nh) (hnhr : InRange 1 nh)
    (hnbr : InRange 4 nb) (hsmall : nb * nh < 2 ^ 30) (c : Sketch)
    (hnew : new P nh nb seed = .ok c) (s : Stream) (hs : ∀ e ∈ s, 0 ≤ e.2)
    (hov : absWeight s < 2 ^ 63) (item : List Nat) (hitem : item ≠ []) :
    ∃ c' r, runStream P c s = .ok c' ∧ c'.getEstimate P item = .ok r ∧
      weightOf s (fun x => x == item) ≤ r ∧ r ≤ weightOf s (fun _ => true) ∧
      c'.totalWeight = weightOf s (fun _ => true) := by
  obtain ⟨i0, -, e2, e3⟩ := new_inv P nh nb seed (by omega) hnhr hnbr hsmall c hnew
  obtain ⟨c', e, inv, -, b2, b3⟩ := run_inv P s c [] i0
  rw [List.nil_append] at inv
  obtain ⟨r, er, r1, r2, r3⟩ := estimate_of_inv inv item hitem
  have hpos : 0 < c'.numHashes.toNat := by rw [b2, e2]; omega
  refine ⟨c', r, e, er, ?_, ?_, ?_⟩
  · have hle : ∀ i, weightOf s (fun x => x == item) ≤
        weightOf s (fun x => row P c' i x == row P c' i item) := by
      intro i
      apply weightOf_mono s hs
      intro x hx
      have : x = item := by simpa using hx
      subst this; simp
    rcases r3 with r3 | ⟨i, _, hv⟩
    · have := abs_weightOf_le s (fun x => x == item)
      rw [abs_le] at this
      rw [r3]; omega
    · rw [hv, wrap_weightOf hov]; exact hle i
  · have h1 := r2 0 hpos
    rw [wrap_weightOf hov] at h1
    refine le_trans h1 (weightOf_mono s hs _ _ (fun _ _ => rfl))
  · rw [inv.total, weightOf_true_eq s hs, wrap_of_inRange]
    have := absWeight_nonneg s
    constructor <;> norm_num <;> omega

theorem addSlices_spec : ∀ (a b : List Int), a.length = b.length →
    addSlices a b = .ok (List.zipWith (fun x y => wrap 8 (x + y)) a b) := by
  intro a
  induction a with
  | nil => intro b _; simp [addSlices]
  | cons x a ih =>
    intro b hb
    cases b with
    | nil => simp at hb
    | cons y b =>
      rw [addSlices, ih b (by simpa using hb)]
      simp

theorem inv_unique {P : Prims} {c d : Sketch} {s : Stream} (h1 : Inv P c s) (h2 : Inv P d s)
    (a : c.seed = d.seed) (b : c.numHashes = d.numHashes) (e : c.numBuckets = d.numBuckets) :
    c = d := by
  have hs : c.hashSeeds = d.hashSeeds := by rw [h1.seeds, h2.seeds, a, b]
  have ht : c.totalWeight = d.totalWeight := by rw [h1.total, h2.total]
  have hsl : c.slice = d.slice := by
    apply List.ext_getElem?
    intro j
    by_cases hj : j < c.slice.length
    · have hnb : 0 < c.numBuckets.toNat := by have := h1.nb; omega
      have hi : j / c.numBuckets.toNat < c.numHashes.toNat := by
        rw [Nat.div_lt_iff_lt_mul hnb, Nat.mul_comm, ← h1.len]; exact hj
      have hb : j % c.numBuckets.toNat < c.numBuckets.toNat := Nat.mod_lt _ hnb
      have hjd : j = j / c.numBuckets.toNat * c.numBuckets.toNat + j % c.numBuckets.toNat := by
        rw [Nat.mul_comm]; exact (Nat.div_add_mod j _).symm
      have c1 := h1.cell _ _ hi hb
      have c2 := h2.cell (j / c.numBuckets.toNat) (j % c.numBuckets.toNat) (by rw [← b]; exact hi)
        (by rw [← e]; exact hb)
      rw [← e] at c2
      rw [← hjd] at c1 c2
      rw [c1, c2]
      have : ∀ i x, row P c i x = row P d i x := by
        intro i x; simp [row, hs, e]
      simp only [this]
    · rw [List.getElem?_eq_none (by omega), List.getElem?_eq_none]
      rw [h2.len, ← e, ← b, ← h1.len]; omega
  cases c; cases d
  simp only at a b e hs ht hsl
  subst a; subst b; subst e; subst hs; subst ht; subst hsl
  rfl

/-- C21.  Merging a sketch that processed `t` into one that processed `s` (same parameters)
gives exactly the sketch that processed `s` followed by `t`, and also the one that processed `t`
followed by `s`; no overflow assumption is needed. -/
theorem C21_merge_is_concatenation (P : Prims) (nh nb seed : Int) (hnh : 0 ≤ nh)
    (hnhr : InRange 1 nh) (hnbr : InRange 4 nb) (hsmall : nb * nh < 2 ^ 30) (c : Sketch)
    (hnew : new P nh nb seed = .ok c) (s t : Stream) :
    ∃ a b m, runStream P c s = .ok a ∧ runStream P c t = .ok b ∧ a.merge false b = .ok m ∧
      runStream P c (s ++ t) = .ok m ∧ runStream P c (t ++ s) = .ok m := by
  obtain ⟨i0, -, -, -⟩ := new_inv P nh nb seed hnh hnhr hnbr hsmall c hnew
  obtain ⟨a, ea, ia, a1, a2, a3⟩ := run_inv P s c [] i0
  obtain ⟨b, eb, ib, b1, b2, b3⟩ := run_inv P t c [] i0
  obtain ⟨x, ex, ix, x1, x2, x3⟩ := run_inv P (s ++ t) c [] i0
  obtain ⟨y, ey, iy, y1, y2, y3⟩ := run_inv P (t ++ s) c [] i0
  rw [List.nil_append] at ia ib ix iy
  have hlen : a.slice.length = b.slice.length := by
    rw [ia.len, ib.len, a2, a3, b2, b3]
  have hrow : ∀ (d : Sketch), d.hashSeeds = a.hashSeeds → d.numBuckets = a.numBuckets →
      ∀ i z, row P d i z = row P a i z := by
    intro d h1 h2 i z; simp [row, h1, h2]
  have hbs : b.hashSeeds = a.hashSeeds := by rw [ia.seeds, ib.seeds, a1, b1, a2, b2]
  let m : Sketch := { a with slice := List.zipWith (fun x y => wrap 8 (x + y)) a.slice b.slice,
                             totalWeight := wrap 8 (a.totalWeight + b.totalWeight) }
  have hm : a.merge false b = .ok m := by
    unfold Sketch.merge
    rw [if_neg (by decide), if_pos ⟨by rw [a2, b2], by rw [a3, b3], by rw [a1, b1]⟩,
      addSlices_spec _ _ hlen]
    rfl
  have im : Inv P m (s ++ t) := by
    refine { nb := ia.nb, nbr := ia.nbr, nh := ia.nh, nhr := ia.nhr, small := ia.small,
             seeds := ia.seeds, len := ?_, total := ?_, cell := ?_ }
    · simp only [m, List.length_zipWith]; rw [← hlen, Nat.min_self]; exact ia.len
    · simp only [m]
      rw [ia.total, ib.total, wrap_add_left, wrap_add_right, absWeight_append]
    · intro i j h1 h2
      simp only [m] at h1 h2 ⊢
      have cb := ib.cell i j (by rw [b2, ← a2]; exact h1) (by rw [b3, ← a3]; exact h2)
      rw [b3, ← a3] at cb
      rw [List.getElem?_zipWith, ia.cell i j h1 h2, cb]
      simp only [Option.some.injEq]
      rw [wrap_add_left, wrap_add_right, weightOf_append]
      congr 2
      apply congrArg
      funext z
      rw [hrow b hbs (by rw [a3, b3])]
      rfl
  have im' : Inv P m (t ++ s) := by
    refine { im with total := ?_, cell := ?_ }
    · rw [im.total, absWeight_append, absWeight_append, add_comm]
    · intro i j h1 h2
      rw [im.cell i j h1 h2, weightOf_append, weightOf_append, add_comm]
  refine ⟨a, b, m, ea, eb, hm, ?_, ?_⟩
  · rw [ex]; congr 1
    exact inv_unique ix im (by rw [x1, ← a1]) (by rw [x2, ← a2]) (by rw [x3, ← a3])
  · rw [ey]; congr 1
    exact inv_unique iy im' (by rw [y1, ← a1]) (by rw [y2, ← a2]) (by rw [y3, ← a3])

/-- C21: sketches with different parameters are rejected. -/
theorem C21_merge_rejects_incompatible (a b : Sketch)
    (h : ¬ (a.numHashes = b.numHashes ∧ a.numBuckets = b.numBuckets ∧ a.seed = b.seed)) :
    ∃ e, a.merge false b = .err e := by
  simp [Sketch.merge, h]

theorem readK_append (k v : Nat) (r : List Nat) (hv : v < 256 ^ k) :
    readK k (toLE k v ++ r) = .ok (v, r) := by
  unfold readK
  rw [if_pos (by simp)]
  rw [List.take_append_of_le_length (by simp), List.take_of_length_le (by simp),
    List.drop_append_of_le_length (by simp), List.drop_of_length_le (by simp), fromLE_toLE_of_lt hv]
  rfl

theorem readCounters_spec : ∀ (vs : List Int) (fuel i : Nat) (sl : List Int),
    (∀ v ∈ vs, InRange 8 v) → i + vs.length ≤ sl.length → vs.length < fuel →
    ∃ sl', readCounters fuel (vs.flatMap (fun v => toLE 8 (toU 8 v))) i sl = .ok sl' ∧
      sl'.length = sl.length ∧
      (∀ j, sl'[j]? = if i ≤ j ∧ j < i + vs.length then vs[j - i]? else sl[j]?) := by
  intro vs
  induction vs with
  | nil =>
    intro fuel i sl _ _ hf
    obtain ⟨f, rfl⟩ : ∃ f, fuel = f + 1 := ⟨fuel - 1, by simp at hf; omega⟩
    refine ⟨sl, by simp [readCounters], rfl, ?_⟩
    intro j; rw [if_neg]; simp
  | cons v vs ih =>
    intro fuel i sl hr hlen hf
    simp only [List.length_cons] at hlen hf
    obtain ⟨f, rfl⟩ : ∃ f, fuel = f + 1 := ⟨fuel - 1, by omega⟩
    obtain ⟨sl', e, hl, sp⟩ := ih f (i + 1) (sl.set i v) (fun x hx => hr x (by simp [hx]))
      (by simp; omega) (by omega)
    refine ⟨sl', ?_, by simpa using hl, ?_⟩
    · rw [List.flatMap_cons, readCounters, if_pos (by simp)]
      rw [readK_append 8 _ _ (toU_lt 8 v)]
      simp only [Outcome.ok_bind]
      rw [if_pos (by omega)]
      have : toS 8 (toU 8 v) = v := wrap_of_inRange (hr v (by simp))
      rw [this]; exact e
    · intro j
      rw [sp j]
      simp only [List.length_cons]
      by_cases hj : j = i
      · subst hj
        rw [if_neg (by omega), if_pos (by omega), List.getElem?_set_self (by omega)]
        simp
      · by_cases h2 : i + 1 ≤ j ∧ j < i + 1 + vs.length
        · rw [if_pos h2, if_pos (by omega)]
          rw [show j - i = (j - (i + 1)) + 1 by omega, List.getElem?_cons_succ]
        · rw [if_neg h2, if_neg (by omega), List.getElem?_set_ne (Ne.symm hj)]

/-- C22.  Serializing any reachable sketch (with a seed whose seed hash is valid and whose total
weight did not overflow) and deserializing with the same seed gives back exactly the same sketch. -/
theorem C22_serialize_roundtrip (P : Prims) (nh nb seed : Int) (hnh : 0 ≤ nh)
    (hnhr : InRange 1 nh) (hnbr : InRange 4 nb) (hsmall : nb * nh < 2 ^ 30) (c : Sketch)
    (hnew : new P nh nb seed = .ok c) (s : Stream) (hov : absWeight s < 2 ^ 63)
    (sh : Int) (hsh : P.seedHash seed = some sh) :
    ∃ c' bytes, runStream P c s = .ok c' ∧ c'.serialize P = .ok bytes ∧
      deserialize P bytes seed = .ok c' := by
  obtain ⟨i0, e1, e2, e3⟩ := new_inv P nh nb seed hnh hnhr hnbr hsmall c hnew
  obtain ⟨c', e, inv, b1, b2, b3⟩ := run_inv P s c [] i0
  rw [List.nil_append] at inv
  have hseed : c'.seed = seed := by rw [b1, e1]
  have hnb' : c'.numBuckets = nb := by rw [b3, e3]
  have hnh' : c'.numHashes = nh := by rw [b2, e2]
  have s4 : toS 4 (toU 4 nb) = nb := wrap_of_inRange hnbr
  have s1 : toS 1 (toU 1 nh) = nh := wrap_of_inRange hnhr
  have htot : c'.totalWeight = absWeight s := by
    rw [inv.total]; apply wrap_of_inRange
    have := absWeight_nonneg s
    constructor <;> norm_num <;> omega
  refine ⟨c', ?_⟩
  unfold Sketch.serialize
  simp only [hseed, hsh]
  by_cases hz : c'.totalWeight = 0
  · have hz' : (c'.totalWeight == 0) = true := by simp [hz]
    simp only [hz', if_true]
    refine ⟨_, e, rfl, ?_⟩
    unfold deserialize
    simp only [List.append_assoc]
    rw [readK_append 1 2 _ (by decide)]; simp only [Outcome.ok_bind]
    rw [readK_append 1 1 _ (by decide)]; simp only [Outcome.ok_bind]
    rw [readK_append 1 18 _ (by decide)]; simp only [Outcome.ok_bind]
    rw [readK_append 1 1 _ (by decide)]; simp only [Outcome.ok_bind]
    rw [if_neg (by simp)]
    rw [List.drop_append_of_le_length (by simp), List.drop_of_length_le (by simp), List.nil_append]
    rw [readK_append 4 _ _ (toU_lt 4 _)]; simp only [Outcome.ok_bind]
    rw [readK_append 1 _ _ (toU_lt 1 _)]; simp only [Outcome.ok_bind]
    rw [readK_append 2 _ _ (toU_lt 2 _)]; simp only [Outcome.ok_bind]
    have := readK_append 1 0 [] (by decide)
    rw [List.append_nil] at this
    rw [this]; simp only [Outcome.ok_bind]
    rw [hnb', hnh', s4, s1, hnew]
    simp only [Outcome.ok_bind]
    rw [if_pos (by decide)]
    congr 1
    -- a stream of total absolute weight zero leaves every counter at zero
    have habs : absWeight s = 0 := by rw [← htot]; exact hz
    have i0' : Inv P c s := by
      refine { i0 with total := ?_, cell := ?_ }
      · rw [habs, i0.total]; rfl
      · intro i b h1 h2
        rw [i0.cell i b h1 h2]
        have : weightOf s (fun x => row P c i x == b) = 0 := by
          have := abs_weightOf_le s (fun x => row P c i x == b)
          rw [habs, abs_le] at this
          omega
        rw [this]; rfl
    exact inv_unique i0' inv (by rw [b1]) (by rw [b2]) (by rw [b3])
  · have hz' : ¬ (c'.totalWeight == 0) = true := by simp [hz]
    simp only [if_neg hz']
    refine ⟨_, e, rfl, ?_⟩
    unfold deserialize
    simp only [List.append_assoc]
    rw [readK_append 1 2 _ (by decide)]; simp only [Outcome.ok_bind]
    rw [readK_append 1 1 _ (by decide)]; simp only [Outcome.ok_bind]
    rw [readK_append 1 18 _ (by decide)]; simp only [Outcome.ok_bind]
    rw [readK_append 1 0 _ (by decide)]; simp only [Outcome.ok_bind]
    rw [if_neg (by simp)]
    rw [List.drop_append_of_le_length (by simp), List.drop_of_length_le (by simp), List.nil_append]
    rw [readK_append 4 _ _ (toU_lt 4 _)]; simp only [Outcome.ok_bind]
    rw [readK_append 1 _ _ (toU_lt 1 _)]; simp only [Outcome.ok_bind]
    rw [readK_append 2 _ _ (toU_lt 2 _)]; simp only [Outcome.ok_bind]
    rw [readK_append 1 0 _ (by decide)]; simp only [Outcome.ok_bind]
    rw [hnb', hnh', s4, s1, hnew]
    simp only [Outcome.ok_bind]
    rw [if_neg (by decide), readK_append 8 _ _ (toU_lt 8 _)]
    simp only [Outcome.ok_bind]
    have hlen : c'.slice.length = c.slice.length := by rw [inv.len, i0.len, b2, b3]
    have hrange : ∀ v ∈ c'.slice, InRange 8 v := by
      intro v hv
      obtain ⟨j, hj, rfl⟩ := List.mem_iff_getElem.mp hv
      have hnb0 : 0 < c'.numBuckets.toNat := by have := inv.nb; omega
      have hi : j / c'.numBuckets.toNat < c'.numHashes.toNat := by
        rw [Nat.div_lt_iff_lt_mul hnb0, Nat.mul_comm, ← inv.len]; exact hj
      have hjd : j / c'.numBuckets.toNat * c'.numBuckets.toNat + j % c'.numBuckets.toNat = j := by
        rw [Nat.mul_comm]; exact Nat.div_add_mod j _
      have c1 := inv.cell _ _ hi (Nat.mod_lt j hnb0)
      rw [hjd, List.getElem?_eq_getElem hj] at c1
      simp only [Option.some.injEq] at c1
      rw [c1]; exact wrap_inRange _ _
    obtain ⟨sl', er, hl, sp⟩ := readCounters_spec c'.slice
      ((c'.slice.flatMap (fun v => toLE 8 (toU 8 v))).length + 1) 0 c.slice hrange (by omega)
      (by
        have : ∀ l : List Int, l.length ≤ (l.flatMap (fun v => toLE 8 (toU 8 v))).length := by
          intro l
          induction l with
          | nil => simp
          | cons x l ih => simp only [List.flatMap_cons, List.length_append, toLE_length,
              List.length_cons]; omega
        have := this c'.slice
        omega)
    rw [er]
    simp only [Outcome.ok_bind]
    have hsl : sl' = c'.slice := by
      apply List.ext_getElem?
      intro j
      rw [sp j]
      by_cases hj : j < c'.slice.length
      · rw [if_pos (by omega)]; simp
      · rw [if_neg (by omega), List.getElem?_eq_none (by omega), List.getElem?_eq_none (by omega)]
    have htw : toS 8 (toU 8 c'.totalWeight) = c'.totalWeight := by
      rw [inv.total]; exact wrap_wrap 8 _
    rw [hsl, htw]
    congr 1
    have hs : c.hashSeeds = c'.hashSeeds := by rw [i0.seeds, inv.seeds, b1, b2]
    cases c; cases c'
    simp only at b1 b2 b3 hs
    subst b1; subst b2; subst b3; subst hs
    rfl

/-! ## findings -/

/-- Finding: `GetLowerBound` is not a lower bound of the true weight.  For every sketch of at least
one row in which two distinct items collide in all rows the reported lower bound of one exceeds its
true weight.  (Here: any hash family that maps the two items to the same value.) -/
theorem C42_lower_bound_unsound : ∃ (P : Prims) (c c' : Sketch) (s : Stream) (item : List Nat) (r : Int),
    new P 1 3 0 = .ok c ∧ (∀ e ∈ s, 0 ≤ e.2) ∧ runStream P c s = .ok c' ∧
    c'.getLowerBound P item = .ok r ∧ weightOf s (fun x => x == item) < r := by
  refine ⟨⟨fun _ _ => 0, fun _ n => List.replicate n 0, by simp, fun _ => some 1⟩,
    ⟨3, 1, [0, 0, 0], 0, 0, [0]⟩, ⟨3, 1, [7, 0, 0], 0, 7, [0]⟩, [([1], 5), ([2], 2)], [2], 7,
    by decide +kernel, by simp, by decide +kernel, by decide +kernel, by decide +kernel⟩

/-- Finding: with `numHashes = 0` (accepted by the constructor) every estimate is 2^63 - 1. -/
theorem C42_zero_hashes_estimate (P : Prims) (item : List Nat) (hitem : item ≠ []) :
    ∃ c, new P 0 3 0 = .ok c ∧ c.getEstimate P item = .ok (2 ^ 63 - 1) := by
  refine ⟨⟨3, 0, [], 0, 0, P.seeds 0 0⟩, by rfl, ?_⟩
  have h0 : P.seeds 0 0 = [] := List.eq_nil_of_length_eq_zero (P.seeds_length 0 0)
  have hne : item.length ≠ 0 := by
    intro hh; exact hitem (List.eq_nil_of_length_eq_zero hh)
  rw [Sketch.getEstimate, if_neg hne]
  simp [Sketch.getHashes, h0, locsFrom, minAll]

/-- Finding: the element-count check is done in int32 arithmetic.  64 hash functions of 2^26
buckets overflow to 0, pass the check, and the first update panics. -/
theorem C42_size_check_overflow (P : Prims) (item : List Nat) (hitem : item ≠ []) (w : Int) :
    ∃ c, new P 64 (2 ^ 26) 0 = .ok c ∧ c.update P item w = .panic := by
  refine ⟨⟨2 ^ 26, 64, [], 0, 0, P.seeds 0 64⟩, by rfl, ?_⟩
  have hne : item.length ≠ 0 := by
    intro hh; exact hitem (List.eq_nil_of_length_eq_zero hh)
  rw [Sketch.update, if_neg hne]
  have hl := P.seeds_length 0 64
  cases hs : P.seeds 0 64 with
  | nil => rw [hs] at hl; simp at hl
  | cons a l =>
    simp [Sketch.getHashes, locsFrom, addAll]

/-! ## non-vacuity -/

example : ∃ (P : Prims) (c : Sketch), new P 2 3 0 = .ok c ∧ InRange 1 2 ∧ InRange 4 3 :=
  ⟨⟨fun b s => fromLE b + s.toNat, fun _ n => (List.range n).map (fun i => (i : Int)), by simp,
    fun _ => some 1⟩, _, rfl, by constructor <;> norm_num, by constructor <;> norm_num⟩

end Verif.CountMin
