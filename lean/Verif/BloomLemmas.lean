import Verif.BloomModel
import Mathlib.Data.List.Basic

namespace Verif.Bloom

/-- Spec view of the bit array: bit number `i`. -/
def bitAt (arr : List Word) (i : Nat) : Bool := (arr.getD (i / 64) 0#64).getLsbD (i % 64)

/-- Spec: number of set bits. -/
def popcount (arr : List Word) : Nat := (List.range (64 * arr.length)).countP (bitAt arr)

theorem shr6 (i : Nat) : i >>> 6 = i / 64 := by simp [Nat.shiftRight_eq_div_pow]
theorem and63 (i : Nat) : i &&& 0x3F = i % 64 := Nat.and_two_pow_sub_one_eq_mod i 6

theorem mask_test (w : Word) (b : Nat) (hb : b < 64) :
    ((w &&& (1#64 <<< b)) != 0#64) = w.getLsbD b := by
  rw [Bool.eq_iff_iff]
  simp only [bne_iff_ne, ne_eq]
  constructor
  · intro h
    by_contra hc
    apply h
    apply BitVec.eq_of_getLsbD_eq
    intro i hi
    simp only [BitVec.getLsbD_and, BitVec.getLsbD_shiftLeft, BitVec.getLsbD_zero,
      Bool.and_eq_false_iff]
    by_cases hib : i = b
    · subst hib; left; simpa using hc
    · right
      simp only [BitVec.getLsbD_one]
      by_cases h2 : i < b
      · simp [h2]
      · have : ¬ (i - b = 0) := by omega
        simp [this]
  · intro h hc
    have := congrArg (fun x : Word => x.getLsbD b) hc
    rw [BitVec.getLsbD_eq_getElem hb] at h
    simp [hb] at this
    rw [this] at h; cases h

/-- the array after setting bit `i` -/
def setT (arr : List Word) (i : Nat) : List Word :=
  arr.set (i / 64) (arr.getD (i / 64) 0#64 ||| (1#64 <<< (i % 64)))

@[simp] theorem setT_length (arr : List Word) (i : Nat) : (setT arr i).length = arr.length := by
  simp [setT]

theorem getD_of_lt {arr : List Word} {i : Nat} (h : i < arr.length) :
    arr[i]? = some (arr.getD i 0#64) := by
  simp [List.getD, List.getElem?_eq_getElem h]

theorem getBit_ok {arr : List Word} {i : Nat} (h : i < 64 * arr.length) :
    getBit arr i = .ok (bitAt arr i) := by
  have hl : i / 64 < arr.length := by omega
  simp only [getBit, shr6, and63, getD_of_lt hl, Outcome.ofOption_some, Outcome.ok_bind,
    Outcome.pure_eq, bitAt]
  rw [mask_test _ _ (Nat.mod_lt _ (by decide))]

theorem setBit_ok {arr : List Word} {i : Nat} (h : i < 64 * arr.length) :
    setBit arr i = .ok (setT arr i) := by
  have hl : i / 64 < arr.length := by omega
  simp only [setBit, shr6, and63, getD_of_lt hl, Outcome.ofOption_some, Outcome.ok_bind,
    Outcome.pure_eq, setT]

theorem getAndSetBit_ok {arr : List Word} {i : Nat} (h : i < 64 * arr.length) :
    getAndSetBit arr i = .ok (setT arr i, bitAt arr i) := by
  have hl : i / 64 < arr.length := by omega
  simp only [getAndSetBit, shr6, and63, getD_of_lt hl, Outcome.ofOption_some, Outcome.ok_bind,
    Outcome.pure_eq, setT, bitAt]
  rw [mask_test _ _ (Nat.mod_lt _ (by decide))]

theorem bitAt_setT {arr : List Word} {i : Nat} (h : i < 64 * arr.length) (j : Nat) :
    bitAt (setT arr i) j = (bitAt arr j || decide (j = i)) := by
  have hl : i / 64 < arr.length := by omega
  have hm : i % 64 < 64 := Nat.mod_lt _ (by decide)
  unfold bitAt setT
  by_cases hw : j / 64 = i / 64
  · rw [hw]
    have e : (arr.set (i / 64) (arr.getD (i / 64) 0#64 ||| 1#64 <<< (i % 64))).getD (i / 64) 0#64
        = arr.getD (i / 64) 0#64 ||| 1#64 <<< (i % 64) := by
      simp [List.getD, hl]
    rw [e, BitVec.getLsbD_or]
    congr 1
    have hj : j % 64 < 64 := Nat.mod_lt _ (by decide)
    simp only [BitVec.getLsbD_shiftLeft, BitVec.getLsbD_one]
    by_cases hji : j = i
    · subst hji; simp [hj]
    · have : j % 64 ≠ i % 64 := by omega
      by_cases hlt : j % 64 < i % 64
      · simp [hji, hlt]
      · have : ¬ (j % 64 - i % 64 = 0) := by omega
        simp [hji, this]
  · have hji : j ≠ i := by intro hh; exact hw (by rw [hh])
    have e : (arr.set (i / 64) (arr.getD (i / 64) 0#64 ||| 1#64 <<< (i % 64))).getD (j / 64) 0#64
        = arr.getD (j / 64) 0#64 := by
      simp only [List.getD]
      rw [List.getElem?_set_ne (Ne.symm hw)]
    rw [e]; simp [hji]

theorem bitAt_ext {a b : List Word} (hlen : a.length = b.length)
    (h : ∀ i, i < 64 * a.length → bitAt a i = bitAt b i) : a = b := by
  apply List.ext_getElem hlen
  intro n h1 h2
  apply BitVec.eq_of_getLsbD_eq
  intro i hi
  have := h (64 * n + i) (by omega)
  unfold bitAt at this
  rw [show (64 * n + i) / 64 = n by omega, show (64 * n + i) % 64 = i by omega] at this
  simpa [List.getD, List.getElem?_eq_getElem h1, List.getElem?_eq_getElem h2] using this

theorem setT_of_bit {arr : List Word} {i : Nat} (h : i < 64 * arr.length)
    (hb : bitAt arr i = true) : setT arr i = arr := by
  apply bitAt_ext (by simp)
  intro j _
  rw [bitAt_setT h]
  by_cases hji : j = i
  · subst hji; simp [hb]
  · simp [hji]

/-! ### counting -/

theorem foldl_count (arr : List Word) (c : Nat) :
    arr.foldl (fun c w => c + onesCount w) c = c + arr.foldl (fun c w => c + onesCount w) 0 := by
  induction arr generalizing c with
  | nil => simp
  | cons w ws ih => simp only [List.foldl_cons]; rw [ih, ih (0 + onesCount w)]; omega

theorem countBitsSet_cons (w : Word) (ws : List Word) :
    countBitsSet (w :: ws) = onesCount w + countBitsSet ws := by
  simp only [countBitsSet, List.foldl_cons]; rw [foldl_count]; omega

theorem popcount_cons (w : Word) (ws : List Word) :
    popcount (w :: ws) = onesCount w + popcount ws := by
  unfold popcount onesCount
  rw [List.length_cons, show 64 * (ws.length + 1) = 64 + 64 * ws.length by omega, List.range_add,
    List.countP_append]
  have e1 : List.countP (bitAt (w :: ws)) (List.range 64)
      = List.countP (fun i => w.getLsbD i) (List.range 64) := by
    apply List.countP_congr
    intro i hi
    have : i < 64 := List.mem_range.mp hi
    unfold bitAt
    rw [Nat.div_eq_of_lt this, Nat.mod_eq_of_lt this]
    simp
  have e2 : List.countP (bitAt (w :: ws)) (List.map (fun x => 64 + x) (List.range (64 * ws.length)))
      = List.countP (bitAt ws) (List.range (64 * ws.length)) := by
    rw [List.countP_map]
    apply List.countP_congr
    intro i _
    unfold bitAt
    simp only [Function.comp]
    rw [show (64 + i) / 64 = i / 64 + 1 by omega, show (64 + i) % 64 = i % 64 by omega]
    simp [List.getD]
  rw [e1, e2]

theorem countBitsSet_eq (arr : List Word) : countBitsSet arr = popcount arr := by
  induction arr with
  | nil => simp [countBitsSet, popcount]
  | cons w ws ih => rw [countBitsSet_cons, popcount_cons, ih]

theorem popcount_zero_iff (arr : List Word) :
    popcount arr = 0 ↔ ∀ i, i < 64 * arr.length → bitAt arr i = false := by
  unfold popcount
  rw [List.countP_eq_zero]
  simp

theorem popcount_le (arr : List Word) : popcount arr ≤ 64 * arr.length := by
  unfold popcount
  exact le_trans (List.countP_le_length) (by simp)

theorem combineWith_ok (op : Word → Word → Word) :
    ∀ (t s : List Word), t.length = s.length →
      combineWith op t s = .ok (List.zipWith op t s, popcount (List.zipWith op t s)) := by
  intro t
  induction t with
  | nil => intro s _; simp [combineWith, popcount]
  | cons a t ih =>
    intro s hs
    cases s with
    | nil => simp at hs
    | cons b s =>
      simp only [combineWith, ih s (by simpa using hs), Outcome.ok_bind, List.zipWith_cons_cons,
        popcount_cons, Outcome.pure_eq]

theorem bitAt_zipWith (op : Word → Word → Word) (bop : Bool → Bool → Bool)
    (hop : ∀ a b i, i < 64 → (op a b).getLsbD i = bop (a.getLsbD i) (b.getLsbD i))
    (t s : List Word) (hlen : t.length = s.length) (i : Nat) (hi : i < 64 * t.length) :
    bitAt (List.zipWith op t s) i = bop (bitAt t i) (bitAt s i) := by
  have h1 : i / 64 < t.length := by omega
  have h2 : i / 64 < s.length := by omega
  unfold bitAt
  have : (List.zipWith op t s).getD (i / 64) 0#64 = op (t.getD (i / 64) 0#64) (s.getD (i / 64) 0#64) := by
    simp [List.getD, List.getElem?_zipWith, List.getElem?_eq_getElem h1, List.getElem?_eq_getElem h2]
  rw [this, hop _ _ _ (Nat.mod_lt _ (by decide))]

theorem bitAt_map_not (t : List Word) (i : Nat) (hi : i < 64 * t.length) :
    bitAt (t.map (fun w => ~~~ w)) i = !bitAt t i := by
  have h1 : i / 64 < t.length := by omega
  unfold bitAt
  have : (t.map (fun w => ~~~ w)).getD (i / 64) 0#64 = ~~~ (t.getD (i / 64) 0#64) := by
    simp [List.getD, List.getElem?_eq_getElem h1]
  rw [this, BitVec.getLsbD_not]
  simp [Nat.mod_lt]

theorem invertAll_count (arr : List Word) :
    (invertAll arr).2 = popcount (invertAll arr).1 := by
  have gen : ∀ (l : List Nat) (c : Nat), l.foldl (· + ·) c = c + l.foldl (· + ·) 0 := by
    intro l
    induction l with
    | nil => simp
    | cons a l ih => intro c; simp only [List.foldl_cons]; rw [ih, ih (0 + a)]; omega
  simp only [invertAll]
  induction arr with
  | nil => simp [popcount]
  | cons w ws ih =>
    simp only [List.map_cons, List.foldl_cons, popcount_cons]
    rw [gen, ih]; omega

/-! ### well-formed filters -/

/-- Well-formed filters: what every constructor establishes and every operation keeps. -/
structure WF (f : Filter) : Prop where
  cap : f.capacityBits = 64 * f.bitArray.length
  pos : 0 < f.bitArray.length
  small : f.bitArray.length < 2 ^ 32
  h1 : 1 ≤ f.numHashes
  h2 : f.numHashes < 65535
  clean : f.isDirty = false → f.numBitsSet = popcount f.bitArray

/-- the index of the `t`-th hash of the pair `h` -/
def idxOf (f : Filter) (h : Word × Word) (t : Nat) : Nat :=
  ((h.1 + BitVec.ofNat 64 t * h.2) >>> 1).toNat % f.capacityBits

theorem hashIndex_ok {f : Filter} (hf : 0 < f.capacityBits) (h : Word × Word) (t : Nat) :
    f.hashIndex h.1 h.2 t = .ok (idxOf f h t) := by
  simp [Filter.hashIndex, idxOf]; omega

/-- Shape shared by the loops: `g` is `f` with another bit array and counter. -/
structure SameShape (f g : Filter) : Prop where
  seed : g.seed = f.seed
  nh : g.numHashes = f.numHashes
  cap : g.capacityBits = f.capacityBits
  len : g.bitArray.length = f.bitArray.length

theorem SameShape.refl (f : Filter) : SameShape f f := ⟨rfl, rfl, rfl, rfl⟩

theorem SameShape.trans {f g h : Filter} (a : SameShape f g) (b : SameShape g h) :
    SameShape f h :=
  ⟨b.seed.trans a.seed, b.nh.trans a.nh, b.cap.trans a.cap, b.len.trans a.len⟩

theorem idxOf_shape {f g : Filter} (s : SameShape f g) (h : Word × Word) (t : Nat) :
    idxOf g h t = idxOf f h t := by simp [idxOf, s.cap]

/-- `updateLoop` sets exactly the bits of the remaining hash indices. -/
theorem updateLoop_spec (h : Word × Word) :
    ∀ (fuel i : Nat) (f : Filter), f.capacityBits = 64 * f.bitArray.length →
      0 < f.bitArray.length → f.numHashes < 65535 → 1 ≤ i → i ≤ f.numHashes + 1 →
      f.numHashes + 1 - i < fuel →
      ∃ g, updateLoop h.1 h.2 fuel i f = .ok g ∧ SameShape f g ∧ g.isDirty = f.isDirty ∧
        ∀ j, bitAt g.bitArray j = true ↔
          (bitAt f.bitArray j = true ∨ ∃ t, i ≤ t ∧ t ≤ f.numHashes ∧ idxOf f h t = j) := by
  intro fuel
  induction fuel with
  | zero => intro i f _ _ _ _ _ h; omega
  | succ fuel ih =>
    intro i f hcap hpos hnh hi1 hi2 hfuel
    rw [updateLoop]
    by_cases hle : i ≤ f.numHashes
    · rw [if_pos hle, hashIndex_ok (by omega)]
      have hidx : idxOf f h i < 64 * f.bitArray.length := by
        rw [← hcap]; exact Nat.mod_lt _ (by omega)
      simp only [Outcome.ok_bind, getBit_ok hidx]
      rw [Nat.mod_eq_of_lt (show i + 1 < 65536 by omega)]
      by_cases hb : bitAt f.bitArray (idxOf f h i) = true
      · rw [if_pos hb]
        obtain ⟨g, e, s, d, sp⟩ := ih (i + 1) f hcap hpos hnh (by omega) (by omega) (by omega)
        refine ⟨g, e, s, d, fun j => ?_⟩
        rw [sp j]
        constructor
        · rintro (h1 | ⟨t, a, b, c⟩)
          · exact Or.inl h1
          · exact Or.inr ⟨t, by omega, b, c⟩
        · rintro (h1 | ⟨t, a, b, c⟩)
          · exact Or.inl h1
          · by_cases ht : t = i
            · subst ht; rw [c] at hb; exact Or.inl hb
            · exact Or.inr ⟨t, by omega, b, c⟩
      · rw [if_neg hb, setBit_ok hidx]
        simp only [Outcome.ok_bind]
        obtain ⟨g, e, s, d, sp⟩ := ih (i + 1)
          { f with bitArray := setT f.bitArray (idxOf f h i), numBitsSet := f.numBitsSet + 1 }
          (by simpa using hcap) (by simpa using hpos) hnh (by omega) (by simp; omega)
          (by simp; omega)
        refine ⟨g, e, ⟨s.seed, s.nh, s.cap, by simpa using s.len⟩, d, fun j => ?_⟩
        rw [sp j]
        simp only [bitAt_setT hidx, Bool.or_eq_true, decide_eq_true_eq]
        constructor
        · rintro ((h1 | h1) | ⟨t, a, b, c⟩)
          · exact Or.inl h1
          · exact Or.inr ⟨i, le_refl _, hle, h1.symm⟩
          · exact Or.inr ⟨t, by omega, b, c⟩
        · rintro (h1 | ⟨t, a, b, c⟩)
          · exact Or.inl (Or.inl h1)
          · by_cases ht : t = i
            · subst ht; exact Or.inl (Or.inr c.symm)
            · exact Or.inr ⟨t, by omega, b, c⟩
    · rw [if_neg hle]
      refine ⟨f, rfl, SameShape.refl f, rfl, fun j => ?_⟩
      constructor
      · intro h; exact Or.inl h
      · rintro (h1 | ⟨t, a, b, c⟩)
        · exact h1
        · omega

/-- `queryLoop` tests exactly the bits of the remaining hash indices. -/
theorem queryLoop_spec (h : Word × Word) (f : Filter)
    (hcap : f.capacityBits = 64 * f.bitArray.length)
    (hpos : 0 < f.bitArray.length) (hnh : f.numHashes < 65535) :
    ∀ (fuel i : Nat), 1 ≤ i → i ≤ f.numHashes + 1 → f.numHashes + 1 - i < fuel →
      ∃ b, queryLoop h.1 h.2 f fuel i = .ok b ∧
        (b = true ↔ ∀ t, i ≤ t → t ≤ f.numHashes → bitAt f.bitArray (idxOf f h t) = true) := by
  intro fuel
  induction fuel with
  | zero => intro i _ _ h; omega
  | succ fuel ih =>
    intro i hi1 hi2 hfuel
    rw [queryLoop]
    by_cases hle : i ≤ f.numHashes
    · rw [if_pos hle, hashIndex_ok (by omega)]
      have hidx : idxOf f h i < 64 * f.bitArray.length := by
        rw [← hcap]; exact Nat.mod_lt _ (by omega)
      simp only [Outcome.ok_bind, getBit_ok hidx]
      rw [Nat.mod_eq_of_lt (show i + 1 < 65536 by omega)]
      by_cases hb : bitAt f.bitArray (idxOf f h i) = true
      · rw [if_pos hb]
        obtain ⟨b, e, sp⟩ := ih (i + 1) (by omega) (by omega) (by omega)
        refine ⟨b, e, ?_⟩
        rw [sp]
        constructor
        · intro hh t a c
          by_cases ht : t = i
          · subst ht; exact hb
          · exact hh t (by omega) c
        · intro hh t a c; exact hh t (by omega) c
      · rw [if_neg hb]
        refine ⟨false, rfl, ?_⟩
        constructor
        · intro h; cases h
        · intro hh; exact absurd (hh i (le_refl _) hle) hb
    · rw [if_neg hle]
      refine ⟨true, rfl, ?_⟩
      constructor
      · intro _ t a c; omega
      · intro _; rfl

/-- `qauLoop` does the same to the filter as `updateLoop` and reports whether all bits were set. -/
theorem qauLoop_spec (h : Word × Word) :
    ∀ (fuel i : Nat) (f : Filter) (n : Nat) (ex : Bool),
      f.capacityBits = 64 * f.bitArray.length →
      0 < f.bitArray.length → f.numHashes < 65535 → 1 ≤ i → i ≤ f.numHashes + 1 →
      f.numHashes + 1 - i < fuel →
      ∃ g m b, qauLoop h.1 h.2 fuel i f n ex = .ok (g, n + m, b) ∧
        updateLoop h.1 h.2 fuel i f = .ok { g with numBitsSet := f.numBitsSet + m } ∧
        g.numBitsSet = f.numBitsSet ∧
        (b = true ↔ ex = true ∧
          ∀ t, i ≤ t → t ≤ f.numHashes → bitAt f.bitArray (idxOf f h t) = true) := by
  intro fuel
  induction fuel with
  | zero => intro i f _ _ _ _ _ _ _ h; omega
  | succ fuel ih =>
    intro i f n ex hcap hpos hnh hi1 hi2 hfuel
    rw [updateLoop, qauLoop]
    by_cases hle : i ≤ f.numHashes
    · rw [if_pos hle, if_pos hle, hashIndex_ok (by omega)]
      have hidx : idxOf f h i < 64 * f.bitArray.length := by
        rw [← hcap]; exact Nat.mod_lt _ (by omega)
      simp only [Outcome.ok_bind, getBit_ok hidx, getAndSetBit_ok hidx]
      rw [Nat.mod_eq_of_lt (show i + 1 < 65536 by omega)]
      by_cases hb : bitAt f.bitArray (idxOf f h i) = true
      · rw [if_pos hb, if_pos hb, setT_of_bit hidx hb]
        obtain ⟨g, m, b, e1, e2, e3, e4⟩ := ih (i + 1) f n (ex && true) hcap hpos hnh
          (by omega) (by omega) (by omega)
        refine ⟨g, m, b, by rw [hb]; exact e1, e2, e3, ?_⟩
        rw [e4]
        simp only [Bool.and_true]
        constructor
        · rintro ⟨hex, hh⟩
          refine ⟨hex, fun t a c => ?_⟩
          by_cases ht : t = i
          · subst ht; exact hb
          · exact hh t (by omega) c
        · rintro ⟨hex, hh⟩
          exact ⟨hex, fun t a c => hh t (by omega) c⟩
      · have hb' : bitAt f.bitArray (idxOf f h i) = false := by simpa using hb
        rw [if_neg hb, if_neg hb, setBit_ok hidx]
        simp only [Outcome.ok_bind]
        obtain ⟨g, m, b, e1, e2, e3, e4⟩ := ih (i + 1)
          { f with bitArray := setT f.bitArray (idxOf f h i) } (n + 1) (ex && false)
          (by simpa using hcap) (by simpa using hpos) hnh (by omega) (by simp; omega)
          (by simp; omega)
        have hcongr : ∀ (fuel i : Nat) (f1 : Filter) (c : Nat) (g1 : Filter),
            updateLoop h.1 h.2 fuel i f1 = .ok g1 → ∀ c, 
            updateLoop h.1 h.2 fuel i { f1 with numBitsSet := f1.numBitsSet + c } =
              .ok { g1 with numBitsSet := g1.numBitsSet + c } := by
          intro fuel
          induction fuel with
          | zero => intro i f1 c g1 he; simp [updateLoop] at he
          | succ fuel ih2 =>
            intro i f1 c g1 he c
            rw [updateLoop] at he ⊢
            by_cases h5 : i ≤ f1.numHashes
            · rw [if_pos h5] at he
              rw [if_pos (show i ≤ ({ f1 with numBitsSet := f1.numBitsSet + c } : Filter).numHashes
                from h5)]
              have hx : ({ f1 with numBitsSet := f1.numBitsSet + c } : Filter).hashIndex h.1 h.2 i
                  = f1.hashIndex h.1 h.2 i := rfl
              rw [hx]
              cases hi : f1.hashIndex h.1 h.2 i with
              | err e => rw [hi] at he; simp at he
              | panic => rw [hi] at he; simp at he
              | ok idx =>
                rw [hi] at he
                simp only [Outcome.ok_bind] at he ⊢
                cases hg : getBit f1.bitArray idx with
                | err e => rw [hg] at he; simp at he
                | panic => rw [hg] at he; simp at he
                | ok bb =>
                  rw [hg] at he
                  simp only [Outcome.ok_bind] at he ⊢
                  cases bb with
                  | true =>
                    simp only [if_true] at he ⊢
                    exact ih2 _ f1 c g1 he c
                  | false =>
                    simp only [Bool.false_eq_true, if_false] at he ⊢
                    cases hs : setBit f1.bitArray idx with
                    | err e => rw [hs] at he; simp at he
                    | panic => rw [hs] at he; simp at he
                    | ok arr =>
                      rw [hs] at he
                      simp only [Outcome.ok_bind] at he ⊢
                      have := ih2 _ _ c g1 he c
                      simp only at this
                      rw [← this]
                      congr 2
                      omega
            · rw [if_neg h5] at he
              rw [if_neg (show ¬ i ≤ ({ f1 with numBitsSet := f1.numBitsSet + c } : Filter).numHashes
                from h5)]
              simp only [Outcome.ok.injEq] at he
              rw [he]
        refine ⟨g, 1 + m, b, ?_, ?_, e3, ?_⟩
        · rw [hb', e1]; congr 2; simp; omega
        · have := hcongr _ _ _ 1 _ e2 1
          simp only at this
          rw [this]
          congr 2
          simp only at e3
          omega
        · rw [e4]
          simp only [Bool.and_false, Bool.false_eq_true, false_and, false_iff, not_and]
          intro _ hh
          exact hb (hh i (le_refl _) hle)
    · rw [if_neg hle, if_neg hle]
      refine ⟨f, 0, ex, rfl, ?_, rfl, ?_⟩
      · rfl
      · constructor
        · intro hx; exact ⟨hx, fun t a c => by omega⟩
        · intro hx; exact hx.1

end Verif.Bloom
