import Verif.BloomLemmas

/-!
# C23-C27: Bloom filter properties
-/

namespace Verif.Bloom

/-! ## effect of the single operations -/

theorem WF_of_shape {f g : Filter} (hf : WF f) (s : SameShape f g)
    (hc : g.isDirty = false → g.numBitsSet = popcount g.bitArray) : WF g :=
  ⟨by rw [s.cap, s.len]; exact hf.cap, by rw [s.len]; exact hf.pos, by rw [s.len]; exact hf.small,
   by rw [s.nh]; exact hf.h1, by rw [s.nh]; exact hf.h2, hc⟩

theorem bitsUsed_spec {f : Filter} (hf : WF f) :
    f.bitsUsed.2 = popcount f.bitArray ∧ WF f.bitsUsed.1 ∧ SameShape f f.bitsUsed.1 ∧
    f.bitsUsed.1.bitArray = f.bitArray ∧ f.bitsUsed.1.isDirty = false := by
  unfold Filter.bitsUsed
  cases hd : f.isDirty with
  | true =>
    simp only [if_true]
    refine ⟨countBitsSet_eq _, ?_, ⟨rfl, rfl, rfl, rfl⟩, by simp⟩
    exact WF_of_shape hf ⟨rfl, rfl, rfl, rfl⟩ (fun _ => countBitsSet_eq _)
  | false =>
    simp only [Bool.false_eq_true, if_false]
    exact ⟨hf.clean hd, hf, SameShape.refl f, by simp [hd]⟩

theorem update_spec {f : Filter} (hf : WF f) (h : Word × Word) :
    ∃ g, f.update h = .ok g ∧ WF g ∧ SameShape f g ∧
      ∀ j, bitAt g.bitArray j = true ↔ (bitAt f.bitArray j = true ∨
        ∃ t, 1 ≤ t ∧ t ≤ f.numHashes ∧ idxOf f h t = j) := by
  have h2 := hf.h2
  obtain ⟨g, e, s, d, sp⟩ := updateLoop_spec h loopFuel 1 f hf.cap hf.pos hf.h2 (le_refl _)
    (by omega) (by simp only [loopFuel]; omega)
  refine ⟨{ g with isDirty := true }, by simp [Filter.update, e], ?_, ⟨s.seed, s.nh, s.cap, s.len⟩,
    sp⟩
  exact WF_of_shape hf ⟨s.seed, s.nh, s.cap, s.len⟩ (by simp)

theorem query_spec {f : Filter} (hf : WF f) (h : Word × Word) :
    ∃ g b, f.query h = .ok (g, b) ∧ WF g ∧ SameShape f g ∧ g.bitArray = f.bitArray ∧
      (b = true ↔ ∀ t, 1 ≤ t → t ≤ f.numHashes → bitAt f.bitArray (idxOf f h t) = true) := by
  obtain ⟨e1, w, s, e2, d⟩ := bitsUsed_spec hf
  have h2 := hf.h2
  have h1 := hf.h1
  unfold Filter.query Filter.isEmpty
  simp only
  by_cases hz : f.bitsUsed.2 = 0
  · have hz' : (f.bitsUsed.2 == 0) = true := by simp [hz]
    rw [if_pos hz']
    refine ⟨_, _, rfl, w, s, e2, ?_⟩
    constructor
    · intro h; cases h
    · intro hh
      have h3 := hh 1 (le_refl _) h1
      rw [e1, popcount_zero_iff] at hz
      rw [hz _ (by rw [← hf.cap]; exact Nat.mod_lt _ (by have := hf.cap; have := hf.pos; omega))] at h3
      cases h3
  · have hz' : ¬ (f.bitsUsed.2 == 0) = true := by simp [hz]
    rw [if_neg hz']
    obtain ⟨b, e, sp⟩ := queryLoop_spec h f.bitsUsed.1 w.cap w.pos w.h2 loopFuel 1 (le_refl _)
      (by rw [s.nh]; omega) (by rw [s.nh]; simp only [loopFuel]; omega)
    refine ⟨_, b, by simp [e], w, s, e2, ?_⟩
    rw [sp, s.nh, e2]
    simp only [idxOf_shape s]

theorem queryAndUpdate_spec {f : Filter} (hf : WF f) (h : Word × Word) :
    ∃ g b, f.queryAndUpdate h = .ok (g, b) ∧ f.update h = .ok g ∧
      (b = true ↔ ∀ t, 1 ≤ t → t ≤ f.numHashes → bitAt f.bitArray (idxOf f h t) = true) := by
  have h2 := hf.h2
  obtain ⟨g, m, b, e1, e2, e3, e4⟩ := qauLoop_spec h loopFuel 1 f 0 true hf.cap hf.pos hf.h2
    (le_refl _) (by omega) (by simp only [loopFuel]; omega)
  refine ⟨{ g with numBitsSet := g.numBitsSet + m, isDirty := true }, b, ?_, ?_, by simpa using e4⟩
  · simp only [Filter.queryAndUpdate, e1, Outcome.ok_bind, Outcome.pure_eq, Nat.zero_add]
  · simp only [Filter.update, e2, Outcome.ok_bind, Outcome.pure_eq, e3]

theorem compat_iff {f g : Filter} : f.isCompatible g = true ↔
    f.seed = g.seed ∧ f.numHashes = g.numHashes ∧ f.capacityBits = g.capacityBits := by
  simp [Filter.isCompatible, and_assoc]

theorem len_of_compat {f g : Filter} (hf : WF f) (hg : WF g) (hc : f.isCompatible g = true) :
    f.bitArray.length = g.bitArray.length := by
  have := (compat_iff.mp hc).2.2
  have a := hf.cap; have b := hg.cap
  omega

theorem union_spec {f g : Filter} (hf : WF f) (hg : WF g) (hc : f.isCompatible g = true) :
    ∃ r, f.union g = .ok r ∧ WF r ∧ SameShape f r ∧
      ∀ i, i < f.capacityBits → bitAt r.bitArray i = (bitAt f.bitArray i || bitAt g.bitArray i) := by
  have hl := len_of_compat hf hg hc
  have e := combineWith_ok (fun a b => a ||| b) f.bitArray g.bitArray hl
  have sh : SameShape f ⟨f.seed, f.numHashes, false, f.capacityBits,
      popcount (List.zipWith (fun a b => a ||| b) f.bitArray g.bitArray),
      List.zipWith (fun a b => a ||| b) f.bitArray g.bitArray⟩ := ⟨rfl, rfl, rfl, by simp [hl]⟩
  refine ⟨_, by simp only [Filter.union, hc, if_true, unionWith, e, Outcome.ok_bind, Outcome.pure_eq], ?_, sh, ?_⟩
  · exact WF_of_shape hf sh (fun _ => rfl)
  · intro i hi
    exact bitAt_zipWith _ (fun a b => a || b) (fun a b i _ => by simp) _ _ hl i
      (by rw [← hf.cap]; exact hi)

theorem intersect_spec {f g : Filter} (hf : WF f) (hg : WF g) (hc : f.isCompatible g = true) :
    ∃ r, f.intersect g = .ok r ∧ WF r ∧ SameShape f r ∧
      ∀ i, i < f.capacityBits → bitAt r.bitArray i = (bitAt f.bitArray i && bitAt g.bitArray i) := by
  have hl := len_of_compat hf hg hc
  have e := combineWith_ok (fun a b => a &&& b) f.bitArray g.bitArray hl
  have sh : SameShape f ⟨f.seed, f.numHashes, false, f.capacityBits,
      popcount (List.zipWith (fun a b => a &&& b) f.bitArray g.bitArray),
      List.zipWith (fun a b => a &&& b) f.bitArray g.bitArray⟩ := ⟨rfl, rfl, rfl, by simp [hl]⟩
  refine ⟨_, by simp only [Filter.intersect, hc, if_true, intersectWith, e, Outcome.ok_bind, Outcome.pure_eq], ?_, sh, ?_⟩
  · exact WF_of_shape hf sh (fun _ => rfl)
  · intro i hi
    exact bitAt_zipWith _ (fun a b => a && b) (fun a b i _ => by simp) _ _ hl i
      (by rw [← hf.cap]; exact hi)

theorem invert_spec {f : Filter} (hf : WF f) :
    WF f.invert ∧ SameShape f f.invert ∧
      ∀ i, i < f.capacityBits → bitAt f.invert.bitArray i = !bitAt f.bitArray i := by
  have sh : SameShape f f.invert := ⟨rfl, rfl, rfl, by simp [Filter.invert, invertAll]⟩
  refine ⟨WF_of_shape hf sh (fun _ => invertAll_count _), sh, ?_⟩
  intro i hi
  exact bitAt_map_not _ i (by rw [← hf.cap]; exact hi)

theorem bitAt_zeros (arr : List Word) (i : Nat) : bitAt (arr.map (fun _ => 0#64)) i = false := by
  unfold bitAt
  simp only [List.getD, List.getElem?_map]
  cases arr[i / 64]? <;> simp

theorem reset_spec {f : Filter} (hf : WF f) :
    WF f.reset ∧ SameShape f f.reset ∧ ∀ i, bitAt f.reset.bitArray i = false := by
  have sh : SameShape f f.reset := ⟨rfl, rfl, rfl, by simp [Filter.reset]⟩
  refine ⟨WF_of_shape hf sh (fun _ => ?_), sh, bitAt_zeros f.bitArray⟩
  have : popcount (f.bitArray.map (fun _ => 0#64)) = 0 := by
    rw [popcount_zero_iff]; intro i _; exact bitAt_zeros _ i
  exact this.symm

/-! ## construction -/

theorem newBySize_WF (numBits numHashes : Nat) (seed : Word) (h : numHashes < 65535) (f : Filter)
    (he : newBySize numBits numHashes seed = .ok f) :
    WF f ∧ numBits ≤ f.capacityBits ∧ f.capacityBits < numBits + 64 ∧
      ∀ i, bitAt f.bitArray i = false := by
  unfold newBySize at he
  split at he
  · cases he
  split at he
  · cases he
  split at he
  · cases he
  rename_i h1 h2 h3
  simp only [Outcome.ok.injEq] at he
  subst he
  have hz : ∀ n i, bitAt (List.replicate n 0#64) i = false := by
    intro n i
    unfold bitAt
    simp only [List.getD, List.getElem?_replicate]
    split <;> simp
  simp only [maxBits] at h3
  refine ⟨⟨?_, ?_, ?_, by simp; omega, h, fun _ => ?_⟩, ?_, ?_, hz _⟩
  · simp [roundCapacity]; omega
  · simp [roundCapacity]; omega
  · simp [roundCapacity]; omega
  · symm; simp only; rw [popcount_zero_iff]; intro i _; exact hz _ i
  · simp [roundCapacity]; omega
  · simp [roundCapacity]; omega

/-! ## serialization -/

theorem writeWords_spec : ∀ (ws : List Word) (off : Nat) (buf : List Nat),
    off + 8 * ws.length ≤ buf.length →
    ∃ buf', writeWords ws off buf = .ok buf' ∧ buf'.length = buf.length ∧
      (∀ i, i < off → buf'[i]? = buf[i]?) ∧ readWords buf' ws.length off = .ok ws := by
  intro ws
  induction ws with
  | nil => intro off buf _; exact ⟨buf, rfl, rfl, fun _ _ => rfl, rfl⟩
  | cons w ws ih =>
    intro off buf h
    simp only [List.length_cons] at h
    obtain ⟨b', e, hl, hk, hr⟩ := ih (off + 8) (putT buf off 8 w.toNat) (by simp; omega)
    simp only [putT_length] at hl
    refine ⟨b', ?_, hl, ?_, ?_⟩
    · simp only [writeWords, putLE_ok (show off + 8 ≤ buf.length by omega), Outcome.ok_bind, e]
    · intro i hi
      rw [hk i (by omega), getElem?_putT i (by omega)]
    · simp only [List.length_cons, readWords, getLE_ok (show off + 8 ≤ b'.length by omega),
        Outcome.ok_bind, hr, Outcome.pure_eq]
      rw [getT_congr (b := putT buf off 8 w.toNat) (fun i h1 h2 => hk i (by omega)),
        getT_putT_same (by omega)]
      congr 2
      apply BitVec.eq_of_toNat_eq
      have hw := w.isLt
      simp
      omega

/-- C27.  Serializing any well-formed filter and reading it back gives a filter with exactly the
same seed, number of hashes, capacity and bits (and an exact bit count); the byte count is 24 for
an empty filter and `32 + 8 * words` otherwise. -/
theorem C27_serialize_roundtrip (f : Filter) (hf : WF f) :
    ∃ g bytes r, f.toCompactSlice = .ok (g, bytes) ∧ fromSlice bytes = .ok r ∧
      r.seed = f.seed ∧ r.numHashes = f.numHashes ∧ r.capacityBits = f.capacityBits ∧
      r.bitArray = f.bitArray ∧ r.numBitsSet = popcount f.bitArray ∧ r.isDirty = false ∧
      g.bitArray = f.bitArray ∧
      bytes.length = (if popcount f.bitArray = 0 then 24 else 32 + 8 * f.bitArray.length) := by
  obtain ⟨e1, w, s, e2, d⟩ := bitsUsed_spec hf
  have hseed : f.seed.toNat < 256 ^ 8 := by have := f.seed.isLt; omega
  have hnh : f.numHashes < 256 ^ 2 := by have := hf.h2; omega
  have hlen : f.bitArray.length < 256 ^ 4 := by have := hf.small; omega
  have hnh1 := hf.h1
  unfold Filter.toCompactSlice Filter.isEmpty
  simp only
  by_cases hz : popcount f.bitArray = 0
  · have hz' : (f.bitsUsed.2 == 0) = true := by simp [e1, hz]
    simp only [hz', if_true]
    rw [putLE_ok (by simp)]; simp only [Outcome.ok_bind]
    rw [putLE_ok (by simp)]; simp only [Outcome.ok_bind]
    rw [putLE_ok (by simp)]; simp only [Outcome.ok_bind]
    rw [putLE_ok (by simp)]; simp only [Outcome.ok_bind]
    rw [putLE_ok (by simp)]; simp only [Outcome.ok_bind]
    rw [putLE_ok (by simp)]; simp only [Outcome.ok_bind]
    rw [putLE_ok (by simp)]; simp only [Outcome.ok_bind, Outcome.pure_eq]
    refine ⟨_, _, ⟨f.seed, f.numHashes, false, f.capacityBits, 0, f.bitArray⟩, rfl, ?_, rfl, rfl,
      rfl, rfl, hz.symm, rfl, e2, by simp [hz]⟩
    rw [s.nh, s.seed, e2]
    unfold fromSlice
    rw [if_neg (by simp)]
    rw [getLE_ok (by simp)]; simp only [Outcome.ok_bind]
    rw [getLE_ok (by simp)]; simp only [Outcome.ok_bind]
    rw [getLE_ok (by simp)]; simp only [Outcome.ok_bind]
    rw [getLE_ok (by simp)]; simp only [Outcome.ok_bind]
    rw [getLE_ok (by simp)]; simp only [Outcome.ok_bind]
    rw [getLE_ok (by simp)]; simp only [Outcome.ok_bind]
    rw [getLE_ok (by simp)]; simp only [Outcome.ok_bind]
    simp (disch := simp) only [getT_putT_disj, getT_putT_same, putT_length, List.length_replicate]
    have hzero : List.replicate f.bitArray.length 0#64 = f.bitArray := by
      apply bitAt_ext (by simp)
      intro i hi
      rw [(popcount_zero_iff _).mp hz i (by simpa using hi)]
      have := bitAt_zeros f.bitArray i
      rwa [List.map_const'] at this
    have hcap := hf.cap
    have h16 : f.bitArray.length % 256 ^ 4 = f.bitArray.length := Nat.mod_eq_of_lt hlen
    have h4 : f.numHashes % 256 ^ 2 = f.numHashes := Nat.mod_eq_of_lt hnh
    have h8 : f.seed.toNat % 256 ^ 8 = f.seed.toNat := Nat.mod_eq_of_lt hseed
    rw [h16, h4, h8, hzero]
    rw [if_neg (by decide), if_neg (by decide)]
    rw [show ((4 % 256 ^ 1 &&& 4) != 0) = true by decide]
    simp only [if_true]
    rw [if_neg (by decide), if_neg (by omega)]
    simp [hcap, Nat.mul_comm]
  · have hz' : ¬ (f.bitsUsed.2 == 0) = true := by simp [e1, hz]
    simp only [if_neg hz']
    have dd : f.bitsUsed.1.bitsUsed = (f.bitsUsed.1, popcount f.bitArray) := by
      have h3 := bitsUsed_spec w
      rw [e2] at h3
      refine Prod.ext ?_ h3.1
      unfold Filter.bitsUsed at d ⊢
      rw [if_neg]
      rw [d]; simp
    rw [s.nh, s.seed, e2]
    have hL : ∀ x, (List.replicate (32 + f.bitArray.length * 8) 0 : List Nat).length = x →
      32 + f.bitArray.length * 8 = x := by intro x hx; simpa using hx
    rw [putLE_ok (by simp; omega)]; simp only [Outcome.ok_bind]
    rw [putLE_ok (by simp; omega)]; simp only [Outcome.ok_bind]
    rw [putLE_ok (by simp; omega)]; simp only [Outcome.ok_bind]
    rw [putLE_ok (by simp; omega)]; simp only [Outcome.ok_bind]
    rw [putLE_ok (by simp; omega)]; simp only [Outcome.ok_bind]
    rw [putLE_ok (by simp; omega)]; simp only [Outcome.ok_bind]
    rw [putLE_ok (by simp; omega)]; simp only [Outcome.ok_bind]
    simp only [dd]
    rw [putLE_ok (by simp)]; simp only [Outcome.ok_bind, e2]
    obtain ⟨b', ew, hwl, hwk, hwr⟩ := writeWords_spec f.bitArray 32
      (putT (putT (putT (putT (putT (putT (putT (putT (List.replicate (32 + f.bitArray.length * 8) 0)
        0 1 4) 1 1 1) 2 1 21) 3 1 0) 4 2 f.numHashes) 8 8 f.seed.toNat) 16 4 f.bitArray.length)
        24 8 (popcount f.bitArray)) (by simp; omega)
    simp only [ew, Outcome.ok_bind, Outcome.pure_eq]
    have hb : b'.length = 32 + f.bitArray.length * 8 := by simpa using hwl
    refine ⟨_, b', ⟨f.seed, f.numHashes, false, f.capacityBits, popcount f.bitArray, f.bitArray⟩,
      rfl, ?_, rfl, rfl, rfl, rfl, rfl, rfl, e2, by simp [hz, hb]; omega⟩
    have hread : ∀ o k, o + k ≤ 32 → getT b' o k = getT (putT (putT (putT (putT (putT (putT (putT
        (putT (List.replicate (32 + f.bitArray.length * 8) 0)
        0 1 4) 1 1 1) 2 1 21) 3 1 0) 4 2 f.numHashes) 8 8 f.seed.toNat) 16 4 f.bitArray.length)
        24 8 (popcount f.bitArray)) o k := by
      intro o k hok
      exact getT_congr (fun i _ _ => hwk i (by omega))
    unfold fromSlice
    rw [if_neg (by omega)]
    rw [getLE_ok (by omega)]; simp only [Outcome.ok_bind]
    rw [getLE_ok (by omega)]; simp only [Outcome.ok_bind]
    rw [getLE_ok (by omega)]; simp only [Outcome.ok_bind]
    rw [getLE_ok (by omega)]; simp only [Outcome.ok_bind]
    rw [getLE_ok (by omega)]; simp only [Outcome.ok_bind]
    rw [getLE_ok (by omega)]; simp only [Outcome.ok_bind]
    rw [getLE_ok (by omega)]; simp only [Outcome.ok_bind]
    simp (disch := simp) only [hread]
    simp (disch := (simp; try omega)) only [getT_putT_disj, getT_putT_same]
    have h16 : f.bitArray.length % 256 ^ 4 = f.bitArray.length := Nat.mod_eq_of_lt hlen
    have h4 : f.numHashes % 256 ^ 2 = f.numHashes := Nat.mod_eq_of_lt hnh
    have h8 : f.seed.toNat % 256 ^ 8 = f.seed.toNat := Nat.mod_eq_of_lt hseed
    have hp8 : popcount f.bitArray < 256 ^ 8 - 1 := by
      have := popcount_le f.bitArray; have := hf.small; omega
    rw [h16, h4, h8]
    rw [if_neg (by decide), if_neg (by decide)]
    rw [show ((0 % 256 ^ 1 &&& 4) != 0) = false by decide]
    simp only [Bool.false_eq_true, if_false]
    rw [if_neg (by decide), if_neg (by omega), if_neg (by omega), getLE_ok (by omega)]
    simp only [Outcome.ok_bind, hwr]
    simp (disch := simp) only [hread]
    simp (disch := (simp; try omega)) only [getT_putT_same]
    rw [Nat.mod_eq_of_lt (by omega : popcount f.bitArray < 256 ^ 8)]
    rw [if_neg (by omega)]
    have hcap := hf.cap
    simp [hcap, Nat.mul_comm]

/-! ## histories -/

/-- API operations on a filter; the operand of the set operations is another filter. -/
inductive Op where
  | update (d : Datum)
  | queryAndUpdate (d : Datum)
  | query (d : Datum)
  | bitsUsed
  | union (g : Filter)
  | intersect (g : Filter)
  | invert
  | reset
  | reserialize      -- ToCompactSlice followed by NewBloomFilterFromSlice

/-- One call.  An `error` result leaves the filter as it was. -/
def step (H : Hasher) (f : Filter) : Op → Outcome Filter
  | .update d => f.updateDatum H d
  | .queryAndUpdate d => do let (g, _) ← f.queryAndUpdateDatum H d; pure g
  | .query d => do let (g, _) ← f.queryDatum H d; pure g
  | .bitsUsed => .ok f.bitsUsed.1
  | .union g => match f.union g with
    | .err _ => .ok f
    | x => x
  | .intersect g => match f.intersect g with
    | .err _ => .ok f
    | x => x
  | .invert => .ok f.invert
  | .reset => .ok f.reset
  | .reserialize => do let (_, bytes) ← f.toCompactSlice; fromSlice bytes

def run (H : Hasher) : Filter → List Op → Outcome Filter
  | f, [] => .ok f
  | f, op :: ops => do let g ← step H f op; run H g ops

/-- operands of set operations are well-formed filters -/
def OpOK : Op → Prop
  | .union g => WF g
  | .intersect g => WF g
  | _ => True

/-- operations that never remove an item -/
def Monotone : Op → Prop
  | .intersect _ => False
  | .invert => False
  | .reset => False
  | _ => True

theorem step_spec (H : Hasher) (f : Filter) (hf : WF f) (op : Op) (hop : OpOK op) :
    ∃ g, step H f op = .ok g ∧ WF g ∧ SameShape f g ∧
      (Monotone op → ∀ j, bitAt f.bitArray j = true → bitAt g.bitArray j = true) := by
  have upd : ∀ d, ∃ g, f.updateDatum H d = .ok g ∧ WF g ∧ SameShape f g ∧
      ∀ j, bitAt f.bitArray j = true → bitAt g.bitArray j = true := by
    intro d
    unfold Filter.updateDatum
    cases hashes H f.seed d with
    | none => exact ⟨f, rfl, hf, SameShape.refl f, fun _ h => h⟩
    | some h =>
      obtain ⟨g, e, w, s, sp⟩ := update_spec hf h
      exact ⟨g, e, w, s, fun j hj => (sp j).mpr (Or.inl hj)⟩
  have lenlt : ∀ j, bitAt f.bitArray j = true → j < f.capacityBits := by
    intro j hj
    by_contra hc
    unfold bitAt at hj
    have hcap := hf.cap
    rw [List.getD, List.getElem?_eq_none (by omega)] at hj
    simp at hj
  cases op with
  | update d =>
    obtain ⟨g, a, b, c, e⟩ := upd d
    exact ⟨g, a, b, c, fun _ => e⟩
  | queryAndUpdate d =>
    cases hh : hashes H f.seed d with
    | none =>
      exact ⟨f, by simp [step, Filter.queryAndUpdateDatum, hh], hf, SameShape.refl f, fun _ _ h => h⟩
    | some h =>
      obtain ⟨g, b, e1, e2, -⟩ := queryAndUpdate_spec hf h
      obtain ⟨g', e, w, s, sp⟩ := update_spec hf h
      rw [e2] at e; simp only [Outcome.ok.injEq] at e; subst e
      exact ⟨g, by simp [step, Filter.queryAndUpdateDatum, hh, e1], w, s, fun _ j hj => (sp j).mpr (Or.inl hj)⟩
  | query d =>
    cases hh : hashes H f.seed d with
    | none =>
      exact ⟨f, by simp [step, Filter.queryDatum, hh], hf, SameShape.refl f, fun _ _ h => h⟩
    | some h =>
      obtain ⟨g, b, e1, w, s, e2, -⟩ := query_spec hf h
      exact ⟨g, by simp [step, Filter.queryDatum, hh, e1], w, s, fun _ j hj => by rw [e2]; exact hj⟩
  | bitsUsed =>
    obtain ⟨-, w, s, e2, -⟩ := bitsUsed_spec hf
    exact ⟨_, rfl, w, s, fun _ j hj => by rw [e2]; exact hj⟩
  | union g =>
    cases hc : f.isCompatible g with
    | false =>
      refine ⟨f, ?_, hf, SameShape.refl f, fun _ _ h => h⟩
      simp [step, Filter.union, hc]
    | true =>
      obtain ⟨r, e, w, s, sp⟩ := union_spec hf hop hc
      refine ⟨r, by simp [step, e], w, s, fun _ j hj => ?_⟩
      rw [sp j (lenlt j hj), hj]; rfl
  | intersect g =>
    cases hc : f.isCompatible g with
    | false =>
      refine ⟨f, ?_, hf, SameShape.refl f, fun _ _ h => h⟩
      simp [step, Filter.intersect, hc]
    | true =>
      obtain ⟨r, e, w, s, sp⟩ := intersect_spec hf hop hc
      exact ⟨r, by simp [step, e], w, s, fun h => absurd h (by simp [Monotone])⟩
  | invert =>
    obtain ⟨w, s, -⟩ := invert_spec hf
    exact ⟨_, rfl, w, s, fun h => absurd h (by simp [Monotone])⟩
  | reset =>
    obtain ⟨w, s, -⟩ := reset_spec hf
    exact ⟨_, rfl, w, s, fun h => absurd h (by simp [Monotone])⟩
  | reserialize =>
    obtain ⟨g, bytes, r, e1, e2, a1, a2, a3, a4, a5, a6, -, -⟩ := C27_serialize_roundtrip f hf
    have sh : SameShape f r := ⟨a1, a2, a3, by rw [a4]⟩
    refine ⟨r, by simp [step, e1, e2], WF_of_shape hf sh (fun _ => by rw [a5, a4]), sh, ?_⟩
    intro _ j hj; rw [a4]; exact hj

theorem run_spec (H : Hasher) : ∀ (ops : List Op) (f : Filter), WF f → (∀ op ∈ ops, OpOK op) →
    ∃ g, run H f ops = .ok g ∧ WF g ∧ SameShape f g ∧
      ((∀ op ∈ ops, Monotone op) → ∀ j, bitAt f.bitArray j = true → bitAt g.bitArray j = true) := by
  intro ops
  induction ops with
  | nil => intro f hf _; exact ⟨f, rfl, hf, SameShape.refl f, fun _ _ h => h⟩
  | cons op ops ih =>
    intro f hf hok
    obtain ⟨g, e, w, s, m⟩ := step_spec H f hf op (hok op (by simp))
    obtain ⟨g', e', w', s', m'⟩ := ih g w (fun o ho => hok o (by simp [ho]))
    refine ⟨g', by simp [run, e, e'], w', s.trans s', ?_⟩
    intro hm j hj
    exact m' (fun o ho => hm o (by simp [ho])) j (m (hm op (by simp)) j hj)

/-- C24.  For every filter created with 1..65534 hash functions and every finite history of API
calls, no call panics or loops, and `BitsUsed` equals the number of set bits. -/
theorem C24_bitsUsed_exact (H : Hasher) (numBits numHashes : Nat) (seed : Word) (f : Filter)
    (hn : numHashes < 65535) (hnew : newBySize numBits numHashes seed = .ok f)
    (ops : List Op) (hops : ∀ op ∈ ops, OpOK op) :
    ∃ g, run H f ops = .ok g ∧ g.bitsUsed.2 = popcount g.bitArray := by
  obtain ⟨g, e, w, -, -⟩ := run_spec H ops f (newBySize_WF _ _ _ hn f hnew).1 hops
  exact ⟨g, e, (bitsUsed_spec w).1⟩

/-- C23.  An item inserted at any point of a history (and not a degenerate item that the API
ignores) is reported present after any further calls that do not remove items: other insertions,
queries, unions and serialization round trips. -/
theorem C23_no_false_negatives (H : Hasher) (numBits numHashes : Nat) (seed : Word) (f : Filter)
    (hn : numHashes < 65535) (hnew : newBySize numBits numHashes seed = .ok f)
    (pre post : List Op) (d : Datum) (hd : hashes H seed d ≠ none)
    (hpre : ∀ op ∈ pre, OpOK op) (hpost : ∀ op ∈ post, OpOK op) (hmono : ∀ op ∈ post, Monotone op) :
    ∃ g g', run H f (pre ++ .update d :: post) = .ok g ∧ g.queryDatum H d = .ok (g', true) := by
  have hf := (newBySize_WF _ _ _ hn f hnew).1
  have hseed : f.seed = seed := by
    unfold newBySize at hnew
    split at hnew
    · cases hnew
    split at hnew
    · cases hnew
    split at hnew
    · cases hnew
    simp only [Outcome.ok.injEq] at hnew
    rw [← hnew]
  obtain ⟨f1, e1, w1, s1, -⟩ := run_spec H pre f hf hpre
  cases hh : hashes H seed d with
  | none => exact absurd hh hd
  | some h =>
    obtain ⟨f2, e2, w2, s2, sp2⟩ := update_spec w1 h
    obtain ⟨f3, e3, w3, s3, m3⟩ := run_spec H post f2 w2 hpost
    obtain ⟨f4, b, e4, -, -, -, hb⟩ := query_spec w3 h
    have hbt : b = true := by
      rw [hb]
      intro t ht1 ht2
      apply m3 hmono
      rw [sp2]
      right
      refine ⟨t, ht1, ?_, ?_⟩
      · rw [← s2.nh, ← s3.nh]; exact ht2
      · rw [idxOf_shape (s2.trans s3)]
    have hrunapp : ∀ (l1 l2 : List Op) (x : Filter), run H x (l1 ++ l2) =
        (run H x l1 >>= fun y => run H y l2) := by
      intro l1
      induction l1 with
      | nil => intro l2 x; simp [run]
      | cons o l1 ih =>
        intro l2 x
        simp only [List.cons_append, run]
        cases step H x o with
        | ok y => simp [ih]
        | err e => simp
        | panic => simp
    refine ⟨f3, f4, ?_, ?_⟩
    · rw [hrunapp, e1]
      simp only [Outcome.ok_bind, run, step, Filter.updateDatum]
      rw [s1.seed, hseed, hh]
      simp [e2, e3]
    · unfold Filter.queryDatum
      rw [s3.seed, s2.seed, s1.seed, hseed, hh]
      simp only
      rw [e4, hbt]

/-- C23, union part: whatever either operand reports present, the union reports present. -/
theorem C23_union_keeps_members (H : Hasher) (f g : Filter) (hf : WF f) (hg : WF g)
    (hc : f.isCompatible g = true) (d : Datum)
    (hmem : (∃ f', f.queryDatum H d = .ok (f', true)) ∨ (∃ g', g.queryDatum H d = .ok (g', true))) :
    ∃ r r', f.union g = .ok r ∧ r.queryDatum H d = .ok (r', true) := by
  obtain ⟨r, e, w, s, sp⟩ := union_spec hf hg hc
  have hcc := compat_iff.mp hc
  refine ⟨r, ?_⟩
  unfold Filter.queryDatum at hmem ⊢
  rw [s.seed]
  rw [← hcc.1] at hmem
  cases hh : hashes H f.seed d with
  | none => rw [hh] at hmem; simp at hmem
  | some h =>
    rw [hh] at hmem
    simp only at hmem ⊢
    obtain ⟨r', b, e4, -, -, -, hb⟩ := query_spec w h
    refine ⟨r', e, ?_⟩
    have hbt : b = true := by
      rw [hb]
      intro t ht1 ht2
      have hidx : idxOf r h t = idxOf f h t := idxOf_shape s h t
      have hlt : idxOf f h t < f.capacityBits :=
        Nat.mod_lt _ (by have := hf.cap; have := hf.pos; omega)
      rw [hidx, sp _ hlt]
      rw [s.nh] at ht2
      rcases hmem with ⟨f', hm⟩ | ⟨g', hm⟩
      · obtain ⟨f'', b', e5, -, -, -, hb'⟩ := query_spec hf h
        rw [e5] at hm
        simp only [Outcome.ok.injEq, Prod.mk.injEq] at hm
        rw [hb'.mp hm.2 t ht1 ht2]; rfl
      · obtain ⟨f'', b', e5, -, -, -, hb'⟩ := query_spec hg h
        rw [e5] at hm
        simp only [Outcome.ok.injEq, Prod.mk.injEq] at hm
        have := hb'.mp hm.2 t ht1 (by rw [← hcc.2.1]; exact ht2)
        have hi2 : idxOf g h t = idxOf f h t := by simp [idxOf, hcc.2.2]
        rw [hi2] at this
        rw [this]; simp
    rw [e4, hbt]

/-- C25.  `QueryAndUpdate` returns what `Query` would have returned and leaves the filter exactly
in the state `Update` would. -/
theorem C25_queryAndUpdate_is_query_then_update (H : Hasher) (f : Filter) (hf : WF f) (d : Datum) :
    ∃ g q b, f.queryAndUpdateDatum H d = .ok (g, b) ∧ f.updateDatum H d = .ok g ∧
      f.queryDatum H d = .ok (q, b) := by
  unfold Filter.queryAndUpdateDatum Filter.updateDatum Filter.queryDatum
  cases hashes H f.seed d with
  | none => exact ⟨f, f, false, rfl, rfl, rfl⟩
  | some h =>
    obtain ⟨g, b, e1, e2, e3⟩ := queryAndUpdate_spec hf h
    obtain ⟨q, b', e4, -, -, -, hb⟩ := query_spec hf h
    refine ⟨g, q, b, e1, e2, ?_⟩
    have : b = b' := by
      rw [Bool.eq_iff_iff, e3, hb]
    rw [this]; exact e4

/-- C26.  Set operations act bit by bit; inverting twice restores the filter's bits. -/
theorem C26_set_operations_bitwise (f g : Filter) (hf : WF f) (hg : WF g)
    (hc : f.isCompatible g = true) :
    (∃ u, f.union g = .ok u ∧ u.bitsUsed.2 = popcount u.bitArray ∧
      ∀ i, i < f.capacityBits → bitAt u.bitArray i = (bitAt f.bitArray i || bitAt g.bitArray i)) ∧
    (∃ u, f.intersect g = .ok u ∧ u.bitsUsed.2 = popcount u.bitArray ∧
      ∀ i, i < f.capacityBits → bitAt u.bitArray i = (bitAt f.bitArray i && bitAt g.bitArray i)) ∧
    (∀ i, i < f.capacityBits → bitAt f.invert.bitArray i = !bitAt f.bitArray i) ∧
    f.invert.invert.bitArray = f.bitArray := by
  obtain ⟨u, e, w, -, sp⟩ := union_spec hf hg hc
  obtain ⟨u', e', w', -, sp'⟩ := intersect_spec hf hg hc
  refine ⟨⟨u, e, (bitsUsed_spec w).1, sp⟩, ⟨u', e', (bitsUsed_spec w').1, sp'⟩,
    (invert_spec hf).2.2, ?_⟩
  simp [Filter.invert, invertAll, Function.comp_def]

/-- C23: two filters with incompatible parameters are rejected and left unchanged (an `error`). -/
theorem C26_incompatible_rejected (f g : Filter) (hc : f.isCompatible g = false) :
    (∃ e, f.union g = .err e) ∧ (∃ e, f.intersect g = .err e) := by
  simp [Filter.union, Filter.intersect, hc]

/-! ## the uint16 loop counter with 65535 hash functions -/

/-- Finding: with the (accepted) parameter `numHashes = 65535` the counted loop
`for i := uint16(1); i <= numHashes; i++` of `internalUpdate` never ends: no amount of fuel lets the
model finish.  `NewBloomFilterBySize` accepts the parameter. -/
theorem C41_numHashes_65535_diverges (h : Word × Word) :
    ∀ (fuel i : Nat) (f : Filter), f.numHashes = 65535 → i < 65536 →
      f.capacityBits = 64 * f.bitArray.length → 0 < f.bitArray.length →
      updateLoop h.1 h.2 fuel i f = .panic := by
  intro fuel
  induction fuel with
  | zero => intro i f _ _ _ _; rfl
  | succ fuel ih =>
    intro i f hn hi hcap hpos
    rw [updateLoop, if_pos (by omega), hashIndex_ok (by omega)]
    have hidx : idxOf f h i < 64 * f.bitArray.length := by
      rw [← hcap]; exact Nat.mod_lt _ (by omega)
    simp only [Outcome.ok_bind, getBit_ok hidx]
    split
    · exact ih _ f hn (Nat.mod_lt _ (by decide)) hcap hpos
    · simp only [setBit_ok hidx, Outcome.ok_bind]
      exact ih _ _ hn (Nat.mod_lt _ (by decide)) (by simpa using hcap) (by simpa using hpos)

/-- The parameter is accepted by the constructor. -/
theorem C41_numHashes_65535_accepted (seed : Word) :
    ∃ f, newBySize 64 65535 seed = .ok f ∧ f.numHashes = 65535 ∧
      f.capacityBits = 64 * f.bitArray.length ∧ 0 < f.bitArray.length := by
  refine ⟨_, rfl, rfl, ?_, ?_⟩ <;> simp [roundCapacity]

/-! ## non-vacuity -/

/-- a concrete hasher -/
def demoHasher : Hasher where
  long v s := v * 0x9E3779B185EBCA87#64 + s
  bytes bs s := BitVec.ofNat 64 (fromLE bs) + s

def demoFilter : Filter :=
  ⟨9001#64, 3, false, 128, 0, [0#64, 0#64]⟩

example : newBySize 100 3 9001#64 = .ok demoFilter := by decide +kernel

example : hashes demoHasher 9001#64 (.long 5#64) ≠ none := by simp [hashes]

example : WF demoFilter := (newBySize_WF 100 3 9001#64 (by decide) _ (by decide +kernel)).1

end Verif.Bloom
