import Verif.ThetaSerdeProps

/-!
# C109: the advertised maximum size of a serialized theta sketch
-/

namespace Verif.Theta

open Probe HashTable

/-- the number computed inside `MaxSerializedSizeBytes` theta/compact_sketch.go l.276-277, before the
conversion to `uint8` (`lgK+1` in uint8, no overflow for `lgK ≤ 26`) -/
def maxSizeUnconverted (lgK : Nat) : Nat := 8 * (3 + computeCapacity (lgK + 1) lgK)

/-- `MaxSerializedSizeBytes` theta/compact_sketch.go l.273-278; the result type is `uint8` -/
def maxSerializedSizeBytes (lgK : Nat) : Nat := maxSizeUnconverted lgK % 256

theorem serializedSize_le {c : Compact} (h : Encodable c) (compressed : Bool) :
    c.serializedSize compressed ≤ 8 * (3 + c.entries.length) := by
  have hf : c.preLongs false ≤ 3 := by
    unfold Compact.preLongs
    simp only [Bool.false_eq_true, if_false]
    split
    · omega
    · split <;> omega
  unfold Compact.serializedSize
  split
  · rename_i hc
    have hs : c.suitable = true := by
      simp only [Bool.and_eq_true] at hc; exact hc.2
    obtain ⟨-, hb, -⟩ := entryBits_facts h hs
    obtain ⟨-, hl, -⟩ := suitable_facts hs
    obtain ⟨-, hn2, -⟩ := numEntriesBytes_spec hl h.len
    unfold Compact.compressedSize
    rw [preLongs_true]
    have hmul : c.entryBits * c.entries.length ≤ 63 * c.entries.length :=
      Nat.mul_le_mul_right _ hb
    have hw : wholeBytes (c.entryBits * c.entries.length) ≤ 8 * c.entries.length := by
      unfold wholeBytes
      split <;> omega
    split <;> omega
  · omega

/-- the advertised size before the conversion covers every sketch that an update sketch of that size
can hold -/
theorem capacity_le_full {lgCur lgNom : Nat} (h : lgCur ≤ lgNom + 1) :
    computeCapacity lgCur lgNom ≤ computeCapacity (lgNom + 1) lgNom := by
  have h1 : 2 ^ lgCur ≤ 2 ^ (lgNom + 1) := Nat.pow_le_pow_right (by decide) h
  unfold computeCapacity
  rw [if_neg (by omega : ¬ lgNom + 1 ≤ lgNom)]
  split <;> omega

/-- **C109, the part that holds.** For every history of an update sketch of any size, seed hash and
sampling probability, in the compact form (ordered or not) and for both settings of the encoder, the
bytes written are at most `8 * (3 + 15/16 * 2^(lgK+1))`, the number that `MaxSerializedSizeBytes`
computes before it converts its result.  Missing: the converted result, which is the one the caller
gets; see `C109_promise_too_small`. -/
theorem C109_size_partial {ι : Type} (hash : ι → Nat) (lgK rf start sh : Nat)
    (hstart : start ≤ maxTheta) (hsh : sh < 2 ^ 16) (t0 : Tbl)
    (hnew : newTable lgK rf start = .ok t0) (ops : List (Op ι)) (ordered compressed : Bool) :
    ∃ t bytes, run hash t0 ops = .ok t
      ∧ encode (newCompact (viewOf t sh) ordered) compressed = .ok bytes
      ∧ bytes.length ≤ 8 * (3 + 15 * 2 ^ (lgK + 1) / 16)
      ∧ maxSizeUnconverted lgK = 8 * (3 + 15 * 2 ^ (lgK + 1) / 16) := by
  obtain ⟨t, bytes, e, e2, e3, -⟩ :=
    C13_update_sketch_survives hash lgK rf start sh hstart hsh t0 hnew ops ordered compressed
  obtain ⟨t', e', i⟩ := run_inv ops t0 [] (new_sinv hash hnew)
  obtain rfl : t = t' := by rw [e] at e'; cases e'; rfl
  have hv := i.valid hstart sh
  have hnum : t.numEntries = (all t).length := i.tinv.num
  have hlen : (newCompact (viewOf t sh) ordered).entries.length = t.numEntries := by
    rw [(newCompact_perm hv ordered).length_eq, hnum]; rfl
  have hcap := le_trans i.tinv.cap (capacity_le_full i.tinv.lgCur)
  rw [i.lgk] at hcap
  have hcc : computeCapacity (lgK + 1) lgK = 15 * 2 ^ (lgK + 1) / 16 := by
    unfold computeCapacity; rw [if_neg (by omega)]
  have hlg : lgK ≤ 26 := by rw [← i.lgk]; exact i.tinv.lgNom
  have hpow : 2 ^ (lgK + 1) ≤ 2 ^ 27 := Nat.pow_le_pow_right (by decide) (by omega)
  have hE : Encodable (newCompact (viewOf t sh) ordered) :=
    ⟨newCompact_valid hv ordered, hsh, by rw [hlen]; omega⟩
  refine ⟨t, bytes, e, e2, ?_, by unfold maxSizeUnconverted; rw [hcc]⟩
  rw [e3]
  refine le_trans (serializedSize_le hE compressed) ?_
  rw [hlen]
  omega

/-- **C109, finding.** The number handed to the caller is below 256, so it is too small for every
sketch retaining at least 30 values (every size of sketch can retain 32 or more): the uncompressed
image of such a sketch is longer than the advertised maximum. -/
theorem C109_promise_too_small {ι : Type} (hash : ι → Nat) (lgK rf start sh : Nat)
    (hstart : start ≤ maxTheta) (hsh : sh < 2 ^ 16) (t0 : Tbl)
    (hnew : newTable lgK rf start = .ok t0) (ops : List (Op ι)) (ordered : Bool) (t : Tbl)
    (hrun : run hash t0 ops = .ok t) (hmany : 30 ≤ numRetained t) :
    ∃ bytes, encode (newCompact (viewOf t sh) ordered) false = .ok bytes
      ∧ maxSerializedSizeBytes lgK < bytes.length := by
  obtain ⟨t', bytes, e, e2, e3, -⟩ :=
    C13_update_sketch_survives hash lgK rf start sh hstart hsh t0 hnew ops ordered false
  obtain rfl : t = t' := by rw [e] at hrun; cases hrun; rfl
  obtain ⟨t', e', i⟩ := run_inv ops t0 [] (new_sinv hash hnew)
  obtain rfl : t = t' := by rw [e] at e'; cases e'; rfl
  have hv := i.valid hstart sh
  have hnum : t.numEntries = (all t).length := i.tinv.num
  have hlen : (newCompact (viewOf t sh) ordered).entries.length = t.numEntries := by
    rw [(newCompact_perm hv ordered).length_eq, hnum]; rfl
  refine ⟨bytes, e2, ?_⟩
  have hm : maxSerializedSizeBytes lgK < 256 := Nat.mod_lt _ (by decide)
  have hmany' : 30 ≤ t.numEntries := hmany
  have hpre : 2 ≤ (newCompact (viewOf t sh) ordered).preLongs false := by
    unfold Compact.preLongs
    simp only [Bool.false_eq_true, if_false]
    split
    · omega
    · split
      · rename_i h
        exfalso
        simp only [Bool.or_eq_true, beq_iff_eq] at h
        rcases h with h | h
        · have := (newCompact_valid hv ordered).empty h
          have h2 : (newCompact (viewOf t sh) ordered).entries = [] := this
          rw [h2] at hlen; simp at hlen; omega
        · omega
      · omega
  rw [e3]
  unfold Compact.serializedSize
  simp only [Bool.false_and, Bool.false_eq_true, if_false]
  omega

/-- hash of the witness: distinct even numbers, non-zero, far below the maximum -/
def spread (x : Nat) : Nat := 2 * (x + 1)

/-- **C109, finding, reached.** For every size accepted by the constructor there is a stream (32
different items) after which the advertised maximum is smaller than the image. -/
theorem C109_promise_broken (lgK rf : Nat) (t0 : Tbl) (hnew : newTable lgK rf maxTheta = .ok t0) :
    ∃ t bytes, run spread t0 ((List.range 32).map Op.update) = .ok t
      ∧ encode (newCompact (viewOf t 777) true) false = .ok bytes
      ∧ maxSerializedSizeBytes lgK < bytes.length := by
  have hge : 5 ≤ lgK := by
    unfold newTable at hnew
    by_contra hcon
    rw [if_pos (by omega)] at hnew
    cases hnew
  have hpow : 2 ^ 6 ≤ 2 ^ (lgK + 1) := Nat.pow_le_pow_right (by decide) (by omega)
  have hp : presented ([] : List Nat) ((List.range 32).map Op.update) = List.range 32 := by
    decide +kernel
  have hd : (((List.range 32).map (fun x => spread x / 2)).dedup).length = 32 := by decide +kernel
  have hall : (((List.range 32).map (fun x => spread x / 2)).dedup.filter
      (fun h => h != 0 && decide (h < maxTheta))).length = 32 := by decide +kernel
  obtain ⟨t, e, -, -, hperm⟩ := C02_exact_until_capacity spread lgK rf t0 hnew
    ((List.range 32).map Op.update) (by simp) (by rw [hp, hd]; omega) (by simp)
  rw [hp] at hperm
  obtain ⟨t', e', -, hn, -⟩ := C01_retained_exactly_hashes_below_theta spread lgK rf maxTheta
    (le_refl _) t0 hnew ((List.range 32).map Op.update)
  obtain rfl : t = t' := by rw [e] at e'; cases e'; rfl
  obtain ⟨bytes, e2, e3⟩ := C109_promise_too_small spread lgK rf maxTheta 777 (le_refl _)
    (by decide) t0 hnew ((List.range 32).map Op.update) true t e
    (by rw [hn, hperm.length_eq, hall]; decide)
  exact ⟨t, bytes, e, e2, e3⟩

/-- sizes exist, and the two numbers for the smallest and the default sketch: 504 against 248, and
61464 against 24 -/
example : (∃ t0, newTable 5 3 maxTheta = .ok t0) ∧ maxSizeUnconverted 5 = 504
    ∧ maxSerializedSizeBytes 5 = 248 ∧ maxSizeUnconverted 12 = 61464
    ∧ maxSerializedSizeBytes 12 = 24 := by
  refine ⟨⟨_, rfl⟩, ?_⟩; decide +kernel

end Verif.Theta
