import Verif.BloomFalse
import Mathlib.Algebra.Order.Floor.Semiring
import Mathlib.Tactic.FieldSimp
import Mathlib.Tactic.NormNum

/-!
# C115: false positives of a Bloom filter are limited by the fraction of set bits

An item that was never inserted has a pair of 64-bit hashes that has nothing to do with the filter.
The rate is the fraction of all `2^128` pairs that are answered "maybe".
-/

namespace Verif.Bloom

/-- The fraction of the pairs of hashes for which the filter answers that the item may be present. -/
noncomputable def maybeRate (f : Filter) : ℚ :=
  Set.ncard { h : Word × Word | ∃ g, f.query h = .ok (g, true) } / 2 ^ 128

/-- The fraction of the bits that are set, as the filter itself reports them. -/
def fill (f : Filter) : ℚ := f.bitsUsed.2 / f.capacityBits

/-- What is lost because `2^63` is not a multiple of the capacity: never more than `2^-25`. -/
def slack (f : Filter) : ℚ := f.bitsUsed.2 / 2 ^ 63

theorem maybe_eq {f : Filter} (hf : WF f) :
    { h : Word × Word | ∃ g, f.query h = .ok (g, true) } =
      { h : Word × Word | ∀ t, 1 ≤ t → t ≤ f.numHashes →
        bitAt f.bitArray (idxOf f h t) = true } := by
  ext h
  obtain ⟨g, b, e, -, -, -, hb⟩ := query_spec hf h
  constructor
  · rintro ⟨g', he⟩
    rw [e] at he
    cases he
    exact hb.mp rfl
  · intro hh
    exact ⟨g, by rw [e, hb.mpr hh]⟩

/-- The fraction of good words. -/
theorem good_rate {f : Filter} (hf : WF f) :
    fill f - slack f ≤ ((goodWords f).ncard : ℚ) / 2 ^ 64 ∧
      ((goodWords f).ncard : ℚ) / 2 ^ 64 ≤ fill f + slack f := by
  obtain ⟨h1, h2⟩ := goodWords_card hf
  have hb : f.bitsUsed.2 = popcount f.bitArray := (bitsUsed_spec hf).1
  have hm : 0 < f.capacityBits := by have := hf.cap; have := hf.pos; omega
  unfold fill slack
  rw [hb]
  generalize (goodWords f).ncard = c at h1 h2 ⊢
  generalize popcount f.bitArray = b at h1 h2 ⊢
  generalize f.capacityBits = m at h1 h2 hm ⊢
  have hmq : (0 : ℚ) < m := by exact_mod_cast hm
  have hbq : (0 : ℚ) ≤ b := Nat.cast_nonneg b
  have hq1 : ((2 ^ 63 / m : Nat) : ℚ) ≤ 2 ^ 63 / m := by
    rw [le_div_iff₀ hmq]
    exact_mod_cast Nat.div_mul_le_self (2 ^ 63) m
  have hq2 : (2 ^ 63 / m : ℚ) ≤ ((2 ^ 63 / m : Nat) : ℚ) + 1 := by
    rw [div_le_iff₀ hmq]
    have h3 : 2 ^ 63 ≤ (2 ^ 63 / m + 1) * m := (Nat.lt_div_mul_add hm).le.trans (by
      rw [Nat.add_mul, Nat.one_mul])
    exact_mod_cast h3
  have h1q : (b : ℚ) * (2 * ((2 ^ 63 / m : Nat) : ℚ)) ≤ c := by exact_mod_cast h1
  have h2q : (c : ℚ) ≤ b * (2 * (((2 ^ 63 / m : Nat) : ℚ) + 1)) := by exact_mod_cast h2
  generalize ((2 ^ 63 / m : Nat) : ℚ) = Q at *
  have e1 : (b : ℚ) / m * 2 ^ 64 = b * (2 * (2 ^ 63 / m)) := by ring
  have e2 : (b : ℚ) / 2 ^ 63 * 2 ^ 64 = b * 2 := by ring
  constructor
  · rw [le_div_iff₀ (by norm_num), sub_mul, e1, e2]
    nlinarith
  · rw [div_le_iff₀ (by norm_num), add_mul, e1, e2]
    nlinarith

theorem fill_nonneg (f : Filter) : 0 ≤ fill f + slack f := by
  unfold fill slack; positivity

theorem newBySize_hashes {numBits numHashes : Nat} {seed : Word} {f : Filter}
    (h : newBySize numBits numHashes seed = .ok f) : f.numHashes = numHashes := by
  unfold newBySize at h
  split at h
  · cases h
  split at h
  · cases h
  split at h
  · cases h
  cases h
  rfl

theorem slack_le {f : Filter} (hf : WF f) : slack f ≤ 1 / 2 ^ 25 := by
  unfold slack
  rw [(bitsUsed_spec hf).1]
  have h1 := popcount_le f.bitArray
  have h2 := hf.small
  have h3 : popcount f.bitArray ≤ 2 ^ 38 := by omega
  have h4 : (popcount f.bitArray : ℚ) ≤ 2 ^ 38 := by exact_mod_cast h3
  rw [div_le_div_iff₀ (by norm_num) (by norm_num)]
  linarith

theorem rate_pow {c : Nat} : ((c ^ 2 : Nat) : ℚ) / 2 ^ 128 = ((c : ℚ) / 2 ^ 64) ^ 2 := by
  rw [div_pow]; push_cast; norm_num

/-- C115.  After any history, a filter with at least two hash functions answers "maybe" for at most
the square of the fraction of set bits (up to `2^-25`) of all pairs of hashes. -/
theorem C115_square (H : Hasher) (numBits numHashes : Nat) (seed : Word) (f : Filter)
    (h2 : 2 ≤ numHashes) (hn : numHashes < 65535)
    (hnew : newBySize numBits numHashes seed = .ok f) (ops : List Op)
    (hops : ∀ op ∈ ops, OpOK op) :
    ∃ g, run H f ops = .ok g ∧ maybeRate g ≤ (fill g + slack g) ^ 2 ∧ slack g ≤ 1 / 2 ^ 25 := by
  obtain ⟨hf, -⟩ := newBySize_WF _ _ _ hn f hnew
  obtain ⟨g, e, w, s, -⟩ := run_spec H ops f hf hops
  refine ⟨g, e, ?_, slack_le w⟩
  have hk : 2 ≤ g.numHashes := by rw [s.nh, newBySize_hashes hnew]; exact h2
  unfold maybeRate
  rw [maybe_eq w]
  have h3 := pairs_le hk
  calc (Set.ncard _ : ℚ) / 2 ^ 128 ≤ (((goodWords g).ncard ^ 2 : Nat) : ℚ) / 2 ^ 128 := by
        gcongr
    _ = (((goodWords g).ncard : ℚ) / 2 ^ 64) ^ 2 := rate_pow
    _ ≤ _ := by
        have := (good_rate w).2
        gcongr

/-- C115.  With one hash function the rate is the fraction of set bits, with two its square, both up
to `2^-25`: the bound above cannot be improved for two. -/
theorem C115_one_two (H : Hasher) (numBits numHashes : Nat) (seed : Word) (f : Filter)
    (h2 : numHashes = 1 ∨ numHashes = 2) (hnew : newBySize numBits numHashes seed = .ok f)
    (ops : List Op) (hops : ∀ op ∈ ops, OpOK op) :
    ∃ g, run H f ops = .ok g ∧ ∃ r : ℚ, fill g - slack g ≤ r ∧ r ≤ fill g + slack g ∧
      maybeRate g = r ^ numHashes := by
  obtain ⟨hf, -⟩ := newBySize_WF _ _ _ (by omega) f hnew
  obtain ⟨g, e, w, s, -⟩ := run_spec H ops f hf hops
  refine ⟨g, e, ((goodWords g).ncard : ℚ) / 2 ^ 64, (good_rate w).1, (good_rate w).2, ?_⟩
  have hk : g.numHashes = numHashes := by rw [s.nh, newBySize_hashes hnew]
  unfold maybeRate
  rw [maybe_eq w]
  rcases h2 with rfl | rfl
  · rw [pairs_one hk, pow_one]
    push_cast
    rw [div_eq_div_iff (by norm_num) (by norm_num)]
    ring
  · rw [pairs_two hk, rate_pow]

/-- One update sets at most as many bits as there are hash functions. -/
theorem update_popcount {f g : Filter} (hf : WF f) {h : Word × Word} (he : f.update h = .ok g) :
    popcount g.bitArray ≤ popcount f.bitArray + f.numHashes := by
  obtain ⟨g', e, w, s, hb⟩ := update_spec hf h
  rw [e] at he
  cases he
  rw [popcount_card, popcount_card, s.len]
  have hsub : ((Finset.range (64 * f.bitArray.length)).filter fun i => bitAt g.bitArray i = true) ⊆
      ((Finset.range (64 * f.bitArray.length)).filter fun i => bitAt f.bitArray i = true) ∪
        (Finset.Icc 1 f.numHashes).image (idxOf f h) := by
    intro i hi
    obtain ⟨h1, h2⟩ := Finset.mem_filter.mp hi
    rcases (hb i).mp h2 with h3 | ⟨t, t1, t2, ht⟩
    · exact Finset.mem_union_left _ (Finset.mem_filter.mpr ⟨h1, h3⟩)
    · exact Finset.mem_union_right _ (Finset.mem_image.mpr ⟨t, Finset.mem_Icc.mpr ⟨t1, t2⟩, ht⟩)
  refine (Finset.card_le_card hsub).trans ((Finset.card_union_le _ _).trans ?_)
  have := Finset.card_image_le (s := Finset.Icc 1 f.numHashes) (f := idxOf f h)
  rw [Nat.card_Icc] at this
  omega

/-- C115.  After `n` insertions into a new filter with `k` hash functions at most `n k` bits are set,
so the filter answers "maybe" for at most the fraction `(n k (1/m + 2^-63))^2` of all pairs of
hashes, whatever the items. -/
theorem C115_items (H : Hasher) (numBits numHashes : Nat) (seed : Word) (f : Filter)
    (h2 : 2 ≤ numHashes) (hn : numHashes < 65535)
    (hnew : newBySize numBits numHashes seed = .ok f) (items : List Datum) :
    ∃ g, run H f (items.map Op.update) = .ok g ∧ g.bitsUsed.2 ≤ items.length * numHashes ∧
      maybeRate g ≤ ((items.length * numHashes : ℚ) * (1 / f.capacityBits + 1 / 2 ^ 63)) ^ 2 := by
  obtain ⟨hf, -, -, hz⟩ := newBySize_WF _ _ _ hn f hnew
  have hb : ∀ (items : List Datum) (f : Filter), WF f → ∃ g, run H f (items.map Op.update) = .ok g ∧
      WF g ∧ SameShape f g ∧
      popcount g.bitArray ≤ popcount f.bitArray + items.length * f.numHashes := by
    intro items
    induction items with
    | nil => intro f hf; exact ⟨f, rfl, hf, SameShape.refl f, by simp⟩
    | cons d items ih =>
      intro f hf
      obtain ⟨g, e, w, s, hp⟩ : ∃ g, step H f (.update d) = .ok g ∧ WF g ∧ SameShape f g ∧
          popcount g.bitArray ≤ popcount f.bitArray + f.numHashes := by
        simp only [step, Filter.updateDatum]
        cases hashes H f.seed d with
        | none => exact ⟨f, rfl, hf, SameShape.refl f, by omega⟩
        | some h =>
          obtain ⟨g, e, w, s, -⟩ := update_spec hf h
          exact ⟨g, e, w, s, update_popcount hf e⟩
      obtain ⟨g', e', w', s', hp'⟩ := ih g w
      refine ⟨g', by simp [run, e, e'], w', s.trans s', ?_⟩
      rw [s.nh] at hp'
      rw [List.length_cons, Nat.add_mul, Nat.one_mul]
      omega
  obtain ⟨g, e, w, s, hp⟩ := hb items f hf
  have h0 : popcount f.bitArray = 0 := (popcount_zero_iff _).mpr fun i _ => hz i
  rw [h0, Nat.zero_add, newBySize_hashes hnew] at hp
  obtain ⟨g', e', hr, -⟩ := C115_square H numBits numHashes seed f h2 hn hnew (items.map Op.update)
    (by intro op hop; obtain ⟨d, -, rfl⟩ := List.mem_map.mp hop; trivial)
  rw [e] at e'
  cases e'
  have hu : g.bitsUsed.2 ≤ items.length * numHashes := by rw [(bitsUsed_spec w).1]; exact hp
  refine ⟨g, e, hu, hr.trans ?_⟩
  have huq : (g.bitsUsed.2 : ℚ) ≤ items.length * numHashes := by exact_mod_cast hu
  have hfs : fill g + slack g = (g.bitsUsed.2 : ℚ) * (1 / f.capacityBits + 1 / 2 ^ 63) := by
    unfold fill slack; rw [s.cap]; ring
  have h3 : fill g + slack g ≤ (items.length * numHashes : ℚ) * (1 / f.capacityBits + 1 / 2 ^ 63) := by
    rw [hfs]
    gcongr
  have h4 := fill_nonneg g
  gcongr

/-! ### The hypotheses are met -/

/-- A filter of 128 bits and three hash functions, filled by two items. -/
example : newBySize 100 3 9001#64 = .ok demoFilter ∧ 2 ≤ 3 ∧ 3 < 65535 ∧
    ∀ op ∈ [Op.update (.long 5#64), Op.update (.long 6#64)], OpOK op := by
  refine ⟨by decide +kernel, by decide, by decide, ?_⟩
  intro op hop
  simp only [List.mem_cons, List.not_mem_nil, or_false] at hop
  rcases hop with rfl | rfl <;> trivial

end Verif.Bloom
