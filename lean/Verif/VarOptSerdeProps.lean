import Verif.VarOptSerde
import Verif.VarOptProps

/-!
# C82: serialization of VarOpt sketches and unions
-/

namespace Verif.VarOpt

open Verif.Items Rand

variable {T : Type}

/-- What the sketch of a stream needs to be written: only the weight of the light items is not a
number of the caller. -/
theorem sample_encodable {F : Codec} {P : T → Prop} {k : Nat} (h2 : k ≤ 2 ^ 31 - 2)
    {stream : List (T × ℚ)} (hs : ∀ q ∈ stream, F.Exact q.2 ∧ P q.1) (hlen : stream.length < 2 ^ 63)
    (hne : stream ≠ []) {s : Sk T}
    (i : Ins false ⟨[], false, k, 0, 0, 0, 0, 0, 0⟩ stream [] (fun _ => 0) s)
    (ht : k < stream.length → F.Exact s.totalWeightR) : Encodable F P s := by
  obtain ⟨e', hi, _⟩ := i.inv
  rw [List.nil_append] at hi
  have hk : s.k = k := i.k
  have hn : s.n = stream.length := by rw [i.n]; simp
  have hover : s.r ≠ 0 → k < stream.length := by
    intro hr
    have := i.over hr
    simpa using this
  have hpos : 0 < stream.length := List.length_pos_of_ne_nil hne
  refine hi.encodable (i.tight (fun h => absurd rfl h)) (by omega) (by omega) (by omega) hn
    (by rw [hk]; exact hover) (fun hr => (i.warm hr).2) ⟨?_, fun hr => ht (hover hr), ?_⟩
  · intro x hx
    rcases hi with w | ⟨H, g, R, rest, rw', c⟩
    · rw [w.hSlots_eq] at hx
      have : (x.item, x.weight) ∈ stream := by rw [w.src]; exact List.mem_map_of_mem hx
      exact (hs _ this).1
    · rw [c.hSlots_eq] at hx
      have : (x.item, x.weight) ∈ stream :=
        c.sub.subset (List.mem_append_left _ (List.mem_map_of_mem hx))
      exact (hs _ this).1
  · intro q hq
    have : q.1 ∈ stream.map Prod.fst := hi.items_sub.subset (List.mem_map_of_mem hq)
    obtain ⟨q', hq', e⟩ := List.mem_map.1 this
    rw [← e]
    exact (hs q' hq').2

theorem sample_empty {k : Nat} {s : Sk T}
    (i : Ins false ⟨[], false, k, 0, 0, 0, 0, 0, 0⟩ [] [] (fun _ => 0) s) :
    s = ⟨[], false, k, 0, 0, 0, 0, 0, 0⟩ := by
  have hr : s.r = 0 := by
    by_contra h
    have := i.over h
    simp at this
  obtain ⟨e', hi, _⟩ := i.inv
  have hw := i.warm hr
  rcases hi with w | h
  · have h1 := w.len
    have h2 := w.marks
    have h3 := w.m0
    have h4 := i.k
    have h5 := i.gadget
    have h6 := i.n
    cases s
    simp_all
  · exact absurd hr h.r_ne

/-- The statements of C82 about a sketch `s` made from `stream` that is written and read. -/
structure SketchBack (F : Codec) (sd : Serde T) (zero : T) (rf k : Nat) (stream : List (T × ℚ))
    (s : Sk T) (b : List Nat) (t : Sk T) : Prop where
  enc : encode F sd rf s = .ok b
  dec : decode F sd zero b = .ok (t, rf)
  sameK : t.k = k
  n : t.n = stream.length
  num : t.numSamples = s.numSamples
  samples : t.all = s.all
  subset : ∀ p, estimateSubsetSum t p = estimateSubsetSum s p
  exact : stream.length ≤ k → t = s

/-- C82, first part.  The sketch of every stream of positive weights is written without error,
whatever the generator returned, and the bytes are read back to a sketch with the same k, number of
items, resize factor, samples with their weights, and subset sums; up to `k` items it is the same
sketch in every field.  The numbers written must be numbers that are kept by the conversion to bits
(the weights of the caller, and in sampling mode the weight of the light items).

Partial: missing is that a sketch in sampling mode can be used further after it was read; that is
false, see `C82_decoded_refuses_updates`. -/
theorem C82_sketch_partial (F : Codec) {sd : Serde T} {P : T → Prop} (hsd : Lawful sd P) (zero : T)
    {k rf : Nat} (h1 : 1 ≤ k) (h2 : k ≤ 2 ^ 31 - 2) (hrf : rf < 4) (stream : List (T × ℚ))
    (hw : ∀ q ∈ stream, 0 < q.2) (hs : ∀ q ∈ stream, F.Exact q.2 ∧ P q.1)
    (hlen : stream.length < 2 ^ 63) :
    All (fun s => (k < stream.length → F.Exact s.totalWeightR) →
        ∃ b t, SketchBack F sd zero rf k stream s b t)
      (sample k stream) := by
  refine (sample_spec h1 h2 hw).1.mono fun s i ht => ?_
  by_cases hne : stream = []
  · subst hne
    have e := sample_empty i
    obtain ⟨b, hb1, _, hb2⟩ := encode_empty F sd zero (k := k) (rf := rf) false h1 h2 hrf
    rw [← e] at hb1 hb2
    exact ⟨b, s, hb1, hb2, i.k, i.n, rfl, rfl, fun _ => rfl, fun _ => rfl⟩
  · have he := sample_encodable h2 hs hlen hne i ht
    obtain ⟨b, hb1, hb2⟩ := decode_encode hsd zero he hrf
    obtain ⟨e', hi, _⟩ := i.inv
    rw [List.nil_append] at hi
    have hn : s.n = stream.length := by rw [i.n]; simp
    have v : Valid s := hi.valid (by omega)
    have v' := decoded_valid he v zero
    have hsam := decoded_samples he zero
    have hsam' : (settle (decoded zero s)).samples = s.samples := hsam
    refine ⟨b, decoded zero s, hb1, hb2, i.k, hn, rfl, ?_, ?_, ?_⟩
    · rw [v.all_ok]
      have := v'.all_ok
      rw [hsam'] at this
      exact this
    · intro p
      have h3 := v.estimate p
      have h4 := v'.estimate p
      unfold est at h3 h4
      rw [hsam'] at h4
      rw [h3]
      exact h4
    · intro hk
      rcases hi with w | h
      · refine decoded_warm w (fun _ x hx => ?_) zero
        rw [(i.warm w.r0).1, List.nil_append] at hx
        obtain ⟨q, _, rfl⟩ := List.mem_map.1 hx
        rfl
      · have := i.over h.r_ne
        simp at this
        omega

/-- C82: the claim that a sketch can be used further after it was read is false: once more than `k`
items were seen the sketch that is read back refuses every update, of whatever weight. -/
theorem C82_decoded_refuses_updates (F : Codec) {sd : Serde T} {P : T → Prop} (hsd : Lawful sd P)
    (zero : T) {k rf : Nat} (h1 : 1 ≤ k) (h2 : k ≤ 2 ^ 31 - 2) (hrf : rf < 4)
    (stream : List (T × ℚ)) (hw : ∀ q ∈ stream, 0 < q.2) (hs : ∀ q ∈ stream, F.Exact q.2 ∧ P q.1)
    (hlen : stream.length < 2 ^ 63) (hk : k < stream.length) :
    All (fun s => F.Exact s.totalWeightR →
        ∃ b t, encode F sd rf s = .ok b ∧ decode F sd zero b = .ok (t, rf) ∧
          ∀ q, ∃ msg, add t q = .err msg)
      (sample k stream) := by
  refine (sample_spec h1 h2 hw).1.mono fun s i ht => ?_
  have hne : stream ≠ [] := by
    rintro rfl
    simp at hk
  have he := sample_encodable h2 hs hlen hne i (fun _ => ht)
  obtain ⟨b, hb1, hb2⟩ := decode_encode hsd zero he hrf
  refine ⟨b, _, hb1, hb2, fun q => decoded_stuck he zero ?_ _⟩
  intro hr
  have h3 := he.warm hr
  have h4 : s.n = stream.length := by rw [i.n]; simp
  have h5 : s.k = k := i.k
  omega

/-- C82, in contrast: the sketch before it was written takes every update of positive weight. -/
theorem C82_original_accepts_updates {k : Nat} (h1 : 1 ≤ k) (h2 : k ≤ 2 ^ 31 - 2)
    (stream : List (T × ℚ)) (hw : ∀ q ∈ stream, 0 < q.2) (q : T × ℚ) (hq : 0 < q.2) :
    All (fun s => All (fun s' => s'.n = s.n + 1) (add s q)) (sample k stream) := by
  refine (sample_spec h1 h2 hw).1.mono fun s i => ?_
  obtain ⟨e', hi, _⟩ := i.inv
  exact (update_all hi (x := ⟨q.1, q.2, false⟩) hq).mono fun s' h => h.n

/-! ## Unions -/

/-- A caller that makes a union and feeds inputs to it. -/
def fedUnion (maxK : Nat) (inputs : List (Input T)) : Rand (Un T) :=
  ofOutcome (newUnion maxK) >>= fun u => inputs.foldlM feed u

theorem fedUnion_spec {maxK : Nat} (h1 : 1 ≤ maxK) (h2 : maxK ≤ 2 ^ 31 - 2)
    (inputs : List (Input T)) (hi : ∀ i ∈ inputs, i.Ok) :
    All (UAll maxK (allItems inputs)) (fedUnion maxK inputs) := by
  obtain ⟨u, hu, huk, hun, hinv⟩ := UInv.new (T := T) h1 h2
  have hu0 : UAll maxK [] u := ⟨huk, hun, [], _, hinv, by simp [totalWeight], List.Subperm.refl _⟩
  obtain ⟨ha, _⟩ := fold_spec inputs hu0 hi
  unfold fedUnion
  rw [hu, ofOutcome_ok, ret_bind]
  exact ha

/-- The numbers of a union are float64 values, and its count of the outer tau is an int64. -/
structure Numbers (F : Codec) (u : Un T) : Prop where
  heavy : ∀ x ∈ u.gadget.hSlots, F.Exact x.weight
  tot : u.gadget.r ≠ 0 → F.Exact u.gadget.totalWeightR
  outer : F.Exact u.outerTauNumer
  denom : u.outerTauDenom < 2 ^ 63

theorem union_encodable {F : Codec} {P : T → Prop} {maxK : Nat} (h2 : maxK ≤ 2 ^ 31 - 2)
    {stream src : List (T × ℚ)} {e : (T → Bool) → ℚ} (hP : ∀ q ∈ stream, P q.1)
    (hlen : stream.length < 2 ^ 63) {u : Un T} (hk : u.k = maxK) (hn : u.n = stream.length)
    (hu : UInv u src e) (hs : List.Subperm (src.map Prod.fst) (stream.map Prod.fst))
    (hx : Numbers F u) (h0 : u.gadget.numSamples ≠ 0) : Encodable F P u.gadget := by
  have hc := hu.count
  have hc2 := hu.inv.count
  have h3 := hu.seen
  have h4 : u.gadget.h + u.gadget.r ≠ 0 := by
    unfold Sk.numSamples at h0
    omega
  refine hu.inv.encodable hu.tight (by rw [hu.k]; omega) (by omega) (by omega) h3 hu.over hu.tot0
    ⟨hx.heavy, hx.tot, ?_⟩
  intro q hq
  have : q.1 ∈ stream.map Prod.fst := (hu.inv.items_sub.trans hs).subset (List.mem_map_of_mem hq)
  obtain ⟨q', hq', e⟩ := List.mem_map.1 this
  rw [← e]
  exact hP q' hq'

/-- a union without samples that was fed positive weights is a new union -/
theorem union_fresh {maxK : Nat} {stream src : List (T × ℚ)} {e : (T → Bool) → ℚ}
    (hw : ∀ q ∈ stream, 0 < q.2) {u : Un T} (hk : u.k = maxK) (hn : u.n = stream.length)
    (hu : UInv u src e) (ht : e (fun _ => true) = totalWeight stream)
    (h0 : u.gadget.numSamples = 0) :
    u = ⟨⟨[], true, maxK, 0, 0, 0, 0, 0, 0⟩, maxK, 0, 0, 0⟩ := by
  rcases hu.inv with w | ⟨H, g, R, rest, rw', c⟩
  · have hk1 := w.k1
    have hh : u.gadget.h = 0 := by
      unfold Sk.numSamples at h0
      omega
    have hsl : u.gadget.slots = [] := List.length_eq_zero_iff.1 (by rw [w.len, hh])
    have hst : stream = [] := by
      have h1 := w.est (fun _ => true)
      rw [hsl, ht] at h1
      by_contra hne
      obtain ⟨q, l, rfl⟩ := List.exists_cons_of_ne_nil hne
      have h3 : 0 ≤ totalWeight l := by
        unfold totalWeight
        apply List.sum_nonneg
        intro x hx
        obtain ⟨y, hy, rfl⟩ := List.mem_map.1 hx
        exact le_of_lt (hw y (by simp [hy]))
      have h4 := hw q (by simp)
      simp only [totalWeight, List.map_cons, List.sum_cons, wsum_nil] at h1 h3
      linarith
    have hsrc := w.src
    rw [hsl] at hsrc
    have hd : u.outerTauDenom = 0 := by
      have := (hu.books w.r0).le
      rw [hsl] at this
      simpa using this
    have hnum := hu.fresh hd
    have h3 := hu.seen
    rw [hsrc] at h3
    have h4 := w.marks
    rw [hsl] at h4
    have h5 := hu.tot0 w.r0
    have h6 := hu.gadget
    have h7 := hu.k
    have h8 := w.m0
    have h9 := w.r0
    rw [hst] at hn
    obtain ⟨gd, uk, un, un1, un2⟩ := u
    obtain ⟨a1, a2, a3, a4, a5, a6, a7, a8, a9⟩ := gd
    simp [pairs] at *
    simp_all
  · have h1 := c.r1
    have h3 := c.full
    unfold Sk.numSamples at h0
    omega

/-- The statements of C82 about a union `u` that is written and read; `fed` is everything it was
fed. -/
structure UnionBack (F : Codec) (sd : Serde T) (zero : T) (maxK : Nat) (fed : List (T × ℚ))
    (u : Un T) (b : List Nat) (u' : Un T) : Prop where
  enc : u.encode F sd 3 = .ok b
  dec : unionDecode F sd zero b = .ok (u', 3)
  k : u'.k = maxK
  n : u'.n = fed.length
  outer : u'.outerTau = u.outerTau
  samples : u'.gadget.all = u.gadget.all
  exact : u.gadget.r = 0 → u' = u
  result : All (fun s => s.n = fed.length ∧ ∃ samples, s.all = .ok samples ∧ samples.length ≤ maxK ∧
      totalWeight samples = totalWeight fed ∧
      List.Subperm (samples.map Prod.fst) (fed.map Prod.fst)) (u'.result zero)
  before : ∀ p, HasE (fun s => weightOf p s.samples) (u.result zero) (weightOf p u.gadget.samples)
  after : ∀ p, HasE (fun s => weightOf p s.samples) (u'.result zero) (weightOf p u.gadget.samples)

/-- C82, second part.  A union fed with sketches of positive weights is written and read back to a
union with the same k, number of items, outer tau and samples; while its samples are exact it is the
same union in every field.  The result of the union that was read is a sketch of everything fed, and
its subset sums have the same expected value as those of the result of the union that was written.

Partial: missing is that a union in sampling mode can be fed after it was read, which is false
(`C82_union_decoded_refuses`), and that the result of a union can be written, which is false
(`C82_result_not_encodable`). -/
theorem C82_union_partial (F : Codec) {sd : Serde T} {P : T → Prop} (hsd : Lawful sd P) (zero : T)
    {maxK : Nat} (h1 : 1 ≤ maxK) (h2 : maxK ≤ 2 ^ 31 - 2) (inputs : List (Input T))
    (hi : ∀ i ∈ inputs, i.Ok) (hw : ∀ q ∈ allItems inputs, 0 < q.2 ∧ P q.1)
    (hlen : (allItems inputs).length < 2 ^ 63) :
    All (fun u => Numbers F u → ∃ b u', UnionBack F sd zero maxK (allItems inputs) u b u')
      (fedUnion maxK inputs) := by
  refine (fedUnion_spec h1 h2 inputs hi).mono fun u hu hx => ?_
  obtain ⟨hk, hn, src, e, hinv, ht, hs⟩ := hu
  have hres : ∀ u' : Un T, UInv { u' with gadget := settle u'.gadget } src e → u'.k = maxK →
      u'.n = u.n →
      All (fun s => s.n = (allItems inputs).length ∧ ∃ samples, s.all = .ok samples ∧
        samples.length ≤ maxK ∧ totalWeight samples = totalWeight (allItems inputs) ∧
        List.Subperm (samples.map Prod.fst) ((allItems inputs).map Prod.fst)) (u'.result zero) ∧
      ∀ p, HasE (fun s => weightOf p s.samples) (u'.result zero) (weightOf p u.gadget.samples) := by
    intro u' hinv' hk' hn'
    obtain ⟨ha, hE⟩ := result_spec zero hinv'
    rw [← result_settle] at ha hE
    constructor
    · refine ha.mono fun s r => ?_
      refine ⟨by rw [r.n]; exact hn'.trans hn, s.samples, r.valid.all_ok, ?_, ?_, r.items.trans hs⟩
      · rw [r.valid.samples_length]
        refine le_trans r.valid.le ?_
        rw [← hk']
        exact r.k
      · rw [← weightOf_true, ← est_eq_weightOf, r.total, ht]
    · intro p
      have h5 : e p = weightOf p u.gadget.samples := (hinv.inv.est_eq p).symm
      rw [← h5]
      exact hE p
  have hbefore : ∀ p, HasE (fun s => weightOf p s.samples) (u.result zero)
      (weightOf p u.gadget.samples) := by
    intro p
    have h5 : e p = weightOf p u.gadget.samples := (hinv.inv.est_eq p).symm
    rw [← h5]
    exact (result_spec zero hinv).2 p
  by_cases h0 : u.gadget.numSamples = 0
  · have hu := union_fresh (fun q hq => (hw q hq).1) hk hn hinv ht h0
    obtain ⟨b, hb1, hb2⟩ := union_empty F sd zero (rf := 3) h1 h2
    rw [← hu] at hb1 hb2
    have hset : settle u.gadget = u.gadget := by rw [hu]; rfl
    obtain ⟨r1, r2⟩ := hres u (by rw [hset]; exact hinv) hk rfl
    exact ⟨b, u, hb1, hb2, hk, hn, rfl, rfl, fun _ => rfl, r1, hbefore, r2⟩
  · have he := union_encodable h2 (fun q hq => (hw q hq).2) hlen hk hn hinv hs hx h0
    obtain ⟨b, hb1, hb2⟩ := union_decode_encode hsd zero he (rf := 3) (by omega) h0 (by omega)
      (by omega) hx.outer hx.denom
    obtain ⟨r1, r2⟩ := hres (u.decoded zero) (hinv.decoded he zero) hk rfl
    refine ⟨b, u.decoded zero, hb1, hb2, hk, hn, rfl, ?_, ?_, r1, hbefore, r2⟩
    · have v : Valid u.gadget := hinv.inv.valid (by rw [hinv.seen])
      have v' := decoded_valid he v zero
      rw [v.all_ok]
      have := v'.all_ok
      have hsam' : (settle (decoded zero u.gadget)).samples = u.gadget.samples :=
        decoded_samples he zero
      rw [hsam'] at this
      exact this
    · intro hr
      rcases hinv.inv with w | h
      · have := decoded_warm w (fun hg => by rw [hinv.gadget] at hg; cases hg) zero
        unfold Un.decoded
        rw [this]
      · exact absurd hr h.r_ne

theorem insertAll_err {g : Sk T} (h : ∀ x, ∃ msg, update g x = .err msg) (mark : Bool)
    {l : List (T × ℚ)} (hl : l ≠ []) : ∃ msg, insertAll mark g l = .err msg := by
  obtain ⟨q, l', rfl⟩ := List.exists_cons_of_ne_nil hl
  obtain ⟨msg, hm⟩ := h { item := q.1, weight := q.2, mark := mark }
  refine ⟨msg, ?_⟩
  unfold insertAll
  rw [List.foldlM_cons, hm]
  rfl

/-- C82: the claim that a union can be fed after it was read is false: a union in sampling mode that
is read back refuses every sketch with samples. -/
theorem C82_union_decoded_refuses (F : Codec) {sd : Serde T} {P : T → Prop} (hsd : Lawful sd P)
    (zero : T) {maxK : Nat} (h1 : 1 ≤ maxK) (h2 : maxK ≤ 2 ^ 31 - 2) (inputs : List (Input T))
    (hi : ∀ i ∈ inputs, i.Ok) (hP : ∀ q ∈ allItems inputs, P q.1)
    (hlen : (allItems inputs).length < 2 ^ 63) :
    All (fun u => Numbers F u → u.gadget.r ≠ 0 →
        ∃ b u', u.encode F sd 3 = .ok b ∧ unionDecode F sd zero b = .ok (u', 3) ∧
          ∀ s, Valid s → s.samples ≠ [] → ∃ msg, u'.update (some s) = .err msg)
      (fedUnion maxK inputs) := by
  refine (fedUnion_spec h1 h2 inputs hi).mono fun u hu hx hr => ?_
  obtain ⟨hk, hn, src, e, hinv, ht, hs⟩ := hu
  have h0 : u.gadget.numSamples ≠ 0 := by
    rcases hinv.inv with w | ⟨H, g, R, rest, rw', c⟩
    · exact absurd w.r0 hr
    · have := c.full
      unfold Sk.numSamples
      omega
  have he := union_encodable h2 hP hlen hk hn hinv hs hx h0
  obtain ⟨b, hb1, hb2⟩ := union_decode_encode hsd zero he (rf := 3) (by omega) h0 (by omega)
    (by omega) hx.outer hx.denom
  refine ⟨b, u.decoded zero, hb1, hb2, fun s v hsam => ?_⟩
  have hstuck := decoded_stuck he zero hr
  have hcnt : s.h + s.r ≠ 0 := by
    intro h
    apply hsam
    rw [← List.length_eq_zero_iff, v.samples_length, h]
  have hc := v.count
  have a1 := v.hlen
  have a2 := v.rlen
  have a3 := v.le
  unfold Sk.hSlots at a1
  unfold Sk.rSlots at a2
  rw [List.length_take] at a1
  rw [List.length_take, List.length_drop] at a2
  have a4 : s.numSamples = s.h + s.r := by unfold Sk.numSamples; omega
  unfold Un.update
  dsimp only
  rw [if_neg (by omega), if_neg (by rw [a4] at a2 ⊢; omega)]
  by_cases hh : s.hSlots = []
  · have hR : s.rSlots ≠ [] := by
      intro hR
      have h3 := v.hlen
      have h4 := v.rlen
      rw [hh] at h3
      rw [hR] at h4
      simp at h3 h4
      omega
    obtain ⟨msg, hm⟩ := insertAll_err (g := (u.decoded zero).gadget) hstuck true
      (l := weightCorr (s.totalWeightR / s.r) s.totalWeightR s.rSlots 0) (by
        obtain ⟨y, l, e⟩ := List.exists_cons_of_ne_nil hR
        rw [e]
        cases l <;> simp [weightCorr])
    refine ⟨msg, ?_⟩
    rw [hh]
    have : insertAll false (u.decoded zero).gadget (([] : List (Slot T)).map fun x => (x.item, x.weight))
        = .ret (u.decoded zero).gadget := rfl
    rw [this, ret_bind, hm]
    rfl
  · obtain ⟨msg, hm⟩ := insertAll_err (g := (u.decoded zero).gadget) hstuck false
      (l := s.hSlots.map fun x => (x.item, x.weight)) (by simpa using hh)
    refine ⟨msg, ?_⟩
    rw [hm]
    rfl

/-- C82: the claim that the result of a union can be written is false: when the union is in sampling
mode and some of its heavy samples came from the light samples of an input, every result has a slice
that is too long, and is refused by the encoder. -/
theorem C82_result_not_encodable (zero : T) {maxK : Nat} (h1 : 1 ≤ maxK) (h2 : maxK ≤ 2 ^ 31 - 2)
    (inputs : List (Input T)) (hi : ∀ i ∈ inputs, i.Ok) :
    All (fun u => u.gadget.r ≠ 0 → u.gadget.numMarksInH ≠ 0 →
        All (fun s => ∀ F sd rf, encode F sd rf s = .err "invalid data array size") (u.result zero))
      (fedUnion maxK inputs) := by
  refine (fedUnion_spec h1 h2 inputs hi).mono fun u hu hr hm => ?_
  obtain ⟨hk, hn, src, e, hinv, ht, hs⟩ := hu
  have heq : u.result zero = u.migrate := by
    unfold Un.result
    rw [if_neg hm, if_pos (fun h => hr h.1)]
  rw [heq]
  refine (migrate_too_long hinv hr hm).mono fun s hsx F sd rf => ?_
  obtain ⟨b1, b2, b3, b4⟩ := hsx
  unfold encode
  dsimp only
  rw [if_neg (fun h => b2 h.1), if_neg (by omega), if_pos]
  rw [if_pos (by omega)]
  omega

/-- There are such unions: two items of weight 1, then a sketch with `k = 1` of two items of
weight 5. -/
def longInputs : List (Input Nat) :=
  [.varopt (sample 10 [(1, 1), (4, 1)]) [(1, 1), (4, 1)],
   .varopt (sample 1 [(2, 5), (3, 5)]) [(2, 5), (3, 5)]]

theorem long_ok : ∀ i ∈ longInputs, i.Ok := by
  intro i hi
  simp [longInputs] at hi
  rcases hi with rfl | rfl
  · exact sample_represents (by decide) (by decide)
      (by intro q hq; simp at hq; rcases hq with rfl | rfl <;> norm_num)
  · exact sample_represents (by decide) (by decide)
      (by intro q hq; simp at hq; rcases hq with rfl | rfl <;> norm_num)

theorem long_transition (b : Nat) :
    All (fun g => g.r ≠ 0 ∧ g.numMarksInH ≠ 0)
      (update (⟨[⟨1, 1, false⟩, ⟨4, 1, false⟩], true, 2, 2, 2, 0, 0, 0, 0⟩ : Sk Nat) ⟨b, 10, true⟩) := by
  simp [update, updateCore, updateWarmup, transitionFromWarmup, transitionPrep, heapify, heapifyFrom,
    restoreTowardsLeaves, leavesLoop, pickChild, wAt, swap, popMin, popSlots, slotAt, put,
    Outcome.ofOption, growCandidateSet, growLoop, downsample, chooseDeleteSlot, chooseOne,
    Rand.floatNonZero]
  rw [if_neg (by norm_num), if_neg (by norm_num)]
  simp [ofOutcome_ok, ret_bind]
  intro u _ _ _
  have hc : ∀ d, d = 1 ∨ d = 2 → All (fun g : Sk Nat => ¬ g.r = 0 ∧ ¬ g.numMarksInH = 0)
      (ofOutcome (finishDownsample ⟨[⟨b, 10, true⟩, ⟨4, 1, false⟩, ⟨1, -1, false⟩], true, 2, 3, 1, 1, 1,
        1, 1⟩ (1 + 1) 2 d)) := by
    intro d hd
    rcases hd with rfl | rfl <;>
    simp [finishDownsample, moveItem, clearM, ofOutcome_ok, All]
  beta_reduce
  by_cases hu : (1 + 1) * u < 1
  · rw [if_pos hu]
    exact hc 2 (Or.inr rfl)
  · rw [if_neg hu]
    exact hc 1 (Or.inl rfl)

theorem long_reached :
    All (fun u => u.gadget.r ≠ 0 ∧ u.gadget.numMarksInH ≠ 0) (fedUnion 2 longInputs) := by
  have h0 : (newUnion 2 : Outcome (Un Nat)) = .ok ⟨⟨[], true, 2, 0, 0, 0, 0, 0, 0⟩, 2, 0, 0, 0⟩ := rfl
  have hfirst : sample 10 [((1 : Nat), (1 : ℚ)), (4, 1)] =
      .ret ⟨[⟨1, 1, false⟩, ⟨4, 1, false⟩], false, 10, 2, 2, 0, 0, 0, 0⟩ := rfl
  have hfeed1 : Un.update (T := Nat) ⟨⟨[], true, 2, 0, 0, 0, 0, 0, 0⟩, 2, 0, 0, 0⟩
      (some ⟨[⟨1, 1, false⟩, ⟨4, 1, false⟩], false, 10, 2, 2, 0, 0, 0, 0⟩)
      = .ret ⟨⟨[⟨1, 1, false⟩, ⟨4, 1, false⟩], true, 2, 2, 2, 0, 0, 0, 0⟩, 2, 2, 0, 0⟩ := rfl
  unfold fedUnion longInputs
  rw [h0, ofOutcome_ok, ret_bind]
  simp only [List.foldlM_cons, List.foldlM_nil, feed, hfirst, ret_bind, hfeed1]
  rw [Rand.bind_assoc]
  refine stuck_second.bind fun s hs => ?_
  obtain ⟨g, b, rest, m, rfl⟩ := hs
  have he : Un.update (T := Nat) ⟨⟨[⟨1, 1, false⟩, ⟨4, 1, false⟩], true, 2, 2, 2, 0, 0, 0, 0⟩, 2, 2, 0, 0⟩
      (some ⟨g :: b :: rest, false, 1, 2, 0, 0, 1, 10, m⟩) =
      (update ⟨[⟨1, 1, false⟩, ⟨4, 1, false⟩], true, 2, 2, 2, 0, 0, 0, 0⟩ ⟨b.item, 10, true⟩ >>= fun g =>
        .ret ⟨g, 2, 4, 10, 1⟩) := by
    simp [Un.update, Sk.numSamples, Sk.hSlots, Sk.rSlots, weightCorr, insertAll, Un.noteTau]
  rw [he, Rand.bind_assoc]
  exact (long_transition b.item).bind fun g hg => hg

/-- The witness of `C82_result_not_encodable`: for these inputs no result can be written. -/
theorem C82_result_not_encodable_witness :
    All (fun s => ∀ (F : Codec) (sd : Serde Nat) rf, encode F sd rf s = .err "invalid data array size")
      (unionOf 0 2 longInputs) := by
  have h : unionOf 0 2 longInputs = (fedUnion 2 longInputs >>= fun u => u.result 0) := by
    unfold unionOf fedUnion
    rw [Rand.bind_assoc]
  rw [h]
  exact ((C82_result_not_encodable 0 (by decide) (by decide) _ long_ok).and long_reached).bind
    fun u hu => hu.1 hu.2.1 hu.2.2

/-! ## The hypotheses can be met -/

/-- a conversion that keeps the natural numbers below `2^64` -/
def natCodec : Codec := ⟨fun q => q.num.toNat % 2 ^ 64, fun n => some n⟩

theorem natCodec_exact (n : Nat) (h : n < 2 ^ 64) : natCodec.Exact (n : ℚ) := by
  constructor
  · show ((n : ℚ).num.toNat) % 2 ^ 64 < 256 ^ 8
    exact lt_of_lt_of_le (Nat.mod_lt _ (by norm_num)) (by norm_num)
  · show some (((((n : ℚ).num.toNat) % 2 ^ 64 : Nat)) : ℚ) = some (n : ℚ)
    rw [Rat.num_natCast, Int.toNat_natCast, Nat.mod_eq_of_lt h]

theorem example_exact : ∀ q ∈ [((1 : Nat), (1 : ℚ)), (2, 1), (3, 100), (4, 2)],
    natCodec.Exact q.2 ∧ q.1 < 256 ^ 8 := by
  intro q hq
  simp at hq
  rcases hq with rfl | rfl | rfl | rfl
  · exact ⟨by simpa using natCodec_exact 1 (by norm_num), by norm_num⟩
  · exact ⟨by simpa using natCodec_exact 1 (by norm_num), by norm_num⟩
  · exact ⟨by simpa using natCodec_exact 100 (by norm_num), by norm_num⟩
  · exact ⟨by simpa using natCodec_exact 2 (by norm_num), by norm_num⟩

example := C82_sketch_partial natCodec (fixed_lawful 8) 0 (k := 2) (rf := 3) (by decide) (by decide)
  (by decide) _ example_weights example_exact (by decide)
example := C82_decoded_refuses_updates natCodec (fixed_lawful 8) 0 (k := 2) (rf := 3) (by decide)
  (by decide) (by decide) _ example_weights example_exact (by decide) (by decide)
example := C82_original_accepts_updates (k := 2) (by decide) (by decide) _ example_weights (7, 3)
  (by norm_num)

/-- A sketch in sampling mode whose weight of the light items is kept: two items of weight 5, `k = 1`,
weight 10. -/
example : All (fun s => natCodec.Exact s.totalWeightR) (sample 1 [((2 : Nat), (5 : ℚ)), (3, 5)]) := by
  refine stuck_second.mono fun s hs => ?_
  obtain ⟨g, b, rest, m, rfl⟩ := hs
  exact_mod_cast natCodec_exact 10 (by norm_num)

theorem long_items : ∀ q ∈ allItems longInputs, 0 < q.2 ∧ q.1 < 256 ^ 8 := by
  intro q hq
  simp [allItems, longInputs, Input.stream] at hq
  rcases hq with rfl | rfl | rfl | rfl <;> norm_num

example := C82_union_partial natCodec (fixed_lawful 8) 0 (maxK := 2) (by decide) (by decide) longInputs
  long_ok long_items (by decide)
example := C82_union_decoded_refuses natCodec (fixed_lawful 8) 0 (maxK := 2) (by decide) (by decide)
  longInputs long_ok (fun q hq => (long_items q hq).2) (by decide)

end Verif.VarOpt
