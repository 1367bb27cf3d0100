import Verif.FreqSerde
import Verif.ItemSerde

/-!
# Property C80: serialization of frequency sketches

The specification is that of `FreqProps`: the true weights `f` and the stream weight `W`.  `ReachS`
extends the public operations by writing a sketch to bytes and reading it back.
-/

set_option linter.unusedSectionVars false

namespace Verif.Freq

open Verif.Items

variable {κ : Type} [DecidableEq κ]

/-- Everything the two sketches tell about their stream is the same.  The order of the rows of equal
estimate is left open. -/
structure SameAnswers (kd : Kind) (hash : κ → Nat) (s t : Sketch κ) : Prop where
  maxSize : t.lgMax = s.lgMax
  curCap : t.curCap = s.curCap
  weight : t.weight = s.weight
  error : t.offset = s.offset
  active : t.map.num = s.map.num
  lower : ∀ k, t.lowerBound (cfg kd hash) k = s.lowerBound (cfg kd hash) k
  upper : ∀ k, t.upperBound (cfg kd hash) k = s.upperBound (cfg kd hash) k
  est : ∀ k, t.estimate kd hash k = s.estimate kd hash k
  rows : ∀ stride stride' itemEst nfn thr, stride % 2 = 1 → stride' % 2 = 1 →
    ∃ L L', s.frequentItems (cfg kd hash) stride itemEst nfn thr = .ok L ∧
      t.frequentItems (cfg kd hash) stride' itemEst nfn thr = .ok L' ∧ L'.Perm L ∧
      L'.map Row.est = L.map Row.est

/-- Sketches that can be built with the operations of `Reach` and by writing and reading back.
Excluded is the writing of a sketch that has seen a stream but holds no counter (see
`C80_purged_lost`), and of an empty item sketch of more than 8 slots (see
`C80_items_empty_shrinks`). -/
inductive ReachS (kd : Kind) (hash : κ → Nat) (z : κ) (M : Nat) (sd : Serde κ) (P : κ → Prop) :
    Sketch κ → (κ → Int) → Int → Prop
  | new (lgMax lgCur : Nat) : Supported kd lgMax → M ≤ lgMax → max lgCur 3 ≤ max lgMax 3 →
      ReachS kd hash z M sd P (newSketch kd z lgMax lgCur) (fun _ => 0) 0
  | update {s s' f W} (k : κ) (count : Int) : ReachS kd hash z M sd P s f W → W + count < 2 ^ 63 →
      s.update (cfg kd hash) z k count = .ok s' →
      ReachS kd hash z M sd P s' (fun x => if x = k then f x + count else f x) (W + count)
  | merge {s o s' f f' W W'} (stride : Nat) : ReachS kd hash z M sd P s f W →
      ReachS kd hash z M sd P o f' W' → W + W' < 2 ^ 63 → stride % 2 = 1 →
      (o.isEmpty = true → W' = 0) → s.merge (cfg kd hash) z o stride = .ok s' →
      ReachS kd hash z M sd P s' (fun x => f x + f' x) (W + W')
  | reset {s f W} : ReachS kd hash z M sd P s f W →
      ReachS kd hash z M sd P (s.reset z) (fun _ => 0) 0
  | reread {s t f W bytes} : ReachS kd hash z M sd P s f W →
      (s.isEmpty = true → W = 0 ∧ (kd = .items → M ≤ 3)) → s.lgMax ≤ 32 →
      (∀ k, f k ≠ 0 → P k) → s.toSlice kd sd = .ok bytes → fromSlice kd sd hash z bytes = .ok t →
      ReachS kd hash z M sd P t f W

theorem Reach.toS {kd : Kind} {hash : κ → Nat} {z : κ} {M : Nat} {s : Sketch κ} {f : κ → Int}
    {W : Int} (h : Reach kd hash z M s f W) (sd : Serde κ) (P : κ → Prop) :
    ReachS kd hash z M sd P s f W := by
  induction h with
  | new lgMax lgCur hs hM hl => exact .new lgMax lgCur hs hM hl
  | update k count _ hW hu ih => exact .update k count ih hW hu
  | merge stride _ _ hW hst hne hu ih ih' => exact .merge stride ih ih' hW hst hne hu
  | reset _ ih => exact .reset ih

theorem num_lt32 {c : Cfg κ} {s : Sketch κ} {g : Nat} {f : κ → Int} {W : Int}
    (hi : SInv c s g f W) (h : s.lgMax ≤ 32) : s.map.num < 2 ^ 32 := by
  have h1 := hi.num_lt
  have h2 : 2 ^ s.map.lg ≤ 2 ^ 32 := Nat.pow_le_pow_right (by norm_num) (by have := hi.lgM; omega)
  omega

theorem Reread.good {kd : Kind} {hash : κ → Nat} {M : Nat} {s t : Sketch κ} {f : κ → Int} {W : Int}
    (hg : Good kd hash M s f W) (hr : Reread (cfg kd hash) s t) : Good kd hash M t f W := by
  obtain ⟨⟨g, hgh, hi⟩, hf, hss, hmx⟩ := hg
  have h2 := hi.ss2
  have hss' : s.sampleSize ≤ t.sampleSize := by rw [hr.ss]; omega
  have hg2 := hi.g2
  have hs1 := hi.ss1
  have hnum : t.map.num = s.map.num := by rw [hr.wf.num, hi.wf.num, hr.items.length_eq]
  refine ⟨⟨g, hgh, hr.wf, ?_, ?_, ?_, ?_, ?_, ?_, hi.wlt, by omega, ?_, hi.g1, by omega⟩, ?_, by omega,
    by rw [hr.ss]; omega⟩
  · rw [hr.lg]; exact hi.lg3
  · rw [hr.lg, hr.lgMax]; exact hi.lgM
  · rw [hr.curCap, hr.lg]; exact hi.cap
  · rw [hr.curCap, hnum]; exact hi.num
  · rw [hr.offset]; exact hi.con.of_perm hr.items
  · rw [hr.weight]; exact hi.wt
  · rw [hr.ss, hr.lgMax]; omega
  · rw [hr.lgMax]; exact hf

/-- the answers to a frequent-items query in terms of the counters -/
theorem frequentItems_rows {kd : Kind} {hash : κ → Nat} {M : Nat} {s : Sketch κ} {f : κ → Int}
    {W : Int} (hg : Good kd hash M s f W) (stride : Nat) (hs : stride % 2 = 1)
    (ie nfn : Bool) (thr : Int) :
    ∃ L, s.frequentItems (cfg kd hash) stride ie nfn thr = .ok L ∧
      L.Perm (((items s.map.slots).filter
          (fun e => decide (max thr s.offset ≤ if nfn then e.2 + s.offset else e.2))).map
            (fun e => (⟨e.1, e.2 + s.offset, e.2 + s.offset, e.2⟩ : Row κ))) ∧
      L.Pairwise (fun a b => b.est ≤ a.est) := by
  obtain ⟨⟨g, hgh, hi⟩, _⟩ := id hg
  obtain ⟨L, hL, hp⟩ := iterate_spec hi.wf stride hs
  have hsel := selectRows_spec hg ie nfn (max thr s.offset) L (fun e he => hp.mem_iff.mp he)
  set rows0 := ((L.filter (fun e => decide (max thr s.offset ≤ if nfn then e.2 + s.offset else e.2))).map
          (fun e => (⟨e.1, e.2 + s.offset, e.2 + s.offset, e.2⟩ : Row κ))) with hrows0
  refine ⟨rows0.mergeSort (fun a b => decide (a.est ≥ b.est)), ?_, ?_, ?_⟩
  · unfold Sketch.frequentItems
    rw [hL]
    simp only [Outcome.ok_bind]
    rw [hsel]
    rfl
  · exact (List.mergeSort_perm rows0 (fun a b => decide (a.est ≥ b.est))).trans ((hp.filter _).map _)
  · have := List.pairwise_mergeSort (le := fun (a b : Row κ) => decide (a.est ≥ b.est))
      (by intro a b c h1 h2; simp only [decide_eq_true_eq, ge_iff_le] at *; omega)
      (by intro a b; simp only [Bool.or_eq_true, decide_eq_true_eq, ge_iff_le]; omega) rows0
    exact this.imp (by intro a b hab; simpa using hab)

theorem sameAnswers {kd : Kind} {hash : κ → Nat} {M : Nat} {s t : Sketch κ} {f : κ → Int} {W : Int}
    (hg : Good kd hash M s f W) (hr : Reread (cfg kd hash) s t) : SameAnswers kd hash s t := by
  have hg' := hr.good hg
  obtain ⟨⟨g, hgh, hi⟩, _⟩ := id hg
  obtain ⟨⟨g', hgh', hi'⟩, _⟩ := id hg'
  have hget : ∀ k, get (cfg kd hash) t.map.slots k = get (cfg kd hash) s.map.slots k := by
    intro k
    have hs := get_spec hi.wf.inv (by rw [← hi.wf.num, hi.wf.inv.len]; have := hi.num_lt; omega) k
    rcases hi'.get k with ⟨v, hv, e⟩ | ⟨hno, e⟩
    · rw [e, hs.1 v (hr.items.mem_iff.mp hv)]
    · rw [e, hs.2 (fun v hv => hno v (hr.items.mem_iff.mpr hv))]
  have hub : ∀ k, t.upperBound (cfg kd hash) k = s.upperBound (cfg kd hash) k := by
    intro k; unfold Sketch.upperBound; rw [hget, hr.offset]
  refine ⟨hr.lgMax, hr.curCap, hr.weight, hr.offset, ?_, hget, hub, ?_, ?_⟩
  · rw [hr.wf.num, hi.wf.num, hr.items.length_eq]
  · intro k
    cases kd with
    | longs => exact hub k
    | items => simp only [Sketch.estimate, Sketch.itemEstimate]; rw [hget, hr.offset]
  · intro stride stride' ie nfn thr h1 h2
    obtain ⟨L, e, p, w⟩ := frequentItems_rows hg stride h1 ie nfn thr
    obtain ⟨L', e', p', w'⟩ := frequentItems_rows hg' stride' h2 ie nfn thr
    rw [hr.offset] at p'
    have hp : L'.Perm L := p'.trans (((hr.items.filter _).map _).trans p.symm)
    refine ⟨L, L', e, e', hp, ?_⟩
    refine (hp.map Row.est).eq_of_pairwise (le := fun a b => b ≤ a) (by intro a b _ _ h1 h2; omega) ?_ ?_
    · exact List.pairwise_map.mpr w'
    · exact List.pairwise_map.mpr w

/-- what is written and what is read for a sketch that holds a counter -/
theorem serde_good {kd : Kind} {hash : κ → Nat} {z : κ} {M : Nat} {s : Sketch κ}
    {f : κ → Int} {W : Int} {sd : Serde κ} {P : κ → Prop} (hl : Lawful sd P)
    (hkd : kd = .longs → LongKeys sd) (hg : Good kd hash M s f W) (hne : s.isEmpty = false)
    (hlm : s.lgMax ≤ 32) (hP : ∀ k, f k ≠ 0 → P k) :
    s.toSlice kd sd = .ok (image sd s) ∧
      ((fromSlice kd sd hash z (image sd s) = .err "drift >= driftLimit" ∧ kd = .longs ∧ 10 < s.lgMax) ∨
        ∃ t, fromSlice kd sd hash z (image sd s) = .ok t ∧ Reread (cfg kd hash) s t) := by
  obtain ⟨⟨g, hgh, hi⟩, hf, _⟩ := id hg
  have hn : s.map.num ≠ 0 := by simpa [Sketch.isEmpty] using hne
  have hn' := num_lt32 hi hlm
  have hM := hi.lgM
  refine ⟨toSlice_full hl hkd hi.wf hn hn', ?_⟩
  rcases fromSlice_full hl z hi (hf _ hi.lgM) hkd hn hn' (by omega) (by omega)
    (fun e he => hP _ (by have := hi.con.lb e he; have := hi.con.pos e he; omega))
    with ⟨e, d, hd, ho⟩ | h
  · refine Or.inl ⟨e, ?_⟩
    cases kd with
    | items => simp [cfg, Cfg.over] at ho
    | longs =>
      refine ⟨rfl, ?_⟩
      simp only [cfg, Cfg.over, decide_eq_true_eq] at ho
      by_contra hcon
      have : 2 ^ s.map.lg ≤ 2 ^ 10 := Nat.pow_le_pow_right (by norm_num) (by omega)
      omega
  · exact Or.inr h

/-- the maximum map size of a sketch read from an image without counters -/
def sizeBack : Kind → Nat → Nat
  | .longs, lgMax => lgMax
  | .items, _ => 3

/-- what is written and what is read for a sketch without counters -/
theorem serde_empty {kd : Kind} {hash : κ → Nat} {z : κ} {M : Nat} {s : Sketch κ}
    {f : κ → Int} {W : Int} (sd : Serde κ) (hg : Good kd hash M s f W) (hne : s.isEmpty = true)
    (hlm : s.lgMax ≤ 32) :
    ∃ bytes, s.toSlice kd sd = .ok bytes ∧ bytes.length = 8 ∧
      fromSlice kd sd hash z bytes = .ok (newSketch kd z (sizeBack kd s.lgMax) 3) := by
  obtain ⟨⟨g, hgh, hi⟩, hf, _⟩ := id hg
  have hn : s.map.num = 0 := by simpa [Sketch.isEmpty] using hne
  have hM := hi.lgM
  obtain ⟨e1, e2, e3, e4, e5, e6⟩ := pre0_fields (preLongs := 1) (lgMax := s.lgMax) (lgCur := s.map.lg)
    (flags := 5) (by norm_num) (by omega) (by omega) (by norm_num)
  set w0 := pre0 1 s.lgMax s.map.lg 5 with hw0
  have hlt : w0.toNat < 256 ^ 8 := by have := w0.isLt; omega
  have hget : getLE (toLE 8 w0.toNat) 0 8 = .ok w0.toNat := by
    have := getLE_first (c := []) hlt
    simpa using this
  refine ⟨toLE 8 w0.toNat, ?_, by simp, ?_⟩
  · unfold Sketch.toSlice
    rw [if_pos hn, ← hw0]
    have := put_buf (d := []) (n := 8) (o := 0) (bs := toLE 8 w0.toNat) (by simp) (by simp)
    simpa [Buf] using this
  · unfold fromSlice
    rw [if_neg (by simp), hget]
    simp only [Outcome.ok_bind, BitVec.ofNat_toNat, BitVec.setWidth_eq, e1, e2, e3, e4, e6]
    cases kd <;> simp [sizeBack]

theorem ReachS.good {kd : Kind} {hash : κ → Nat} {z : κ} {M : Nat} {sd : Serde κ} {P : κ → Prop}
    (hl : Lawful sd P) (hkd : kd = .longs → LongKeys sd) {s : Sketch κ} {f : κ → Int}
    {W : Int} (h : ReachS kd hash z M sd P s f W) : Good kd hash M s f W := by
  induction h with
  | new lgMax lgCur hs hM hl => exact good_new kd hash z M lgMax lgCur hs hM hl
  | update k count _ hW hu ih => exact good_update ih k count hW hu
  | merge stride _ _ hW hst hne hu ih ih' => exact good_merge ih ih' hW stride hst hne hu
  | reset _ ih => exact good_reset ih z
  | @reread s t f W bytes _ hem hlm hP hw hr ih =>
    cases hne : s.isEmpty with
    | false =>
      obtain ⟨e, h⟩ := serde_good hl hkd ih hne hlm hP (z := z)
      rw [hw] at e
      cases e
      rcases h with ⟨e, _⟩ | ⟨t', e, h⟩
      · rw [hr] at e; cases e
      · rw [hr] at e
        cases e
        exact h.good ih
    | true =>
      obtain ⟨b, e, _, e'⟩ := serde_empty sd ih hne hlm (z := z)
      rw [hw] at e
      cases e
      rw [hr] at e'
      cases e'
      obtain ⟨hW, hM3⟩ := hem hne
      obtain ⟨⟨g, hgh, hi⟩, hf, hss, hmx⟩ := ih
      have hf0 : f = fun _ => 0 := by
        funext k
        have h1 := hi.con.nonneg k
        have hb := hi.con.budget
        have ho := hi.con.off0
        have hgo := hi.con.off_le_goff hi.g1
        have htn := total_nonneg hi.con.pos
        have hnil : items s.map.slots = [] := by
          have hn : s.map.num = 0 := by simpa [Sketch.isEmpty] using hne
          exact List.eq_nil_of_length_eq_zero (by rw [← hi.wf.num, hn])
        have h2 := hi.con.miss k (by rw [hnil]; simp)
        omega
      subst hW
      rw [hf0]
      have h3 := hi.lg3
      have hM := hi.lgM
      cases kd with
      | items =>
        exact good_new .items hash z M 3 3 ⟨by norm_num, by norm_num⟩ (hM3 rfl) (le_refl _)
      | longs =>
        have hmx3 : max s.lgMax 3 = s.lgMax := by omega
        have hG := good_new .longs hash z 0 s.lgMax 3 trivial (Nat.zero_le _) (by omega)
        have h2 := hi.ss2
        have hsz : (newSketch .longs z s.lgMax 3).sampleSize = min 1024 (capOf (2 ^ s.lgMax)) := by
          show min 1024 (capOf (2 ^ max s.lgMax 3)) = _
          rw [hmx3]
        have hle : halfSample M ≤ (newSketch .longs z s.lgMax 3).sampleSize -
            (newSketch .longs z s.lgMax 3).sampleSize / 2 := by rw [hsz]; omega
        refine ⟨⟨_, hle, ?_⟩, hG.fits, hle, hG.ssMax⟩
        have hp : 1 ≤ capOf (2 ^ max s.lgMax 3) := capOf_pos (by omega)
        exact fresh_inv z (max s.lgMax 3) 3 _ (min 1024 (capOf (2 ^ max s.lgMax 3))) (by omega)
          (by omega) rfl (by omega) (by omega)

/-! ## C80 -/

/-- **C80** a sketch that holds a counter is written, and read back as a sketch that gives the same
answers; the only failure is the drift limit of the long map, for maps of more than 1024 slots.  The
number of bytes of a long sketch is the one reported by `GetStorageBytes`.

Partial: sketches without counters do not come back as they were (see `C80_purged_lost` and
`C80_items_empty_shrinks`; `C80_empty` says what is kept). -/
theorem C80_round_trip_partial {kd : Kind} {hash : κ → Nat} {z : κ} {M : Nat} {s : Sketch κ}
    {f : κ → Int} {W : Int} {sd : Serde κ} {P : κ → Prop} (hl : Lawful sd P)
    (hkd : kd = .longs → LongKeys sd) (h : ReachS kd hash z M sd P s f W) (hne : s.isEmpty = false)
    (hlm : s.lgMax ≤ 32) (hP : ∀ k, f k ≠ 0 → P k) :
    ∃ bytes, s.toSlice kd sd = .ok bytes ∧ (kd = .longs → bytes.length = storageBytes s) ∧
      ((fromSlice kd sd hash z bytes = .err "drift >= driftLimit" ∧ kd = .longs ∧ 10 < s.lgMax) ∨
        ∃ t, fromSlice kd sd hash z bytes = .ok t ∧ SameAnswers kd hash s t) := by
  have hg := h.good hl hkd
  obtain ⟨e, hr⟩ := serde_good hl hkd hg hne hlm hP (z := z)
  refine ⟨_, e, ?_, ?_⟩
  · intro hk
    obtain ⟨⟨g, hgh, hi⟩, _⟩ := hg
    have hk8 : ∀ L : List κ, (sd.many L).length = 8 * L.length := by
      intro L
      induction L with
      | nil => rw [hl.nil]; rfl
      | cons x L ih =>
        rw [hl.cons, List.length_append, (hkd hk x).2, ih, List.length_cons]
        omega
    have hnl := hi.wf.num
    unfold image storageBytes
    rw [if_neg (by simp [hne])]
    simp only [List.length_append, toLE_length, flatMap8_length, hk8, imgVals, imgKeys,
      List.length_map, List.length_nil, ← hnl]
    omega
  · rcases hr with hd | ⟨t, e', hr⟩
    · exact Or.inl hd
    · exact Or.inr ⟨t, e', sameAnswers hg hr⟩

/-- **C80** in the life of a sketch writing and reading back does no harm: the bounds bracket the
true weight of every item, the width is the reported error, the reported stream weight is right -/
theorem C80_bounds_bracket {kd : Kind} {hash : κ → Nat} {z : κ} {M : Nat} {s : Sketch κ}
    {f : κ → Int} {W : Int} {sd : Serde κ} {P : κ → Prop} (hl : Lawful sd P)
    (hkd : kd = .longs → LongKeys sd) (h : ReachS kd hash z M sd P s f W) (k : κ) :
    s.weight = W ∧ ∃ lb ub est, s.lowerBound (cfg kd hash) k = .ok lb ∧
      s.upperBound (cfg kd hash) k = .ok ub ∧ s.estimate kd hash k = .ok est ∧
      0 ≤ lb ∧ lb ≤ f k ∧ f k ≤ ub ∧ lb ≤ est ∧ est ≤ ub ∧ ub - lb = s.offset := by
  have hg := h.good hl hkd
  obtain ⟨lb, est, h1, h2, h3, h4, h5, h6, h7, h8, _⟩ := good_bounds hg k
  obtain ⟨⟨g, _, hi⟩, _⟩ := hg
  exact ⟨hi.wt, lb, _, est, h1, h2, h3, h4, h5, h6, h7, h8, by omega⟩

/-- **C80** the a-priori error bound survives as well -/
theorem C80_maximum_error {kd : Kind} {hash : κ → Nat} {z : κ} {M : Nat} {s : Sketch κ}
    {f : κ → Int} {W : Int} {sd : Serde κ} {P : κ → Prop} (hl : Lawful sd P)
    (hkd : kd = .longs → LongKeys sd) (h : ReachS kd hash z M sd P s f W) :
    ((min 1024 (3 * 2 ^ M / 4) + 1) / 2 : Nat) * s.offset ≤ s.weight := by
  obtain ⟨⟨g, hg, hi⟩, _⟩ := h.good hl hkd
  have hb := (hi.con.weaken hg).budget
  have := total_nonneg hi.con.pos
  have he : (min 1024 (3 * 2 ^ M / 4) + 1) / 2 = halfSample M := by
    unfold halfSample capOf
    omega
  rw [he, hi.wt]
  omega

/-- **C80** a sketch without counters is written in 8 bytes, as announced, and read back as a new sketch; a long
sketch keeps its maximum map size -/
theorem C80_empty {kd : Kind} {hash : κ → Nat} {z : κ} {M : Nat} {s : Sketch κ}
    {f : κ → Int} {W : Int} {sd : Serde κ} {P : κ → Prop} (hl : Lawful sd P)
    (hkd : kd = .longs → LongKeys sd) (h : ReachS kd hash z M sd P s f W) (hne : s.isEmpty = true)
    (hlm : s.lgMax ≤ 32) :
    ∃ bytes t, s.toSlice kd sd = .ok bytes ∧ bytes.length = 8 ∧ storageBytes s = 8 ∧ fromSlice kd sd hash z bytes = .ok t ∧
      t.isEmpty = true ∧ t.weight = 0 ∧ t.offset = 0 ∧ (kd = .longs → t.lgMax = s.lgMax) ∧
      (∀ k, t.upperBound (cfg kd hash) k = .ok 0) := by
  have hg := h.good hl hkd
  obtain ⟨b, e1, e2, e3⟩ := serde_empty sd hg hne hlm (z := z)
  obtain ⟨⟨g, _, hi⟩, _⟩ := hg
  have h3 := hi.lg3
  have hM := hi.lgM
  have hsup : Supported kd (sizeBack kd s.lgMax) := by
    cases kd
    · trivial
    · exact ⟨by norm_num [sizeBack], by norm_num [sizeBack]⟩
  have hsz : max 3 3 ≤ max (sizeBack kd s.lgMax) 3 := by omega
  have hgn := good_new kd hash z 0 (sizeBack kd s.lgMax) 3 hsup (Nat.zero_le _) hsz
  refine ⟨b, _, e1, e2, if_pos hne, e3, ?_, ?_, ?_, ?_, ?_⟩
  · cases kd <;> rfl
  · cases kd <;> rfl
  · cases kd <;> rfl
  · rintro rfl
    show max s.lgMax 3 = s.lgMax
    omega
  · intro k
    obtain ⟨lb, est, h1, h2, _, h4, h5, _⟩ := good_bounds hgn k
    have ho : (newSketch kd z (sizeBack kd s.lgMax) 3).offset = 0 := by cases kd <;> rfl
    rw [h2, ho]
    congr 1
    omega

/-! ### Violations -/

/-- the long serializer of keys given by their bit patterns, as used by the long sketch -/
theorem longs_longKeys : LongKeys longs := by
  intro x
  exact ⟨by simp [longs, fixed], by simp [longs, fixed]⟩

/-- the long sketch after the seven items of `sevenItems` -/
def sevenPurged : Sketch Nat := ⟨3, 6, 1, 7, 6, ⟨3, [⟨0, -1, 0⟩, ⟨1, 0, 0⟩, ⟨2, 0, 0⟩, ⟨3, 0, 0⟩,
  ⟨4, 0, 0⟩, ⟨5, 0, 0⟩, ⟨6, 0, 0⟩, ⟨7, 0, 0⟩], 0⟩⟩

/-- **C80** the full claim is false: a sketch whose last purge removed every counter is written as an
empty one.  Seven distinct items of weight 1 go into a long sketch of maximum map size 8; after
writing and reading back item 1, of true weight 1, has the upper bound 0, and the stream weight is 0
instead of 7. -/
theorem C80_purged_lost :
    ∃ (s t : Sketch Nat) (f : Nat → Int) (bytes : List Nat), Reach .longs (fun k : Nat => k) 0 3 s f 7 ∧
      f 1 = 1 ∧ s.upperBound (cfg .longs fun k => k) 1 = .ok 1 ∧ s.weight = 7 ∧
      s.toSlice .longs longs = .ok bytes ∧ fromSlice .longs longs (fun k => k) 0 bytes = .ok t ∧
      t.upperBound (cfg .longs fun k => k) 1 = .ok 0 ∧ t.weight = 0 := by
  have ho : updateAll (cfg .longs (fun k : Nat => k)) 0 sevenItems (newLongs 0 3 3) = .ok sevenPurged := by
    decide +kernel
  have hr := updateAll_reach (kd := .longs) (M := 3) sevenItems (newLongs 0 3 3) _ _ _
    (Reach.new 3 3 trivial (le_refl _) (le_refl _)) (by decide) (by decide) ho
  refine ⟨sevenPurged, newLongs 0 3 3, _, [1, 1, 10, 3, 3, 5, 0, 0], hr, by decide, ?_, rfl, ?_, ?_, ?_, rfl⟩ <;>
    decide +kernel

/-- **C80** the full claim is false: an empty item sketch, whatever its maximum map size, is read
back with a maximum map size of 8 -/
theorem C80_items_empty_shrinks (hash : κ → Nat) (z : κ) (sd : Serde κ) (lgMax : Nat) (h1 : 3 < lgMax)
    (h2 : lgMax ≤ 15) :
    ∃ bytes t, (newSketch .items z lgMax 3).toSlice .items sd = .ok bytes ∧
      fromSlice .items sd hash z bytes = .ok t ∧ t.lgMax = 3 ∧ (newSketch .items z lgMax 3).lgMax = lgMax := by
  have hg := good_new .items hash z 0 lgMax 3 ⟨by omega, h2⟩ (Nat.zero_le _) (by omega)
  have hm : (newSketch .items z lgMax 3).lgMax = lgMax := by
    show max lgMax 3 = lgMax
    omega
  obtain ⟨b, e1, _, e3⟩ := serde_empty sd hg rfl (by rw [hm]; omega) (z := z)
  exact ⟨b, _, e1, e3, rfl, hm⟩

/-- **C80** the reader panics on these eight bytes: a preamble of one long that is not marked
empty -/
theorem C80_reader_panics (kd : Kind) (sd : Serde κ) (hash : κ → Nat) (z : κ) :
    fromSlice kd sd hash z [1, 1, 10, 3, 3, 0, 0, 0] = .panic := by
  cases kd <;> rfl

/-! ### The hypotheses are satisfiable -/

/-- a long sketch with a purge behind it: eight items of different weights in 8 slots -/
def eightItems : List (Nat × Int) :=
  [(1, 5), (2, 1), (3, 1), (4, 9), (5, 1), (6, 1), (7, 1), (2 ^ 64 - 1, 4)]

theorem eightItems_built : ∃ s, updateAll (cfg .longs (fun k : Nat => k)) 0 eightItems (newLongs 0 3 3) = .ok s ∧
    s.isEmpty = false ∧ s.lgMax = 3 ∧ s.offset = 1 := by
  refine ⟨_, rfl, ?_, ?_, ?_⟩ <;> decide +kernel

/-- the hypotheses of `C80_round_trip_partial` for the long sketch -/
example : ∃ (s : Sketch Nat) (f : Nat → Int), ReachS .longs (fun k : Nat => k) 0 3 longs (fun v => v < 256 ^ 8) s f 23 ∧
    s.isEmpty = false ∧ s.offset = 1 ∧ (∀ k, f k ≠ 0 → k < 256 ^ 8) ∧ Lawful longs (fun v => v < 256 ^ 8) ∧
    LongKeys longs := by
  obtain ⟨s, hs, h1, h2, h3⟩ := eightItems_built
  have hr := updateAll_reach (kd := .longs) (M := 3) eightItems (newLongs 0 3 3) _ _ _
    (Reach.new 3 3 trivial (le_refl _) (le_refl _)) (by decide) (by decide) hs
  refine ⟨s, _, hr.toS _ _, h1, h3, ?_, fixed_lawful 8, longs_longKeys⟩
  intro k hk
  by_contra hc
  apply hk
  have : tally eightItems k = 0 := by
    unfold tally
    have : eightItems.filter (fun e => decide (e.1 = k)) = [] := by
      rw [List.filter_eq_nil_iff]
      intro e he
      have : ∀ e ∈ eightItems, e.1 < 256 ^ 8 := by decide
      have := this e he
      simp only [decide_eq_true_eq]
      omega
    rw [this]; rfl
  simpa using this

/-- the hypotheses for an item sketch of strings (as lists of bytes), hashed by their first byte -/
example : ∃ (s : Sketch (List Nat)) (f : List Nat → Int),
    ReachS .items (fun k : List Nat => k.headD 0) [] 4 strings ShortStr s f 3 ∧
    s.isEmpty = false ∧ s.lgMax = 4 ∧ (∀ k, f k ≠ 0 → ShortStr k) := by
  have h : updateAll (cfg .items (fun k : List Nat => k.headD 0)) [] [([104, 105], 1), ([104], 2)]
      (newItems [] 4 3) = .ok ⟨4, 6, 0, 3, 12, ⟨3, [⟨[104, 105], 1, 1⟩, ⟨[104], 2, 2⟩, ⟨[], 0, 0⟩,
        ⟨[], 0, 0⟩, ⟨[], 0, 0⟩, ⟨[], 0, 0⟩, ⟨[], 0, 0⟩, ⟨[], 0, 0⟩], 2⟩⟩ := by decide +kernel
  have hr := updateAll_reach (kd := .items) (M := 4) _ (newItems [] 4 3) _ _ _
    (Reach.new 4 3 ⟨by norm_num, by norm_num⟩ (le_refl _) (by norm_num)) (by decide) (by decide) h
  refine ⟨_, _, hr.toS _ _, rfl, rfl, ?_⟩
  intro k hk
  by_cases h1 : k = [104, 105]
  · subst h1; simp [ShortStr]
  by_cases h2 : k = [104]
  · subst h2; simp [ShortStr]
  exact absurd (by simp [tally, Ne.symm h1, Ne.symm h2, total]) hk

end Verif.Freq
