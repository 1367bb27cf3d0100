import Verif.FreqSketch

/-!
# Properties C15 - C19 and C45: frequency sketches

The specification is a function `f : κ → Int` of true item weights and the total weight `W`,
maintained next to the sketch by `Reach`, the set of all sketches that can be built with the public
operations (creation, updates, merges, resets) together with their true weights.
-/

set_option linter.unusedSectionVars false

namespace Verif.Freq

variable {κ : Type} [DecidableEq κ]

/-- the two sketches of the package -/
inductive Kind where
  | longs
  | items

/-- configuration of the two maps: `reverse_purge_long_hash_map.go` l.52,
`reverse_purge_item_hash_map.go` -/
def cfg (kd : Kind) (hash : κ → Nat) : Cfg κ :=
  match kd with
  | .longs => ⟨hash, some 1024, false⟩
  | .items => ⟨hash, none, true⟩

/-- `NewLongsSketch` resp. `NewFrequencyItemsSketch` -/
def newSketch (kd : Kind) (z : κ) (lgMax lgCur : Nat) : Sketch κ :=
  match kd with
  | .longs => newLongs z lgMax lgCur
  | .items => newItems z lgMax lgCur

/-- sizes for which the item sketch works: with `lgMax = 0` its sample size is 0, above 15 the
int16 drift counters can overflow -/
def Supported (kd : Kind) (lgMax : Nat) : Prop :=
  match kd with
  | .longs => True
  | .items => 1 ≤ lgMax ∧ lgMax ≤ 15

/-- Sketches that can be built with the public operations from sketches of map size at least `2^M`,
with the true weight of every item and the total weight.  A merge with a sketch that holds no
counter although it has seen a stream is excluded (see `C18_merge_violated`). -/
inductive Reach (kd : Kind) (hash : κ → Nat) (z : κ) (M : Nat) : Sketch κ → (κ → Int) → Int → Prop
  | new (lgMax lgCur : Nat) : Supported kd lgMax → M ≤ lgMax → max lgCur 3 ≤ max lgMax 3 →
      Reach kd hash z M (newSketch kd z lgMax lgCur) (fun _ => 0) 0
  | update {s s' f W} (k : κ) (count : Int) : Reach kd hash z M s f W → W + count < 2 ^ 63 →
      s.update (cfg kd hash) z k count = .ok s' →
      Reach kd hash z M s' (fun x => if x = k then f x + count else f x) (W + count)
  | merge {s o s' f f' W W'} (stride : Nat) : Reach kd hash z M s f W → Reach kd hash z M o f' W' →
      W + W' < 2 ^ 63 → stride % 2 = 1 → (o.isEmpty = true → W' = 0) →
      s.merge (cfg kd hash) z o stride = .ok s' →
      Reach kd hash z M s' (fun x => f x + f' x) (W + W')
  | reset {s f W} : Reach kd hash z M s f W → Reach kd hash z M (s.reset z) (fun _ => 0) 0

theorem cfg_ok (kd : Kind) (hash : κ → Nat) : (cfg kd hash).Ok := by
  cases kd <;> simp [cfg, Cfg.Ok, Cfg.over]

/-- half of the smallest sample size used by a purge -/
def halfSample (M : Nat) : Nat := min 1024 (capOf (2 ^ M)) - min 1024 (capOf (2 ^ M)) / 2

/-- what holds for every reachable sketch -/
structure Good (kd : Kind) (hash : κ → Nat) (M : Nat) (s : Sketch κ) (f : κ → Int) (W : Int) :
    Prop where
  inv : ∃ g, halfSample M ≤ g ∧ SInv (cfg kd hash) s g f W
  fits : ∀ lg, lg ≤ s.lgMax → Fits (cfg kd hash) lg
  ss : halfSample M ≤ s.sampleSize - s.sampleSize / 2
  ssMax : s.sampleSize ≤ 1024

theorem fits_longs (hash : κ → Nat) (lg : Nat) : Fits (cfg .longs hash) lg := by
  intro d _ h
  simp only [cfg, Cfg.over, decide_eq_false_iff_not] at h
  omega

theorem fits_items (hash : κ → Nat) (lg : Nat) (h : lg ≤ 15) : Fits (cfg .items hash) lg := by
  intro d hd _
  exact lt_of_lt_of_le hd (Nat.pow_le_pow_right (by norm_num) h)

theorem bump_eq (f : κ → Int) (k : κ) (a : Int) :
    bump f k a = fun x => if x = k then f x + a else f x := by
  funext x; unfold bump; split <;> omega

theorem good_new (kd : Kind) (hash : κ → Nat) (z : κ) (M lgMax lgCur : Nat)
    (hs : Supported kd lgMax) (hM : M ≤ lgMax) (h : max lgCur 3 ≤ max lgMax 3) :
    Good kd hash M (newSketch kd z lgMax lgCur) (fun _ => 0) 0 := by
  have hh : ∀ x, M ≤ x → halfSample M ≤ min 1024 (capOf (2 ^ x)) - min 1024 (capOf (2 ^ x)) / 2 := by
    intro x hx
    have := capOf_mono hx
    unfold halfSample
    omega
  cases kd with
  | longs =>
    have hp : 1 ≤ capOf (2 ^ max lgMax 3) := capOf_pos (by omega)
    refine ⟨⟨_, hh (max lgMax 3) (by omega), ?_⟩, fun lg _ => fits_longs hash lg, hh _ (by omega),
      Nat.min_le_left ..⟩
    exact fresh_inv z _ _ _ _ (by omega) h rfl (by omega) (by omega)
  | items =>
    have hp : 1 ≤ capOf (2 ^ lgMax) := capOf_pos hs.1
    have hm : capOf (2 ^ lgMax) ≤ capOf (2 ^ max lgMax 3) := capOf_mono (by omega)
    have h15 := hs.2
    refine ⟨⟨_, hh lgMax hM, ?_⟩, fun lg hlg => fits_items hash lg ?_, hh _ hM,
      Nat.min_le_left ..⟩
    · exact fresh_inv z _ _ _ _ (by omega) h rfl (by omega) (by omega)
    · have : lg ≤ max lgMax 3 := hlg
      omega

theorem good_update {kd : Kind} {hash : κ → Nat} {z : κ} {M : Nat} {s s' : Sketch κ} {f : κ → Int}
    {W : Int} (h : Good kd hash M s f W) (k : κ) (count : Int) (hW : W + count < 2 ^ 63)
    (hu : s.update (cfg kd hash) z k count = .ok s') :
    Good kd hash M s' (fun x => if x = k then f x + count else f x) (W + count) := by
  obtain ⟨⟨g, hg, hi⟩, hf, hss, hmx⟩ := h
  rw [← bump_eq]
  by_cases h0 : count = 0
  · subst h0
    have he : s.update (cfg kd hash) z k 0 = .ok s := by unfold Sketch.update; rw [if_pos rfl]
    rw [he] at hu
    cases hu
    have hb : bump f k 0 = f := by funext x; simp [bump]
    rw [hb, Int.add_zero]
    exact ⟨⟨g, hg, hi⟩, hf, hss, hmx⟩
  · by_cases hn : count < 0
    · unfold Sketch.update at hu
      rw [if_neg h0, if_pos hn] at hu
      cases hu
    · rcases update_spec (cfg_ok kd hash) z hf hi k count (by omega) hW with ⟨e, _⟩ | ⟨s2, e, h1, h2, h3⟩
      · rw [e] at hu; cases hu
      · rw [e] at hu
        cases hu
        exact ⟨⟨g, hg, h1⟩, by rw [h2]; exact hf, by rw [h3]; exact hss, by rw [h3]; exact hmx⟩

theorem good_merge {kd : Kind} {hash : κ → Nat} {z : κ} {M : Nat} {s o s' : Sketch κ}
    {f f' : κ → Int} {W W' : Int} (h : Good kd hash M s f W) (h' : Good kd hash M o f' W')
    (hW : W + W' < 2 ^ 63) (stride : Nat) (hst : stride % 2 = 1) (hne : o.isEmpty = true → W' = 0)
    (hu : s.merge (cfg kd hash) z o stride = .ok s') :
    Good kd hash M s' (fun x => f x + f' x) (W + W') := by
  obtain ⟨⟨g, hg, hi⟩, hf, hss, hmx⟩ := h
  obtain ⟨⟨g', hg', hi'⟩, hf', hss', _⟩ := h'
  rcases merge_spec (cfg_ok kd hash) z hf hi hi' hW stride hst
    (by
      by_cases hz : o.map.num = 0
      · exact Or.inr (hne (by simp [Sketch.isEmpty, hz]))
      · exact Or.inl hz) with ⟨e, _⟩ | ⟨s2, e, h1, h2, h3⟩
  · rw [e] at hu; cases hu
  · rw [e] at hu
    cases hu
    exact ⟨⟨_, by omega, h1⟩, by rw [h2]; exact hf, by rw [h3]; exact hss, by rw [h3]; exact hmx⟩

theorem good_reset {kd : Kind} {hash : κ → Nat} {M : Nat} {s : Sketch κ} {f : κ → Int}
    {W : Int} (h : Good kd hash M s f W) (z : κ) : Good kd hash M (s.reset z) (fun _ => 0) 0 := by
  obtain ⟨⟨g, hg, hi⟩, hf, hss, hmx⟩ := h
  refine ⟨⟨_, hss, ?_⟩, hf, hss, hmx⟩
  have h1 := hi.lg3
  have h2 := hi.lgM
  exact fresh_inv z s.lgMax 3 (capOf (2 ^ 3)) s.sampleSize (le_refl _) (by omega) rfl hi.ss1 hi.ss2

theorem Reach.good {kd : Kind} {hash : κ → Nat} {z : κ} {M : Nat} {s : Sketch κ} {f : κ → Int}
    {W : Int} (h : Reach kd hash z M s f W) : Good kd hash M s f W := by
  induction h with
  | new lgMax lgCur hs hM hl => exact good_new kd hash z M lgMax lgCur hs hM hl
  | update k count _ hW hu ih => exact good_update ih k count hW hu
  | merge stride _ _ hW hst hne hu ih ih' => exact good_merge ih ih' hW stride hst hne hu
  | reset _ ih => exact good_reset ih z

/-! ## C15, C16 -/

/-- `GetEstimate` of the two sketches -/
def Sketch.estimate (kd : Kind) (hash : κ → Nat) (s : Sketch κ) (k : κ) : Outcome Int :=
  match kd with
  | .longs => s.upperBound (cfg kd hash) k
  | .items => s.itemEstimate (cfg kd hash) k

theorem good_bounds {kd : Kind} {hash : κ → Nat} {M : Nat} {s : Sketch κ} {f : κ → Int} {W : Int}
    (h : Good kd hash M s f W) (k : κ) :
    ∃ lb est, s.lowerBound (cfg kd hash) k = .ok lb ∧
      s.upperBound (cfg kd hash) k = .ok (lb + s.offset) ∧ s.estimate kd hash k = .ok est ∧
      0 ≤ lb ∧ lb ≤ f k ∧ f k ≤ lb + s.offset ∧ lb ≤ est ∧ est ≤ lb + s.offset ∧
      (((∃ v, (k, v) ∈ items s.map.slots) ∧ (k, lb) ∈ items s.map.slots ∧ 0 < lb ∧ est = lb + s.offset) ∨
        (∀ v, (k, v) ∉ items s.map.slots)) := by
  obtain ⟨⟨g, _, hi⟩, _⟩ := h
  have ho := hi.con.off0
  have hbud := hi.con.budget
  have hgo := hi.con.off_le_goff hi.g1
  have htn := total_nonneg hi.con.pos
  have hwl := hi.wlt
  rcases hi.get k with ⟨v, hv, hg⟩ | ⟨hno, hg⟩
  · have h1 := hi.val_lt hv
    simp only at h1
    have hw : wrap 8 (v + s.offset) = v + s.offset :=
      wrap_of_inRange (inRange8 (by omega) (by omega))
    refine ⟨v, v + s.offset, hg, ?_, ?_, by omega, hi.con.lb _ hv, hi.con.ub _ hv, by omega, le_refl _,
      Or.inl ⟨⟨v, hv⟩, hv, h1.1, rfl⟩⟩
    · unfold Sketch.upperBound
      rw [hg]
      simp only [Outcome.ok_bind, Outcome.pure_eq, hw]
    · cases kd with
      | longs =>
        simp only [Sketch.estimate, Sketch.upperBound]
        rw [hg]
        simp only [Outcome.ok_bind, Outcome.pure_eq, hw]
      | items =>
        simp only [Sketch.estimate, Sketch.itemEstimate]
        rw [hg]
        simp only [Outcome.ok_bind]
        rw [if_pos h1.1, hw]
        rfl
  · have hw : wrap 8 (0 + s.offset) = 0 + s.offset :=
      wrap_of_inRange (inRange8 (by omega) (by omega))
    have h1 := hi.con.miss k hno
    have h2 := hi.con.nonneg k
    have hub : s.upperBound (cfg kd hash) k = .ok (0 + s.offset) := by
      unfold Sketch.upperBound
      rw [hg]
      simp only [Outcome.ok_bind, Outcome.pure_eq, hw]
    cases kd with
    | longs => exact ⟨0, 0 + s.offset, hg, hub, hub, le_refl _, h2, by omega, by omega, by omega, Or.inr hno⟩
    | items =>
      refine ⟨0, 0, hg, hub, ?_, le_refl _, h2, by omega, by omega, by omega, Or.inr hno⟩
      simp only [Sketch.estimate, Sketch.itemEstimate]
      rw [hg]
      simp only [Outcome.ok_bind]
      rw [if_neg (by omega)]
      rfl

/-- **C15** for every item the reported bounds bracket the true weight, and so does the estimate
lie between the bounds; the queries never fail. -/
theorem C15_bounds_bracket {kd : Kind} {hash : κ → Nat} {z : κ} {M : Nat} {s : Sketch κ}
    {f : κ → Int} {W : Int} (h : Reach kd hash z M s f W) (k : κ) :
    ∃ lb ub est, s.lowerBound (cfg kd hash) k = .ok lb ∧ s.upperBound (cfg kd hash) k = .ok ub ∧
      s.estimate kd hash k = .ok est ∧ 0 ≤ lb ∧ lb ≤ f k ∧ f k ≤ ub ∧ lb ≤ est ∧ est ≤ ub := by
  obtain ⟨lb, est, h1, h2, h3, h4, h5, h6, h7, h8, _⟩ := good_bounds h.good k
  exact ⟨lb, _, est, h1, h2, h3, h4, h5, h6, h7, h8⟩

/-- **C15** an update of a reachable sketch never panics; it succeeds unless the drift limit of the
long map is hit, which is impossible for map sizes up to 1024 and for the item sketch. -/
theorem C15_update_total {kd : Kind} {hash : κ → Nat} {z : κ} {M : Nat} {s : Sketch κ}
    {f : κ → Int} {W : Int} (h : Reach kd hash z M s f W) (k : κ) (count : Int) (h0 : 0 ≤ count)
    (hW : W + count < 2 ^ 63) :
    (∃ s', s.update (cfg kd hash) z k count = .ok s') ∨
    (s.update (cfg kd hash) z k count = .err "drift >= driftLimit" ∧ kd = .longs ∧ 10 < s.lgMax) := by
  obtain ⟨⟨g, hg, hi⟩, hf, hss, _⟩ := h.good
  by_cases hz : count = 0
  · left
    exact ⟨s, by unfold Sketch.update; rw [if_pos hz]⟩
  · rcases update_spec (cfg_ok kd hash) z hf hi k count (by omega) hW with ⟨e, d, hd, ho⟩ | ⟨s2, e, _⟩
    · right
      refine ⟨e, ?_⟩
      cases kd with
      | items => simp [cfg, Cfg.over] at ho
      | longs =>
        refine ⟨rfl, ?_⟩
        simp only [cfg, Cfg.over, decide_eq_true_eq] at ho
        by_contra hcon
        have : 2 ^ s.lgMax ≤ 2 ^ 10 := Nat.pow_le_pow_right (by norm_num) (by omega)
        omega
    · exact Or.inl ⟨s2, e⟩

/-- **C16** the width of the interval is the reported maximum error (`GetMaximumError`, which is the
`offset` field), and the reported stream weight (`GetStreamLength`) is the sum of all weights. -/
theorem C16_error_band {kd : Kind} {hash : κ → Nat} {z : κ} {M : Nat} {s : Sketch κ}
    {f : κ → Int} {W : Int} (h : Reach kd hash z M s f W) (k : κ) :
    s.weight = W ∧ 0 ≤ s.offset ∧ ∃ lb ub, s.lowerBound (cfg kd hash) k = .ok lb ∧
      s.upperBound (cfg kd hash) k = .ok ub ∧ ub - lb = s.offset := by
  obtain ⟨lb, est, h1, h2, _⟩ := good_bounds h.good k
  obtain ⟨⟨g, _, hi⟩, _⟩ := h.good
  exact ⟨hi.wt, hi.con.off0, lb, _, h1, h2, by omega⟩

/-- **C16** while the reported maximum error is 0 all answers are exact -/
theorem C16_exact_when_no_error {kd : Kind} {hash : κ → Nat} {z : κ} {M : Nat} {s : Sketch κ}
    {f : κ → Int} {W : Int} (h : Reach kd hash z M s f W) (h0 : s.offset = 0) (k : κ) :
    s.lowerBound (cfg kd hash) k = .ok (f k) ∧ s.upperBound (cfg kd hash) k = .ok (f k) := by
  obtain ⟨lb, est, h1, h2, h3, h4, h5, h6, _⟩ := good_bounds h.good k
  have : lb = f k := by omega
  rw [h1, h2, h0, this]
  exact ⟨rfl, by simp⟩

/-- **C45** a-priori error: the reported maximum error times half the sample size is at most the
stream weight -/
theorem C45_maximum_error {kd : Kind} {hash : κ → Nat} {z : κ} {M : Nat} {s : Sketch κ}
    {f : κ → Int} {W : Int} (h : Reach kd hash z M s f W) :
    ((min 1024 (3 * 2 ^ M / 4) + 1) / 2 : Nat) * s.offset ≤ s.weight := by
  obtain ⟨⟨g, hg, hi⟩, _⟩ := h.good
  have hb := (hi.con.weaken hg).budget
  have := total_nonneg hi.con.pos
  have he : (min 1024 (3 * 2 ^ M / 4) + 1) / 2 = halfSample M := by
    unfold halfSample capOf
    omega
  rw [he, hi.wt]
  omega

/-- **C45** for map sizes up to 1024 the maximum error never exceeds the a-priori error
`3.5 / maxMapSize * streamWeight` (`GetAprioriErrorLongsSketch`), whatever the order of the stream
and however it was split over merged sketches -/
theorem C45_apriori_error {kd : Kind} {hash : κ → Nat} {z : κ} {M : Nat} {s : Sketch κ}
    {f : κ → Int} {W : Int} (h : Reach kd hash z M s f W) (h3 : 3 ≤ M) (h10 : M ≤ 10) :
    (s.offset : ℚ) ≤ 7 / 2 / 2 ^ M * s.weight := by
  have h1 := C45_maximum_error h
  obtain ⟨⟨g, _, hi⟩, _⟩ := h.good
  have ho := hi.con.off0
  have hq : (0 : ℚ) ≤ s.offset := by exact_mod_cast ho
  have hcast : ∀ G : Nat, (G : Int) * s.offset ≤ s.weight → (G : ℚ) * s.offset ≤ s.weight := by
    intro G hG
    exact_mod_cast hG
  have h2 := hcast _ h1
  have hM : M = 3 ∨ M = 4 ∨ M = 5 ∨ M = 6 ∨ M = 7 ∨ M = 8 ∨ M = 9 ∨ M = 10 := by omega
  rcases hM with rfl | rfl | rfl | rfl | rfl | rfl | rfl | rfl <;> norm_num at h2 ⊢ <;> linarith

/-! ## C17 -/

theorem selectRows_spec {kd : Kind} {hash : κ → Nat} {M : Nat} {s : Sketch κ} {f : κ → Int} {W : Int}
    (h : Good kd hash M s f W) (ie : Bool) (nfn : Bool) (thr : Int) :
    ∀ (L : List (κ × Int)), (∀ e ∈ L, e ∈ items s.map.slots) →
      selectRows (cfg kd hash) s ie nfn thr L = .ok
        ((L.filter (fun e => decide (thr ≤ if nfn then e.2 + s.offset else e.2))).map
          (fun e => (⟨e.1, e.2 + s.offset, e.2 + s.offset, e.2⟩ : Row κ))) := by
  obtain ⟨⟨g, _, hi⟩, _⟩ := h
  have ho := hi.con.off0
  intro L
  induction L with
  | nil => intro _; rfl
  | cons e L ih =>
    intro hL
    obtain ⟨k, v⟩ := e
    have hv := hL (k, v) (List.mem_cons_self ..)
    have hlt := hi.val_lt hv
    simp only at hlt
    have hg : get (cfg kd hash) s.map.slots k = .ok v :=
      (get_spec hi.wf.inv (by rw [← hi.wf.num, hi.wf.inv.len]; have := hi.num_lt; omega) k).1 v hv
    have hw : wrap 8 (v + s.offset) = v + s.offset :=
      wrap_of_inRange (inRange8 (by omega) (by omega))
    rw [selectRows, hg]
    simp only [Outcome.ok_bind]
    rw [ih (fun e he => hL e (List.mem_cons_of_mem _ he)), hw]
    simp only [Outcome.ok_bind, if_pos hlt.1, ite_self, List.filter_cons]
    by_cases hc : thr ≤ if nfn = true then v + s.offset else v
    · rw [if_pos hc, if_pos (by simpa using hc)]
      rfl
    · rw [if_neg hc, if_neg (by simpa using hc)]
      rfl

/-- **C17** the frequent-items query always succeeds; its rows are sorted by decreasing estimate,
name each item at most once and carry the bounds of the item. -/
theorem C17_rows {kd : Kind} {hash : κ → Nat} {z : κ} {M : Nat} {s : Sketch κ}
    {f : κ → Int} {W : Int} (h : Reach kd hash z M s f W) (stride : Nat) (hs : stride % 2 = 1)
    (itemEst nfn : Bool) (thr : Int) :
    ∃ rows, s.frequentItems (cfg kd hash) stride itemEst nfn thr = .ok rows ∧
      rows.Pairwise (fun a b => b.est ≤ a.est) ∧ (rows.map Row.item).Nodup ∧
      (∀ r ∈ rows, s.lowerBound (cfg kd hash) r.item = .ok r.lb ∧
        s.upperBound (cfg kd hash) r.item = .ok r.ub ∧ s.estimate kd hash r.item = .ok r.est ∧
        r.lb ≤ f r.item ∧ f r.item ≤ r.ub) ∧
      (∀ k lb ub, 0 < lb → s.lowerBound (cfg kd hash) k = .ok lb → s.upperBound (cfg kd hash) k = .ok ub →
        ((∃ r ∈ rows, r.item = k) ↔ max thr s.offset ≤ if nfn then ub else lb)) := by
  obtain ⟨⟨g, hg, hi⟩, hf, hss, _⟩ := h.good
  obtain ⟨L, hL, hp⟩ := iterate_spec hi.wf stride hs
  have hsel := selectRows_spec h.good itemEst nfn (max thr s.offset) L (fun e he => hp.mem_iff.mp he)
  set rows0 := ((L.filter (fun e => decide (max thr s.offset ≤ if nfn then e.2 + s.offset else e.2))).map
          (fun e => (⟨e.1, e.2 + s.offset, e.2 + s.offset, e.2⟩ : Row κ))) with hrows0
  have hperm := List.mergeSort_perm rows0 (fun a b => decide (a.est ≥ b.est))
  have hrow : ∀ r, r ∈ rows0 ↔ (r.item, r.lb) ∈ items s.map.slots ∧ r.ub = r.lb + s.offset ∧
      r.est = r.lb + s.offset ∧ max thr s.offset ≤ if nfn then r.ub else r.lb := by
    intro r
    rw [hrows0, List.mem_map]
    constructor
    · rintro ⟨e, he, rfl⟩
      rw [List.mem_filter] at he
      exact ⟨hp.mem_iff.mp he.1, rfl, rfl, by simpa using he.2⟩
    · rintro ⟨h1, h2, h3, h4⟩
      refine ⟨(r.item, r.lb), List.mem_filter.mpr ⟨hp.mem_iff.mpr h1, ?_⟩, ?_⟩
      · rw [h2] at h4; simpa using h4
      · obtain ⟨a, b, c', d⟩ := r
        simp only at h2 h3
        simp [h2, h3]
  refine ⟨rows0.mergeSort (fun a b => decide (a.est ≥ b.est)), ?_, ?_, ?_, ?_, ?_⟩
  · unfold Sketch.frequentItems
    rw [hL]
    simp only [Outcome.ok_bind]
    rw [hsel]
    rfl
  · have := List.pairwise_mergeSort (le := fun (a b : Row κ) => decide (a.est ≥ b.est))
      (by intro a b c h1 h2; simp only [decide_eq_true_eq, ge_iff_le] at *; omega)
      (by intro a b; simp only [Bool.or_eq_true, decide_eq_true_eq, ge_iff_le]; omega) rows0
    exact this.imp (by intro a b hab; simpa using hab)
  · rw [(hperm.map Row.item).nodup_iff, hrows0, List.map_map]
    have hnd : (L.map Prod.fst).Nodup := (hp.map Prod.fst).nodup_iff.mpr hi.wf.inv.keys_nodup
    exact hnd.sublist ((List.filter_sublist).map Prod.fst)
  · intro r hr
    obtain ⟨h1, h2, h3, _⟩ := (hrow r).mp (hperm.mem_iff.mp hr)
    obtain ⟨lb, est, b1, b2, b3, b4, b5, b6, b7, b8, b9⟩ := good_bounds h.good r.item
    have hgl := (get_spec hi.wf.inv (by rw [← hi.wf.num, hi.wf.inv.len]; have := hi.num_lt; omega) r.item).1 _ h1
    have hlb : lb = r.lb := by
      have : Outcome.ok lb = Outcome.ok r.lb := by rw [← b1]; exact hgl
      exact Outcome.ok.inj this
    subst hlb
    rcases b9 with ⟨_, _, _, he⟩ | hno
    · rw [h2, h3]
      exact ⟨b1, b2, by rw [b3, he], b5, b6⟩
    · exact absurd h1 (hno _)
  · intro k lb ub hpos hlb hub
    obtain ⟨lb', est, b1, b2, _, _, _, _, _, _, b9⟩ := good_bounds h.good k
    rw [hlb] at b1
    cases b1
    rw [hub] at b2
    cases b2
    have hmem : (k, lb) ∈ items s.map.slots := by
      rcases b9 with ⟨_, hm, _⟩ | hno
      · exact hm
      · rcases hi.get k with ⟨v, hv, _⟩ | ⟨_, hg0⟩
        · exact absurd hv (hno v)
        · have : get (cfg kd hash) s.map.slots k = .ok lb := hlb
          rw [hg0] at this
          cases this
          omega
    constructor
    · rintro ⟨r, hr, rfl⟩
      obtain ⟨h1, h2, _, h4⟩ := (hrow r).mp (hperm.mem_iff.mp hr)
      have hgl := (get_spec hi.wf.inv (by rw [← hi.wf.num, hi.wf.inv.len]; have := hi.num_lt; omega) r.item).1 _ h1
      have hlb' : lb = r.lb := by
        have : Outcome.ok lb = Outcome.ok r.lb := by rw [← hlb]; exact hgl
        exact Outcome.ok.inj this
      rw [hlb', ← h2]
      exact h4
    · intro hthr
      exact ⟨⟨k, lb + s.offset, lb + s.offset, lb⟩, hperm.mem_iff.mpr ((hrow _).mpr ⟨hmem, rfl, rfl, hthr⟩), rfl⟩

/-- **C17** no false negatives: every item whose true weight exceeds both the threshold and the
maximum error is returned -/
theorem C17_no_false_negatives {kd : Kind} {hash : κ → Nat} {z : κ} {M : Nat} {s : Sketch κ}
    {f : κ → Int} {W : Int} (h : Reach kd hash z M s f W) (stride : Nat) (hs : stride % 2 = 1)
    (itemEst : Bool) (thr : Int) (k : κ) (hk : max thr s.offset < f k) :
    ∃ rows, s.frequentItems (cfg kd hash) stride itemEst true thr = .ok rows ∧
      ∃ r ∈ rows, r.item = k := by
  obtain ⟨rows, h1, _, _, _, h5⟩ := C17_rows h stride hs itemEst true thr
  refine ⟨rows, h1, ?_⟩
  obtain ⟨lb, est, b1, b2, _, _, _, b6, _, _, _⟩ := good_bounds h.good k
  refine (h5 k lb _ (by omega) b1 b2).mpr ?_
  simp only [if_true]
  omega

/-- **C17** no false positives: every returned item has a true weight of at least the threshold -/
theorem C17_no_false_positives {kd : Kind} {hash : κ → Nat} {z : κ} {M : Nat} {s : Sketch κ}
    {f : κ → Int} {W : Int} (h : Reach kd hash z M s f W) (stride : Nat) (hs : stride % 2 = 1)
    (itemEst : Bool) (thr : Int) :
    ∃ rows, s.frequentItems (cfg kd hash) stride itemEst false thr = .ok rows ∧
      ∀ r ∈ rows, thr ≤ f r.item ∧ s.offset ≤ f r.item := by
  obtain ⟨rows, h1, _, _, h4, h5⟩ := C17_rows h stride hs itemEst false thr
  refine ⟨rows, h1, ?_⟩
  intro r hr
  obtain ⟨c1, c2, c3, c4, c5⟩ := h4 r hr
  obtain ⟨lb, est, b1, b2, b3, b4, b5, b6, b7, b8, b9⟩ := good_bounds h.good r.item
  have hlb : lb = r.lb := by rw [b1] at c1; exact Outcome.ok.inj c1
  by_cases hpos : 0 < r.lb
  · have := (h5 r.item r.lb r.ub hpos c1 c2).mp ⟨r, hr, rfl⟩
    simp only [Bool.false_eq_true, if_false] at this
    omega
  · -- rows always name stored items
    exfalso
    obtain ⟨⟨g, hg, hi⟩, _⟩ := h.good
    obtain ⟨L, hL, hp⟩ := iterate_spec hi.wf stride hs
    have hsel := selectRows_spec h.good itemEst false (max thr s.offset) L (fun e he => hp.mem_iff.mp he)
    unfold Sketch.frequentItems at h1
    rw [hL] at h1
    simp only [Outcome.ok_bind] at h1
    rw [hsel] at h1
    simp only [Outcome.ok_bind, Outcome.pure_eq, Outcome.ok.injEq] at h1
    rw [← h1, List.mem_mergeSort] at hr
    obtain ⟨e, he, rfl⟩ := List.mem_map.mp hr
    rw [List.mem_filter] at he
    exact hpos (hi.con.pos e (hp.mem_iff.mp he.1))

/-! ## C18 -/

/-- **C18** (partial) Merging keeps the bounds valid for the concatenated streams, and adds the
reported stream weights.  Missing from the full statement: the case excluded by `hne`, in which the
code loses the merged-in stream (`C18_merge_violated`). -/
theorem C18_merge_bounds_partial {kd : Kind} {hash : κ → Nat} {z : κ} {M : Nat} {s o : Sketch κ}
    {f f' : κ → Int} {W W' : Int} (h : Reach kd hash z M s f W) (h' : Reach kd hash z M o f' W')
    (hW : W + W' < 2 ^ 63) (stride : Nat) (hs : stride % 2 = 1) (hne : o.isEmpty = true → W' = 0) :
    (s.merge (cfg kd hash) z o stride = .err "drift >= driftLimit" ∧ kd = .longs ∧ 10 < s.lgMax) ∨
    ∃ s', s.merge (cfg kd hash) z o stride = .ok s' ∧ s'.weight = W + W' ∧
      ∀ k, ∃ lb ub, s'.lowerBound (cfg kd hash) k = .ok lb ∧ s'.upperBound (cfg kd hash) k = .ok ub ∧
        0 ≤ lb ∧ lb ≤ f k + f' k ∧ f k + f' k ≤ ub := by
  obtain ⟨⟨g, hg, hi⟩, hf, hss, _⟩ := h.good
  obtain ⟨⟨g', hg', hi'⟩, hf', hss', _⟩ := h'.good
  rcases merge_spec (cfg_ok kd hash) z hf hi hi' hW stride hs
    (by
      by_cases hz : o.map.num = 0
      · exact Or.inr (hne (by simp [Sketch.isEmpty, hz]))
      · exact Or.inl hz) with ⟨e, d, hd, ho⟩ | ⟨s2, e, h1, h2, h3⟩
  · left
    refine ⟨e, ?_⟩
    cases kd with
    | items => simp [cfg, Cfg.over] at ho
    | longs =>
      refine ⟨rfl, ?_⟩
      simp only [cfg, Cfg.over, decide_eq_true_eq] at ho
      by_contra hcon
      have : 2 ^ s.lgMax ≤ 2 ^ 10 := Nat.pow_le_pow_right (by norm_num) (by omega)
      omega
  · right
    have hr := Reach.merge stride h h' hW hs hne e
    refine ⟨s2, e, h1.wt, ?_⟩
    intro k
    obtain ⟨lb, ub, est, b1, b2, b3, b4, b5, b6, b7, b8⟩ := C15_bounds_bracket hr k
    exact ⟨lb, ub, b1, b2, b4, b5, b6⟩

/-- seven distinct items of weight 1 in a sketch of maximum map size 8 -/
def sevenItems : List (Nat × Int) := [(1, 1), (2, 1), (3, 1), (4, 1), (5, 1), (6, 1), (7, 1)]

theorem updateAll_reach {kd : Kind} {hash : κ → Nat} {z : κ} {M : Nat} :
    ∀ (L : List (κ × Int)) (s s' : Sketch κ) (f : κ → Int) (W : Int), Reach kd hash z M s f W →
      (∀ e ∈ L, 0 < e.2) → W + total L < 2 ^ 63 → updateAll (cfg kd hash) z L s = .ok s' →
      Reach kd hash z M s' (fun x => f x + tally L x) (W + total L) := by
  intro L
  induction L with
  | nil =>
    intro s s' f W h _ _ he
    cases he
    simpa [tally, total] using h
  | cons e L ih =>
    intro s s' f W h hpos hW he
    obtain ⟨k, a⟩ := e
    have hL : ∀ e ∈ L, 0 < e.2 := fun e he => hpos e (List.mem_cons_of_mem _ he)
    have hLn := total_nonneg hL
    rw [total_cons] at hW
    simp only at hW
    rw [updateAll, Outcome.bind_eq_ok] at he
    obtain ⟨s1, h1, h2⟩ := he
    have hr := ih s1 s' _ _ (Reach.update k a h (by omega) h1) hL (by omega) h2
    have hfe : (fun x => (if x = k then f x + a else f x) + tally L x) =
        (fun x => f x + tally ((k, a) :: L) x) := by
      funext x
      unfold tally
      rw [List.filter_cons]
      by_cases hx : x = k
      · subst hx
        simp only [if_true, decide_true, total_cons]
        omega
      · rw [if_neg hx, if_neg (by simpa using fun h => hx h.symm)]
    rw [hfe] at hr
    rw [total_cons]
    have : W + a + total L = W + ((k, a).2 + total L) := by simp only; omega
    rw [← this]; exact hr

theorem sevenItems_purged : ∃ o, updateAll (cfg .longs (fun k : Nat => k)) 0 sevenItems (newLongs 0 3 3) =
    .ok o ∧ o.map.num = 0 := by
  refine ⟨⟨3, 6, 1, 7, 6, ⟨3, [⟨0, -1, 0⟩, ⟨1, 0, 0⟩, ⟨2, 0, 0⟩, ⟨3, 0, 0⟩, ⟨4, 0, 0⟩, ⟨5, 0, 0⟩,
    ⟨6, 0, 0⟩, ⟨7, 0, 0⟩], 0⟩⟩, by decide +kernel, rfl⟩

/-- **C18** the full statement is false: merging a sketch whose last purge removed every counter
loses its stream.  Here seven distinct items of weight 1 are merged into a fresh sketch; item 1 has
true weight 1, but the merged sketch reports the upper bound 0 and stream weight 0. -/
theorem C18_merge_violated :
    ∃ (o s' : Sketch Nat) (f : Nat → Int), Reach .longs (fun k : Nat => k) 0 3 o f 7 ∧ f 1 = 1 ∧
      (newLongs 0 3 3).merge (cfg .longs (fun k : Nat => k)) 0 o 5 = .ok s' ∧
      s'.upperBound (cfg .longs (fun k : Nat => k)) 1 = .ok 0 ∧ s'.weight = 0 := by
  obtain ⟨o, ho, hn⟩ := sevenItems_purged
  have hr := updateAll_reach (kd := .longs) (M := 3) sevenItems (newLongs 0 3 3) o _ _
    (Reach.new 3 3 trivial (le_refl _) (le_refl _)) (by decide) (by decide) ho
  refine ⟨o, newLongs 0 3 3, _, hr, by decide, ?_, by decide +kernel, rfl⟩
  unfold Sketch.merge
  rw [if_pos (by simp [Sketch.isEmpty, hn])]

/-! ## C19 -/

/-- Maps that can be built with the operations of the reverse-purge map, together with the finite map
from keys to counters that they should represent. -/
inductive MapReach (c : Cfg κ) (z : κ) : Map κ → (κ → Option Int) → Prop
  | new (lg : Nat) : 3 ≤ lg → Fits c lg → MapReach c z (newMap z lg) (fun _ => none)
  | adjust {m m' F} (k : κ) (a : Int) : MapReach c z m F → InRange 8 a → m.num ≤ capOf (2 ^ m.lg) →
      adjustOrPut c m k a = .ok m' →
      MapReach c z m' (fun x => if x = k then some (wrap 8 ((F k).getD 0 + a)) else F x)
  | resize {m m' F} : MapReach c z m F → Fits c (m.lg + 1) → resize c z m = .ok m' → MapReach c z m' F
  | clean {m t n F} (a : Int) : MapReach c z m F →
      keepOnlyPositive c (adjustAll m.slots a) m.num = .ok (t, n) →
      MapReach c z ⟨m.lg, t, n⟩
        (fun x => ((F x).map (fun v => wrap 8 (v + a))).filter (fun v => decide (0 < v)))
  | purge {m m' v F} (sampleSize : Nat) : MapReach c z m F → 1 ≤ sampleSize → 1 ≤ m.num →
      (∀ x w, F x = some w → 0 < w ∧ w < 2 ^ 63) → purge c m sampleSize = .ok (m', v) →
      MapReach c z m' (fun x => ((F x).map (fun w => w - v)).filter (fun w => decide (0 < w)))

/-- the representation relation behind `MapReach` -/
structure Repr (c : Cfg κ) (m : Map κ) (F : κ → Option Int) : Prop where
  wf : WF c m
  lg3 : 3 ≤ m.lg
  fits : Fits c m.lg
  num : m.num ≤ capOf (2 ^ m.lg) + 1
  cont : ∀ k v, F k = some v ↔ (k, v) ∈ items m.slots

theorem Repr.of_perm {c : Cfg κ} {m m' : Map κ} {F F' : κ → Option Int} (h : Repr c m F)
    (hw : WF c m') (hlg : m'.lg = m.lg) (hn : m'.num ≤ m.num)
    (hc : ∀ k v, F' k = some v ↔ (k, v) ∈ items m'.slots) : Repr c m' F' :=
  ⟨hw, by rw [hlg]; exact h.lg3, by rw [hlg]; exact h.fits, by have := h.num; rw [hlg]; omega, hc⟩

theorem filter_cont {L L' : List (κ × Int)} {F : κ → Option Int} {φ : Int → Int}
    (hc : ∀ k v, F k = some v ↔ (k, v) ∈ L)
    (hp : L'.Perm ((L.map (fun e => (e.1, φ e.2))).filter (fun e => decide (0 < e.2)))) (k : κ) (v : Int) :
    ((F k).map φ).filter (fun w => decide (0 < w)) = some v ↔ (k, v) ∈ L' := by
  rw [hp.mem_iff, List.mem_filter, List.mem_map]
  constructor
  · intro h
    cases hF : F k with
    | none => rw [hF] at h; simp at h
    | some w =>
      rw [hF] at h
      simp only [Option.map_some, Option.filter_some] at h
      split at h
      · rename_i hpos
        simp only [Option.some.injEq] at h
        subst h
        exact ⟨⟨(k, w), (hc k w).mp hF, rfl⟩, hpos⟩
      · cases h
  · rintro ⟨⟨e, he, heq⟩, hpos⟩
    simp only [Prod.mk.injEq] at heq
    have hF : F k = some e.2 := (hc k e.2).mpr (by rw [← heq.1]; exact he)
    rw [hF]
    simp only [Option.map_some, Option.filter_some]
    rw [heq.2]
    simp only at hpos
    rw [if_pos hpos]

theorem MapReach.repr {c : Cfg κ} (hok : c.Ok) {z : κ} {m : Map κ} {F : κ → Option Int}
    (h : MapReach c z m F) : Repr c m F := by
  induction h with
  | new lg h3 hf =>
    have hem : items (newMap z lg).slots = [] := items_replicate _ _
    exact ⟨newMap_wf z lg, h3, hf, Nat.zero_le _, by intro k v; rw [hem]; simp⟩
  | adjust k a _ ha hcap hu ih =>
    rename_i m m' F _
    have hlt := capOf_lt ih.lg3
    rcases adjustOrPut_spec hok ih.wf ih.fits (by omega) hcap k a with ⟨_, _, _, e⟩ | ⟨m2, e, h2, h3, h4⟩
    · rw [e] at hu; cases hu
    · rw [e] at hu
      cases hu
      have hcont : (∀ x v, (if x = k then some (wrap 8 ((F k).getD 0 + a)) else F x) = some v ↔
          (x, v) ∈ items m'.slots) ∧ m'.num ≤ m.num + 1 := by
        rcases h4 with ⟨w, l, p1, p2, hn⟩ | ⟨hno, p, hn⟩
        · have hnd : (((k, w) :: l).map Prod.fst).Nodup :=
            (p1.map Prod.fst).nodup_iff.mp ih.wf.inv.keys_nodup
          rw [List.map_cons, List.nodup_cons] at hnd
          have hFk : F k = some w := (ih.cont k w).mpr (p1.mem_iff.mpr (List.mem_cons_self ..))
          refine ⟨?_, by omega⟩
          intro x v
          rw [p2.mem_iff, List.mem_cons, hFk]
          by_cases hx : x = k
          · subst hx
            have hnl : (x, v) ∉ l := fun hh => hnd.1 (List.mem_map.mpr ⟨_, hh, rfl⟩)
            simp [hnl, eq_comm]
          · rw [if_neg hx, ih.cont, p1.mem_iff, List.mem_cons]
            simp [hx]
        · have hFk : F k = none := by
            cases hF : F k with
            | none => rfl
            | some w => exact absurd ((ih.cont k w).mp hF) (hno w)
          refine ⟨?_, by omega⟩
          intro x v
          rw [p.mem_iff, List.mem_cons, hFk]
          by_cases hx : x = k
          · subst hx
            simp [hno v, wrap_of_inRange ha, eq_comm]
          · rw [if_neg hx, ih.cont]
            simp [hx]
      exact ⟨h2, by rw [h3]; exact ih.lg3, by rw [h3]; exact ih.fits, by rw [h3]; omega, hcont.1⟩
  | resize _ hf hu ih =>
    rename_i m m' F _
    rcases resize_spec hok z ih.wf hf ih.lg3 ih.num with ⟨_, _, _, e⟩ | ⟨m2, e, h2, h3, h4⟩
    · rw [e] at hu; cases hu
    · rw [e] at hu
      cases hu
      have hn : m'.num = m.num := by rw [h2.num, ih.wf.num, h4.length_eq]
      have h3' := ih.lg3
      refine ⟨h2, by rw [h3]; omega, by rw [h3]; exact hf, ?_, ?_⟩
      · rw [hn, h3]
        have := capOf_succ ih.lg3
        have := ih.num
        omega
      · intro k v
        rw [h4.mem_iff]; exact ih.cont k v
  | clean a _ hu ih =>
    rename_i m t n F _
    have hlt := capOf_lt ih.lg3
    have hnum := ih.num
    have hlen : (items (adjustAll m.slots a)).length = (items m.slots).length := by
      rw [adjustAll_items, List.length_map]
    obtain ⟨t', e, h1, h2⟩ := keepOnlyPositive_spec hok ih.fits (adjustAll_inv ih.wf.inv a)
      (by rw [hlen, ← ih.wf.num]; omega)
    rw [hlen, ← ih.wf.num, hu] at e
    simp only [Outcome.ok.injEq, Prod.mk.injEq] at e
    obtain ⟨rfl, rfl⟩ := e
    have hle := h2.length_eq
    refine ih.of_perm ⟨h1, rfl⟩ rfl ?_ ?_
    · show (items t).length ≤ m.num
      rw [hle, ih.wf.num, ← hlen]
      exact List.length_filter_le _ _
    · rw [adjustAll_items] at h2
      exact filter_cont ih.cont h2
  | purge ss _ hss hn1 hpos hu ih =>
    rename_i m m' v F _
    have hlt := capOf_lt ih.lg3
    have hnum := ih.num
    obtain ⟨m2, v2, e, h1, h2, _, _, h3, _, _⟩ := purge_spec hok ih.wf ih.fits ss hss hn1
      (by omega) (fun e he => hpos e.1 e.2 ((ih.cont _ _).mpr he))
    rw [hu] at e
    simp only [Outcome.ok.injEq, Prod.mk.injEq] at e
    obtain ⟨rfl, rfl⟩ := e
    refine ih.of_perm h1 h2 ?_ (filter_cont ih.cont h3)
    rw [h1.num, ih.wf.num, h3.length_eq]
    exact le_trans (List.length_filter_le _ _) (by simp)

/-- **C19** the map is a finite map: a lookup never fails and returns exactly the counter of the
key (0 if it has none), the number of active entries is the number of counters, and the active
entries are exactly the counters, each once. -/
theorem C19_map_refines {c : Cfg κ} (hok : c.Ok) {z : κ} {m : Map κ} {F : κ → Option Int}
    (h : MapReach c z m F) :
    (∀ k, get c m.slots k = .ok ((F k).getD 0)) ∧ m.num = (active m.slots).length ∧
    (∀ k v, F k = some v ↔ (k, v) ∈ active m.slots) ∧ ((active m.slots).map Prod.fst).Nodup ∧
    (∀ stride, stride % 2 = 1 → ∃ l, iterate m stride = .ok l ∧ l.Perm (active m.slots)) := by
  have hr := h.repr hok
  have hact := active_eq_items hr.wf.inv
  have hlt := capOf_lt hr.lg3
  have hnum := hr.num
  rw [hact]
  refine ⟨?_, hr.wf.num, hr.cont, hr.wf.inv.keys_nodup, fun stride hs => iterate_spec hr.wf stride hs⟩
  intro k
  have hg := get_spec hr.wf.inv (by rw [← hr.wf.num, hr.wf.inv.len]; omega) k
  cases hF : F k with
  | none =>
    exact hg.2 (fun v hv => by rw [(hr.cont k v).mpr hv] at hF; cases hF)
  | some v => exact hg.1 v ((hr.cont k v).mp hF)

/-- **C19** no operation on a reachable map panics: adjusting and resizing succeed unless the drift
limit is hit, cleaning and purging always succeed -/
theorem C19_map_total {c : Cfg κ} (hok : c.Ok) {z : κ} {m : Map κ} {F : κ → Option Int}
    (h : MapReach c z m F) :
    (∀ k a, m.num ≤ capOf (2 ^ m.lg) → (∃ m', adjustOrPut c m k a = .ok m') ∨
      (adjustOrPut c m k a = .err "drift >= driftLimit" ∧ ∃ d, d < 2 ^ m.lg ∧ c.over d = true)) ∧
    (Fits c (m.lg + 1) → (∃ m', resize c z m = .ok m') ∨
      (resize c z m = .err "drift >= driftLimit" ∧ ∃ d, d < 2 ^ (m.lg + 1) ∧ c.over d = true)) ∧
    (∀ a, ∃ t n, keepOnlyPositive c (adjustAll m.slots a) m.num = .ok (t, n)) ∧
    (∀ ss, 1 ≤ ss → 1 ≤ m.num → (∀ x w, F x = some w → 0 < w ∧ w < 2 ^ 63) →
      ∃ m' v, purge c m ss = .ok (m', v) ∧ 0 < v ∧ m'.num < m.num) := by
  have hr := h.repr hok
  have hlt := capOf_lt hr.lg3
  have hnum := hr.num
  refine ⟨?_, ?_, ?_, ?_⟩
  · intro k a hcap
    rcases adjustOrPut_spec hok hr.wf hr.fits (by omega) hcap k a with ⟨i, h1, h2, e⟩ | ⟨m2, e, _⟩
    · exact Or.inr ⟨e, i + 1, h1, h2⟩
    · exact Or.inl ⟨m2, e⟩
  · intro hf
    rcases resize_spec hok z hr.wf hf hr.lg3 hr.num with ⟨d, h1, h2, e⟩ | ⟨m2, e, _⟩
    · exact Or.inr ⟨e, d, h1, h2⟩
    · exact Or.inl ⟨m2, e⟩
  · intro a
    have hlen : (items (adjustAll m.slots a)).length = (items m.slots).length := by
      rw [adjustAll_items, List.length_map]
    obtain ⟨t', e, h1, h2⟩ := keepOnlyPositive_spec hok hr.fits (adjustAll_inv hr.wf.inv a)
      (by rw [hlen, ← hr.wf.num]; omega)
    rw [hlen, ← hr.wf.num] at e
    exact ⟨_, _, e⟩
  · intro ss hss hn1 hpos
    obtain ⟨m2, v2, e, h1, h2, h3, _, h4, h5, _⟩ := purge_spec hok hr.wf hr.fits ss hss hn1
      (by omega) (fun e he => hpos e.1 e.2 ((hr.cont _ _).mpr he))
    refine ⟨m2, v2, e, h3, ?_⟩
    have := purge_length v2 (items m.slots)
    rw [← h4.length_eq, ← h1.num, ← hr.wf.num] at this
    omega

/-! ## the hypotheses are met by non-trivial cases -/

/-- a long sketch of map size 8 with a non-trivial stream, which has purged -/
def exStream : List (Nat × Int) :=
  [(1, 5), (2, 1), (3, 1), (9, 2), (17, 4), (1, 3), (4, 1), (5, 1), (6, 7), (14, 2), (9, 6)]

def exSketch : Sketch Nat :=
  ⟨3, 6, 2, 33, 6, ⟨3, [⟨0, -2, 0⟩, ⟨1, 6, 1⟩, ⟨17, 2, 2⟩, ⟨9, 6, 3⟩, ⟨17, 2, 0⟩, ⟨17, 2, 0⟩, ⟨6, 7, 1⟩,
    ⟨14, 2, 2⟩], 5⟩⟩

theorem exSketch_eq (kd : Kind) :
    updateAll (cfg kd (fun k : Nat => k)) 0 exStream (newSketch kd 0 3 3) = .ok exSketch := by
  cases kd <;> decide +kernel

/-- hypotheses of C15, C16, C17, C45 -/
theorem exSketch_reach (kd : Kind) :
    Reach kd (fun k : Nat => k) 0 3 exSketch (fun x => 0 + tally exStream x) 33 :=
  updateAll_reach exStream _ _ _ _
    (Reach.new 3 3 (by cases kd; exacts [trivial, ⟨by norm_num, by norm_num⟩]) (le_refl _) (le_refl _))
    (by decide) (by decide) (exSketch_eq kd)

example : tally exStream 9 = 8 ∧ exSketch.lowerBound (cfg .longs (fun k : Nat => k)) 9 = .ok 6 ∧
    exSketch.upperBound (cfg .longs (fun k : Nat => k)) 9 = .ok 8 := by decide +kernel

example : ∃ rows, exSketch.frequentItems (cfg .items (fun k : Nat => k)) 5 true true 6 = .ok rows ∧
    ∃ r ∈ rows, r.item = 6 :=
  C17_no_false_negatives (exSketch_reach .items) 5 rfl true 6 6 (by decide)

/-- hypotheses of C18: merging the sketch with itself (a copy) -/
example : exSketch.isEmpty = false ∧ (33 : Int) + 33 < 2 ^ 63 := by decide

/-- hypotheses of C19: an adjusted map -/
example : ∃ m, MapReach (cfg .longs (fun k : Nat => k)) 0 m
    (fun x => if x = 5 then some (wrap 8 (0 + 7)) else none) := by
  have h0 : MapReach (cfg .longs (fun k : Nat => k)) 0 (newMap 0 3) (fun _ => none) :=
    .new 3 (le_refl _) (fits_longs _ _)
  have h1 : adjustOrPut (cfg .longs (fun k : Nat => k)) (newMap 0 3) 5 7 =
      .ok ⟨3, (newMap 0 3).slots.set 5 ⟨5, 7, 1⟩, 1⟩ := by decide +kernel
  exact ⟨_, .adjust 5 7 h0 ⟨by norm_num, by norm_num⟩ (by decide) h1⟩

end Verif.Freq
