import Verif.FreqTextTotal
import Verif.FreqSerdeProps

/-!
# Property C98: the text form of the long sketch

The specification is that of `FreqProps`: the true weights `f` and the stream weight `W`.  `ReachT`
extends the public operations by writing a sketch to a text and reading it back.
-/

namespace Verif.Freq

/-- the keys for which the text form works -/
def TextKey (k : Int) : Prop := 0 ≤ k ∧ k < 2 ^ 63

/-- long sketches that can be built with the operations of `Reach` and by writing them to a text and
reading it back -/
inductive ReachT (hash : Int → Nat) (M : Nat) : Sketch Int → (Int → Int) → Int → Prop
  | new (lgMax lgCur : Nat) : M ≤ lgMax → max lgCur 3 ≤ max lgMax 3 →
      ReachT hash M (newSketch .longs 0 lgMax lgCur) (fun _ => 0) 0
  | update {s s' f W} (k : Int) (count : Int) : ReachT hash M s f W → -2 ^ 63 ≤ k ∧ k < 2 ^ 63 →
      W + count < 2 ^ 63 →
      s.update (cfg .longs hash) 0 k count = .ok s' →
      ReachT hash M s' (fun x => if x = k then f x + count else f x) (W + count)
  | merge {s o s' f f' W W'} (stride : Nat) : ReachT hash M s f W → ReachT hash M o f' W' →
      W + W' < 2 ^ 63 → stride % 2 = 1 → (o.isEmpty = true → W' = 0) →
      s.merge (cfg .longs hash) 0 o stride = .ok s' →
      ReachT hash M s' (fun x => f x + f' x) (W + W')
  | reset {s f W} : ReachT hash M s f W → ReachT hash M (s.reset 0) (fun _ => 0) 0
  | reread {s t f W} : ReachT hash M s f W → s.lgMax ≤ 31 → fromText hash s.toText = .ok t →
      ReachT hash M t f W

theorem text_good {hash : Int → Nat} {M : Nat} {s : Sketch Int} {f : Int → Int} {W : Int}
    (hg : Good .longs hash M s f W) (hlm : s.lgMax ≤ 31)
    (hP : ∀ e ∈ items s.map.slots, TextKey e.1) :
    (fromText hash s.toText = .err "drift >= driftLimit" ∧ 10 < s.lgMax) ∨
      ∃ t, fromText hash s.toText = .ok t ∧ Reread (cfg .longs hash) s t := by
  obtain ⟨⟨g, hgh, hi⟩, hf, _⟩ := id hg
  have hM := hi.lgM
  rcases fromText_full hi (hf _ hi.lgM) hlm hP with ⟨e, d, hd, ho⟩ | h
  · refine Or.inl ⟨e, ?_⟩
    simp only [cfg, Cfg.over, decide_eq_true_eq] at ho
    by_contra hcon
    have : 2 ^ s.map.lg ≤ 2 ^ 10 := Nat.pow_le_pow_right (by norm_num) (by omega)
    omega
  · exact Or.inr h

/-- a sketch that is read back has only keys that are not negative -/
theorem text_neg {hash : Int → Nat} {M : Nat} {s : Sketch Int} {f : Int → Int} {W : Int}
    (hg : Good .longs hash M s f W) (hlm : s.lgMax ≤ 31) (hneg : ∃ e ∈ items s.map.slots, e.1 < 0) :
    ∃ e, fromText hash s.toText = .err e := by
  obtain ⟨⟨g, hgh, hi⟩, hf, _⟩ := id hg
  rcases fromText_total hash s.toText with h | ⟨t, h, _⟩
  · exact h
  exfalso
  have h3 := hi.lg3
  have hM := hi.lgM
  have hwlt := hi.wlt
  have ho := hi.con.off0
  have htn := total_nonneg hi.con.pos
  have hol : s.offset ≤ W := by
    have := hi.con.off_le_goff hi.g1
    have := hi.con.budget
    omega
  have hpow : (2 : Nat) ^ s.map.lg ≤ 2 ^ 31 := Nat.pow_le_pow_right (by norm_num) (by omega)
  have hnlt := hi.num_lt
  have hwt := hi.wt
  rw [fromText_tokens, readTokens_head _ _ (by omega) ⟨by omega, by omega⟩ ⟨by omega, by omega⟩
    (by omega) hi.wf.inv.len (by omega), build_eq _ _ hi.wf h3 (by omega) (by omega)] at h
  obtain ⟨m, h, _⟩ := Outcome.bind_eq_ok.1 h
  rw [numbers_split, hi.wf.num] at h
  exact readPairs_neg (cfg .longs hash) (items s.map.slots) (s.head8.map fmtInt) _ hneg m h

theorem Good.counted {hash : Int → Nat} {M : Nat} {s : Sketch Int} {f : Int → Int} {W : Int}
    (hg : Good .longs hash M s f W) {e : Int × Int} (he : e ∈ items s.map.slots) : f e.1 ≠ 0 := by
  obtain ⟨⟨g, hgh, hi⟩, _⟩ := hg
  have := hi.con.lb e he
  have := hi.con.pos e he
  omega

theorem ReachT.keys {hash : Int → Nat} {M : Nat} {s : Sketch Int} {f : Int → Int} {W : Int}
    (h : ReachT hash M s f W) : ∀ k, f k ≠ 0 → -2 ^ 63 ≤ k ∧ k < 2 ^ 63 := by
  induction h with
  | new => intro k hk; exact absurd rfl hk
  | update k count _ hk _ _ ih =>
    intro x hx
    by_cases hxk : x = k
    · rw [hxk]; exact hk
    · exact ih x (by simpa [hxk] using hx)
  | @merge s o s' f f' W W' _ _ _ _ _ _ _ ih ih' =>
    intro x hx
    by_cases h0 : f x = 0
    · exact ih' x (by intro h1; exact hx (by show f x + f' x = 0; omega))
    · exact ih x h0
  | reset => intro k hk; exact absurd rfl hk
  | reread _ _ _ ih => exact ih

theorem ReachT.good {hash : Int → Nat} {M : Nat} {s : Sketch Int} {f : Int → Int} {W : Int}
    (h : ReachT hash M s f W) : Good .longs hash M s f W := by
  induction h with
  | new lgMax lgCur hM hl => exact good_new .longs hash 0 M lgMax lgCur trivial hM hl
  | update k count _ _ hW hu ih => exact good_update ih k count hW hu
  | merge stride _ _ hW hst hne hu ih ih' => exact good_merge ih ih' hW stride hst hne hu
  | reset _ ih => exact good_reset ih 0
  | @reread s t f W h' hlm hr ih =>
    by_cases hneg : ∃ e ∈ items s.map.slots, e.1 < 0
    · obtain ⟨m, e⟩ := text_neg ih hlm hneg
      rw [hr] at e
      cases e
    · push Not at hneg
      rcases text_good ih hlm (fun e he => ⟨hneg e he, (h'.keys _ (ih.counted he)).2⟩) with
        ⟨e, _⟩ | ⟨t', e, h⟩
      · rw [hr] at e; cases e
      · rw [hr] at e
        cases e
        exact h.good ih

/-! ## C98 -/

/-- **C98** a long sketch whose stream has no negative item is written to a text and read back as a
sketch that gives the same answers, the stream weight and the error included, also when it holds no
counter.  The only failure is the drift limit, for maps of more than 1024 slots.

Partial: the full claim is for any stream; a negative item that is still counted makes the text
unreadable, see `C98_negative_unreadable`. -/
theorem C98_text_round_trip_partial {hash : Int → Nat} {M : Nat} {s : Sketch Int} {f : Int → Int} {W : Int}
    (h : ReachT hash M s f W) (hlm : s.lgMax ≤ 31) (hP : ∀ k, f k ≠ 0 → 0 ≤ k) :
    (fromText hash s.toText = .err "drift >= driftLimit" ∧ 10 < s.lgMax) ∨
      ∃ t, fromText hash s.toText = .ok t ∧ SameAnswers .longs hash s t := by
  have hg := h.good
  rcases text_good hg hlm (fun e he => ⟨hP _ (hg.counted he), (h.keys _ (hg.counted he)).2⟩) with
    h | ⟨t, h, hr⟩
  · exact Or.inl h
  · exact Or.inr ⟨t, h, sameAnswers hg hr⟩

/-- **C98** whatever comes back from a text gives the same answers as the sketch that wrote it,
negative items or not -/
theorem C98_text_same_answers {hash : Int → Nat} {M : Nat} {s t : Sketch Int} {f : Int → Int} {W : Int}
    (h : ReachT hash M s f W) (hlm : s.lgMax ≤ 31) (hr : fromText hash s.toText = .ok t) :
    SameAnswers .longs hash s t := by
  have hg := h.good
  by_cases hneg : ∃ e ∈ items s.map.slots, e.1 < 0
  · obtain ⟨m, e⟩ := text_neg hg hlm hneg
    rw [hr] at e
    cases e
  · push Not at hneg
    rcases text_good hg hlm (fun e he => ⟨hneg e he, (h.keys _ (hg.counted he)).2⟩) with
      ⟨e, _⟩ | ⟨t', e, hr'⟩
    · rw [hr] at e; cases e
    · rw [hr] at e
      cases e
      exact sameAnswers hg hr'

/-- **C98** in the life of a sketch writing to a text and reading back does no harm: the bounds
bracket the true weight of every item, the width is the reported error, the reported stream weight is
right, and the a-priori error bound holds -/
theorem C98_text_bounds {hash : Int → Nat} {M : Nat} {s : Sketch Int} {f : Int → Int} {W : Int}
    (h : ReachT hash M s f W) (k : Int) :
    s.weight = W ∧ ((min 1024 (3 * 2 ^ M / 4) + 1) / 2 : Nat) * s.offset ≤ s.weight ∧
      ∃ lb ub est, s.lowerBound (cfg .longs hash) k = .ok lb ∧
      s.upperBound (cfg .longs hash) k = .ok ub ∧ s.estimate .longs hash k = .ok est ∧
      0 ≤ lb ∧ lb ≤ f k ∧ f k ≤ ub ∧ lb ≤ est ∧ est ≤ ub ∧ ub - lb = s.offset := by
  have hg := h.good
  obtain ⟨lb, est, h1, h2, h3, h4, h5, h6, h7, h8, _⟩ := good_bounds hg k
  obtain ⟨⟨g, hgh, hi⟩, _⟩ := hg
  refine ⟨hi.wt, ?_, lb, _, est, h1, h2, h3, h4, h5, h6, h7, h8, by omega⟩
  have hb := (hi.con.weaken hgh).budget
  have := total_nonneg hi.con.pos
  have he : (min 1024 (3 * 2 ^ M / 4) + 1) / 2 = halfSample M := by
    unfold halfSample capOf
    omega
  rw [he, hi.wt]
  omega

/-- **C98** reading any text whatever ends with a sketch or an error, without a panic -/
theorem C98_text_reader_total (hash : Int → Nat) (str : List Char) : fromText hash str ≠ .panic := by
  rcases fromText_total hash str with ⟨e, h⟩ | ⟨s, h, _⟩ <;> rw [h] <;> simp

/-- **C98** if the text says that the map has at least 8 slots, the sketch read answers every query
for a single item -/
theorem C98_text_reader_answers {hash : Int → Nat} {str : List Char} {s : Sketch Int}
    (h : fromText hash str = .ok s) (h8 : 8 ≤ s.map.slots.length) (k : Int) :
    s.lowerBound (cfg .longs hash) k ≠ .panic ∧ s.upperBound (cfg .longs hash) k ≠ .panic ∧
      s.estimate .longs hash k ≠ .panic := by
  rcases fromText_total hash str with ⟨e, h'⟩ | ⟨s', h', hp⟩
  · rw [h] at h'; cases h'
  rw [h] at h'
  cases h'
  have h3 : 3 ≤ s.map.lg := by
    by_contra hc
    have : 2 ^ s.map.lg ≤ 2 ^ 2 := Nat.pow_le_pow_right (by norm_num) (by omega)
    rw [hp.len] at h8
    omega
  have hget := plain_get (c := cfg .longs hash) hp h3 k
  have hub : s.upperBound (cfg .longs hash) k ≠ .panic := by
    unfold Sketch.upperBound
    cases e : get (cfg .longs hash) s.map.slots k with
    | ok v => simp [Outcome.ok_bind, Outcome.pure_eq]
    | err m => simp [Outcome.err_bind]
    | panic => exact absurd e hget
  exact ⟨hget, hub, hub⟩

/-! ### Violations -/

/-- **C98** the full claim is false: a sketch that counts a negative item writes a text that cannot
be read -/
theorem C98_negative_unreadable {hash : Int → Nat} {M : Nat} {s : Sketch Int} {f : Int → Int} {W : Int}
    (h : ReachT hash M s f W) (hlm : s.lgMax ≤ 31) {k : Int} (hk : k < 0) {lb : Int}
    (hlb : s.lowerBound (cfg .longs hash) k = .ok lb) (hpos : 0 < lb) :
    ∃ e, fromText hash s.toText = .err e := by
  have hg := h.good
  refine text_neg hg hlm ?_
  obtain ⟨⟨g, hgh, hi⟩, _⟩ := hg
  rcases hi.get k with ⟨v, hv, _⟩ | ⟨_, e⟩
  · exact ⟨(k, v), hv, hk⟩
  · have e' : s.lowerBound (cfg .longs hash) k = .ok 0 := e
    rw [hlb] at e'
    cases e'
    omega

/-- the text "1,10,3,0,7,0,1,1,5,7" -/
def fullText : List Char := "1,10,3,0,7,0,1,1,5,7".toList

theorem put_one (hash : Int → Nat) :
    putText (cfg .longs hash) (newMap 0 0) 5 7 = .ok ⟨0, [⟨5, 7, 1⟩], 1⟩ := by
  have ha : hash 5 &&& (1 - 1) = 0 := by simp
  have hl : adjustLoop (cfg .longs hash) (newMap (0 : Int) 0).slots 5 1 0 1 = .ok (0, 1) := rfl
  have hw : wrap 2 1 = 1 := by decide
  unfold putText adjustOrPut
  rw [if_neg (by decide +kernel)]
  rw [show (cfg .longs hash).hash 5 &&& ((newMap (0 : Int) 0).slots.length - 1) = 0 from ha,
    show (newMap (0 : Int) 0).slots.length = 1 from rfl, hl]
  simp only [Outcome.ok_bind]
  simp [newMap, capOf, Outcome.ofOption, hw, Outcome.pure_eq, Outcome.ok_bind]

/-- the parts of `fullText` -/
def oneTokens : List (List Char) := ["1", "10", "3", "0", "7", "0", "1", "1", "5", "7"].map String.toList

theorem read_one (hash : Int → Nat) : readTokens (cfg .longs hash) oneTokens =
    (putText (cfg .longs hash) (newMap 0 0) 5 7).bind fun m => .ok (textSketch 3 0 7 0 m) := by
  have hput := put_one hash
  have q0 : (token oneTokens 0).bind (parseInt 32) = .ok 1 := by decide +kernel
  have q1 : (token oneTokens 1).bind (parseInt 32) = .ok 10 := by decide +kernel
  have q2 : (token oneTokens 2).bind (parseInt 32) = .ok 3 := by decide +kernel
  have q3 : (token oneTokens 3).bind (parseInt 32) = .ok 0 := by decide +kernel
  have q4 : (token oneTokens 4).bind (parseInt 64) = .ok 7 := by decide +kernel
  have q5 : (token oneTokens 5).bind (parseInt 64) = .ok 0 := by decide +kernel
  have q6 : (token oneTokens 6).bind (parseInt 32) = .ok 1 := by decide +kernel
  have q7 : (token oneTokens 7).bind (parseUint 32) = .ok 1 := by decide +kernel
  have q8 : (token oneTokens 8).bind (parseUint 64) = .ok 5 := by decide +kernel
  have q9 : (token oneTokens 9).bind (parseUint 64) = .ok 7 := by decide +kernel
  have t6 : token oneTokens 6 = .ok ['1'] := by decide +kernel
  have t7 : token oneTokens 7 = .ok ['1'] := by decide +kernel
  have z1 : parseOrZero ['1'] = 1 := by decide +kernel
  have s5 : toS 8 5 = 5 := by decide +kernel
  have s7 : toS 8 7 = 7 := by decide +kernel
  have tz : trailingZeros 64 1 = 0 := by decide +kernel
  have hlen : oneTokens.length = 10 := by rfl
  unfold readTokens
  rw [q0, q1, q2, q3, q4, q5, q6, q7]
  simp only [Outcome.ok_bind, tz]
  unfold buildText
  rw [hlen, if_neg (by simp), if_neg (by simp), if_neg (by simp), if_neg (by norm_num),
  if_neg (by norm_num)]
  congr 1
  unfold readMap
  rw [t6, t7]
  simp only [Outcome.ok_bind]
  rw [if_neg (by rw [z1]; decide), z1, show Nat.log2 1 = 0 by decide, readPairs, q8, q9]
  simp only [Outcome.ok_bind, s5, s7]
  rw [hput]
  rfl

/-- **C98** a text may give the map a single slot.  It is read without an error, and the query for any
item but the one in the slot never ends: the probing loop runs out of every amount of fuel. -/
theorem C98_full_map_accepted (hash : Int → Nat) :
    ∃ s, fromText hash fullText = .ok s ∧ s.map.slots.length = 1 ∧ ∀ (k : Int), k ≠ 5 →
      ∀ fuel, hashProbeLoop s.map.slots k fuel (hash k &&& (s.map.slots.length - 1)) = .panic := by
  have h : fromText hash fullText = .ok ⟨3, 6, 0, 7, 6, ⟨0, [⟨5, 7, 1⟩], 1⟩⟩ := by
    have e : splitText (if fullText.getLast? = some ',' then fullText.dropLast else fullText) =
        oneTokens := by decide +kernel
    unfold fromText
    rw [if_neg (by decide +kernel)]
    dsimp only
    rw [e, if_neg (by decide)]
    have hput := put_one hash
    have hr := read_one hash
    rw [hr, hput]
    decide +kernel
  refine ⟨_, h, rfl, ?_⟩
  intro k hk fuel
  have ha : hash k &&& (1 - 1) = 0 := by simp
  show hashProbeLoop [⟨5, 7, 1⟩] k fuel (hash k &&& (1 - 1)) = .panic
  rw [ha]
  induction fuel with
  | zero => rfl
  | succ n ih =>
    rw [hashProbeLoop]
    simp only [List.getElem?_cons_zero]
    rw [if_pos ⟨by norm_num, Ne.symm hk⟩]
    exact ih

/-! ### The hypotheses are satisfiable -/

theorem updateAll_reachT {hash : Int → Nat} {M : Nat} :
    ∀ (L : List (Int × Int)) (s s' : Sketch Int) (f : Int → Int) (W : Int), ReachT hash M s f W →
      (∀ e ∈ L, 0 < e.2) → (∀ e ∈ L, -2 ^ 63 ≤ e.1 ∧ e.1 < 2 ^ 63) → W + total L < 2 ^ 63 →
      updateAll (cfg .longs hash) 0 L s = .ok s' →
      ReachT hash M s' (fun x => f x + tally L x) (W + total L) := by
  intro L
  induction L with
  | nil =>
    intro s s' f W h _ _ _ he
    cases he
    simpa [tally, total] using h
  | cons e L ih =>
    intro s s' f W h hpos hk hW he
    obtain ⟨k, a⟩ := e
    have ha := hpos (k, a) (List.mem_cons_self ..)
    rw [total_cons] at hW ⊢
    have htn : 0 ≤ total L := total_nonneg (fun e he => hpos e (List.mem_cons_of_mem _ he))
    unfold updateAll at he
    obtain ⟨s1, h1, h2⟩ := Outcome.bind_eq_ok.mp he
    have hr := ReachT.update k a h (hk _ (List.mem_cons_self ..)) (by omega) h1
    have := ih s1 s' _ _ hr (fun e he => hpos e (List.mem_cons_of_mem _ he))
      (fun e he => hk e (List.mem_cons_of_mem _ he)) (by dsimp only at *; omega) h2
    dsimp only at this ⊢
    rw [add_assoc] at this
    have e2 : (fun x => (if x = k then f x + a else f x) + tally L x) =
        fun x => f x + tally ((k, a) :: L) x := by
      funext x
      unfold tally
      by_cases hx : x = k
      · subst hx
        rw [if_pos rfl, List.filter_cons_of_pos (by simp), total_cons]
        dsimp only
        omega
      · rw [if_neg hx, List.filter_cons_of_neg (by simpa using fun h => hx h.symm)]
    rw [e2] at this
    exact this

/-- the hash of the examples -/
def absHash (k : Int) : Nat := k.natAbs

def eightInts : List (Int × Int) :=
  [(1, 5), (2, 1), (3, 1), (4, 9), (5, 1), (6, 1), (7, 1), (2 ^ 63 - 1, 4)]

/-- the hypotheses of `C98_text_round_trip_partial`: eight items of different weights in 8 slots, with a
purge; the text is read back -/
example : ∃ (s : Sketch Int) (f : Int → Int), ReachT absHash 3 s f 23 ∧ s.isEmpty = false ∧ s.offset = 1 ∧
    s.lgMax ≤ 31 ∧ (∀ k, f k ≠ 0 → 0 ≤ k) ∧
    ∃ t, fromText absHash s.toText = .ok t ∧ SameAnswers .longs absHash s t := by
  have hb : ∃ s, updateAll (cfg .longs absHash) 0 eightInts (newLongs 0 3 3) = .ok s ∧
      s.isEmpty = false ∧ s.lgMax = 3 ∧ s.offset = 1 := by
    refine ⟨_, rfl, ?_, ?_, ?_⟩ <;> decide +kernel
  obtain ⟨s, hs, h1, h2, h3⟩ := hb
  have hr := updateAll_reachT (M := 3) eightInts (newLongs 0 3 3) _ _ _
    (ReachT.new 3 3 (le_refl _) (le_refl _)) (by decide) (by decide) (by decide) hs
  have hk : ∀ k, (fun _ => (0 : Int)) k + tally eightInts k ≠ 0 → 0 ≤ k := by
    intro k hk
    by_contra hc
    apply hk
    have : tally eightInts k = 0 := by
      unfold tally
      have : eightInts.filter (fun e => decide (e.1 = k)) = [] := by
        rw [List.filter_eq_nil_iff]
        intro e he
        have : ∀ e ∈ eightInts, 0 ≤ e.1 := by decide
        have := this e he
        simp only [decide_eq_true_eq]
        omega
      rw [this]; rfl
    simpa using this
  refine ⟨s, _, hr, h1, h3, by omega, hk, ?_⟩
  rcases C98_text_round_trip_partial hr (by omega) hk with ⟨_, h⟩ | h
  · omega
  · exact h

/-- the hypotheses of `C98_negative_unreadable`: the single item −1 -/
example : ∃ (s : Sketch Int) (f : Int → Int), ReachT absHash 3 s f 2 ∧ s.lgMax ≤ 31 ∧
    s.lowerBound (cfg .longs absHash) (-1) = .ok 2 ∧ ∃ e, fromText absHash s.toText = .err e := by
  have hb : ∃ s, updateAll (cfg .longs absHash) 0 [(-1, 2)] (newLongs 0 3 3) = .ok s ∧ s.lgMax = 3 ∧
      s.lowerBound (cfg .longs absHash) (-1) = .ok 2 := by
    refine ⟨_, rfl, ?_, ?_⟩ <;> decide +kernel
  obtain ⟨s, hs, h1, h2⟩ := hb
  have hr := updateAll_reachT (M := 3) [(-1, 2)] (newLongs 0 3 3) _ _ _
    (ReachT.new 3 3 (le_refl _) (le_refl _)) (by decide) (by decide) (by decide) hs
  exact ⟨s, _, hr, by omega, h2, C98_negative_unreadable hr (by omega) (by norm_num) h2 (by norm_num)⟩

/-- the text of a sketch of the items 5 and 12 -/
example : ∃ s, updateAll (cfg .longs absHash) 0 [(5, 7), (12, 1)] (newLongs 0 3 3) = .ok s ∧
    s.toText = "1,10,3,0,8,0,2,8,12,1,5,7,".toList := by
  refine ⟨_, rfl, ?_⟩
  decide +kernel

end Verif.Freq
