import Verif.FreqSerdeModel
import Verif.ItemSerde

/-!
# Frequency sketches: the image and its reading
-/

set_option linter.unusedSectionVars false

namespace Verif.Freq

open Verif.Items

variable {κ : Type} [DecidableEq κ]

/-! ## Fields of the first word -/

/-- the mask `2^w - 1` -/
structure Mask (m : BitVec 64) (w : Nat) : Prop where
  bit : ∀ i, m.getLsbD i = decide (i < w)

theorem mask255 : Mask 255 8 := ⟨fun i => by
  by_cases h : i < 64
  · revert i; decide
  · rw [BitVec.getLsbD_of_ge _ _ (by omega)]; simp; omega⟩

theorem mask63 : Mask 63 6 := ⟨fun i => by
  by_cases h : i < 64
  · revert i; decide
  · rw [BitVec.getLsbD_of_ge _ _ (by omega)]; simp; omega⟩

theorem mask32 : Mask 0xFFFFFFFF 32 := ⟨fun i => by
  by_cases h : i < 64
  · revert i; decide
  · rw [BitVec.getLsbD_of_ge _ _ (by omega)]; simp; omega⟩

theorem extract_same {m : BitVec 64} {w s v : Nat} (hm : Mask m w) (h : s + w ≤ 64)
    (p : BitVec 64) (hv : v < 2 ^ w) :
    extractField s m (insertField s m (BitVec.ofNat 64 v) p) = v := by
  have hv64 : v < 2 ^ 64 := lt_of_lt_of_le hv (Nat.pow_le_pow_right (by norm_num) (by omega))
  have e : ((insertField s m (BitVec.ofNat 64 v) p) >>> s) &&& m = BitVec.ofNat 64 v := by
    apply BitVec.eq_of_getLsbD_eq
    intro i hi
    unfold insertField
    simp only [BitVec.getLsbD_and, BitVec.getLsbD_ushiftRight, BitVec.getLsbD_or,
      BitVec.getLsbD_shiftLeft, BitVec.getLsbD_not, hm.bit, BitVec.getLsbD_ofNat]
    by_cases hiw : i < w
    · have h1 : s + i < 64 := by omega
      simp [hiw, h1, hi]
    · have : v.testBit i = false := by
        apply Nat.testBit_lt_two_pow
        exact lt_of_lt_of_le hv (Nat.pow_le_pow_right (by norm_num) (by omega))
      simp [hiw, this]
  unfold extractField
  rw [e, BitVec.toNat_ofNat, Nat.mod_eq_of_lt hv64]

theorem extract_other {m m' : BitVec 64} {w w' s s' : Nat} (hm : Mask m w) (hm' : Mask m' w')
    (h : s + w ≤ 64) (hd : s' + w' ≤ s ∨ s + w ≤ s') (v p : BitVec 64) :
    extractField s m (insertField s' m' v p) = extractField s m p := by
  unfold extractField
  congr 1
  apply BitVec.eq_of_getLsbD_eq
  intro i hi
  unfold insertField
  simp only [BitVec.getLsbD_and, BitVec.getLsbD_ushiftRight, BitVec.getLsbD_or,
    BitVec.getLsbD_shiftLeft, BitVec.getLsbD_not, hm.bit, hm'.bit]
  by_cases hiw : i < w
  · have h1 : s + i < 64 := by omega
    by_cases h2 : s + i < s'
    · simp [hiw, h1, h2]
    · have h3 : ¬ s + i - s' < w' := by omega
      simp [hiw, h1, h2, h3]
  · simp [hiw]

theorem pre0_fields {preLongs lgMax lgCur flags : Nat} (h1 : preLongs < 64) (h2 : lgMax < 256)
    (h3 : lgCur < 256) (h4 : flags < 256) :
    extractField 0 63 (pre0 preLongs lgMax lgCur flags) = preLongs ∧
    extractField 8 255 (pre0 preLongs lgMax lgCur flags) = 1 ∧
    extractField 16 255 (pre0 preLongs lgMax lgCur flags) = 10 ∧
    extractField 24 255 (pre0 preLongs lgMax lgCur flags) = lgMax ∧
    extractField 32 255 (pre0 preLongs lgMax lgCur flags) = lgCur ∧
    extractField 40 255 (pre0 preLongs lgMax lgCur flags) = flags := by
  have e10 : (10 : BitVec 64) = BitVec.ofNat 64 10 := rfl
  have e1 : (1 : BitVec 64) = BitVec.ofNat 64 1 := rfl
  unfold pre0
  refine ⟨?_, ?_, ?_, ?_, ?_, ?_⟩
  · iterate 5 rw [extract_other mask63 mask255 (by omega) (by omega)]
    exact extract_same mask63 (by omega) _ h1
  · iterate 4 rw [extract_other mask255 mask255 (by omega) (by omega)]
    rw [e1]
    exact extract_same mask255 (by omega) _ (by omega)
  · iterate 3 rw [extract_other mask255 mask255 (by omega) (by omega)]
    rw [e10]
    exact extract_same mask255 (by omega) _ (by omega)
  · iterate 2 rw [extract_other mask255 mask255 (by omega) (by omega)]
    exact extract_same mask255 (by omega) _ h2
  · rw [extract_other mask255 mask255 (by omega) (by omega)]
    exact extract_same mask255 (by omega) _ h3
  · exact extract_same mask255 (by omega) _ h4

/-! ## Writing -/

theorem putWords_ok (words : List (List Nat)) (h8 : ∀ w ∈ words, w.length = 8) (d : List Nat)
    (m o : Nat) (ho : o = d.length) (hm : 8 * words.length ≤ m) :
    putWords (Buf d m) o words.length words =
      .ok (Buf (d ++ words.flatten) (m - 8 * words.length)) := by
  have key := range_fold (n := words.length)
    (f := fun b i => do
      let w ← Outcome.ofOption words[i]?
      put b (o + 8 * i) w)
    (fun i b => b = Buf (d ++ (words.take i).flatten) (m - 8 * i) ∧
      (words.take i).flatten.length = 8 * i)
    (s0 := Buf d m) (by simp)
    (by
      rintro i b hi ⟨rfl, hlen⟩
      have hw := h8 words[i] (List.getElem_mem hi)
      refine ⟨_, ?_, rfl, ?_⟩
      · rw [List.getElem?_eq_getElem hi]
        simp only [Outcome.ofOption, Outcome.ok_bind]
        rw [put_buf (by rw [List.length_append, hlen, ho]) (by rw [hw]; omega), hw]
        congr 2
        rw [List.take_add_one, List.getElem?_eq_getElem hi]
        simp only [Option.toList_some, List.flatten_append, List.flatten_cons, List.flatten_nil,
          List.append_nil, List.append_assoc]
      · rw [List.take_add_one, List.getElem?_eq_getElem hi]
        simp only [Option.toList_some, List.flatten_append, List.flatten_cons, List.flatten_nil,
          List.append_nil, List.length_append, hlen, hw]
        omega)
  obtain ⟨b, hb, rfl, _⟩ := key
  unfold putWords
  rw [hb, List.take_length]

theorem flatMap_words (vs : List Nat) : (vs.map (toLE 8)).flatten = vs.flatMap (toLE 8) := by
  rw [List.flatMap_def]

/-- the image of a sketch with counters -/
def imgVals (s : Sketch κ) : List Nat := (items s.map.slots).map fun e => toU 8 e.2
def imgKeys (s : Sketch κ) : List κ := (items s.map.slots).map Prod.fst

def image (sd : Serde κ) (s : Sketch κ) : List Nat :=
  toLE 8 (pre0 4 s.lgMax s.map.lg 0).toNat ++ (toLE 8 s.map.num ++ (toLE 8 (toU 8 s.weight) ++
    (toLE 8 (toU 8 s.offset) ++ ((imgVals s).flatMap (toLE 8) ++ (sd.many (imgKeys s) ++ [])))))

theorem flatMap8_length (vs : List Nat) : (vs.flatMap (toLE 8)).length = 8 * vs.length := by
  induction vs with
  | nil => rfl
  | cons v vs ih => simp [ih]; omega

/-- the serializer writes one `uint64` per key -/
def LongKeys (sd : Serde κ) : Prop := ∀ x, sd.one x = sd.many [x] ∧ (sd.many [x]).length = 8

theorem many_flatten {sd : Serde κ} {P : κ → Prop} (hl : Lawful sd P) (hk : LongKeys sd)
    (xs : List κ) : (xs.map sd.one).flatten = sd.many xs ∧ (sd.many xs).length = 8 * xs.length := by
  induction xs with
  | nil => simp [hl.nil]
  | cons x xs ih =>
    rw [hl.cons]
    simp [ih, (hk x).1, (hk x).2]
    omega

theorem toSlice_full {c : Cfg κ} {kd : Kind} {sd : Serde κ} {P : κ → Prop} (hl : Lawful sd P)
    (hkd : kd = .longs → LongKeys sd) {s : Sketch κ} (hw : WF c s.map) (hn : s.map.num ≠ 0)
    (hn' : s.map.num < 2 ^ 32) : s.toSlice kd sd = .ok (image sd s) := by
  have hact := active_eq_items hw.inv
  have hnl := hw.num
  have hins : (insertField 0 0xFFFFFFFF (BitVec.ofNat 64 s.map.num) 0).toNat = s.map.num := by
    have h := extract_same mask32 (s := 0) (by omega) 0 hn'
    have e : insertField 0 0xFFFFFFFF (BitVec.ofNat 64 s.map.num) 0 = BitVec.ofNat 64 s.map.num := by
      apply BitVec.eq_of_getLsbD_eq
      intro i hi
      unfold insertField
      simp only [BitVec.getLsbD_and, BitVec.getLsbD_or, BitVec.getLsbD_shiftLeft, BitVec.getLsbD_not,
        mask32.bit, BitVec.getLsbD_ofNat]
      by_cases hiw : i < 32
      · simp [hiw, hi]
      · have : s.map.num.testBit i = false := by
          apply Nat.testBit_lt_two_pow
          exact lt_of_lt_of_le hn' (Nat.pow_le_pow_right (by norm_num) (by omega))
        simp [hiw, this]
    rw [e, BitVec.toNat_ofNat]
    exact Nat.mod_eq_of_lt (lt_of_lt_of_le hn' (by norm_num))
  have hvl : ((items s.map.slots).map fun e => toLE 8 (toU 8 e.2)).length = s.map.num := by
    rw [List.length_map, hnl]
  have hv8 : ∀ w ∈ (items s.map.slots).map fun e => toLE 8 (toU 8 e.2), w.length = 8 := by
    intro w hw; obtain ⟨e, _, rfl⟩ := List.mem_map.1 hw; simp
  have hvf : ((items s.map.slots).map fun e => toLE 8 (toU 8 e.2)).flatten =
      (imgVals s).flatMap (toLE 8) := by
    rw [← flatMap_words, imgVals, List.map_map]; rfl
  have hkl : (imgKeys s).length = s.map.num := by rw [imgKeys, List.length_map, hnl]
  unfold Sketch.toSlice
  simp only [hact, if_neg hn, List.map_map]
  have hz : ∀ t, List.replicate t 0 = Buf [] t := fun t => rfl
  have hgo : ∀ total, 32 + 8 * s.map.num ≤ total →
      putWords (Buf (toLE 8 (pre0 4 s.lgMax s.map.lg 0).toNat ++ toLE 8 s.map.num ++
        toLE 8 (toU 8 s.weight) ++ toLE 8 (toU 8 s.offset)) (total - 8 - 8 - 8 - 8)) 32 s.map.num
        ((items s.map.slots).map fun e => toLE 8 (toU 8 e.2)) =
      .ok (Buf (toLE 8 (pre0 4 s.lgMax s.map.lg 0).toNat ++ toLE 8 s.map.num ++
        toLE 8 (toU 8 s.weight) ++ toLE 8 (toU 8 s.offset) ++ (imgVals s).flatMap (toLE 8))
        (total - 8 - 8 - 8 - 8 - 8 * s.map.num)) := by
    intro total ht
    have := putWords_ok _ hv8 (toLE 8 (pre0 4 s.lgMax s.map.lg 0).toNat ++ toLE 8 s.map.num ++
        toLE 8 (toU 8 s.weight) ++ toLE 8 (toU 8 s.offset)) (total - 8 - 8 - 8 - 8) 32 (by simp)
        (by rw [hvl]; omega)
    rw [hvl, hvf] at this
    exact this
  have hcomp : (items s.map.slots).map ((fun v => toLE 8 (toU 8 v)) ∘ Prod.snd) =
      (items s.map.slots).map (fun e => toLE 8 (toU 8 e.2)) := rfl
  have hvlen := flatMap8_length (imgVals s)
  have hvlen' : (imgVals s).length = s.map.num := by rw [imgVals, List.length_map, hnl]
  cases kd with
  | longs =>
    have hlk := hkd rfl
    obtain ⟨hk1, hk2⟩ := many_flatten hl hlk (imgKeys s)
    have hk8 : ∀ w ∈ (imgKeys s).map sd.one, w.length = 8 := by
      intro w hw
      obtain ⟨x, _, rfl⟩ := List.mem_map.1 hw
      rw [(hlk x).1, (hlk x).2]
    simp only
    rw [hz, put_buf (by simp) (by simp; omega), Outcome.ok_bind, hins,
      put_buf (by simp) (by simp; omega), Outcome.ok_bind,
      put_buf (by simp) (by simp; omega), Outcome.ok_bind,
      put_buf (by simp) (by simp; omega), Outcome.ok_bind]
    simp only [toLE_length, List.nil_append]
    rw [hcomp, hgo _ (by omega), Outcome.ok_bind]
    have hfin := putWords_ok _ hk8 (toLE 8 (pre0 4 s.lgMax s.map.lg 0).toNat ++ toLE 8 s.map.num ++
        toLE 8 (toU 8 s.weight) ++ toLE 8 (toU 8 s.offset) ++ (imgVals s).flatMap (toLE 8))
        ((4 + 2 * s.map.num) * 8 - 8 - 8 - 8 - 8 - 8 * s.map.num) (32 + 8 * s.map.num)
        (by simp only [List.length_append, toLE_length, hvlen, hvlen'])
        (by rw [List.length_map, hkl]; omega)
    rw [List.length_map, hkl, hk1] at hfin
    have hmm : (imgKeys s).map sd.one = (items s.map.slots).map (sd.one ∘ Prod.fst) := by
      rw [imgKeys, List.map_map]
    rw [← hmm, hfin]
    rw [show (4 + 2 * s.map.num) * 8 - 8 - 8 - 8 - 8 - 8 * s.map.num - 8 * s.map.num = 0 by omega]
    simp [image]
  | items =>
    simp only
    rw [hz, put_buf (by simp) (by simp; omega), Outcome.ok_bind, hins,
      put_buf (by simp) (by simp; omega), Outcome.ok_bind,
      put_buf (by simp) (by simp; omega), Outcome.ok_bind,
      put_buf (by simp) (by simp; omega), Outcome.ok_bind]
    simp only [toLE_length, List.nil_append]
    have hkk : (items s.map.slots).map Prod.fst = imgKeys s := rfl
    rw [hcomp, hgo _ (by omega), Outcome.ok_bind, hkk, copy_buf
      (by simp only [List.length_append, toLE_length, hvlen, hvlen']) (by omega)]
    rw [show (4 + s.map.num) * 8 + (sd.many (imgKeys s)).length - 8 - 8 - 8 - 8 - 8 * s.map.num -
      (sd.many (imgKeys s)).length = 0 by omega]
    simp [image]

/-! ## Reading -/

theorem mapM_range_ok {α : Type} (f : Nat → Outcome α) (vs : List α)
    (h : ∀ i (hi : i < vs.length), f i = .ok vs[i]) : (List.range vs.length).mapM f = .ok vs := by
  induction vs using List.reverseRecOn with
  | nil => rfl
  | append_singleton vs v ih =>
    have ih' := ih (fun i hi => by
      rw [h i (by simp; omega)]
      congr 1
      exact List.getElem_append_left hi)
    rw [List.length_append, List.length_singleton, List.range_succ, List.mapM_append, ih',
      Outcome.ok_bind, List.mapM_cons, h vs.length (by simp)]
    simp [List.mapM_nil]

theorem readWords_ok (vs : List Nat) (hv : ∀ v ∈ vs, v < 256 ^ 8) (a c : List Nat) (o : Nat)
    (ho : o = a.length) :
    readWords (a ++ (vs.flatMap (toLE 8) ++ c)) o vs.length = .ok vs := by
  apply mapM_range_ok
  intro i hi
  have hsplit : vs = vs.take i ++ vs[i] :: vs.drop (i + 1) := by
    rw [← List.drop_eq_getElem_cons hi, List.take_append_drop]
  have e : a ++ (vs.flatMap (toLE 8) ++ c) = (a ++ (vs.take i).flatMap (toLE 8)) ++
      (toLE 8 vs[i] ++ ((vs.drop (i + 1)).flatMap (toLE 8) ++ c)) := by
    conv_lhs => rw [hsplit]
    simp only [List.flatMap_append, List.flatMap_cons, List.append_assoc]
  rw [e, getLE_at (by rw [List.length_append, flatMap8_length, List.length_take]; omega)
    (hv _ (List.getElem_mem hi))]

theorem refill {c : Cfg κ} (hok : c.Ok) (z : κ) : ∀ (L : List (κ × Int)) (s : Sketch κ),
    WF c s.map → Fits c s.map.lg → 3 ≤ s.map.lg → s.curCap = capOf (2 ^ s.map.lg) →
    s.map.num + L.length ≤ s.curCap → (∀ e ∈ L, 0 < e.2) → (L.map Prod.fst).Nodup →
    (∀ e ∈ L, ∀ v, (e.1, v) ∉ items s.map.slots) →
    (updateAll c z L s = .err "drift >= driftLimit" ∧ ∃ d, d < 2 ^ s.map.lg ∧ c.over d = true) ∨
    (∃ s', updateAll c z L s = .ok s' ∧ WF c s'.map ∧ s'.map.lg = s.map.lg ∧
      (items s'.map.slots).Perm (L ++ items s.map.slots) ∧ s'.lgMax = s.lgMax ∧
      s'.curCap = s.curCap ∧ s'.offset = s.offset ∧ s'.sampleSize = s.sampleSize) := by
  intro L
  induction L with
  | nil =>
    intro s hw _ _ _ _ _ _ _
    exact Or.inr ⟨s, rfl, hw, rfl, List.Perm.refl _, rfl, rfl, rfl, rfl⟩
  | cons e L ih =>
    intro s hw hf h3 hcap hnum hpos hnd hfresh
    obtain ⟨k, a⟩ := e
    have ha : 0 < a := hpos (k, a) (List.mem_cons_self ..)
    have hno := hfresh (k, a) (List.mem_cons_self ..)
    rw [List.length_cons] at hnum
    have hlt := capOf_lt h3
    rw [updateAll, Sketch.update, if_neg (by omega), if_neg (by omega)]
    rcases adjustOrPut_spec hok hw hf (by omega) (by omega) k a with
      ⟨i, h1, h2, h3'⟩ | ⟨m, h1, h2, h3', h4⟩
    · left
      rw [h3']
      exact ⟨rfl, i + 1, h1, h2⟩
    · rcases h4 with ⟨v, l, p1, _⟩ | ⟨_, p, hn⟩
      · exact absurd (p1.mem_iff.2 (List.mem_cons_self ..)) (hno v)
      rw [h1]
      simp only [Outcome.ok_bind]
      rw [if_neg (by show ¬ s.curCap < m.num; omega)]
      simp only [Outcome.pure_eq, Outcome.ok_bind]
      rw [List.map_cons, List.nodup_cons] at hnd
      have := ih { s with weight := wrap 8 (s.weight + a), map := m } h2
        (by show Fits c m.lg; rw [h3']; exact hf) (by show 3 ≤ m.lg; omega)
        (by show s.curCap = capOf (2 ^ m.lg); rw [h3', hcap])
        (by show m.num + L.length ≤ s.curCap; omega)
        (fun e he => hpos e (List.mem_cons_of_mem _ he)) hnd.2
        (by
          intro e he v hv
          rcases List.mem_cons.1 (p.mem_iff.1 hv) with h | h
          · exact hnd.1 (List.mem_map.2 ⟨e, he, (Prod.mk.inj h).1⟩)
          · exact hfresh e (List.mem_cons_of_mem _ he) v h)
      rcases this with ⟨u1, d, u2, u3⟩ | ⟨s', u1, u2, u3, u4, u5, u6, u7, u8⟩
      · left
        exact ⟨u1, d, by rw [← h3']; exact u2, u3⟩
      · right
        refine ⟨s', u1, u2, u3.trans h3', ?_, u5, u6, u7, u8⟩
        exact u4.trans ((p.append_left L).trans List.perm_middle)

theorem toS_toU {x : Int} (h : InRange 8 x) : toS 8 (toU 8 x) = x := wrap_of_inRange h

/-- what reading an image of `s` gives -/
structure Reread (c : Cfg κ) (s t : Sketch κ) : Prop where
  lgMax : t.lgMax = s.lgMax
  curCap : t.curCap = s.curCap
  offset : t.offset = s.offset
  weight : t.weight = s.weight
  wf : WF c t.map
  lg : t.map.lg = s.map.lg
  items : (items t.map.slots).Perm (items s.map.slots)
  ss : t.sampleSize = min 1024 (capOf (2 ^ s.lgMax))

theorem fromSlice_full {kd : Kind} {hash : κ → Nat} {sd : Serde κ} {P : κ → Prop}
    (hl : Lawful sd P) (z : κ) {s : Sketch κ} {g : Nat} {f : κ → Int} {W : Int}
    (hi : SInv (cfg kd hash) s g f W) (hf : Fits (cfg kd hash) s.map.lg)
    (hkd : kd = .longs → LongKeys sd) (hn : s.map.num ≠ 0)
    (hn' : s.map.num < 2 ^ 32) (hlm : s.lgMax < 256) (hlg : s.map.lg < 63)
    (hP : ∀ e ∈ items s.map.slots, P e.1) :
    (fromSlice kd sd hash z (image sd s) = .err "drift >= driftLimit" ∧
      ∃ d, d < 2 ^ s.map.lg ∧ (cfg kd hash).over d = true) ∨
    ∃ t, fromSlice kd sd hash z (image sd s) = .ok t ∧ Reread (cfg kd hash) s t := by
  have hnl := hi.wf.num
  have hvl : (imgVals s).length = s.map.num := by rw [imgVals, List.length_map, hnl]
  have hkl : (imgKeys s).length = s.map.num := by rw [imgKeys, List.length_map, hnl]
  have hvlen := flatMap8_length (imgVals s)
  have hW0 : 0 ≤ W := by
    have := total_nonneg hi.con.pos; have := hi.con.total_le; omega
  have hwlt := hi.wlt
  have ho := hi.con.off0
  have hol : s.offset ≤ W := by
    have := hi.con.off_le_goff hi.g1
    have := hi.con.budget
    have := total_nonneg hi.con.pos
    omega
  have h3 := hi.lg3
  have hM := hi.lgM
  obtain ⟨q1, q2, q3, q4, q5, q6⟩ := pre0_fields (preLongs := 4) (lgMax := s.lgMax)
    (lgCur := s.map.lg) (flags := 0) (by omega) hlm (by omega) (by omega)
  set w0 := pre0 4 s.lgMax s.map.lg 0 with hw0
  have hw0lt : w0.toNat < 256 ^ 8 := by have := w0.isLt; omega
  have hwu := toU_lt 8 s.weight
  have hou := toU_lt 8 s.offset
  have hlen : (image sd s).length = 32 + 8 * s.map.num + (sd.many (imgKeys s)).length := by
    unfold image
    simp only [List.length_append, toLE_length, hvlen, hvl, List.length_nil]
    omega
  have hpre : readWords (image sd s) 0 4 = .ok [w0.toNat, s.map.num, toU 8 s.weight, toU 8 s.offset] := by
    have := readWords_ok [w0.toNat, s.map.num, toU 8 s.weight, toU 8 s.offset]
      (by
        intro v hv
        simp only [List.mem_cons, List.not_mem_nil, or_false] at hv
        rcases hv with rfl | rfl | rfl | rfl
        · exact hw0lt
        · omega
        · exact hwu
        · exact hou) [] ((imgVals s).flatMap (toLE 8) ++ (sd.many (imgKeys s) ++ [])) 0 rfl
    simp only [List.nil_append, List.flatMap_cons, List.flatMap_nil, List.append_nil,
      List.append_assoc, List.length_cons, List.length_nil] at this
    unfold image
    simpa using this
  have hvals : readWords (image sd s) 32 s.map.num = .ok (imgVals s) := by
    have := readWords_ok (imgVals s)
      (by
        intro v hv
        obtain ⟨e, _, rfl⟩ := List.mem_map.1 hv
        exact toU_lt 8 e.2) (toLE 8 w0.toNat ++ (toLE 8 s.map.num ++ (toLE 8 (toU 8 s.weight) ++
          toLE 8 (toU 8 s.offset)))) (sd.many (imgKeys s) ++ []) 32 (by simp)
    rw [hvl] at this
    unfold image
    rw [← this]
    simp only [List.append_assoc]
    rfl
  have hPk : ∀ x ∈ imgKeys s, P x := by
    intro x hx
    obtain ⟨e, he, rfl⟩ := List.mem_map.1 hx
    exact hP e he
  have himg : image sd s = (toLE 8 w0.toNat ++ (toLE 8 s.map.num ++ (toLE 8 (toU 8 s.weight) ++
      (toLE 8 (toU 8 s.offset) ++ (imgVals s).flatMap (toLE 8))))) ++ (sd.many (imgKeys s) ++ []) := by
    unfold image
    simp only [List.append_assoc]
    rfl
  have hpl : (toLE 8 w0.toNat ++ (toLE 8 s.map.num ++ (toLE 8 (toU 8 s.weight) ++
      (toLE 8 (toU 8 s.offset) ++ (imgVals s).flatMap (toLE 8))))).length = 32 + 8 * s.map.num := by
    simp only [List.length_append, toLE_length, hvlen, hvl]
    omega
  have hkeys : readKeys sd (image sd s) (4 * 8 + 8 * s.map.num) s.map.num kd =
      .ok (imgKeys s) := by
    cases kd with
    | longs =>
      have := hl.deser (imgKeys s) (toLE 8 w0.toNat ++ (toLE 8 s.map.num ++
        (toLE 8 (toU 8 s.weight) ++ (toLE 8 (toU 8 s.offset) ++ (imgVals s).flatMap (toLE 8))))) [] hPk
      rw [← himg, hpl, hkl] at this
      exact this
    | items =>
      unfold readKeys
      have hsl : slice (image sd s) (4 * 8 + 8 * s.map.num) (image sd s).length =
          .ok (sd.many (imgKeys s)) := by
        rw [show 4 * 8 + 8 * s.map.num = 32 + 8 * s.map.num by omega, ← hpl]
        have : (image sd s).length = (toLE 8 w0.toNat ++ (toLE 8 s.map.num ++
            (toLE 8 (toU 8 s.weight) ++ (toLE 8 (toU 8 s.offset) ++
              (imgVals s).flatMap (toLE 8))))).length + (sd.many (imgKeys s)).length := by
          rw [hpl, hlen]
        rw [this]
        conv_lhs => rw [himg]
        exact slice_here rfl rfl
      rw [hsl, Outcome.ok_bind]
      have := hl.deser (imgKeys s) [] [] hPk
      simpa [hkl] using this
  have hzip : ((imgKeys s).take s.map.num).zip ((imgVals s).map (toS 8)) = items s.map.slots := by
    rw [List.take_of_length_le (by omega), imgKeys, imgVals, List.map_map, List.zip_map',
      List.map_congr_left (g := id), List.map_id]
    intro e he
    have h1 := hi.val_lt he
    simp only [Function.comp, id]
    rw [toS_toU (inRange8 (by omega) (by omega))]
  have hext : extractField 0 0xFFFFFFFF (BitVec.ofNat 64 s.map.num) = s.map.num := by
    unfold extractField
    rw [show (BitVec.ofNat 64 s.map.num >>> 0) &&& 0xFFFFFFFF = BitVec.ofNat 64 s.map.num from ?_,
      BitVec.toNat_ofNat]
    · exact Nat.mod_eq_of_lt (lt_of_lt_of_le hn' (by norm_num))
    · apply BitVec.eq_of_getLsbD_eq
      intro i hi
      simp only [BitVec.getLsbD_and, BitVec.getLsbD_ushiftRight, mask32.bit, BitVec.getLsbD_ofNat]
      by_cases hiw : i < 32
      · simp [hiw]
      · have : s.map.num.testBit i = false := by
          apply Nat.testBit_lt_two_pow
          exact lt_of_lt_of_le hn' (Nat.pow_le_pow_right (by norm_num) (by omega))
        simp [hiw, this]
  have hget : getLE (image sd s) 0 8 = .ok w0.toNat := by
    unfold image
    exact getLE_first hw0lt
  have hbv : BitVec.ofNat 64 w0.toNat = w0 := by simp
  set s0 : Sketch κ := { newSketch kd z s.lgMax s.map.lg with offset := s.offset } with hs0
  have hs0map : s0.map = newMap z s.map.lg := by
    cases kd <;> simp [hs0, newSketch, newLongs, newItems, h3]
  have hs0cap : s0.curCap = capOf (2 ^ s.map.lg) := by
    cases kd <;> simp [hs0, newSketch, newLongs, newItems, h3]
  have hs0lm : s0.lgMax = s.lgMax := by
    cases kd <;> simp [hs0, newSketch, newLongs, newItems] <;> omega
  have hs0ss : s0.sampleSize = min 1024 (capOf (2 ^ s.lgMax)) := by
    cases kd
    · simp only [hs0, newSketch, newLongs]
      rw [show max s.lgMax 3 = s.lgMax by omega]
    · simp [hs0, newSketch, newItems]
  have hs0it : items s0.map.slots = [] := by rw [hs0map]; exact items_replicate _ _
  have hreq : ¬ (image sd s).length < required kd (4 * 8) s.map.num := by
    cases kd with
    | longs =>
      have := (many_flatten hl (hkd rfl) (imgKeys s)).2
      rw [hkl] at this
      simp only [required]
      omega
    | items => simp only [required]; omega
  have hmain : fromSlice kd sd hash z (image sd s) =
      (updateAll (cfg kd hash) z (items s.map.slots) s0 >>= fun t =>
        .ok { t with weight := s.weight }) := by
    unfold fromSlice
    rw [if_neg (by omega), hget]
    simp only [Outcome.ok_bind]
    rw [hbv, q1, q2, q3, q4, q5, q6]
    rw [if_neg (by omega), if_neg (by omega), if_neg (by omega), if_neg (by omega)]
    simp only [show ((0 &&& 5) != 0) = false from rfl, Bool.false_eq_true, false_and, if_false]
    unfold readFull
    rw [hpre]
    simp only [Outcome.ok_bind]
    rw [if_neg (by omega)]
    simp only [List.getElem?_cons_succ, List.getElem?_cons_zero, Outcome.ofOption, Outcome.ok_bind,
      hext]
    rw [if_neg hreq, hvals]
    simp only [Outcome.ok_bind]
    rw [hkeys]
    simp only [Outcome.ok_bind]
    rw [if_neg (by omega), hzip, toS_toU (inRange8 (by omega) (by omega))]
    have hwS : toS 8 (toU 8 s.weight) = s.weight := by
      rw [hi.wt]; exact toS_toU (inRange8 (by omega) (by omega))
    simp only [hwS]
    rfl
  rcases refill (cfg_ok kd hash) z (items s.map.slots) s0 (by rw [hs0map]; exact newMap_wf z _)
    (by rw [hs0map]; exact hf) (by rw [hs0map]; exact h3) (by rw [hs0cap, hs0map]; rfl)
    (by
      rw [hs0cap, hs0map, ← hnl]
      have := hi.num
      rw [hi.cap] at this
      show 0 + _ ≤ _
      omega) hi.con.pos hi.wf.inv.keys_nodup (by intro e _ v; rw [hs0it]; simp) with
    ⟨u1, d, u2, u3⟩ | ⟨t, u1, u2, u3, u4, u5, u6, u7, u8⟩
  · left
    rw [hmain, u1]
    refine ⟨rfl, d, ?_, u3⟩
    rw [hs0map] at u2
    exact u2
  · right
    rw [hmain, u1]
    refine ⟨_, rfl, ⟨?_, ?_, ?_, rfl, u2, ?_, ?_, ?_⟩⟩
    · show t.lgMax = _
      rw [u5, hs0lm]
    · show t.curCap = _
      rw [u6, hs0cap, hi.cap]
    · show t.offset = _
      rw [u7]
    · show t.map.lg = _
      rw [u3, hs0map]
      rfl
    · show (items t.map.slots).Perm _
      rw [hs0it, List.append_nil] at u4
      exact u4
    · show t.sampleSize = _
      rw [u8, hs0ss]

end Verif.Freq
