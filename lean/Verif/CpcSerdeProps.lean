import Verif.CpcSerde

/-!
# Properties of the serialized CPC sketch (C67 - C70)

`toBytes` is `ToCompactSlice`, `fromBytes` is `NewCpcSketchFromSlice`. `sh` is the function that gives
the 16-bit hash of a seed (or an error), `fbits` and `fval` are `math.Float64bits` and
`math.Float64frombits`.
-/

namespace Verif.Cpc

open Outcome

variable {lgK seed : Nat} {c c' : Sk} {hs : List Hash} {sh : Nat → Outcome (BitVec 16)}
  {fbits : ℚ → BitVec 64} {m : List Nat}

/-! ## C67: the round trip -/

/-- bytes only if the hash of the seed exists -/
theorem sh_ok {s : Sk} (hm : toBytes sh fbits s = .ok m) : ∃ x, sh s.seed = .ok x := by
  unfold toBytes csOf at hm
  obtain ⟨_, h, _⟩ := Outcome.bind_eq_ok.1 hm
  obtain ⟨x, h, _⟩ := Outcome.bind_eq_ok.1 h
  exact ⟨x, h⟩

theorem restored {s : Sk} {S : Finset Nat} (h : SkInv s S) (hm : toBytes sh fbits s = .ok m)
    (fval : BitVec 64 → ℚ) (seed' : Nat) :
    ∃ d, fromBytes fval m seed' = .ok d ∧ Restored s d seed' S fbits fval := by
  obtain ⟨x, hx⟩ := sh_ok hm
  rcases toBytes_spec (fbits := fbits) h hx with ⟨m', e, hi⟩ | ⟨_, _, _, e, he⟩
  · rw [hm] at e
    cases e
    obtain ⟨cs, e1, _, hd⟩ := hi fval
    obtain ⟨d, e2, hr⟩ := hd seed'
    exact ⟨d, by rw [fromBytes_eq, e1]; exact e2, hr⟩
  · rw [hm] at he
    cases he

theorem same_matrix {a b : Sk} {S : Finset Nat} (ha : SkInv a S) (hb : SkInv b S) (hl : a.lgK = b.lgK) :
    bitMatrix a = bitMatrix b := by
  obtain ⟨ma, ea, ha'⟩ := bitMatrix_spec ha
  obtain ⟨mb, eb, hb'⟩ := bitMatrix_spec hb
  rw [← hl] at hb'
  rw [ea, eb, ha'.ext hb']

/-- A sketch fed with any stream and written to bytes is read back with the same `lgK`, the same number
of coupons, the same window and first interesting column, the same bit matrix and the two registers of
the estimator as 64-bit floats. The seed is the one given to the reader. -/
theorem C67_round_trip (hc : newSk lgK seed = .ok c) (hr : run c hs = .ok c')
    (hm : toBytes sh fbits c' = .ok m) (fval : BitVec 64 → ℚ) (seed' : Nat) :
    ∃ d, fromBytes fval m seed' = .ok d ∧
      d.seed = seed' ∧ d.lgK = lgK ∧ d.num = cells lgK hs ∧ d.merged = false ∧
      d.off = c'.off ∧ d.fiCol = c'.fiCol ∧
      bitMatrix d = bitMatrix c' ∧ (∃ rows, bitMatrix d = .ok rows ∧ MatrixOf lgK hs rows) ∧
      validate d = .ok true ∧
      (hs = [] → d.kxp = c'.kxp ∧ d.hip = c'.hip) ∧
      (hs ≠ [] → d.kxp = fval (fbits c'.kxp) ∧ d.hip = fval (fbits c'.hip)) := by
  obtain ⟨h, hl, hs', hme⟩ := run_start hc hr
  obtain ⟨d, ed, R⟩ := restored h hm fval seed'
  have hz := @coupons_card_zero lgK hs
  have hn0 : c'.num = 0 ↔ hs = [] := by rw [h.num]; exact hz
  obtain ⟨rows, er, hrow⟩ := bitMatrix_spec R.inv
  rw [R.lgK, hl] at hrow
  refine ⟨d, ed, R.seed, R.lgK.trans hl, by rw [R.num, h.num, cells_eq], R.merged.trans hme, R.off,
    R.fiCol, same_matrix R.inv h R.lgK, ⟨rows, er, matrixOf_iff.mpr hrow⟩, ?_, ?_, ?_⟩
  · have hv : ∀ x ∈ coupons lgK hs, x < 64 * 2 ^ lgK := by
      intro x hx; have := h.valid x hx; rwa [hl] at this
    unfold validate
    rw [er, ok_bind, countBits_eq hrow hv, R.num, h.num]
    simp
  · intro h0
    obtain ⟨_, hl0, _, _, hk0, hh0⟩ := start hc
    have e1 := R.kxp
    have e2 := R.hip
    rw [if_pos (Or.inr (hn0.mpr h0))] at e1 e2
    subst h0
    cases hr
    rw [e1, e2, hk0, hh0, hl0]
    exact ⟨rfl, rfl⟩
  · intro h0
    have hno : ¬ (c'.merged = true ∨ c'.num = 0) := by
      rw [hme, hn0]; simp [h0]
    have e1 := R.kxp
    have e2 := R.hip
    rw [if_neg hno] at e1 e2
    exact ⟨e1, e2⟩

/-- The sketch read back goes on like the original: it accepts the same further streams, with the same
content, and with the same estimate if the two registers are floats. -/
theorem C67_continue (hc : newSk lgK seed = .ok c) (hr : run c hs = .ok c')
    (hm : toBytes sh fbits c' = .ok m) {fval : BitVec 64 → ℚ} {seed' : Nat} {d : Sk}
    (hd : fromBytes fval m seed' = .ok d) (hs' : List Hash) :
    ((∃ e, run c' hs' = .ok e) ↔ ∃ e', run d hs' = .ok e') ∧
    (∀ e e', run c' hs' = .ok e → run d hs' = .ok e' →
      e'.num = e.num ∧ bitMatrix e' = bitMatrix e ∧
      (fval (fbits c'.kxp) = c'.kxp → fval (fbits c'.hip) = c'.hip → e'.hip = e.hip ∧ e'.kxp = e.kxp)) := by
  obtain ⟨h, hl, -, hme⟩ := run_start hc hr
  obtain ⟨d', ed, R⟩ := restored h hm fval seed'
  rw [hd] at ed
  cases ed
  refine ⟨?_, fun e e' he he' => ?_⟩
  · rw [run_iff hs' h, run_iff hs' R.inv, R.lgK]
  · obtain ⟨i1, l1, _, _⟩ := run_sound hs' h he
    obtain ⟨i2, l2, _, _⟩ := run_sound hs' R.inv he'
    rw [R.lgK] at i2 l2
    refine ⟨by rw [i1.num, i2.num], same_matrix i2 i1 (by rw [l1, l2]), fun f1 f2 => ?_⟩
    obtain ⟨d', ed, _, _, _, _, _, _, _, _, _, g1, g2⟩ := C67_round_trip hc hr hm fval seed'
    rw [hd] at ed
    cases ed
    have hk : d.kxp = c'.kxp ∧ d.hip = c'.hip := by
      by_cases h0 : hs = []
      · exact g1 h0
      · obtain ⟨a, b⟩ := g2 h0
        exact ⟨a.trans f1, b.trans f2⟩
    obtain ⟨e2, ee, t⟩ := Twin.run hs' ⟨R.inv, h, R.lgK, hk.1, hk.2⟩ he'
    rw [he] at ee
    cases ee
    exact ⟨t.hip, t.kxp⟩

/-- The result of a union survives the round trip: it stays marked as merged and has the same content. -/
theorem C67_union {u u' : Un} {parts : List (Nat × List Hash)} {srcs : List Sk}
    (hu : newUn lgK seed = .ok u) (hb : List.Forall₂ (Built seed) parts srcs)
    (hr : unionAll u srcs = .ok u')
    (hbig : 8 * cells (lgOf lgK parts) (allItems parts) < 475 * 2 ^ lgOf lgK parts) {r : Sk}
    (he : u'.result = .ok r) (hm : toBytes sh fbits r = .ok m) (fval : BitVec 64 → ℚ) (seed' : Nat) :
    ∃ d, fromBytes fval m seed' = .ok d ∧ d.seed = seed' ∧ d.lgK = r.lgK ∧ d.num = r.num ∧
      d.merged = true ∧ d.off = r.off ∧ d.fiCol = r.fiCol ∧ bitMatrix d = bitMatrix r ∧
      (∃ rows, bitMatrix d = .ok rows ∧ MatrixOf (lgOf lgK parts) (allItems parts) rows) := by
  obtain ⟨h, hl, hs⟩ := union_inv hu hb hr
  rw [cells_eq] at hbig
  obtain ⟨hi, rl, rs, rm⟩ := (result_spec h (by rw [hl]; exact hbig)).2 r he
  obtain ⟨d, ed, R⟩ := restored hi hm fval seed'
  obtain ⟨rows, er, hrow⟩ := bitMatrix_spec R.inv
  rw [R.lgK, rl, hl] at hrow
  exact ⟨d, ed, R.seed, R.lgK, R.num, R.merged.trans rm, R.off, R.fiCol,
    same_matrix R.inv hi R.lgK, rows, er, matrixOf_iff.mpr hrow⟩

/-! ## C68: every sketch can be written

The full claim, that `ToCompactSlice` succeeds for every sketch, is false: `C68_refused`. -/

/-- the number of surprising values of the stream: all cells while the sketch has no window, afterwards
the cells hit above the window and the cells not hit below -/
def surprising (lgK : Nat) (hs : List Hash) : Nat :=
  if 32 * cells lgK hs < 3 * 2 ^ lgK then cells lgK hs
  else surprises lgK (windowAt lgK (cells lgK hs)) (fun r c => ∃ h ∈ hs, Hits lgK h r c)

theorem table_num {s : Sk} {t : PT} (h : SkInv s (coupons lgK hs)) (hl : s.lgK = lgK)
    (ht : s.pt = some t) (h0 : 17 < t.num) (he : s.num ≠ 0) : 17 < surprising lgK hs := by
  unfold surprising
  rw [cells_eq]
  rcases h.mode with hm | ⟨t', hm⟩ | ⟨w, t', hm⟩
  · exact absurd (by rw [h.num, hm.set]; rfl) he
  · have hf := hm.few
    rw [hl] at hf
    rw [if_pos hf]
    have := hm.pt
    rw [ht] at this
    cases this
    rw [hm.inv.num] at h0
    exact h0
  · have hf := hm.many
    rw [hl] at hf
    rw [if_neg (by omega)]
    have := hm.pt
    rw [ht] at this
    cases this
    have h1 := hm.inv.num
    rw [h1] at h0
    have hoff := h.off_eq
    rw [h.num, hl, windowAt_eq] at hoff
    rw [hl, hoff, surprises_eq] at h0
    convert h0 using 1
    unfold surprises
    congr 1
    apply Finset.filter_congr
    intro p hp
    simp only [Finset.mem_product, Finset.mem_range] at hp
    show (_ ∧ ¬ (∃ h ∈ hs, Hits lgK h p.1 p.2)) ∨ (_ ∧ ∃ h ∈ hs, Hits lgK h p.1 p.2) ↔
      (_ ∧ ¬ (64 * p.1 + p.2 ∈ coupons lgK hs)) ∨ (_ ∧ 64 * p.1 + p.2 ∈ coupons lgK hs)
    rw [mem_coupons hp.2]

/-- Writing a sketch never panics, and it succeeds when there are at most 17 surprising values. -/
theorem C68_partial {x : BitVec 16} (hc : newSk lgK seed = .ok c) (hr : run c hs = .ok c')
    (hsh : sh seed = .ok x) :
    (∃ m, toBytes sh fbits c' = .ok m) ∨
    (17 < surprising lgK hs ∧ ∃ e, toBytes sh fbits c' = .err e) := by
  obtain ⟨h, hl, hs', _⟩ := run_start hc hr
  rcases toBytes_spec (fbits := fbits) h (by rw [hs']; exact hsh) with ⟨m, e, _⟩ | ⟨t, e1, e2, e3⟩
  · exact Or.inl ⟨m, e⟩
  · by_cases h0 : c'.num = 0
    · left
      have : compress (cs0 x c') c' = .ok (cs0 x c') := by
        unfold compress
        rw [show flavor c'.lgK c'.num = .empty by unfold flavor; rw [if_pos h0]]
      rcases h.mode with hm | ⟨t', hm⟩ | ⟨w, t', hm⟩
      · obtain ⟨ec, ho, hp⟩ := compress_empty (c0 := cs0 x c') h hm ⟨rfl, rfl, rfl, rfl, rfl⟩
        obtain ⟨m, em, _⟩ := export_import (fbits := fbits) (fval := fun _ => 0) (csOk h ec ho hp)
        refine ⟨m, ?_⟩
        unfold toBytes
        rw [csOf_eq (by rw [hs']; exact hsh), ec]
        exact em
      · have := hm.ne; have := h.num; omega
      · have := hm.many; have := h.num; have := Nat.two_pow_pos c'.lgK; omega
    · exact Or.inr ⟨table_num h hl e1 e2 h0, e3⟩

/-- 24 items that fall in row 0 of a sketch with 16 rows, in columns 10, 31, 30, ..., 11, 9, 8 -/
def hostileCols : List Nat := 10 :: (List.range 21).map (31 - ·) ++ [9, 8]

def unwritable : List Hash := hostileCols.map fun c => (0, BitVec.ofNat 64 (2 ^ (63 - c)))

theorem sv_err {cs cs' : CS} {s : Sk} {ps : List Nat} {e : String} (h : compressSV cs s ps = .err e) :
    compressSV cs' s ps = .err e := by
  unfold compressSV at *
  split at h
  · rename_i h0; rw [if_pos h0]; exact h
  · rename_i h0
    rw [if_neg h0]
    cases h1 : golombBits (2 ^ s.lgK + ps.length) ps.length <;> rw [h1] at h <;>
      simp only [ok_bind, err_bind, panic_bind] at h ⊢
    · rename_i nbb
      cases h2 : pairBufLen (2 ^ s.lgK) ps.length nbb <;> rw [h2] at h <;>
        simp only [ok_bind, err_bind, panic_bind] at h ⊢
      · rename_i cap
        cases h3 : compressPairs ps nbb cap <;> rw [h3] at h <;>
          simp only [ok_bind, err_bind, panic_bind] at h ⊢ <;> first | exact h | cases h
      · exact h
      · cases h
    · exact h
    · cases h

theorem window_cases (cs cs' : CS) (s : Sk) :
    (∃ a b, compressWindow cs s = .ok a ∧ compressWindow cs' s = .ok b) ∨
    (∃ e, compressWindow cs s = .err e ∧ compressWindow cs' s = .err e) ∨
    (compressWindow cs s = .panic ∧ compressWindow cs' s = .panic) := by
  unfold compressWindow
  cases pseudoPhase s.lgK s.num with
  | err e => exact Or.inr (Or.inl ⟨e, rfl, rfl⟩)
  | panic => exact Or.inr (Or.inr ⟨rfl, rfl⟩)
  | ok ph =>
    simp only [ok_bind]
    cases byteTables[ph]? with
    | none => exact Or.inr (Or.inr ⟨rfl, rfl⟩)
    | some enc =>
      simp only []
      cases compressBytes (s.win.getD []) (2 ^ s.lgK) enc (windowBufLen (2 ^ s.lgK)) with
      | ok ws => exact Or.inl ⟨_, _, rfl, rfl⟩
      | err e => exact Or.inr (Or.inl ⟨e, rfl, rfl⟩)
      | panic => exact Or.inr (Or.inr ⟨rfl, rfl⟩)

theorem pinned_err {cs cs' : CS} {s : Sk} {e : String} (h : compressPinned cs s = .err e) :
    compressPinned cs' s = .err e := by
  unfold compressPinned at *
  rcases window_cases cs cs' s with ⟨a, b, ea, eb⟩ | ⟨e', ea, eb⟩ | ⟨ea, eb⟩
  · rw [ea, ok_bind] at h
    rw [eb, ok_bind]
    cases ht : ptOf s with
    | err e' => rw [ht] at h; exact h
    | panic => rw [ht] at h; exact h
    | ok t =>
      rw [ht, ok_bind] at h
      rw [ok_bind]
      split at h
      · rename_i h0
        rw [if_pos h0]
        cases hu : t.unwrap with
        | err e' => rw [hu] at h; exact h
        | panic => rw [hu] at h; exact h
        | ok ps =>
          rw [hu, ok_bind] at h
          rw [ok_bind]
          cases hq : ps.mapM minus8 with
          | err e' => rw [hq] at h; exact h
          | panic => rw [hq] at h; exact h
          | ok qs => rw [hq, ok_bind] at h; rw [ok_bind]; exact sv_err h
      · cases h
  · rw [ea] at h
    rw [eb]
    exact h
  · rw [ea] at h
    cases h

/-- A sketch that cannot be written: the library accepts the 24 items, but `ToCompactSlice` returns an
error. When the insertion sort becomes too costly, only the part of the list after the last inserted
value is sorted. -/
theorem C68_refused {x : BitVec 16} (hsh : sh 9001 = .ok x) :
    ∃ c c', newSk 4 9001 = .ok c ∧ run c unwritable = .ok c' ∧ ∃ e, toBytes sh fbits c' = .err e := by
  obtain ⟨c, ec, _, _⟩ := SkInv.new (lgK := 4) (seed := 9001) (by omega) (by omega)
  have hw : (match (newSk 4 9001).bind fun c => run c unwritable with
      | .ok c' => if flavor c'.lgK c'.num = Flavor.pinned ∧ c'.seed = 9001 then
          compressPinned (newCS 4 0) c' else .panic
      | _ => .panic) = .err "lowLevelCompressPairs: assertion failed" := by decide +kernel
  rw [ec] at hw
  change (match run c unwritable with
      | .ok c' => if flavor c'.lgK c'.num = Flavor.pinned ∧ c'.seed = 9001 then
          compressPinned (newCS 4 0) c' else .panic
      | _ => .panic) = _ at hw
  cases hr : run c unwritable with
  | err e => rw [hr] at hw; cases hw
  | panic => rw [hr] at hw; cases hw
  | ok c' =>
    rw [hr] at hw
    simp only [] at hw
    split at hw
    · rename_i hf
      refine ⟨c, c', ec, hr, "lowLevelCompressPairs: assertion failed", ?_⟩
      unfold toBytes
      rw [csOf_eq (x := x) (by rw [hf.2]; exact hsh)]
      unfold compress
      rw [hf.1]
      simp only []
      rw [pinned_err hw]
      rfl
    · cases hw

/-! ## C69: bytes that are not a sketch -/

/-- the header of a compressed CPC sketch -/
structure GoodHeader (mem : List Nat) : Prop where
  long : 8 ≤ mem.length
  version : mem[1]? = some 1
  family : mem[2]? = some 16
  lgK : ∃ l, mem[3]? = some l ∧ 4 ≤ l ∧ l ≤ 26
  fiCol : ∃ f, mem[4]? = some f ∧ f ≤ 63
  flags : ∃ f, mem[5]? = some f ∧ f.testBit 1 = true ∧
    mem[0]? = [2, 2, 4, 8, 4, 8, 6, 10][f / 4 % 8]?

theorem byte_ok {mem : List Nat} {i : Nat} (h : i < mem.length) :
    getLE mem i 1 = .ok mem[i] := by
  rw [getLE_ok (by omega)]
  unfold getT
  rw [List.drop_eq_getElem_cons h, List.take_succ_cons, List.take_zero]
  rfl

/-- Bytes without a good header are refused with an error. -/
theorem C69_header_partial {mem : List Nat} (hbad : ¬ GoodHeader mem) (fval : BitVec 64 → ℚ) (seed : Nat) :
    ∃ e, fromBytes fval mem seed = .err e := by
  by_cases h8 : mem.length < 8
  · exact ⟨"bounds Violation", by rw [fromBytes_eq]; unfold importCS checkLo; rw [if_pos h8]; rfl⟩
  have g : ∀ i (hi : i < 8), getLE mem i 1 = .ok (mem[i]'(by omega)) := fun i hi => byte_ok (by omega)
  have q : ∀ i (hi : i < 8), mem[i]? = some (mem[i]'(by omega)) := fun i hi =>
    List.getElem?_eq_getElem (by omega)
  obtain ⟨b0, e0⟩ : ∃ b, mem[0]'(by omega) = b := ⟨_, rfl⟩
  obtain ⟨b1, e1⟩ : ∃ b, mem[1]'(by omega) = b := ⟨_, rfl⟩
  obtain ⟨b2, e2⟩ : ∃ b, mem[2]'(by omega) = b := ⟨_, rfl⟩
  obtain ⟨b3, e3⟩ : ∃ b, mem[3]'(by omega) = b := ⟨_, rfl⟩
  obtain ⟨b4, e4⟩ : ∃ b, mem[4]'(by omega) = b := ⟨_, rfl⟩
  obtain ⟨b5, e5⟩ : ∃ b, mem[5]'(by omega) = b := ⟨_, rfl⟩
  have g0 := g 0 (by omega); have q0 := q 0 (by omega); rw [e0] at g0 q0
  have g1 := g 1 (by omega); have q1 := q 1 (by omega); rw [e1] at g1 q1
  have g2 := g 2 (by omega); have q2 := q 2 (by omega); rw [e2] at g2 q2
  have g3 := g 3 (by omega); have q3 := q 3 (by omega); rw [e3] at g3 q3
  have g4 := g 4 (by omega); have q4 := q 4 (by omega); rw [e4] at g4 q4
  have g5 := g 5 (by omega); have q5 := q 5 (by omega); rw [e5] at g5 q5
  have hfmt : formatOf mem = .ok ((b5 >>> 2) &&& 7) := by unfold formatOf; rw [g5]; rfl
  have hf7 : (b5 >>> 2) &&& 7 = b5 / 4 % 8 := by
    rw [show (7 : Nat) = 2 ^ 3 - 1 from rfl, Nat.and_two_pow_sub_one_eq_mod, Nat.shiftRight_eq_div_pow]
  have hpre : ∀ n, n < 8 → [2, 2, 4, 8, 4, 8, 6, 10][n]? = some (preInts n) := by decide
  rw [fromBytes_eq]
  unfold importCS checkLo
  rw [if_neg h8]
  simp only [g0, g1, g2, g3, g4, g5, hfmt, ok_bind]
  by_cases k1 : b1 = 1
  swap
  · exact ⟨"SerVer", by rw [if_pos k1]; rfl⟩
  by_cases k2 : b0 = preInts ((b5 >>> 2) &&& 7)
  swap
  · exact ⟨"preIntsDef", by rw [if_neg (by simpa using k1), if_pos k2]; rfl⟩
  by_cases k3 : b2 = 16
  swap
  · exact ⟨"family", by rw [if_neg (by simpa using k1), if_neg (by simpa using k2), if_pos k3]; rfl⟩
  by_cases k4 : b3 < 4 ∨ b3 > 26
  · exact ⟨"lgK", by rw [if_neg (by simpa using k1), if_neg (by simpa using k2),
      if_neg (by simpa using k3), if_pos k4]; rfl⟩
  by_cases k5 : b4 > 63
  · exact ⟨"fiCol", by rw [if_neg (by simpa using k1), if_neg (by simpa using k2),
      if_neg (by simpa using k3), if_neg k4, if_pos k5]; rfl⟩
  by_cases k6 : b5 &&& 2 = 0
  · exact ⟨"not compressed", by rw [if_neg (by simpa using k1), if_neg (by simpa using k2),
      if_neg (by simpa using k3), if_neg k4, if_neg k5, ok_bind, if_pos k6]; rfl⟩
  exfalso
  apply hbad
  refine ⟨by omega, by rw [q1, k1], by rw [q2, k3], ⟨b3, q3, by omega, by omega⟩, ⟨b4, q4, by omega⟩,
    b5, q5, ?_, ?_⟩
  · by_contra hb
    apply k6
    rw [show (2 : Nat) = 2 ^ 1 from rfl, Nat.and_two_pow]
    rw [Bool.not_eq_true] at hb
    rw [hb]
    rfl
  · rw [q0, k2, hf7, hpre _ (by omega)]

/-- The reader does not look at the hash of the seed: bytes written with one seed are read with any
other. -/
theorem C69_seed_unchecked (hc : newSk lgK seed = .ok c) (hr : run c hs = .ok c')
    (hm : toBytes sh fbits c' = .ok m) (fval : BitVec 64 → ℚ) (seed' : Nat) :
    ∃ d, fromBytes fval m seed' = .ok d ∧ d.seed = seed' := by
  obtain ⟨d, ed, h, _⟩ := C67_round_trip hc hr hm fval seed'
  exact ⟨d, ed, h⟩

/-- The reader panics on a header alone. -/
theorem C69_truncated (fval : BitVec 64 → ℚ) (seed : Nat) :
    fromBytes fval [4, 1, 16, 4, 0, 10, 0, 0] seed = .panic := by
  rfl

/-! ## C70: the wrapper -/

theorem wrapper_reads {s : Sk} {S : Finset Nat} (h : SkInv s S) (hm : toBytes sh fbits s = .ok m)
    (hn : s.num ≠ 0) {fval : BitVec 64 → ℚ} {seed' : Nat} {d : Sk}
    (hd : fromBytes fval m seed' = .ok d) :
    wrap m = .ok m ∧ wLgK m = .ok s.lgK ∧ ∀ E : Est, wEstimate E fval m = .ok (estimate E d) ∧
    ∀ kappa, wLowerBound E kappa fval m = .ok (lowerBound E kappa d) ∧
      wUpperBound E kappa fval m = .ok (upperBound E kappa d) := by
  obtain ⟨x, hx⟩ := sh_ok hm
  rcases toBytes_spec (fbits := fbits) h hx with ⟨m', e, hi⟩ | ⟨_, _, _, e, he⟩
  swap
  · rw [hm] at he
    cases he
  rw [hm] at e
  cases e
  obtain ⟨cs, e1, T, hd'⟩ := hi fval
  obtain ⟨d', e2, R⟩ := hd' seed'
  rw [fromBytes_eq, e1] at hd
  have hdd : restore cs seed' = .ok d := hd
  rw [e2] at hdd
  cases hdd
  obtain ⟨w1, w2, w3, w4⟩ := wrap_spec e1
  obtain ⟨w5, w6⟩ := w4 (by rw [T.num]; exact hn)
  rw [T.merged] at w3 w6
  rw [T.num] at w5
  rw [T.lgK] at w2
  refine ⟨w1, w2, fun E => ?_⟩
  unfold wEstimate wLowerBound wUpperBound estimate lowerBound upperBound
  rw [w3, w2, w5, R.merged, R.lgK, R.num]
  simp only [ok_bind]
  cases hme : s.merged
  · have w7 := w6 hme
    rw [T.hip, ← R.hip] at w7
    simp [w7]
  · simp

/-- The wrapper of the bytes of a sketch with at least one item reports what the sketch read from the
bytes reports. -/
theorem C70_partial (hc : newSk lgK seed = .ok c) (hr : run c hs = .ok c')
    (hm : toBytes sh fbits c' = .ok m) (h0 : hs ≠ []) {fval : BitVec 64 → ℚ} {seed' : Nat} {d : Sk}
    (hd : fromBytes fval m seed' = .ok d) (E : Est) :
    wrap m = .ok m ∧ wLgK m = .ok lgK ∧ wEstimate E fval m = .ok (estimate E d) ∧
    ∀ kappa, wLowerBound E kappa fval m = .ok (lowerBound E kappa d) ∧
      wUpperBound E kappa fval m = .ok (upperBound E kappa d) := by
  obtain ⟨h, hl, hs', hme⟩ := run_start hc hr
  have hn : c'.num ≠ 0 := by rw [h.num]; exact fun e => h0 (coupons_card_zero.mp e)
  obtain ⟨h1, h2, h3⟩ := wrapper_reads h hm hn hd
  rw [hl] at h2
  exact ⟨h1, h2, h3 E⟩

/-- The same for the result of a union. -/
theorem C70_union_partial {u u' : Un} {parts : List (Nat × List Hash)} {srcs : List Sk}
    (hu : newUn lgK seed = .ok u) (hb : List.Forall₂ (Built seed) parts srcs)
    (hr : unionAll u srcs = .ok u')
    (hbig : 8 * cells (lgOf lgK parts) (allItems parts) < 475 * 2 ^ lgOf lgK parts) {r : Sk}
    (he : u'.result = .ok r) (hm : toBytes sh fbits r = .ok m) (h0 : allItems parts ≠ [])
    {fval : BitVec 64 → ℚ} {seed' : Nat} {d : Sk} (hd : fromBytes fval m seed' = .ok d) (E : Est) :
    wrap m = .ok m ∧ wLgK m = .ok r.lgK ∧ wEstimate E fval m = .ok (estimate E d) ∧
    ∀ kappa, wLowerBound E kappa fval m = .ok (lowerBound E kappa d) ∧
      wUpperBound E kappa fval m = .ok (upperBound E kappa d) := by
  obtain ⟨h, hl, hs⟩ := union_inv hu hb hr
  rw [cells_eq] at hbig
  obtain ⟨hi, rl, rs, rm⟩ := (result_spec h (by rw [hl]; exact hbig)).2 r he
  have hn : r.num ≠ 0 := by rw [hi.num]; exact fun e => h0 (coupons_card_zero.mp e)
  obtain ⟨h1, h2, h3⟩ := wrapper_reads hi hm hn hd
  exact ⟨h1, h2, h3 E⟩

/-- The claim is false for an empty sketch: the wrapper takes the header for the estimate. -/
theorem C70_empty {fval : BitVec 64 → ℚ} (hz : ∀ b, fval b = 0 → b = 0 ∨ b = BitVec.ofNat 64 (2 ^ 63))
    (hsh : sh 9001 = .ok 0x93CC) (E : Est) :
    ∃ c m d, newSk 11 9001 = .ok c ∧ toBytes sh fbits c = .ok m ∧ fromBytes fval m 9001 = .ok d ∧
      estimate E d = 0 ∧ wEstimate E fval m = .ok (fval 0x93CC06000B100102) ∧
      wEstimate E fval m ≠ .ok 0 := by
  have hc : newSk 11 9001 = .ok ⟨9001, 11, 0, false, 0, 0, none, none, 2 ^ 11, 0⟩ := rfl
  have hw : wEstimate E fval [2, 1, 16, 11, 0, 6, 0xCC, 0x93] = .ok (fval 0x93CC06000B100102) := rfl
  refine ⟨_, [2, 1, 16, 11, 0, 6, 0xCC, 0x93], _, hc, ?_, rfl, rfl, hw, ?_⟩
  · unfold toBytes
    rw [csOf_eq hsh]
    rfl
  · rw [hw]
    intro hcon
    have h0 : fval 0x93CC06000B100102 = 0 := by injection hcon
    rcases hz _ h0 with h | h <;> exact absurd h (by decide)

end Verif.Cpc

/-! ## Non-vacuity -/

namespace Verif.Cpc

/-- three items in a sketch of 16 rows: it can be written, so all hypotheses of C67 and C70 hold -/
def example3 : List Hash := [(5, 1), (21, 2 ^ 63), (7, 2 ^ 50)]

example : (do
    let c ← newSk 4 9001
    let c ← run c example3
    let m ← toBytes (fun _ => .ok 0x93CC) (fun _ => 0) c
    Outcome.ok (c.num, m.length)) = .ok (3, 40) := by
  decide +kernel

example : surprising 4 example3 ≤ 17 := by decide +kernel

end Verif.Cpc
