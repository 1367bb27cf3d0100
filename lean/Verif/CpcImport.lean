import Verif.CpcImage

/-!
# What is exported is imported again
-/

namespace Verif.Cpc

open Outcome

variable {fbits : ℚ → BitVec 64} {fval : BitVec 64 → ℚ} {c : CS}

def importBody (fval : BitVec 64 → ℚ) (m : List Nat) (fmt : Nat) (c : CS) : Outcome CS :=
  match fmt with
  | 0 | 1 => .ok c
  | 2 => getSparse m 2 .ok c
  | 3 => getSparse m 3 (getHip fval m 3) c
  | 4 => getNoSV m 4 .ok c
  | 5 => getNoSV m 5 (getHip fval m 5) c
  | 6 => getFull m 6 .ok c
  | 7 => getFull m 7 (getHip fval m 7) c
  | _ => .err "unknown format"

theorem import_head {m : List Nat} {fmt lgK fi : Nat} {h : BitVec 16} (hd : Head m fmt lgK fi h)
    (hf : fmt < 8) : importCS fval m =
      importBody fval m fmt { newCS lgK h with merged := decide (fmt &&& 1 = 0) } := by
  obtain ⟨_, _, _, f4⟩ := flags_spec fmt hf
  unfold importCS
  rw [hd.check, ok_bind, hd.flags, ok_bind, if_neg f4, hd.lg, ok_bind, hd.hash, ok_bind, hd.format, ok_bind,
    BitVec.ofNat_toNat, BitVec.setWidth_eq]
  rfl

/-! ### empty -/

theorem round_empty (hc : CSOk c) (h0 : c.numCsv = 0) (hw : c.cw = none) :
    ∃ m, c.toBytes fbits = .ok m ∧ importCS fval m = .ok (decoded fbits fval c) := by
  have hcsv : c.csv = none := by
    rcases hc.sv with h | h
    · exact h.2
    · omega
  have hcl : c.cwLen = 0 := by rw [hc.cwLenEq, hw]; rfl
  have hsl : c.csvLen = 0 := by rw [hc.svLen, hcsv]; rfl
  have hnum : c.num = 0 ∧ c.fiCol = 0 := by
    rcases hc.win with h | h
    · exact ⟨by omega, h.2.2⟩
    · omega
  obtain ⟨fmt, hfmt, hf2, hfm⟩ : ∃ fmt, c.format = fmt ∧ fmt < 2 ∧ (decide (fmt &&& 1 = 0)) = c.merged := by
    rw [fmt_cases, if_neg (by omega), if_neg (by omega)]
    cases c.merged
    · exact ⟨1, rfl, by omega, rfl⟩
    · exact ⟨0, rfl, by omega, rfl⟩
  have hsize : c.size = 8 := by
    unfold CS.size
    rw [hfmt, hcl, hsl]
    have : fmt = 0 ∨ fmt = 1 := by omega
    rcases this with rfl | rfl <;> rfl
  obtain ⟨m, e, l, r⟩ := putAll_spec (first8 fmt c.lgK 0 c.seedHash) (List.replicate 8 0)
    (by simp [first8]) (by simp [first8, span, Disj])
  rw [List.length_replicate] at l
  have hd := head_spec (m := m) r (by omega) (by omega) hc.lg4 hc.lg26 (by omega)
  refine ⟨m, ?_, ?_⟩
  · unfold CS.toBytes CS.fields
    rw [hfmt, hsize]
    have : fmt = 0 ∨ fmt = 1 := by omega
    rcases this with rfl | rfl
    · simp only [ok_bind]; exact e
    · simp only [ok_bind]; exact e
  · rw [import_head hd (by omega)]
    have hdec : decoded fbits fval c = { newCS c.lgK c.seedHash with merged := c.merged } := by
      unfold decoded newCS
      rw [if_pos (Or.inr hnum.1), if_pos (Or.inr hnum.1)]
      cases c
      simp only at *
      simp only [*]
    rw [hdec, ← hfm]
    have : fmt = 0 ∨ fmt = 1 := by omega
    rcases this with rfl | rfl <;> rfl

/-! ### no window -/

theorem round_sparse (hc : CSOk c) (h0 : 0 < c.numCsv) (hw : c.cw = none) :
    ∃ m, c.toBytes fbits = .ok m ∧ importCS fval m = .ok (decoded fbits fval c) := by
  obtain ⟨csv, hcsv, hpos⟩ : ∃ csv, c.csv = some csv ∧ 0 < c.csvLen := by
    rcases hc.sv with h | h
    · omega
    · obtain ⟨x, hx⟩ := Option.isSome_iff_exists.mp h.2.1
      exact ⟨x, hx, h.2.2⟩
  have hcl : c.cwLen = 0 := by rw [hc.cwLenEq, hw]; rfl
  have hsl : c.csvLen = csv.length := by rw [hc.svLen, hcsv]; rfl
  have hsw := hc.svWords
  rw [hcsv] at hsw
  simp only [Option.getD_some] at hsw
  have hnum : c.numCsv = c.num ∧ c.fiCol = 0 := by
    rcases hc.win with h | h
    · exact ⟨h.2.1, h.2.2⟩
    · omega
  have hn32 := hc.num
  have hlt := hc.svLt
  cases hmg : c.merged
  · -- format 3
    have hfmt : c.format = 3 := by
      rw [fmt_cases, if_neg (by omega), if_pos h0, hmg]; rfl
    have hsize : c.size = 32 + 4 * ([] : List Nat).length + 4 * csv.length := by
      unfold CS.size; rw [hfmt, hcl, hsl]; simp [preInts]; omega
    obtain ⟨m, e, l, r1, r2, _⟩ := image_ok (a := csv) (b := []) (N := c.size) (H := 32)
      (hdr := first8 3 c.lgK 0 c.seedHash ++ [u32 3 fNum c.num, u32 3 fSVLen c.csvLen,
        f64 3 fKxp (fbits c.kxp), f64 3 fHip (fbits c.hip)])
      (by simp [first8, u32, f64, hiOff, hiFieldOffset, fNum, fSVLen, fKxp, fHip])
      (by simp [first8, u32, f64, hiOff, hiFieldOffset, fNum, fSVLen, fKxp, fHip, span, Disj]) hsize
    rw [hsize] at l
    have hd := head_spec (m := m) r1.left (by omega) (by omega) hc.lg4 hc.lg26 (by omega)
    refine ⟨m, ?_, ?_⟩
    · unfold CS.toBytes CS.fields
      rw [hfmt]
      simp only [svOffset]
      rw [if_neg (by omega), if_neg (by omega), hcsv]
      simp only [ok_bind, Option.getD_some]
      simpa [streamFields, preInts] using e
    · rw [import_head hd (by omega)]
      have g1 := r1.right (u32 3 fNum c.num) (by simp)
      have g2 := r1.right (u32 3 fSVLen c.csvLen) (by simp)
      have g3 := r1.right (f64 3 fKxp (fbits c.kxp)) (by simp)
      have g4 := r1.right (f64 3 fHip (fbits c.hip)) (by simp)
      simp only [u32, f64] at g1 g2 g3 g4
      rw [u32_mod hn32] at g1
      rw [u32_mod (by omega)] at g2
      simp only [importBody]
      unfold getSparse
      rw [g1, ok_bind, g2, ok_bind, getHip_spec g3 g4, ok_bind]
      have hsv : getSV m 3 = .ok csv := by
        unfold getSV
        rw [g2, ok_bind, hd.pre, ok_bind, if_neg (by omega), if_neg (by omega), hsl]
        exact getStream_spec csv _ hsw (show Reads m _ by simpa [preInts] using r2)
      unfold CS.checkSize
      rw [if_neg (by
        rw [l]
        unfold CS.size CS.format preInts newCS
        simp [hsl]
        split <;> simp [*] <;> omega), ok_bind, hsv, ok_bind]
      unfold decoded newCS
      rw [if_neg (by simp [hmg]; omega), if_neg (by simp [hmg]; omega)]
      cases c
      simp only at *
      simp [*]
  · -- format 2
    have hfmt : c.format = 2 := by
      rw [fmt_cases, if_neg (by omega), if_pos h0, hmg]; rfl
    have hsize : c.size = 16 + 4 * ([] : List Nat).length + 4 * csv.length := by
      unfold CS.size; rw [hfmt, hcl, hsl]; simp [preInts]; omega
    obtain ⟨m, e, l, r1, r2, _⟩ := image_ok (a := csv) (b := []) (N := c.size) (H := 16)
      (hdr := first8 2 c.lgK 0 c.seedHash ++ [u32 2 fNum c.num, u32 2 fSVLen c.csvLen])
      (by simp [first8, u32, hiOff, hiFieldOffset, fNum, fSVLen])
      (by simp [first8, u32, hiOff, hiFieldOffset, fNum, fSVLen, span, Disj]) hsize
    rw [hsize] at l
    have hd := head_spec (m := m) r1.left (by omega) (by omega) hc.lg4 hc.lg26 (by omega)
    refine ⟨m, ?_, ?_⟩
    · unfold CS.toBytes CS.fields
      rw [hfmt]
      simp only [svOffset]
      rw [if_neg (by omega), if_neg (by omega), hcsv]
      simp only [ok_bind, Option.getD_some]
      simpa [streamFields, preInts] using e
    · rw [import_head hd (by omega)]
      have g1 := r1.right (u32 2 fNum c.num) (by simp)
      have g2 := r1.right (u32 2 fSVLen c.csvLen) (by simp)
      simp only [u32] at g1 g2
      rw [u32_mod hn32] at g1
      rw [u32_mod (by omega)] at g2
      simp only [importBody]
      unfold getSparse
      rw [g1, ok_bind, g2, ok_bind, ok_bind]
      have hsv : getSV m 2 = .ok csv := by
        unfold getSV
        rw [g2, ok_bind, hd.pre, ok_bind, if_neg (by omega), if_neg (by omega), hsl]
        exact getStream_spec csv _ hsw (show Reads m _ by simpa [preInts] using r2)
      unfold CS.checkSize
      rw [if_neg (by
        rw [l]
        unfold CS.size CS.format preInts newCS
        simp [hsl]
        split <;> simp [*] <;> omega), ok_bind, hsv, ok_bind]
      unfold decoded newCS
      rw [if_pos (by simp [hmg]), if_pos (by simp [hmg])]
      cases c
      simp only at *
      simp [*]

/-! ### window, no surprising values -/

theorem round_window (hc : CSOk c) (h0 : c.numCsv = 0) (hw : c.cw.isSome = true) :
    ∃ m, c.toBytes fbits = .ok m ∧ importCS fval m = .ok (decoded fbits fval c) := by
  obtain ⟨cw, hcw⟩ := Option.isSome_iff_exists.mp hw
  have hcsv : c.csv = none := by
    rcases hc.sv with h | h
    · exact h.2
    · omega
  have hpos : 0 < c.cwLen := by
    rcases hc.win with h | h
    · rw [h.1] at hcw; cases hcw
    · exact h.2
  have hsl : c.csvLen = 0 := by rw [hc.svLen, hcsv]; rfl
  have hcl : c.cwLen = cw.length := by rw [hc.cwLenEq, hcw]; rfl
  have hww := hc.cwWords
  rw [hcw] at hww
  simp only [Option.getD_some] at hww
  have hn32 := hc.num
  have hlt := hc.cwLt
  have hnp := hc.winNum hw
  cases hmg : c.merged
  · -- format 5
    have hfmt : c.format = 5 := by
      rw [fmt_cases, if_pos hpos, if_neg (by omega), hmg]; rfl
    have hsize : c.size = 32 + 4 * cw.length + 4 * ([] : List Nat).length := by
      unfold CS.size; rw [hfmt, hcl, hsl]; simp [preInts]; omega
    obtain ⟨m, e, l, r1, _, r2⟩ := image_ok (a := []) (b := cw) (N := c.size) (H := 32)
      (hdr := first8 5 c.lgK c.fiCol c.seedHash ++ [u32 5 fNum c.num, u32 5 fWLen c.cwLen,
        f64 5 fKxp (fbits c.kxp), f64 5 fHip (fbits c.hip)])
      (by simp [first8, u32, f64, hiOff, hiFieldOffset, fNum, fWLen, fKxp, fHip])
      (by simp [first8, u32, f64, hiOff, hiFieldOffset, fNum, fWLen, fKxp, fHip, span, Disj]) hsize
    rw [hsize] at l
    have hd := head_spec (m := m) r1.left (by omega) (by omega) hc.lg4 hc.lg26 hc.fi
    refine ⟨m, ?_, ?_⟩
    · unfold CS.toBytes CS.fields
      rw [hfmt]
      simp only [wOffset]
      rw [if_neg (by omega), hcw]
      simp only [ok_bind, Option.getD_some]
      simpa [streamFields, preInts] using e
    · rw [import_head hd (by omega)]
      have g1 := r1.right (u32 5 fNum c.num) (by simp)
      have g2 := r1.right (u32 5 fWLen c.cwLen) (by simp)
      have g3 := r1.right (f64 5 fKxp (fbits c.kxp)) (by simp)
      have g4 := r1.right (f64 5 fHip (fbits c.hip)) (by simp)
      simp only [u32, f64] at g1 g2 g3 g4
      rw [u32_mod hn32] at g1
      rw [u32_mod (by omega)] at g2
      simp only [importBody]
      unfold getNoSV
      rw [hd.fi, ok_bind, g1, ok_bind, g2, ok_bind, getHip_spec g3 g4, ok_bind]
      have hsv : getW m 5 = .ok cw := by
        unfold getW
        rw [g2, ok_bind, hd.pre, ok_bind, if_neg (by omega), hcl]
        exact getStream_spec cw _ hww (show Reads m _ by simpa [preInts] using r2)
      unfold CS.checkSize
      rw [if_neg (by
        rw [l]
        unfold CS.size CS.format preInts newCS
        simp [hcl]
        split <;> simp [*] <;> omega), ok_bind, hsv, ok_bind]
      unfold decoded newCS
      rw [if_neg (by simp [hmg]; omega), if_neg (by simp [hmg]; omega)]
      cases c
      simp only at *
      simp [*]
  · -- format 4
    have hfmt : c.format = 4 := by
      rw [fmt_cases, if_pos hpos, if_neg (by omega), hmg]; rfl
    have hsize : c.size = 16 + 4 * cw.length + 4 * ([] : List Nat).length := by
      unfold CS.size; rw [hfmt, hcl, hsl]; simp [preInts]; omega
    obtain ⟨m, e, l, r1, _, r2⟩ := image_ok (a := []) (b := cw) (N := c.size) (H := 16)
      (hdr := first8 4 c.lgK c.fiCol c.seedHash ++ [u32 4 fNum c.num, u32 4 fWLen c.cwLen])
      (by simp [first8, u32, hiOff, hiFieldOffset, fNum, fWLen])
      (by simp [first8, u32, hiOff, hiFieldOffset, fNum, fWLen, span, Disj]) hsize
    rw [hsize] at l
    have hd := head_spec (m := m) r1.left (by omega) (by omega) hc.lg4 hc.lg26 hc.fi
    refine ⟨m, ?_, ?_⟩
    · unfold CS.toBytes CS.fields
      rw [hfmt]
      simp only [wOffset]
      rw [if_neg (by omega), hcw]
      simp only [ok_bind, Option.getD_some]
      simpa [streamFields, preInts] using e
    · rw [import_head hd (by omega)]
      have g1 := r1.right (u32 4 fNum c.num) (by simp)
      have g2 := r1.right (u32 4 fWLen c.cwLen) (by simp)
      simp only [u32] at g1 g2
      rw [u32_mod hn32] at g1
      rw [u32_mod (by omega)] at g2
      simp only [importBody]
      unfold getNoSV
      rw [hd.fi, ok_bind, g1, ok_bind, g2, ok_bind, ok_bind]
      have hsv : getW m 4 = .ok cw := by
        unfold getW
        rw [g2, ok_bind, hd.pre, ok_bind, if_neg (by omega), hcl]
        exact getStream_spec cw _ hww (show Reads m _ by simpa [preInts] using r2)
      unfold CS.checkSize
      rw [if_neg (by
        rw [l]
        unfold CS.size CS.format preInts newCS
        simp [hcl]
        split <;> simp [*] <;> omega), ok_bind, hsv, ok_bind]
      unfold decoded newCS
      rw [if_pos (by simp [hmg]), if_pos (by simp [hmg])]
      cases c
      simp only at *
      simp [*]

/-! ### window and surprising values -/

theorem round_full (hc : CSOk c) (h0 : 0 < c.numCsv) (hw : c.cw.isSome = true) :
    ∃ m, c.toBytes fbits = .ok m ∧ importCS fval m = .ok (decoded fbits fval c) := by
  obtain ⟨cw, hcw⟩ := Option.isSome_iff_exists.mp hw
  obtain ⟨csv, hcsv, hspos⟩ : ∃ csv, c.csv = some csv ∧ 0 < c.csvLen := by
    rcases hc.sv with h | h
    · omega
    · obtain ⟨x, hx⟩ := Option.isSome_iff_exists.mp h.2.1
      exact ⟨x, hx, h.2.2⟩
  have hpos : 0 < c.cwLen := by
    rcases hc.win with h | h
    · rw [h.1] at hcw; cases hcw
    · exact h.2
  have hsl : c.csvLen = csv.length := by rw [hc.svLen, hcsv]; rfl
  have hcl : c.cwLen = cw.length := by rw [hc.cwLenEq, hcw]; rfl
  have hww := hc.cwWords
  rw [hcw] at hww
  simp only [Option.getD_some] at hww
  have hsw := hc.svWords
  rw [hcsv] at hsw
  simp only [Option.getD_some] at hsw
  have hn32 := hc.num
  have hc32 := hc.numCsvLt
  have hlt := hc.cwLt
  have hslt := hc.svLt
  have hnp := hc.winNum hw
  cases hmg : c.merged
  · -- format 7
    have hfmt : c.format = 7 := by
      rw [fmt_cases, if_pos hpos, if_pos h0, hmg]; rfl
    have hsize : c.size = 40 + 4 * cw.length + 4 * csv.length := by
      unfold CS.size; rw [hfmt, hcl, hsl]; simp [preInts]; omega
    obtain ⟨m, e, l, r1, r3, r2⟩ := image_ok (a := csv) (b := cw) (N := c.size) (H := 40)
      (hdr := first8 7 c.lgK c.fiCol c.seedHash ++ [u32 7 fNum c.num, u32 7 fNumSV c.numCsv,
        f64 7 fKxp (fbits c.kxp), f64 7 fHip (fbits c.hip),
        u32 7 fSVLen c.csvLen, u32 7 fWLen c.cwLen])
      (by simp [first8, u32, f64, hiOff, hiFieldOffset, fNum, fNumSV, fSVLen, fWLen, fKxp, fHip])
      (by simp [first8, u32, f64, hiOff, hiFieldOffset, fNum, fNumSV, fSVLen, fWLen, fKxp, fHip, span, Disj]) hsize
    rw [hsize] at l
    have hd := head_spec (m := m) r1.left (by omega) (by omega) hc.lg4 hc.lg26 hc.fi
    refine ⟨m, ?_, ?_⟩
    · unfold CS.toBytes CS.fields
      rw [hfmt]
      simp only [wOffset, svOffset]
      rw [if_neg (by omega), if_neg (by omega), if_neg (by omega), hcw, hcsv]
      simp only [ok_bind, Option.getD_some]
      rw [show (preInts 7 + c.cwLen) <<< 2 = 40 + 4 * cw.length by
        rw [Nat.shiftLeft_eq, hcl]; simp [preInts]; omega]
      exact e
    · rw [import_head hd (by omega)]
      have g1 := r1.right (u32 7 fNum c.num) (by simp)
      have g2 := r1.right (u32 7 fWLen c.cwLen) (by simp)
      have g3 := r1.right (f64 7 fKxp (fbits c.kxp)) (by simp)
      have g4 := r1.right (f64 7 fHip (fbits c.hip)) (by simp)
      have g5 := r1.right (u32 7 fNumSV c.numCsv) (by simp)
      have g6 := r1.right (u32 7 fSVLen c.csvLen) (by simp)
      simp only [u32, f64] at g1 g2 g3 g4 g5 g6
      rw [u32_mod hn32] at g1
      rw [u32_mod (by omega)] at g2
      rw [u32_mod hc32] at g5
      rw [u32_mod (by omega)] at g6
      simp only [importBody]
      unfold getFull
      rw [hd.fi, ok_bind, g1, ok_bind, g5, ok_bind, g6, ok_bind, g2, ok_bind, getHip_spec g3 g4, ok_bind]
      have hsv : getW m 7 = .ok cw := by
        unfold getW
        rw [g2, ok_bind, hd.pre, ok_bind, if_neg (by omega), hcl]
        exact getStream_spec cw _ hww (show Reads m _ by simpa [preInts] using r2)
      have hss : getSV m 7 = .ok csv := by
        unfold getSV
        rw [g6, ok_bind, hd.pre, ok_bind, if_pos (by omega), g2, ok_bind, if_neg (by omega), hsl,
          show (preInts 7 + c.cwLen) <<< 2 = 40 + 4 * cw.length by
            rw [Nat.shiftLeft_eq, hcl]; simp [preInts]; omega]
        exact getStream_spec csv _ hsw r3
      unfold CS.checkSize
      rw [if_neg (by
        rw [l]
        unfold CS.size
        rw [fmt_cases]
        simp only [if_pos h0, if_pos hpos]
        simp [preInts, hcl, hsl]
        omega), ok_bind, hsv, ok_bind, hss, ok_bind]
      unfold decoded newCS
      rw [if_neg (by simp [hmg]; omega), if_neg (by simp [hmg]; omega)]
      cases c
      simp only at *
      simp [*]
  · -- format 6
    have hfmt : c.format = 6 := by
      rw [fmt_cases, if_pos hpos, if_pos h0, hmg]; rfl
    have hsize : c.size = 24 + 4 * cw.length + 4 * csv.length := by
      unfold CS.size; rw [hfmt, hcl, hsl]; simp [preInts]; omega
    obtain ⟨m, e, l, r1, r3, r2⟩ := image_ok (a := csv) (b := cw) (N := c.size) (H := 24)
      (hdr := first8 6 c.lgK c.fiCol c.seedHash ++ [u32 6 fNum c.num, u32 6 fNumSV c.numCsv,
        u32 6 fSVLen c.csvLen, u32 6 fWLen c.cwLen])
      (by simp [first8, u32, hiOff, hiFieldOffset, fNum, fNumSV, fSVLen, fWLen])
      (by simp [first8, u32, hiOff, hiFieldOffset, fNum, fNumSV, fSVLen, fWLen, span, Disj]) hsize
    rw [hsize] at l
    have hd := head_spec (m := m) r1.left (by omega) (by omega) hc.lg4 hc.lg26 hc.fi
    refine ⟨m, ?_, ?_⟩
    · unfold CS.toBytes CS.fields
      rw [hfmt]
      simp only [wOffset, svOffset]
      rw [if_neg (by omega), if_neg (by omega), if_neg (by omega), hcw, hcsv]
      simp only [ok_bind, Option.getD_some]
      rw [show (preInts 6 + c.cwLen) <<< 2 = 24 + 4 * cw.length by
        rw [Nat.shiftLeft_eq, hcl]; simp [preInts]; omega]
      exact e
    · rw [import_head hd (by omega)]
      have g1 := r1.right (u32 6 fNum c.num) (by simp)
      have g2 := r1.right (u32 6 fWLen c.cwLen) (by simp)
      have g5 := r1.right (u32 6 fNumSV c.numCsv) (by simp)
      have g6 := r1.right (u32 6 fSVLen c.csvLen) (by simp)
      simp only [u32] at g1 g2 g5 g6
      rw [u32_mod hn32] at g1
      rw [u32_mod (by omega)] at g2
      rw [u32_mod hc32] at g5
      rw [u32_mod (by omega)] at g6
      simp only [importBody]
      unfold getFull
      rw [hd.fi, ok_bind, g1, ok_bind, g5, ok_bind, g6, ok_bind, g2, ok_bind, ok_bind]
      have hsv : getW m 6 = .ok cw := by
        unfold getW
        rw [g2, ok_bind, hd.pre, ok_bind, if_neg (by omega), hcl]
        exact getStream_spec cw _ hww (show Reads m _ by simpa [preInts] using r2)
      have hss : getSV m 6 = .ok csv := by
        unfold getSV
        rw [g6, ok_bind, hd.pre, ok_bind, if_pos (by omega), g2, ok_bind, if_neg (by omega), hsl,
          show (preInts 6 + c.cwLen) <<< 2 = 24 + 4 * cw.length by
            rw [Nat.shiftLeft_eq, hcl]; simp [preInts]; omega]
        exact getStream_spec csv _ hsw r3
      unfold CS.checkSize
      rw [if_neg (by
        rw [l]
        unfold CS.size
        rw [fmt_cases]
        simp only [if_pos h0, if_pos hpos]
        simp [preInts, hcl, hsl]
        omega), ok_bind, hsv, ok_bind, hss, ok_bind]
      unfold decoded newCS
      rw [if_pos (by simp [hmg]), if_pos (by simp [hmg])]
      cases c
      simp only at *
      simp [*]

/-- A compressed state can be written, and what is read back is the same but for the registers of the
running estimate. -/
theorem export_import (hc : CSOk c) :
    ∃ m, c.toBytes fbits = .ok m ∧ importCS fval m = .ok (decoded fbits fval c) := by
  cases hw : c.cw.isSome
  · have hw' : c.cw = none := by simpa using hw
    by_cases h0 : c.numCsv = 0
    · exact round_empty hc h0 hw'
    · exact round_sparse hc (by omega) hw'
  · by_cases h0 : c.numCsv = 0
    · exact round_window hc h0 hw
    · exact round_full hc (by omega) hw

end Verif.Cpc
