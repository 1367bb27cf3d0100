import Verif.CpcCompress

/-!
# Compress and uncompress: the round trip
-/

namespace Verif.Cpc

open Outcome

/-- `c'` and `s0` carry what `uncompress` needs of the compressed state `c` of the sketch `s`. -/
structure Feeds (s : Sk) (c c' : CS) (s0 : Sk) : Prop where
  lgK : c'.lgK = s.lgK
  num : c'.num = s.num
  numCsv : c'.numCsv = c.numCsv
  csv : c'.csv = c.csv
  csvLen : c'.csvLen = c.csvLen
  cw : c'.cw = c.cw
  cwLen : c'.cwLen = c.cwLen
  lgK0 : s0.lgK = s.lgK
  num0 : s0.num = s.num
  off0 : s0.off = correctOffset s.lgK s.num
  fi0 : s0.fiCol = s.fiCol
  win0 : s0.win = none
  pt0 : s0.pt = none

/-- The fields that `uncompress` leaves alone. -/
structure SameHead (a b : Sk) : Prop where
  seed : a.seed = b.seed
  lgK : a.lgK = b.lgK
  num : a.num = b.num
  merged : a.merged = b.merged
  fiCol : a.fiCol = b.fiCol
  off : a.off = b.off
  kxp : a.kxp = b.kxp
  hip : a.hip = b.hip

/-- A good compressed state of the sketch `s` with the coupons `S`. -/
structure Packed (s : Sk) (S : Finset Nat) (c : CS) : Prop where
  svWords : ∀ w ∈ c.csv.getD [], w < 2 ^ 32
  cwWords : ∀ w ∈ c.cw.getD [], w < 2 ^ 32
  svLen : c.csvLen = (c.csv.getD []).length
  cwLenEq : c.cwLen = (c.cw.getD []).length
  svLt : c.csvLen < 2 ^ 31
  cwLt : c.cwLen < 2 ^ 31
  numCsvLt : c.numCsv < 2 ^ 32
  sv : (c.numCsv = 0 ∧ c.csv = none) ∨ (0 < c.numCsv ∧ c.csv.isSome = true ∧ 0 < c.csvLen)
  win : (c.cw = none ∧ c.numCsv = s.num ∧ s.fiCol = 0) ∨ (c.cw.isSome = true ∧ 0 < c.cwLen)
  back : ∀ (c' : CS) (s0 : Sk), Feeds s c c' s0 →
    ∃ s', uncompress c' s0 = .ok s' ∧ SkInv s' S ∧ SameHead s' s0

/-- The states that `compress` may return for the starting state `c0`. -/
def Over (c0 c : CS) : Prop :=
  c = { c0 with numCsv := c.numCsv, csv := c.csv, csvLen := c.csvLen, cw := c.cw, cwLen := c.cwLen }

def Blank (c0 : CS) : Prop :=
  c0.numCsv = 0 ∧ c0.csv = none ∧ c0.csvLen = 0 ∧ c0.cw = none ∧ c0.cwLen = 0

variable {s : Sk} {S : Finset Nat} {c0 : CS}

theorem card_lt {K n o : Nat} (hK : K ≤ 2 ^ 26) (ho : o ≤ 56) (h : 8 * n < (27 + 8 * o) * K) :
    n < 2 ^ 32 := by
  have : (27 + 8 * o) * K ≤ 475 * 2 ^ 26 := Nat.mul_le_mul (by omega) hK
  omega

theorem SkInv.num_lt (h : SkInv s S) : s.num < 2 ^ 32 := by
  have hK : 2 ^ s.lgK ≤ 2 ^ 26 := Nat.pow_le_pow_right (by omega) h.lg26
  rw [h.num]
  rcases h.mode with hm | ⟨t, hm⟩ | ⟨w, t, hm⟩
  · rw [hm.set]; simp
  · have := hm.few; omega
  · exact card_lt hK hm.off hm.hi

theorem cap26 {vb n : Nat} (h : Cap vb n) : n ≤ 2 ^ 26 := by
  unfold Cap at h
  have : 2 ^ min 26 vb ≤ 2 ^ 26 := Nat.pow_le_pow_right (by omega) (by omega)
  omega

/-! ### empty -/

theorem compress_empty (h : SkInv s S) (hm : EmptyM s S) (hb : Blank c0) :
    compress c0 s = .ok c0 ∧ Over c0 c0 ∧ Packed s S c0 := by
  obtain ⟨b1, b2, b3, b4, b5⟩ := hb
  have hn : s.num = 0 := by rw [h.num, hm.set]; rfl
  have hfl : flavor s.lgK s.num = .empty := by unfold flavor; rw [if_pos hn]
  refine ⟨by unfold compress; rw [hfl], rfl, ?_⟩
  refine ⟨by simp [b2], by simp [b4], by simp [b2, b3], by simp [b4, b5], by omega, by omega, by omega,
    Or.inl ⟨b1, b2⟩, Or.inl ⟨b4, by omega, hm.fi⟩, ?_⟩
  intro c' s0 f
  refine ⟨s0, ?_, ?_, ⟨rfl, rfl, rfl, rfl, rfl, rfl, rfl, rfl⟩⟩
  · unfold uncompress
    rw [show flavor s0.lgK s0.num = .empty by rw [f.lgK0, f.num0, hfl]]
  · refine ⟨by rw [f.lgK0]; exact h.lg4, by rw [f.lgK0]; exact h.lg26, by rw [f.num0]; exact h.num,
      by rw [f.lgK0]; exact h.valid, Or.inl ⟨hm.set, f.win0, ?_, by rw [f.fi0]; exact hm.fi⟩⟩
    rw [f.off0, hn]
    unfold correctOffset
    have := Nat.two_pow_pos s.lgK
    rw [if_pos (by omega)]

/-! ### sparse -/

theorem sorted_or (l : List Nat) (hn : l.Nodup) :
    (introSort l).Pairwise (· < ·) ∨ 17 < l.length := by
  by_cases h : l.length ≤ 17
  · exact Or.inl (strict_of_le (introSort_sorted h) ((introSort_perm l).nodup_iff.mpr hn))
  · exact Or.inr (by omega)

theorem compress_sparse {t : PT} (h : SkInv s S) (hm : SparseM s S t) (hb : Blank c0) :
    (∃ c, compress c0 s = .ok c ∧ Over c0 c ∧ Packed s S c) ∨
    (17 < t.num ∧ ∃ m, compress c0 s = .err m) := by
  obtain ⟨b1, b2, b3, b4, b5⟩ := hb
  have hK0 := Nat.two_pow_pos s.lgK
  have hK : 2 ^ s.lgK ≤ 2 ^ 26 := Nat.pow_le_pow_right (by omega) h.lg26
  have hfl : flavor s.lgK s.num = .sparse := by
    have := hm.ne; have := hm.few; have := h.num
    unfold flavor; rw [if_neg (by omega), if_pos (by omega)]
  obtain ⟨ps, e1, hl⟩ := unwrap_spec hm.inv
  have hl2 := hl.perm (introSort_perm ps)
  have hcs : compress c0 s = compressSV c0 s (introSort ps) := by
    unfold compress
    rw [hfl]
    simp only
    unfold compressSparse ptOf
    rw [hm.win, hm.pt, if_neg (by simp)]
    simp only [ok_bind]
    rw [e1, ok_bind]
  rw [hcs]
  have hcap := hm.inv.cap
  rcases compressSV_spec (c := c0) (s := s) (pairs := introSort ps) h.lg26 (by rw [hl2.len]; exact hm.ne)
      (by rw [hl2.len]; exact cap26 hcap) (fun p hp => h.valid p (hl2.mem.mp hp)) with
    ⟨_, ws, e2, hw⟩ | ⟨no, m, e2⟩
  · left
    refine ⟨_, e2, rfl, ?_⟩
    refine ⟨by simpa using hw.words, by simp [b4], by simp, by simp [b4, b5], hw.lt, by simp [b5],
      ?_, Or.inr ⟨?_, rfl, hw.pos⟩, Or.inl ⟨b4, ?_, hm.fi⟩, ?_⟩
    · have := cap26 hcap
      simp only [hl2.len]; omega
    · have := hm.ne
      simp only [hl2.len]; omega
    · simp only [hl2.len, h.num]
    · intro c' s0 f
      obtain ⟨t', e3, i3⟩ := ptOfPairs_spec (lgK := s.lgK) hl2
        (by rw [two6]; exact h.valid) hcap
      refine ⟨{ s0 with pt := some t' }, ?_, ?_, ⟨rfl, rfl, rfl, rfl, rfl, rfl, rfl, rfl⟩⟩
      · unfold uncompress
        rw [show flavor s0.lgK s0.num = .sparse by rw [f.lgK0, f.num0, hfl]]
        simp only
        unfold uncompressSparse
        rw [f.cw, if_neg (by simp [b4]), f.csv, if_neg (by simp),
          hw.back c' f.lgK f.numCsv f.csv f.csvLen, ok_bind, f.lgK, e3, ok_bind]
      · refine ⟨by simp only [f.lgK0]; exact h.lg4, by simp only [f.lgK0]; exact h.lg26,
          by simp only [f.num0]; exact h.num, by simp only [f.lgK0]; exact h.valid,
          Or.inr (Or.inl ⟨t', hm.ne, by simp only [f.lgK0]; exact hm.few, f.win0, ?_, by simp only [f.fi0]; exact hm.fi, rfl,
            by simp only [f.lgK0]; exact i3⟩)⟩
        simp only [f.off0]
        unfold correctOffset
        have := hm.few
        have := h.num
        rw [if_pos (by omega)]
  · right
    refine ⟨?_, m, e2⟩
    rcases sorted_or ps hl.nodup with hs | hs
    · exact absurd hs no
    · rw [hm.inv.num, ← hl.len]; exact hs

/-! ### with a window -/

/-- the sketch put together again -/
theorem win_back {s0 : Sk} {w : List (BitVec 8)} {t t' : PT} {w' : List (BitVec 8)} {c c' : CS}
    (h : SkInv s S) (hm : WinM s S w t) (f : Feeds s c c' s0)
    (hw : IsWindow (2 ^ s.lgK) s.off w' S) (ht : PTInv t' (6 + s.lgK) (surp (2 ^ s.lgK) s.off S)) :
    SkInv { s0 with win := some w', pt := some t' } S := by
  have hoff : s0.off = s.off := by
    rw [f.off0, h.num]; exact correctOffset_eq hm.hi hm.lo
  refine ⟨by simp only [f.lgK0]; exact h.lg4, by simp only [f.lgK0]; exact h.lg26,
    by simp only [f.num0]; exact h.num, by simp only [f.lgK0]; exact h.valid, Or.inr (Or.inr ⟨w', t', ?_⟩)⟩
  refine ⟨?_, rfl, rfl, ?_, ?_, ?_, ?_, ?_, ?_, ?_⟩
  · simp only [f.lgK0]; exact hm.many
  · simp only [hoff]; exact hm.off
  · simp only [f.lgK0, hoff]; exact hw
  · simp only [f.lgK0, hoff]; exact ht
  · simp only [f.lgK0, hoff]; exact hm.hi
  · simp only [f.lgK0, hoff]; exact hm.lo
  · simp only [f.lgK0, f.fi0]; exact hm.fi
  · simp only [f.fi0, hoff]; exact hm.fiLe

theorem surp_valid {K off : Nat} {S : Finset Nat} : ∀ x ∈ surp K off S, x < 64 * K :=
  fun _ hx => (mem_surp.mp hx).1

/-- In hybrid mode the table and the window hold the whole set. -/
theorem surp_inWin {K : Nat} {S : Finset Nat} (hv : ∀ x ∈ S, x < 64 * K) :
    Disjoint (surp K 0 S) (inWin S) ∧ surp K 0 S ∪ inWin S = S := by
  constructor
  · rw [Finset.disjoint_left]
    intro x h1 h2
    rw [mem_surp] at h1
    rw [inWin, Finset.mem_filter] at h2
    omega
  · ext x
    rw [Finset.mem_union, mem_surp, inWin, Finset.mem_filter]
    constructor
    · rintro (⟨_, h | h⟩ | h)
      · omega
      · exact h.2
      · exact h.1
    · intro hx
      by_cases h8 : x % 64 < 8
      · exact Or.inr ⟨hx, h8⟩
      · exact Or.inl ⟨hv x hx, Or.inr ⟨by omega, hx⟩⟩

theorem compress_hybrid {w : List (BitVec 8)} {t : PT} (h : SkInv s S) (hm : WinM s S w t) (hb : Blank c0)
    (hfl : flavor s.lgK s.num = .hybrid) :
    (∃ c, compress c0 s = .ok c ∧ Over c0 c ∧ Packed s S c) ∨
    (17 < t.num ∧ ∃ m, compress c0 s = .err m) := by
  obtain ⟨b1, b2, b3, b4, b5⟩ := hb
  have hK0 := Nat.two_pow_pos s.lgK
  have hK : 2 ^ s.lgK ≤ 2 ^ 26 := Nat.pow_le_pow_right (by omega) h.lg26
  have h2 : 2 * s.num < 2 ^ s.lgK := by
    unfold flavor at hfl
    split at hfl; · cases hfl
    split at hfl; · cases hfl
    split at hfl
    · assumption
    · split at hfl <;> cases hfl
  have hnum := h.num
  have hcard : 0 < S.card := by have := hm.many; omega
  have hoff : s.off = 0 := by
    rcases hm.lo with h0 | h0
    · exact h0
    · exfalso
      have : 19 * 2 ^ s.lgK ≤ (19 + 8 * s.off) * 2 ^ s.lgK := Nat.mul_le_mul_right _ (by omega)
      omega
  have hwin := hm.isWin
  have hinv := hm.inv
  rw [hoff] at hwin hinv
  obtain ⟨ps, e1, hl⟩ := unwrap_spec hinv
  have hl2 := hl.perm (introSort_perm ps)
  have hwl := windowPairs_lists hwin h.valid
  obtain ⟨hdis, huni⟩ := surp_inWin h.valid
  have hsum : t.num + (inWin S).card = S.card := by
    rw [hinv.num, ← Finset.card_union_of_disjoint hdis, huni]
  have hall : Lists (mrg (introSort ps) (windowPairs 0 w)) S := by
    have hp := mrg_perm (introSort ps) (windowPairs 0 w)
    refine Lists.perm ⟨?_, ?_⟩ hp
    · refine List.nodup_append.mpr ⟨hl2.nodup, hwl.nodup, ?_⟩
      rintro x hx y hy rfl
      exact Finset.disjoint_left.mp hdis (hl2.mem.mp hx) (hwl.mem.mp hy)
    · rw [List.toFinset_append, hl2.set, hwl.set, huni]
  have htlen : (introSort ps).length = t.num := by rw [hl2.len, hinv.num]
  have hcs : compress c0 s = compressSV c0 s (mrg (introSort ps) (windowPairs 0 w)) := by
    unfold compress
    rw [hfl]
    simp only
    unfold compressHybrid ptOf
    rw [hm.pt, hm.win]
    simp only [ok_bind]
    rw [e1, ok_bind, if_neg (by omega), if_neg (by omega)]
    have ht : trickyPairs w (2 ^ s.lgK) (s.num - t.num) t.num =
        .ok (List.replicate t.num 0 ++ windowPairs 0 w) := by
      unfold trickyPairs
      rw [hwin.1, if_neg (by omega), List.take_of_length_le (by rw [hwin.1])]
      simp only
      rw [hwl.len, if_neg (by omega), if_neg (by omega)]
    rw [ht, ok_bind]
    have hlen : (List.replicate t.num 0 ++ windowPairs 0 w).length = s.num := by
      rw [List.length_append, List.length_replicate, hwl.len]; omega
    have hml := mergeLoop_spec (introSort ps) s.num 0 t.num 0 (List.replicate t.num 0 ++ windowPairs 0 w)
      (Nat.zero_le _) (by rw [hlen]; omega) (by rw [htlen]; omega) (by rw [hlen, htlen]; omega)
    rw [htlen, hlen] at hml
    rw [show t.num + (s.num - t.num) = s.num by omega, hml, ok_bind]
    simp
  rw [hcs]
  have hcap := hinv.cap
  rcases compressSV_spec (c := c0) (s := s) (pairs := mrg (introSort ps) (windowPairs 0 w)) h.lg26
      (by rw [hall.len]; exact hcard)
      (by rw [hall.len]; omega) (fun p hp => h.valid p (hall.mem.mp hp)) with
    ⟨_, ws, e2, hw⟩ | ⟨no, m, e2⟩
  · left
    refine ⟨_, e2, rfl, ?_⟩
    refine ⟨by simpa using hw.words, by simp [b4], by simp, by simp [b4, b5], hw.lt, by simp [b5],
      ?_, Or.inr ⟨?_, rfl, hw.pos⟩, Or.inl ⟨b4, ?_, ?_⟩, ?_⟩
    · simp only [hall.len]; omega
    · simp only [hall.len]; omega
    · simp only [hall.len, h.num]
    · have := hm.fiLe; omega
    · intro c' s0 f
      generalize mrg (introSort ps) (windowPairs 0 w) = all at *
      obtain ⟨w', e4, i4⟩ := split_spec (K := 2 ^ s.lgK) all _ [] ∅ (isWindow_empty _)
        (fun p hp => h.valid p (hall.mem.mp hp))
      have hwin' : IsWindow (2 ^ s.lgK) 0 w' S := by
        refine ⟨i4.1, fun r b hb j hj => ?_⟩
        rw [i4.2 r b hb j hj]
        have : (64 * r + (0 + j) ∈ ∅ ∪ (all.filter (fun p => p % 64 < 8)).toFinset) ↔
            64 * r + (0 + j) ∈ S := by
          rw [Finset.empty_union, List.mem_toFinset, List.mem_filter, hall.mem]
          have : (64 * r + (0 + j)) % 64 < 8 := by omega
          simp only [this, decide_true, and_true]
        simp only [this]
      have hfl3 : Lists (all.filter (fun p => 8 ≤ p % 64)) (surp (2 ^ s.lgK) 0 S) := by
        refine ⟨hall.nodup.filter _, ?_⟩
        ext x
        rw [List.mem_toFinset, List.mem_filter, hall.mem, mem_surp, decide_eq_true_iff]
        constructor
        · intro hx; exact ⟨h.valid x hx.1, Or.inr ⟨by omega, hx.1⟩⟩
        · rintro ⟨_, hx | hx⟩
          · omega
          · exact ⟨hx.2, by omega⟩
      obtain ⟨t', e3, i3⟩ := ptOfPairs_spec (lgK := s.lgK) hfl3
        (by rw [two6]; exact surp_valid) hcap
      have hco : correctOffset s.lgK s.num = 0 := by
        rw [h.num, correctOffset_eq hm.hi hm.lo, hoff]
      refine ⟨{ s0 with off := 0, pt := some t', win := some w' }, ?_, ?_,
        ⟨rfl, rfl, rfl, rfl, rfl, by simp only [f.off0, hco], rfl, rfl⟩⟩
      · unfold uncompress
        rw [show flavor s0.lgK s0.num = .hybrid by rw [f.lgK0, f.num0, hfl]]
        simp only
        unfold uncompressHybrid
        rw [f.cw, if_neg (by simp [b4]), f.csv, if_neg (by simp),
          hw.back c' f.lgK f.numCsv f.csv f.csvLen, ok_bind, f.lgK, f.num]
        rw [e4, ok_bind]
        simp only [List.nil_append]
        rw [if_neg (by simp [hco]), e3, ok_bind]
      · have := win_back (w' := w') (t' := t') h hm f (by rw [hoff]; exact hwin') (by rw [hoff]; exact i3)
        have h0 : s0 = { s0 with off := 0 } := by
          have := f.off0; rw [hco] at this
          rw [← this]
        rw [h0] at this
        exact this
  · right
    refine ⟨?_, m, e2⟩
    rcases sorted_or ps hl.nodup with hs | hs
    · refine absurd ?_ no
      refine strict_of_le (mrg_sorted (hs.imp (fun h => h.le)) ((windowPairs_sorted w 0).imp (fun h => h.le))) hall.nodup
    · rw [hinv.num, ← hl.len]; exact hs

theorem compress_pinned {w : List (BitVec 8)} {t : PT} (h : SkInv s S) (hm : WinM s S w t) (hb : Blank c0)
    (hfl : flavor s.lgK s.num = .pinned) :
    (∃ c, compress c0 s = .ok c ∧ Over c0 c ∧ Packed s S c) ∨
    (17 < t.num ∧ ∃ m, compress c0 s = .err m) := by
  obtain ⟨b1, b2, b3, b4, b5⟩ := hb
  have hK0 := Nat.two_pow_pos s.lgK
  have hK : 2 ^ s.lgK ≤ 2 ^ 26 := Nat.pow_le_pow_right (by omega) h.lg26
  have h2 : 8 * s.num < 27 * 2 ^ s.lgK := by
    unfold flavor at hfl
    split at hfl; · cases hfl
    split at hfl; · cases hfl
    split at hfl; · cases hfl
    split at hfl
    · assumption
    · cases hfl
  have hnum := h.num
  have hoff : s.off = 0 := by
    rcases hm.lo with h0 | h0
    · exact h0
    · by_contra hne
      have : (19 + 8 * 1) * 2 ^ s.lgK ≤ (19 + 8 * s.off) * 2 ^ s.lgK :=
        Nat.mul_le_mul_right _ (by omega)
      omega
  have hwin := hm.isWin
  have hinv := hm.inv
  rw [hoff] at hwin hinv
  obtain ⟨cws, ew, hcw⟩ := compressWindow_spec (c := c0) h.lg4 h.lg26 hm.win hwin.1
  have hcs0 : compress c0 s = (if t.num > 0 then (do
      let pairs ← t.unwrap
      let pairs ← pairs.mapM minus8
      compressSV { c0 with cw := some cws, cwLen := cws.length } s (introSort pairs))
      else .ok { c0 with cw := some cws, cwLen := cws.length }) := by
    unfold compress
    rw [hfl]
    simp only
    unfold compressPinned ptOf
    rw [ew, hm.pt]
    rfl
  rw [hcs0]
  have hcap := hinv.cap
  by_cases ht : t.num > 0
  · rw [if_pos ht]
    obtain ⟨ps, e1, hl⟩ := unwrap_spec hinv
    have hsurp : ∀ x ∈ surp (2 ^ s.lgK) 0 S, 8 ≤ x % 64 ∧ x < 64 * 2 ^ s.lgK := by
      intro x hx
      obtain ⟨g1, g2⟩ := mem_surp.mp hx
      exact ⟨by omega, g1⟩
    have hmap : ps.mapM minus8 = .ok (ps.map (· - 8)) := by
      refine mapM_ok fun x hx => ?_
      have := hsurp x (hl.mem.mp hx)
      unfold minus8
      rw [and63, if_neg (by omega)]
    have hback : ∀ x ∈ surp (2 ^ s.lgK) 0 S, plus8 (x - 8) = .ok x := by
      intro x hx
      have := hsurp x hx
      unfold plus8
      rw [and63, if_neg (by omega), show x - 8 + 8 = x by omega]
    have hnd := nodup_map (g := (· - 8)) (f := plus8) hl hback
    have hperm := introSort_perm (ps.map (· - 8))
    have hlen : (introSort (ps.map (· - 8))).length = (surp (2 ^ s.lgK) 0 S).card := by
      rw [hperm.length_eq, List.length_map, hl.len]
    rw [e1, ok_bind, hmap, ok_bind]
    rcases compressSV_spec (c := { c0 with cw := some cws, cwLen := cws.length }) (s := s)
        (pairs := introSort (ps.map (· - 8))) h.lg26
        (by rw [hlen, ← hinv.num]; exact ht) (by rw [hlen]; exact cap26 hcap)
        (fun p hp => by
          obtain ⟨x, hx, rfl⟩ := List.mem_map.mp (hperm.mem_iff.mp hp)
          have := (hsurp x (hl.mem.mp hx)).2
          omega) with
      ⟨_, ws, e2, hw⟩ | ⟨no, m, e2⟩
    · left
      refine ⟨_, e2, rfl, ?_⟩
      refine ⟨by simpa using hw.words, by simpa using hcw.words, by simp, by simp, hw.lt, hcw.lt,
        ?_, Or.inr ⟨?_, rfl, hw.pos⟩, Or.inr ⟨rfl, hcw.pos⟩, ?_⟩
      · have := cap26 hcap
        simp only [hlen]; omega
      · simp only [hlen, ← hinv.num]; exact ht
      · intro c' s0 f
        obtain ⟨rs, e5, hrs⟩ := lists_back (g := (· - 8)) (f := plus8) hl hback hperm
        obtain ⟨t', e3, i3⟩ := ptOfPairs_spec (lgK := s.lgK) hrs
          (by rw [two6]; exact surp_valid) hcap
        refine ⟨{ s0 with win := some w, pt := some t' }, ?_, ?_, ⟨rfl, rfl, rfl, rfl, rfl, rfl, rfl, rfl⟩⟩
        · unfold uncompress
          rw [show flavor s0.lgK s0.num = .pinned by rw [f.lgK0, f.num0, hfl]]
          simp only
          unfold uncompressPinned
          rw [f.cw]
          simp only
          rw [hcw.back c' f.lgK f.num f.cwLen, ok_bind, f.numCsv, if_neg (by simp only [hlen, ← hinv.num]; omega),
            f.csv, if_neg (by simp), hw.back c' f.lgK f.numCsv f.csv f.csvLen, ok_bind, e5, ok_bind,
            f.lgK, e3, ok_bind]
        · exact win_back h hm f hm.isWin (by rw [hoff]; exact i3)
    · right
      refine ⟨?_, m, e2⟩
      rcases sorted_or _ hnd with hs | hs
      · exact absurd hs no
      · rw [List.length_map, hl.len, ← hinv.num] at hs; exact hs
  · rw [if_neg ht]
    left
    refine ⟨_, rfl, rfl, ?_⟩
    refine ⟨by simp [b2], by simpa using hcw.words, by simp [b2, b3], by simp, by simp [b3], hcw.lt,
        by simp [b1], Or.inl ⟨b1, b2⟩, Or.inr ⟨rfl, hcw.pos⟩, ?_⟩
    intro c' s0 f
    obtain ⟨t', e3, i3, _⟩ := PTInv.new (lg := 2) (vb := 6 + s.lgK) (by omega) (by omega) (by omega)
    refine ⟨{ s0 with win := some w, pt := some t' }, ?_, ?_, ⟨rfl, rfl, rfl, rfl, rfl, rfl, rfl, rfl⟩⟩
    · unfold uncompress
      rw [show flavor s0.lgK s0.num = .pinned by rw [f.lgK0, f.num0, hfl]]
      simp only
      unfold uncompressPinned
      rw [f.cw]
      simp only
      rw [hcw.back c' f.lgK f.num f.cwLen, ok_bind, f.numCsv, if_pos (by simp only [b1]), f.lgK, e3, ok_bind]
    · refine win_back h hm f hm.isWin ?_
      have : surp (2 ^ s.lgK) 0 S = ∅ := by
        rw [← Finset.card_eq_zero, ← hinv.num]; omega
      rw [hoff, this]
      exact i3

theorem compress_sliding {w : List (BitVec 8)} {t : PT} (h : SkInv s S) (hm : WinM s S w t) (hb : Blank c0)
    (hfl : flavor s.lgK s.num = .sliding) :
    (∃ c, compress c0 s = .ok c ∧ Over c0 c ∧ Packed s S c) ∨
    (17 < t.num ∧ ∃ m, compress c0 s = .err m) := by
  obtain ⟨b1, b2, b3, b4, b5⟩ := hb
  have hK0 := Nat.two_pow_pos s.lgK
  have hK : 2 ^ s.lgK ≤ 2 ^ 26 := Nat.pow_le_pow_right (by omega) h.lg26
  have h2 : 27 * 2 ^ s.lgK ≤ 8 * s.num := by
    unfold flavor at hfl
    split at hfl; · cases hfl
    split at hfl; · cases hfl
    split at hfl; · cases hfl
    split at hfl
    · cases hfl
    · omega
  have hnum := h.num
  have hoff : s.off ≠ 0 := by
    intro h0
    have := hm.hi
    rw [h0] at this
    omega
  have ho56 := hm.off
  have hwin := hm.isWin
  have hinv := hm.inv
  have hco : correctOffset s.lgK s.num = s.off := by rw [h.num]; exact correctOffset_eq hm.hi hm.lo
  obtain ⟨cws, ew, hcw⟩ := compressWindow_spec (c := c0) h.lg4 h.lg26 hm.win hwin.1
  obtain ⟨ph, eph, _, hph⟩ := pseudoPhase_spec (n := s.num) h.lg4
  have hph := hph (by omega)
  obtain ⟨perm, hperm⟩ : ∃ perm, columnPerms[ph]? = some perm :=
    ⟨_, List.getElem?_eq_getElem (by rw [columnPerms_len]; exact hph)⟩
  have hcs0 : compress c0 s = (if t.num > 0 then (do
      let pairs ← t.unwrap
      let pairs ← pairs.mapM (rotate perm s.off)
      compressSV { c0 with cw := some cws, cwLen := cws.length } s (introSort pairs))
      else .ok { c0 with cw := some cws, cwLen := cws.length }) := by
    unfold compress
    rw [hfl]
    simp only
    unfold compressSliding ptOf
    rw [ew, hm.pt, eph]
    simp only [ok_bind]
    simp only [if_neg (show ¬ ph ≥ 16 by omega), hperm, if_neg (show ¬ (s.off = 0 ∨ s.off > 56) by omega)]
  rw [hcs0]
  have hcap := hinv.cap
  by_cases ht : t.num > 0
  · rw [if_pos ht]
    obtain ⟨ps, e1, hl⟩ := unwrap_spec hinv
    have hsurp : ∀ x ∈ surp (2 ^ s.lgK) s.off S, rotate perm s.off x = .ok (rot perm s.off x) ∧
        rot perm s.off x < 64 * 2 ^ s.lgK ∧
        unrotate (invPerm perm) s.off (rot perm s.off x) = .ok x := by
      intro x hx
      obtain ⟨g1, g2⟩ := mem_surp.mp hx
      exact rotate_spec hperm ho56 (by omega) g1
    have hmap : ps.mapM (rotate perm s.off) = .ok (ps.map (rot perm s.off)) :=
      mapM_ok fun x hx => (hsurp x (hl.mem.mp hx)).1
    have hback : ∀ x ∈ surp (2 ^ s.lgK) s.off S, unrotate (invPerm perm) s.off (rot perm s.off x) = .ok x :=
      fun x hx => (hsurp x hx).2.2
    have hnd := nodup_map (g := rot perm s.off) (f := unrotate (invPerm perm) s.off) hl hback
    have hpm := introSort_perm (ps.map (rot perm s.off))
    have hlen : (introSort (ps.map (rot perm s.off))).length = (surp (2 ^ s.lgK) s.off S).card := by
      rw [hpm.length_eq, List.length_map, hl.len]
    rw [e1, ok_bind, hmap, ok_bind]
    rcases compressSV_spec (c := { c0 with cw := some cws, cwLen := cws.length }) (s := s)
        (pairs := introSort (ps.map (rot perm s.off))) h.lg26
        (by rw [hlen, ← hinv.num]; exact ht) (by rw [hlen]; exact cap26 hcap)
        (fun p hp => by
          obtain ⟨x, hx, rfl⟩ := List.mem_map.mp (hpm.mem_iff.mp hp)
          exact (hsurp x (hl.mem.mp hx)).2.1) with
      ⟨_, ws, e2, hw⟩ | ⟨no, m, e2⟩
    · left
      refine ⟨_, e2, rfl, ?_⟩
      refine ⟨by simpa using hw.words, by simpa using hcw.words, by simp, by simp, hw.lt, hcw.lt,
        ?_, Or.inr ⟨?_, rfl, hw.pos⟩, Or.inr ⟨rfl, hcw.pos⟩, ?_⟩
      · have := cap26 hcap
        simp only [hlen]; omega
      · simp only [hlen, ← hinv.num]; exact ht
      · intro c' s0 f
        obtain ⟨rs, e5, hrs⟩ := lists_back (g := rot perm s.off) (f := unrotate (invPerm perm) s.off)
          hl hback hpm
        obtain ⟨t', e3, i3⟩ := ptOfPairs_spec (lgK := s.lgK) hrs
          (by rw [two6]; exact surp_valid) hcap
        refine ⟨{ s0 with win := some w, pt := some t' }, ?_, ?_, ⟨rfl, rfl, rfl, rfl, rfl, rfl, rfl, rfl⟩⟩
        · unfold uncompress
          rw [show flavor s0.lgK s0.num = .sliding by rw [f.lgK0, f.num0, hfl]]
          simp only
          unfold uncompressSliding
          rw [f.cw]
          simp only
          rw [hcw.back c' f.lgK f.num f.cwLen, ok_bind, f.numCsv, if_neg (by simp only [hlen, ← hinv.num]; omega),
            f.csv, if_neg (by simp), hw.back c' f.lgK f.numCsv f.csv f.csvLen, ok_bind, f.lgK, f.num,
            eph, ok_bind, if_neg (by omega), hperm]
          simp only
          rw [hco, if_neg (by omega), e5, ok_bind, e3, ok_bind]
        · exact win_back h hm f hm.isWin i3
    · right
      refine ⟨?_, m, e2⟩
      rcases sorted_or _ hnd with hs | hs
      · exact absurd hs no
      · rw [List.length_map, hl.len, ← hinv.num] at hs; exact hs
  · rw [if_neg ht]
    left
    refine ⟨_, rfl, rfl, ?_⟩
    refine ⟨by simp [b2], by simpa using hcw.words, by simp [b2, b3], by simp, by simp [b3], hcw.lt,
        by simp [b1], Or.inl ⟨b1, b2⟩, Or.inr ⟨rfl, hcw.pos⟩, ?_⟩
    intro c' s0 f
    obtain ⟨t', e3, i3, _⟩ := PTInv.new (lg := 2) (vb := 6 + s.lgK) (by omega) (by omega) (by omega)
    refine ⟨{ s0 with win := some w, pt := some t' }, ?_, ?_, ⟨rfl, rfl, rfl, rfl, rfl, rfl, rfl, rfl⟩⟩
    · unfold uncompress
      rw [show flavor s0.lgK s0.num = .sliding by rw [f.lgK0, f.num0, hfl]]
      simp only
      unfold uncompressSliding
      rw [f.cw]
      simp only
      rw [hcw.back c' f.lgK f.num f.cwLen, ok_bind, f.numCsv, if_pos (by simp only [b1]), f.lgK, e3, ok_bind]
    · refine win_back h hm f hm.isWin ?_
      have : surp (2 ^ s.lgK) s.off S = ∅ := by
        rw [← Finset.card_eq_zero, ← hinv.num]; omega
      rw [this]
      exact i3

/-- A sketch is compressed, or there is an error and the sketch has more than 17 surprising values. -/
theorem compress_spec (h : SkInv s S) (hb : Blank c0) :
    (∃ c, compress c0 s = .ok c ∧ Over c0 c ∧ Packed s S c) ∨
    (∃ t, s.pt = some t ∧ 17 < t.num ∧ ∃ m, compress c0 s = .err m) := by
  rcases h.mode with hm | ⟨t, hm⟩ | ⟨w, t, hm⟩
  · exact Or.inl ⟨c0, compress_empty h hm hb⟩
  · rcases compress_sparse h hm hb with hx | hx
    · exact Or.inl hx
    · exact Or.inr ⟨t, hm.pt, hx⟩
  · have hmany := hm.many
    have hnum := h.num
    have hK0 := Nat.two_pow_pos s.lgK
    have key : (∃ c, compress c0 s = .ok c ∧ Over c0 c ∧ Packed s S c) ∨
        (17 < t.num ∧ ∃ m, compress c0 s = .err m) := by
      cases hfl : flavor s.lgK s.num with
      | empty =>
        unfold flavor at hfl
        rw [if_neg (by omega), if_neg (by omega)] at hfl
        split at hfl <;> [cases hfl; (split at hfl <;> cases hfl)]
      | sparse =>
        unfold flavor at hfl
        rw [if_neg (by omega), if_neg (by omega)] at hfl
        split at hfl <;> [cases hfl; (split at hfl <;> cases hfl)]
      | hybrid => exact compress_hybrid h hm hb hfl
      | pinned => exact compress_pinned h hm hb hfl
      | sliding => exact compress_sliding h hm hb hfl
    rcases key with hx | hx
    · exact Or.inl hx
    · exact Or.inr ⟨t, hm.pt, hx⟩

end Verif.Cpc
