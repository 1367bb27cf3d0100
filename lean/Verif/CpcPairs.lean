import Verif.CpcPrefix
import Verif.CpcMatrix

/-!
# Compressing and uncompressing lists of pairs and windows
-/

namespace Verif.Cpc

open Outcome

/-! ## Pairs -/

def xField (x : Nat) : Nat × Nat := (codeOf (unaryTable.getD x 0), lenOf (unaryTable.getD x 0))

/-- the column predicted -/
def predCol (prow pcol row : Nat) : Nat := if row ≠ prow then 0 else pcol

def pairFields (nbb : Nat) : Nat → Nat → List Nat → List (Nat × Nat)
  | _, _, [] => []
  | prow, pcol, rc :: ps =>
    xField (rc % 64 - predCol prow pcol (rc / 64)) ::
    (2 ^ ((rc / 64 - prow) / 2 ^ nbb), (rc / 64 - prow) / 2 ^ nbb + 1) ::
    ((rc / 64 - prow) % 2 ^ nbb, nbb) :: pairFields nbb (rc / 64) (rc % 64 + 1) ps

/-- the pairs are in strictly increasing order -/
def OkPairs : Nat → Nat → List Nat → Prop
  | _, _, [] => True
  | prow, pcol, rc :: ps =>
    (prow ≤ rc / 64 ∧ predCol prow pcol (rc / 64) ≤ rc % 64) ∧ OkPairs (rc / 64) (rc % 64 + 1) ps

theorem unary_len : unaryTable.length = 65 := by decide

theorem xField_get {x : Nat} (hx : x < 65) :
    unaryTable[x]? = some (unaryTable.getD x 0) := by
  rw [List.getD_eq_getElem?_getD, List.getElem?_eq_getElem (by rw [unary_len]; exact hx)]
  rfl

theorem xField_good {x : Nat} (hx : x < 65) :
    1 ≤ (xField x).2 ∧ (xField x).2 ≤ 12 ∧ (xField x).1 < 2 ^ (xField x).2 :=
  unaryTable_good.entry _ (List.mem_of_getElem? (xField_get hx))

theorem putPair_ok {nbb : Nat} (hn : nbb ≤ 26) {s : BW} {F : List (Nat × Nat)} {prow pcol rc : Nat}
    (h : WInv s F) (h1 : prow ≤ rc / 64) (h2 : predCol prow pcol (rc / 64) ≤ rc % 64)
    (hc : L F + (12 + ((rc / 64 - prow) / 2 ^ nbb + 1) + nbb) ≤ 32 * s.cap) :
    ∃ s', putPair nbb (s, prow, pcol) rc = .ok (s', rc / 64, rc % 64 + 1) ∧ s'.cap = s.cap ∧
      WInv s' (F ++ [xField (rc % 64 - predCol prow pcol (rc / 64)),
        (2 ^ ((rc / 64 - prow) / 2 ^ nbb), (rc / 64 - prow) / 2 ^ nbb + 1),
        ((rc / 64 - prow) % 2 ^ nbb, nbb)]) := by
  have hx : rc % 64 - predCol prow pcol (rc / 64) < 65 := by
    have := Nat.mod_lt rc (show 64 > 0 by omega); omega
  have hq := Nat.zero_le ((rc / 64 - prow) / 2 ^ nbb)
  obtain ⟨g1, g2, g3⟩ := xField_good hx
  obtain ⟨s1, e1, c1, w1⟩ := put_spec h g3 (by omega) (by omega)
  obtain ⟨s2, e2, c2, w2⟩ := putUnary_spec w1 (n := (rc / 64 - prow) / 2 ^ nbb)
    (by rw [L_append, c1]; simp only [L]; omega)
  obtain ⟨s3, e3, c3, w3⟩ := put_spec w2 (v := (rc / 64 - prow) % 2 ^ nbb) (len := nbb)
    (Nat.mod_lt _ (by positivity)) (by omega)
    (by rw [L_append, L_append, c2, c1]; simp only [L]; omega)
  refine ⟨s3, ?_, by rw [c3, c2, c1], by simpa using w3⟩
  unfold putPair
  simp only [shr6, and63]
  unfold predCol at *
  rw [if_neg (by omega), xField_get hx]
  simp only
  have e1' : BW.put s (unaryTable.getD (rc % 64 - if rc / 64 ≠ prow then 0 else pcol) 0 &&& 4095)
      (unaryTable.getD (rc % 64 - if rc / 64 ≠ prow then 0 else pcol) 0 >>> 12) = .ok s1 := e1
  rw [e1', ok_bind, Nat.shiftRight_eq_div_pow, e2, ok_bind, Nat.and_two_pow_sub_one_eq_mod, e3, ok_bind]

theorem putPair_err {nbb : Nat} {s : BW} {prow pcol rc : Nat}
    (h : ¬ (prow ≤ rc / 64 ∧ predCol prow pcol (rc / 64) ≤ rc % 64)) :
    ∃ m, putPair nbb (s, prow, pcol) rc = .err m := by
  unfold putPair
  simp only [shr6, and63]
  unfold predCol at h
  rw [if_pos (by omega)]
  exact ⟨_, rfl⟩

theorem putPairs_spec {K nbb : Nat} (hn : nbb ≤ 26) : ∀ (pairs : List Nat) {s : BW}
    {F : List (Nat × Nat)} {prow pcol : Nat}, WInv s F → (∀ p ∈ pairs, p / 64 < K) → prow < K →
    L F + (13 + nbb) * pairs.length + (K - 1 - prow) / 2 ^ nbb ≤ 32 * s.cap →
    (OkPairs prow pcol pairs ∧ ∃ s' r c, pairs.foldlM (putPair nbb) (s, prow, pcol) = .ok (s', r, c) ∧
      s'.cap = s.cap ∧ WInv s' (F ++ pairFields nbb prow pcol pairs) ∧
      L (pairFields nbb prow pcol pairs) ≤ (13 + nbb) * pairs.length + (K - 1 - prow) / 2 ^ nbb) ∨
    (¬ OkPairs prow pcol pairs ∧ ∃ m, pairs.foldlM (putPair nbb) (s, prow, pcol) = .err m) := by
  intro pairs
  induction pairs with
  | nil =>
    intro s F prow pcol h _ _ _
    exact Or.inl ⟨trivial, s, prow, pcol, rfl, rfl, by simpa [pairFields] using h, by simp [pairFields, L]⟩
  | cons rc ps ih =>
    intro s F prow pcol h hK hp hc
    have hrow : rc / 64 < K := hK rc List.mem_cons_self
    rw [List.foldlM_cons]
    by_cases hok : prow ≤ rc / 64 ∧ predCol prow pcol (rc / 64) ≤ rc % 64
    · have hsum : (rc / 64 - prow) / 2 ^ nbb + (K - 1 - rc / 64) / 2 ^ nbb ≤ (K - 1 - prow) / 2 ^ nbb := by
        refine (Nat.div_add_div_le_add_div).trans (Nat.div_le_div_right ?_)
        omega
      have hlen : (13 + nbb) * (rc :: ps).length = (13 + nbb) * ps.length + (13 + nbb) := by
        rw [List.length_cons, Nat.mul_add, Nat.mul_one]
      rw [hlen] at hc
      have hq := Nat.zero_le ((rc / 64 - prow) / 2 ^ nbb)
      have hq2 := Nat.zero_le ((K - 1 - rc / 64) / 2 ^ nbb)
      have hq3 := Nat.zero_le ((13 + nbb) * ps.length)
      obtain ⟨s1, e1, c1, w1⟩ := putPair_ok (pcol := pcol) hn h hok.1 hok.2 (by omega)
      have hx : rc % 64 - predCol prow pcol (rc / 64) < 65 := by
        have := Nat.mod_lt rc (show 64 > 0 by omega); omega
      obtain ⟨g1, g2, g3⟩ := xField_good hx
      rw [e1, ok_bind]
      have hL1 := L_append F [xField (rc % 64 - predCol prow pcol (rc / 64)),
        (2 ^ ((rc / 64 - prow) / 2 ^ nbb), (rc / 64 - prow) / 2 ^ nbb + 1),
        ((rc / 64 - prow) % 2 ^ nbb, nbb)]
      simp only [L] at hL1
      rcases ih (prow := rc / 64) (pcol := rc % 64 + 1) w1 (fun p hp => hK p (List.mem_cons_of_mem _ hp)) hrow
          (by rw [c1, hL1]; omega) with ⟨o, s2, r, c, e2, c2, w2, l2⟩ | ⟨no, m, e2⟩
      · left
        refine ⟨⟨hok, o⟩, s2, r, c, e2, by rw [c2, c1], ?_, ?_⟩
        · rw [List.append_assoc] at w2
          exact w2
        · rw [hlen]
          simp only [pairFields, L]
          omega
      · exact Or.inr ⟨fun ho => no ho.2, m, e2⟩
    · right
      obtain ⟨m, e⟩ := putPair_err (nbb := nbb) (s := s) hok
      exact ⟨fun ho => hok ho.1, m, by rw [e, err_bind]⟩

theorem compressPairs_spec {K nbb cap : Nat} (hn : nbb ≤ 26) (hK : 0 < K) {pairs : List Nat}
    (hp : ∀ p ∈ pairs, p / 64 < K)
    (hc : (13 + nbb) * pairs.length + (K - 1) / 2 ^ nbb + (10 - nbb) ≤ 32 * cap) :
    (OkPairs 0 0 pairs ∧ ∃ ws, compressPairs pairs nbb cap = .ok ws ∧ (∀ w ∈ ws, w < 2 ^ 32) ∧
      wval ws = E (pairFields nbb 0 0 pairs) ∧
      L (pairFields nbb 0 0 pairs) + (10 - nbb) ≤ 32 * ws.length ∧ ws.length ≤ cap) ∨
    (¬ OkPairs 0 0 pairs ∧ ∃ m, compressPairs pairs nbb cap = .err m) := by
  unfold compressPairs
  rcases putPairs_spec (K := K) (pcol := 0) hn pairs (WInv.init cap) hp hK
      (by simp only [L, Nat.sub_zero]; omega) with ⟨o, s, r, c, e, c1, w, l⟩ | ⟨no, m, e⟩
  · left
    rw [List.nil_append] at w
    rw [Nat.sub_zero] at l
    simp only at c1
    obtain ⟨ws, e2, h1, h2, h3, h4⟩ := finish_spec w (pad := 10 - nbb) (by omega)
      (by rw [c1]; omega)
    refine ⟨o, ws, ?_, h1, h2, h3, by rw [← c1]; exact h4⟩
    rw [e, ok_bind]
    exact e2
  · right
    exact ⟨no, m, by rw [e, err_bind]⟩

/-- A code of a table at the head of the stream. -/
theorem lookup_spec {enc : List Nat} (hg : Good enc) {s : BR} {P b e : Nat} (hI : RInv s P)
    (he : enc[b]? = some e) {r : List (Nat × Nat)}
    (hv : wval s.ws / 2 ^ P = E ((codeOf e, lenOf e) :: r)) (hP : P + 12 ≤ 32 * s.ws.length) :
    ∃ s' x, s.refill 12 = .ok s' ∧ (makeDecodingTable enc)[s'.buf &&& 0xFFF]? = some x ∧
      x &&& 0xFF = b ∧ (s'.drop (x >>> 8)).ws = s.ws ∧
      RInv (s'.drop (x >>> 8)) (P + lenOf e) ∧ wval s.ws / 2 ^ (P + lenOf e) = E r := by
  obtain ⟨g1, g2, g3⟩ := hg.entry e (List.mem_of_getElem? he)
  obtain ⟨s1, e1, w1, I1, b1⟩ := refill_spec hI (n := 12) (by omega) hP
  have hpk := peek_spec I1 b1
  rw [w1, hv, show (2 : Nat) ^ 12 - 1 = 0xFFF from rfl] at hpk
  obtain ⟨x, hx, hx1, hx2⟩ := decode_spec hg (p := s1.buf &&& 0xFFF) he
    (by rw [hpk]; exact Nat.mod_lt _ (by positivity))
    (by
      rw [hpk, Nat.mod_mod_of_dvd _ (Nat.pow_dvd_pow 2 g2), E, Nat.add_mul_mod_self_left,
        Nat.mod_eq_of_lt g3])
  refine ⟨s1, x, e1, hx, hx2, w1, ?_, E_tail hv g3⟩
  rw [hx1]
  exact drop_spec I1 (by omega)

theorem getPair_spec {nbb : Nat} (hn : nbb ≤ 26) {s : BR} {P prow pcol rc : Nat} {ps : List Nat}
    (hI : RInv s P) (h1 : prow ≤ rc / 64) (h2 : predCol prow pcol (rc / 64) ≤ rc % 64)
    (hv : wval s.ws / 2 ^ P = E (pairFields nbb prow pcol (rc :: ps)))
    (hP : P + L (pairFields nbb prow pcol (rc :: ps)) + (10 - nbb) ≤ 32 * s.ws.length) :
    ∃ s' P', getPair (makeDecodingTable unaryTable) nbb (s, prow, pcol) =
        .ok ((s', rc / 64, rc % 64 + 1), rc) ∧ s'.ws = s.ws ∧ RInv s' P' ∧
      wval s.ws / 2 ^ P' = E (pairFields nbb (rc / 64) (rc % 64 + 1) ps) ∧
      P' + L (pairFields nbb (rc / 64) (rc % 64 + 1) ps) + (10 - nbb) ≤ 32 * s.ws.length := by
  have hx : rc % 64 - predCol prow pcol (rc / 64) < 65 := by
    have := Nat.mod_lt rc (show 64 > 0 by omega); omega
  have hq := Nat.zero_le ((rc / 64 - prow) / 2 ^ nbb)
  obtain ⟨g1, g2, g3⟩ := xField_good hx
  simp only [pairFields, L] at hP
  simp only [pairFields] at hv
  obtain ⟨s1, x, e1, d1, x1, w1, I1, v1⟩ := lookup_spec unaryTable_good hI (xField_get hx) hv (by omega)
  have hl : lenOf (unaryTable.getD (rc % 64 - predCol prow pcol (rc / 64)) 0) =
    (xField (rc % 64 - predCol prow pcol (rc / 64))).2 := rfl
  rw [hl] at I1 v1
  obtain ⟨s2, e2, w2, I2⟩ := readUnary_spec I1 (by rw [w1, v1, E]) (by rw [w1]; omega)
  have v2 := E_tail v1 (Nat.pow_lt_pow_right (by omega) (by omega))
  rw [w1] at w2
  obtain ⟨s3, e3, w3, I3, b3⟩ := refill_spec I2 (n := nbb) (by omega) (by rw [w2]; omega)
  rw [w2] at w3
  have hpk := peek_spec I3 b3
  rw [w3, Nat.add_assoc _ _ 1, v2, E, Nat.add_mul_mod_self_left, Nat.mod_mod] at hpk
  have v3 := E_tail v2 (Nat.mod_lt _ (by positivity))
  have I4 := drop_spec I3 b3
  rw [Nat.add_assoc _ _ 1] at I4
  refine ⟨s3.drop nbb, _, ?_, w3, I4, v3, by omega⟩
  have hy : ((rc / 64 - prow) / 2 ^ nbb) <<< nbb ||| ((rc / 64 - prow) % 2 ^ nbb) = rc / 64 - prow := by
    rw [← Nat.shiftLeft_add_eq_or_of_lt (Nat.mod_lt _ (by positivity)), Nat.shiftLeft_eq, Nat.mul_comm]
    exact Nat.div_add_mod _ _
  unfold getPair
  simp only
  rw [e1, ok_bind]
  simp only [d1]
  rw [e2, ok_bind]
  simp only
  rw [e3, ok_bind]
  simp only [hpk, hy, x1]
  have hpc : (if rc / 64 - prow > 0 then 0 else pcol) = predCol prow pcol (rc / 64) := by
    unfold predCol
    by_cases h : rc / 64 = prow
    · rw [if_neg (by omega), if_neg (by omega)]
    · rw [if_pos (by omega), if_pos (by omega)]
  rw [hpc, show prow + (rc / 64 - prow) = rc / 64 by omega,
    show predCol prow pcol (rc / 64) + (rc % 64 - predCol prow pcol (rc / 64)) = rc % 64 by omega,
    join6 (Nat.mod_lt _ (by omega)), Nat.div_add_mod]

theorem getPairs_spec {nbb : Nat} (hn : nbb ≤ 26) : ∀ (ps : List Nat) {s : BR} {P prow pcol : Nat},
    RInv s P → OkPairs prow pcol ps → wval s.ws / 2 ^ P = E (pairFields nbb prow pcol ps) →
    P + L (pairFields nbb prow pcol ps) + (10 - nbb) ≤ 32 * s.ws.length →
    ∃ s', getPairs (makeDecodingTable unaryTable) nbb ps.length (s, prow, pcol) = .ok (s', ps) ∧
      s'.next ≤ s.ws.length := by
  intro ps
  induction ps with
  | nil => intro s P prow pcol hI _ _ _; exact ⟨s, rfl, hI.le⟩
  | cons rc ps ih =>
    intro s P prow pcol hI hok hv hP
    obtain ⟨s1, P1, e1, w1, I1, v1, l1⟩ := getPair_spec hn hI hok.1.1 hok.1.2 hv hP
    obtain ⟨s2, e2, n2⟩ := ih I1 hok.2 (by rw [w1]; exact v1) (by rw [w1]; exact l1)
    refine ⟨s2, ?_, by rw [← w1]; exact n2⟩
    rw [List.length_cons, getPairs, e1, ok_bind]
    simp only
    rw [e2, ok_bind]

/-- What was compressed is recovered. -/
theorem uncompressPairs_spec {nbb : Nat} (hn : nbb ≤ 26) {ps ws : List Nat} (hok : OkPairs 0 0 ps)
    (hw : ∀ w ∈ ws, w < 2 ^ 32) (hv : wval ws = E (pairFields nbb 0 0 ps))
    (hl : L (pairFields nbb 0 0 ps) + (10 - nbb) ≤ 32 * ws.length) :
    uncompressPairs ps.length nbb ws ws.length = .ok ps := by
  obtain ⟨s, e, h⟩ := getPairs_spec hn ps (RInv.init hw) hok (by simpa using hv) (by simpa using hl)
  unfold uncompressPairs
  rw [e, ok_bind]
  simp only
  rw [if_neg (by simp only at h; omega)]

/-! ## The order of the pairs -/

theorem okPairs_lt {prow pcol : Nat} : ∀ {ps : List Nat}, OkPairs prow pcol ps →
    ps.Pairwise (· < ·) ∧ ∀ p ∈ ps, 64 * prow + (if p / 64 = prow then pcol else 0) ≤ p := by
  intro ps
  induction ps generalizing prow pcol with
  | nil => intro _; exact ⟨List.Pairwise.nil, by simp⟩
  | cons rc ps ih =>
    intro h
    obtain ⟨⟨h1, h2⟩, h3⟩ := h
    obtain ⟨p1, p2⟩ := ih h3
    have hlt : ∀ p ∈ ps, rc < p := by
      intro p hp
      have := p2 p hp
      split at this <;> omega
    refine ⟨List.pairwise_cons.mpr ⟨hlt, p1⟩, ?_⟩
    have hrc : 64 * prow + (if rc / 64 = prow then pcol else 0) ≤ rc := by
      unfold predCol at h2
      split <;> rename_i hc
      · rw [if_neg (by omega)] at h2; omega
      · omega
    intro p hp
    rcases List.mem_cons.mp hp with rfl | hp
    · exact hrc
    · have := hlt p hp
      split at hrc <;> split <;> omega

theorem lt_okPairs {prow pcol : Nat} : ∀ {ps : List Nat}, ps.Pairwise (· < ·) →
    (∀ p ∈ ps, 64 * prow + pcol ≤ p) → pcol ≤ 64 → OkPairs prow pcol ps := by
  intro ps
  induction ps generalizing prow pcol with
  | nil => intro _ _ _; trivial
  | cons rc ps ih =>
    intro h hp hc
    rw [List.pairwise_cons] at h
    have h0 := hp rc List.mem_cons_self
    have hm := Nat.mod_lt rc (show 64 > 0 by omega)
    refine ⟨⟨by omega, ?_⟩, ih h.2 ?_ (by omega)⟩
    · unfold predCol; split <;> omega
    · intro p hp'
      have := h.1 p hp'
      omega

theorem okPairs_iff {ps : List Nat} : OkPairs 0 0 ps ↔ ps.Pairwise (· < ·) :=
  ⟨fun h => (okPairs_lt h).1, fun h => lt_okPairs h (by simp) (by omega)⟩

/-! ## Bytes -/

def byteFields (enc : List Nat) (bs : List (BitVec 8)) : List (Nat × Nat) :=
  bs.map (fun b => (codeOf (enc.getD b.toNat 0), lenOf (enc.getD b.toNat 0)))

theorem byteEntry {enc : List Nat} (h : enc.length = 256) (b : BitVec 8) :
    enc[b.toNat]? = some (enc.getD b.toNat 0) := by
  have hb := b.isLt
  rw [List.getD_eq_getElem?_getD, List.getElem?_eq_getElem (by rw [h]; omega)]
  rfl

theorem byteFields_len {enc : List Nat} (hg : Good enc) (h : enc.length = 256) (bs : List (BitVec 8)) :
    L (byteFields enc bs) ≤ 12 * bs.length := by
  induction bs with
  | nil => simp [byteFields, L]
  | cons b bs ih =>
    have := hg.entry _ (List.mem_of_getElem? (byteEntry h b))
    simp only [byteFields, List.map_cons, L, List.length_cons] at *
    omega

theorem putBytes_spec {enc : List Nat} (hg : Good enc) (h : enc.length = 256) :
    ∀ (bs : List (BitVec 8)) {s : BW} {F : List (Nat × Nat)}, WInv s F →
    L F + 12 * bs.length ≤ 32 * s.cap →
    ∃ s', bs.foldlM (putByte enc) s = .ok s' ∧ s'.cap = s.cap ∧ WInv s' (F ++ byteFields enc bs) := by
  intro bs
  induction bs with
  | nil => intro s F hw _; exact ⟨s, rfl, rfl, by simpa [byteFields] using hw⟩
  | cons b bs ih =>
    intro s F hw hc
    obtain ⟨g1, g2, g3⟩ := hg.entry _ (List.mem_of_getElem? (byteEntry h b))
    rw [List.length_cons] at hc
    obtain ⟨s1, e1, c1, w1⟩ := put_spec hw g3 (by omega) (by omega)
    obtain ⟨s2, e2, c2, w2⟩ := ih w1 (by rw [c1, L_append]; simp only [L]; omega)
    refine ⟨s2, ?_, by rw [c2, c1], by simpa [byteFields] using w2⟩
    rw [List.foldlM_cons]
    unfold putByte
    rw [byteEntry h b]
    simp only
    have e1' : s.put (enc.getD b.toNat 0 &&& 4095) (enc.getD b.toNat 0 >>> 12) = .ok s1 := e1
    rw [e1', ok_bind]
    exact e2

theorem div32_le (x : Nat) : x ≤ 32 * divBy32RoundingUp x ∧ 32 * divBy32RoundingUp x < x + 32 := by
  unfold divBy32RoundingUp
  simp only [Nat.shiftRight_eq_div_pow, Nat.shiftLeft_eq]
  split <;> omega

theorem compressBytes_spec {enc : List Nat} (hg : Good enc) (h : enc.length = 256)
    {w : List (BitVec 8)} {k : Nat} (hk : w.length = k) :
    ∃ ws, compressBytes w k enc (windowBufLen k) = .ok ws ∧ (∀ w ∈ ws, w < 2 ^ 32) ∧
      wval ws = E (byteFields enc w) ∧ L (byteFields enc w) + 11 ≤ 32 * ws.length ∧
      ws.length ≤ windowBufLen k := by
  have hcap := (div32_le (12 * k + 11)).1
  have hl := byteFields_len hg h w
  obtain ⟨s, e, c, i⟩ := putBytes_spec hg h w (WInv.init (windowBufLen k))
    (by unfold windowBufLen; simp only [L]; omega)
  rw [List.nil_append] at i
  simp only at c
  obtain ⟨ws, e2, h1, h2, h3, h4⟩ := finish_spec i (pad := 11) (by omega)
    (by rw [c]; unfold windowBufLen; omega)
  refine ⟨ws, ?_, h1, h2, h3, by rw [← c]; exact h4⟩
  unfold compressBytes
  rw [if_neg (by omega), List.take_of_length_le (by omega), e, ok_bind, e2]

theorem getBytes_spec {enc : List Nat} (hg : Good enc) (h : enc.length = 256) :
    ∀ (bs : List (BitVec 8)) {s : BR} {P : Nat}, RInv s P →
    wval s.ws / 2 ^ P = E (byteFields enc bs) →
    P + L (byteFields enc bs) + 11 ≤ 32 * s.ws.length →
    ∃ s', getBytes (makeDecodingTable enc) bs.length s = .ok (s', bs) ∧ s'.next ≤ s.ws.length := by
  intro bs
  induction bs with
  | nil => intro s P hI _ _; exact ⟨s, rfl, hI.le⟩
  | cons b bs ih =>
    intro s P hI hv hP
    have he := byteEntry h b
    obtain ⟨g1, g2, g3⟩ := hg.entry _ (List.mem_of_getElem? he)
    simp only [byteFields, List.map_cons, L] at hP
    simp only [byteFields, List.map_cons] at hv
    obtain ⟨s1, x, e1, d1, x1, w1, I1, v1⟩ := lookup_spec hg hI he hv (by omega)
    obtain ⟨s2, e2, n2⟩ := ih I1 (by rw [w1]; exact v1)
      (by rw [w1]; unfold byteFields; omega)
    rw [w1] at n2
    refine ⟨s2, ?_, n2⟩
    rw [List.length_cons, getBytes, getByte, e1, ok_bind]
    simp only [d1, ok_bind]
    rw [e2, ok_bind, x1]
    simp

theorem uncompressBytes_spec {enc : List Nat} (hg : Good enc) (h : enc.length = 256)
    {bs : List (BitVec 8)} {ws : List Nat} (hw : ∀ w ∈ ws, w < 2 ^ 32)
    (hv : wval ws = E (byteFields enc bs)) (hl : L (byteFields enc bs) + 11 ≤ 32 * ws.length) :
    uncompressBytes bs.length (makeDecodingTable enc) ws ws.length = .ok bs := by
  obtain ⟨s, e, hn⟩ := getBytes_spec hg h bs (RInv.init hw) (by simpa using hv) (by simpa using hl)
  unfold uncompressBytes
  rw [e, ok_bind]
  simp only
  rw [if_neg (by simp only at hn; omega)]

end Verif.Cpc
