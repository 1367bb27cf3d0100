import Verif.CpcArrays
import Verif.CpcUpdate

/-!
# Compressing and uncompressing a sketch
-/

namespace Verif.Cpc

open Outcome

/-! ## The surprising values -/

theorem golomb_spec {K n : Nat} (hn : 0 < n) (hK : K ≤ 2 ^ 26) :
    ∃ nbb, golombBits (K + n) n = .ok nbb ∧ nbb ≤ 26 := by
  unfold golombBits
  rw [if_neg (by omega), Nat.add_sub_cancel]
  simp only
  split
  · exact ⟨0, rfl, by omega⟩
  · rename_i hq
    refine ⟨_, rfl, ?_⟩
    have h1 : 2 ^ Nat.log2 (K / n) ≤ K / n := Nat.log2_self_le hq
    have h2 : K / n ≤ K := Nat.div_le_self _ _
    exact (Nat.pow_le_pow_iff_right (by omega : 1 < 2)).mp (h1.trans (h2.trans hK))

theorem pairBufLen_spec {K n nbb : Nat} (hn : 0 < n) (hn26 : n ≤ 2 ^ 26) (hK0 : 0 < K) (hK : K ≤ 2 ^ 26)
    (hb : nbb ≤ 26) :
    ∃ cap, pairBufLen K n nbb = .ok cap ∧ cap < 2 ^ 31 ∧
      (13 + nbb) * n + (K - 1) / 2 ^ nbb + (10 - nbb) ≤ 32 * cap := by
  unfold pairBufLen
  rw [if_neg (by omega)]
  simp only
  have hd := div32_le (12 * n + (n * (1 + nbb) + K >>> nbb) + (10 - nbb))
  have h1 : (K - 1) / 2 ^ nbb ≤ K >>> nbb := by
    rw [Nat.shiftRight_eq_div_pow]; exact Nat.div_le_div_right (by omega)
  have h2 : K >>> nbb ≤ K := by rw [Nat.shiftRight_eq_div_pow]; exact Nat.div_le_self _ _
  have h3 : n * (1 + nbb) ≤ n * 27 := Nat.mul_le_mul_left _ (by omega)
  have h4 : (13 + nbb) * n = 12 * n + n * (1 + nbb) := by ring
  rw [h4]
  generalize divBy32RoundingUp (12 * n + (n * (1 + nbb) + K >>> nbb) + (10 - nbb)) = d at *
  generalize n * (1 + nbb) = m at *
  generalize (K - 1) / 2 ^ nbb = q at *
  generalize K >>> nbb = r at *
  rw [if_neg (by omega)]
  exact ⟨d, rfl, by omega, by omega⟩

/-- What the stream of surprising values has to do with the pairs. -/
structure SVOk (lgK : Nat) (ws pairs : List Nat) : Prop where
  words : ∀ w ∈ ws, w < 2 ^ 32
  pos : 0 < ws.length
  lt : ws.length < 2 ^ 31
  back : ∀ c : CS, c.lgK = lgK → c.numCsv = pairs.length → c.csv = some ws → c.csvLen = ws.length →
    uncompressSV c = .ok pairs

theorem compressSV_spec {c : CS} {s : Sk} {pairs : List Nat} (h26 : s.lgK ≤ 26)
    (hne : 0 < pairs.length) (hn26 : pairs.length ≤ 2 ^ 26) (hv : ∀ p ∈ pairs, p < 64 * 2 ^ s.lgK) :
    (pairs.Pairwise (· < ·) ∧ ∃ ws, compressSV c s pairs =
        .ok { c with numCsv := pairs.length, csv := some ws, csvLen := ws.length } ∧
      SVOk s.lgK ws pairs) ∨
    (¬ pairs.Pairwise (· < ·) ∧ ∃ m, compressSV c s pairs = .err m) := by
  have hK : 2 ^ s.lgK ≤ 2 ^ 26 := Nat.pow_le_pow_right (by omega) h26
  have hK0 := Nat.two_pow_pos s.lgK
  obtain ⟨nbb, e1, hb⟩ := golomb_spec hne hK
  obtain ⟨cap, e2, hc31, hc⟩ := pairBufLen_spec hne hn26 hK0 hK hb
  have hrow : ∀ p ∈ pairs, p / 64 < 2 ^ s.lgK := by
    intro p hp
    have := hv p hp
    omega
  unfold compressSV
  rw [if_neg (by omega), e1, ok_bind, e2, ok_bind]
  rcases compressPairs_spec hb hK0 hrow hc with ⟨o, ws, e, h1, h2, h3, h4⟩ | ⟨no, m, e⟩
  · left
    refine ⟨okPairs_iff.mp o, ws, by rw [e, ok_bind], h1, ?_, by omega, ?_⟩
    · have : 0 < L (pairFields nbb 0 0 pairs) := by
        cases pairs with
        | nil => simp at hne
        | cons p ps =>
          have := Nat.zero_le ((p / 64 - 0) / 2 ^ nbb)
          simp only [pairFields, L]; omega
      omega
    · intro c' k1 k2 k3 k4
      unfold uncompressSV
      rw [k2, if_neg (by omega), k1, e1, ok_bind, k3, k4]
      exact uncompressPairs_spec hb o h1 h2 h3
  · right
    exact ⟨fun h => no (okPairs_iff.mpr h), m, by rw [e, err_bind]⟩

/-! ## The window -/

structure WOk (lgK num : Nat) (ws : List Nat) (w : List (BitVec 8)) : Prop where
  words : ∀ w ∈ ws, w < 2 ^ 32
  pos : 0 < ws.length
  lt : ws.length < 2 ^ 31
  back : ∀ c : CS, c.lgK = lgK → c.num = num → c.cwLen = ws.length → uncompressWindow c ws = .ok w

theorem byteTables_len : byteTables.length = 22 := by decide

theorem pseudoPhase_spec {lgK n : Nat} (h4 : 4 ≤ lgK) :
    ∃ ph, pseudoPhase lgK n = .ok ph ∧ ph < 22 ∧ (2375 * 2 ^ lgK ≤ 1000 * n → ph < 16) := by
  unfold pseudoPhase
  simp only
  have hand : (n >>> (lgK - 4)) &&& 15 < 16 := by
    have : (n >>> (lgK - 4)) &&& 15 ≤ 15 := Nat.and_le_right
    omega
  split
  · rename_i hlt
    split
    · exact ⟨_, rfl, by omega, fun h => by omega⟩
    · split
      · exact ⟨_, rfl, by omega, fun h => by omega⟩
      · split
        · exact ⟨_, rfl, by omega, fun h => by omega⟩
        · split
          · exact ⟨_, rfl, by omega, fun h => by omega⟩
          · split
            · exact ⟨_, rfl, by omega, fun h => by omega⟩
            · split
              · exact ⟨_, rfl, by omega, fun h => by omega⟩
              · exact ⟨_, rfl, by omega, fun h => by omega⟩
  · rw [if_neg (by omega)]
    exact ⟨_, rfl, by omega, fun _ => hand⟩

theorem compressWindow_spec {c : CS} {s : Sk} {w : List (BitVec 8)} (h4 : 4 ≤ s.lgK) (h26 : s.lgK ≤ 26)
    (hw : s.win = some w) (hl : w.length = 2 ^ s.lgK) :
    ∃ ws, compressWindow c s = .ok { c with cw := some ws, cwLen := ws.length } ∧
      WOk s.lgK s.num ws w := by
  obtain ⟨ph, e1, hph, _⟩ := pseudoPhase_spec (n := s.num) h4
  have hK : 2 ^ s.lgK ≤ 2 ^ 26 := Nat.pow_le_pow_right (by omega) h26
  have hK0 := Nat.two_pow_pos s.lgK
  have hlt : ph < byteTables.length := by rw [byteTables_len]; exact hph
  obtain ⟨enc, henc⟩ : ∃ enc, byteTables[ph]? = some enc := ⟨_, List.getElem?_eq_getElem hlt⟩
  obtain ⟨hg, h256⟩ := byteTables_good henc
  obtain ⟨ws, e2, h1, h2, h3, h5⟩ := compressBytes_spec hg h256 hl
  refine ⟨ws, ?_, h1, ?_, ?_, ?_⟩
  · unfold compressWindow
    rw [e1, ok_bind]
    simp only [henc]
    rw [hw, Option.getD_some, e2, ok_bind]
  · omega
  · have := (div32_le (12 * 2 ^ s.lgK + 11)).2
    unfold windowBufLen at h5
    omega
  · intro c' k1 k2 k3
    unfold uncompressWindow
    rw [k1, k2, e1, ok_bind]
    simp only [henc]
    rw [k3, ← hl]
    exact uncompressBytes_spec hg h256 h1 h2 h3

/-! ## Columns -/

theorem columnPerms_check : columnPerms.all (fun perm => perm.length == 56 &&
    (List.range 56).all (fun i => decide (perm.getD i 0 < 56) &&
      ((invPerm perm)[perm.getD i 0]? == some i))) = true := by decide +kernel

theorem columnPerms_len : columnPerms.length = 16 := by decide

theorem columnPerms_spec {ph : Nat} {perm : List Nat} (h : columnPerms[ph]? = some perm) :
    perm.length = 56 ∧ ∀ i < 56, perm[i]? = some (perm.getD i 0) ∧ perm.getD i 0 < 56 ∧
      (invPerm perm)[perm.getD i 0]? = some i := by
  have := List.all_eq_true.mp columnPerms_check perm (List.mem_of_getElem? h)
  rw [Bool.and_eq_true, beq_iff_eq, List.all_eq_true] at this
  refine ⟨this.1, fun i hi => ?_⟩
  have h2 := this.2 i (List.mem_range.mpr hi)
  rw [Bool.and_eq_true, beq_iff_eq, decide_eq_true_iff] at h2
  refine ⟨?_, h2⟩
  rw [List.getD_eq_getElem?_getD, List.getElem?_eq_getElem (by omega)]
  rfl

def rot (perm : List Nat) (off p : Nat) : Nat := 64 * (p / 64) + perm.getD ((p % 64 + 56 - off) % 64) 0

theorem rotate_spec {ph off K p : Nat} {perm : List Nat} (h : columnPerms[ph]? = some perm)
    (ho : off ≤ 56) (hp : p % 64 < off ∨ off + 8 ≤ p % 64) (hv : p < 64 * K) :
    rotate perm off p = .ok (rot perm off p) ∧ rot perm off p < 64 * K ∧
      unrotate (invPerm perm) off (rot perm off p) = .ok p := by
  obtain ⟨hl, hs⟩ := columnPerms_spec h
  have hc : (p % 64 + 56 - off) % 64 < 56 := by omega
  obtain ⟨h1, h2, h3⟩ := hs _ hc
  have hcol : ((p % 64 + 56 - off) % 64 + (off + 8)) % 64 = p % 64 := by omega
  unfold rotate rot unrotate
  simp only [and63, shr6]
  generalize (p % 64 + 56 - off) % 64 = cc at *
  rw [if_neg (by omega), h1]
  simp only
  generalize perm.getD cc 0 = d at *
  have e1 : (64 * (p / 64) + d) % 64 = d := by omega
  have e2 : (64 * (p / 64) + d) / 64 = p / 64 := by omega
  refine ⟨by rw [join6 (by omega)], by omega, ?_⟩
  rw [e1, e2, h3]
  simp only
  rw [hcol, join6 (Nat.mod_lt _ (by omega))]
  congr 1
  omega

/-- What undoes a map on a list does so after a permutation. -/
theorem lists_back {ps qs : List Nat} {T : Finset Nat} {g : Nat → Nat} {f : Nat → Outcome Nat}
    (h : Lists ps T) (hf : ∀ x ∈ T, f (g x) = .ok x) (hq : qs.Perm (ps.map g)) :
    ∃ rs, qs.mapM f = .ok rs ∧ Lists rs T := by
  obtain ⟨f', hf'⟩ : ∃ f' : Nat → Nat, ∀ y ∈ qs, f y = .ok (f' y) := by
    refine ⟨fun y => match f y with | .ok x => x | _ => 0, ?_⟩
    intro y hy
    obtain ⟨x, hx, rfl⟩ := List.mem_map.mp (hq.mem_iff.mp hy)
    simp only [hf x (h.mem.mp hx)]
  refine ⟨qs.map f', mapM_ok hf', h.perm ?_⟩
  refine (hq.map f').trans ?_
  rw [List.map_map]
  have : ps.map (f' ∘ g) = ps := by
    conv_rhs => rw [← List.map_id ps]
    apply List.map_congr_left
    intro x hx
    have h1 := hf' (g x) (hq.mem_iff.mpr (List.mem_map_of_mem hx))
    rw [hf x (h.mem.mp hx)] at h1
    simp only [Outcome.ok.injEq] at h1
    simp [h1.symm]
  rw [this]

/-- A map that can be undone keeps the pairs apart. -/
theorem nodup_map {ps : List Nat} {T : Finset Nat} {g : Nat → Nat} {f : Nat → Outcome Nat}
    (h : Lists ps T) (hf : ∀ x ∈ T, f (g x) = .ok x) : (ps.map g).Nodup := by
  refine List.Nodup.map_on ?_ h.nodup
  intro x hx y hy hxy
  have h1 := hf x (h.mem.mp hx)
  rw [hxy, hf y (h.mem.mp hy)] at h1
  exact (Outcome.ok.inj h1).symm

/-! ## Splitting the pairs of a hybrid sketch -/

theorem split_spec {K : Nat} : ∀ (ps : List Nat) (w : List (BitVec 8)) (qs : List Nat) (S : Finset Nat),
    IsWindow K 0 w S → (∀ p ∈ ps, p < 64 * K) →
    ∃ w', ps.foldlM splitPair (w, qs) = .ok (w', qs ++ ps.filter (fun p => 8 ≤ p % 64)) ∧
      IsWindow K 0 w' (S ∪ (ps.filter (fun p => p % 64 < 8)).toFinset) := by
  intro ps
  induction ps with
  | nil => intro w qs S h _; exact ⟨w, by simp, by simpa using h⟩
  | cons p ps ih =>
    intro w qs S h hv
    have hp := hv p List.mem_cons_self
    have hv' : ∀ q ∈ ps, q < 64 * K := fun q hq => hv q (List.mem_cons_of_mem _ hq)
    rw [List.foldlM_cons]
    by_cases hc : p % 64 < 8
    · have hr : p / 64 < w.length := by rw [h.1]; omega
      have hwin := h.insert_in (x := p) (by omega) (by omega) (List.getElem?_eq_getElem hr)
      obtain ⟨w', e, i⟩ := ih _ qs _ hwin hv'
      refine ⟨w', ?_, ?_⟩
      · have hs : splitPair (w, qs) p = .ok (w.set (p / 64) (w[p / 64] ||| 1#8 <<< (p % 64)), qs) := by
          unfold splitPair
          simp only [shr6, and63]
          rw [if_pos hc, List.getElem?_eq_getElem hr]
        rw [hs, ok_bind]
        rw [Nat.sub_zero] at e
        rw [List.filter_cons_of_neg (by simpa using hc)]
        exact e
      · rw [List.filter_cons_of_pos (by simpa using hc), List.toFinset_cons, Finset.union_insert,
          ← Finset.insert_union]
        exact i
    · obtain ⟨w', e, i⟩ := ih w (qs ++ [p]) S h hv'
      refine ⟨w', ?_, ?_⟩
      · have hs : splitPair (w, qs) p = .ok (w, qs ++ [p]) := by
          unfold splitPair
          simp only [shr6, and63]
          rw [if_neg hc]
        rw [hs, ok_bind, List.filter_cons_of_pos (by simpa using hc)]
        rw [List.append_assoc] at e
        exact e
      · rw [List.filter_cons_of_neg (by simpa using hc)]
        exact i

theorem isWindow_empty (K : Nat) : IsWindow K 0 (List.replicate K 0#8) ∅ := by
  refine ⟨by simp, fun r b hb j _ => ?_⟩
  rw [List.getElem?_replicate] at hb
  split at hb
  · cases hb; simp
  · cases hb

end Verif.Cpc
