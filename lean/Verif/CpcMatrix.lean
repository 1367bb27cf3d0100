import Verif.CpcDelete
import Mathlib.Data.Finset.Image

/-!
# Bit matrices, windows and surprising values

`IsMatrix K m S`: the bit matrix `m` has exactly the bits of the set of coupons `S`.
-/

namespace Verif.Cpc

open Outcome

/-! ## Words -/

theorem lowMask_bit {off c : Nat} (ho : off < 64) :
    ((1#64 <<< off) - 1#64).getLsbD c = decide (c < off) := by
  have hp : 2 ^ off < 2 ^ 64 := Nat.pow_lt_pow_right (by omega) ho
  have h1 : 1 ≤ 2 ^ off := Nat.one_le_two_pow
  have ht : ((1#64 <<< off) - 1#64).toNat = 2 ^ off - 1 := by
    have h2 : (1#64 <<< off).toNat = 2 ^ off := by
      rw [BitVec.toNat_shiftLeft]
      simp only [BitVec.toNat_ofNat, Nat.shiftLeft_eq]
      rw [show 1 % 2 ^ 64 = 1 by norm_num, Nat.one_mul, Nat.mod_eq_of_lt hp]
    rw [BitVec.toNat_sub, h2]
    simp only [BitVec.toNat_ofNat]
    rw [show 1 % 2 ^ 64 = 1 by norm_num]
    omega
  rw [BitVec.getLsbD, ht, Nat.testBit_two_pow_sub_one]

theorem single_bit {col c : Nat} (h : col < 64) :
    (1#64 <<< col).getLsbD c = decide (c = col) := by
  rw [BitVec.getLsbD_shiftLeft]
  by_cases hc : c = col
  · subst hc; simp [h]
  · simp only [hc, decide_false]
    by_cases h1 : c < col
    · simp [h1]
    · have : c - col ≠ 0 := by omega
      simp [BitVec.getLsbD_one, this]

theorem single_bit8 {col c : Nat} (h : col < 8) :
    (1#8 <<< col).getLsbD c = decide (c = col) := by
  rw [BitVec.getLsbD_shiftLeft]
  by_cases hc : c = col
  · subst hc; simp [h]
  · simp only [hc, decide_false]
    by_cases h1 : c < col
    · simp [h1]
    · have : c - col ≠ 0 := by omega
      simp [BitVec.getLsbD_one, this]

theorem ff_bit {c : Nat} : (0xFF#64).getLsbD c = decide (c < 8) := by
  have : (0xFF#64).toNat = 2 ^ 8 - 1 := by decide
  rw [BitVec.getLsbD, this, Nat.testBit_two_pow_sub_one]

theorem surprisesOf_bit {off c : Nat} (row : BitVec 64) (ho : off < 64) (hc : c < 64) :
    (surprisesOf off row).getLsbD c =
      ((row.getLsbD c && !(decide (off ≤ c) && decide (c < off + 8))) ^^ decide (c < off)) := by
  unfold surprisesOf
  rw [BitVec.getLsbD_xor, BitVec.getLsbD_and, BitVec.getLsbD_not, BitVec.getLsbD_shiftLeft, ff_bit,
    lowMask_bit ho]
  congr 2
  by_cases h1 : c < off
  · simp [h1, hc, Nat.not_le.mpr h1]
  · have h2 : (c - off < 8) ↔ c < off + 8 := by omega
    simp [h1, hc, h2, Nat.not_lt.mp h1]

theorem windowOf_bit (off : Nat) (row : BitVec 64) {j : Nat} (hj : j < 8) :
    (windowOf off row).getLsbD j = row.getLsbD (off + j) := by
  unfold windowOf
  rw [BitVec.getLsbD_setWidth, BitVec.getLsbD_ushiftRight]
  simp [hj]

theorem ctz_le (x : BitVec 64) : ctz x ≤ 64 := by
  unfold ctz
  cases h : (List.range 64).find? (fun i => x.getLsbD i) with
  | none => simp
  | some i =>
    have := List.mem_of_find?_eq_some h
    rw [List.mem_range] at this
    simp; omega

theorem ctz_below {x : BitVec 64} {c : Nat} (h : c < ctz x) : x.getLsbD c = false := by
  unfold ctz at h
  cases hf : (List.range 64).find? (fun i => x.getLsbD i) with
  | none =>
    rw [hf] at h
    rw [List.find?_eq_none] at hf
    have := hf c (List.mem_range.mpr (by simpa using h))
    simpa using this
  | some i =>
    rw [hf] at h
    simp only [Option.getD_some] at h
    rw [List.find?_range_eq_some] at hf
    simpa using hf.2.2 c h

theorem ctz_set {x : BitVec 64} (h : x ≠ 0#64) : ctz x < 64 ∧ x.getLsbD (ctz x) = true := by
  unfold ctz
  cases hf : (List.range 64).find? (fun i => x.getLsbD i) with
  | none =>
    exfalso
    rw [List.find?_eq_none] at hf
    apply h
    apply BitVec.eq_of_getLsbD_eq
    intro i hi
    have := hf i (List.mem_range.mpr hi)
    simpa using this
  | some i =>
    rw [List.find?_range_eq_some] at hf
    simp only [Option.getD_some]
    exact ⟨List.mem_range.mp hf.2.1, hf.1⟩

/-! ## Coupon numbers -/

theorem shr6 (x : Nat) : x >>> 6 = x / 64 := by rw [Nat.shiftRight_eq_div_pow]

theorem and63 (x : Nat) : x &&& 63 = x % 64 := Nat.and_two_pow_sub_one_eq_mod x 6

theorem join6 {i c : Nat} (h : c < 64) : (i <<< 6) ||| c = 64 * i + c := by
  rw [Nat.shiftLeft_eq, Nat.mul_comm, show (2 : Nat) ^ 6 = 64 by norm_num]
  exact (Nat.two_pow_add_eq_or_of_lt (i := 6) h i).symm

theorem two6 (lgK : Nat) : 2 ^ (6 + lgK) = 64 * 2 ^ lgK := by rw [pow_add]; norm_num

/-! ## Matrices as functions -/

/-- `m` has `K` rows with the bits `B row col` -/
def Rep (K : Nat) (m : List (BitVec 64)) (B : Nat → Nat → Bool) : Prop :=
  m.length = K ∧ ∀ (r : Nat) (row : BitVec 64), m[r]? = some row → ∀ c, c < 64 →
    row.getLsbD c = B r c

theorem Rep.congr {K : Nat} {m : List (BitVec 64)} {B B' : Nat → Nat → Bool} (h : Rep K m B)
    (hb : ∀ r c, r < K → c < 64 → B r c = B' r c) : Rep K m B' := by
  refine ⟨h.1, fun r row hr c hc => ?_⟩
  have hrl : r < K := by
    rw [← h.1]
    by_contra hcon
    rw [List.getElem?_eq_none (by omega)] at hr; cases hr
  rw [h.2 r row hr c hc, hb r c hrl hc]

theorem Rep.replicate (K : Nat) (v : BitVec 64) :
    Rep K (List.replicate K v) (fun _ c => v.getLsbD c) := by
  refine ⟨by simp, fun r row hr c _ => ?_⟩
  have := List.mem_of_getElem? hr
  rw [List.mem_replicate] at this
  rw [this.2]

theorem Rep.set {K : Nat} {m : List (BitVec 64)} {B B' : Nat → Nat → Bool} (h : Rep K m B) {r : Nat}
    {v : BitVec 64} (hr : ∀ c, c < 64 → v.getLsbD c = B' r c)
    (ho : ∀ q c, q ≠ r → B q c = B' q c) : Rep K (m.set r v) B' := by
  refine ⟨by rw [List.length_set]; exact h.1, fun q row hq c hc => ?_⟩
  by_cases he : r = q
  · subst he
    have hlt : r < m.length := by
      by_contra hcon
      rw [List.getElem?_eq_none (by rw [List.length_set]; omega)] at hq; cases hq
    rw [List.getElem?_set_self hlt] at hq
    simp only [Option.some.injEq] at hq
    rw [← hq]; exact hr c hc
  · rw [List.getElem?_set_ne he] at hq
    rw [h.2 q row hq c hc]
    exact ho q c (fun h => he h.symm)

theorem Rep.get {K : Nat} {m : List (BitVec 64)} {B : Nat → Nat → Bool} (h : Rep K m B) {r : Nat}
    (hr : r < K) : ∃ row, m[r]? = some row ∧ ∀ c, c < 64 → row.getLsbD c = B r c := by
  have hl : r < m.length := by rw [h.1]; exact hr
  exact ⟨m[r], List.getElem?_eq_getElem hl, h.2 r _ (List.getElem?_eq_getElem hl)⟩

/-- The window loop of `bitMatrixOfSketch`. -/
theorem orWindow_spec {K off : Nat} (ho : off ≤ 56) :
    ∀ (w : List (BitVec 8)) (i : Nat) (m : List (BitVec 64)) (B : Nat → Nat → Bool), Rep K m B →
      i + w.length = K →
      ∃ m', orWindow off m w i = .ok m' ∧ Rep K m' (fun r c => B r c ||
        (decide (i ≤ r) && decide (off ≤ c) && decide (c < off + 8) &&
          ((w[r - i]?).getD 0#8).getLsbD (c - off))) := by
  intro w
  induction w with
  | nil =>
    intro i m B h hi
    refine ⟨m, rfl, h.congr ?_⟩
    intro r c hr hc
    simp
  | cons v w ih =>
    intro i m B h hi
    simp only [List.length_cons] at hi
    obtain ⟨row, hrow, hbits⟩ := h.get (r := i) (by omega)
    unfold orWindow
    rw [hrow]
    have hset : Rep K (m.set i (row ||| (v.setWidth 64 <<< off))) (fun r c => B r c ||
        (decide (r = i) && decide (off ≤ c) && decide (c < off + 8) && v.getLsbD (c - off))) := by
      apply h.set
      · intro c hc
        rw [BitVec.getLsbD_or, hbits c hc, BitVec.getLsbD_shiftLeft, BitVec.getLsbD_setWidth]
        congr 1
        by_cases h1 : c < off
        · simp [h1, Nat.not_le.mpr h1]
        · have h2 : c - off < 64 := by omega
          by_cases h3 : c < off + 8
          · simp [h1, hc, h2, h3, Nat.not_lt.mp h1]
          · have h4 : v.getLsbD (c - off) = false := BitVec.getLsbD_of_ge v _ (by omega)
            simp [h4]
      · intro q c hq
        simp [hq]
    obtain ⟨m', h1, h2⟩ := ih (i + 1) _ _ hset (by omega)
    refine ⟨m', h1, h2.congr ?_⟩
    intro r c hr hc
    simp only [Bool.or_assoc]
    congr 1
    by_cases hri : r = i
    · subst hri
      simp
    · by_cases hlt : i + 1 ≤ r
      · obtain ⟨d, rfl⟩ := Nat.exists_eq_add_of_le hlt
        have h5 : i + 1 + d - i = d + 1 := by omega
        have h6 : i + 1 + d - (i + 1) = d := by omega
        have h7 : i ≤ i + 1 + d := by omega
        rw [h5, h6]
        simp [hri, h7]
      · have h5 : ¬ i ≤ r := by omega
        simp [hri, hlt, h5]

/-- The table loop of `bitMatrixOfSketch`. -/
theorem flip_spec {K : Nat} :
    ∀ (l : List (Option Nat)) (m : List (BitVec 64)) (B : Nat → Nat → Bool), Rep K m B →
      (∀ x, some x ∈ l → x < 64 * K) → (l.filterMap id).Nodup →
      ∃ m', l.foldlM flipPair m = .ok m' ∧
        Rep K m' (fun r c => B r c ^^ decide (some (64 * r + c) ∈ l)) := by
  intro l
  induction l with
  | nil =>
    intro m B h _ _
    exact ⟨m, rfl, h.congr (by intro r c _ _; simp)⟩
  | cons a l ih =>
    intro m B h hl hnd
    have hl' : ∀ x, some x ∈ l → x < 64 * K := fun x hx => hl x (List.mem_cons_of_mem _ hx)
    rw [List.foldlM_cons]
    cases a with
    | none =>
      obtain ⟨m', h1, h2⟩ := ih m B h hl' (by simpa using hnd)
      exact ⟨m', h1, h2.congr (by intro r c _ _; simp)⟩
    | some x =>
      have hx := hl x List.mem_cons_self
      simp only [List.filterMap_cons, id_eq, List.nodup_cons, List.mem_filterMap,
        exists_eq_right] at hnd
      obtain ⟨row, hrow, hbits⟩ := h.get (r := x / 64) (by omega)
      have hstep : flipPair m (some x) = .ok (m.set (x / 64) (row ^^^ (1#64 <<< (x % 64)))) := by
        simp only [flipPair, shr6, and63, hrow]
      rw [hstep, ok_bind]
      have hset : Rep K (m.set (x / 64) (row ^^^ (1#64 <<< (x % 64))))
          (fun r c => B r c ^^ decide (64 * r + c = x)) := by
        refine ⟨by rw [List.length_set]; exact h.1, fun q v hq c hc => ?_⟩
        by_cases he : x / 64 = q
        · subst he
          have hlt : x / 64 < m.length := by rw [h.1]; omega
          rw [List.getElem?_set_self hlt] at hq
          simp only [Option.some.injEq] at hq
          rw [← hq, BitVec.getLsbD_xor, hbits c hc, single_bit (by omega)]
          congr 1
          exact decide_eq_decide.mpr (by omega)
        · rw [List.getElem?_set_ne he] at hq
          rw [h.2 q v hq c hc]
          have : ¬ (64 * q + c = x) := by omega
          simp [this]
      obtain ⟨m', h1, h2⟩ := ih _ _ hset hl' hnd.2
      refine ⟨m', h1, h2.congr ?_⟩
      intro r c hr hc
      by_cases h3 : 64 * r + c = x
      · have h4 : ¬ (some (64 * r + c) ∈ l) := by rw [h3]; exact hnd.1
        simp [h3, hnd.1]
      · have h5 : ¬ (some (64 * r + c) = some x) := by simpa using h3
        simp only [List.mem_cons, h5, false_or, h3, decide_false, Bool.xor_false]

/-! ## Sets of coupons -/

/-- the bit matrix has exactly the bits of `S` -/
def IsMatrix (K : Nat) (m : List (BitVec 64)) (S : Finset Nat) : Prop :=
  Rep K m (fun r c => decide (64 * r + c ∈ S))

theorem IsMatrix.bit {K : Nat} {m : List (BitVec 64)} {S : Finset Nat} (h : IsMatrix K m S)
    {r : Nat} {row : BitVec 64} (hr : m[r]? = some row) {c : Nat} (hc : c < 64) :
    row.getLsbD c = decide (64 * r + c ∈ S) := h.2 r row hr c hc

/-- the window `w` at offset `off` shows the columns `off .. off+7` of `S` -/
def IsWindow (K off : Nat) (w : List (BitVec 8)) (S : Finset Nat) : Prop :=
  w.length = K ∧ ∀ (r : Nat) (b : BitVec 8), w[r]? = some b → ∀ j, j < 8 →
    b.getLsbD j = decide (64 * r + (off + j) ∈ S)

/-- the surprising values: zeros before the window, ones after it -/
def surp (K off : Nat) (S : Finset Nat) : Finset Nat :=
  (Finset.range (64 * K)).filter fun x => (x % 64 < off ∧ x ∉ S) ∨ (off + 8 ≤ x % 64 ∧ x ∈ S)

theorem mem_surp {K off x : Nat} {S : Finset Nat} :
    x ∈ surp K off S ↔ x < 64 * K ∧ ((x % 64 < off ∧ x ∉ S) ∨ (off + 8 ≤ x % 64 ∧ x ∈ S)) := by
  unfold surp; rw [Finset.mem_filter, Finset.mem_range]

theorem Core.nodup {vb lg : Nat} {slots : List (Option Nat)} {S : Finset Nat}
    (h : Core vb lg slots S) : (slots.filterMap id).Nodup := by
  have h1 := h.chain.keys_nodup
  rw [items_eq_map, List.map_map] at h1
  have h2 : (slots.filterMap id).map ((sch vb lg).key ∘ some) = slots.filterMap id := by
    conv_rhs => rw [← List.map_id (slots.filterMap id)]
    rfl
  rwa [h2] at h1

/-- The matrix put together from the window and the table. -/
theorem assemble {K off : Nat} {S T : Finset Nat} {w : List (BitVec 8)} {t : PT} {vb : Nat}
    (ho : off ≤ 56) (hvb : 2 ^ vb = 64 * K) (hw : IsWindow K off w S) (ht : PTInv t vb T)
    (hT : T = surp K off S) :
    ∃ m, (orWindow off (List.replicate K ((1#64 <<< off) - 1#64)) w 0 >>= fun m =>
        (t.slots.take (2 ^ t.lg)).foldlM flipPair m) = .ok m ∧ IsMatrix K m S := by
  have h0 := Rep.replicate K ((1#64 <<< off) - 1#64)
  obtain ⟨m1, e1, h1⟩ := orWindow_spec ho w 0 _ _ h0 (by rw [Nat.zero_add]; exact hw.1)
  rw [e1, ok_bind]
  have htake : t.slots.take (2 ^ t.lg) = t.slots := List.take_of_length_le (by rw [ht.core.len])
  rw [htake]
  obtain ⟨m2, e2, h2⟩ := flip_spec t.slots m1 _ h1
    (fun x hx => by rw [← hvb]; exact ht.core.valid x ((ht.core.mem x).mp hx)) ht.core.nodup
  refine ⟨m2, e2, h2.congr ?_⟩
  intro r c hr hc
  have hm : some (64 * r + c) ∈ t.slots ↔ 64 * r + c ∈ surp K off S := by
    rw [ht.core.mem, hT]
  have hlow : 64 * r + c < 64 * K := by omega
  have hmod : (64 * r + c) % 64 = c := by omega
  rw [lowMask_bit (by omega)]
  simp only [hm, mem_surp, hmod, hlow, true_and, Nat.zero_le, decide_true, Bool.true_and, Nat.sub_zero]
  by_cases h3 : c < off
  · have h4 : ¬ off ≤ c := by omega
    have h5 : ¬ off + 8 ≤ c := by omega
    by_cases h6 : 64 * r + c ∈ S <;> simp [h3, h4, h5, h6]
  · by_cases h4 : c < off + 8
    · have h5 : off ≤ c := by omega
      have h6 : ¬ off + 8 ≤ c := by omega
      have hlt : r < w.length := by rw [hw.1]; exact hr
      have h7 := hw.2 r _ (List.getElem?_eq_getElem hlt) (c - off) (by omega)
      rw [show off + (c - off) = c by omega] at h7
      rw [List.getElem?_eq_getElem hlt]
      simp [h3, h4, h5, h6, h7]
    · have h5 : off + 8 ≤ c := by omega
      by_cases h6 : 64 * r + c ∈ S <;> simp [h3, h4, h5, h6]

/-- The same without a window, in sparse mode. -/
theorem assemble_sparse {K : Nat} {S : Finset Nat} {t : PT} {vb : Nat}
    (hvb : 2 ^ vb = 64 * K) (ht : PTInv t vb S) :
    ∃ m, (t.slots.take (2 ^ t.lg)).foldlM flipPair
        (List.replicate K ((1#64 <<< 0) - 1#64)) = .ok m ∧ IsMatrix K m S := by
  have h0 := Rep.replicate K ((1#64 <<< 0) - 1#64)
  have htake : t.slots.take (2 ^ t.lg) = t.slots := List.take_of_length_le (by rw [ht.core.len])
  rw [htake]
  obtain ⟨m2, e2, h2⟩ := flip_spec t.slots _ _ h0
    (fun x hx => by rw [← hvb]; exact ht.core.valid x ((ht.core.mem x).mp hx)) ht.core.nodup
  refine ⟨m2, e2, h2.congr ?_⟩
  intro r c hr hc
  rw [lowMask_bit (by omega)]
  simp [ht.core.mem]

/-! ## Splitting a matrix into window and surprising values -/

/-- the coupons of the bits of `pattern` in row `i` -/
def patSet (i : Nat) (pattern : BitVec 64) : Finset Nat :=
  ((Finset.range 64).filter fun c => pattern.getLsbD c = true).image fun c => 64 * i + c

theorem mem_patSet {i x : Nat} {pattern : BitVec 64} :
    x ∈ patSet i pattern ↔ x / 64 = i ∧ pattern.getLsbD (x % 64) = true := by
  unfold patSet
  rw [Finset.mem_image]
  constructor
  · rintro ⟨c, hc, rfl⟩
    rw [Finset.mem_filter, Finset.mem_range] at hc
    refine ⟨by omega, ?_⟩
    rw [show (64 * i + c) % 64 = c by omega]
    exact hc.2
  · rintro ⟨h1, h2⟩
    refine ⟨x % 64, ?_, by omega⟩
    rw [Finset.mem_filter, Finset.mem_range]
    exact ⟨by omega, h2⟩

theorem patSet_clear {i : Nat} {pattern : BitVec 64} (h : pattern ≠ 0#64) :
    patSet i pattern =
      insert (64 * i + ctz pattern) (patSet i (pattern ^^^ (1#64 <<< ctz pattern))) ∧
    64 * i + ctz pattern ∉ patSet i (pattern ^^^ (1#64 <<< ctz pattern)) := by
  obtain ⟨h1, h2⟩ := ctz_set h
  constructor
  · ext x
    rw [Finset.mem_insert, mem_patSet, mem_patSet, BitVec.getLsbD_xor, single_bit h1]
    constructor
    · rintro ⟨h3, h4⟩
      by_cases h5 : x % 64 = ctz pattern
      · left; omega
      · right; refine ⟨h3, ?_⟩; simp [h4, h5]
    · rintro (rfl | ⟨h3, h4⟩)
      · refine ⟨by omega, ?_⟩
        rw [show (64 * i + ctz pattern) % 64 = ctz pattern by omega]
        exact h2
      · refine ⟨h3, ?_⟩
        by_cases h5 : x % 64 = ctz pattern
        · rw [h5]; exact h2
        · simpa [h5] using h4
  · rw [mem_patSet, BitVec.getLsbD_xor, single_bit h1,
      show (64 * i + ctz pattern) % 64 = ctz pattern by omega, h2]
    simp

theorem insertPattern_spec {vb i : Nat} (hi : 64 * i + 64 ≤ 2 ^ vb) :
    ∀ (fuel : Nat) (pattern : BitVec 64) (t : PT) (T : Finset Nat), PTInv t vb T →
      (∀ x ∈ patSet i pattern, x ∉ T) → (patSet i pattern).card < fuel → Cap vb T.card →
      (Cap vb (T ∪ patSet i pattern).card ∧
        ∃ t', insertPattern i fuel pattern t = .ok (some t') ∧ PTInv t' vb (T ∪ patSet i pattern)) ∨
      (¬ Cap vb (T ∪ patSet i pattern).card ∧ ∀ r, insertPattern i fuel pattern t ≠ .ok r) := by
  intro fuel
  induction fuel with
  | zero => intro pattern t T h _ hc; omega
  | succ n ih =>
    intro pattern t T h hdis hcard hcap
    unfold insertPattern
    by_cases hp : pattern = 0#64
    · rw [if_pos hp]
      have he : patSet i pattern = ∅ := by
        rw [Finset.eq_empty_iff_forall_notMem]
        intro x hx
        rw [mem_patSet, hp] at hx
        simp at hx
      left
      rw [he, Finset.union_empty]
      exact ⟨hcap, t, rfl, h⟩
    · rw [if_neg hp]
      obtain ⟨hset, hnot⟩ := patSet_clear (i := i) hp
      obtain ⟨hlt, _⟩ := ctz_set hp
      have hx : 64 * i + ctz pattern ∉ T := hdis _ (by rw [hset]; exact Finset.mem_insert_self _ _)
      have hunion : T ∪ patSet i pattern =
          insert (64 * i + ctz pattern) T ∪ patSet i (pattern ^^^ (1#64 <<< ctz pattern)) := by
        rw [hset, Finset.union_insert, Finset.insert_union]
      have hci : (insert (64 * i + ctz pattern) T).card = T.card + 1 :=
        Finset.card_insert_of_notMem hx
      simp only []
      rw [join6 hlt, hunion]
      rcases maybeInsert_spec h hx (by omega) with ⟨hc1, t1, e1, h1⟩ | ⟨hc1, hf⟩
      · rw [e1, ok_bind]
        simp only [Bool.not_true, Bool.false_eq_true, if_false]
        apply ih _ _ _ h1
        · intro x hx2
          rw [Finset.mem_insert, not_or]
          constructor
          · rintro rfl; exact hnot hx2
          · apply hdis; rw [hset]; exact Finset.mem_insert_of_mem hx2
        · rw [hset, Finset.card_insert_of_notMem hnot] at hcard; omega
        · rw [hci]; exact hc1
      · right
        constructor
        · intro hcon
          apply hc1
          have := Finset.card_le_card (Finset.subset_union_left
            (s₁ := insert (64 * i + ctz pattern) T)
            (s₂ := patSet i (pattern ^^^ (1#64 <<< ctz pattern))))
          rw [hci] at this
          unfold Cap at *
          omega
        · intro r hr
          obtain ⟨a, ha, _⟩ := Outcome.bind_eq_ok.mp hr
          exact hf a ha

theorem patSet_card_le (i : Nat) (pattern : BitVec 64) : (patSet i pattern).card ≤ 64 := by
  unfold patSet
  refine Finset.card_image_le.trans ((Finset.card_filter_le _ _).trans ?_)
  rw [Finset.card_range]

/-- the surprising values of the rows `rows`, the first of which is row `i` -/
def rowsSurp (off : Nat) : List (BitVec 64) → Nat → Finset Nat
  | [], _ => ∅
  | row :: rows, i => patSet i (surprisesOf off row) ∪ rowsSurp off rows (i + 1)

theorem mem_rowsSurp {off x : Nat} :
    ∀ (rows : List (BitVec 64)) (i : Nat), x ∈ rowsSurp off rows i ↔
      ∃ j row, rows[j]? = some row ∧ x / 64 = i + j ∧ (surprisesOf off row).getLsbD (x % 64) = true := by
  intro rows
  induction rows with
  | nil => intro i; simp [rowsSurp]
  | cons a rows ih =>
    intro i
    rw [rowsSurp, Finset.mem_union, mem_patSet, ih]
    constructor
    · rintro (⟨h1, h2⟩ | ⟨j, row, h1, h2, h3⟩)
      · exact ⟨0, a, by simp, by omega, h2⟩
      · exact ⟨j + 1, row, by simpa using h1, by omega, h3⟩
    · rintro ⟨j, row, h1, h2, h3⟩
      cases j with
      | zero =>
        left
        simp only [List.getElem?_cons_zero, Option.some.injEq] at h1
        subst h1
        exact ⟨by omega, h3⟩
      | succ j => right; exact ⟨j, row, by simpa using h1, by omega, h3⟩

/-- `splitRows` inserts the surprising values, or fails for want of space. -/
theorem splitRows_spec {vb off : Nat} :
    ∀ (rows : List (BitVec 64)) (i : Nat) (w : List (BitVec 8)) (t : PT) (ored : BitVec 64)
      (T : Finset Nat), PTInv t vb T → (∀ x ∈ T, x < 64 * i) → 64 * (i + rows.length) ≤ 2 ^ vb →
      Cap vb T.card →
      (Cap vb (T ∪ rowsSurp off rows i).card ∧
        ∃ t' ored', splitRows off rows i w t ored =
            .ok (some (w ++ rows.map (windowOf off), t', ored')) ∧
          PTInv t' vb (T ∪ rowsSurp off rows i) ∧
          (∀ c, ored'.getLsbD c = (ored.getLsbD c || rows.any fun row => (surprisesOf off row).getLsbD c))) ∨
      (¬ Cap vb (T ∪ rowsSurp off rows i).card ∧
        ∀ r, splitRows off rows i w t ored ≠ .ok r) := by
  intro rows
  induction rows with
  | nil =>
    intro i w t ored T h _ _ hcap
    left
    rw [rowsSurp, Finset.union_empty]
    exact ⟨hcap, t, ored, by simp [splitRows], h, by simp⟩
  | cons row rows ih =>
    intro i w t ored T h hT hlen hcap
    simp only [List.length_cons] at hlen
    have hun : T ∪ rowsSurp off (row :: rows) i =
        (T ∪ patSet i (surprisesOf off row)) ∪ rowsSurp off rows (i + 1) := by
      rw [rowsSurp, Finset.union_assoc]
    rw [hun]
    unfold splitRows
    simp only []
    rcases insertPattern_spec (i := i) (by omega) 65 (surprisesOf off row) t T h
        (by
          intro x hx hxT
          have := hT x hxT
          have := (mem_patSet.mp hx).1
          omega)
        (by have := patSet_card_le i (surprisesOf off row); omega) hcap with
      ⟨hc1, t1, e1, h1⟩ | ⟨hc1, hf⟩
    · rw [e1, ok_bind]
      simp only []
      rcases ih (i + 1) (w ++ [windowOf off row]) t1 (ored ||| surprisesOf off row)
          (T ∪ patSet i (surprisesOf off row)) h1
          (by
            intro x hx
            rcases Finset.mem_union.mp hx with hx | hx
            · have := hT x hx; omega
            · have := (mem_patSet.mp hx).1; omega)
          (by omega) hc1 with ⟨hc2, t2, o2, e2, h2, hor⟩ | ⟨hc2, hf2⟩
      · left
        refine ⟨hc2, t2, o2, ?_, h2, ?_⟩
        · rw [e2]; simp
        · intro c
          rw [hor c, BitVec.getLsbD_or, List.any_cons, Bool.or_assoc]
      · right; exact ⟨hc2, hf2⟩
    · right
      constructor
      · intro hcon
        apply hc1
        have := Finset.card_le_card (Finset.subset_union_left
            (s₁ := T ∪ patSet i (surprisesOf off row)) (s₂ := rowsSurp off rows (i + 1)))
        unfold Cap at *
        omega
      · intro r hr
        obtain ⟨a, ha, _⟩ := Outcome.bind_eq_ok.mp hr
        exact hf a ha

/-- The rows of the matrix of `S` have the surprising values of `S`. -/
theorem rowsSurp_eq {K off : Nat} {m : List (BitVec 64)} {S : Finset Nat} (hm : IsMatrix K m S)
    (ho : off < 64) : rowsSurp off m 0 = surp K off S := by
  ext x
  rw [mem_rowsSurp, mem_surp]
  constructor
  · rintro ⟨j, row, h1, h2, h3⟩
    have hj : j < K := by
      rw [← hm.1]
      by_contra hcon
      rw [List.getElem?_eq_none (by omega)] at h1; cases h1
    rw [surprisesOf_bit row ho (by omega), hm.bit h1 (by omega)] at h3
    rw [show 64 * j + x % 64 = x by omega] at h3
    refine ⟨by omega, ?_⟩
    by_cases h4 : x % 64 < off
    · have h5 : ¬ off ≤ x % 64 := by omega
      left
      refine ⟨h4, ?_⟩
      intro hx
      simp [h4, h5, hx] at h3
    · right
      simp only [h4, decide_false, Bool.xor_false, Bool.and_eq_true, decide_eq_true_eq,
        Bool.not_eq_true', Bool.and_eq_false_iff, decide_eq_false_iff_not] at h3
      exact ⟨by omega, h3.1⟩
  · rintro ⟨h1, h2⟩
    have hj : x / 64 < m.length := by rw [hm.1]; omega
    refine ⟨x / 64, m[x / 64], List.getElem?_eq_getElem hj, by omega, ?_⟩
    rw [surprisesOf_bit _ ho (by omega), hm.bit (List.getElem?_eq_getElem hj) (by omega),
      show 64 * (x / 64) + x % 64 = x by omega]
    rcases h2 with ⟨h3, h4⟩ | ⟨h3, h4⟩
    · simp [h3, h4]
    · have h5 : ¬ x % 64 < off := by omega
      have h6 : ¬ x % 64 < off + 8 := by omega
      simp [h4, h5, h6]

theorem isWindow_map {K off : Nat} {m : List (BitVec 64)} {S : Finset Nat} (hm : IsMatrix K m S)
    (ho : off ≤ 56) : IsWindow K off (m.map (windowOf off)) S := by
  refine ⟨by rw [List.length_map]; exact hm.1, fun r b hb j hj => ?_⟩
  rw [List.getElem?_map, Option.map_eq_some_iff] at hb
  obtain ⟨row, hr, rfl⟩ := hb
  rw [windowOf_bit off row hj, hm.2 r row hr _ (by omega)]

/-- The first interesting column: every coupon before it is present. -/
theorem fiCol_sound {K off : Nat} {m : List (BitVec 64)} {S : Finset Nat} (hm : IsMatrix K m S)
    (ho : off < 64) {ored : BitVec 64}
    (hor : ∀ c, ored.getLsbD c = (m.any fun row => (surprisesOf off row).getLsbD c)) :
    ∀ x, x < 64 * K → x % 64 < min (ctz ored) off → x ∈ S := by
  intro x hx hc
  have h1 := ctz_below (x := ored) (c := x % 64) (by omega)
  rw [hor] at h1
  have hj : x / 64 < m.length := by rw [hm.1]; omega
  rw [List.any_eq_false] at h1
  have h2 := h1 m[x / 64] (List.getElem_mem hj)
  rw [surprisesOf_bit _ ho (by omega), hm.bit (List.getElem?_eq_getElem hj) (by omega),
    show 64 * (x / 64) + x % 64 = x by omega] at h2
  by_contra hn
  apply h2
  have : x % 64 < off := by omega
  simp [this, hn]

end Verif.Cpc
