import Verif.HllRef

/-!
# Conversions between the array types
-/

namespace Verif.Hll

open Probe

variable {H : Type}

/-- the same registers with the KxQ accumulators recomputed -/
def Regs.resum (S : Regs H) : Regs H :=
  { S with kxq0 := (S.R.map w0).sum, kxq1 := (S.R.map w1).sum }

theorem Regs.resum_of_exact {S : Regs H} (h : S.Exact) : S.resum = S := by
  unfold Regs.resum
  rw [← h.1, ← h.2]

theorem pair_lt {s v : Nat} (hs : s < 2 ^ 26) (hv : v ≤ 63) : pair s v < 2 ^ 32 := by
  rw [pair_eq hs]; omega

theorem pair_div {s v : Nat} (hs : s < 2 ^ 26) : pair s v / 2 ^ 26 = v := by
  rw [pair_eq hs]; omega

/-- registers processed so far -/
def Part (R Q : List Nat) (i : Nat) : Prop :=
  Q.length = R.length ∧ ∀ j, Q.getD j 0 = if j < i then R.getD j 0 else 0

theorem Part.zero (R : List Nat) : Part R (List.replicate R.length 0) 0 := by
  refine ⟨by simp, fun j => ?_⟩
  rw [if_neg (by omega), List.getD_eq_getElem?_getD, List.getElem?_replicate]
  split <;> rfl

theorem Part.skip {R Q : List Nat} {i : Nat} (h : Part R Q i) (h0 : R.getD i 0 = 0) :
    Part R Q (i + 1) := by
  refine ⟨h.1, fun j => ?_⟩
  rw [h.2 j]
  by_cases hj : j < i
  · rw [if_pos hj, if_pos (by omega)]
  · rw [if_neg hj]
    by_cases hj2 : j = i
    · rw [if_pos (by omega), hj2, h0]
    · rw [if_neg (by omega)]

theorem Part.set {R Q : List Nat} {i : Nat} (h : Part R Q i) (hi : i < R.length) :
    Part R (Q.set i (R.getD i 0)) (i + 1) := by
  refine ⟨by rw [List.length_set]; exact h.1, fun j => ?_⟩
  rw [getD_set (by rw [h.1]; exact hi), h.2 j]
  by_cases hj : j = i
  · rw [if_pos hj, if_pos (by omega), hj]
  · rw [if_neg hj]
    by_cases hj2 : j < i
    · rw [if_pos hj2, if_pos (by omega)]
    · rw [if_neg hj2, if_neg (by omega)]

theorem Part.full {R Q : List Nat} (h : Part R Q R.length) : Q = R := by
  rw [← map_range_getD Q, ← map_range_getD R, h.1]
  apply List.map_congr_left
  intro j hj
  rw [h.2 j, if_pos (List.mem_range.mp hj)]

theorem Part.countP_le {R Q : List Nat} {i m : Nat} (h : Part R Q i) (hm : 0 < m) :
    Q.countP (fun v => decide (m ≤ v)) ≤ R.countP (fun v => decide (m ≤ v)) := by
  rw [← countP_range (R := Q), ← countP_range (R := R), h.1]
  apply List.countP_mono_left
  intro j _ hj
  simp only [decide_eq_true_eq] at hj ⊢
  rw [h.2 j] at hj
  split at hj
  · exact hj
  · omega

/-! ## To six and eight bits -/

theorem Rep.withNum {a : Arr H} {S : Regs H} (h : Rep a S) (ht : a.typ ≠ .hll4)
    (hr : a.rebuild = false) (x : H) (n : Int) (hn : n = S.R.count 0) :
    Rep { a with num := n, hip := x, rebuild := false } { S with hip := x } := by
  subst hn
  refine ⟨h.h4, h.h21, h.len, h.le63, rfl, h.kxq0, h.kxq1, ?_⟩
  have hnum : NumOk a S.R →
      NumOk ({ a with num := S.R.count 0, hip := x, rebuild := false } : Arr H) S.R := by
    intro n
    refine ⟨le_refl _, fun _ => ?_⟩
    rcases n.2 hr with h | h
    · exact Or.inl ⟨h.1, rfl⟩
    · exact Or.inr h
  have hb := h.body
  unfold Body at *
  cases hty : a.typ with
  | hll4 => exact absurd hty ht
  | hll6 => rw [hty] at hb; exact ⟨hb.1, hb.2.1, hb.2.2.1, hnum hb.2.2.2⟩
  | hll8 => rw [hty] at hb; exact ⟨hb.1, hnum hb.2⟩

theorem convert68_spec {F : Fl H} {a : Arr H} {S : Regs H} (h : Rep a S) {typ : Typ}
    (ht : typ ≠ .hll4) :
    ∃ a', convert68 F typ a = .ok a' ∧ Rep a' S.resum ∧ a'.lgK = a.lgK ∧ a'.typ = typ ∧
      a'.ooo = a.ooo ∧ a'.rebuild = false := by
  have hlen := h.len
  have h26 : 2 ^ a.lgK ≤ 2 ^ 26 := Nat.pow_le_pow_right (by omega) (by have := h.h21; omega)
  have hzero : (List.replicate S.R.length 0).count 0 = 2 ^ a.lgK := by simp [hlen]
  have hinit : Rep ((newArr F a.lgK typ).putOoo F a.ooo) (emptyRegs F a.lgK) := by
    have := (newArr_rep F typ h.h4 h.h21).setHip F.zero a.ooo
    unfold Arr.putOoo
    have hz : (if a.ooo = true then F.zero else (newArr F a.lgK typ).hip) = F.zero := by
      split <;> rfl
    rw [hz]
    exact this
  obtain ⟨st, h1, Q, T, p1, p2, p3, p4, p5, p6⟩ := range_fold
    (f := convStep F a) (n := 2 ^ a.lgK)
    (s0 := ((newArr F a.lgK typ).putOoo F a.ooo, (2 ^ a.lgK : Int)))
    (fun i st => ∃ (Q : List Nat) (T : Regs H), Part S.R Q i ∧ T.R = Q ∧ Rep st.1 T ∧ T.Exact ∧
      st.2 = Q.count 0 ∧ Same ((newArr F a.lgK typ).putOoo F a.ooo) st.1)
    ⟨_, emptyRegs F a.lgK, Part.zero S.R, by rw [hlen]; rfl, hinit, emptyRegs_exact F a.lgK,
      by rw [hzero]; simp, Same.refl _⟩
    (by
      rintro i ⟨t, n⟩ hi ⟨Q, T, p1, p2, p3, p4, p5, p6⟩
      have hi' : i < S.R.length := by rw [hlen]; exact hi
      unfold convStep
      rw [h.value hi, Outcome.ok_bind]
      by_cases h0 : S.R.getD i 0 = 0
      · rw [if_neg (by simpa only [ne_eq, not_not] using h0)]
        exact ⟨_, rfl, Q, T, p1.skip h0, p2, p3, p4, p5, p6⟩
      · rw [if_pos h0]
        have hv63 := h.le63 _ (getD_mem hi')
        have hs26 : i < 2 ^ 26 := by omega
        have htl : t.lgK = a.lgK := p6.1
        have htt : t.typ = typ := p6.2.1
        have hmod : pair i (S.R.getD i 0) % 2 ^ a.lgK = i :=
          pair_mod (by have := h.h21; omega) hi
        have hupd := p3.couponUpdate (F := F) (pair_lt hs26 hv63)
        simp only at hupd
        rw [htl, htt, pair_div hs26, hmod] at hupd
        have hQi : T.R.getD i 0 = 0 := by rw [p2, p1.2 i, if_neg (by omega)]
        rcases hupd with ⟨_, t', r1, r2, r3⟩ | ⟨hno, _⟩
        · rw [r1, Outcome.ok_bind]
          have hTlen : i < T.R.length := by rw [p2, p1.1]; exact hi'
          refine ⟨_, rfl, Q.set i (S.R.getD i 0), _, p1.set hi', ?_, r2, p4.step hTlen, ?_, p6.trans r3⟩
          · rw [step_of_gt (by omega)]
            simp only
            rw [p2]
          · simp only
            have := count_set (R := Q) (v := S.R.getD i 0) (by rw [← p2]; exact hTlen) 0
            rw [← p2, if_pos hQi, if_neg h0, p2] at this
            have p5' : n = Q.count 0 := p5
            omega
        · exact absurd (fun e => absurd e ht) hno)
  have hQ : Q = S.R := by rw [← hlen] at p1; exact p1.full
  subst hQ
  unfold convert68
  rw [h1, Outcome.ok_bind]
  have htt : st.1.typ = typ := p6.2.1
  refine ⟨_, rfl, ?_, p6.1, htt, p6.2.2.1, rfl⟩
  have hres : S.resum = { T with hip := a.hip } := by
    unfold Regs.resum
    rw [p4.1, p4.2, p2, h.hip]
  rw [hres]
  exact p3.withNum (by rw [htt]; exact ht) p6.2.2.2 _ _ (by rw [p5, p2])

/-! ## To four bits -/

theorem minStep_fold {a : Arr H} {S : Regs H} (h : Rep a S) :
    ∃ st, (List.range (2 ^ a.lgK)).foldlM (minStep a) (64, 0) = .ok st ∧
      st.1 = lowest S.R ∧ st.2 = S.R.count (lowest S.R) := by
  have hlen := h.len
  have hpos := Nat.two_pow_pos a.lgK
  obtain ⟨st, h1, h2, h3⟩ := range_fold (f := minStep a) (n := 2 ^ a.lgK) (s0 := (64, 0))
    (fun i st => (i = 0 → st = (64, 0)) ∧
      (0 < i → st.1 = lowest (S.R.take i) ∧ st.2 = (S.R.take i).count (lowest (S.R.take i))))
    ⟨fun _ => rfl, fun hc => absurd hc (by omega)⟩
    (by
      rintro i ⟨c, n⟩ hi ⟨p1, p2⟩
      have hi' : i < S.R.length := by rw [hlen]; exact hi
      unfold minStep
      rw [h.value hi, Outcome.ok_bind]
      have hv63 := h.le63 _ (getD_mem hi')
      have htake : S.R.take (i + 1) = S.R.take i ++ [S.R.getD i 0] := by
        rw [List.take_add_one, List.getElem?_eq_getElem hi', getD_eq hi']
        rfl
      have hlow : lowest (S.R.take (i + 1)) = min (lowest (S.R.take i)) (S.R.getD i 0) := by
        rw [htake]
        unfold lowest
        have hgen : ∀ l : List Nat, (l ++ [S.R.getD i 0]).foldr min 63 =
            min (l.foldr min 63) (S.R.getD i 0) := by
          intro l
          induction l with
          | nil => exact Nat.min_comm _ _
          | cons x l ih =>
            rw [List.cons_append, List.foldr_cons, ih, List.foldr_cons, Nat.min_assoc]
        exact hgen _
      have hcount : ∀ x, (S.R.take (i + 1)).count x =
          (S.R.take i).count x + if S.R.getD i 0 = x then 1 else 0 := by
        intro x
        rw [htake, List.count_append, List.count_singleton]
        by_cases hx : S.R.getD i 0 = x
        · simp only [hx, if_true, beq_self_eq_true]
        · rw [if_neg hx, if_neg (by simpa using hx)]
      have habs : ∀ x, x < lowest (S.R.take i) → (S.R.take i).count x = 0 := by
        intro x hx
        rw [List.count_eq_zero]
        intro hm
        have := lowest_le hm
        omega
      by_cases hi0 : i = 0
      · subst hi0
        obtain ⟨rfl, rfl⟩ : c = 64 ∧ n = 0 := by simpa using p1 rfl
        simp only
        rw [if_neg (by omega), if_pos (by omega)]
        refine ⟨_, rfl, fun hc => absurd hc (by omega), fun _ => ?_⟩
        have hl1 : lowest (S.R.take (0 + 1)) = S.R.getD 0 0 := by
          rw [hlow]
          have : lowest (S.R.take 0) = 63 := rfl
          rw [this]; omega
        refine ⟨hl1.symm, ?_⟩
        rw [hl1, hcount, if_pos rfl]
        simp
      · obtain ⟨q1, q2⟩ := p2 (by omega)
        simp only at q1 q2 ⊢
        subst q1 q2
        by_cases hgt : S.R.getD i 0 > lowest (S.R.take i)
        · rw [if_pos hgt]
          have hl1 : lowest (S.R.take (i + 1)) = lowest (S.R.take i) := by rw [hlow]; omega
          refine ⟨_, rfl, fun hc => absurd hc (by omega), fun _ => ⟨hl1.symm, ?_⟩⟩
          rw [hl1, hcount, if_neg (by omega), Nat.add_zero]
        · rw [if_neg hgt]
          by_cases hlt : S.R.getD i 0 < lowest (S.R.take i)
          · rw [if_pos hlt]
            have hl1 : lowest (S.R.take (i + 1)) = S.R.getD i 0 := by rw [hlow]; omega
            refine ⟨_, rfl, fun hc => absurd hc (by omega), fun _ => ⟨hl1.symm, ?_⟩⟩
            rw [hl1, hcount, if_pos rfl, habs _ hlt]
          · rw [if_neg hlt]
            have hl1 : lowest (S.R.take (i + 1)) = lowest (S.R.take i) := by rw [hlow]; omega
            refine ⟨_, rfl, fun hc => absurd hc (by omega), fun _ => ⟨hl1.symm, ?_⟩⟩
            rw [hl1, hcount, if_pos (by omega)])
  obtain ⟨q1, q2⟩ := h3 hpos
  rw [List.take_of_length_le (by rw [hlen])] at q1 q2
  exact ⟨st, h1, q1, q2⟩

theorem lowest_mem {R : List Nat} (h : 0 < R.length) (h63 : ∀ v ∈ R, v ≤ 63) : lowest R ∈ R := by
  induction R with
  | nil => simp at h
  | cons a R ih =>
    have hl : lowest (a :: R) = min a (lowest R) := rfl
    rw [hl]
    by_cases hR : R = []
    · subst hR
      have : lowest [] = 63 := rfl
      rw [this]
      have := h63 a (by simp)
      rw [Nat.min_eq_left this]
      simp
    · have := ih (List.length_pos_of_ne_nil hR) (fun v hv => h63 v (by simp [hv]))
      rcases Nat.le_total a (lowest R) with hle | hle
      · rw [Nat.min_eq_left hle]; simp
      · rw [Nat.min_eq_right hle]; simp [this]

/-- `convertToHll4` fails exactly when the exceptions do not fit. -/
theorem convert4_spec {F : Fl H} {a : Arr H} {S : Regs H} (h : Rep a S) :
    (Room a.lgK (S.R.countP (fun v => decide (lowest S.R + 15 ≤ v))) ∧
      ∃ a', convert4 F a = .ok a' ∧ Rep a' S.resum ∧ a'.lgK = a.lgK ∧ a'.typ = .hll4 ∧
        a'.ooo = a.ooo ∧ a'.rebuild = false) ∨
    (¬ Room a.lgK (S.R.countP (fun v => decide (lowest S.R + 15 ≤ v))) ∧
      ∃ e, convert4 F a = .err e) := by
  have hlen := h.len
  have h26 : 2 ^ a.lgK < 2 ^ 26 := Nat.pow_lt_pow_right (by omega) (by have := h.h21; omega)
  obtain ⟨st, hm1, hm2, hm3⟩ := minStep_fold h
  have hpos := Nat.two_pow_pos a.lgK
  have hcle : S.R.count (lowest S.R) < 2 ^ 26 := by
    have := List.count_le_length (a := lowest S.R) (l := S.R)
    omega
  have hlmem := lowest_mem (by omega) h.le63
  generalize hc : lowest S.R = c at *
  have hlow : ∀ v ∈ S.R, c ≤ v := fun v hv => hc ▸ lowest_le hv
  have hp : curMinAndNum a = .ok (pair (S.R.count c) c) := by
    unfold curMinAndNum
    rw [hm1, Outcome.ok_bind, hm2, hm3]
  unfold convert4
  rw [hp, Outcome.ok_bind, pairVal_pair hcle, pairLow_pair hcle]
  have hfold := range_fold_err (f := conv4Step F a c) (n := 2 ^ a.lgK)
    (s0 := (newArr F a.lgK .hll4).putOoo F a.ooo)
    (fun i t => ∃ Q, Part S.R Q i ∧ t.bytes.length = 2 ^ (a.lgK - 1) ∧ (∀ b ∈ t.bytes, b < 256) ∧
      (∀ j, j < 2 ^ a.lgK → getNibble t.bytes j =
        .ok (if j < i then min 15 (S.R.getD j 0 - c) else 0)) ∧
      AuxOpt t.aux a.lgK (excs Q c) ∧ t.kxq0 = (Q.map w0).sum ∧ t.kxq1 = (Q.map w1).sum ∧
      Same ((newArr F a.lgK .hll4).putOoo F a.ooo) t)
    (¬ Room a.lgK (S.R.countP (fun v => decide (c + 15 ≤ v))))
    (by
      refine ⟨_, Part.zero S.R, by simp [Arr.putOoo, newArr, arrBytes], ?_, ?_, ?_, ?_, ?_,
        Same.refl _⟩
      · intro b hb
        simp only [Arr.putOoo, newArr, List.mem_replicate] at hb
        omega
      · intro j hj
        rw [if_neg (by omega)]
        exact getNibble_replicate (half_lt h.h4 hj)
      · show excs _ _ = []
        apply excs_zero
        intro v hv
        have := (List.mem_replicate.mp hv).2
        omega
      · simp [Arr.putOoo, newArr, w0, hlen]
      · simp [Arr.putOoo, newArr, w1])
    (by
      rintro i t hi ⟨Q, p1, p2, p3, p4, p5, p6, p7, p8⟩
      have hi' : i < S.R.length := by rw [hlen]; exact hi
      have hiQ : i < Q.length := by rw [p1.1]; exact hi'
      have hQi : Q.getD i 0 = 0 := by rw [p1.2 i, if_neg (by omega)]
      have hv63 := h.le63 _ (getD_mem hi')
      have hcv := hlow _ (getD_mem hi')
      unfold conv4Step
      rw [h.value hi, Outcome.ok_bind]
      by_cases h0 : S.R.getD i 0 = 0
      · left
        rw [if_pos h0]
        refine ⟨_, rfl, Q, p1.skip h0, p2, p3, ?_, p5, p6, p7, p8⟩
        intro j hj
        rw [p4 j hj]
        by_cases hji : j < i
        · rw [if_pos hji, if_pos (by omega)]
        · rw [if_neg hji]
          by_cases hj2 : j = i
          · rw [if_pos (by omega), hj2, h0]; congr 1; omega
          · rw [if_neg (by omega)]
      · rw [if_neg h0, hipAndKxQ_spec (by omega) hv63, Outcome.ok_bind]
        obtain ⟨L, hL1, hL2⟩ := excs_set (R := Q) (c := c) (v := S.R.getD i 0) hiQ
        rw [hQi, if_neg (by omega), List.nil_append] at hL1
        have hs0 := sum_set (v := S.R.getD i 0) hiQ w0
        have hs1 := sum_set (v := S.R.getD i 0) hiQ w1
        rw [hQi] at hs0 hs1
        have hnibs : ∀ b' : List Nat, (∀ j, getNibble b' j = if j = i then
            .ok (min 15 (S.R.getD i 0 - c)) else getNibble t.bytes j) →
            ∀ j, j < 2 ^ a.lgK → getNibble b' j =
              .ok (if j < i + 1 then min 15 (S.R.getD j 0 - c) else 0) := by
          intro b' hb' j hj
          rw [hb' j]
          by_cases hji : j = i
          · rw [if_pos hji, if_pos (by omega), hji]
          · rw [if_neg hji, p4 j hj]
            by_cases hji2 : j < i
            · rw [if_pos hji2, if_pos (by omega)]
            · rw [if_neg hji2, if_neg (by omega)]
        simp only
        by_cases hexc : S.R.getD i 0 ≥ c + 15
        · rw [if_pos hexc]
          rw [if_pos hexc] at hL2
          obtain ⟨b', e1, e2, e3, e4⟩ := putNibble_spec (bytes := t.bytes) (j := i) (v := 15)
            (by rw [p2]; exact half_lt h.h4 hi) (by omega)
          rw [e1, Outcome.ok_bind]
          have htl : t.lgK = a.lgK := p8.1
          obtain ⟨m, hm, hinv⟩ := auxOrNew_spec h.h4 h.h21 (p5.perm hL1)
          rw [htl, hm, Outcome.ok_bind]
          have hnew : i ∉ L.map Prod.fst := by
            intro hin
            obtain ⟨⟨s, w⟩, he, hes⟩ := List.mem_map.mp hin
            have hs : s = i := hes
            subst hs
            obtain ⟨_, q2, q3⟩ := mem_excs.mp (hL1.mem_iff.mpr he)
            omega
          rcases hinv.mustAdd hi (show 0 < S.R.getD i 0 by omega) hnew with
            ⟨hr, m', hm', hinv'⟩ | ⟨hr, e, he⟩
          · left
            rw [hm', Outcome.ok_bind]
            refine ⟨_, rfl, _, p1.set hi', by rw [← p2]; exact e2, e3 p3, ?_, ?_, ?_, ?_,
              ⟨rfl, p8.2.1, p8.2.2.1, p8.2.2.2⟩⟩
            · apply hnibs
              intro j
              rw [e4 j]
              by_cases hji : j = i
              · rw [if_pos hji, if_pos hji]; congr 1; omega
              · rw [if_neg hji, if_neg hji]
            · exact hinv'.perm hL2.symm
            · simp only; rw [hs0, p6]
            · simp only; rw [hs1, p7]
          · right
            refine ⟨e, by rw [he, Outcome.err_bind], ?_⟩
            intro hroom
            apply hr
            apply hroom.mono
            have h1 := (p1.set hi').countP_le (m := c + 15) (by omega)
            rw [← length_excs, ← length_excs, hL2.length_eq] at h1
            rw [← length_excs]
            simpa using h1
        · left
          rw [if_neg hexc]
          rw [if_neg (by omega), List.nil_append] at hL2
          obtain ⟨b', e1, e2, e3, e4⟩ := putNibble_spec (bytes := t.bytes) (j := i)
            (v := S.R.getD i 0 - c) (by rw [p2]; exact half_lt h.h4 hi) (by omega)
          rw [e1, Outcome.ok_bind]
          refine ⟨_, rfl, _, p1.set hi', by rw [← p2]; exact e2, e3 p3, ?_, ?_, ?_, ?_, p8⟩
          · apply hnibs
            intro j
            rw [e4 j]
            by_cases hji : j = i
            · rw [if_pos hji, if_pos hji]; congr 1; omega
            · rw [if_neg hji, if_neg hji]
          · exact p5.perm (hL1.trans hL2.symm)
          · simp only; rw [hs0, p6]
          · simp only; rw [hs1, p7])
  rcases hfold with ⟨t, h1, Q, p1, p2, p3, p4, p5, p6, p7, p8⟩ | ⟨e, he, hq⟩
  · left
    have hQ : Q = S.R := by rw [← hlen] at p1; exact p1.full
    subst hQ
    have htl : t.lgK = a.lgK := p8.1
    have htt : t.typ = .hll4 := p8.2.1
    have hcore : Core4 ({ t with
        curMin := c
        num := ((S.R.count c : Nat) : Int)
        hip := a.hip
        rebuild := false } : Arr H) S.R := by
      refine ⟨by rw [htl]; exact h.h4, by rw [htl]; exact h.h21, by rw [htl]; exact hlen, h.le63,
        by rw [htl]; exact p2, p3, hlow, ?_, by rw [htl]; exact p5, rfl⟩
      intro j hj
      simp only at hj ⊢
      rw [htl] at hj
      rw [p4 j hj, if_pos hj]
    have hroom := hcore.room
    rw [length_excs] at hroom
    simp only at hroom
    rw [htl] at hroom
    refine ⟨hroom, ?_⟩
    rw [h1, Outcome.ok_bind]
    refine ⟨_, rfl, ⟨hcore.h4, hcore.h21, hcore.len, h.le63, h.hip, p6, p7, ?_⟩, htl, htt, p8.2.2.1,
      rfl⟩
    unfold Body
    simp only
    rw [htt] at hcore ⊢
    refine ⟨hcore, ?_⟩
    have : 0 < S.R.count c := List.count_pos_iff.mpr hlmem
    omega
  · right
    exact ⟨hq, e, by rw [he, Outcome.err_bind]⟩

/-- `copyAs` between any two types. -/
theorem Rep.copyAs {F : Fl H} {a : Arr H} {S : Regs H} (h : Rep a S) (typ : Typ) :
    ((typ = .hll4 → Room a.lgK (S.R.countP (fun v => decide (lowest S.R + 15 ≤ v)))) ∧
      ∃ a', a.copyAs F typ = .ok a' ∧ Rep a' (if typ = a.typ then S else S.resum) ∧
        a'.lgK = a.lgK ∧ a'.typ = typ ∧ a'.ooo = a.ooo ∧ (a'.rebuild = true → typ = a.typ)) ∨
    (typ = .hll4 ∧ ¬ Room a.lgK (S.R.countP (fun v => decide (lowest S.R + 15 ≤ v))) ∧
      ∃ e, a.copyAs F typ = .err e) := by
  unfold Arr.copyAs
  by_cases ht : typ = a.typ
  · rw [if_pos ht, if_pos ht]
    refine Or.inl ⟨?_, a, rfl, h, rfl, ht.symm, rfl, fun _ => ht⟩
    intro h4
    have hb := h.body
    unfold Body at hb
    rw [← ht, h4] at hb
    obtain ⟨hc, hn⟩ := hb
    have := hc.room
    rw [length_excs, ← (hc.lowest hn).1] at this
    exact this
  · rw [if_neg ht, if_neg ht]
    cases typ with
    | hll4 =>
      rcases convert4_spec (F := F) h with ⟨h1, a', h2, h3, h4, h5, h6, h7⟩ | ⟨h1, h2⟩
      · exact Or.inl ⟨fun _ => h1, a', h2, h3, h4, h5, h6, fun hr => by rw [h7] at hr; cases hr⟩
      · exact Or.inr ⟨rfl, h1, h2⟩
    | hll6 =>
      obtain ⟨a', h2, h3, h4, h5, h6, h7⟩ := convert68_spec (F := F) h (typ := .hll6) (by simp)
      exact Or.inl ⟨fun e => absurd e (by simp), a', h2, h3, h4, h5, h6,
        fun hr => by rw [h7] at hr; cases hr⟩
    | hll8 =>
      obtain ⟨a', h2, h3, h4, h5, h6, h7⟩ := convert68_spec (F := F) h (typ := .hll8) (by simp)
      exact Or.inl ⟨fun e => absurd e (by simp), a', h2, h3, h4, h5, h6,
        fun hr => by rw [h7] at hr; cases hr⟩

end Verif.Hll
