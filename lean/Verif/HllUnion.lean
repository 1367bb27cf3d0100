import Verif.HllConv

/-!
# The union of HLL sketches
-/

namespace Verif.Hll

open Probe

variable {H : Type}

/-! ## Accumulators as one sum -/

/-- the two KxQ accumulators together hold the sum of `2^(63 - register)` -/
def Regs.Total (S : Regs H) : Prop :=
  S.kxq0 + S.kxq1 = (S.R.map (fun v => (2 : Int) ^ (63 - v))).sum

theorem w_add (v : Nat) : w0 v + w1 v = 2 ^ (63 - v) := by
  unfold w0 w1; split <;> simp

theorem sum_w (R : List Nat) :
    (R.map w0).sum + (R.map w1).sum = (R.map (fun v => (2 : Int) ^ (63 - v))).sum := by
  induction R with
  | nil => simp
  | cons a R ih =>
    simp only [List.map_cons, List.sum_cons]
    rw [← ih, ← w_add]
    omega

theorem Regs.Exact.total {S : Regs H} (h : S.Exact) : S.Total := by
  unfold Regs.Total
  rw [h.1, h.2, sum_w]

theorem Regs.resum_total (S : Regs H) : S.resum.Total := sum_w _

theorem Regs.Total.step {F : Fl H} {lgK : Nat} {S : Regs H} (h : S.Total) {j v : Nat}
    (hj : j < S.R.length) : (S.step F lgK j v).Total := by
  unfold Regs.step
  split
  · unfold Regs.Total at *
    simp only
    rw [← sum_w] at h ⊢
    rw [sum_set hj, sum_set hj]
    omega
  · exact h

theorem Rep.value_R {a : Arr H} {S : Regs H} (h : Rep a S) : S.R.length = 2 ^ a.lgK := h.len

/-! ## Sketches that hold a stream -/

/-- The sketch `s` is in the abstract state `A`, which stands for the stream `cs`. -/
structure Good (s : Sk H) (A : AbsSk H) (cs : List Nat) : Prop where
  ref : Ref s A
  of : A.Of s.lgK cs
  hll : ∀ a S, s = .hll a → A = .hll S →
    (a.rebuild = false → S.Total) ∧ ¬ Keeps a.lgK (distinct cs)

theorem distinct_le_append (cs ds : List Nat) : distinct cs ≤ distinct (cs ++ ds) := by
  unfold distinct
  apply List.Subperm.length_le
  apply List.subperm_of_subset (List.nodup_dedup _)
  intro y hy
  rw [List.mem_dedup] at hy ⊢
  simp [hy]

theorem distinct_congr {cs ds : List Nat} (h : ∀ x, x ∈ cs ↔ x ∈ ds) : distinct cs = distinct ds := by
  rw [distinct_eq (List.nodup_dedup ds) (fun x => by rw [List.mem_dedup, h])]
  rfl

theorem AbsSk.Of.congr {lgK : Nat} {A : AbsSk H} {cs ds : List Nat} (h : A.Of lgK cs)
    (hm : ∀ x, x ∈ cs ↔ x ∈ ds) : A.Of lgK ds := by
  cases A with
  | coup D => exact ⟨h.1, fun x => (h.2 x).trans (hm x)⟩
  | hll S => exact Eq.trans h (regsOf_congr hm)

theorem Good.congr {s : Sk H} {A : AbsSk H} {cs ds : List Nat} (h : Good s A cs)
    (hm : ∀ x, x ∈ cs ↔ x ∈ ds) : Good s A ds :=
  ⟨h.ref, h.of.congr hm, fun a S e1 e2 => by rw [← distinct_congr hm]; exact h.hll a S e1 e2⟩

theorem Good.keeps {s : Sk H} {D : List Nat} {cs : List Nat} (h : Good s (.coup D) cs) :
    Keeps s.lgK (distinct cs) := by
  have hof := h.of
  rw [distinct_eq hof.1 hof.2]
  have href := h.ref
  cases s with
  | list c => exact Or.inl (ListInv.lt8 href)
  | set c =>
    have h1 := href.1.load
    have h2 := href.1.lgle
    have h3 := href.1.lg5
    have h4 : 2 ^ c.lg ≤ 2 ^ (c.lgK - 3) := Nat.pow_le_pow_right (by omega) (by omega)
    rw [href.1.cnt] at h1
    exact Or.inr ⟨by show 8 ≤ c.lgK; omega, by show 4 * D.length ≤ 3 * 2 ^ (c.lgK - 3); omega⟩
  | hll a => exact absurd href (by simp [Ref])

theorem Good.valid_coup {s : Sk H} {D cs : List Nat} (h : Good s (.coup D) cs) :
    ∀ c ∈ D, ValidCoupon c := by
  have href := h.ref
  cases s with
  | list c => exact ListInv.valid href
  | set c => exact href.1.valid
  | hll a => exact absurd href (by simp [Ref])

/-- the flags survive updates -/
def Keep (s s' : Sk H) : Prop :=
  s'.lgK = s.lgK ∧ s'.typ = s.typ ∧
  (∀ a, s = .hll a → ∃ a', s' = .hll a' ∧ a'.ooo = a.ooo ∧ a'.rebuild = a.rebuild) ∧
  (∀ a', s' = .hll a' → (∀ a, s ≠ .hll a) → a'.ooo = false ∧ a'.rebuild = false)

theorem Keep.refl (s : Sk H) : Keep s s :=
  ⟨rfl, rfl, fun a h => ⟨a, h, rfl, rfl⟩, fun a h hn => absurd h (hn a)⟩

theorem Keep.trans {s t u : Sk H} (h1 : Keep s t) (h2 : Keep t u) : Keep s u := by
  refine ⟨h2.1.trans h1.1, h2.2.1.trans h1.2.1, ?_, ?_⟩
  · intro a ha
    obtain ⟨b, hb, e1, e2⟩ := h1.2.2.1 a ha
    obtain ⟨c, hc, e3, e4⟩ := h2.2.2.1 b hb
    exact ⟨c, hc, e3.trans e1, e4.trans e2⟩
  · intro c hc hn
    cases t with
    | hll b =>
      obtain ⟨e1, e2⟩ := h1.2.2.2 b rfl hn
      obtain ⟨c', hc', e3, e4⟩ := h2.2.2.1 b rfl
      rw [hc] at hc'
      cases hc'
      exact ⟨e3.trans e1, e4.trans e2⟩
    | list _ => exact h2.2.2.2 c hc (fun a h => by cases h)
    | set _ => exact h2.2.2.2 c hc (fun a h => by cases h)

theorem frame_keep {F : Fl H} {s s' : Sk H} {x : Nat} {A : AbsSk H} (hr : Ref s A)
    (hr' : Ref s' (A.step F s.lgK x)) (h : Frame s s') : Keep s s' := by
  refine ⟨h.1, h.2.1, ?_, ?_⟩
  · intro a ha
    subst ha
    cases A with
    | coup D => exact absurd hr (by simp [Ref])
    | hll S =>
      cases s' with
      | list c => exact absurd hr' (by simp [Ref, AbsSk.step])
      | set c => exact absurd hr' (by simp [Ref, AbsSk.step])
      | hll b => exact ⟨b, rfl, h.2.2.1, h.2.2.2⟩
  · intro b hb hn
    subst hb
    cases s with
    | list c => exact h.2.2
    | set c => exact h.2.2
    | hll a => exact absurd rfl (hn a)

/-- one coupon into a sketch that is not of the 4-bit type -/
theorem Good.update {F : Fl H} {s : Sk H} {A : AbsSk H} {cs : List Nat} (h : Good s A cs)
    (ht : s.typ ≠ .hll4) {x : Nat} (hx : ValidCoupon x) :
    ∃ s', s.couponUpdate F x = .ok s' ∧ Good s' (A.step F s.lgK x) (cs ++ [x]) ∧ Keep s s' := by
  rcases h.ref.couponUpdate (F := F) hx with ⟨_, s', e1, e2, e3⟩ | ⟨h1, _⟩
  · have hk := frame_keep h.ref e2 e3
    refine ⟨s', e1, ⟨e2, ?_, ?_⟩, hk⟩
    · rw [e3.1]; exact h.of.step x
    · intro a S ha hA
      have hlg : a.lgK = s.lgK := by rw [← e3.1, ha]; rfl
      rw [hlg]
      cases A with
      | coup D =>
        have hof := h.of
        unfold AbsSk.step at hA
        simp only at hA
        by_cases hm : x ∈ D
        · rw [if_pos hm] at hA; cases hA
        · rw [if_neg hm] at hA
          by_cases hkp : Keeps s.lgK (D.length + 1)
          · rw [if_pos hkp] at hA; cases hA
          · rw [if_neg hkp] at hA
            cases hA
            refine ⟨fun _ => sum_w _, ?_⟩
            have hn : (D ++ [x]).Nodup := by
              rw [List.nodup_append]
              refine ⟨hof.1, by simp, ?_⟩
              intro a ha b hb hab
              rw [List.mem_singleton] at hb
              exact hm (by rw [← hb, ← hab]; exact ha)
            rw [distinct_eq hn (fun y => by rw [List.mem_append, List.mem_append, hof.2])]
            simpa using hkp
      | hll T =>
        cases hA
        cases s with
        | list c => exact absurd h.ref (by simp [Ref])
        | set c => exact absurd h.ref (by simp [Ref])
        | hll b =>
          obtain ⟨h1, h2⟩ := h.hll b T rfl rfl
          obtain ⟨a', ha', _, hreb⟩ := hk.2.2.1 b rfl
          rw [ha] at ha'
          cases ha'
          refine ⟨fun hr => (h1 (by rw [← hreb]; exact hr)).step ?_, fun hkp => h2 ?_⟩
          · have hrep : Rep b T := h.ref
            rw [hrep.len]
            exact Nat.mod_lt _ (Nat.two_pow_pos _)
          · exact Keeps.anti hkp (distinct_le_append _ _)
  · exact absurd (fun e => absurd e ht) h1

/-- merging stored coupons -/
theorem mergeCoupons_spec {F : Fl H} {s : Sk H} {A : AbsSk H} {cs : List Nat} (h : Good s A cs)
    (ht : s.typ ≠ .hll4) {arr D : List Nat}
    (hD : (arr.filter (fun e => decide (e ≠ 0))).Perm D) (hv : ∀ c ∈ D, ValidCoupon c) :
    ∃ s' A', mergeCoupons F arr s = .ok s' ∧ Good s' A' (cs ++ D) ∧ Keep s s' := by
  unfold mergeCoupons
  rw [foldlM_skip (g := fun d p => d.couponUpdate F p) (fun e => decide (e ≠ 0)) arr
    (fun s x hx => by
      have : x = 0 := by simpa using hx
      simp only [this, ne_eq, not_true_eq_false, if_false])
    (fun s x hx => by
      have : x ≠ 0 := by simpa using hx
      simp only [if_pos this])]
  obtain ⟨s', h1, A', h2, h3⟩ := list_fold (f := fun d p => Sk.couponUpdate F d p)
    (l := arr.filter (fun e => decide (e ≠ 0))) (s0 := s)
    (fun pre t => ∃ B, Good t B (cs ++ pre) ∧ Keep s t)
    ⟨A, by rw [List.append_nil]; exact h, Keep.refl s⟩
    (by
      rintro pre x post t hl ⟨B, hB, hk⟩
      have hx : ValidCoupon x := hv x (hD.mem_iff.mp (by rw [hl]; simp))
      obtain ⟨t', e1, e2, e3⟩ := hB.update (F := F) (by rw [hk.2.1]; exact ht) hx
      exact ⟨t', e1, _, by rw [← List.append_assoc]; exact e2, hk.trans e3⟩)
  refine ⟨s', A', h1, h2.congr (fun x => ?_), h3⟩
  rw [List.mem_append, List.mem_append, hD.mem_iff]

theorem Good.coupons {s : Sk H} {D cs : List Nat} (h : Good s (.coup D) cs) :
    ∃ c : Coup, (s = .list c ∨ s = .set c) ∧ c.count = D.length ∧
      (c.arr.filter (fun e => decide (e ≠ 0))).Perm D := by
  have href := h.ref
  cases s with
  | list c =>
    have href : ListInv c D := href
    refine ⟨c, Or.inl rfl, href.cnt, ?_⟩
    rw [href.arr, filter_list_arr D _ href.valid]
  | set c =>
    refine ⟨c, Or.inr rfl, href.1.cnt, ?_⟩
    have := href.1.items
    rw [items_coup] at this
    exact this
  | hll a => exact absurd href (by simp [Ref])

/-! ## Merging register arrays -/

/-- the first `i` slots of `T` merged with `S` -/
def Merged (S T Q : List Nat) (i : Nat) : Prop :=
  Q.length = T.length ∧
  ∀ j, Q.getD j 0 = if j < i then max (S.getD j 0) (T.getD j 0) else T.getD j 0

theorem Merged.zero (S T : List Nat) : Merged S T T 0 :=
  ⟨rfl, fun j => by rw [if_neg (by omega)]⟩

theorem Merged.set {S T Q : List Nat} {i : Nat} (h : Merged S T Q i) (hi : i < T.length) :
    Merged S T (Q.set i (max (S.getD i 0) (T.getD i 0))) (i + 1) := by
  refine ⟨by rw [List.length_set]; exact h.1, fun j => ?_⟩
  rw [getD_set (by rw [h.1]; exact hi), h.2 j]
  by_cases hj : j = i
  · rw [if_pos hj, if_pos (show j < i + 1 by omega), hj]
  · rw [if_neg hj]
    by_cases hj2 : j < i
    · rw [if_pos hj2, if_pos (show j < i + 1 by omega)]
    · rw [if_neg hj2, if_neg (show ¬ j < i + 1 by omega)]

theorem Merged.getElem? {S T Q : List Nat} {i : Nat} (h : Merged S T Q i) (hi : i < T.length) :
    Q[i]? = some (T.getD i 0) := by
  have hq : i < Q.length := by rw [h.1]; exact hi
  rw [List.getElem?_eq_getElem hq, ← getD_eq hq, h.2 i, if_neg (show ¬ i < i by omega)]

theorem upd_spec {S T Q : List Nat} {i v : Nat} (h : Merged S T Q i) (hi : i < T.length)
    (hS : S.getD i 0 = v) (hv : v ≤ 63) (hT : ∀ x ∈ T, x ≤ 63) :
    updNoKxQ Q i v = .ok (Q.set i (max (S.getD i 0) (T.getD i 0))) := by
  have ht := hT _ (getD_mem hi)
  unfold updNoKxQ
  rw [h.getElem? hi, Outcome.ofOption_some, Outcome.ok_bind, and63, hS]
  congr 2
  rw [Nat.mod_eq_of_lt (show T.getD i 0 < 64 by omega)]
  omega

theorem merge8_spec {S T : List Nat} (hlen : S.length ≤ T.length) :
    ∃ Q, (List.range S.length).foldlM (merge8Step S) T = .ok Q ∧ Merged S T Q S.length := by
  apply range_fold (fun i Q => Merged S T Q i) (Merged.zero S T)
  intro i Q hi h
  have hiT : i < T.length := by omega
  unfold merge8Step
  rw [List.getElem?_eq_getElem hi, h.getElem? hiT, ← getD_eq hi, Outcome.ofOption_some,
    Outcome.ok_bind, Outcome.ofOption_some, Outcome.ok_bind]
  have hset := h.set hiT
  by_cases hgt : S.getD i 0 > T.getD i 0
  · rw [if_pos hgt]
    rw [Nat.max_eq_left (by omega)] at hset
    exact ⟨_, rfl, hset⟩
  · rw [if_neg hgt]
    rw [Nat.max_eq_right (by omega)] at hset
    refine ⟨_, rfl, ?_⟩
    have hq : Q.set i (T.getD i 0) = Q := by
      have : T.getD i 0 = Q.getD i 0 := by rw [h.2 i, if_neg (show ¬ i < i by omega)]
      rw [this, set_getD_self]
    rw [hq] at hset
    exact hset

/-- the lookup of `merge4Step` reads the register -/
theorem merge4Val_spec {a : Arr H} {S : Regs H} (h : Rep a S) (ht : a.typ = .hll4) {j n : Nat}
    (hj : j < 2 ^ a.lgK) (hn : getNibble a.bytes j = .ok n) :
    merge4Val a n j = .ok (S.R.getD j 0) := by
  have hval := h.value hj
  unfold Arr.value at hval
  rw [ht] at hval
  simp only at hval
  rw [hn, Outcome.ok_bind] at hval
  exact hval

theorem merge4_spec {a : Arr H} {S : Regs H} (h : Rep a S) (ht : a.typ = .hll4) {T : List Nat}
    (hlen : S.R.length ≤ T.length) (hT : ∀ x ∈ T, x ≤ 63) :
    ∃ Q, (List.range (2 ^ a.lgK / 2)).foldlM (merge4Step a) T = .ok Q ∧
      Merged S.R T Q S.R.length := by
  have h4 := h.h4
  have hb := h.body
  unfold Body at hb
  rw [ht] at hb
  obtain ⟨hc, _⟩ := hb
  have hp : 2 ^ a.lgK = 2 * 2 ^ (a.lgK - 1) := by
    rw [← pow_succ']; congr 1; omega
  have hSl := h.len
  obtain ⟨Q, h1, h2⟩ := range_fold (f := merge4Step a) (n := 2 ^ a.lgK / 2) (s0 := T)
    (fun i Q => Merged S.R T Q (2 * i)) (Merged.zero S.R T)
    (by
      intro i Q hi hQ
      have hbl : i < a.bytes.length := by rw [hc.blen]; omega
      have hb256 := hc.b256 _ (List.getElem_mem hbl)
      unfold merge4Step
      rw [List.getElem?_eq_getElem hbl, Outcome.ofOption_some, Outcome.ok_bind]
      have n0 : getNibble a.bytes (2 * i) = .ok (a.bytes[i] &&& 15) := by
        rw [getNibble_eq (by omega), if_neg (show ¬ 2 * i % 2 = 1 by omega), and15]
        have : 2 * i / 2 = i := by omega
        simp only [this]
      have n1 : getNibble a.bytes (2 * i + 1) = .ok (a.bytes[i] >>> 4) := by
        have e : (2 * i + 1) / 2 = i := by omega
        rw [getNibble_eq (by omega), if_pos (show (2 * i + 1) % 2 = 1 by omega),
          Nat.shiftRight_eq_div_pow]
        simp only [e]
        congr 1
        omega
      rw [merge4Val_spec h ht (by omega) n0, Outcome.ok_bind,
        upd_spec hQ (by omega) rfl (h.le63 _ (getD_mem (by omega))) hT, Outcome.ok_bind,
        merge4Val_spec h ht (by omega) n1, Outcome.ok_bind]
      have hQ1 := hQ.set (show 2 * i < T.length by omega)
      rw [upd_spec hQ1 (by omega) rfl (h.le63 _ (getD_mem (by omega))) hT]
      exact ⟨_, rfl, hQ1.set (by omega)⟩)
  refine ⟨Q, h1, ?_⟩
  rw [hSl]
  have : 2 * (2 ^ a.lgK / 2) = 2 ^ a.lgK := by omega
  rw [← this]
  exact h2

theorem merge6_spec {a : Arr H} {S : Regs H} (h : Rep a S) (ht : a.typ = .hll6) {T : List Nat}
    (hlen : S.R.length ≤ T.length) (hT : ∀ x ∈ T, x ≤ 63) :
    ∃ Q, (List.range (2 ^ a.lgK / 4)).foldlM (merge6Step a.bytes) T = .ok Q ∧
      Merged S.R T Q S.R.length := by
  have h4 := h.h4
  have hb := h.body
  unfold Body at hb
  rw [ht] at hb
  obtain ⟨hbl, hb256, hget, _⟩ := hb
  have hp : 2 ^ a.lgK = 4 * 2 ^ (a.lgK - 2) := by
    rw [show (4 : Nat) = 2 ^ 2 from rfl, ← pow_add]; congr 1; omega
  have hSl := h.len
  have hbl' : a.bytes.length = 3 * 2 ^ (a.lgK - 2) + 1 := by
    rw [hbl]
    unfold arrBytes
    simp only
    rw [Nat.shiftRight_eq_div_pow]
    omega
  obtain ⟨Q, h1, h2⟩ := range_fold (f := merge6Step a.bytes) (n := 2 ^ a.lgK / 4) (s0 := T)
    (fun i Q => Merged S.R T Q (4 * i)) (Merged.zero S.R T)
    (by
      intro i Q hi hQ
      obtain ⟨b1, b2, b3, e1, e2, e3, g0, g1, g2, g3⟩ :=
        six_group (arr := a.bytes) (g := i) (by omega) hb256
      rw [hget _ (by omega)] at g0 g1 g2 g3
      injection g0 with g0
      injection g1 with g1
      injection g2 with g2
      injection g3 with g3
      have l0 := h.le63 _ (getD_mem (show 4 * i < S.R.length by omega))
      have l1 := h.le63 _ (getD_mem (show 4 * i + 1 < S.R.length by omega))
      have l2 := h.le63 _ (getD_mem (show 4 * i + 2 < S.R.length by omega))
      have l3 := h.le63 _ (getD_mem (show 4 * i + 3 < S.R.length by omega))
      unfold merge6Step
      rw [e1, e2, e3, Outcome.ofOption_some, Outcome.ok_bind, Outcome.ofOption_some,
        Outcome.ok_bind, Outcome.ofOption_some, Outcome.ok_bind,
        upd_spec hQ (by omega) g0 (by omega) hT, Outcome.ok_bind]
      have hQ1 := hQ.set (show 4 * i < T.length by omega)
      rw [upd_spec hQ1 (by omega) g1 (by omega) hT, Outcome.ok_bind]
      have hQ2 := hQ1.set (show 4 * i + 1 < T.length by omega)
      rw [upd_spec hQ2 (by omega) g2 (by omega) hT, Outcome.ok_bind]
      have hQ3 := hQ2.set (show 4 * i + 2 < T.length by omega)
      rw [upd_spec hQ3 (by omega) g3 (by omega) hT]
      exact ⟨_, rfl, hQ3.set (by omega)⟩)
  refine ⟨Q, h1, ?_⟩
  rw [hSl]
  have : 4 * (2 ^ a.lgK / 4) = 2 ^ a.lgK := by omega
  rw [← this]
  exact h2

/-- Slot `i` of the source goes to slot `i` of the target, whatever the two sizes. -/
theorem mergeBytes_spec {a : Arr H} {S : Regs H} (h : Rep a S) {T : List Nat}
    (hlen : S.R.length ≤ T.length) (hT : ∀ x ∈ T, x ≤ 63) :
    ∃ Q, mergeBytes a T = .ok Q ∧ Merged S.R T Q S.R.length := by
  unfold mergeBytes
  cases ht : a.typ with
  | hll4 => exact merge4_spec h ht hlen hT
  | hll6 => exact merge6_spec h ht hlen hT
  | hll8 =>
    have hb := h.body
    unfold Body at hb
    rw [ht] at hb
    have hpos : 0 < S.R.length := by rw [h.len]; exact Nat.two_pow_pos _
    simp only
    rw [hb.1, if_neg (by omega)]
    exact merge8_spec hlen

theorem Merged.le63 {S T Q : List Nat} {i : Nat} (h : Merged S T Q i) (hS : ∀ v ∈ S, v ≤ 63)
    (hT : ∀ v ∈ T, v ≤ 63) (hi : i ≤ S.length) : ∀ v ∈ Q, v ≤ 63 := by
  intro v hv
  obtain ⟨j, hj, rfl⟩ := mem_iff_getD.mp hv
  rw [h.1] at hj
  have h2 := hT _ (getD_mem hj)
  rw [h.2 j]
  split
  · have h1 := hS _ (getD_mem (show j < S.length by omega))
    omega
  · exact h2

theorem Merged.zeros {S T Q : List Nat} {i : Nat} (h : Merged S T Q i) :
    Q.count 0 ≤ T.count 0 := by
  unfold List.count
  rw [← countP_range (R := Q), ← countP_range (R := T), h.1]
  apply List.countP_mono_left
  intro j _ hj
  simp only [beq_iff_eq] at hj ⊢
  rw [h.2 j] at hj
  split at hj <;> omega

/-- `mergeHlltoHLLmode` into an 8-bit array -/
theorem mergeHll_spec {F : Fl H} {a t : Arr H} {S T : Regs H} (h : Rep a S) (hT : Rep t T)
    (ht : t.typ = .hll8) (hle : a.lgK ≤ t.lgK) :
    ∃ Q t', mergeHll a t = .ok t' ∧ Merged S.R T.R Q (2 ^ a.lgK) ∧
      Rep (t'.putOoo F true) { T with R := Q, hip := F.zero } ∧ t'.lgK = t.lgK ∧ t'.typ = .hll8 ∧
      t'.rebuild = true := by
  have hb := hT.body
  unfold Body at hb
  rw [ht] at hb
  have hlen : S.R.length ≤ T.R.length := by
    rw [h.len, hT.len]; exact Nat.pow_le_pow_right (by omega) hle
  obtain ⟨Q, h1, h2⟩ := mergeBytes_spec h hlen hT.le63
  unfold mergeHll
  rw [if_neg (by omega), if_neg (by rw [ht]; simp), hb.1, h1, Outcome.ok_bind]
  have h2' := h2
  rw [h.len] at h2'
  refine ⟨Q, _, rfl, h2', ⟨hT.h4, hT.h21, ?_, h2.le63 h.le63 hT.le63 (le_refl _), rfl, hT.kxq0,
    hT.kxq1, ?_⟩, rfl, ht, rfl⟩
  · show Q.length = 2 ^ t.lgK
    rw [h2.1]; exact hT.len
  · unfold Body
    have : ({ t with bytes := Q, rebuild := true } : Arr H).putOoo F true =
      { t with bytes := Q, rebuild := true, hip := F.zero, ooo := true } := rfl
    rw [this]
    simp only
    rw [ht]
    refine ⟨trivial, ?_, fun hr => by cases hr⟩
    have := hb.2.1
    have hz := h2.zeros
    show (Q.count 0 : Int) ≤ t.num
    omega

/-- registers of two streams merged are those of the concatenation -/
theorem merged_regsOf {lgK : Nat} {cs ds Q : List Nat}
    (h : Merged (regsOf lgK ds) (regsOf lgK cs) Q (2 ^ lgK)) : Q = regsOf lgK (cs ++ ds) := by
  apply regs_eq (by rw [h.1, regsOf_length])
  intro j hj
  rw [h.2 j, if_pos hj, regsOf_getD _ hj, regsOf_getD _ hj, regOf_append, Nat.max_comm]

/-! ## The union -/

/-- when the code merges the source correctly: a source in register mode must not have more slots
than the union allows, and must have as many as the gadget if that is in register mode too -/
def Fit (u : Union H) (src : Sk H) : Prop :=
  ∀ a, src = .hll a → a.lgK ≤ u.lgMaxK ∧ ∀ g, u.gadget = .hll g → a.lgK = g.lgK

theorem isEmpty_coup {s : Sk H} {D cs : List Nat} (h : Good s (.coup D) cs) :
    s.isEmpty = true ↔ D = [] := by
  obtain ⟨c, hs, hc, _⟩ := h.coupons
  have : s.isEmpty = (D.length == 0) := by
    rcases hs with rfl | rfl <;> simp [Sk.isEmpty, hc]
  rw [this]
  simp

theorem Good.hll_shape {a : Arr H} {A : AbsSk H} {cs : List Nat} (h : Good (.hll a) A cs) :
    ∃ S, A = .hll S ∧ Rep a S := by
  cases A with
  | coup D => exact absurd h.ref (by simp [Ref])
  | hll S => exact ⟨S, rfl, h.ref⟩

theorem Good.coup_shape {s : Sk H} {A : AbsSk H} {cs : List Nat} (h : Good s A cs)
    (hn : ∀ a, s ≠ .hll a) : ∃ D, A = .coup D := by
  cases A with
  | coup D => exact ⟨D, rfl⟩
  | hll S =>
    cases s with
    | list c => exact absurd h.ref (by simp [Ref])
    | set c => exact absurd h.ref (by simp [Ref])
    | hll a => exact absurd rfl (hn a)

/-- a copy in the 8-bit type -/
theorem Good.copy8 {F : Fl H} {a : Arr H} {A : AbsSk H} {cs : List Nat} (h : Good (.hll a) A cs) :
    ∃ b B, a.copyAs F .hll8 = .ok b ∧ Good (.hll b) B cs ∧ b.lgK = a.lgK ∧ b.typ = .hll8 := by
  obtain ⟨S, rfl, hrep⟩ := h.hll_shape
  rcases hrep.copyAs (F := F) .hll8 with ⟨_, b, e1, e2, e3, e4, e5, e6⟩ | ⟨e, _⟩
  · obtain ⟨h1, h2⟩ := h.hll a S rfl rfl
    refine ⟨b, .hll _, e1, ⟨e2, ?_, ?_⟩, e3, e4⟩
    · show (if Typ.hll8 = a.typ then S else S.resum).R = regsOf b.lgK cs
      have h3 : S.R = regsOf a.lgK cs := h.of
      rw [e3]
      split <;> exact h3
    · intro b' S' hb' hS'
      cases hb'
      cases hS'
      refine ⟨fun hr => ?_, by rw [e3]; exact h2⟩
      by_cases ht : Typ.hll8 = a.typ
      · rw [if_pos ht]
        refine h1 ?_
        have : a.copyAs F .hll8 = .ok a := by unfold Arr.copyAs; exact if_pos ht
        rw [this] at e1
        cases e1
        exact hr
      · rw [if_neg ht]; exact S.resum_total
  · cases e

theorem Good.retag {c : Coup} {A : AbsSk H} {cs : List Nat} (h : Good (.set c) A cs) (t : Typ) :
    Good (.set { c with typ := t }) A cs := by
  obtain ⟨D, rfl⟩ := h.coup_shape (fun a e => by cases e)
  refine ⟨?_, h.of, fun a S e => by cases e⟩
  obtain ⟨h1, h2⟩ : SetInv c D ∧ 8 ≤ D.length := h.ref
  exact ⟨⟨h1.h21, h1.lg5, h1.lgle, h1.cnt, h1.chain, h1.load, h1.items, h1.valid⟩, h2⟩

/-- the gadget's `lgK` after merging a source -/
def lgAfter : Sk H → Sk H → Nat
  | .hll g, _ => g.lgK
  | .list _, .hll a => a.lgK
  | .set _, .hll a => a.lgK
  | .list c, _ => c.lgK
  | .set c, _ => c.lgK

/-- **One sketch into the union.** -/
theorem updateSketch_spec {F : Fl H} {u : Union H} {A B : AbsSk H} {cs ds : List Nat}
    (hu : Good u.gadget A cs) (ht : u.gadget.typ = .hll8) {src : Sk H} (hs : Good src B ds)
    (hfit : Fit u src) :
    ∃ u' A', u.updateSketch F src = .ok u' ∧ u'.lgMaxK = u.lgMaxK ∧ u'.gadget.typ = .hll8 ∧
      Good u'.gadget A' (cs ++ ds) ∧
      u'.gadget.lgK = lgAfter u.gadget src := by
  unfold Union.updateSketch
  rw [if_neg (by rw [ht]; simp)]
  have hn4 : u.gadget.typ ≠ .hll4 := by rw [ht]; simp
  have hmerge : ∀ (c : Coup) (D : List Nat), Good src (.coup D) ds →
      (src = .list c ∨ src = .set c) →
      (c.arr.filter (fun e => decide (e ≠ 0))).Perm D →
      ∃ u' A', (do let g ← mergeCoupons F c.arr u.gadget
                   Outcome.ok ({ u with gadget := g } : Union H)) = .ok u' ∧
        u'.lgMaxK = u.lgMaxK ∧ u'.gadget.typ = .hll8 ∧ Good u'.gadget A' (cs ++ ds) ∧
        u'.gadget.lgK = u.gadget.lgK := by
    intro c D hD _ hp
    obtain ⟨g, A', e1, e2, e3⟩ := mergeCoupons_spec (F := F) hu hn4 hp hD.valid_coup
    rw [e1, Outcome.ok_bind]
    refine ⟨_, A', rfl, rfl, e3.2.1.trans ht, e2.congr (fun x => ?_), e3.1⟩
    rw [List.mem_append, List.mem_append, hD.of.2]
  have hlg : (∀ a, src ≠ .hll a) → lgAfter u.gadget src = u.gadget.lgK := by
    intro hn
    cases hsrc : src with
    | hll a => exact absurd hsrc (hn a)
    | list c => cases u.gadget <;> rfl
    | set c => cases u.gadget <;> rfl
  by_cases hemp : src.isEmpty = true
  · rw [if_pos hemp]
    have hn : ∀ a, src ≠ .hll a := by rintro a rfl; simp [Sk.isEmpty] at hemp
    obtain ⟨D, rfl⟩ := hs.coup_shape hn
    have hD := (isEmpty_coup hs).mp hemp
    subst hD
    refine ⟨u, A, rfl, rfl, ht, hu.congr (fun x => ?_), (hlg hn).symm⟩
    rw [List.mem_append, ← hs.of.2]
    simp
  · rw [if_neg hemp]
    cases src with
    | list c =>
      obtain ⟨D, rfl⟩ := hs.coup_shape (fun a e => by cases e)
      obtain ⟨c', hc', _, hp⟩ := hs.coupons
      have : c' = c := by rcases hc' with h | h <;> cases h; rfl
      subst this
      rw [hlg (fun a e => by cases e)]
      exact hmerge c' D hs (Or.inl rfl) hp
    | set c =>
      obtain ⟨D, rfl⟩ := hs.coup_shape (fun a e => by cases e)
      obtain ⟨c', hc', _, hp⟩ := hs.coupons
      have : c' = c := by rcases hc' with h | h <;> cases h; rfl
      subst this
      rw [hlg (fun a e => by cases e)]
      simp only
      by_cases hcopy : u.gadget.isEmpty = true ∧ c'.lgK = u.gadget.lgK
      · rw [if_pos hcopy]
        have hng : ∀ a, u.gadget ≠ .hll a := by
          intro a e
          have h1 := hcopy.1
          rw [e] at h1
          simp [Sk.isEmpty] at h1
        obtain ⟨E, rfl⟩ := hu.coup_shape hng
        have hE := (isEmpty_coup hu).mp hcopy.1
        subst hE
        refine ⟨_, _, rfl, rfl, rfl, (hs.retag .hll8).congr (fun x => ?_), hcopy.2⟩
        rw [List.mem_append, ← hu.of.2]
        simp
      · rw [if_neg hcopy]
        exact hmerge c' D hs (Or.inr rfl) hp
    | hll a =>
      simp only
      obtain ⟨hmax, hg⟩ := hfit a rfl
      unfold unionHll
      rw [if_neg (show ¬ a.lgK > u.lgMaxK by omega)]
      obtain ⟨b, B', e1, e2, e3, e4⟩ := hs.copy8 (F := F)
      by_cases hge : u.gadget.isEmpty = true
      · have hng : ∀ g, u.gadget ≠ .hll g := by
          intro g e
          rw [e] at hge
          simp [Sk.isEmpty] at hge
        obtain ⟨E, rfl⟩ := hu.coup_shape hng
        have hE := (isEmpty_coup hu).mp hge
        subst hE
        rw [if_pos hge]
        simp only [Nat.zero_add]
        rw [e1, Outcome.ok_bind, Outcome.ok_bind]
        refine ⟨_, B', rfl, rfl, e4, e2.congr (fun x => ?_), ?_⟩
        · rw [List.mem_append, ← hu.of.2]
          simp
        · show b.lgK = _
          cases hgd : u.gadget with
          | hll g => exact absurd hgd (hng g)
          | list c => exact e3
          | set c => exact e3
      · rw [if_neg hge]
        cases hgd : u.gadget with
        | list c =>
          rw [hgd] at hu
          obtain ⟨D, rfl⟩ := hu.coup_shape (fun a e => by cases e)
          obtain ⟨c', hc', _, hp⟩ := hu.coupons
          have : c' = c := by rcases hc' with h | h <;> cases h; rfl
          subst this
          simp only [Nat.zero_add]
          rw [e1, Outcome.ok_bind]
          obtain ⟨g, A', f1, f2, f3⟩ := mergeCoupons_spec (F := F) e2
            (show (Sk.hll b).typ ≠ .hll4 by show b.typ ≠ _; rw [e4]; simp) hp hu.valid_coup
          rw [f1, Outcome.ok_bind]
          refine ⟨_, A', rfl, rfl, f3.2.1.trans e4, f2.congr (fun x => ?_), f3.1.trans e3⟩
          rw [List.mem_append, List.mem_append, hu.of.2, or_comm]
        | set c =>
          rw [hgd] at hu
          obtain ⟨D, rfl⟩ := hu.coup_shape (fun a e => by cases e)
          obtain ⟨c', hc', _, hp⟩ := hu.coupons
          have : c' = c := by rcases hc' with h | h <;> cases h; rfl
          subst this
          simp only [Nat.zero_add]
          rw [e1, Outcome.ok_bind]
          obtain ⟨g, A', f1, f2, f3⟩ := mergeCoupons_spec (F := F) e2
            (show (Sk.hll b).typ ≠ .hll4 by show b.typ ≠ _; rw [e4]; simp) hp hu.valid_coup
          rw [f1, Outcome.ok_bind]
          refine ⟨_, A', rfl, rfl, f3.2.1.trans e4, f2.congr (fun x => ?_), f3.1.trans e3⟩
          rw [List.mem_append, List.mem_append, hu.of.2, or_comm]
        | hll g =>
          rw [hgd] at hu ht
          have hlgk := hg g hgd
          obtain ⟨T, rfl, hT⟩ := hu.hll_shape
          obtain ⟨S, rfl, hS⟩ := hs.hll_shape
          obtain ⟨Q, t', f1, f2, f3, f4, f5, f6⟩ := mergeHll_spec (F := F) hS hT ht (by omega)
          simp only [Nat.zero_add]
          rw [f1, Outcome.ok_bind, Outcome.ok_bind]
          have hTR : T.R = regsOf g.lgK cs := hu.of
          have hSR : S.R = regsOf a.lgK ds := hs.of
          rw [hlgk] at hSR f2
          refine ⟨_, .hll _, rfl, rfl, f5, ⟨f3, ?_, ?_⟩, f4⟩
          · show Q = regsOf t'.lgK (cs ++ ds)
            rw [f4]
            rw [hTR, hSR] at f2
            exact merged_regsOf f2
          · intro a' S' ha' hS'
            cases ha'
            refine ⟨fun hr => ?_, ?_⟩
            · have : t'.rebuild = false := hr
              rw [f6] at this
              cases this
            · obtain ⟨_, h2⟩ := hu.hll g T rfl rfl
              have : (t'.putOoo F true).lgK = g.lgK := f4
              rw [this]
              exact fun hk => h2 (hk.anti (distinct_le_append _ _))

/-! ## Copies and results -/

/-- room for the exceptions of a 4-bit copy of the registers of `cs` -/
def CopyRoom (typ : Typ) (lgK : Nat) (cs : List Nat) : Prop :=
  typ = .hll4 → ¬ Keeps lgK (distinct cs) →
    Room lgK ((regsOf lgK cs).countP (fun v => decide (lowest (regsOf lgK cs) + 15 ≤ v)))

theorem Good.retag_list {c : Coup} {A : AbsSk H} {cs : List Nat} (h : Good (.list c) A cs) (t : Typ) :
    Good (.list { c with typ := t }) A cs := by
  obtain ⟨D, rfl⟩ := h.coup_shape (fun a e => by cases e)
  refine ⟨?_, h.of, fun a S e => by cases e⟩
  have h1 : ListInv c D := h.ref
  exact ⟨h1.h4, h1.h21, h1.lg3, h1.cnt, h1.lt8, h1.arr, h1.nodup, h1.valid⟩

/-- flags of a copy -/
def CopyFlags (s s' : Sk H) : Prop :=
  ∀ a', s' = .hll a' → ∃ a, s = .hll a ∧ a'.ooo = a.ooo ∧ a'.hip = a.hip ∧
    (a.rebuild = false → a'.rebuild = false)

/-- `CopyAs` -/
theorem Good.copyAs {F : Fl H} {s : Sk H} {A : AbsSk H} {cs : List Nat} (h : Good s A cs)
    (typ : Typ) :
    (CopyRoom typ s.lgK cs ∧ ∃ s' A', s.copyAs F typ = .ok s' ∧ Good s' A' cs ∧ s'.lgK = s.lgK ∧
      s'.typ = typ ∧ CopyFlags s s') ∨
    (¬ CopyRoom typ s.lgK cs ∧ ∃ e, s.copyAs F typ = .err e) := by
  cases s with
  | list c =>
    obtain ⟨D, rfl⟩ := h.coup_shape (fun a e => by cases e)
    exact Or.inl ⟨fun _ hn => absurd h.keeps hn, _, _, rfl, h.retag_list typ, rfl, rfl,
      fun a e => by cases e⟩
  | set c =>
    obtain ⟨D, rfl⟩ := h.coup_shape (fun a e => by cases e)
    exact Or.inl ⟨fun _ hn => absurd h.keeps hn, _, _, rfl, h.retag typ, rfl, rfl,
      fun a e => by cases e⟩
  | hll a =>
    obtain ⟨S, rfl, hrep⟩ := h.hll_shape
    obtain ⟨h1, h2⟩ := h.hll a S rfl rfl
    have hof : S.R = regsOf a.lgK cs := h.of
    rcases hrep.copyAs (F := F) typ with ⟨e0, b, e1, e2, e3, e4, e5, e6⟩ | ⟨e0, e1, e, e2⟩
    · rw [hof] at e0
      refine Or.inl ⟨fun ht _ => e0 ht, .hll b, .hll _, ?_, ⟨e2, ?_, ?_⟩, e3, e4, ?_⟩
      · show (a.copyAs F typ >>= _) = _
        rw [e1]; rfl
      · show (if typ = a.typ then S else S.resum).R = regsOf b.lgK cs
        rw [e3]
        split <;> exact hof
      · intro b' S' hb' hS'
        cases hb'
        cases hS'
        refine ⟨fun hr => ?_, by rw [e3]; exact h2⟩
        by_cases ht : typ = a.typ
        · rw [if_pos ht]
          refine h1 ?_
          have : a.copyAs F typ = .ok a := by unfold Arr.copyAs; exact if_pos ht
          rw [this] at e1
          cases e1
          exact hr
        · rw [if_neg ht]; exact S.resum_total
      · intro b' hb'
        cases hb'
        refine ⟨a, rfl, e5, ?_, ?_⟩
        · rw [e2.hip, hrep.hip]
          split <;> rfl
        · intro hr
          by_cases ht : typ = a.typ
          · have : a.copyAs F typ = .ok a := by unfold Arr.copyAs; exact if_pos ht
            rw [this] at e1
            cases e1
            exact hr
          · cases hb : b.rebuild with
            | false => rfl
            | true => exact absurd (e6 hb) ht
    · rw [hof] at e1
      refine Or.inr ⟨fun hc => e1 (hc e0 h2), e, ?_⟩
      show (a.copyAs F typ >>= _) = _
      rw [e2]; rfl

theorem invPow2_ok {v : Nat} (h : v ≤ 63) : invPow2 v = .ok (2 ^ (63 - v)) := if_pos h

/-- the loop of `checkRebuildCurMinNumKxQ` -/
theorem rebuild_fold {a : Arr H} {S : Regs H} (h : Rep a S) :
    ∃ k0 k1, (List.range (2 ^ a.lgK)).foldlM (rebuildStep a) (2 ^ a.lgK * 2 ^ 63, 0, 64, 0) =
        .ok (k0, k1, lowest S.R, S.R.count (lowest S.R)) ∧
      k0 + k1 = (S.R.map (fun v => (2 : Int) ^ (63 - v))).sum := by
  have hlen := h.len
  obtain ⟨st, h1, h2, h3⟩ := range_fold (f := rebuildStep a) (n := 2 ^ a.lgK)
    (s0 := (2 ^ a.lgK * 2 ^ 63, 0, 64, 0))
    (fun i st => (List.range i).foldlM (minStep a) (64, 0) = .ok st.2.2 ∧
      st.1 + st.2.1 = 2 ^ a.lgK * 2 ^ 63 +
        ((S.R.take i).map (fun v => (2 : Int) ^ (63 - v) - 2 ^ 63)).sum)
    ⟨rfl, by simp⟩
    (by
      rintro i ⟨k0, k1, c, n⟩ hi ⟨p1, p2⟩
      have hi' : i < S.R.length := by rw [hlen]; exact hi
      have hv63 := h.le63 _ (getD_mem hi')
      have htake : S.R.take (i + 1) = S.R.take i ++ [S.R.getD i 0] := by
        rw [List.take_add_one, List.getElem?_eq_getElem hi', getD_eq hi']
        rfl
      have hmin : (List.range (i + 1)).foldlM (minStep a) (64, 0) = minStep a (c, n) i := by
        rw [List.range_succ, List.foldlM_append, p1, Outcome.ok_bind, List.foldlM_cons]
        cases minStep a (c, n) i <;> rfl
      have hms : minStep a (c, n) i = if S.R.getD i 0 > c then .ok (c, n)
          else if S.R.getD i 0 < c then .ok (S.R.getD i 0, 1) else .ok (c, n + 1) := by
        unfold minStep
        rw [h.value hi, Outcome.ok_bind]
      rw [hms] at hmin
      unfold rebuildStep
      rw [h.value hi, Outcome.ok_bind, invPow2_ok hv63, Outcome.ok_bind]
      rw [hmin, htake, List.map_append, List.sum_append]
      simp only [List.map_cons, List.map_nil, List.sum_cons, List.sum_nil] at p2 ⊢
      have hsum : (if S.R.getD i 0 > 0 ∧ S.R.getD i 0 < 32 then
            k0 + ((2 : Int) ^ (63 - S.R.getD i 0) - 2 ^ 63) else k0) +
          (if S.R.getD i 0 > 0 ∧ ¬ S.R.getD i 0 < 32 then
            k1 + ((2 : Int) ^ (63 - S.R.getD i 0) - 2 ^ 63) else k1) =
          k0 + k1 + ((2 : Int) ^ (63 - S.R.getD i 0) - 2 ^ 63) := by
        by_cases h0 : S.R.getD i 0 = 0
        · rw [if_neg (by omega), if_neg (by omega), h0]; simp
        · by_cases h32 : S.R.getD i 0 < 32
          · rw [if_pos ⟨by omega, h32⟩, if_neg (by omega)]; omega
          · rw [if_neg (by omega), if_pos ⟨by omega, h32⟩]; omega
      by_cases hgt : S.R.getD i 0 > c
      · rw [if_pos hgt, if_pos hgt]
        refine ⟨_, rfl, rfl, ?_⟩
        simp only
        rw [hsum]; omega
      · rw [if_neg hgt, if_neg hgt]
        by_cases hlt : S.R.getD i 0 < c
        · rw [if_pos hlt, if_pos hlt]
          refine ⟨_, rfl, rfl, ?_⟩
          simp only
          rw [hsum]; omega
        · rw [if_neg hlt, if_neg hlt]
          refine ⟨_, rfl, rfl, ?_⟩
          simp only
          rw [hsum]; omega)
  obtain ⟨ms, m1, m2, m3⟩ := minStep_fold h
  rw [m1] at h2
  obtain ⟨k0, k1, c, n⟩ := st
  injection h2 with h2
  rw [h2] at m2 m3
  simp only at m2 m3 h3
  subst m2
  rw [m3] at h1
  refine ⟨k0, k1, h1, ?_⟩
  rw [h3, ← hlen, List.take_length]
  have hsub : ∀ R : List Nat, (R.map (fun v => (2 : Int) ^ (63 - v) - 2 ^ 63)).sum =
      (R.map (fun v => (2 : Int) ^ (63 - v))).sum - R.length * 2 ^ 63 := by
    intro R
    induction R with
    | nil => simp
    | cons x R ih =>
      simp only [List.map_cons, List.sum_cons, List.length_cons]
      rw [ih]
      push_cast
      omega
  have hcast : (2 ^ a.lgK : Int) = (S.R.length : Int) := by rw [hlen]; push_cast; rfl
  rw [hsub, hcast]
  omega

theorem Sk.typ_hll (a : Arr H) : (Sk.hll a).typ = a.typ := rfl

/-- `checkRebuildCurMinNumKxQ` recomputes the accumulators. -/
theorem checkRebuild_spec {s : Sk H} {A : AbsSk H} {cs : List Nat} (h : Good s A cs)
    (ht : s.typ = .hll8) :
    ∃ s' A', checkRebuild s = .ok s' ∧ Good s' A' cs ∧ s'.lgK = s.lgK ∧ s'.typ = .hll8 ∧
      (∀ a', s' = .hll a' → a'.rebuild = false ∧
        ∃ a, s = .hll a ∧ a'.ooo = a.ooo ∧ a'.hip = a.hip) := by
  cases s with
  | list c => exact ⟨_, A, rfl, h, rfl, ht, fun a e => by cases e⟩
  | set c => exact ⟨_, A, rfl, h, rfl, ht, fun a e => by cases e⟩
  | hll a =>
    obtain ⟨S, rfl, hrep⟩ := h.hll_shape
    obtain ⟨h1, h2⟩ := h.hll a S rfl rfl
    have ht' : a.typ = .hll8 := ht
    unfold checkRebuild
    by_cases hr : a.rebuild = true
    · simp only [if_pos (show a.rebuild = true ∧ a.typ = .hll8 from ⟨hr, ht'⟩)]
      obtain ⟨k0, k1, e1, e2⟩ := rebuild_fold hrep
      rw [e1, Outcome.ok_bind]
      have hb := hrep.body
      unfold Body at hb
      rw [ht'] at hb
      have hpos : 0 < S.R.length := by rw [hrep.len]; exact Nat.two_pow_pos _
      have hlm := lowest_mem hpos hrep.le63
      have hz : 0 < lowest S.R → S.R.count 0 = 0 := by
        intro hp
        rw [List.count_eq_zero]
        intro hm
        have := lowest_le hm
        omega
      refine ⟨_, .hll { S with kxq0 := k0, kxq1 := k1 }, rfl, ⟨?_, h.of, ?_⟩, rfl, ht', ?_⟩
      · refine ⟨hrep.h4, hrep.h21, hrep.len, hrep.le63, hrep.hip, rfl, rfl, ?_⟩
        unfold Body
        simp only
        rw [ht']
        refine ⟨hb.1, ?_, fun _ => ?_⟩
        · simp only
          rcases Nat.eq_zero_or_pos (lowest S.R) with h0 | h0
          · rw [h0]
          · rw [hz h0]; omega
        · rcases Nat.eq_zero_or_pos (lowest S.R) with h0 | h0
          · exact Or.inl ⟨h0, by simp only; rw [h0]⟩
          · exact Or.inr ⟨h0, hz h0⟩
      · intro b T hb' hT
        cases hb'
        cases hT
        exact ⟨fun _ => e2, h2⟩
      · intro b hb'
        cases hb'
        exact ⟨rfl, a, rfl, rfl, rfl⟩
    · simp only [if_neg (show ¬ (a.rebuild = true ∧ a.typ = .hll8) from fun hc => hr hc.1)]
      refine ⟨_, _, rfl, h, rfl, ht, ?_⟩
      intro b hb
      cases hb
      exact ⟨by simpa using hr, a, rfl, rfl, rfl⟩

/-- `GetResult` -/
theorem getResult_spec {F : Fl H} {u : Union H} {A : AbsSk H} {cs : List Nat}
    (hu : Good u.gadget A cs) (ht : u.gadget.typ = .hll8) (typ : Typ) :
    (CopyRoom typ u.gadget.lgK cs ∧ ∃ u' r A' B, u.getResult F typ = .ok (u', r) ∧
      Good u'.gadget A' cs ∧ u'.lgMaxK = u.lgMaxK ∧ u'.gadget.typ = .hll8 ∧
      u'.gadget.lgK = u.gadget.lgK ∧ Good r B cs ∧ r.lgK = u.gadget.lgK ∧ r.typ = typ ∧
      ∀ a, r = .hll a → a.rebuild = false) ∨
    (¬ CopyRoom typ u.gadget.lgK cs ∧ ∃ e, u.getResult F typ = .err e) := by
  obtain ⟨g, A', e1, e2, e3, e4, e5⟩ := checkRebuild_spec hu ht
  unfold Union.getResult
  rw [e1, Outcome.ok_bind, ← e3]
  rcases e2.copyAs (F := F) typ with ⟨r0, r, B, r1, r2, r3, r4, r5⟩ | ⟨r0, e, r1⟩
  · refine Or.inl ⟨r0, { u with gadget := g }, r, A', B, by rw [r1]; rfl, e2, rfl, e4, rfl, r2, r3, r4, ?_⟩
    intro a ha
    obtain ⟨b, hb, _, _, hr⟩ := r5 a ha
    exact hr (e5 b hb).1
  · exact Or.inr ⟨r0, e, by rw [r1]; rfl⟩

/-! ## Sequences of operations -/

/-- what a union can be given: a coupon (of an item) or a sketch that holds a stream -/
inductive UOp (H : Type) where
  | item (c : Nat)
  | sketch (s : Sk H) (cs : List Nat)

def UOp.stream : UOp H → List Nat
  | .item c => [c]
  | .sketch _ cs => cs

/-- the inputs: valid coupons; sketches that hold their stream, and in register mode only with the
union's number of slots -/
def UOp.Ok (lgMaxK : Nat) : UOp H → Prop
  | .item c => ValidCoupon c
  | .sketch s cs => (∃ A, Good s A cs) ∧ ∀ a, s = .hll a → a.lgK = lgMaxK

def Union.apply (F : Fl H) (u : Union H) : UOp H → Outcome (Union H)
  | .item c => do
    let g ← u.gadget.update F c
    .ok { u with gadget := g }
  | .sketch s _ => u.updateSketch F s

/-- a fresh union, then the operations in order -/
def unionAll (F : Fl H) (lgMaxK : Nat) (ops : List (UOp H)) : Outcome (Union H) := do
  let u ← newUnion lgMaxK
  ops.foldlM (Union.apply F) u

theorem Good.newList (lgK : Nat) (typ : Typ) (h4 : 4 ≤ lgK) (h21 : lgK ≤ 21) :
    Good (H := H) (.list (newList lgK typ)) (.coup []) [] :=
  ⟨newList_inv typ h4 h21, ⟨List.nodup_nil, by simp⟩, fun a S e => by cases e⟩

theorem unionAll_spec {F : Fl H} {lgMaxK : Nat} (h4 : 4 ≤ lgMaxK) (h21 : lgMaxK ≤ 21)
    (ops : List (UOp H)) (hok : ∀ o ∈ ops, o.Ok lgMaxK) :
    ∃ u A, unionAll F lgMaxK ops = .ok u ∧ u.lgMaxK = lgMaxK ∧
      u.gadget.typ = .hll8 ∧ u.gadget.lgK = lgMaxK ∧
      Good u.gadget A (ops.flatMap UOp.stream) := by
  have hnew : (newUnion lgMaxK : Outcome (Union H)) =
      .ok ⟨lgMaxK, .list (newList lgMaxK .hll8)⟩ := by
    unfold newUnion
    have : (newSketch lgMaxK .hll8 : Outcome (Sk H)) = .ok (.list (newList lgMaxK .hll8)) :=
      if_pos ⟨h4, h21⟩
    rw [this]; rfl
  unfold unionAll
  rw [hnew, Outcome.ok_bind]
  obtain ⟨u, h1, A, h2, h3, h5, h6⟩ := list_fold (f := Union.apply F)
    (l := ops) (s0 := ⟨lgMaxK, .list (newList lgMaxK .hll8)⟩)
    (fun pre u => ∃ A, Good u.gadget A (pre.flatMap UOp.stream) ∧ u.lgMaxK = lgMaxK ∧
      u.gadget.typ = .hll8 ∧ u.gadget.lgK = lgMaxK)
    ⟨_, Good.newList lgMaxK .hll8 h4 h21, rfl, rfl, rfl⟩
    (by
      rintro pre o post u hl ⟨A, hA, hmax, ht, hlg⟩
      have ho := hok o (by rw [hl]; simp)
      cases o with
      | item c =>
        have hc : ValidCoupon c := ho
        have hupd : u.gadget.update F c = u.gadget.couponUpdate F c := if_neg (valid_shift hc)
        obtain ⟨g, e1, e2, e3⟩ := hA.update (F := F) (by rw [ht]; simp) hc
        refine ⟨{ u with gadget := g }, ?_, A.step F u.gadget.lgK c, ?_, hmax, e3.2.1.trans ht,
          e3.1.trans hlg⟩
        · show (u.gadget.update F c >>= _) = _
          rw [hupd, e1]; rfl
        · rw [List.flatMap_append]
          simpa [UOp.stream] using e2
      | sketch s cs =>
        obtain ⟨⟨B, hB⟩, hs⟩ := ho
        obtain ⟨u', A', e1, e2, e3, e4, e5⟩ := updateSketch_spec (F := F) hA ht hB (by
          intro a ha
          refine ⟨by rw [hmax, hs a ha], fun g hg => ?_⟩
          rw [hs a ha, ← hlg, hg]; rfl)
        refine ⟨u', e1, A', ?_, e2.trans hmax, e3, ?_⟩
        · rw [List.flatMap_append]
          simpa [UOp.stream] using e4
        · rw [e5]
          have hsrc : ∀ a, s = .hll a → a.lgK = lgMaxK := hs
          cases hg : u.gadget with
          | hll g => rw [hg] at hlg; exact hlg
          | list c =>
            rw [hg] at hlg
            cases s with
            | hll a => exact hsrc a rfl
            | list d => exact hlg
            | set d => exact hlg
          | set c =>
            rw [hg] at hlg
            cases s with
            | hll a => exact hsrc a rfl
            | list d => exact hlg
            | set d => exact hlg)
  exact ⟨u, A, h1, h3, h5, h6, h2⟩

end Verif.Hll
