import Verif.HllSerde
import Verif.HllProps

/-!
# HLL: sketches of streams survive being written
-/

namespace Verif.Hll

variable {H : Type}

/-! ## The float conversions -/

/-- What `math.Float64bits` and `math.Float64frombits` guarantee: 64-bit images; a float64 survives.
An integer `m * 2^e` (in units of `2^-63`) with a mantissa below `2^53` is a float64. -/
structure Bits.Lawful (B : Bits H) : Prop where
  hip : ∀ h, B.hipTo h < 256 ^ 8 ∧ B.hipOf (B.hipTo h) = h
  k : ∀ m e : Nat, m < 2 ^ 53 → e ≤ 100 →
    B.kTo ((m : Int) * 2 ^ e) < 256 ^ 8 ∧ B.kOf (B.kTo ((m : Int) * 2 ^ e)) = (m : Int) * 2 ^ e

/-- the number of trailing zero bits -/
def tz : Nat → Nat → Nat
  | 0, _ => 0
  | f + 1, n => if n % 2 = 0 then tz f (n / 2) + 1 else 0

theorem tz_le (f n : Nat) : tz f n ≤ f := by
  induction f generalizing n with
  | zero => exact Nat.le_refl 0
  | succ f ih =>
    unfold tz
    split
    · have := ih (n / 2); omega
    · omega

theorem tz_dvd (f n : Nat) : n / 2 ^ tz f n * 2 ^ tz f n = n := by
  induction f generalizing n with
  | zero => simp [tz]
  | succ f ih =>
    unfold tz
    split
    · have h := ih (n / 2)
      rw [pow_succ', ← Nat.div_div_eq_div_mul]
      calc n / 2 / 2 ^ tz f (n / 2) * (2 * 2 ^ tz f (n / 2))
          = 2 * (n / 2 / 2 ^ tz f (n / 2) * 2 ^ tz f (n / 2)) := by ring
        _ = n := by rw [h]; omega
    · simp

theorem tz_ge (e f m : Nat) (h : e ≤ f) : e ≤ tz f (m * 2 ^ e) := by
  induction e generalizing f m with
  | zero => omega
  | succ e ih =>
    cases f with
    | zero => omega
    | succ f =>
      have h2 : m * 2 ^ (e + 1) = 2 * (m * 2 ^ e) := by ring
      unfold tz
      rw [if_pos (by rw [h2]; omega)]
      have : m * 2 ^ (e + 1) / 2 = m * 2 ^ e := by rw [h2]; omega
      rw [this]
      have := ih f m (by omega)
      omega

/-- An encoding of such integers (not IEEE 754, but with the same guarantee): the theorems below are
not vacuous. -/
def sampleBits : Bits Unit where
  hipTo _ := 0
  hipOf _ := ()
  kTo k := k.toNat / 2 ^ tz 200 k.toNat * 256 + tz 200 k.toNat
  kOf n := ((n / 256 * 2 ^ (n % 256) : Nat) : Int)

theorem sampleBits_lawful : sampleBits.Lawful where
  hip _ := ⟨by show 0 < 256 ^ 8; decide, rfl⟩
  k m e hm he := by
    have hk : ((m : Int) * 2 ^ e).toNat = m * 2 ^ e := by
      have : (m : Int) * 2 ^ e = ((m * 2 ^ e : Nat) : Int) := by push_cast; rfl
      rw [this]; exact Int.toNat_natCast _
    have h1 := tz_le 200 (m * 2 ^ e)
    have h2 := tz_dvd 200 (m * 2 ^ e)
    have h3 := tz_ge e 200 m (by omega)
    simp only [sampleBits, hk]
    generalize ht : tz 200 (m * 2 ^ e) = t at *
    have h4 : m * 2 ^ e / 2 ^ t ≤ m := by
      apply Nat.div_le_of_le_mul
      rw [Nat.mul_comm]
      exact Nat.mul_le_mul_right _ (Nat.pow_le_pow_right (by omega) h3)
    generalize m * 2 ^ e / 2 ^ t = q at *
    refine ⟨by omega, ?_⟩
    have e1 : (q * 256 + t) / 256 = q := by omega
    have e2 : (q * 256 + t) % 256 = t := by omega
    rw [e1, e2, h2]
    push_cast
    rfl

/-- sums of the contributions of the registers -/
theorem sum_w0 (R : List Nat) : ∃ m : Nat, (R.map w0).sum = (m : Int) * 2 ^ 32 ∧
    m ≤ R.length * 2 ^ 31 := by
  induction R with
  | nil => exact ⟨0, by simp, by simp⟩
  | cons v R ih =>
    obtain ⟨m, h1, h2⟩ := ih
    rw [List.map_cons, List.sum_cons, h1]
    by_cases hv : v < 32
    · refine ⟨2 ^ (31 - v) + m, ?_, ?_⟩
      · unfold w0
        rw [if_pos hv, show 63 - v = (31 - v) + 32 by omega, pow_add]
        push_cast
        ring
      · have : 2 ^ (31 - v) ≤ 2 ^ 31 := Nat.pow_le_pow_right (by omega) (by omega)
        rw [List.length_cons, Nat.add_mul]
        omega
    · refine ⟨m, ?_, ?_⟩
      · unfold w0
        rw [if_neg hv]; ring
      · rw [List.length_cons]
        exact le_trans h2 (Nat.mul_le_mul_right _ (Nat.le_succ _))

theorem sum_w1 (R : List Nat) : ∃ m : Nat, (R.map w1).sum = (m : Int) * 2 ^ 0 ∧
    m ≤ R.length * 2 ^ 31 := by
  induction R with
  | nil => exact ⟨0, by simp, by simp⟩
  | cons v R ih =>
    obtain ⟨m, h1, h2⟩ := ih
    rw [List.map_cons, List.sum_cons, h1]
    by_cases hv : v < 32
    · refine ⟨m, ?_, ?_⟩
      · unfold w1
        rw [if_pos hv]; ring
      · rw [List.length_cons]
        exact le_trans h2 (Nat.mul_le_mul_right _ (Nat.le_succ _))
    · refine ⟨2 ^ (63 - v) + m, ?_, ?_⟩
      · unfold w1
        rw [if_neg hv]
        push_cast
        ring
      · have : 2 ^ (63 - v) ≤ 2 ^ 31 := Nat.pow_le_pow_right (by omega) (by omega)
        rw [List.length_cons, Nat.add_mul]
        omega

/-- `B` keeps the accumulator value `k` -/
def Bits.Keeps (B : Bits H) (k : Int) : Prop := B.kTo k < 256 ^ 8 ∧ B.kOf (B.kTo k) = k

theorem Bits.Lawful.exact {B : Bits H} (h : B.Lawful) {a : Arr H} {S : Regs H} (r : Rep a S)
    (he : S.Exact) : B.Keeps a.kxq0 ∧ B.Keeps a.kxq1 := by
  have h21 := r.h21
  have hp : (2 : Nat) ^ a.lgK ≤ 2 ^ 21 := Nat.pow_le_pow_right (by omega) h21
  have hl := r.len
  obtain ⟨m, m1, m2⟩ := sum_w0 S.R
  obtain ⟨n, n1, n2⟩ := sum_w1 S.R
  rw [r.kxq0, r.kxq1, he.1, he.2, m1, n1]
  rw [hl] at m2 n2
  have hm : 2 ^ a.lgK * 2 ^ 31 ≤ 2 ^ 52 := by
    calc 2 ^ a.lgK * 2 ^ 31 ≤ 2 ^ 21 * 2 ^ 31 := Nat.mul_le_mul_right _ hp
      _ = 2 ^ 52 := by norm_num
  exact ⟨h.k m 32 (by omega) (by omega), h.k n 0 (by omega) (by omega)⟩

/-! ## `curMin` of the 6- and 8-bit arrays -/

/-- `a'` has the type and (except for the 4-bit type) the `curMin` of `a` -/
def KeepMin (a a' : Arr H) : Prop := a'.typ = a.typ ∧ (a.typ ≠ .hll4 → a'.curMin = a.curMin)

theorem KeepMin.refl (a : Arr H) : KeepMin a a := ⟨rfl, fun _ => rfl⟩

theorem KeepMin.trans {a b c : Arr H} (h : KeepMin a b) (h' : KeepMin b c) : KeepMin a c :=
  ⟨h'.1.trans h.1, fun ht => (h'.2 (by rw [h.1]; exact ht)).trans (h.2 ht)⟩

theorem hipAndKxQ_keep {F : Fl H} {a a' : Arr H} {o v : Nat} (h : hipAndKxQ F a o v = .ok a') :
    a'.typ = a.typ ∧ a'.curMin = a.curMin := by
  unfold hipAndKxQ at h
  split at h
  · cases h
  · obtain ⟨vo, _, h⟩ := Outcome.bind_eq_ok.mp h
    obtain ⟨vn, _, h⟩ := Outcome.bind_eq_ok.mp h
    cases h
    refine ⟨?_, ?_⟩ <;> (repeat' split) <;> rfl

theorem kxqTail_keep {F : Fl H} {a a' : Arr H} {o v : Nat} (h : kxqTail F a o v = .ok a') :
    a'.typ = a.typ ∧ a'.curMin = a.curMin := by
  unfold kxqTail at h
  obtain ⟨b, hb, h⟩ := Outcome.bind_eq_ok.mp h
  have := hipAndKxQ_keep hb
  split at h
  · split at h
    · cases h
    · cases h; exact this
  · cases h; exact this

theorem couponUpdate_keep {F : Fl H} {a a' : Arr H} {c : Nat} (ht : a.typ ≠ .hll4)
    (h : a.couponUpdate F c = .ok a') : KeepMin a a' := by
  unfold Arr.couponUpdate at h
  simp only at h
  cases htt : a.typ with
  | hll4 => exact absurd htt ht
  | hll6 =>
    rw [htt] at h
    simp only at h
    unfold hll6Update at h
    obtain ⟨old, _, h⟩ := Outcome.bind_eq_ok.mp h
    split at h
    · obtain ⟨b, _, h⟩ := Outcome.bind_eq_ok.mp h
      have := kxqTail_keep h
      exact ⟨this.1, fun _ => this.2⟩
    · cases h; exact .refl _
  | hll8 =>
    rw [htt] at h
    simp only at h
    unfold hll8Update at h
    obtain ⟨b, _, h⟩ := Outcome.bind_eq_ok.mp h
    simp only at h
    split at h
    · have := kxqTail_keep h
      exact ⟨this.1, fun _ => this.2⟩
    · cases h; exact .refl _

/-- In an array that is not of the 4-bit type `curMin` is zero. -/
def ZeroMin (s : Sk H) : Prop := ∀ a, s = .hll a → a.typ ≠ .hll4 → a.curMin = 0

theorem foldlM_inv {σ α : Type} {f : σ → α → Outcome σ} (P : σ → Prop)
    (hf : ∀ s x s', P s → f s x = .ok s' → P s') {l : List α} {s s' : σ} (h : P s)
    (he : l.foldlM f s = .ok s') : P s' := by
  induction l generalizing s with
  | nil => cases he; exact h
  | cons x l ih =>
    rw [List.foldlM_cons] at he
    obtain ⟨t, ht, he⟩ := Outcome.bind_eq_ok.mp he
    exact ih (hf _ _ _ h ht) he

theorem promoteToHll_zero {F : Fl H} {c : Coup} {a : Arr H} (h : promoteToHll F c = .ok a)
    (hc : c.typ ≠ .hll4) : a.curMin = 0 := by
  unfold promoteToHll at h
  obtain ⟨b, hb, h⟩ := Outcome.bind_eq_ok.mp h
  have := foldlM_inv (fun a : Arr H => a.typ ≠ .hll4 ∧ a.curMin = 0) (by
    intro s x s' hs hx
    unfold promoteStep at hx
    split at hx
    · have := couponUpdate_keep hs.1 hx
      exact ⟨by rw [this.1]; exact hs.1, by rw [this.2 hs.1]; exact hs.2⟩
    · cases hx; exact hs) ⟨hc, rfl⟩ hb
  cases h
  exact this.2

theorem promoteToHll_typ {F : Fl H} {c : Coup} {a : Arr H} (h : promoteToHll F c = .ok a)
    (ha : a.typ ≠ .hll4) (hk : c.typ = .hll4 → a.typ = .hll4) : a.curMin = 0 :=
  promoteToHll_zero h (fun e => ha (hk e))

theorem Ref.zeroMin {F : Fl H} {s s' : Sk H} {A : AbsSk H} {c : Nat} (hr : Ref s A)
    (hv : ValidCoupon c) (hz : ZeroMin s) (h : s.couponUpdate F c = .ok s') : ZeroMin s' := by
  have hty : s'.typ = s.typ := by
    rcases hr.couponUpdate (F := F) hv with ⟨_, t, e1, _, e3⟩ | ⟨_, e, e1⟩
    · rw [h] at e1; cases e1; exact e3.2.1
    · rw [h] at e1; cases e1
  intro a' ha' ht'
  subst ha'
  have hty : a'.typ = s.typ := hty
  cases s with
  | hll a =>
    have h : (a.couponUpdate F c >>= fun x => Outcome.ok (Sk.hll x)) = .ok (.hll a') := h
    obtain ⟨b, hb, h⟩ := Outcome.bind_eq_ok.mp h
    cases h
    have ht : a.typ ≠ .hll4 := by rw [← show a'.typ = a.typ from hty]; exact ht'
    rw [(couponUpdate_keep ht hb).2 ht]
    exact hz a rfl ht
  | list d =>
    have hd : d.typ ≠ .hll4 := by rw [← show a'.typ = d.typ from hty]; exact ht'
    have h : listLoop F d c (2 ^ d.lg) 0 = .ok (.hll a') := h
    have key : ∀ n i, listLoop F d c n i = .ok (.hll a') → a'.curMin = 0 := by
      intro n
      induction n with
      | zero => intro i hi; cases hi
      | succ n ih =>
        intro i hi
        unfold listLoop at hi
        obtain ⟨e, _, hi⟩ := Outcome.bind_eq_ok.mp hi
        split at hi
        · simp only at hi
          split at hi
          · split at hi
            · obtain ⟨b, hb, hi⟩ := Outcome.bind_eq_ok.mp hi
              cases hi
              exact promoteToHll_zero hb hd
            · obtain ⟨b, hb, hi⟩ := Outcome.bind_eq_ok.mp hi
              cases hi
          · cases hi
        · split at hi
          · cases hi
          · exact ih _ hi
    exact key _ _ h
  | set d =>
    have hd : d.typ ≠ .hll4 := by rw [← show a'.typ = d.typ from hty]; exact ht'
    have h : setUpdate F d c = .ok (.hll a') := h
    unfold setUpdate at h
    obtain ⟨e, _, h⟩ := Outcome.bind_eq_ok.mp h
    cases e with
    | found i => cases h
    | empty i =>
      simp only at h
      split at h
      · cases h
      · split at h
        · obtain ⟨b, hb, h⟩ := Outcome.bind_eq_ok.mp h
          cases h
          exact promoteToHll_zero hb hd
        · obtain ⟨b, hb, h⟩ := Outcome.bind_eq_ok.mp h
          cases h
    | _ => cases h

theorem update_valid {F : Fl H} {s : Sk H} {c : Nat} (h : ValidCoupon c) :
    s.update F c = s.couponUpdate F c := if_neg (valid_shift h)

/-- the numbers of an array with `curMin = 0` (or of the 4-bit type) and no pending rebuild -/
theorem Rep.nums {a : Arr H} {S : Regs H} (h : Rep a S) (hr : a.rebuild = false)
    (hz : a.typ ≠ .hll4 → a.curMin = 0) : 0 ≤ a.num ∧ a.num < 2 ^ 32 ∧ a.curMin < 256 := by
  have hp : (2 : Nat) ^ a.lgK ≤ 2 ^ 21 := Nat.pow_le_pow_right (by omega) h.h21
  have hl := h.len
  have hcnt : ∀ v, S.R.count v ≤ 2 ^ 21 := fun v => by
    have := List.count_le_length (a := v) (l := S.R); omega
  have hb := h.body
  unfold Body at hb
  have hnum : NumOk a S.R → a.curMin = 0 → 0 ≤ a.num ∧ a.num < 2 ^ 32 ∧ a.curMin < 256 := by
    intro hn h0
    have := hcnt 0
    rcases hn.2 hr with ⟨_, h2⟩ | ⟨h1, _⟩
    · omega
    · omega
  cases ht : a.typ with
  | hll4 =>
    rw [ht] at hb
    obtain ⟨hc, _⟩ := hb
    have h1 := hc.num
    have h2 := hcnt a.curMin
    have hpos : 0 < S.R.length := by rw [hl]; exact Nat.two_pow_pos _
    have h3 := hc.low _ (List.getElem_mem hpos)
    have h4 := h.le63 _ (List.getElem_mem hpos)
    omega
  | hll6 => rw [ht] at hb; exact hnum hb.2.2.2 (hz (by rw [ht]; simp))
  | hll8 => rw [ht] at hb; exact hnum hb.2 (hz (by rw [ht]; simp))

/-- what the sketch of a stream satisfies -/
structure RunOk (s : Sk H) (A : AbsSk H) : Prop where
  ref : Ref s A
  zero : ZeroMin s
  rebuild : ∀ a, s = .hll a → a.rebuild = false
  exact : ∀ S, A = .hll S → S.Exact

theorem RunOk.written {s : Sk H} {A : AbsSk H} (h : RunOk s A) {B : Bits H} (hB : B.Lawful) :
    SkWritten B s := by
  intro a ha
  subst ha
  have href := h.ref
  cases A with
  | coup D => exact absurd href (by simp [Ref])
  | hll S =>
    have hrep : Rep a S := href
    obtain ⟨n0, n1, n2⟩ := hrep.nums (h.rebuild a rfl) (h.zero a rfl)
    obtain ⟨k0, k1⟩ := hB.exact hrep (h.exact S rfl)
    exact ⟨n0, n1, n2, hB.hip _, k0, k1⟩

theorem run_ok {F : Fl H} {lgK : Nat} {typ : Typ} (h4 : 4 ≤ lgK) (h21 : lgK ≤ 21)
    {cs : List Nat} (hv : ∀ c ∈ cs, ValidCoupon c) {s : Sk H} (hs : run F lgK typ cs = .ok s) :
    RunOk s (absOf F lgK cs) := by
  obtain ⟨g, _, _, f⟩ := run_good h4 h21 hv hs
  refine ⟨g.ref, ?_, fun a ha => (f a ha).2, ?_⟩
  · induction cs using List.reverseRecOn generalizing s with
    | nil =>
      unfold run at hs
      have : (newSketch lgK typ : Outcome (Sk H)) = .ok (.list (newList lgK typ)) := if_pos ⟨h4, h21⟩
      rw [this] at hs
      cases hs
      intro a e; cases e
    | append_singleton cs c ih =>
      have hv' : ∀ x ∈ cs, ValidCoupon x := fun x hx => hv x (List.mem_append_left _ hx)
      have hs' : (run F lgK typ cs >>= fun t => t.update F c) = .ok s := by
        unfold run at hs ⊢
        rw [bind_assoc]
        obtain ⟨t, ht, hs⟩ := Outcome.bind_eq_ok.mp hs
        rw [ht, Outcome.ok_bind]
        rw [List.foldlM_append] at hs
        obtain ⟨t', ht', hs⟩ := Outcome.bind_eq_ok.mp hs
        rw [ht', Outcome.ok_bind]
        rw [List.foldlM_cons] at hs
        obtain ⟨t'', ht'', hs⟩ := Outcome.bind_eq_ok.mp hs
        cases hs
        exact ht''
      obtain ⟨t, ht, hu⟩ := Outcome.bind_eq_ok.mp hs'
      obtain ⟨g', l', t', f'⟩ := run_good h4 h21 hv' ht
      have hc := hv c (by simp)
      rw [update_valid hc] at hu
      exact g'.ref.zeroMin hc (ih hv' ht g' l' t' f') hu
  · intro S hS
    have hm := absOf_mode F lgK cs
    rw [hS] at hm
    exact hm.2

/-! ## The same observable state -/

/-- Two sketches that are alike: same parameters and mode; the same coupons; or the same registers
and the same state of all estimators. -/
def Alike (s s' : Sk H) : Prop :=
  s'.lgK = s.lgK ∧ s'.typ = s.typ ∧
  match s, s' with
  | .list c, .list c' => c'.count = c.count ∧
      (c'.arr.filter (fun e => decide (e ≠ 0))).Perm (c.arr.filter (fun e => decide (e ≠ 0)))
  | .set c, .set c' => c'.count = c.count ∧
      (c'.arr.filter (fun e => decide (e ≠ 0))).Perm (c.arr.filter (fun e => decide (e ≠ 0)))
  | .hll a, .hll a' => (∀ j, j < 2 ^ a.lgK → a'.value j = a.value j ∧ ∃ v, a.value j = .ok v) ∧
      a'.hip = a.hip ∧ a'.kxq0 = a.kxq0 ∧ a'.kxq1 = a.kxq1 ∧ a'.unhit = a.unhit ∧ a'.ooo = a.ooo ∧
      a'.rebuild = a.rebuild
  | _, _ => False

/-- flags of two sketches in the same abstract state -/
def Flags (s s' : Sk H) : Prop :=
  s'.lgK = s.lgK ∧ s'.typ = s.typ ∧
  ∀ a a', s = .hll a → s' = .hll a' → a'.ooo = a.ooo ∧ a.rebuild = false ∧ a'.rebuild = false

theorem Ref.alike {s s' : Sk H} {A : AbsSk H} (h : Ref s A) (h' : Ref s' A) (hf : Flags s s') :
    Alike s s' := by
  refine ⟨hf.1, hf.2.1, ?_⟩
  cases A with
  | coup D =>
    cases s with
    | hll a => exact absurd h (by simp [Ref])
    | list c =>
      have h : ListInv c D := h
      cases s' with
      | hll a => exact absurd h' (by simp [Ref])
      | set c' => have := h.lt8; have := h'.2; omega
      | list c' =>
        have h' : ListInv c' D := h'
        refine ⟨by rw [h.cnt, h'.cnt], ?_⟩
        rw [h.arr, h'.arr]
    | set c =>
      cases s' with
      | hll a => exact absurd h' (by simp [Ref])
      | list c' => have := ListInv.lt8 h'; have := h.2; omega
      | set c' => exact ⟨by rw [h.1.cnt, h'.1.cnt], (set_items h'.1).trans (set_items h.1).symm⟩
  | hll S =>
    cases s with
    | list c => exact absurd h (by simp [Ref])
    | set c => exact absurd h (by simp [Ref])
    | hll a =>
      cases s' with
      | list c => exact absurd h' (by simp [Ref])
      | set c => exact absurd h' (by simp [Ref])
      | hll a' =>
        have h : Rep a S := h
        have h' : Rep a' S := h'
        obtain ⟨f1, f2, f3⟩ := hf.2.2 a a' rfl rfl
        have hl : a'.lgK = a.lgK := hf.1
        refine ⟨fun j hj => ?_, by rw [h.hip, h'.hip], by rw [h.kxq0, h'.kxq0],
          by rw [h.kxq1, h'.kxq1], by rw [h.unhit f2, h'.unhit f3], f1, by rw [f2, f3]⟩
        rw [h.value hj, h'.value (by rw [hl]; exact hj)]
        exact ⟨rfl, _, rfl⟩

/-- two sketches in the same abstract state stay together -/
theorem Ref.together {F : Fl H} {s s' : Sk H} {A : AbsSk H} (h : Ref s A) (h' : Ref s' A)
    (hf : Flags s s') (cs : List Nat) (hv : ∀ c ∈ cs, ValidCoupon c) :
    (∃ t t' A', cs.foldlM (Sk.update F) s = .ok t ∧ cs.foldlM (Sk.update F) s' = .ok t' ∧
      Ref t A' ∧ Ref t' A' ∧ Flags t t') ∨
    (∃ e e', cs.foldlM (Sk.update F) s = .err e ∧ cs.foldlM (Sk.update F) s' = .err e') := by
  induction cs generalizing s s' A with
  | nil => exact Or.inl ⟨s, s', A, rfl, rfl, h, h', hf⟩
  | cons c cs ih =>
    have hc := hv c (by simp)
    have hv' : ∀ x ∈ cs, ValidCoupon x := fun x hx => hv x (List.mem_cons_of_mem _ hx)
    rw [List.foldlM_cons, List.foldlM_cons, update_valid hc, update_valid hc]
    have h1 := h.couponUpdate (F := F) hc
    have h2 := h'.couponUpdate (F := F) hc
    rw [hf.1, hf.2.1] at h2
    rcases h1 with ⟨r1, t, e1, e2, e3⟩ | ⟨r1, e, e1⟩
    · rcases h2 with ⟨_, t', g1, g2, g3⟩ | ⟨r2, _⟩
      · rw [e1, g1, Outcome.ok_bind, Outcome.ok_bind]
        refine ih e2 g2 ⟨by rw [e3.1, g3.1, hf.1], by rw [e3.2.1, g3.2.1, hf.2.1], ?_⟩ hv'
        intro b b' hb hb'
        subst hb hb'
        have q := e3.2.2
        have q' := g3.2.2
        cases s with
        | hll a =>
          cases s' with
          | hll a' =>
            obtain ⟨f1, f2, f3⟩ := hf.2.2 a a' rfl rfl
            exact ⟨by rw [q'.1, q.1, f1], by rw [q.2, f2], by rw [q'.2, f3]⟩
          | list c' =>
            cases A with
            | coup D => exact absurd h (by simp [Ref])
            | hll S => exact absurd h' (by simp [Ref])
          | set c' =>
            cases A with
            | coup D => exact absurd h (by simp [Ref])
            | hll S => exact absurd h' (by simp [Ref])
        | list c1 =>
          cases s' with
          | hll a' =>
            cases A with
            | coup D => exact absurd h' (by simp [Ref])
            | hll S => exact absurd h (by simp [Ref])
          | list c' => exact ⟨by rw [q'.1, q.1], q.2, q'.2⟩
          | set c' => exact ⟨by rw [q'.1, q.1], q.2, q'.2⟩
        | set c1 =>
          cases s' with
          | hll a' =>
            cases A with
            | coup D => exact absurd h' (by simp [Ref])
            | hll S => exact absurd h (by simp [Ref])
          | list c' => exact ⟨by rw [q'.1, q.1], q.2, q'.2⟩
          | set c' => exact ⟨by rw [q'.1, q.1], q.2, q'.2⟩
      · exact absurd r1 r2
    · rcases h2 with ⟨r2, _⟩ | ⟨_, e', g1⟩
      · exact absurd r2 r1
      · exact Or.inr ⟨e, e', by rw [e1]; rfl, by rw [g1]; rfl⟩

theorem SameFlags.flags {s s' : Sk H} (h : SameFlags s s')
    (hr : ∀ a, s = .hll a → a.rebuild = false) : Flags s s' := by
  cases s with
  | list c =>
    cases s' with
    | list c' => have h : c' = c := h; subst h; exact ⟨rfl, rfl, fun a a' e => by cases e⟩
    | set c' => exact absurd h (by simp [SameFlags])
    | hll a => exact absurd h (by simp [SameFlags])
  | set c =>
    cases s' with
    | set c' => exact ⟨h.1, h.2, fun a a' e => by cases e⟩
    | list c' => exact absurd h (by simp [SameFlags])
    | hll a => exact absurd h (by simp [SameFlags])
  | hll a =>
    cases s' with
    | list c' => exact absurd h (by simp [SameFlags])
    | set c' => exact absurd h (by simp [SameFlags])
    | hll a' =>
      have h : a' = { a with aux := a'.aux } := h
      have hr := hr a rfl
      rw [h]
      refine ⟨rfl, rfl, fun b b' e e' => ?_⟩
      cases e
      cases e'
      exact ⟨rfl, hr, hr⟩

end Verif.Hll
