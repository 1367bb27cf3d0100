import Verif.CpcCodec
import Mathlib.Tactic.Ring
import Mathlib.Tactic.Linarith

/-!
# Reading and writing bits

A stream of bits is described by the list of its fields `(value, number of bits)`; `E` is the number
whose binary digits, from the lowest, are these fields one after the other.
-/

namespace Verif.Cpc

open Outcome

def E : List (Nat × Nat) → Nat
  | [] => 0
  | (v, l) :: r => v + 2 ^ l * E r

def L : List (Nat × Nat) → Nat
  | [] => 0
  | (_, l) :: r => l + L r

theorem L_append (a b : List (Nat × Nat)) : L (a ++ b) = L a + L b := by
  induction a with
  | nil => simp [L]
  | cons x a ih => simp only [List.cons_append, L, ih]; omega

theorem E_append (a b : List (Nat × Nat)) : E (a ++ b) = E a + 2 ^ L a * E b := by
  induction a with
  | nil => simp [L, E]
  | cons x a ih => simp only [List.cons_append, L, E, ih, pow_add]; ring

/-- the number whose 32-bit digits, from the lowest, are the words -/
def wval : List Nat → Nat
  | [] => 0
  | w :: ws => w + 2 ^ 32 * wval ws

theorem wval_append (a b : List Nat) : wval (a ++ b) = wval a + 2 ^ (32 * a.length) * wval b := by
  induction a with
  | nil => simp [wval]
  | cons x a ih => simp only [List.cons_append, wval, ih, List.length_cons, Nat.mul_add, pow_add]; ring

theorem wval_word {ws : List Nat} (h : ∀ w ∈ ws, w < 2 ^ 32) : ∀ {i w : Nat}, ws[i]? = some w →
    wval ws / 2 ^ (32 * i) % 2 ^ 32 = w := by
  induction ws with
  | nil => intro i w hi; simp at hi
  | cons x ws ih =>
    intro i w hi
    have hx := h x List.mem_cons_self
    cases i with
    | zero =>
      simp only [List.getElem?_cons_zero, Option.some.injEq] at hi
      subst hi
      rw [wval, Nat.mul_zero, pow_zero, Nat.div_one, Nat.add_mul_mod_self_left, Nat.mod_eq_of_lt hx]
    | succ i =>
      rw [List.getElem?_cons_succ] at hi
      rw [← ih (fun w hw => h w (List.mem_cons_of_mem _ hw)) hi, wval, Nat.mul_add,
        Nat.add_comm (32 * i), show 32 * 1 = 32 from rfl, pow_add, ← Nat.div_div_eq_div_mul,
        Nat.add_mul_div_left _ _ (by positivity), Nat.div_eq_of_lt hx, Nat.zero_add]

theorem or_shift {a v b : Nat} (h : a < 2 ^ b) : a ||| (v <<< b) = a + 2 ^ b * v := by
  rw [Nat.or_comm, ← Nat.shiftLeft_add_eq_or_of_lt h, Nat.shiftLeft_eq]
  ring

/-! ## The writer -/

structure WInv (s : BW) (F : List (Nat × Nat)) : Prop where
  few : s.bits < 32
  buf : s.buf < 2 ^ s.bits
  words : ∀ w ∈ s.out, w < 2 ^ 32
  val : wval s.out + 2 ^ (32 * s.out.length) * s.buf = E F
  len : 32 * s.out.length + s.bits = L F

theorem WInv.init (cap : Nat) : WInv ⟨cap, [], 0, 0⟩ [] :=
  ⟨by simp, by simp, by simp, by simp [wval, E], by simp [L]⟩

theorem flush_spec {s : BW} {e l : Nat} (h64 : s.bits < 64) (hb : s.buf < 2 ^ s.bits)
    (hw : ∀ w ∈ s.out, w < 2 ^ 32)
    (hv : wval s.out + 2 ^ (32 * s.out.length) * s.buf = e)
    (hl : 32 * s.out.length + s.bits = l) (hc : l ≤ 32 * s.cap) :
    ∃ s', BW.flush s = .ok s' ∧ s'.cap = s.cap ∧ s'.bits < 32 ∧ s'.buf < 2 ^ s'.bits ∧
      (∀ w ∈ s'.out, w < 2 ^ 32) ∧ wval s'.out + 2 ^ (32 * s'.out.length) * s'.buf = e ∧
      32 * s'.out.length + s'.bits = l := by
  unfold BW.flush
  by_cases h : 32 ≤ s.bits
  · rw [if_pos h, if_pos (by omega)]
    refine ⟨_, rfl, rfl, ?_, ?_, ?_, ?_, ?_⟩
    · simp only; omega
    · simp only
      rw [Nat.shiftRight_eq_div_pow]
      apply Nat.div_lt_of_lt_mul
      rw [← pow_add, Nat.add_sub_cancel' h]
      exact hb
    · intro w hw'
      rcases List.mem_append.mp hw' with h' | h'
      · exact hw w h'
      · rw [List.mem_singleton.mp h']; exact Nat.mod_lt _ (by positivity)
    · simp only [List.length_append, List.length_singleton]
      rw [wval_append, ← hv, Nat.shiftRight_eq_div_pow, Nat.mul_add, pow_add,
        show 32 * 1 = 32 from rfl, wval, wval, Nat.mul_zero, Nat.add_zero]
      have := Nat.mod_add_div s.buf (2 ^ 32)
      generalize 2 ^ (32 * s.out.length) = A at *
      rw [Nat.add_assoc, Nat.mul_assoc, ← Nat.mul_add, this]
    · simp only [List.length_append, List.length_singleton]; omega
  · rw [if_neg h]
    exact ⟨s, rfl, rfl, by omega, hb, hw, hv, hl⟩

theorem put_spec {s : BW} {F : List (Nat × Nat)} (h : WInv s F) {v len : Nat} (hv : v < 2 ^ len)
    (h32 : len ≤ 32) (hc : L F + len ≤ 32 * s.cap) :
    ∃ s', s.put v len = .ok s' ∧ s'.cap = s.cap ∧ WInv s' (F ++ [(v, len)]) := by
  have hlt : s.buf + 2 ^ s.bits * v < 2 ^ (s.bits + len) := by
    rw [pow_add]
    have h1 := h.buf
    have h2 : 2 ^ s.bits * (v + 1) ≤ 2 ^ s.bits * 2 ^ len := Nat.mul_le_mul_left _ hv
    rw [Nat.mul_add, Nat.mul_one] at h2
    omega
  have hbuf : (s.buf ||| (v <<< s.bits)) % 2 ^ 64 = s.buf + 2 ^ s.bits * v := by
    rw [or_shift h.buf]
    apply Nat.mod_eq_of_lt
    refine lt_of_lt_of_le hlt (Nat.pow_le_pow_right (by omega) ?_)
    have := h.few; omega
  obtain ⟨s', e, h1, h2, h3, h4, h5, h6⟩ := flush_spec
    (s := { s with buf := (s.buf ||| (v <<< s.bits)) % 2 ^ 64, bits := s.bits + len })
    (e := E (F ++ [(v, len)])) (l := L (F ++ [(v, len)]))
    (by have := h.few; simp only; omega) (by simp only; rw [hbuf]; exact hlt) h.words
    (by
      simp only
      rw [hbuf, E_append, ← h.val, ← h.len, Nat.mul_add]
      simp only [E, pow_add]; ring)
    (by simp only; rw [L_append, ← h.len]; simp only [L]; omega)
    (by simp only; rw [L_append]; simp only [L]; omega)
  exact ⟨s', e, h1, ⟨h2, h3, h4, h5, h6⟩⟩

theorem zeros_spec (n : Nat) : ∀ {s : BW} {F : List (Nat × Nat)}, WInv s F →
    L F + 16 * n ≤ 32 * s.cap →
    ∃ s', BW.zeros16 n s = .ok s' ∧ s'.cap = s.cap ∧ WInv s' (F ++ [(0, 16 * n)]) := by
  induction n with
  | zero =>
    intro s F h hc
    refine ⟨s, rfl, rfl, h.few, h.buf, h.words, ?_, ?_⟩
    · rw [E_append, h.val]; simp [E]
    · rw [L_append, h.len]; simp [L]
  | succ n ih =>
    intro s F h hc
    obtain ⟨s', e, h1, h2, h3, h4, h5, h6⟩ := flush_spec
      (s := { s with bits := s.bits + 16 })
      (e := E (F ++ [(0, 16)])) (l := L (F ++ [(0, 16)]))
      (by have := h.few; simp only; omega)
      (by simp only; exact lt_of_lt_of_le h.buf (Nat.pow_le_pow_right (by omega) (by omega))) h.words
      (by simp only; rw [h.val, E_append]; simp [E])
      (by simp only; rw [L_append, ← h.len]; simp only [L]; omega)
      (by simp only; rw [L_append]; simp only [L]; omega)
    obtain ⟨s2, e2, hc2, hw2⟩ := ih (s := s') (F := F ++ [(0, 16)]) ⟨h2, h3, h4, h5, h6⟩
      (by rw [L_append, h1]; simp only [L]; omega)
    refine ⟨s2, ?_, by rw [hc2, h1], hw2.few, hw2.buf, hw2.words, ?_, ?_⟩
    · rw [BW.zeros16, e, ok_bind, e2]
    · rw [hw2.val, E_append, E_append, E_append]; simp [E]
    · rw [hw2.len, L_append, L_append, L_append]; simp only [L]; omega

theorem putUnary_spec {s : BW} {F : List (Nat × Nat)} (h : WInv s F) {n : Nat}
    (hc : L F + (n + 1) ≤ 32 * s.cap) :
    ∃ s', s.putUnary n = .ok s' ∧ s'.cap = s.cap ∧ WInv s' (F ++ [(2 ^ n, n + 1)]) := by
  have hn := Nat.div_add_mod n 16
  have hm := Nat.mod_lt n (show 16 > 0 by omega)
  obtain ⟨s1, e1, c1, w1⟩ := zeros_spec (n / 16) h (by omega)
  have h1 : (1 <<< (n % 16)) = 2 ^ (n % 16) := by rw [Nat.shiftLeft_eq, Nat.one_mul]
  obtain ⟨s2, e2, c2, w2⟩ := put_spec w1 (v := 1 <<< (n % 16)) (len := 1 + n % 16)
    (by rw [h1]; exact Nat.pow_lt_pow_right (by omega) (by omega)) (by omega)
    (by rw [L_append, c1]; simp only [L]; omega)
  refine ⟨s2, ?_, by rw [c2, c1], w2.few, w2.buf, w2.words, ?_, ?_⟩
  · rw [BW.putUnary, e1, ok_bind, e2]
  · rw [w2.val, h1, E_append, E_append, E_append, L_append]
    simp only [E, L, Nat.mul_zero, Nat.add_zero]
    rw [pow_add, Nat.mul_assoc, ← pow_add, hn]
  · rw [w2.len, L_append, L_append, L_append]; simp only [L]; omega

/-- The words written: their value, enough of them, not too many -/
theorem finish_spec {s : BW} {F : List (Nat × Nat)} (h : WInv s F) {pad : Nat} (hp : pad ≤ 32)
    (hc : L F + pad ≤ 32 * s.cap) :
    ∃ ws, s.finish pad = .ok ws ∧ (∀ w ∈ ws, w < 2 ^ 32) ∧ wval ws = E F ∧
      L F + pad ≤ 32 * ws.length ∧ ws.length ≤ s.cap := by
  obtain ⟨s', e, h1, h2, h3, h4, h5, h6⟩ := flush_spec
      (s := { s with bits := s.bits + pad }) (e := E F) (l := L F + pad)
      (by have := h.few; simp only; omega)
      (by simp only; exact lt_of_lt_of_le h.buf (Nat.pow_le_pow_right (by omega) (by omega))) h.words
      (by simp only; exact h.val) (by simp only; rw [← h.len]; omega) (by simp only; omega)
  simp only at h1
  unfold BW.finish
  rw [e, ok_bind]
  by_cases hb : s'.bits > 0
  · rw [if_pos hb, if_pos (by omega)]
    have hbuf : s'.buf < 2 ^ 32 := lt_of_lt_of_le h3 (Nat.pow_le_pow_right (by omega) (by omega))
    refine ⟨_, rfl, ?_, ?_, ?_, ?_⟩
    · intro w hw'
      rcases List.mem_append.mp hw' with h' | h'
      · exact h4 w h'
      · rw [List.mem_singleton.mp h']; exact Nat.mod_lt _ (by positivity)
    · rw [wval_append, Nat.mod_eq_of_lt hbuf, ← h5]; simp [wval]
    · rw [List.length_append, List.length_singleton]; omega
    · rw [List.length_append, List.length_singleton]; omega
  · rw [if_neg hb]
    have h0 : s'.bits = 0 := by omega
    refine ⟨_, rfl, h4, ?_, by omega, by omega⟩
    rw [← h5]
    rw [h0, pow_zero] at h3
    rw [show s'.buf = 0 by omega]; simp

/-! ## The reader -/

structure RInv (s : BR) (P : Nat) : Prop where
  words : ∀ w ∈ s.ws, w < 2 ^ 32
  pos : 32 * s.next = P + s.bits
  buf : s.buf = wval s.ws / 2 ^ P % 2 ^ s.bits
  le : s.next ≤ s.ws.length

theorem RInv.init {ws : List Nat} (h : ∀ w ∈ ws, w < 2 ^ 32) : RInv ⟨ws, 0, 0, 0⟩ 0 :=
  ⟨h, by simp, by simp [Nat.mod_one], by simp⟩

theorem refill_spec {s : BR} {P : Nat} (h : RInv s P) {n : Nat} (hn : n ≤ 32)
    (hP : P + n ≤ 32 * s.ws.length) :
    ∃ s', s.refill n = .ok s' ∧ s'.ws = s.ws ∧ RInv s' P ∧ n ≤ s'.bits := by
  unfold BR.refill
  by_cases hb : s.bits < n
  · have hp := h.pos
    have hlt : s.next < s.ws.length := by omega
    obtain ⟨w, hw⟩ : ∃ w, s.ws[s.next]? = some w := ⟨_, List.getElem?_eq_getElem hlt⟩
    have hw32 : w < 2 ^ 32 := h.words w (List.mem_of_getElem? hw)
    have hbl : s.buf < 2 ^ s.bits := by rw [h.buf]; exact Nat.mod_lt _ (by positivity)
    rw [if_pos hb, hw]
    have hval := wval_word h.words hw
    have hbuf : (s.buf ||| ((w &&& 0xFFFFFFFF) <<< s.bits)) % 2 ^ 64 =
        wval s.ws / 2 ^ P % 2 ^ (s.bits + 32) := by
      rw [show (0xFFFFFFFF : Nat) = 2 ^ 32 - 1 from rfl, Nat.and_two_pow_sub_one_eq_mod,
        Nat.mod_eq_of_lt hw32, or_shift hbl]
      have e1 : wval s.ws / 2 ^ P % 2 ^ (s.bits + 32) = s.buf + 2 ^ s.bits * w := by
        rw [pow_add, Nat.mod_mul, ← h.buf, Nat.div_div_eq_div_mul, ← pow_add, ← hp, hval]
      rw [← e1]
      apply Nat.mod_eq_of_lt
      exact lt_of_lt_of_le (Nat.mod_lt _ (by positivity)) (Nat.pow_le_pow_right (by omega) (by omega))
    refine ⟨_, rfl, rfl, ⟨h.words, ?_, ?_, ?_⟩, ?_⟩
    · simp only; omega
    · simp only; exact hbuf
    · simp only; omega
    · simp only; omega
  · rw [if_neg hb]
    exact ⟨s, rfl, rfl, h, by omega⟩

theorem drop_spec {s : BR} {P : Nat} (h : RInv s P) {n : Nat} (hn : n ≤ s.bits) :
    RInv (s.drop n) (P + n) := by
  refine ⟨h.words, ?_, ?_, h.le⟩
  · have := h.pos; simp only [BR.drop]; omega
  · simp only [BR.drop]
    rw [h.buf, Nat.shiftRight_eq_div_pow, pow_add, ← Nat.div_div_eq_div_mul]
    conv_lhs => rw [show s.bits = n + (s.bits - n) by omega, pow_add, Nat.mod_mul_right_div_self]

theorem peek_spec {s : BR} {P : Nat} (h : RInv s P) {n : Nat} (hn : n ≤ s.bits) :
    s.buf &&& (2 ^ n - 1) = wval s.ws / 2 ^ P % 2 ^ n := by
  rw [Nat.and_two_pow_sub_one_eq_mod, h.buf, Nat.mod_mod_of_dvd]
  exact Nat.pow_dvd_pow 2 hn

theorem ctz8_spec : ∀ x < 256, ∀ h < 8, x % 2 ^ h = 0 → x / 2 ^ h % 2 = 1 → ctz8 x = h := by
  decide +kernel

theorem ctz8_zero : ctz8 0 = 8 := by decide +kernel

theorem ctz8_unary {h R : Nat} : ctz8 ((2 ^ h + 2 ^ (h + 1) * R) % 256) = min h 8 := by
  have hx : 2 ^ h + 2 ^ (h + 1) * R = 2 ^ h * (1 + 2 * R) := by rw [pow_succ]; ring
  rw [hx]
  by_cases h8 : h < 8
  · rw [Nat.min_eq_left (by omega)]
    apply ctz8_spec _ (Nat.mod_lt _ (by omega)) h h8
    · rw [Nat.mod_mod_of_dvd _ (show 2 ^ h ∣ 256 from Nat.pow_dvd_pow 2 (n := 8) (by omega))]
      exact Nat.mul_mod_right _ _
    · have e : (256 : Nat) = 2 ^ h * 2 ^ (8 - h) := by
        rw [← pow_add, Nat.add_sub_cancel' (by omega)]; rfl
      rw [e, Nat.mul_mod_mul_left, Nat.mul_div_cancel_left _ (by positivity), Nat.mod_mod_of_dvd]
      · omega
      · exact dvd_pow_self 2 (by omega)
  · rw [Nat.min_eq_right (by omega)]
    have : (2 ^ h * (1 + 2 * R)) % 256 = 0 := by
      apply Nat.mod_eq_zero_of_dvd
      exact Dvd.dvd.mul_right (Nat.pow_dvd_pow 2 (m := 8) (by omega)) _
    rw [this, ctz8_zero]

theorem unaryLoop_spec : ∀ (fuel : Nat) {s : BR} {P h R sub : Nat}, RInv s P →
    wval s.ws / 2 ^ P = 2 ^ h + 2 ^ (h + 1) * R → P + h + 8 ≤ 32 * s.ws.length → h / 8 < fuel →
    ∃ s', BR.readUnaryLoop fuel s sub = .ok (s', sub + h) ∧ s'.ws = s.ws ∧ RInv s' (P + h + 1) := by
  intro fuel
  induction fuel with
  | zero => intro s P h R sub _ _ _ hf; omega
  | succ fuel ih =>
    intro s P h R sub hI hv hP hf
    obtain ⟨s1, e1, w1, I1, b1⟩ := refill_spec hI (n := 8) (by omega) (by omega)
    have hpk : s1.buf &&& 0xFF = (2 ^ h + 2 ^ (h + 1) * R) % 256 := by
      have := peek_spec I1 b1
      rw [w1, hv] at this
      exact this
    rw [BR.readUnaryLoop, e1, ok_bind, hpk, ctz8_unary]
    by_cases h8 : h < 8
    · rw [if_neg (by omega), Nat.min_eq_left (by omega)]
      refine ⟨_, rfl, w1, ?_⟩
      have := drop_spec I1 (n := 1 + h) (by omega)
      rw [show P + h + 1 = P + (1 + h) by omega]
      exact this
    · rw [if_pos (by omega)]
      have hd := drop_spec I1 b1
      obtain ⟨s2, e2, w2, I2⟩ := ih (s := s1.drop 8) (P := P + 8) (h := h - 8) (R := R) (sub := sub + 8) hd
        (by
          show wval s1.ws / _ = _
          rw [w1, pow_add, ← Nat.div_div_eq_div_mul, hv, show (2 : Nat) ^ 8 = 2 ^ 8 from rfl]
          have e : 2 ^ h + 2 ^ (h + 1) * R = 2 ^ 8 * (2 ^ (h - 8) + 2 ^ (h - 8 + 1) * R) := by
            rw [Nat.mul_add, ← Nat.mul_assoc, ← pow_add, ← pow_add]
            rw [show 8 + (h - 8) = h by omega, show 8 + (h - 8 + 1) = h + 1 by omega]
          rw [e, Nat.mul_div_cancel_left _ (by positivity)])
        (by show _ ≤ 32 * s1.ws.length; rw [w1]; omega) (by omega)
      refine ⟨s2, ?_, by rw [w2]; exact w1, ?_⟩
      · rw [e2]; congr 2; omega
      · rw [show P + h + 1 = P + 8 + (h - 8) + 1 by omega]; exact I2

theorem readUnary_spec {s : BR} {P h R : Nat} (hI : RInv s P)
    (hv : wval s.ws / 2 ^ P = 2 ^ h + 2 ^ (h + 1) * R) (hP : P + h + 8 ≤ 32 * s.ws.length) :
    ∃ s', s.readUnary = .ok (s', h) ∧ s'.ws = s.ws ∧ RInv s' (P + h + 1) := by
  unfold BR.readUnary
  obtain ⟨s', e, w, I⟩ := unaryLoop_spec (4 * s.ws.length + 9) (sub := 0) hI hv hP (by omega)
  exact ⟨s', by rw [e, Nat.zero_add], w, I⟩

/-- Past a field -/
theorem E_tail {V P v l : Nat} {r : List (Nat × Nat)} (h : V / 2 ^ P = E ((v, l) :: r))
    (hv : v < 2 ^ l) : V / 2 ^ (P + l) = E r := by
  rw [pow_add, ← Nat.div_div_eq_div_mul, h, E, Nat.add_mul_div_left _ _ (by positivity),
    Nat.div_eq_of_lt hv, Nat.zero_add]

end Verif.Cpc
