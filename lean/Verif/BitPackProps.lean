import Verif.BitPackCheck
import Mathlib.Data.Nat.Bits

/-!
# C11: the 8-value block packers

The specification is the big-endian bit stream: `streamBit vals n p` is bit `p` of the
concatenation of the values (`n` bits each), `byteBit bytes p` is bit `p` of the buffer.
-/

namespace Verif.BitPack

/-- `packBitsBlock8`, theta/bit_packing.go l.3239-3371; the outer `none` is a panic, the inner
`none` the returned error -/
def packBlock8 (vals bytes : List Nat) (bits : Nat) : Option (Option (List Nat)) :=
  match packProg bits with
  | none => some none
  | some p =>
    match exec 8 vals p bytes with
    | none => none
    | some b => some (some b)

/-- `unpackBitsBlock8`, theta/bit_packing.go l.6298-6430 -/
def unpackBlock8 (vals bytes : List Nat) (bits : Nat) : Option (Option (List Nat)) :=
  match unpackProg bits with
  | none => some none
  | some p =>
    match exec 64 bytes p vals with
    | none => none
    | some b => some (some b)

theorem cellsOk_spec {want : Nat → Nat → List (Nat × Nat)} {w sw dl : Nat} {prog : List Stmt}
    (h : cellsOk want w sw dl prog = true) {j b : Nat} (hj : j < dl) (hb : b < w) :
    (prog.filter fun st => st.d == j).foldl (symStep w sw b) (true, []) = (false, want j b) := by
  simp only [cellsOk, List.all_eq_true, List.mem_range, beq_iff_eq] at h
  exact h j hj b hb

theorem exec_bit {want : Nat → Nat → List (Nat × Nat)} {w sw dl : Nat} {prog : List Stmt}
    (h : cellsOk want w sw dl prog = true) {src dst dst' : List Nat}
    (hsrc : ∀ x ∈ src, x < 2 ^ sw) (he : exec w src prog dst = some dst')
    {j b : Nat} (hj : j < dl) (hb : b < w) :
    (dst'.getD j 0).testBit b = (want j b).any fun p => (src.getD p.1 0).testBit p.2 := by
  have := exec_spec w sw b src hsrc j prog dst dst' he (dst.getD j 0) (true, [])
    (by simp [evalSym])
  rw [this, cellsOk_spec h hj hb]
  simp [evalSym]

/-- every word written by the program is below `2^w` -/
theorem exec_lt (w : Nat) (src : List Nat) :
    ∀ (prog : List Stmt) (dst dst' : List Nat), exec w src prog dst = some dst' →
      (∀ x ∈ dst, x < 2 ^ w) → ∀ x ∈ dst', x < 2 ^ w := by
  intro prog
  induction prog with
  | nil => intro dst dst' h hd; simp only [exec, Option.some.injEq] at h; subst h; exact hd
  | cons st l ih =>
    intro dst dst' h hd
    simp only [exec, Stmt.exec] at h
    cases hx : src[st.s]? with
    | none => simp [hx] at h
    | some x =>
      cases hy : dst[st.d]? with
      | none => simp [hx, hy] at h
      | some z =>
        simp only [hx, hy] at h
        refine ih _ dst' h ?_
        intro v hv
        rcases List.mem_or_eq_of_mem_set hv with h' | h'
        · exact hd v h'
        · have hval : st.val w x < 2 ^ w := Nat.mod_lt _ (Nat.two_pow_pos w)
          subst h'
          cases st.isAssign
          · exact Nat.or_lt_two_pow (hd z (List.mem_of_getElem? hy)) hval
          · exact hval

theorem packOk_of {n : Nat} (h1 : 1 ≤ n) (h2 : n ≤ 63) : packOk n = true := by
  have := packOk_all (n - 1) (by omega)
  rwa [Nat.sub_add_cancel h1] at this

theorem unpackOk_of {n : Nat} (h1 : 1 ≤ n) (h2 : n ≤ 63) : unpackOk n = true := by
  have := unpackOk_all (n - 1) (by omega)
  rwa [Nat.sub_add_cancel h1] at this

/-- **C11 (pack).** For every width 1..63, eight values fitting the width and every buffer of at
least `n` bytes, packing succeeds, the first `n` bytes become exactly the big-endian bit stream of
the values whatever they held before, and the other bytes are untouched. -/
theorem C11_block_pack_stream {n : Nat} (h1 : 1 ≤ n) (h2 : n ≤ 63) (vals bytes : List Nat)
    (hl : 8 ≤ vals.length) (hv : ∀ v ∈ vals, v < 2 ^ n) (hb : n ≤ bytes.length) :
    ∃ out, packBlock8 vals bytes n = some (some out) ∧ out.length = bytes.length
      ∧ (∀ p < 8 * n, byteBit out p = streamBit vals n p)
      ∧ (∀ j, n ≤ j → out[j]? = bytes[j]?)
      ∧ ((∀ x ∈ bytes, x < 256) → ∀ x ∈ out, x < 256) := by
  have hok := packOk_of h1 h2
  unfold packOk at hok
  unfold packBlock8
  cases hp : packProg n with
  | none => simp [hp] at hok
  | some prog =>
    simp only [hp, Bool.and_eq_true] at hok
    obtain ⟨hr, hc⟩ := hok
    obtain ⟨out, e, el, ej⟩ := exec_total 8 vals 8 n hl prog bytes hr hb
    refine ⟨out, by simp [e], el, ?_, ej, fun h => exec_lt 8 vals prog bytes out e h⟩
    intro p hp
    unfold byteBit streamBit
    rw [exec_bit hc hv e (by omega : p / 8 < n) (by omega : 7 - p % 8 < 8)]
    have : 8 * (p / 8) + (7 - (7 - p % 8)) = p := by omega
    simp [packWant, this]

/-- **C11 (unpack).** For every width 1..63, every buffer of bytes holding at least `n` bytes and
every value array of at least eight words, unpacking succeeds and value `i` becomes the `i`-th
`n`-bit group of the stream, whatever the array held before. -/
theorem C11_block_unpack_stream {n : Nat} (h1 : 1 ≤ n) (h2 : n ≤ 63) (vals bytes : List Nat)
    (hl : 8 ≤ vals.length) (hb : n ≤ bytes.length) (hx : ∀ x ∈ bytes, x < 256)
    (h64 : ∀ v ∈ vals, v < 2 ^ 64) :
    ∃ out, unpackBlock8 vals bytes n = some (some out) ∧ out.length = vals.length
      ∧ (∀ i < 8, ∀ b, (out.getD i 0).testBit b
          = (decide (b < n) && byteBit bytes (i * n + (n - 1 - b))))
      ∧ (∀ j, 8 ≤ j → out[j]? = vals[j]?) := by
  have hok := unpackOk_of h1 h2
  unfold unpackOk at hok
  unfold unpackBlock8
  cases hp : unpackProg n with
  | none => simp [hp] at hok
  | some prog =>
    simp only [hp, Bool.and_eq_true] at hok
    obtain ⟨hr, hc⟩ := hok
    obtain ⟨out, e, el, ej⟩ := exec_total 64 bytes n 8 hb prog vals hr hl
    refine ⟨out, by simp [e], el, ?_, ej⟩
    intro i hi b
    by_cases hb64 : b < 64
    · rw [exec_bit hc hx e hi hb64]
      unfold unpackWant byteBit
      by_cases hbn : b < n
      · have : Nat.blt b n = true := by rw [Nat.blt, Nat.ble_eq]; exact hbn
        simp [this, hbn]
      · have : Nat.blt b n = false := by
          rw [← Bool.not_eq_true, Nat.blt, Nat.ble_eq]; omega
        simp [this, hbn]
    · have hlt : out.getD i 0 < 2 ^ 64 := by
        have hi' : i < out.length := by omega
        simp only [List.getD, List.getElem?_eq_getElem hi', Option.getD_some]
        exact exec_lt 64 bytes prog vals out e h64 _ (List.getElem_mem hi')
      rw [testBit_ge hlt (by omega)]
      simp; omega

/-- **C11 (round trip).** Packing eight values and unpacking the bytes returns the values, for
every width and whatever the destination buffers held before. -/
theorem C11_block_round_trip {n : Nat} (h1 : 1 ≤ n) (h2 : n ≤ 63) (vals bytes init : List Nat)
    (hl : vals.length = 8) (hv : ∀ v ∈ vals, v < 2 ^ n) (hb : n ≤ bytes.length)
    (hx : ∀ x ∈ bytes, x < 256) (hi : init.length = 8) (h64 : ∀ v ∈ init, v < 2 ^ 64) :
    ∃ out, packBlock8 vals bytes n = some (some out)
      ∧ unpackBlock8 init out n = some (some vals) := by
  obtain ⟨out, e, el, es, -, ex⟩ := C11_block_pack_stream h1 h2 vals bytes (by omega) hv hb
  obtain ⟨w, e', wl, wb, -⟩ := C11_block_unpack_stream h1 h2 init out (by omega) (by omega)
    (ex hx) h64
  refine ⟨out, e, ?_⟩
  rw [e']
  congr 2
  apply List.ext_getElem (by omega)
  intro i hi1 hi2
  apply Nat.eq_of_testBit_eq
  intro b
  have h3 := wb i (by omega) b
  simp only [List.getD, List.getElem?_eq_getElem hi1, Option.getD_some] at h3
  rw [h3]
  by_cases hbn : b < n
  · have hlt : i * n + (n - 1 - b) < 8 * n := by
      have : i * n + n ≤ 8 * n := by
        calc i * n + n = (i + 1) * n := by rw [Nat.add_mul, Nat.one_mul]
          _ ≤ 8 * n := Nat.mul_le_mul_right _ (by omega)
      omega
    rw [es _ hlt]
    unfold streamBit
    have hd : (i * n + (n - 1 - b)) / n = i := by
      rw [Nat.mul_comm, Nat.mul_add_div (by omega), Nat.div_eq_of_lt (by omega)]; rfl
    have hm : (i * n + (n - 1 - b)) % n = n - 1 - b := by
      rw [Nat.mul_comm, Nat.mul_add_mod, Nat.mod_eq_of_lt (by omega)]
    rw [hd, hm]
    simp only [List.getD, List.getElem?_eq_getElem hi2, Option.getD_some, hbn, decide_true,
      Bool.true_and]
    congr 1; omega
  · rw [testBit_ge (hv _ (List.getElem_mem hi2)) (by omega)]
    simp [hbn]

/-- **C11 (other widths).** Width 0 and widths from 64 up are rejected with an error and nothing
is written. -/
theorem C11_other_widths_error {n : Nat} (h : n = 0 ∨ 64 ≤ n) (vals bytes : List Nat) :
    packBlock8 vals bytes n = some none ∧ unpackBlock8 vals bytes n = some none := by
  have hp : packProg n = none := by
    unfold packProg; split <;> first | rfl | omega
  have hu : unpackProg n = none := by
    unfold unpackProg; split <;> first | rfl | omega
  simp [packBlock8, unpackBlock8, hp, hu]

/-- hypotheses are satisfiable and the statement non-trivial: 13-bit values into a dirty buffer -/
example : packBlock8 [1, 8191, 0, 5, 4096, 77, 2, 3] (List.replicate 14 255) 13
    = some (some [0, 15, 255, 192, 0, 0, 88, 0, 1, 52, 0, 64, 3, 255]) := by decide +kernel

end Verif.BitPack
