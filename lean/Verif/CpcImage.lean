import Verif.CpcRound

/-!
# The bytes of a compressed state
-/

namespace Verif.Cpc

open Outcome

/-! ## Writing fields that do not overlap -/

def Disj (a b : Nat × Nat) : Prop := a.1 + a.2 ≤ b.1 ∨ b.1 + b.2 ≤ a.1

instance : DecidableRel Disj := fun a b => by unfold Disj; infer_instance

def span (f : Field) : Nat × Nat := (f.1, f.2.1)

theorem putAll_keep : ∀ (fs : List Field) (m : List Nat) (o k : Nat),
    (∀ f ∈ fs, f.1 + f.2.1 ≤ m.length) → (∀ f ∈ fs, Disj (o, k) (span f)) →
    ∃ m', putAll m fs = .ok m' ∧ m'.length = m.length ∧ getT m' o k = getT m o k := by
  intro fs
  induction fs with
  | nil => intro m o k _ _; exact ⟨m, rfl, rfl, rfl⟩
  | cons f fs ih =>
    intro m o k hb hd
    have h1 := hb f List.mem_cons_self
    have h2 := hd f List.mem_cons_self
    obtain ⟨m', e, l, g⟩ := ih (putT m f.1 f.2.1 f.2.2) o k
      (fun x hx => by rw [putT_length]; exact hb x (List.mem_cons_of_mem _ hx))
      (fun x hx => hd x (List.mem_cons_of_mem _ hx))
    refine ⟨m', ?_, by rw [l, putT_length], ?_⟩
    · unfold putAll at *
      rw [List.foldlM_cons, putLE_ok h1, ok_bind]
      exact e
    · rw [g]
      exact getT_putT_disj (by unfold Disj span at h2; omega)

theorem putAll_spec : ∀ (fs : List Field) (m : List Nat),
    (∀ f ∈ fs, f.1 + f.2.1 ≤ m.length) → (fs.map span).Pairwise Disj →
    ∃ m', putAll m fs = .ok m' ∧ m'.length = m.length ∧
      ∀ f ∈ fs, getLE m' f.1 f.2.1 = .ok (f.2.2 % 256 ^ f.2.1) := by
  intro fs
  induction fs with
  | nil => intro m _ _; exact ⟨m, rfl, rfl, by simp⟩
  | cons f fs ih =>
    intro m hb hd
    have h1 := hb f List.mem_cons_self
    rw [List.map_cons, List.pairwise_cons] at hd
    have hb' : ∀ x ∈ fs, x.1 + x.2.1 ≤ (putT m f.1 f.2.1 f.2.2).length :=
      fun x hx => by rw [putT_length]; exact hb x (List.mem_cons_of_mem _ hx)
    obtain ⟨m', e, l, g⟩ := ih (putT m f.1 f.2.1 f.2.2) hb' hd.2
    obtain ⟨m'', e2, _, g2⟩ := putAll_keep fs (putT m f.1 f.2.1 f.2.2) f.1 f.2.1 hb'
      (fun x hx => hd.1 _ (List.mem_map_of_mem hx))
    rw [e] at e2
    cases e2
    rw [putT_length] at l
    refine ⟨m', ?_, l, ?_⟩
    · unfold putAll at *
      rw [List.foldlM_cons, putLE_ok h1, ok_bind]
      exact e
    · intro x hx
      rcases List.mem_cons.mp hx with rfl | hx
      · rw [getLE_ok (by rw [l]; exact h1), g2, getT_putT_same h1]
      · exact g x hx

/-! ## Streams -/

theorem stream_bounds : ∀ (ws : List Nat) (o : Nat), ∀ f ∈ streamFields o ws,
    o ≤ f.1 ∧ f.1 + f.2.1 ≤ o + 4 * ws.length := by
  intro ws
  induction ws with
  | nil => intro o f hf; simp [streamFields] at hf
  | cons w ws ih =>
    intro o f hf
    rw [streamFields] at hf
    rw [List.length_cons]
    rcases List.mem_cons.mp hf with rfl | hf
    · simp only; omega
    · have := ih (o + 4) f hf
      omega

theorem stream_disj : ∀ (ws : List Nat) (o : Nat), ((streamFields o ws).map span).Pairwise Disj := by
  intro ws
  induction ws with
  | nil => intro o; exact List.Pairwise.nil
  | cons w ws ih =>
    intro o
    rw [streamFields, List.map_cons, List.pairwise_cons]
    refine ⟨?_, ih _⟩
    intro x hx
    obtain ⟨f, hf, rfl⟩ := List.mem_map.mp hx
    have := stream_bounds ws (o + 4) f hf
    left
    unfold span
    simp only
    omega

theorem getStream_spec {m : List Nat} : ∀ (ws : List Nat) (o : Nat), (∀ w ∈ ws, w < 2 ^ 32) →
    (∀ f ∈ streamFields o ws, getLE m f.1 f.2.1 = .ok (f.2.2 % 256 ^ f.2.1)) →
    getStream m ws.length o = .ok ws := by
  intro ws
  induction ws with
  | nil => intro o _ _; rfl
  | cons w ws ih =>
    intro o hw h
    have h0 := h (o, 4, w) (by rw [streamFields]; exact List.mem_cons_self)
    have hw0 := hw w List.mem_cons_self
    simp only at h0
    rw [Nat.mod_eq_of_lt (by norm_num at *; exact hw0)] at h0
    rw [List.length_cons, getStream, h0, ok_bind,
      ih (o + 4) (fun x hx => hw x (List.mem_cons_of_mem _ hx))
        (fun f hf => h f (by rw [streamFields]; exact List.mem_cons_of_mem _ hf)), ok_bind]

/-! ## The first eight bytes -/

/-- the fields can be read back -/
def Reads (m : List Nat) (fs : List Field) : Prop :=
  ∀ f ∈ fs, getLE m f.1 f.2.1 = .ok (f.2.2 % 256 ^ f.2.1)

theorem Reads.left {m : List Nat} {a b : List Field} (h : Reads m (a ++ b)) : Reads m a :=
  fun f hf => h f (List.mem_append_left _ hf)

theorem Reads.right {m : List Nat} {a b : List Field} (h : Reads m (a ++ b)) : Reads m b :=
  fun f hf => h f (List.mem_append_right _ hf)

structure Head (m : List Nat) (fmt lgK fi : Nat) (h : BitVec 16) : Prop where
  check : checkLo m = .ok ()
  flags : getLE m 5 1 = .ok ((fmt <<< 2) ||| 2)
  format : formatOf m = .ok fmt
  pre : getLE m 0 1 = .ok (preInts fmt)
  lg : getLE m 3 1 = .ok lgK
  fi : getLE m 4 1 = .ok fi
  hash : getLE m 6 2 = .ok h.toNat

theorem flags_spec : ∀ fmt < 8, ((fmt <<< 2) ||| 2) % 256 ^ 1 = (fmt <<< 2) ||| 2 ∧
    ((((fmt <<< 2) ||| 2) >>> 2) &&& 7) = fmt ∧ preInts fmt % 256 ^ 1 = preInts fmt ∧
    ((fmt <<< 2) ||| 2) &&& 2 ≠ 0 := by decide

theorem head_spec {m : List Nat} {fmt lgK fi : Nat} {h : BitVec 16} (hr : Reads m (first8 fmt lgK fi h))
    (hf : fmt < 8) (hl : 8 ≤ m.length) (h4 : 4 ≤ lgK) (h26 : lgK ≤ 26) (hfi : fi ≤ 63) :
    Head m fmt lgK fi h := by
  obtain ⟨f1, f2, f3, f4⟩ := flags_spec fmt hf
  have r0 := hr (0, 1, preInts fmt) (by simp [first8])
  have r1 := hr (1, 1, 1) (by simp [first8])
  have r2 := hr (2, 1, 16) (by simp [first8])
  have r3 := hr (3, 1, lgK) (by simp [first8])
  have r4 := hr (4, 1, fi) (by simp [first8])
  have r5 := hr (5, 1, (fmt <<< 2) ||| 2) (by simp [first8])
  have r6 := hr (6, 2, h.toNat) (by simp [first8])
  simp only at r0 r1 r2 r3 r4 r5 r6
  rw [f3] at r0
  rw [f1] at r5
  rw [Nat.mod_eq_of_lt (by omega)] at r3 r4
  rw [Nat.mod_eq_of_lt (by have := h.isLt; norm_num at *; exact this)] at r6
  have rf : formatOf m = .ok fmt := by
    unfold formatOf
    rw [r5, ok_bind, f2]
  refine ⟨?_, r5, rf, r0, r3, r4, r6⟩
  unfold checkLo
  rw [if_neg (by omega), r1, ok_bind, if_neg (by decide), rf, ok_bind, r0, ok_bind, if_neg (by simp), r2,
    ok_bind, if_neg (by decide), r3, ok_bind, if_neg (by omega), r4, ok_bind, if_neg (by omega)]

/-! ## Export and import -/

/-- The state that is read back: the registers of the running estimate are stored only in the formats
with `HIP` and a non-empty set. -/
def decoded (fbits : ℚ → BitVec 64) (fval : BitVec 64 → ℚ) (c : CS) : CS :=
  { c with
    kxp := if c.merged ∨ c.num = 0 then 2 ^ c.lgK else fval (fbits c.kxp)
    hip := if c.merged ∨ c.num = 0 then 0 else fval (fbits c.hip) }

structure CSOk (c : CS) : Prop where
  lg4 : 4 ≤ c.lgK
  lg26 : c.lgK ≤ 26
  fi : c.fiCol ≤ 63
  num : c.num < 2 ^ 32
  svWords : ∀ w ∈ c.csv.getD [], w < 2 ^ 32
  cwWords : ∀ w ∈ c.cw.getD [], w < 2 ^ 32
  svLen : c.csvLen = (c.csv.getD []).length
  cwLenEq : c.cwLen = (c.cw.getD []).length
  svLt : c.csvLen < 2 ^ 31
  cwLt : c.cwLen < 2 ^ 31
  numCsvLt : c.numCsv < 2 ^ 32
  sv : (c.numCsv = 0 ∧ c.csv = none) ∨ (0 < c.numCsv ∧ c.csv.isSome = true ∧ 0 < c.csvLen)
  win : (c.cw = none ∧ c.numCsv = c.num ∧ c.fiCol = 0) ∨ (c.cw.isSome = true ∧ 0 < c.cwLen)
  /-- a window only on a sketch that is not empty -/
  winNum : c.cw.isSome = true → 0 < c.num

theorem f64_mod (x : BitVec 64) : x.toNat % 256 ^ 8 = x.toNat :=
  Nat.mod_eq_of_lt (by have := x.isLt; norm_num at *; exact this)

theorem u32_mod {x : Nat} (h : x < 2 ^ 32) : x % 256 ^ 4 = x :=
  Nat.mod_eq_of_lt (by norm_num at *; exact h)

theorem getHip_spec {fval : BitVec 64 → ℚ} {m : List Nat} {fmt : Nat} {k h : BitVec 64} {c : CS}
    (r1 : getLE m (hiOff fmt fKxp) 8 = .ok (k.toNat % 256 ^ 8))
    (r2 : getLE m (hiOff fmt fHip) 8 = .ok (h.toNat % 256 ^ 8)) :
    getHip fval m fmt c = .ok { c with kxp := fval k, hip := fval h } := by
  unfold getHip
  rw [r1, ok_bind, r2, ok_bind, f64_mod, f64_mod, BitVec.ofNat_toNat, BitVec.setWidth_eq,
    BitVec.ofNat_toNat, BitVec.setWidth_eq]

variable {fbits : ℚ → BitVec 64} {fval : BitVec 64 → ℚ}

/-- all fields of an image lie within it and apart -/
theorem image_ok {hdr : List Field} {H : Nat} {a b : List Nat} {N : Nat}
    (h1 : ∀ f ∈ hdr, f.1 + f.2.1 ≤ H) (h2 : (hdr.map span).Pairwise Disj)
    (hN : N = H + 4 * b.length + 4 * a.length) :
    ∃ m, putAll (List.replicate N 0) (hdr ++ streamFields (H + 4 * b.length) a ++ streamFields H b) = .ok m ∧
      m.length = N ∧ Reads m hdr ∧ Reads m (streamFields (H + 4 * b.length) a) ∧
      Reads m (streamFields H b) := by
  have hb : ∀ f ∈ hdr ++ streamFields (H + 4 * b.length) a ++ streamFields H b,
      f.1 + f.2.1 ≤ (List.replicate N 0).length := by
    intro f hf
    rw [List.length_replicate]
    rcases List.mem_append.mp hf with hf | hf
    · rcases List.mem_append.mp hf with hf | hf
      · have := h1 f hf; omega
      · have := stream_bounds _ _ f hf; omega
    · have := stream_bounds _ _ f hf; omega
  have hd : ((hdr ++ streamFields (H + 4 * b.length) a ++ streamFields H b).map span).Pairwise Disj := by
    rw [List.map_append, List.map_append, List.pairwise_append, List.pairwise_append]
    refine ⟨⟨h2, stream_disj _ _, ?_⟩, stream_disj _ _, ?_⟩
    · intro x hx y hy
      obtain ⟨f, hf, rfl⟩ := List.mem_map.mp hx
      obtain ⟨g, hg, rfl⟩ := List.mem_map.mp hy
      have g1 := h1 f hf
      have g2 := stream_bounds _ _ g hg
      left; unfold span; simp only; omega
    · intro x hx y hy
      obtain ⟨g, hg, rfl⟩ := List.mem_map.mp hy
      have g2 := stream_bounds _ _ g hg
      rcases List.mem_append.mp hx with hx | hx
      · obtain ⟨f, hf, rfl⟩ := List.mem_map.mp hx
        have g1 := h1 f hf
        left; unfold span; simp only; omega
      · obtain ⟨f, hf, rfl⟩ := List.mem_map.mp hx
        have g1 := stream_bounds _ _ f hf
        right; unfold span; simp only; omega
  obtain ⟨m, e, l, r⟩ := putAll_spec _ _ hb hd
  rw [List.length_replicate] at l
  have r' : Reads m (hdr ++ streamFields (H + 4 * b.length) a ++ streamFields H b) := r
  exact ⟨m, e, l, r'.left.left, r'.left.right, r'.right⟩

theorem fmt_cases (c : CS) : c.format =
    (if c.cwLen > 0 then 4 else 0) + (if c.numCsv > 0 then 2 else 0) + (if c.merged then 0 else 1) := by
  unfold CS.format
  by_cases h1 : c.cwLen > 0 <;> by_cases h2 : c.numCsv > 0 <;> cases h3 : c.merged <;> simp [h1, h2]

end Verif.Cpc
