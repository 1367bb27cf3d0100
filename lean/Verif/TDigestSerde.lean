import Mathlib.Data.Nat.Bitwise
import Verif.TDigestQuantile
import Verif.TDigestSerdeModel

/-!
# Serialization of the t-digest: helper lemmas
-/

namespace Verif.TDigest

set_option linter.unusedSectionVars false

variable {α : Type} [Field α] [LinearOrder α] [IsStrictOrderedRing α]

/-! ### The encoder -/

theorem cenBytes_length (F : Codec α) (c : Cen α) : (cenBytes F c).length = 16 := by
  simp [cenBytes]

theorem cens_length (F : Codec α) (cs : List (Cen α)) :
    ((cs.map (cenBytes F)).flatten).length = 16 * cs.length := by
  induction cs with
  | nil => rfl
  | cons c cs ih => simp [cenBytes_length, ih]; omega

theorem buf_length (F : Codec α) (vs : List α) :
    ((vs.map fun v => toLE 8 (F.bits (.fin v))).flatten).length = 8 * vs.length := by
  induction vs with
  | nil => rfl
  | cons c cs ih => simp [ih]; omega

theorem putCens_spec (F : Codec α) (cs : List (Cen α)) (D : List Nat) (n : Nat)
    (h : 16 * cs.length ≤ n) :
    putCens F cs (At D n) = .ok (At (D ++ (cs.map (cenBytes F)).flatten) (n - 16 * cs.length)) := by
  induction cs generalizing D n with
  | nil => simp [putCens]
  | cons c cs ih =>
    simp only [List.length_cons] at h
    unfold putCens at ih ⊢
    rw [List.foldlM_cons, wr_at (by simp; omega)]
    simp only [Outcome.ok_bind, toLE_length]
    rw [wr_at (by simp; omega)]
    simp only [Outcome.ok_bind, toLE_length]
    rw [ih _ _ (by omega)]
    simp only [List.map_cons, List.flatten_cons, cenBytes, List.append_assoc, List.length_cons]
    congr 2
    omega

theorem putBuf_spec (F : Codec α) (vs : List α) (D : List Nat) (n : Nat) (h : 8 * vs.length ≤ n) :
    putBuf F vs (At D n)
      = .ok (At (D ++ (vs.map fun v => toLE 8 (F.bits (.fin v))).flatten) (n - 8 * vs.length)) := by
  induction vs generalizing D n with
  | nil => simp [putBuf]
  | cons v vs ih =>
    simp only [List.length_cons] at h
    unfold putBuf at ih ⊢
    rw [List.foldlM_cons, wr_at (by simp; omega)]
    simp only [Outcome.ok_bind, toLE_length]
    rw [ih _ _ (by omega)]
    simp only [List.map_cons, List.flatten_cons, List.append_assoc, List.length_cons]
    congr 2
    omega

/-- The slice encoder writes the bytes of the stream encoder, and exactly fills its slice. -/
theorem encodeBuf_spec (F : Codec α) (d : Digest α) (withBuffer : Bool)
    (h : withBuffer = true ∨ d.buffer = []) :
    encodeBuf F d withBuffer = .ok (streamBytes F d) ∧
      (streamBytes F d).length = sizeOf d withBuffer := by
  have hb : (if withBuffer then 8 * d.buffer.length else 0) = 8 * d.buffer.length := by
    rcases h with h | h <;> simp [h]
  obtain ⟨n, hn⟩ : ∃ n, n = sizeOf d withBuffer := ⟨_, rfl⟩
  have h8 : 8 ≤ n := by
    rw [hn]; unfold sizeOf Digest.preambleLongs
    dsimp only
    split
    · split <;> omega
    · split
      · split <;> omega
      · split <;> omega
  have hz : toLE 2 0 = List.replicate 2 0 := rfl
  unfold encodeBuf
  rw [← hn]
  have hst : ((List.replicate n 0, 0) : Cursor) = At [] n := rfl
  simp only [hst]
  rw [wr_at (by simp; omega)]
  simp only [Outcome.ok_bind, toLE_length]
  rw [wr_at (by simp; omega)]
  simp only [Outcome.ok_bind, toLE_length]
  rw [wr_at (by simp; omega)]
  simp only [Outcome.ok_bind, toLE_length]
  rw [wr_at (by simp; omega)]
  simp only [Outcome.ok_bind, toLE_length]
  rw [wr_at (by simp; omega)]
  simp only [Outcome.ok_bind, toLE_length]
  rw [skip_at (by omega)]
  simp only [Outcome.ok_bind]
  rw [← hz]
  unfold streamBytes
  by_cases he : d.isEmpty = true
  · rw [if_pos he, if_pos he]
    have hs : n = 8 := by rw [hn]; simp [sizeOf, he, Digest.preambleLongs]
    rw [hs]
    simp [At]
  · rw [if_neg he, if_neg he]
    by_cases h1 : d.isSingle = true
    · rw [if_pos h1, if_pos h1]
      have hs : n = 16 := by rw [hn]; simp [sizeOf, he, h1, Digest.preambleLongs]
      rw [hs, wr_at (by simp)]
      simp [At]
    · rw [if_neg h1, if_neg h1]
      have hs : n = 32 + 16 * d.centroids.length + 8 * d.buffer.length := by
        rw [hn]; unfold sizeOf Digest.preambleLongs
        simp only [he, h1, hb]; simp
      rw [wr_at (by simp; omega)]
      simp only [Outcome.ok_bind, toLE_length]
      rw [wr_at (by simp; omega)]
      simp only [Outcome.ok_bind, toLE_length]
      rw [wr_at (by simp; omega)]
      simp only [Outcome.ok_bind, toLE_length]
      rw [wr_at (by simp; omega)]
      simp only [Outcome.ok_bind, toLE_length]
      rw [putCens_spec _ _ _ _ (by omega)]
      simp only [Outcome.ok_bind]
      rw [putBuf_spec _ _ _ _ (by omega)]
      simp only [Outcome.ok_bind]
      constructor
      · rw [show n - 1 - 1 - 1 - 2 - 1 - 2 - 4 - 4 - 8 - 8 - 16 * d.centroids.length
          - 8 * d.buffer.length = 0 by omega, at_zero]
        simp
      · simp only [List.length_append, toLE_length, cens_length, buf_length]
        omega

/-! ### The slice decoder -/

theorem getLE_pass {j u : Nat} {b : List Nat} {o k : Nat} (h : j ≤ o) :
    getLE (toLE j u ++ b) o k = getLE b (o - j) k := by
  unfold getLE getT
  have : (toLE j u ++ b).drop o = b.drop (o - j) := by
    rw [List.drop_append]; simp [List.drop_eq_nil_of_le, h]
  rw [this]
  by_cases hk : o - j + k ≤ b.length
  · rw [if_pos hk, if_pos (by simp; omega)]
  · rw [if_neg hk, if_neg (by simp; omega)]

theorem getLE_here {k v : Nat} {c : List Nat} (hv : v < 256 ^ k) :
    getLE (toLE k v ++ c) 0 k = .ok v := by
  have := getLE_append (a := []) (c := c) (k := k) (v := v) (o := 0) rfl
  rw [Nat.mod_eq_of_lt hv] at this
  simpa using this

/-- The values stored in the digest survive the conversion to bits and back. -/
structure Rep (F : Codec α) (d : Digest α) : Prop where
  bits : ∀ x, F.bits x < 2 ^ 64
  mn : F.val (F.bits d.min) = d.min
  mx : F.val (F.bits d.max) = d.max
  cens : ∀ c ∈ d.centroids, F.val (F.bits (.fin c.mean)) = .fin c.mean
  buf : ∀ v ∈ d.buffer, F.val (F.bits (.fin v)) = .fin v

theorem getCens_spec (F : Codec α) (cs : List (Cen α)) (a c : List Nat) (o : Nat)
    (ho : o = a.length) (hb : ∀ x, F.bits x < 2 ^ 64)
    (hr : ∀ c ∈ cs, F.val (F.bits (.fin c.mean)) = .fin c.mean)
    (hw : ∀ c ∈ cs, 0 < c.weight ∧ c.weight < 2 ^ 64) :
    getCens F (a ++ ((cs.map (cenBytes F)).flatten ++ c)) cs.length o = .ok cs := by
  induction cs generalizing a o with
  | nil => rfl
  | cons x cs ih =>
    obtain ⟨w0, w1⟩ := hw x (by simp)
    simp only [List.map_cons, List.flatten_cons, List.length_cons, cenBytes, List.append_assoc]
    rw [getCens, getLE_append ho, Nat.mod_eq_of_lt (by have := hb (.fin x.mean); omega)]
    simp only [Outcome.ok_bind]
    rw [hr x (by simp)]
    simp only [finite, Outcome.ok_bind]
    rw [← List.append_assoc, getLE_append (by simp [ho]), Nat.mod_eq_of_lt (by omega)]
    simp only [Outcome.ok_bind]
    rw [if_neg (by omega), ← List.append_assoc, ih _ (o + 16) (by simp; omega)
      (fun c h => hr c (by simp [h])) (fun c h => hw c (by simp [h]))]
    rfl

theorem getBuf_spec (F : Codec α) (vs : List α) (a c : List Nat) (o : Nat)
    (ho : o = a.length) (hb : ∀ x, F.bits x < 2 ^ 64)
    (hr : ∀ v ∈ vs, F.val (F.bits (.fin v)) = .fin v) :
    getBuf F (a ++ ((vs.map fun v => toLE 8 (F.bits (.fin v))).flatten ++ c)) vs.length o
      = .ok vs := by
  induction vs generalizing a o with
  | nil => rfl
  | cons x vs ih =>
    simp only [List.map_cons, List.flatten_cons, List.length_cons, List.append_assoc]
    rw [getBuf, getLE_append ho, Nat.mod_eq_of_lt (by have := hb (.fin x); omega)]
    simp only [Outcome.ok_bind]
    rw [hr x (by simp)]
    simp only [finite, Outcome.ok_bind]
    rw [← List.append_assoc, ih _ (o + 8) (by simp; omega) (fun v h => hr v (by simp [h]))]
    rfl

theorem and4 (b : Bool) (x : Nat) (hx : x = 0 ∨ x = 1 ∨ x = 2) :
    (decide ((x + (if b then 4 else 0)) &&& 4 ≠ 0) : Bool) = b ∧
    ((x + (if b then 4 else 0)) &&& 1 ≠ 0 ↔ x = 1) ∧
    ((x + (if b then 4 else 0)) &&& 2 ≠ 0 ↔ x = 2) := by
  rcases hx with rfl | rfl | rfl <;> cases b <;> decide

/-- The slice decoder up to the place where the kinds of images differ. -/
theorem decode_head (F : Codec α) {pl k flags : Nat} (tail : List Nat) (hk : k < 2 ^ 16)
    (hpl : pl < 256) (hfl : flags < 256) :
    decodeDouble F (toLE 1 pl ++ toLE 1 1 ++ toLE 1 20 ++ toLE 2 k ++ toLE 1 flags ++ toLE 2 0 ++
        tail)
      = if pl ≠ (if flags &&& 1 ≠ 0 ∨ flags &&& 2 ≠ 0 then 1 else 2)
        then .err "preamble longs mismatch" else
        if flags &&& 1 ≠ 0 then newDouble k
        else if flags &&& 2 ≠ 0 then
          if tail.length < 8 then .err "insufficient data" else
          getLE tail 0 8 >>= fun vb =>
          finite (F.val vb) "value" >>= fun v =>
          fromStates (decide (flags &&& 4 ≠ 0)) k (F.val vb) (F.val vb)
            [{ mean := v, weight := 1 }] 1 []
        else decodeMany F (toLE 1 pl ++ toLE 1 1 ++ toLE 1 20 ++ toLE 2 k ++ toLE 1 flags ++
          toLE 2 0 ++ tail) k (decide (flags &&& 4 ≠ 0)) := by
  obtain ⟨data, hd⟩ : ∃ data, data = toLE 1 pl ++ toLE 1 1 ++ toLE 1 20 ++ toLE 2 k ++
    toLE 1 flags ++ toLE 2 0 ++ tail := ⟨_, rfl⟩
  have hlen : data.length = 8 + tail.length := by rw [hd]; simp; omega
  have e0 : getLE data 0 1 = .ok pl := by
    rw [hd]; simp only [List.append_assoc]; exact getLE_here (by omega)
  have e1 : getLE data 1 1 = .ok 1 := by
    rw [hd]; simp only [List.append_assoc]
    rw [getLE_pass (by omega)]; exact getLE_here (by omega)
  have e2 : getLE data 2 1 = .ok 20 := by
    rw [hd]; simp only [List.append_assoc]
    rw [getLE_pass (by omega), getLE_pass (by omega)]; exact getLE_here (by omega)
  have e3 : getLE data 3 2 = .ok k := by
    rw [hd]; simp only [List.append_assoc]
    rw [getLE_pass (by omega), getLE_pass (by omega), getLE_pass (by omega)]
    exact getLE_here (by omega)
  have e5 : getLE data 5 1 = .ok flags := by
    rw [hd]; simp only [List.append_assoc]
    rw [getLE_pass (by omega), getLE_pass (by omega), getLE_pass (by omega), getLE_pass (by omega)]
    exact getLE_here (by omega)
  have e8 : getLE data 8 8 = getLE tail 0 8 := by
    rw [hd]; simp only [List.append_assoc]
    rw [getLE_pass (by omega), getLE_pass (by omega), getLE_pass (by omega), getLE_pass (by omega),
      getLE_pass (by omega), getLE_pass (by omega)]
  rw [← hd]
  unfold decodeDouble
  rw [if_neg (by omega), e0]
  simp only [Outcome.ok_bind]
  rw [e1]
  simp only [Outcome.ok_bind]
  rw [e2]
  simp only [Outcome.ok_bind]
  rw [if_neg (by simp), if_neg (by simp), e3]
  simp only [Outcome.ok_bind]
  rw [e5]
  simp only [Outcome.ok_bind]
  rw [e8, hlen]
  have hl2 : (8 + tail.length < 8 + 8) ↔ (tail.length < 8) := by omega
  simp only [hl2]

/-- The slice decoder on the image of a digest with at least two values. -/
theorem decodeMany_spec (F : Codec α) {d : Digest α} {xs : List α} (hI : Inv d xs)
    (hne : xs ≠ []) (hR : Rep F d) (hn : xs.length < 2 ^ 64) (hc : d.centroids.length < 2 ^ 32)
    (hk : d.k < 2 ^ 16) (H rest : List Nat) (hH : H.length = 8) :
    decodeMany F (H ++ (toLE 4 d.centroids.length ++ toLE 4 d.buffer.length ++
      toLE 8 (F.bits d.min) ++ toLE 8 (F.bits d.max) ++ (d.centroids.map (cenBytes F)).flatten ++
      (d.buffer.map fun v => toLE 8 (F.bits (.fin v))).flatten ++ rest)) d.k d.rev = .ok d := by
  obtain ⟨ys, hp, hS, hw⟩ := hI.split
  have hbuf : d.buffer.length < 2 ^ 32 := by
    have h1 := hI.buf; rw [hI.cap] at h1; unfold capacityOf at h1; split at h1 <;> omega
  have hwt : ∀ c ∈ d.centroids, 0 < c.weight ∧ c.weight < 2 ^ 64 := by
    intro c hc
    refine ⟨hS.pos c hc, ?_⟩
    have h1 : c.weight ≤ wsum d.centroids := List.le_sum_of_mem (List.mem_map_of_mem hc)
    have h2 := hp.length_eq
    rw [List.length_append] at h2
    rw [hS.w] at h1
    omega
  have htot : totalOf d.centroids = d.cw := by
    have h2 := hp.length_eq
    rw [List.length_append] at h2
    have h3 : (d.centroids.map Cen.weight).sum = ys.length := hS.w
    unfold totalOf
    rw [h3, hw, Nat.mod_eq_of_lt (by omega)]
  obtain ⟨mn, hmn, -⟩ := hI.mn.2 hne
  obtain ⟨mx, hmx, -⟩ := hI.mx.2 hne
  obtain ⟨data, hd⟩ : ∃ data, data = H ++ (toLE 4 d.centroids.length ++ toLE 4 d.buffer.length ++
      toLE 8 (F.bits d.min) ++ toLE 8 (F.bits d.max) ++ (d.centroids.map (cenBytes F)).flatten ++
      (d.buffer.map fun v => toLE 8 (F.bits (.fin v))).flatten ++ rest) := ⟨_, rfl⟩
  rw [← hd]
  have hlen : 32 + d.centroids.length * 16 + d.buffer.length * 8 ≤ data.length := by
    rw [hd]
    simp only [List.length_append, toLE_length, cens_length, buf_length, hH]
    omega
  have pass : ∀ (b : List Nat) (o k : Nat), getLE (H ++ b) (8 + o) k = getLE b o k := by
    intro b o k
    unfold getLE getT
    rw [← List.drop_drop, ← hH, List.drop_left]
    by_cases hk : o + k ≤ b.length
    · rw [if_pos hk, if_pos (by simp; omega)]
    · rw [if_neg hk, if_neg (by simp; omega)]
  have e8 : getLE data 8 4 = .ok d.centroids.length := by
    rw [hd, show (8 : Nat) = 8 + 0 by rfl, pass]; simp only [List.append_assoc]
    exact getLE_here (by omega)
  have e12 : getLE data 12 4 = .ok d.buffer.length := by
    rw [hd, show (12 : Nat) = 8 + 4 by rfl, pass]; simp only [List.append_assoc]
    rw [getLE_pass (by omega)]; exact getLE_here (by omega)
  have e16 : getLE data 16 8 = .ok (F.bits d.min) := by
    rw [hd, show (16 : Nat) = 8 + 8 by rfl, pass]; simp only [List.append_assoc]
    rw [getLE_pass (by omega), getLE_pass (by omega)]
    exact getLE_here (by have := hR.bits d.min; omega)
  have e24 : getLE data 24 8 = .ok (F.bits d.max) := by
    rw [hd, show (24 : Nat) = 8 + 16 by rfl, pass]; simp only [List.append_assoc]
    rw [getLE_pass (by omega), getLE_pass (by omega), getLE_pass (by omega)]
    exact getLE_here (by have := hR.bits d.max; omega)
  have ec : getCens F data d.centroids.length 32 = .ok d.centroids := by
    have hd' : data = (H ++ (toLE 4 d.centroids.length ++ toLE 4 d.buffer.length ++
      toLE 8 (F.bits d.min) ++ toLE 8 (F.bits d.max))) ++ ((d.centroids.map (cenBytes F)).flatten ++
      ((d.buffer.map fun v => toLE 8 (F.bits (.fin v))).flatten ++ rest)) := by
      rw [hd]; simp only [List.append_assoc]
    rw [hd']
    exact getCens_spec F _ _ _ _ (by simp [hH]) hR.bits hR.cens hwt
  have eb : getBuf F data d.buffer.length (32 + d.centroids.length * 16) = .ok d.buffer := by
    have hd' : data = (H ++ (toLE 4 d.centroids.length ++ toLE 4 d.buffer.length ++
      toLE 8 (F.bits d.min) ++ toLE 8 (F.bits d.max) ++ (d.centroids.map (cenBytes F)).flatten)) ++
      ((d.buffer.map fun v => toLE 8 (F.bits (.fin v))).flatten ++ rest) := by
      rw [hd]; simp only [List.append_assoc]
    rw [hd']
    refine getBuf_spec F _ _ _ _ ?_ hR.bits hR.buf
    simp only [List.length_append, toLE_length, cens_length, hH]
    omega
  unfold decodeMany
  rw [if_neg (by omega), e8]
  simp only [Outcome.ok_bind]
  rw [e12]
  simp only [Outcome.ok_bind]
  rw [if_neg (by omega), e16]
  simp only [Outcome.ok_bind]
  rw [hR.mn, hmn]
  simp only [notNaN, Outcome.ok_bind]
  rw [e24]
  simp only [Outcome.ok_bind]
  rw [hR.mx, hmx]
  simp only [Outcome.ok_bind]
  rw [ec]
  simp only [Outcome.ok_bind]
  rw [eb]
  simp only [Outcome.ok_bind]
  unfold fromStates
  rw [if_neg (by have := hI.k; omega), htot]
  congr 1
  cases d
  simp only at hmn hmx
  simp only [Digest.mk.injEq, hmn, hmx, true_and, and_true]
  exact hI.cap.symm

/-! ### The stream decoder -/

theorem finiteR_fin (x : α) (name : String) (r : List Nat) :
    (finiteR (.fin x) name : Rd α) r = .ok (x, r) := rfl

theorem cenR_spec (F : Codec α) (c : Cen α) (r : List Nat) (hb : ∀ x, F.bits x < 2 ^ 64)
    (hr : F.val (F.bits (.fin c.mean)) = .fin c.mean) (hw : 0 < c.weight ∧ c.weight < 2 ^ 64) :
    cenR F (cenBytes F c ++ r) = .ok (c, r) := by
  unfold cenR cenBytes
  rw [List.append_assoc, Rd.bind_ok (Rd.le_append (by have := hb (.fin c.mean); omega) _), hr,
    Rd.bind_ok (finiteR_fin _ _ _), Rd.bind_ok (Rd.le_append (by omega) _), if_neg (by omega)]
  rfl

theorem bufR_spec (F : Codec α) (v : α) (r : List Nat) (hb : ∀ x, F.bits x < 2 ^ 64)
    (hr : F.val (F.bits (.fin v)) = .fin v) :
    bufR F (toLE 8 (F.bits (.fin v)) ++ r) = .ok (v, r) := by
  unfold bufR
  rw [Rd.bind_ok (Rd.le_append (by have := hb (.fin v); omega) _), hr]
  rfl

theorem manyR_spec (F : Codec α) {d : Digest α} {xs : List α} (hI : Inv d xs)
    (hne : xs ≠ []) (hR : Rep F d) (hn : xs.length < 2 ^ 64) (hc : d.centroids.length < 2 ^ 32)
    (hk : d.k < 2 ^ 16) (rest : List Nat) :
    manyR F d.k d.rev (toLE 4 d.centroids.length ++ toLE 4 d.buffer.length ++
      toLE 8 (F.bits d.min) ++ toLE 8 (F.bits d.max) ++ (d.centroids.map (cenBytes F)).flatten ++
      (d.buffer.map fun v => toLE 8 (F.bits (.fin v))).flatten ++ rest) = .ok (d, rest) := by
  obtain ⟨ys, hp, hS, hw⟩ := hI.split
  have hbuf : d.buffer.length < 2 ^ 32 := by
    have h1 := hI.buf; rw [hI.cap] at h1; unfold capacityOf at h1; split at h1 <;> omega
  have hwt : ∀ c ∈ d.centroids, 0 < c.weight ∧ c.weight < 2 ^ 64 := by
    intro c hc
    refine ⟨hS.pos c hc, ?_⟩
    have h1 : c.weight ≤ wsum d.centroids := List.le_sum_of_mem (List.mem_map_of_mem hc)
    have h2 := hp.length_eq
    rw [List.length_append] at h2
    rw [hS.w] at h1
    omega
  have htot : totalOf d.centroids = d.cw := by
    have h2 := hp.length_eq
    rw [List.length_append] at h2
    have h3 : (d.centroids.map Cen.weight).sum = ys.length := hS.w
    unfold totalOf
    rw [h3, hw, Nat.mod_eq_of_lt (by omega)]
  obtain ⟨mn, hmn, -⟩ := hI.mn.2 hne
  obtain ⟨mx, hmx, -⟩ := hI.mx.2 hne
  have hbm := hR.bits d.min
  have hbx := hR.bits d.max
  unfold manyR
  simp only [List.append_assoc]
  rw [Rd.bind_ok (Rd.le_append (by omega) _), Rd.bind_ok (Rd.le_append (by omega) _),
    Rd.bind_ok (Rd.le_append (by omega) _)]
  have en : ∀ (name : String) (r : List Nat),
      (notNaNR (F.val (F.bits d.min)) name : Rd Unit) r = .ok ((), r) := by
    intro name r; rw [hR.mn, hmn]; rfl
  rw [Rd.bind_ok (en _ _), Rd.bind_ok (Rd.le_append (by omega) _), Rd.bind_ok (en _ _)]
  have ec : ∀ r, Rd.times (cenR F) d.centroids.length
      ((d.centroids.map (cenBytes F)).flatten ++ r) = .ok (d.centroids, r) := by
    intro r
    exact Rd.times_append (cenBytes F) d.centroids
      (fun c h r => cenR_spec F c r hR.bits (hR.cens c h) (hwt c h)) r
  have eb : ∀ r, Rd.times (bufR F) d.buffer.length
      ((d.buffer.map fun v => toLE 8 (F.bits (.fin v))).flatten ++ r) = .ok (d.buffer, r) := by
    intro r
    exact Rd.times_append (fun v => toLE 8 (F.bits (.fin v))) d.buffer
      (fun v h r => bufR_spec F v r hR.bits (hR.buf v h)) r
  rw [Rd.bind_ok (ec _), Rd.bind_ok (eb _)]
  have ef : fromStates d.rev d.k (F.val (F.bits d.min)) (F.val (F.bits d.max)) d.centroids
      (totalOf d.centroids) d.buffer = .ok d := by
    rw [hR.mn, hR.mx]
    unfold fromStates
    rw [if_neg (by have := hI.k; omega), htot]
    congr 1
    cases d
    simp only [Digest.mk.injEq, true_and, and_true]
    exact hI.cap.symm
  unfold liftR
  rw [ef]
  rfl

/-- The stream decoder up to the place where the kinds of images differ. -/
theorem decodeR_head (F : Codec α) {pl k flags : Nat} (tail : List Nat) (hk : k < 2 ^ 16)
    (hpl : pl < 256) (hfl : flags < 256) :
    decodeR F (toLE 1 pl ++ toLE 1 1 ++ toLE 1 20 ++ toLE 2 k ++ toLE 1 flags ++ toLE 2 0 ++
        tail)
      = (if pl ≠ (if flags &&& 1 ≠ 0 ∨ flags &&& 2 ≠ 0 then 1 else 2) then
          Rd.fail "preamble longs mismatch" else
          Rd.le 2 >>= fun _ =>
          if flags &&& 1 ≠ 0 then liftR (newDouble k)
          else if flags &&& 2 ≠ 0 then
            Rd.le 8 >>= fun vb =>
            finiteR (F.val vb) "single_value" >>= fun v =>
            liftR (fromStates (flags &&& 4 ≠ 0 : Bool) k (F.val vb) (F.val vb)
              [{ mean := v, weight := 1 }] 1 [])
          else manyR F k (flags &&& 4 ≠ 0 : Bool)) (toLE 2 0 ++ tail) := by
  simp only [List.append_assoc]
  unfold decodeR currentR
  rw [Rd.bind_ok (Rd.le_append (by omega) _), Rd.bind_ok (Rd.le_append (by omega) _),
    Rd.bind_ok (Rd.le_append (by omega) _), if_neg (by simp), if_neg (by simp),
    Rd.bind_ok (Rd.le_append (by omega) _), Rd.bind_ok (Rd.le_append (by omega) _)]

/-! ### The round trip -/

/-- What comes back: the digest itself, except that an empty digest comes back as a fresh one and
a digest with one value as the compressed one. -/
def reread (d : Digest α) (xs : List α) : Digest α :=
  match xs with
  | [] => { min := .pinf, max := .ninf, centroids := [], buffer := [], cw := 0,
            cap := capacityOf d.k, k := d.k, rev := false }
  | [v] => { min := .fin v, max := .fin v, centroids := [{ mean := v, weight := 1 }], buffer := [],
             cw := 1, cap := capacityOf d.k, k := d.k, rev := d.rev }
  | _ => d

theorem flagsOf_eq (d : Digest α) (h : ¬ (d.isEmpty = true ∧ d.isSingle = true)) :
    ∃ x, (x = 0 ∨ x = 1 ∨ x = 2) ∧ flagsOf d = x + (if d.rev then 4 else 0) ∧
      (x = 1 ↔ d.isEmpty = true) ∧ (x = 2 ↔ d.isSingle = true) ∧
      d.preambleLongs = if x = 1 ∨ x = 2 then 1 else 2 := by
  unfold flagsOf Digest.preambleLongs
  cases he : d.isEmpty <;> cases hs : d.isSingle <;> cases hr : d.rev <;>
    simp_all

theorem single_iff {d : Digest α} {xs : List α} (hI : Inv d xs) :
    d.isSingle = true ↔ xs.length = 1 := by
  unfold Digest.isSingle
  rw [inv_total hI]
  exact decide_eq_true_iff

/-- Both decoders on the image of a digest. -/
theorem decode_image (F : Codec α) {d : Digest α} {xs : List α} (hI : Inv d xs) (hR : Rep F d)
    (hn : xs.length < 2 ^ 64) (hc : d.centroids.length < 2 ^ 32) (hk : d.k < 2 ^ 16)
    (rest : List Nat) :
    decodeDouble F (streamBytes F d ++ rest) = .ok (reread d xs) ∧
      decodeR F (streamBytes F d ++ rest) = .ok (reread d xs, rest) := by
  have hE := inv_empty_iff hI
  have hS := single_iff hI
  obtain ⟨x, hx, hf, hx1, hx2, hpl⟩ := flagsOf_eq d (by
    rintro ⟨a, b⟩
    rw [hE] at a; rw [hS, a] at b; simp at b)
  obtain ⟨a4, a1, a2⟩ := and4 d.rev x hx
  have hpl2 : d.preambleLongs < 256 := by rw [hpl]; split <;> omega
  have hfl : flagsOf d < 256 := by rw [hf]; split <;> omega
  have hcond : ((flagsOf d) &&& 1 ≠ 0 ∨ (flagsOf d) &&& 2 ≠ 0) ↔ (x = 1 ∨ x = 2) := by
    rw [hf, a1, a2]
  have hplc : ¬ (d.preambleLongs
      ≠ if (flagsOf d) &&& 1 ≠ 0 ∨ (flagsOf d) &&& 2 ≠ 0 then 1 else 2) := by
    rw [hpl]
    simp only [hcond]
    simp
  have hkk := hI.k
  unfold streamBytes
  rw [List.append_assoc _ _ rest, decode_head F _ hk hpl2 hfl, decodeR_head F _ hk hpl2 hfl,
    if_neg hplc, if_neg hplc, Rd.bind_ok (Rd.le_append (by omega) _)]
  rw [hf, a4]
  match xs, hE, hS, hI, hn with
  | [], hE, hS, hI, hn =>
    have he : d.isEmpty = true := hE.2 rfl
    have h1 : x = 1 := hx1.2 he
    have hc1 := a1.2 h1
    rw [if_pos hc1, if_pos hc1]
    unfold liftR newDouble
    rw [if_neg (by omega), he]
    exact ⟨rfl, rfl⟩
  | [v], hE, hS, hI, hn =>
    have he : ¬ d.isEmpty = true := by rw [hE]; simp
    have hs : d.isSingle = true := hS.2 rfl
    have h2 : x = 2 := hx2.2 hs
    have hc1 : ¬ ((x + if d.rev = true then 4 else 0) &&& 1 ≠ 0) := by rw [a1]; omega
    have hc2 := a2.2 h2
    rw [if_neg hc1, if_neg hc1, if_pos hc2, if_pos hc2, if_neg he, if_pos hs]
    obtain ⟨m, hm, hmem, -⟩ := hI.mn.2 (by simp)
    have hmv : m = v := by simpa using hmem
    have hb := hR.bits d.min
    have hv : F.val (F.bits d.min) = .fin v := by rw [hR.mn, hm, hmv]
    rw [getLE_here (by omega), Rd.bind_ok (Rd.le_append (by omega) _)]
    simp only [Outcome.ok_bind]
    rw [hv, if_neg (by simp), Rd.bind_ok (finiteR_fin _ _ _)]
    simp only [finite, Outcome.ok_bind]
    unfold liftR fromStates
    rw [if_neg (by omega)]
    exact ⟨rfl, rfl⟩
  | v :: w :: xs, hE, hS, hI, hn =>
    have he : ¬ d.isEmpty = true := by rw [hE]; simp
    have hs : ¬ d.isSingle = true := by rw [hS]; simp
    have hc1 : ¬ ((x + if d.rev = true then 4 else 0) &&& 1 ≠ 0) := by
      rw [a1, hx1]; exact he
    have hc2 : ¬ ((x + if d.rev = true then 4 else 0) &&& 2 ≠ 0) := by
      rw [a2, hx2]; exact hs
    rw [if_neg hc1, if_neg hc1, if_neg hc2, if_neg hc2, if_neg he, if_neg hs]
    refine ⟨?_, ?_⟩
    · exact decodeMany_spec F hI (by simp) hR hn hc hk _ rest (by simp)
    · exact manyR_spec F hI (by simp) hR hn hc hk rest

/-- What comes back represents the same values. -/
theorem reread_inv {d : Digest α} {xs : List α} (hI : Inv d xs) : Inv (reread d xs) xs := by
  match xs, hI with
  | [], hI =>
    exact inv_new (k := d.k) (by unfold newDouble; rw [if_neg (by have := hI.k; omega)]; rfl)
  | [v], hI =>
    refine ⟨⟨[v], by simp [reread], ?_, rfl⟩, ?_, ?_, ?_, rfl, by simp [reread], hI.k⟩
    · constructor <;> simp [reread, wsum, msum]
    · constructor
      · simp [reread]
      · intro c hc; simp only [reread, List.head?_cons, Option.some.injEq] at hc; rw [← hc]
      · intro c hc; simp only [reread, List.getLast?_singleton, Option.some.injEq] at hc; rw [← hc]
    · exact ⟨by simp, fun _ => ⟨v, rfl, by simp, by simp⟩⟩
    · exact ⟨by simp, fun _ => ⟨v, rfl, by simp, by simp⟩⟩
  | v :: w :: xs, hI => exact hI

/-! ### Arbitrary bytes -/

/-- The outcome is not a panic. -/
def Safe {β : Type} (x : Outcome β) : Prop := x ≠ .panic

theorem safe_ok {β : Type} (a : β) : Safe (.ok a) := by simp [Safe]

theorem safe_err {β : Type} (m : String) : Safe (.err m : Outcome β) := by simp [Safe]

theorem safe_bind {β γ : Type} {x : Outcome β} {f : β → Outcome γ} (hx : Safe x)
    (hf : ∀ a, Safe (f a)) : Safe (x >>= f) := by
  cases x with
  | ok a => exact hf a
  | err m => exact safe_err m
  | panic => exact absurd rfl hx

theorem safe_ite {β : Type} {c : Prop} [Decidable c] {x y : Outcome β} (hx : c → Safe x)
    (hy : ¬ c → Safe y) : Safe (if c then x else y) := by
  split
  · exact hx ‹_›
  · exact hy ‹_›

theorem safe_getLE {buf : List Nat} {o k : Nat} (h : o + k ≤ buf.length) :
    Safe (getLE buf o k) := by rw [getLE_ok h]; exact safe_ok _

theorem safe_getBE {buf : List Nat} {o k : Nat} (h : o + k ≤ buf.length) :
    Safe (getBE buf o k) := by unfold getBE; rw [if_pos h]; exact safe_ok _

theorem safe_finite (x : Fl α) (name : String) : Safe (finite x name) := by
  cases x <;> simp [finite, Safe]

theorem safe_notNaN (x : Fl α) (name : String) : Safe (notNaN x name) := by
  cases x <;> simp [notNaN, Safe]

theorem safe_fromStates (rev : Bool) (k : Nat) (mn mx : Fl α) (cs : List (Cen α)) (w : Nat)
    (b : List α) : Safe (fromStates rev k mn mx cs w b) := by
  unfold fromStates; exact safe_ite (fun _ => safe_err _) (fun _ => safe_ok _)

theorem safe_getCens (F : Codec α) (data : List Nat) (n o : Nat) (h : o + n * 16 ≤ data.length) :
    Safe (getCens F data n o) := by
  induction n generalizing o with
  | zero => exact safe_ok _
  | succ n ih =>
    rw [getCens]
    refine safe_bind (safe_getLE (by omega)) fun mb => ?_
    refine safe_bind (safe_finite _ _) fun m => ?_
    refine safe_bind (safe_getLE (by omega)) fun w => ?_
    refine safe_ite (fun _ => safe_err _) fun _ => ?_
    exact safe_bind (ih _ (by omega)) fun _ => safe_ok _

theorem safe_getBuf (F : Codec α) (data : List Nat) (n o : Nat) (h : o + n * 8 ≤ data.length) :
    Safe (getBuf F data n o) := by
  induction n generalizing o with
  | zero => exact safe_ok _
  | succ n ih =>
    rw [getBuf]
    refine safe_bind (safe_getLE (by omega)) fun mb => ?_
    refine safe_bind (safe_finite _ _) fun m => ?_
    exact safe_bind (ih _ (by omega)) fun _ => safe_ok _

theorem safe_getCompatD (F : Codec α) (data : List Nat) (n o : Nat)
    (h : o + n * 16 ≤ data.length) : Safe (getCompatD F data n o) := by
  induction n generalizing o with
  | zero => exact safe_ok _
  | succ n ih =>
    rw [getCompatD]
    refine safe_bind (safe_getBE (by omega)) fun mb => ?_
    refine safe_ite (fun _ => safe_err _) fun _ => ?_
    refine safe_bind (safe_getBE (by omega)) fun w => ?_
    refine safe_bind (safe_finite _ _) fun m => ?_
    exact safe_bind (ih _ (by omega)) fun _ => safe_ok _

theorem safe_getCompatF (F : Codec α) (data : List Nat) (n o : Nat)
    (h : o + n * 8 ≤ data.length) : Safe (getCompatF F data n o) := by
  induction n generalizing o with
  | zero => exact safe_ok _
  | succ n ih =>
    rw [getCompatF]
    refine safe_bind (safe_getBE (by omega)) fun mb => ?_
    refine safe_ite (fun _ => safe_err _) fun _ => ?_
    refine safe_bind (safe_getBE (by omega)) fun w => ?_
    refine safe_bind (safe_finite _ _) fun m => ?_
    exact safe_bind (ih _ (by omega)) fun _ => safe_ok _

theorem safe_decodeMany (F : Codec α) (data : List Nat) (k : Nat) (rev : Bool) :
    Safe (decodeMany F data k rev) := by
  unfold decodeMany
  refine safe_ite (fun _ => safe_err _) fun h1 => ?_
  refine safe_bind (safe_getLE (by omega)) fun nc => ?_
  refine safe_bind (safe_getLE (by omega)) fun nb => ?_
  refine safe_ite (fun _ => safe_err _) fun h2 => ?_
  refine safe_bind (safe_getLE (by omega)) fun mnb => ?_
  refine safe_bind (safe_notNaN _ _) fun _ => ?_
  refine safe_bind (safe_getLE (by omega)) fun mxb => ?_
  refine safe_bind (safe_notNaN _ _) fun _ => ?_
  refine safe_bind (safe_getCens _ _ _ _ (by omega)) fun cs => ?_
  refine safe_bind (safe_getBuf _ _ _ _ (by omega)) fun vs => ?_
  exact safe_fromStates _ _ _ _ _ _ _

theorem safe_decodeCompat (F : Codec α) (data : List Nat)
    (h : ¬ ((data.length = 25 ∨ data.length = 26) ∧ data[0]? = some 2)) :
    Safe (decodeCompat F data) := by
  unfold decodeCompat
  refine safe_ite (fun _ => safe_err _) fun h0 => ?_
  have e : getLE data 0 1 = .ok (data[0]'(by omega)) := by
    rw [getLE_ok (by omega)]
    obtain ⟨x, xs, rfl⟩ : ∃ x xs, data = x :: xs := by
      cases data with
      | nil => simp at h0
      | cons x xs => exact ⟨x, xs, rfl⟩
    simp [getT, fromLE]
  rw [e]
  simp only [Outcome.ok_bind]
  refine safe_ite (fun _ => safe_err _) fun ht => ?_
  refine safe_ite (fun h1 => ?_) fun h2 => ?_
  · refine safe_ite (fun _ => safe_err _) fun hl => ?_
    refine safe_bind (safe_getBE (by omega)) fun mnb => ?_
    refine safe_bind (safe_notNaN _ _) fun _ => ?_
    refine safe_bind (safe_getBE (by omega)) fun mxb => ?_
    refine safe_bind (safe_notNaN _ _) fun _ => ?_
    refine safe_bind (safe_getBE (by omega)) fun kb => ?_
    refine safe_bind (safe_getBE (by omega)) fun n => ?_
    refine safe_ite (fun _ => safe_err _) fun hl2 => ?_
    refine safe_bind (safe_getCompatD _ _ _ _ (by omega)) fun cs => ?_
    exact safe_fromStates _ _ _ _ _ _ _
  · refine safe_ite (fun _ => safe_err _) fun hl => ?_
    have h2' : data[0]? = some 2 := by
      rw [List.getElem?_eq_getElem (by omega)]
      have : data[0]'(by omega) = 2 := by
        by_contra hne
        exact ht ⟨h2, hne⟩
      rw [this]
    have hlen : ¬ (data.length = 25 ∨ data.length = 26) := fun hh => h ⟨hh, h2'⟩
    refine safe_bind (safe_getBE (by omega)) fun mnb => ?_
    refine safe_bind (safe_notNaN _ _) fun _ => ?_
    refine safe_bind (safe_getBE (by omega)) fun mxb => ?_
    refine safe_bind (safe_notNaN _ _) fun _ => ?_
    refine safe_bind (safe_getBE (by omega)) fun kb => ?_
    refine safe_bind (safe_getBE (by omega)) fun n => ?_
    refine safe_ite (fun _ => safe_err _) fun hl2 => ?_
    refine safe_bind (safe_getCompatF _ _ _ _ (by omega)) fun cs => ?_
    exact safe_fromStates _ _ _ _ _ _ _

theorem safe_decodeDouble (F : Codec α) (data : List Nat)
    (h : ¬ ((data.length = 28 ∨ data.length = 29) ∧ data[3]? = some 2)) :
    Safe (decodeDouble F data) := by
  unfold decodeDouble
  refine safe_ite (fun _ => safe_err _) fun h0 => ?_
  refine safe_bind (safe_getLE (by omega)) fun pl => ?_
  refine safe_bind (safe_getLE (by omega)) fun sv => ?_
  refine safe_bind (safe_getLE (by omega)) fun ty => ?_
  refine safe_ite (fun _ => safe_ite (fun _ => ?_) fun _ => safe_err _) fun _ => ?_
  · refine safe_decodeCompat F _ ?_
    rw [List.getElem?_drop, List.length_drop]
    rintro ⟨h1, h2⟩
    exact h ⟨by omega, by simpa using h2⟩
  refine safe_ite (fun _ => safe_err _) fun _ => ?_
  refine safe_bind (safe_getLE (by omega)) fun k => ?_
  refine safe_bind (safe_getLE (by omega)) fun flags => ?_
  dsimp only
  refine safe_ite (fun _ => safe_err _) fun _ => ?_
  refine safe_ite (fun _ => ?_) fun _ => ?_
  · unfold newDouble; exact safe_ite (fun _ => safe_err _) fun _ => safe_ok _
  refine safe_ite (fun _ => ?_) fun _ => safe_decodeMany F _ _ _
  refine safe_ite (fun _ => safe_err _) fun _ => ?_
  refine safe_bind (safe_getLE (by omega)) fun vb => ?_
  refine safe_bind (safe_finite _ _) fun v => ?_
  exact safe_fromStates _ _ _ _ _ _ _

theorem strict_lift {β : Type} {x : Outcome β} (h : Safe x) : Rd.Strict (liftR x) := by
  cases x with
  | ok a => exact Rd.Strict.pure a
  | err m => exact Rd.Strict.fail m
  | panic => exact absurd rfl h

theorem strict_currentR (F : Codec α) (pl sv : Nat) : Rd.Strict (currentR F pl sv) := by
  have hfin : ∀ (x : Fl α) (n : String), Rd.Strict (finiteR x n) :=
    fun x n => strict_lift (safe_finite x n)
  have hnan : ∀ (x : Fl α) (n : String), Rd.Strict (notNaNR x n) :=
    fun x n => strict_lift (safe_notNaN x n)
  have hnew : ∀ k, Rd.Strict (liftR (newDouble k : Outcome (Digest α))) := by
    intro k
    refine strict_lift ?_
    unfold newDouble; exact safe_ite (fun _ => safe_err _) fun _ => safe_ok _
  have hcen : Rd.Strict (cenR F) :=
    (Rd.Strict.le 8).bind fun _ => (hfin _ _).bind fun _ => (Rd.Strict.le 8).bind fun _ =>
      Rd.Strict.ite (Rd.Strict.fail _) (Rd.Strict.pure _)
  have hbuf : Rd.Strict (bufR F) := (Rd.Strict.le 8).bind fun _ => hfin _ _
  have hmany : ∀ k rev, Rd.Strict (manyR F k rev) := by
    intro k rev
    exact (Rd.Strict.le 4).bind fun _ => (Rd.Strict.le 4).bind fun _ => (Rd.Strict.le 8).bind
      fun _ => (hnan _ _).bind fun _ => (Rd.Strict.le 8).bind fun _ => (hnan _ _).bind fun _ =>
      (hcen.times _).bind fun _ => (hbuf.times _).bind fun _ =>
      strict_lift (safe_fromStates _ _ _ _ _ _ _)
  unfold currentR
  refine Rd.Strict.ite (Rd.Strict.fail _) ?_
  refine (Rd.Strict.le 2).bind fun k => (Rd.Strict.le 1).bind fun flags => ?_
  refine Rd.Strict.ite (Rd.Strict.fail _) ((Rd.Strict.le 2).bind fun _ => ?_)
  refine Rd.Strict.ite (hnew k) (Rd.Strict.ite ?_ (hmany _ _))
  exact (Rd.Strict.le 8).bind fun _ => (hfin _ _).bind fun _ =>
    strict_lift (safe_fromStates _ _ _ _ _ _ _)

theorem strict_decodeR (F : Codec α) : Rd.Strict (decodeR F) := by
  unfold decodeR
  exact (Rd.Strict.le 1).bind fun pl => (Rd.Strict.le 1).bind fun sv => (Rd.Strict.le 1).bind
    fun ty => Rd.Strict.ite (Rd.Strict.fail _) (strict_currentR F pl sv)

end Verif.TDigest
