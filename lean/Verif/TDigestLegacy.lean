import Verif.TDigestLegacyModel
import Verif.TDigestSerde

/-!
# The two decoders of t-digests compared

Reading a field from a stream at the place reached is reading it from the slice at that offset; so
both decoders see the same fields, and only their tests differ.
-/

namespace Verif.TDigest

open Verif Outcome

variable {α : Type} [Field α] [LinearOrder α]

theorem rd_bind_eq_ok {β γ : Type} {f : Rd β} {g : β → Rd γ} {r : List Nat} {x : γ × List Nat} :
    (f >>= g) r = .ok x ↔ ∃ a r', f r = .ok (a, r') ∧ g a r' = .ok x := by
  rw [Rd.bind_apply]
  constructor
  · intro h
    split at h
    · exact ⟨_, _, ‹_›, h⟩
    · cases h
    · cases h
  · rintro ⟨a, r', h1, h2⟩
    rw [h1]; exact h2

theorem le_at {data : List Nat} {o k v : Nat} {r : List Nat} (hk : 0 < k) :
    Rd.le k (data.drop o) = .ok (v, r) ↔ getLE data o k = .ok v ∧ r = data.drop (o + k) := by
  unfold Rd.le getLE getT
  by_cases h : o + k ≤ data.length
  · rw [if_pos (by rw [List.length_drop]; omega), if_pos h, List.drop_drop]
    simp only [Outcome.ok.injEq, Prod.mk.injEq, eq_comm (a := r)]
  · rw [if_neg (by rw [List.length_drop]; omega), if_neg h]
    simp

theorem be_at {data : List Nat} {o k v : Nat} {r : List Nat} (hk : 0 < k) :
    beR k (data.drop o) = .ok (v, r) ↔ getBE data o k = .ok v ∧ r = data.drop (o + k) := by
  unfold beR getBE
  by_cases h : o + k ≤ data.length
  · rw [if_pos (by rw [List.length_drop]; omega), if_pos h, List.drop_drop]
    simp only [Outcome.ok.injEq, Prod.mk.injEq, eq_comm (a := r)]
  · rw [if_neg (by rw [List.length_drop]; omega), if_neg h]
    simp

theorem getLE_len {data : List Nat} {o k v : Nat} (h : getLE data o k = .ok v) :
    o + k ≤ data.length := by
  unfold getLE at h; split at h
  · assumption
  · cases h

theorem getBE_len {data : List Nat} {o k v : Nat} (h : getBE data o k = .ok v) :
    o + k ≤ data.length := by
  unfold getBE at h; split at h
  · assumption
  · cases h

omit [Field α] [LinearOrder α] in
theorem finiteR_ok {x : Fl α} {n : String} {r r' : List Nat} {v : α} :
    (finiteR x n : Rd α) r = .ok (v, r') ↔ x = .fin v ∧ r' = r := by
  unfold finiteR finite
  cases x <;> simp [eq_comm]

omit [Field α] [LinearOrder α] in
theorem finite_ok {x : Fl α} {n : String} {v : α} : finite x n = .ok v ↔ x = .fin v := by
  unfold finite
  cases x <;> simp

omit [Field α] [LinearOrder α] in
theorem notNaN_ok {x : Fl α} {n : String} {u : Unit} : notNaN x n = .ok u ↔ x ≠ .nan := by
  unfold notNaN
  cases x <;> simp

omit [Field α] [LinearOrder α] in
theorem notNaNR_ok {x : Fl α} {n : String} {r r' : List Nat} {u : Unit} :
    (notNaNR x n : Rd Unit) r = .ok (u, r') ↔ x ≠ .nan ∧ r' = r := by
  unfold notNaNR notNaN
  cases x <;> simp [eq_comm]

omit [Field α] [LinearOrder α] in
theorem notInfR_ok {x : Fl α} {n : String} {r r' : List Nat} {u : Unit} :
    (notInfR x n : Rd Unit) r = .ok (u, r') ↔ (x ≠ .ninf ∧ x ≠ .pinf) ∧ r' = r := by
  unfold notInfR
  cases x <;> simp [eq_comm]

theorem liftR_ok {β : Type} {x : Outcome β} {r r' : List Nat} {v : β} :
    liftR x r = .ok (v, r') ↔ x = .ok v ∧ r' = r := by
  unfold liftR
  cases x <;> simp [eq_comm]

theorem pure_ok {β : Type} {a b : β} {r r' : List Nat} :
    (pure a : Rd β) r = .ok (b, r') ↔ a = b ∧ r' = r := by
  simp [Rd.pure_apply, eq_comm]

theorem ite_fail_ok {β : Type} {p : Prop} [Decidable p] {m : String} {f : Rd β} {r : List Nat}
    {x : β × List Nat} : (if p then Rd.fail m else f) r = .ok x ↔ ¬ p ∧ f r = .ok x := by
  by_cases h : p <;> simp [h]

theorem ite_err_ok {β : Type} {p : Prop} [Decidable p] {m : String} {f : Outcome β} {x : β} :
    (if p then .err m else f) = .ok x ↔ ¬ p ∧ f = .ok x := by
  by_cases h : p <;> simp [h]

/-- The loops over fields of `w` bytes see the same things. -/
theorem times_at {β γ : Type} {f : Rd β} {g : Nat → Outcome γ} {data : List Nat} {w : Nat}
    {get : Nat → Nat → Outcome (List γ)} {φ : γ → β} {P : Nat → Prop}
    (h0 : ∀ o, get 0 o = .ok [])
    (hs : ∀ n o l, get (n + 1) o = .ok l ↔ ∃ a l', g o = .ok a ∧ get n (o + w) = .ok l' ∧
      l = a :: l')
    (hf : ∀ o a r, P o → (f (data.drop o) = .ok (φ a, r) ↔ g o = .ok a ∧ r = data.drop (o + w)))
    (n o : Nat) (l : List γ) (r : List Nat) (hP : ∀ i < n, P (o + i * w)) :
    Rd.times f n (data.drop o) = .ok (l.map φ, r) ↔
      get n o = .ok l ∧ r = data.drop (o + n * w) := by
  induction n generalizing o l r with
  | zero =>
    rw [h0]
    cases l <;> simp [Rd.times, Rd.pure, eq_comm]
  | succ n ih =>
    have hP0 : P o := by simpa using hP 0 (by omega)
    have hPs : ∀ i < n, P (o + w + i * w) := by
      intro i hi
      have := hP (i + 1) (by omega)
      rwa [Nat.succ_mul, ← Nat.add_assoc, Nat.add_right_comm] at this
    have e : o + (n + 1) * w = o + w + n * w := by ring
    rw [hs, e]
    have ht : Rd.times f (n + 1) = (f >>= fun a => Rd.times f n >>= fun as => pure (a :: as)) := rfl
    rw [ht, rd_bind_eq_ok]
    constructor
    · rintro ⟨a, r1, h1, h2⟩
      obtain ⟨as, r2, h3, h4⟩ := rd_bind_eq_ok.mp h2
      obtain ⟨h5, rfl⟩ := pure_ok.mp h4
      cases l with
      | nil => cases h5
      | cons x l =>
        rw [List.map_cons] at h5
        obtain ⟨rfl, rfl⟩ := List.cons.inj h5
        obtain ⟨h6, rfl⟩ := (hf o x r1 hP0).mp h1
        obtain ⟨h7, rfl⟩ := (ih _ l r hPs).mp h3
        exact ⟨⟨x, l, h6, h7, rfl⟩, rfl⟩
    · rintro ⟨⟨a, l', h1, h2, rfl⟩, rfl⟩
      refine ⟨φ a, _, (hf o a _ hP0).mpr ⟨h1, rfl⟩, rd_bind_eq_ok.mpr ⟨l'.map φ, _,
        (ih _ l' _ hPs).mpr ⟨h2, rfl⟩, rfl⟩⟩

/-! ### The current format -/

/-- One centroid at an offset. -/
def cenAt (F : Codec α) (data : List Nat) (o : Nat) : Outcome (Cen α) :=
  getLE data o 8 >>= fun mb =>
  finite (F.val mb) "centroid mean" >>= fun m =>
  getLE data (o + 8) 8 >>= fun w =>
  if w = 0 then .err "centroid weight: Zero" else .ok { mean := m, weight := w }

omit [Field α] [LinearOrder α] in
theorem getCens_succ (F : Codec α) (data : List Nat) (n o : Nat) (l : List (Cen α)) :
    getCens F data (n + 1) o = .ok l ↔ ∃ a l', cenAt F data o = .ok a ∧
      getCens F data n (o + 16) = .ok l' ∧ l = a :: l' := by
  rw [getCens, cenAt]
  simp only [Outcome.bind_eq_ok, ite_err_ok, Outcome.ok.injEq]
  constructor
  · rintro ⟨mb, h1, m, h2, w, h3, h4, cs, h5, rfl⟩
    exact ⟨_, cs, ⟨mb, h1, m, h2, w, h3, h4, rfl⟩, h5, rfl⟩
  · rintro ⟨a, l', ⟨mb, h1, m, h2, w, h3, h4, rfl⟩, h5, rfl⟩
    exact ⟨mb, h1, m, h2, w, h3, h4, l', h5, rfl⟩

omit [Field α] [LinearOrder α] in
theorem cenR_at (F : Codec α) (data : List Nat) (o : Nat) (a : Cen α) (r : List Nat) :
    cenR F (data.drop o) = .ok (a, r) ↔ cenAt F data o = .ok a ∧ r = data.drop (o + 16) := by
  rw [cenR, cenAt]
  simp only [rd_bind_eq_ok, Outcome.bind_eq_ok, ite_err_ok, ite_fail_ok, finiteR_ok, finite_ok,
    pure_ok, le_at (show 0 < 8 by decide)]
  constructor
  · rintro ⟨mb, _, ⟨h1, rfl⟩, m, _, ⟨h2, rfl⟩, w, _, h3, h4, rfl, rfl⟩
    obtain ⟨h3', rfl⟩ := (le_at (show 0 < 8 by decide)).mp h3
    exact ⟨⟨mb, h1, m, h2, w, h3', h4, rfl⟩, rfl⟩
  · rintro ⟨⟨mb, h1, m, h2, w, h3, h4, h5⟩, rfl⟩
    cases h5
    exact ⟨mb, _, ⟨h1, rfl⟩, m, _, ⟨h2, rfl⟩, w, _,
      (le_at (show 0 < 8 by decide)).mpr ⟨h3, rfl⟩, h4, rfl, rfl⟩

omit [Field α] [LinearOrder α] in
theorem getCens_at (F : Codec α) (data : List Nat) (n o : Nat) (l : List (Cen α)) (r : List Nat) :
    Rd.times (cenR F) n (data.drop o) = .ok (l, r) ↔
      getCens F data n o = .ok l ∧ r = data.drop (o + n * 16) := by
  have := times_at (f := cenR F) (g := cenAt F data) (data := data) (w := 16)
    (get := getCens F data) (φ := id) (P := fun _ => True) (fun _ => rfl)
    (getCens_succ F data) (fun o a r _ => cenR_at F data o a r) n o l r (fun _ _ => trivial)
  rwa [List.map_id] at this

/-- One buffered value at an offset. -/
def bufAt (F : Codec α) (data : List Nat) (o : Nat) : Outcome α :=
  getLE data o 8 >>= fun vb => finite (F.val vb) "buffered value"

omit [Field α] [LinearOrder α] in
theorem getBuf_at (F : Codec α) (data : List Nat) (n o : Nat) (l : List α) (r : List Nat) :
    Rd.times (bufR F) n (data.drop o) = .ok (l, r) ↔
      getBuf F data n o = .ok l ∧ r = data.drop (o + n * 8) := by
  have hs : ∀ n o l, getBuf F data (n + 1) o = .ok l ↔ ∃ a l', bufAt F data o = .ok a ∧
      getBuf F data n (o + 8) = .ok l' ∧ l = a :: l' := by
    intro n o l
    rw [getBuf, bufAt]
    simp only [Outcome.bind_eq_ok, Outcome.ok.injEq]
    constructor
    · rintro ⟨vb, h1, v, h2, vs, h3, rfl⟩
      exact ⟨v, vs, ⟨vb, h1, h2⟩, h3, rfl⟩
    · rintro ⟨a, l', ⟨vb, h1, h2⟩, h3, rfl⟩
      exact ⟨vb, h1, a, h2, l', h3, rfl⟩
  have hf : ∀ o a r, True → (bufR F (data.drop o) = .ok (id a, r) ↔
      bufAt F data o = .ok a ∧ r = data.drop (o + 8)) := by
    intro o a r _
    rw [bufR, bufAt]
    simp only [rd_bind_eq_ok, Outcome.bind_eq_ok, finiteR_ok, finite_ok,
      le_at (show 0 < 8 by decide), id]
    constructor
    · rintro ⟨vb, _, ⟨h1, rfl⟩, h2, rfl⟩; exact ⟨⟨vb, h1, h2⟩, rfl⟩
    · rintro ⟨⟨vb, h1, h2⟩, rfl⟩; exact ⟨vb, _, ⟨h1, rfl⟩, h2, rfl⟩
  have := times_at (f := bufR F) (g := bufAt F data) (data := data) (w := 8)
    (get := getBuf F data) (φ := id) (P := fun _ => True) (fun _ => rfl) hs hf n o l r
    (fun _ _ => trivial)
  rwa [List.map_id] at this

/-! ### The formats of the reference implementation -/

/-- A centroid as it is loaded. -/
def loadedCen (c : Cen α) : Fl α × Nat := (.fin c.mean, c.weight)

def compatDAt (F : Codec α) (data : List Nat) (o : Nat) : Outcome (Cen α) :=
  getBE data o 8 >>= fun wb =>
  if F.val wb = .fin 0 then .err "centroid weight: Zero" else
  getBE data (o + 8) 8 >>= fun mb =>
  finite (F.val mb) "centroid mean" >>= fun m =>
  .ok { mean := m, weight := F.toU64 (F.val wb) }

def compatFAt (F : Codec α) (data : List Nat) (o : Nat) : Outcome (Cen α) :=
  getBE data o 4 >>= fun wb =>
  if F.val32 wb = .fin 0 then .err "centroid weight: Zero" else
  getBE data (o + 4) 4 >>= fun mb =>
  finite (F.val32 mb) "centroid mean" >>= fun m =>
  .ok { mean := m, weight := F.toU64 (F.val32 wb) }

theorem compatDR_at (F : Codec α) (data : List Nat) (o : Nat) (a : Cen α) (r : List Nat) :
    compatDR F (data.drop o) = .ok (loadedCen a, r) ↔
      compatDAt F data o = .ok a ∧ r = data.drop (o + 16) := by
  rw [compatDR, compatDAt]
  simp only [rd_bind_eq_ok, Outcome.bind_eq_ok, ite_err_ok, ite_fail_ok, finite_ok,
    pure_ok, be_at (show 0 < 8 by decide), notNaNR_ok, notInfR_ok]
  constructor
  · rintro ⟨wb, _, ⟨h1, rfl⟩, h2, mb, _, h3, _, _, ⟨_, rfl⟩, _, _, ⟨_, rfl⟩, h6, rfl⟩
    obtain ⟨h3', rfl⟩ := (be_at (show 0 < 8 by decide)).mp h3
    unfold loadedCen at h6
    obtain ⟨h7, h8⟩ := Prod.mk.inj h6
    refine ⟨⟨wb, h1, h2, mb, h3', a.mean, h7, ?_⟩, rfl⟩
    rw [h8]
  · rintro ⟨⟨wb, h1, h2, mb, h3, m, h4, h5⟩, rfl⟩
    cases h5
    refine ⟨wb, _, ⟨h1, rfl⟩, h2, mb, _, (be_at (show 0 < 8 by decide)).mpr ⟨h3, rfl⟩, (), _,
      ⟨by rw [h4]; simp, rfl⟩, (), _, ⟨by rw [h4]; simp, rfl⟩, ?_, rfl⟩
    rw [h4]; rfl

theorem compatFR_at (F : Codec α) (data : List Nat) (o : Nat) (a : Cen α) (r : List Nat)
    (hw : ∀ w, getBE data o 4 = .ok w → F.val32 w ≠ .nan) :
    compatFR F (data.drop o) = .ok (loadedCen a, r) ↔
      compatFAt F data o = .ok a ∧ r = data.drop (o + 8) := by
  rw [compatFR, compatFAt]
  simp only [rd_bind_eq_ok, Outcome.bind_eq_ok, ite_err_ok, ite_fail_ok, finite_ok,
    pure_ok, be_at (show 0 < 4 by decide), notNaNR_ok, notInfR_ok]
  constructor
  · rintro ⟨wb, _, ⟨h1, rfl⟩, h2, mb, _, h3, _, _, ⟨_, rfl⟩, _, _, ⟨_, rfl⟩, h6, rfl⟩
    obtain ⟨h3', rfl⟩ := (be_at (show 0 < 4 by decide)).mp h3
    unfold loadedCen at h6
    obtain ⟨h7, h8⟩ := Prod.mk.inj h6
    refine ⟨⟨wb, h1, h2, mb, h3', a.mean, h7, ?_⟩, rfl⟩
    rw [h8]
  · rintro ⟨⟨wb, h1, h2, mb, h3, m, h4, h5⟩, rfl⟩
    cases h5
    refine ⟨wb, _, ⟨h1, rfl⟩, h2, mb, _, (be_at (show 0 < 4 by decide)).mpr ⟨h3, rfl⟩, (), _,
      ⟨by rw [h4]; simp, rfl⟩, (), _, ⟨hw _ h1, rfl⟩, ?_, rfl⟩
    rw [h4]; rfl

theorem compatD_at (F : Codec α) (data : List Nat) (n o : Nat) (l : List (Cen α)) (r : List Nat) :
    Rd.times (compatDR F) n (data.drop o) = .ok (l.map loadedCen, r) ↔
      getCompatD F data n o = .ok l ∧ r = data.drop (o + n * 16) := by
  refine times_at (f := compatDR F) (g := compatDAt F data) (w := 16) (get := getCompatD F data)
    (P := fun _ => True) (fun _ => rfl) ?_ (fun o a r _ => compatDR_at F data o a r) n o l r
    (fun _ _ => trivial)
  intro n o l
  rw [getCompatD, compatDAt]
  simp only [Outcome.bind_eq_ok, ite_err_ok, Outcome.ok.injEq]
  constructor
  · rintro ⟨wb, h1, h2, mb, h3, m, h4, cs, h5, rfl⟩
    exact ⟨_, cs, ⟨wb, h1, h2, mb, h3, m, h4, rfl⟩, h5, rfl⟩
  · rintro ⟨a, l', ⟨wb, h1, h2, mb, h3, m, h4, rfl⟩, h5, rfl⟩
    exact ⟨wb, h1, h2, mb, h3, m, h4, l', h5, rfl⟩

theorem compatF_at (F : Codec α) (data : List Nat) (n o : Nat) (l : List (Cen α)) (r : List Nat)
    (hw : ∀ i < n, ∀ w, getBE data (o + i * 8) 4 = .ok w → F.val32 w ≠ .nan) :
    Rd.times (compatFR F) n (data.drop o) = .ok (l.map loadedCen, r) ↔
      getCompatF F data n o = .ok l ∧ r = data.drop (o + n * 8) := by
  refine times_at (f := compatFR F) (g := compatFAt F data) (w := 8) (get := getCompatF F data)
    (P := fun o => ∀ w, getBE data o 4 = .ok w → F.val32 w ≠ .nan)
    (fun _ => rfl) ?_ (fun o a r h => compatFR_at F data o a r h) n o l r hw
  intro n o l
  rw [getCompatF, compatFAt]
  simp only [Outcome.bind_eq_ok, ite_err_ok, Outcome.ok.injEq]
  constructor
  · rintro ⟨wb, h1, h2, mb, h3, m, h4, cs, h5, rfl⟩
    exact ⟨_, cs, ⟨wb, h1, h2, mb, h3, m, h4, rfl⟩, h5, rfl⟩
  · rintro ⟨a, l', ⟨wb, h1, h2, mb, h3, m, h4, rfl⟩, h5, rfl⟩
    exact ⟨wb, h1, h2, mb, h3, m, h4, l', h5, rfl⟩

/-! ### Lengths -/

omit [Field α] [LinearOrder α] in
theorem getCens_len (F : Codec α) {data : List Nat} {n o : Nat} {l : List (Cen α)}
    (h : getCens F data n o = .ok l) (ho : o ≤ data.length) : o + n * 16 ≤ data.length := by
  induction n generalizing o l with
  | zero => omega
  | succ n ih =>
    obtain ⟨a, l', h1, h2, -⟩ := (getCens_succ F data n o l).mp h
    unfold cenAt at h1
    obtain ⟨mb, e1, h1⟩ := Outcome.bind_eq_ok.mp h1
    obtain ⟨m, e2, h1⟩ := Outcome.bind_eq_ok.mp h1
    obtain ⟨w, e3, h1⟩ := Outcome.bind_eq_ok.mp h1
    have h5 := getLE_len e3
    have := ih h2 (by omega)
    omega

omit [Field α] [LinearOrder α] in
theorem getBuf_len (F : Codec α) {data : List Nat} {n o : Nat} {l : List α}
    (h : getBuf F data n o = .ok l) (ho : o ≤ data.length) : o + n * 8 ≤ data.length := by
  induction n generalizing o l with
  | zero => omega
  | succ n ih =>
    rw [getBuf] at h
    obtain ⟨vb, e1, h⟩ := Outcome.bind_eq_ok.mp h
    obtain ⟨v, e2, h⟩ := Outcome.bind_eq_ok.mp h
    obtain ⟨vs, e3, h⟩ := Outcome.bind_eq_ok.mp h
    have h5 := getLE_len e1
    have := ih e3 (by omega)
    omega

theorem getCompatD_len (F : Codec α) {data : List Nat} {n o : Nat} {l : List (Cen α)}
    (h : getCompatD F data n o = .ok l) (ho : o ≤ data.length) : o + n * 16 ≤ data.length := by
  induction n generalizing o l with
  | zero => omega
  | succ n ih =>
    rw [getCompatD] at h
    obtain ⟨vb, e1, h⟩ := Outcome.bind_eq_ok.mp h
    obtain ⟨-, h⟩ := ite_err_ok.mp h
    obtain ⟨v, e2, h⟩ := Outcome.bind_eq_ok.mp h
    obtain ⟨m, e3, h⟩ := Outcome.bind_eq_ok.mp h
    obtain ⟨vs, e4, h⟩ := Outcome.bind_eq_ok.mp h
    have h5 := getBE_len e2
    have := ih e4 (by omega)
    omega

theorem getCompatF_len (F : Codec α) {data : List Nat} {n o : Nat} {l : List (Cen α)}
    (h : getCompatF F data n o = .ok l) (ho : o ≤ data.length) :
    o + n * 8 ≤ data.length ∧ l.length = n := by
  induction n generalizing o l with
  | zero => rw [getCompatF] at h; cases h; exact ⟨by omega, rfl⟩
  | succ n ih =>
    rw [getCompatF] at h
    obtain ⟨vb, e1, h⟩ := Outcome.bind_eq_ok.mp h
    obtain ⟨-, h⟩ := ite_err_ok.mp h
    obtain ⟨v, e2, h⟩ := Outcome.bind_eq_ok.mp h
    obtain ⟨m, e3, h⟩ := Outcome.bind_eq_ok.mp h
    obtain ⟨vs, e4, h⟩ := Outcome.bind_eq_ok.mp h
    have h5 := getBE_len e2
    have := ih e4 (by omega)
    cases h
    exact ⟨by omega, by simp [this.2]⟩

theorem times_length {β : Type} {f : Rd β} {n : Nat} {r r' : List Nat} {l : List β}
    (h : Rd.times f n r = .ok (l, r')) : l.length = n := by
  induction n generalizing r l r' with
  | zero => cases h; rfl
  | succ n ih =>
    have ht : Rd.times f (n + 1) = (f >>= fun a => Rd.times f n >>= fun as => pure (a :: as)) := rfl
    rw [ht] at h
    obtain ⟨a, r1, -, h⟩ := rd_bind_eq_ok.mp h
    obtain ⟨as, r2, h2, h⟩ := rd_bind_eq_ok.mp h
    obtain ⟨rfl, -⟩ := pure_ok.mp h
    simp [ih h2]

/-! ### Digests with at least two values -/

omit [Field α] [LinearOrder α] in
theorem fromStates_ok {rev : Bool} {k : Nat} {mn mx : Fl α} {cs : List (Cen α)} {w : Nat}
    {b : List α} {d : Digest α} (h : fromStates rev k mn mx cs w b = .ok d) :
    10 ≤ k ∧ d = { rev := rev, k := k, min := mn, max := mx, cap := capacityOf k, centroids := cs,
                   cw := w, buffer := b } := by
  unfold fromStates at h
  obtain ⟨h1, h2⟩ := ite_err_ok.mp h
  cases h2
  exact ⟨by omega, rfl⟩

omit [Field α] [LinearOrder α] in
theorem many_at (F : Codec α) (data : List Nat) (k : Nat) (rev : Bool) (d : Digest α) :
    decodeMany F data k rev = .ok d ↔
      d.max ≠ .nan ∧ ∃ r, manyR F k rev (data.drop 8) = .ok (d, r) := by
  constructor
  · intro h
    unfold decodeMany at h
    obtain ⟨-, h⟩ := ite_err_ok.mp h
    obtain ⟨nc, h1, h⟩ := Outcome.bind_eq_ok.mp h
    obtain ⟨nb, h2, h⟩ := Outcome.bind_eq_ok.mp h
    obtain ⟨-, h⟩ := ite_err_ok.mp h
    obtain ⟨mnb, h3, h⟩ := Outcome.bind_eq_ok.mp h
    obtain ⟨_, h4, h⟩ := Outcome.bind_eq_ok.mp h
    obtain ⟨mxb, h5, h⟩ := Outcome.bind_eq_ok.mp h
    obtain ⟨_, h6, h⟩ := Outcome.bind_eq_ok.mp h
    obtain ⟨cs, h7, h⟩ := Outcome.bind_eq_ok.mp h
    obtain ⟨vs, h8, h⟩ := Outcome.bind_eq_ok.mp h
    rw [notNaN_ok] at h4 h6
    refine ⟨?_, data.drop (32 + nc * 16 + nb * 8), ?_⟩
    · obtain ⟨-, rfl⟩ := fromStates_ok h
      exact h6
    · unfold manyR
      rw [Rd.bind_ok ((le_at (by decide)).mpr ⟨h1, rfl⟩),
        Rd.bind_ok ((le_at (by decide)).mpr ⟨h2, rfl⟩),
        Rd.bind_ok ((le_at (by decide)).mpr ⟨h3, rfl⟩), Rd.bind_ok (notNaNR_ok (u := ()).mpr ⟨h4, rfl⟩),
        Rd.bind_ok ((le_at (by decide)).mpr ⟨h5, rfl⟩), Rd.bind_ok (notNaNR_ok (u := ()).mpr ⟨h4, rfl⟩),
        Rd.bind_ok ((getCens_at F data nc _ cs _).mpr ⟨h7, rfl⟩),
        Rd.bind_ok ((getBuf_at F data nb _ vs _).mpr ⟨h8, rfl⟩)]
      exact liftR_ok.mpr ⟨h, rfl⟩
  · rintro ⟨hm, r, h⟩
    unfold manyR at h
    obtain ⟨nc, r1, h1, h⟩ := rd_bind_eq_ok.mp h
    obtain ⟨g1, rfl⟩ := (le_at (by decide)).mp h1
    obtain ⟨nb, r1, h2, h⟩ := rd_bind_eq_ok.mp h
    obtain ⟨g2, rfl⟩ := (le_at (by decide)).mp h2
    obtain ⟨mnb, r1, h3, h⟩ := rd_bind_eq_ok.mp h
    obtain ⟨g3, rfl⟩ := (le_at (by decide)).mp h3
    obtain ⟨_, r1, h4, h⟩ := rd_bind_eq_ok.mp h
    obtain ⟨g4, rfl⟩ := notNaNR_ok.mp h4
    obtain ⟨mxb, r1, h5, h⟩ := rd_bind_eq_ok.mp h
    obtain ⟨g5, rfl⟩ := (le_at (by decide)).mp h5
    obtain ⟨_, r1, h6, h⟩ := rd_bind_eq_ok.mp h
    obtain ⟨-, rfl⟩ := notNaNR_ok.mp h6
    obtain ⟨cs, r1, h7, h⟩ := rd_bind_eq_ok.mp h
    obtain ⟨g7, rfl⟩ := (getCens_at F data nc _ cs _).mp h7
    obtain ⟨vs, r1, h8, h⟩ := rd_bind_eq_ok.mp h
    obtain ⟨g8, rfl⟩ := (getBuf_at F data nb _ vs _).mp h8
    obtain ⟨g, rfl⟩ := liftR_ok.mp h
    have l5 := getLE_len g5
    have l7 := getCens_len F g7 (by omega)
    have l8 := getBuf_len F g8 (by omega)
    have hx : F.val mxb ≠ .nan := by
      obtain ⟨-, rfl⟩ := fromStates_ok g
      exact hm
    unfold decodeMany
    rw [if_neg (by omega), Outcome.bind_eq_ok.mpr ⟨nc, g1, ?_⟩]
    rw [Outcome.bind_eq_ok.mpr ⟨nb, g2, ?_⟩]
    rw [if_neg (by omega), Outcome.bind_eq_ok.mpr ⟨mnb, g3, ?_⟩]
    rw [Outcome.bind_eq_ok.mpr ⟨(), notNaN_ok.mpr g4, ?_⟩]
    rw [Outcome.bind_eq_ok.mpr ⟨mxb, g5, ?_⟩]
    rw [Outcome.bind_eq_ok.mpr ⟨(), notNaN_ok.mpr hx, ?_⟩]
    rw [Outcome.bind_eq_ok.mpr ⟨cs, g7, ?_⟩]
    rw [Outcome.bind_eq_ok.mpr ⟨vs, g8, g⟩]

/-! ### Whole images -/

theorem getLE_ok {data : List Nat} {o k : Nat} (h : o + k ≤ data.length) :
    getLE data o k = .ok (getT data o k) := by
  unfold getLE; rw [if_pos h]

theorem le_ok {data : List Nat} {o k : Nat} (hk : 0 < k) (h : o + k ≤ data.length) :
    Rd.le k (data.drop o) = .ok (getT data o k, data.drop (o + k)) :=
  (le_at hk).mpr ⟨getLE_ok h, rfl⟩

/-- `DecodeDouble` on the current format, after the length and the type have been tested. -/
def currentAt (F : Codec α) (data : List Nat) (pl sv : Nat) : Outcome (Digest α) :=
  if sv ≠ 1 then .err "serial version mismatch" else
  getLE data 3 2 >>= fun k =>
  getLE data 5 1 >>= fun flags =>
  if pl ≠ (if flags &&& 1 ≠ 0 ∨ flags &&& 2 ≠ 0 then 1 else 2) then
    .err "preamble longs mismatch" else
  if flags &&& 1 ≠ 0 then newDouble k
  else if flags &&& 2 ≠ 0 then
    if data.length < 8 + 8 then .err "insufficient data" else
    getLE data 8 8 >>= fun vb =>
    finite (F.val vb) "value" >>= fun v =>
    fromStates (flags &&& 4 ≠ 0 : Bool) k (F.val vb) (F.val vb) [{ mean := v, weight := 1 }] 1 []
  else decodeMany F data k (flags &&& 4 ≠ 0 : Bool)

theorem decodeDouble_eq (F : Codec α) (data : List Nat) (h : 8 ≤ data.length) :
    decodeDouble F data =
      if getT data 2 1 ≠ 20 then
        if getT data 0 1 = 0 ∧ getT data 1 1 = 0 ∧ getT data 2 1 = 0 then
          decodeCompat F (data.drop 3)
        else .err "sketch type mismatch"
      else currentAt F data (getT data 0 1) (getT data 1 1) := by
  unfold decodeDouble currentAt
  rw [if_neg (by omega), getLE_ok (by omega), Outcome.ok_bind, getLE_ok (by omega), Outcome.ok_bind,
    getLE_ok (by omega), Outcome.ok_bind]

theorem decodeStream_eq (F : Codec α) (data : List Nat) (h : 3 ≤ data.length) :
    decodeStream F data =
      (if getT data 2 1 ≠ 20 then
        if getT data 0 1 = 0 ∧ getT data 1 1 = 0 ∧ getT data 2 1 = 0 then compatR F
        else Rd.fail "sketch type mismatch"
      else currentR F (getT data 0 1) (getT data 1 1) >>= fun d => pure d.loaded)
        (data.drop 3) := by
  unfold decodeStream
  have e0 : Rd.le 1 data = .ok (getT data 0 1, data.drop 1) :=
    le_ok (data := data) (o := 0) (k := 1) (by decide) (by omega)
  rw [Rd.bind_ok e0,
    Rd.bind_ok (le_ok (data := data) (o := 1) (k := 1) (by decide) (by omega)),
    Rd.bind_ok (le_ok (data := data) (o := 2) (k := 1) (by decide) (by omega))]

omit [Field α] [LinearOrder α] in
theorem current_at (F : Codec α) (data : List Nat) (pl sv : Nat) (d : Digest α)
    (h : 8 ≤ data.length) :
    currentAt F data pl sv = .ok d ↔
      d.max ≠ .nan ∧ ∃ r, currentR F pl sv (data.drop 3) = .ok (d, r) := by
  unfold currentAt currentR
  by_cases hv : sv = 1
  · rw [if_neg (by simpa using hv), if_neg (by simpa using hv), getLE_ok (by omega),
      Outcome.ok_bind, getLE_ok (by omega), Outcome.ok_bind,
      Rd.bind_ok (le_ok (data := data) (o := 3) (k := 2) (by decide) (by omega)),
      Rd.bind_ok (le_ok (data := data) (o := 5) (k := 1) (by decide) (by omega))]
    generalize getT data 5 1 = fl
    generalize getT data 3 2 = k
    by_cases hp : pl = (if fl &&& 1 ≠ 0 ∨ fl &&& 2 ≠ 0 then 1 else 2)
    · rw [if_neg (not_not.mpr hp), if_neg (not_not.mpr hp),
        Rd.bind_ok (le_ok (data := data) (o := 6) (k := 2) (by decide) (by omega))]
      by_cases h1 : fl &&& 1 ≠ 0
      · rw [if_pos h1, if_pos h1]
        constructor
        · intro hd
          refine ⟨?_, _, liftR_ok.mpr ⟨hd, rfl⟩⟩
          unfold newDouble at hd
          obtain ⟨-, hd⟩ := ite_err_ok.mp hd
          cases hd
          simp
        · rintro ⟨-, r, hd⟩
          exact (liftR_ok.mp hd).1
      · rw [if_neg h1, if_neg h1]
        by_cases h2 : fl &&& 2 ≠ 0
        · rw [if_pos h2, if_pos h2]
          constructor
          · intro hd
            obtain ⟨-, hd⟩ := ite_err_ok.mp hd
            obtain ⟨vb, e1, hd⟩ := Outcome.bind_eq_ok.mp hd
            obtain ⟨v, e2, hd⟩ := Outcome.bind_eq_ok.mp hd
            rw [finite_ok] at e2
            refine ⟨?_, data.drop 16, ?_⟩
            · obtain ⟨-, rfl⟩ := fromStates_ok hd
              simp [e2]
            · rw [Rd.bind_ok ((le_at (by decide)).mpr ⟨e1, rfl⟩),
                Rd.bind_ok (finiteR_ok.mpr ⟨e2, rfl⟩)]
              exact liftR_ok.mpr ⟨hd, rfl⟩
          · rintro ⟨-, r, hd⟩
            obtain ⟨vb, r1, e1, hd⟩ := rd_bind_eq_ok.mp hd
            obtain ⟨g1, rfl⟩ := (le_at (by decide)).mp e1
            obtain ⟨v, r1, e2, hd⟩ := rd_bind_eq_ok.mp hd
            obtain ⟨g2, rfl⟩ := finiteR_ok.mp e2
            obtain ⟨g3, rfl⟩ := liftR_ok.mp hd
            have := getLE_len g1
            rw [if_neg (by omega)]
            exact Outcome.bind_eq_ok.mpr ⟨vb, g1, Outcome.bind_eq_ok.mpr ⟨v, finite_ok.mpr g2, g3⟩⟩
        · rw [if_neg h2, if_neg h2]
          exact many_at F data k _ d
    · rw [if_pos hp, if_pos hp]
      simp
  · rw [if_pos hv, if_pos hv]
    simp

omit [Field α] [LinearOrder α] in
theorem currentR_len (F : Codec α) {data : List Nat} {pl sv : Nat} {x : Digest α × List Nat}
    (h : currentR F pl sv (data.drop 3) = .ok x) : 8 ≤ data.length := by
  unfold currentR at h
  obtain ⟨-, h⟩ := ite_fail_ok.mp h
  obtain ⟨k, r1, h1, h⟩ := rd_bind_eq_ok.mp h
  obtain ⟨-, rfl⟩ := (le_at (by decide)).mp h1
  obtain ⟨fl, r1, h2, h⟩ := rd_bind_eq_ok.mp h
  obtain ⟨-, rfl⟩ := (le_at (by decide)).mp h2
  obtain ⟨-, h⟩ := ite_fail_ok.mp h
  obtain ⟨u, r1, h3, h⟩ := rd_bind_eq_ok.mp h
  obtain ⟨g, -⟩ := (le_at (by decide)).mp h3
  exact getLE_len g

omit [Field α] [LinearOrder α] in
/-- A digest is determined by what is loaded. -/
theorem loaded_inj {d e : Digest α} (h : d.loaded = e.loaded) : d = e := by
  obtain ⟨mn, mx, cs, b, w, cap, k, rev⟩ := d
  obtain ⟨mn', mx', cs', b', w', cap', k', rev'⟩ := e
  simp only [Digest.loaded, Loaded.mk.injEq] at h
  obtain ⟨rfl, rfl, rfl, rfl, rfl, h, rfl, rfl⟩ := h
  have : cs = cs' := by
    refine List.map_injective_iff.mpr ?_ h
    rintro ⟨m, w⟩ ⟨m', w'⟩ he
    simp only [Prod.mk.injEq, Fl.fin.injEq] at he
    rw [he.1, he.2]
  rw [this]

omit [Field α] [LinearOrder α] in
theorem loadR_ok {k : Nat} {mn mx : Fl α} {cs : List (Fl α × Nat)} {r r' : List Nat}
    {d : Digest α} : loadR k mn mx cs r = .ok (d.loaded, r') ↔
      cs = d.centroids.map loadedCen ∧
        fromStates false k mn mx d.centroids (totalOf d.centroids) [] = .ok d ∧ r' = r := by
  unfold loadR fromStates
  by_cases hk : k < 10
  · simp [hk]
  · rw [if_neg hk, if_neg hk, pure_ok]
    have hs : ∀ l : List (Cen α), ((l.map loadedCen).map Prod.snd).sum % 2 ^ 64 = totalOf l := by
      intro l; unfold totalOf; rw [List.map_map]; rfl
    constructor
    · rintro ⟨h, rfl⟩
      have hc : cs = d.centroids.map loadedCen := congrArg Loaded.centroids h
      refine ⟨hc, ?_, rfl⟩
      refine congrArg Outcome.ok (loaded_inj ?_)
      rw [← h, hc, hs]
      rfl
    · rintro ⟨hc, h, rfl⟩
      refine ⟨?_, rfl⟩
      rw [Outcome.ok.injEq] at h
      rw [hc, hs]
      conv_rhs => rw [← h]
      rfl

theorem compat_at (F : Codec α) (data : List Nat) (d : Digest α)
    (ht : data[0]? = some 1 ∨ data[0]? = some 2)
    (hw : data[0]? = some 2 → ∀ i < d.centroids.length, ∀ w,
      getBE data (27 + i * 8) 4 = .ok w → F.val32 w ≠ .nan) :
    decodeCompat F data = .ok d ↔ ∃ r, compatR F data = .ok (d.loaded, r) := by
  obtain ⟨ty, tl, rfl⟩ : ∃ a l, data = a :: l := by
    cases data with
    | nil => simp at ht
    | cons a l => exact ⟨a, l, rfl⟩
  have hty : ty = 1 ∨ ty = 2 := by simpa using ht
  have e1 : getLE (ty :: tl) 0 1 = .ok ty := by simp [getLE, getT, fromLE]
  have e2 : beR 1 (ty :: tl) = .ok (ty, (ty :: tl).drop 1) := by simp [beR, fromLE]
  unfold decodeCompat compatR
  rw [if_neg (by simp), e1, Outcome.ok_bind, if_neg (by omega), Rd.bind_ok e2]
  replace hw : ty = 2 → ∀ i < d.centroids.length, ∀ w,
      getBE (ty :: tl) (27 + i * 8) 4 = .ok w → F.val32 w ≠ .nan := fun h => hw (by simp [h])
  clear ht e1 e2
  generalize ty :: tl = data at hw ⊢
  rcases hty with rfl | rfl
  · rw [if_pos rfl]
    constructor
    · intro h
      obtain ⟨-, h⟩ := ite_err_ok.mp h
      obtain ⟨mnb, h1, h⟩ := Outcome.bind_eq_ok.mp h
      obtain ⟨_, h2, h⟩ := Outcome.bind_eq_ok.mp h
      obtain ⟨mxb, h3, h⟩ := Outcome.bind_eq_ok.mp h
      obtain ⟨_, h4, h⟩ := Outcome.bind_eq_ok.mp h
      obtain ⟨kb, h5, h⟩ := Outcome.bind_eq_ok.mp h
      obtain ⟨n, h6, h⟩ := Outcome.bind_eq_ok.mp h
      obtain ⟨-, h⟩ := ite_err_ok.mp h
      obtain ⟨cs, h7, h⟩ := Outcome.bind_eq_ok.mp h
      rw [notNaN_ok] at h2 h4
      have hcs : cs = d.centroids := by obtain ⟨-, rfl⟩ := fromStates_ok h; rfl
      subst hcs
      refine ⟨data.drop (29 + n * 16), ?_⟩
      rw [Rd.bind_ok ((be_at (by decide)).mpr ⟨h1, rfl⟩),
        Rd.bind_ok (notNaNR_ok (u := ()).mpr ⟨h2, rfl⟩),
        Rd.bind_ok ((be_at (by decide)).mpr ⟨h3, rfl⟩),
        Rd.bind_ok (notNaNR_ok (u := ()).mpr ⟨h4, rfl⟩), if_pos rfl,
        Rd.bind_ok ((be_at (by decide)).mpr ⟨h5, rfl⟩),
        Rd.bind_ok ((be_at (by decide)).mpr ⟨h6, rfl⟩),
        Rd.bind_ok ((compatD_at F data n _ d.centroids _).mpr ⟨h7, rfl⟩)]
      exact loadR_ok.mpr ⟨rfl, h, rfl⟩
    · rintro ⟨r, h⟩
      obtain ⟨mnb, r1, h1, h⟩ := rd_bind_eq_ok.mp h
      obtain ⟨g1, rfl⟩ := (be_at (by decide)).mp h1
      obtain ⟨_, r1, h2, h⟩ := rd_bind_eq_ok.mp h
      obtain ⟨g2, rfl⟩ := notNaNR_ok.mp h2
      obtain ⟨mxb, r1, h3, h⟩ := rd_bind_eq_ok.mp h
      obtain ⟨g3, rfl⟩ := (be_at (by decide)).mp h3
      obtain ⟨_, r1, h4, h⟩ := rd_bind_eq_ok.mp h
      obtain ⟨g4, rfl⟩ := notNaNR_ok.mp h4
      rw [if_pos rfl] at h
      obtain ⟨kb, r1, h5, h⟩ := rd_bind_eq_ok.mp h
      obtain ⟨g5, rfl⟩ := (be_at (by decide)).mp h5
      obtain ⟨n, r1, h6, h⟩ := rd_bind_eq_ok.mp h
      obtain ⟨g6, rfl⟩ := (be_at (by decide)).mp h6
      obtain ⟨cs, r1, h7, h⟩ := rd_bind_eq_ok.mp h
      obtain ⟨rfl, h8, rfl⟩ := loadR_ok.mp h
      obtain ⟨g7, -⟩ := (compatD_at F data n _ d.centroids _).mp h7
      have l6 := getBE_len g6
      have l7 := getCompatD_len F g7 (by omega)
      rw [if_neg (by omega)]
      refine Outcome.bind_eq_ok.mpr ⟨mnb, g1, Outcome.bind_eq_ok.mpr ⟨(), notNaN_ok.mpr g2,
        Outcome.bind_eq_ok.mpr ⟨mxb, g3, Outcome.bind_eq_ok.mpr ⟨(), notNaN_ok.mpr g4,
        Outcome.bind_eq_ok.mpr ⟨kb, g5, Outcome.bind_eq_ok.mpr ⟨n, g6, ?_⟩⟩⟩⟩⟩⟩
      rw [if_neg (by omega)]
      exact Outcome.bind_eq_ok.mpr ⟨_, g7, h8⟩
  · rw [if_neg (by decide)]
    constructor
    · intro h
      obtain ⟨-, h⟩ := ite_err_ok.mp h
      obtain ⟨mnb, h1, h⟩ := Outcome.bind_eq_ok.mp h
      obtain ⟨_, h2, h⟩ := Outcome.bind_eq_ok.mp h
      obtain ⟨mxb, h3, h⟩ := Outcome.bind_eq_ok.mp h
      obtain ⟨_, h4, h⟩ := Outcome.bind_eq_ok.mp h
      obtain ⟨kb, h5, h⟩ := Outcome.bind_eq_ok.mp h
      obtain ⟨n, h6, h⟩ := Outcome.bind_eq_ok.mp h
      obtain ⟨-, h⟩ := ite_err_ok.mp h
      obtain ⟨cs, h7, h⟩ := Outcome.bind_eq_ok.mp h
      rw [notNaN_ok] at h2 h4
      have hcs : cs = d.centroids := by obtain ⟨-, rfl⟩ := fromStates_ok h; rfl
      subst hcs
      have l6 := getBE_len h6
      have hn := (getCompatF_len F h7 (by omega)).2
      have e5 : beR 4 (data.drop 21) = .ok (fromLE ((data.drop 21).take 4).reverse,
          data.drop 25) := by
        unfold beR
        rw [if_pos (by rw [List.length_drop]; omega), List.drop_drop]
      refine ⟨data.drop (27 + n * 8), ?_⟩
      rw [Rd.bind_ok ((be_at (by decide)).mpr ⟨h1, rfl⟩),
        Rd.bind_ok (notNaNR_ok (u := ()).mpr ⟨h2, rfl⟩),
        Rd.bind_ok ((be_at (by decide)).mpr ⟨h3, rfl⟩),
        Rd.bind_ok (notNaNR_ok (u := ()).mpr ⟨h4, rfl⟩), if_neg (by decide),
        Rd.bind_ok ((be_at (by decide)).mpr ⟨h5, rfl⟩), Rd.bind_ok e5,
        Rd.bind_ok ((be_at (by decide)).mpr ⟨h6, rfl⟩),
        Rd.bind_ok ((compatF_at F data n _ d.centroids _ (hn ▸ hw rfl)).mpr ⟨h7, rfl⟩)]
      exact loadR_ok.mpr ⟨rfl, h, rfl⟩
    · rintro ⟨r, h⟩
      obtain ⟨mnb, r1, h1, h⟩ := rd_bind_eq_ok.mp h
      obtain ⟨g1, rfl⟩ := (be_at (by decide)).mp h1
      obtain ⟨_, r1, h2, h⟩ := rd_bind_eq_ok.mp h
      obtain ⟨g2, rfl⟩ := notNaNR_ok.mp h2
      obtain ⟨mxb, r1, h3, h⟩ := rd_bind_eq_ok.mp h
      obtain ⟨g3, rfl⟩ := (be_at (by decide)).mp h3
      obtain ⟨_, r1, h4, h⟩ := rd_bind_eq_ok.mp h
      obtain ⟨g4, rfl⟩ := notNaNR_ok.mp h4
      rw [if_neg (by decide)] at h
      obtain ⟨kb, r1, h5, h⟩ := rd_bind_eq_ok.mp h
      obtain ⟨g5, rfl⟩ := (be_at (by decide)).mp h5
      obtain ⟨_, r1, h5', h⟩ := rd_bind_eq_ok.mp h
      obtain ⟨-, rfl⟩ := (be_at (by decide)).mp h5'
      obtain ⟨n, r1, h6, h⟩ := rd_bind_eq_ok.mp h
      obtain ⟨g6, rfl⟩ := (be_at (by decide)).mp h6
      obtain ⟨cs, r1, h7, h⟩ := rd_bind_eq_ok.mp h
      obtain ⟨rfl, h8, rfl⟩ := loadR_ok.mp h
      have hn : d.centroids.length = n := by simpa using times_length h7
      obtain ⟨g7, -⟩ := (compatF_at F data n _ d.centroids _ (hn ▸ hw rfl)).mp h7
      have l6 := getBE_len g6
      have l7 := (getCompatF_len F g7 (by omega)).1
      rw [if_neg (by omega)]
      refine Outcome.bind_eq_ok.mpr ⟨mnb, g1, Outcome.bind_eq_ok.mpr ⟨(), notNaN_ok.mpr g2,
        Outcome.bind_eq_ok.mpr ⟨mxb, g3, Outcome.bind_eq_ok.mpr ⟨(), notNaN_ok.mpr g4,
        Outcome.bind_eq_ok.mpr ⟨kb, g5, Outcome.bind_eq_ok.mpr ⟨n, g6, ?_⟩⟩⟩⟩⟩⟩
      rw [if_neg (by omega)]
      exact Outcome.bind_eq_ok.mpr ⟨_, g7, h8⟩

end Verif.TDigest
