import Verif.ReservoirProps
import Verif.ReservoirSerdeModel

/-!
# `UpdateFromRaw` of the reservoir union

The state of a sketch (count of items seen, `k`, samples) given by hand, for instance after it was
sent over a network.
-/

namespace Verif.Reservoir

open Rand

variable {T : Type}

/-- `UpdateFromRaw`, sampling/reservoir_items_union.go l.122-142.  `spare` is what the slice of the
caller has room for beyond its length.  The slice is used without a copy; later writes of the caller
to it are not modelled.  A negative `n` is accepted by the code, see `C121_refused_partial`; the model stops
there. -/
def Un.updateFromRaw (E : Env T) (u : Un T) (n : Int) (k : Nat) (items : List T) (spare : Nat) :
    Rand (Un T) := do
  let r ← Rand.ofOutcome (fromStates items n 3 k)
  let s ← Rand.ofOutcome (Raw.sk { r with cap := items.length + spare })
  let ris ← if s.k > u.maxK then downsampledCopy E s u.maxK else .ret s
  let g ← match u.gadget with
    | none => createNewGadget E u.maxK ris
    | some g => twoWayMerge E g ris
  .ret { u with gadget := some g }

/-- A state is accepted exactly when `k` is at least two and there are at most `k` and at least
`min n k` items. -/
theorem fromStates_ok (items : List T) (n : Int) (rf k : Nat) :
    (∃ r, fromStates items n rf k = .ok r) ↔
      2 ≤ k ∧ items.length ≤ k ∧ min n k ≤ items.length := by
  unfold fromStates
  by_cases h1 : k < 2
  · rw [if_pos h1]
    exact ⟨fun ⟨r, h⟩ => (nomatch h), fun h => absurd h.1 (by omega)⟩
  rw [if_neg h1]
  by_cases h2 : k < items.length
  · rw [if_pos h2]
    exact ⟨fun ⟨r, h⟩ => (nomatch h), fun h => absurd h.2.1 (by omega)⟩
  rw [if_neg h2]
  by_cases h3 : (n ≥ k ∧ items.length < k) ∨ (n < k ∧ (items.length : Int) < n)
  · rw [if_pos h3]
    exact ⟨fun ⟨r, h⟩ => (nomatch h), fun h => absurd h.2.2 (by omega)⟩
  · rw [if_neg h3]
    exact ⟨fun _ => ⟨by omega, by omega, by omega⟩, fun _ => ⟨_, rfl⟩⟩

/-- With a consistent state the call is `UpdateSketch` with the sketch of that state. -/
theorem updateFromRaw_eq (E : Env T) (u : Un T) {n k : Nat} {items : List T} (spare : Nat)
    (hk : 2 ≤ k) (hl : items.length = min n k) :
    u.updateFromRaw E n k items spare =
      u.updateSketch E (some ⟨k, n, 3, items, items.length + spare⟩) := by
  have h1 : fromStates items (n : Int) 3 k = .ok ⟨k, n, 3, items, items.length⟩ := by
    unfold fromStates
    rw [if_neg (by omega), if_neg (by omega), if_neg (by omega)]
  unfold Un.updateFromRaw
  rw [h1, Rand.ofOutcome_ok, Rand.ret_bind]
  have h2 : Raw.sk (⟨k, (n : Int), 3, items, items.length + spare⟩ : Raw T) =
      .ok ⟨k, n, 3, items, items.length + spare⟩ := by
    unfold Raw.sk
    rw [if_pos (by simp)]
    simp
  dsimp only
  rw [h2, Rand.ofOutcome_ok, Rand.ret_bind]
  unfold Un.updateSketch Un.prepare Un.absorb
  by_cases h : k > u.maxK
  · simp only [if_pos h]
    cases u.gadget <;> rfl
  · simp only [if_neg h]
    cases u.gadget <;> rfl

theorem raw_inv {E : Env T} {n k : Nat} {items : List T} {spare : Nat} (hk : 2 ≤ k)
    (hl : items.length = min n k) (hc : 0 < items.length + spare) (hn : n ≤ maxItemsSeen)
    (hx : ∀ x ∈ items, E.isNil x = false) :
    Inv E ⟨k, n, 3, items, items.length + spare⟩ :=
  ⟨hk, hl, Nat.le_add_right _ _, hc, hn, hx⟩

/-! ## Unions fed by all three calls -/

/-- A call: `Update` or `UpdateSketch`, `UpdateFromRaw` with a given state, or `UpdateFromRaw` with
the state of a sketch that sampled a stream. -/
inductive Call (T : Type) where
  | input (i : Input T)
  | raw (n k : Nat) (items : List T) (spare : Nat)
  | shipped (k rf : Nat) (stream : List T) (spare : Nat)

/-- Consistent states; a slice without any room must not be empty. -/
def Call.Ok (E : Env T) : Call T → Prop
  | input i => i.Ok
  | raw n k items spare => 2 ≤ k ∧ items.length = min n k ∧ 0 < items.length + spare ∧
      ∀ x ∈ items, E.isNil x = false
  | shipped k _ _ spare => 2 ≤ k ∧ 0 < spare

/-- How many items the call stands for, nil ones included. -/
def Call.size : Call T → Nat
  | input i => i.items.length
  | raw n _ _ _ => n
  | shipped _ _ stream _ => stream.length

/-- How many items the call stands for. -/
def Call.count (E : Env T) : Call T → Nat
  | input i => (i.items.filter fun x => !E.isNil x).length
  | raw n _ _ _ => n
  | shipped _ _ stream _ => (stream.filter fun x => !E.isNil x).length

/-- The items the call may leave in the sample. -/
def Call.known (E : Env T) : Call T → List T
  | input i => i.items.filter fun x => !E.isNil x
  | raw _ _ items _ => items
  | shipped _ _ stream _ => stream.filter fun x => !E.isNil x

/-- How many of the items the call stands for match: counted when they were presented, and for a
state given by hand the number its samples stand for. -/
def Call.matching (E : Env T) (p : T → Bool) : Call T → ℚ
  | input i => ((i.items.filter fun x => !E.isNil x).countP p : ℚ)
  | raw n _ items _ => n * (items.countP p / items.length)
  | shipped _ _ stream _ => ((stream.filter fun x => !E.isNil x).countP p : ℚ)

def call (E : Env T) (u : Un T) : Call T → Rand (Un T)
  | .input i => feed E u i
  | .raw n k items spare => u.updateFromRaw E n k items spare
  | .shipped k rf stream spare => sample E k rf stream >>= fun s =>
      u.updateFromRaw E s.n s.k s.data spare

/-- A caller that makes a union and then the given calls. -/
def callAll (E : Env T) (maxK : Nat) (cs : List (Call T)) : Rand (Un T) :=
  cs.foldlM (call E) (newUnion maxK)

theorem call_all {E : Env T} (hE : E.Ok) {u : Un T} (hu : UInv E u) (c : Call T) (hc : c.Ok E)
    (hm : u.n + c.size ≤ maxItemsSeen) :
    All (UStep E u (c.known E) (c.count E)) (call E u c) := by
  cases c with
  | input i => exact feed_all hE hu i hc hm
  | raw n k items spare =>
    obtain ⟨h1, h2, h3, h4⟩ := hc
    have hm' : u.n + n ≤ maxItemsSeen := hm
    show All _ (u.updateFromRaw E n k items spare)
    rw [updateFromRaw_eq E u spare h1 h2]
    exact updateSketch_all hE hu (raw_inv h1 h2 h3 (by omega) h4) hm'
  | shipped k rf stream spare =>
    obtain ⟨h1, h2⟩ := hc
    have hm' : u.n + stream.length ≤ maxItemsSeen := hm
    show All _ (sample E k rf stream >>= fun s => u.updateFromRaw E s.n s.k s.data spare)
    rw [sample_eq E h1]
    refine (updates_all hE stream (Inv.new rf h1) (by dsimp only; omega)).bind fun s h => ?_
    obtain ⟨is, _, _, n, _, p⟩ := h
    simp only [zero_add, List.nil_append] at n p
    have hll : (live E stream).length ≤ stream.length := List.length_filter_le _ _
    rw [updateFromRaw_eq E u spare is.two is.len]
    have hi := raw_inv (spare := spare) is.two is.len (by omega) is.max is.live
    refine (updateSketch_all hE hu hi (by dsimp only; omega)).mono fun u' h' => ?_
    exact ⟨h'.inv, h'.maxK, by rw [h'.n, n]; rfl, h'.sub.trans ((List.subperm_append_left _).2 p)⟩

theorem call_E {E : Env T} (hE : E.Ok) {u : Un T} (hu : UInv E u) (c : Call T) (hc : c.Ok E)
    (hm : u.n + c.size ≤ maxItemsSeen) (p : T → Bool) :
    HasE (Un.est p) (call E u c) (u.est p + c.matching E p) := by
  cases c with
  | input i => exact feed_E hE hu i hc hm p
  | raw n k items spare =>
    obtain ⟨h1, h2, h3, h4⟩ := hc
    have hm' : u.n + n ≤ maxItemsSeen := hm
    show HasE _ (u.updateFromRaw E n k items spare) _
    rw [updateFromRaw_eq E u spare h1 h2]
    have hi := raw_inv (E := E) h1 h2 h3 (by omega) h4
    have := updateSketch_E hE hu hi hm' p
    rw [est_eq hi] at this
    exact this
  | shipped k rf stream spare =>
    obtain ⟨h1, h2⟩ := hc
    have hm' : u.n + stream.length ≤ maxItemsSeen := hm
    show HasE _ (sample E k rf stream >>= fun s => u.updateFromRaw E s.n s.k s.data spare) _
    rw [sample_eq E h1]
    have hi0 : Inv E ({ k := k, n := 0, rf := rf, data := [], cap := initialCap k rf } : Sk T) :=
      Inv.new rf h1
    have hm0 : 0 + stream.length ≤ maxItemsSeen := by omega
    have h3 := (updates_E hE stream hi0 hm0 p).affine 1 (u.est p)
    rw [est_exact hi0 (Nat.zero_le _)] at h3
    have he : 1 * (((List.countP p [] : Nat) : ℚ) + (live E stream).countP p) + u.est p
        = u.est p + (live E stream).countP p := by
      rw [List.countP_nil]; push_cast; ring
    rw [he] at h3
    refine h3.bind ((updates_all hE stream hi0 hm0).mono fun s h => ?_)
    obtain ⟨is, _, _, n, _, _⟩ := h
    simp only [zero_add] at n
    have hll : (live E stream).length ≤ stream.length := List.length_filter_le _ _
    rw [one_mul, add_comm]
    rw [updateFromRaw_eq E u spare is.two is.len]
    have hi := raw_inv (spare := spare) is.two is.len (by omega) is.max is.live
    have := updateSketch_E hE hu hi (by dsimp only; omega) p
    rw [est_eq hi] at this
    rw [est_eq is]
    exact this

theorem calls_all {E : Env T} (hE : E.Ok) (cs : List (Call T)) {u : Un T} (hu : UInv E u)
    (hc : ∀ c ∈ cs, c.Ok E) (hm : u.n + (cs.map Call.size).sum ≤ maxItemsSeen) :
    All (UStep E u (cs.flatMap (Call.known E)) (cs.map (Call.count E)).sum)
      (cs.foldlM (call E) u) := by
  induction cs generalizing u with
  | nil => exact ⟨hu, rfl, rfl, by
      rw [List.flatMap_nil, List.append_nil]⟩
  | cons c cs ih =>
    rw [List.map_cons, List.sum_cons] at hm
    have hle : c.count E ≤ c.size := by
      cases c with
      | input i => exact List.length_filter_le _ _
      | raw n k items spare => exact Nat.le_refl n
      | shipped k rf stream spare => exact List.length_filter_le _ _
    rw [List.foldlM_cons, List.flatMap_cons, List.map_cons, List.sum_cons]
    refine (call_all hE hu c (hc c (by simp)) (by omega)).bind fun u1 h1 => ?_
    refine (ih h1.inv (fun j hj => hc j (by simp [hj])) (by rw [h1.n]; omega)).mono fun u2 h2 => ?_
    refine ⟨h2.inv, by rw [h2.maxK, h1.maxK], by rw [h2.n, h1.n]; omega, ?_⟩
    refine h2.sub.trans ?_
    rw [← List.append_assoc]
    exact (List.subperm_append_right _).2 h1.sub

theorem calls_E {E : Env T} (hE : E.Ok) (cs : List (Call T)) {u : Un T} (hu : UInv E u)
    (hc : ∀ c ∈ cs, c.Ok E) (hm : u.n + (cs.map Call.size).sum ≤ maxItemsSeen) (p : T → Bool) :
    HasE (Un.est p) (cs.foldlM (call E) u) (u.est p + (cs.map (Call.matching E p)).sum) := by
  induction cs generalizing u with
  | nil =>
    rw [List.map_nil, List.sum_nil, add_zero]
    exact rfl
  | cons c cs ih =>
    rw [List.map_cons, List.sum_cons] at hm
    have hle : c.count E ≤ c.size := by
      cases c with
      | input i => exact List.length_filter_le _ _
      | raw n k items spare => exact Nat.le_refl n
      | shipped k rf stream spare => exact List.length_filter_le _ _
    rw [List.foldlM_cons, List.map_cons, List.sum_cons]
    have h1 := (call_E hE hu c (hc c (by simp)) (by omega) p).affine 1
      ((cs.map (Call.matching E p)).sum)
    have he : 1 * (u.est p + c.matching E p) + (cs.map (Call.matching E p)).sum =
        u.est p + (c.matching E p + (cs.map (Call.matching E p)).sum) := by ring
    rw [he] at h1
    refine h1.bind ((call_all hE hu c (hc c (by simp)) (by omega)).mono fun u1 h1 => ?_)
    have := ih h1.inv (fun j hj => hc j (by simp [hj])) (by rw [h1.n]; omega)
    rwa [one_mul]

end Verif.Reservoir
