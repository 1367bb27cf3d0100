import Verif.FreqProps
import Verif.TupleStrip
import Verif.ItemsModel

/-!
# C111: float64 items in the frequency items sketch

`frequencies/reverse_purge_item_hash_map.go` compares keys with Go's `==`, which for float64 is not
equality of the bits: `0.0 == -0.0`, and a NaN is not equal to itself.
`common/item_sketch_double.go` hashes the bits.  The model of `Verif.FreqModel` compares keys by
equality; here the two functions of the map that compare keys are modelled with the comparison as a
parameter (`same`), and `*_eq` show that they are the functions of `Verif.FreqModel` when the
comparison is equality.
-/

namespace Verif.Freq.Float

open Verif.Freq

variable {κ : Type}

/-- loop of `hashProbe` reverse_purge_item_hash_map.go l.282-290; `same` is Go's `==` -/
def probeLoop (same : κ → κ → Bool) (t : List (Slot κ)) (k : κ) : Nat → Nat → Outcome Nat
  | 0, _ => .panic
  | fuel + 1, probe =>
    match t[probe]? with
    | none => .panic
    | some s =>
      if s.st > 0 ∧ same s.key k = false then
        probeLoop same t k fuel ((probe + 1) &&& (t.length - 1))
      else .ok probe

/-- `get` l.80-94 -/
def get (same : κ → κ → Bool) (hash : κ → Nat) (t : List (Slot κ)) (k : κ) : Outcome Int := do
  let p ← probeLoop same t k t.length (hash k &&& (t.length - 1))
  let s ← Outcome.ofOption t[p]?
  if s.st > 0 then
    if same s.key k = false then .err "key not found" else pure s.val
  else pure 0

/-- probing loop of `adjustOrPutValue` l.113-118 -/
def adjustLoop (same : κ → κ → Bool) (t : List (Slot κ)) (k : κ) :
    Nat → Nat → Nat → Outcome (Nat × Nat)
  | 0, _, _ => .panic
  | fuel + 1, probe, drift =>
    match t[probe]? with
    | none => .panic
    | some s =>
      if s.st ≠ 0 ∧ same s.key k = false then
        adjustLoop same t k fuel ((probe + 1) &&& (t.length - 1)) (drift + 1)
      else .ok (probe, drift)

/-- `adjustOrPutValue` l.106-137 -/
def adjustOrPut (same : κ → κ → Bool) (hash : κ → Nat) (m : Map κ) (k : κ) (a : Int) :
    Outcome (Map κ) := do
  let (p, drift) ← adjustLoop same m.slots k m.slots.length (hash k &&& (m.slots.length - 1)) 1
  let s ← Outcome.ofOption m.slots[p]?
  if s.st = 0 then
    if m.num > capOf (2 ^ m.lg) then .err "numActive >= loadThreshold"
    else pure { m with slots := m.slots.set p ⟨k, a, wrap 2 drift⟩, num := m.num + 1 }
  else if same s.key k = false then .err "keys[probe] != key"
  else pure { m with slots := m.slots.set p { s with val := wrap 8 (s.val + a) } }

/-- `UpdateMany` items_sketch.go l.352-381 as long as the map needs not grow; growing and purging
are not modelled here (the error is not one of the code) -/
def update (same : κ → κ → Bool) (hash : κ → Nat) (s : Sketch κ) (k : κ) (count : Int) :
    Outcome (Sketch κ) :=
  if count = 0 then .ok s
  else if count < 0 then .err "count may not be negative"
  else do
    let m ← adjustOrPut same hash s.map k count
    let s := { s with weight := wrap 8 (s.weight + count), map := m }
    if m.num > s.curCap then .err "not modelled: the map grows"
    else pure s

/-- updates with weight 1 -/
def updates (same : κ → κ → Bool) (hash : κ → Nat) : List κ → Sketch κ → Outcome (Sketch κ)
  | [], s => .ok s
  | k :: ks, s => do
    let s ← update same hash s k 1
    updates same hash ks s

/-- `GetLowerBound` l.238-240 -/
def lowerBound (same : κ → κ → Bool) (hash : κ → Nat) (s : Sketch κ) (k : κ) : Outcome Int :=
  get same hash s.map.slots k

/-- `GetUpperBound` l.245-249 -/
def upperBound (same : κ → κ → Bool) (hash : κ → Nat) (s : Sketch κ) (k : κ) : Outcome Int := do
  let v ← get same hash s.map.slots k
  pure (wrap 8 (v + s.offset))

/-! ## agreement with the model used for all other claims -/

section agreement
variable [DecidableEq κ]

theorem probeLoop_eq (t : List (Slot κ)) (k : κ) : ∀ fuel p,
    probeLoop (fun a b => decide (a = b)) t k fuel p = hashProbeLoop t k fuel p := by
  intro fuel
  induction fuel with
  | zero => intro p; rfl
  | succ fuel ih =>
    intro p
    unfold probeLoop hashProbeLoop
    cases t[p]? with
    | none => rfl
    | some s => simp [ih]

/-- with equality as comparison, the queries are those of `Verif.FreqModel` -/
theorem get_eq (hash : κ → Nat) (t : List (Slot κ)) (k : κ) :
    get (fun a b => decide (a = b)) hash t k = Freq.get (cfg .items hash) t k := by
  unfold get Freq.get
  rw [probeLoop_eq]
  refine Outcome.bind_congr fun p => Outcome.bind_congr fun s => ?_
  by_cases h : s.st > 0 <;> by_cases h2 : s.key = k <;> simp [h, h2]

theorem adjustLoop_eq (hash : κ → Nat) (t : List (Slot κ)) (k : κ) : ∀ fuel p d,
    adjustLoop (fun a b => decide (a = b)) t k fuel p d
      = Freq.adjustLoop (cfg .items hash) t k fuel p d := by
  intro fuel
  induction fuel with
  | zero => intro p d; rfl
  | succ fuel ih =>
    intro p d
    unfold adjustLoop Freq.adjustLoop
    cases t[p]? with
    | none => rfl
    | some s => simp [ih, cfg, Cfg.over]

/-- and so are the updates of the map -/
theorem adjustOrPut_eq (hash : κ → Nat) (m : Map κ) (k : κ) (a : Int) :
    adjustOrPut (fun a b => decide (a = b)) hash m k a
      = Freq.adjustOrPut (cfg .items hash) m k a := by
  unfold adjustOrPut Freq.adjustOrPut
  rw [adjustLoop_eq hash]
  refine Outcome.bind_congr fun q => ?_
  obtain ⟨p, d⟩ := q
  refine Outcome.bind_congr fun s => ?_
  by_cases h : s.st = 0 <;> by_cases h2 : s.key = k <;> simp [h, h2]

end agreement

/-! ## an item that is equal to nothing -/

section never
variable {same : κ → κ → Bool} {k : κ}

theorem wrapIdx {n lg : Nat} (hn : n = 2 ^ lg) (p : Nat) : p &&& (n - 1) = p % n := by
  rw [hn, Nat.and_two_pow_sub_one_eq_mod]

/-- a probe for an item that equals nothing stops at a free slot -/
theorem adjustLoop_never (hne : ∀ x, same x k = false) {t : List (Slot κ)} {lg : Nat}
    (hlen : t.length = 2 ^ lg) : ∀ fuel p d, p < t.length →
    (∃ j, j < fuel ∧ ∃ s, t[(p + j) % t.length]? = some s ∧ s.st = 0) →
    ∃ q d' s, adjustLoop same t k fuel p d = .ok (q, d') ∧ t[q]? = some s ∧ s.st = 0 ∧
      d' < d + fuel ∧ d ≤ d' := by
  intro fuel
  induction fuel with
  | zero => rintro p d _ ⟨j, h, _⟩; omega
  | succ fuel ih =>
    rintro p d hp ⟨j, hj, s, hs, h0⟩
    have hsome : t[p]? = some t[p] := List.getElem?_eq_getElem hp
    unfold adjustLoop
    rw [hsome]
    by_cases hst : t[p].st = 0
    · refine ⟨p, d, t[p], ?_, hsome, hst, by omega, le_refl _⟩
      simp [hst]
    · have hj0 : j ≠ 0 := by
        rintro rfl
        rw [Nat.add_zero, Nat.mod_eq_of_lt hp, hsome] at hs
        injection hs with hs
        exact hst (hs ▸ h0)
      have hpos : 0 < t.length := by omega
      obtain ⟨q, d', s', e, h1, h2, h3, h4⟩ := ih ((p + 1) % t.length) (d + 1) (Nat.mod_lt _ hpos)
        ⟨j - 1, by omega, s, by
          rw [Nat.mod_add_mod, show p + 1 + (j - 1) = p + j by omega]; exact hs, h0⟩
      refine ⟨q, d', s', ?_, h1, h2, by omega, by omega⟩
      simp only [ne_eq, hst, not_false_eq_true, hne, and_self, if_true]
      rw [wrapIdx hlen]; exact e

theorem probeLoop_never (hne : ∀ x, same x k = false) {t : List (Slot κ)} {lg : Nat}
    (hlen : t.length = 2 ^ lg) : ∀ fuel p, p < t.length →
    (∃ j, j < fuel ∧ ∃ s, t[(p + j) % t.length]? = some s ∧ s.st = 0) →
    ∃ q s, probeLoop same t k fuel p = .ok q ∧ t[q]? = some s ∧ ¬ s.st > 0 := by
  intro fuel
  induction fuel with
  | zero => rintro p _ ⟨j, h, _⟩; omega
  | succ fuel ih =>
    rintro p hp ⟨j, hj, s, hs, h0⟩
    have hsome : t[p]? = some t[p] := List.getElem?_eq_getElem hp
    unfold probeLoop
    rw [hsome]
    by_cases hst : t[p].st > 0
    · have hj0 : j ≠ 0 := by
        rintro rfl
        rw [Nat.add_zero, Nat.mod_eq_of_lt hp, hsome] at hs
        injection hs with hs
        rw [hs, h0] at hst; omega
      have hpos : 0 < t.length := by omega
      obtain ⟨q, s', e, h1, h2⟩ := ih ((p + 1) % t.length) (Nat.mod_lt _ hpos)
        ⟨j - 1, by omega, s, by
          rw [Nat.mod_add_mod, show p + 1 + (j - 1) = p + j by omega]; exact hs, h0⟩
      refine ⟨q, s', ?_, h1, h2⟩
      simp only [hst, hne, and_self, if_true]
      rw [wrapIdx hlen]; exact e
    · exact ⟨p, t[p], by simp [hst], hsome, hst⟩

theorem free_ahead {t : List (Slot κ)} (hfree : ∃ s ∈ t, s.st = 0) {p : Nat} (hp : p < t.length) :
    ∃ j, j < t.length ∧ ∃ s, t[(p + j) % t.length]? = some s ∧ s.st = 0 := by
  obtain ⟨s, hs, h0⟩ := hfree
  obtain ⟨q, hq, rfl⟩ := List.mem_iff_getElem.1 hs
  refine ⟨(q + (t.length - p)) % t.length, Nat.mod_lt _ (by omega), t[q], ?_, h0⟩
  rw [Nat.add_mod_mod, show p + (q + (t.length - p)) = q + t.length by omega,
    Nat.add_mod_right, Nat.mod_eq_of_lt hq]
  exact List.getElem?_eq_getElem hq

theorem get_never (hne : ∀ x, same x k = false) (hash : κ → Nat) {t : List (Slot κ)} {lg : Nat}
    (hlen : t.length = 2 ^ lg) (hfree : ∃ s ∈ t, s.st = 0) : get same hash t k = .ok 0 := by
  have hp : hash k % t.length < t.length := Nat.mod_lt _ (by rw [hlen]; positivity)
  obtain ⟨q, s, e, h1, h2⟩ := probeLoop_never hne hlen t.length _ hp (free_ahead hfree hp)
  unfold get
  rw [wrapIdx hlen, e]
  simp [h1, h2, Outcome.ofOption]

/-- the state of a sketch that has seen `n` updates, none of which needed a larger map -/
structure Seen (lg : Nat) (n : Nat) (s : Sketch κ) : Prop where
  lgEq : s.map.lg = lg
  len : s.map.slots.length = 2 ^ lg
  num : s.map.num = n
  used : s.map.slots.countP (fun x => x.st ≠ 0) = n
  cap : s.curCap = capOf (2 ^ lg)
  off : s.offset = 0
  weight : s.weight = n

theorem Seen.free {lg n : Nat} {s : Sketch κ} (h : Seen lg n s) (hn : n < 2 ^ lg) :
    ∃ x ∈ s.map.slots, x.st = 0 := by
  by_contra hcon
  push Not at hcon
  have : s.map.slots.countP (fun x => x.st ≠ 0) = s.map.slots.length :=
    List.countP_eq_length.2 fun x hx => by simpa using hcon x hx
  rw [h.used, h.len] at this
  omega

theorem countP_set_free {t : List (Slot κ)} {q : Nat} {x y : Slot κ} (h : t[q]? = some x)
    (hx : x.st = 0) (hy : y.st ≠ 0) :
    (t.set q y).countP (fun x => x.st ≠ 0) = t.countP (fun x => x.st ≠ 0) + 1 := by
  obtain ⟨hq, rfl⟩ := List.getElem?_eq_some_iff.1 h
  rw [List.countP_set hq]
  simp [hx, hy]

theorem Seen.update (hne : ∀ x, same x k = false) (hash : κ → Nat) {lg n : Nat} {s : Sketch κ}
    (h : Seen lg n s) (hlg : lg ≤ 14) (hn : n < capOf (2 ^ lg)) :
    ∃ s', Float.update same hash s k 1 = .ok s' ∧ Seen lg (n + 1) s' := by
  have hcap : capOf (2 ^ lg) ≤ 2 ^ lg := by unfold capOf; omega
  have h14 : 2 ^ lg ≤ 2 ^ 14 := Nat.pow_le_pow_right (by norm_num) hlg
  have hp : hash k % s.map.slots.length < s.map.slots.length :=
    Nat.mod_lt _ (by rw [h.len]; positivity)
  obtain ⟨q, d, x, e, h1, h2, h3, h4⟩ := adjustLoop_never hne h.len s.map.slots.length _ 1 hp
    (free_ahead (h.free (by omega)) hp)
  rw [h.len] at h3
  have hd : wrap 2 (d : Int) = d := by
    simp only [wrap, toU, toS]
    norm_num
    omega
  have e2 : adjustOrPut same hash s.map k 1
      = .ok { s.map with slots := s.map.slots.set q ⟨k, 1, wrap 2 d⟩, num := s.map.num + 1 } := by
    unfold adjustOrPut
    rw [wrapIdx h.len, e]
    simp only [Outcome.ok_bind, h1, Outcome.ofOption, h2, if_true, h.num, h.lgEq]
    rw [if_neg (by omega)]
    rfl
  have hw : wrap 8 (s.weight + 1) = (n : Int) + 1 := by
    rw [h.weight]
    simp only [wrap, toU, toS]
    norm_num
    omega
  refine ⟨{ s with weight := wrap 8 (s.weight + 1), map :=
    { s.map with slots := s.map.slots.set q ⟨k, 1, wrap 2 d⟩, num := s.map.num + 1 } }, ?_, ?_⟩
  · unfold Float.update
    rw [if_neg (by norm_num), if_neg (by norm_num), e2]
    simp only [Outcome.ok_bind, h.num, h.cap]
    rw [if_neg (by omega)]
    rfl
  · refine ⟨h.lgEq, by simpa using h.len, by simp [h.num], ?_, h.cap, h.off, by
      simpa using hw⟩
    show (s.map.slots.set q ⟨k, 1, wrap 2 d⟩).countP _ = n + 1
    rw [countP_set_free h1 h2 (by
      show wrap 2 (d : Int) ≠ 0
      rw [hd]; omega), h.used]

theorem Seen.updates (hne : ∀ x, same x k = false) (hash : κ → Nat) {lg : Nat} (hlg : lg ≤ 14) :
    ∀ m n (s : Sketch κ), Seen lg n s → n + m ≤ capOf (2 ^ lg) →
    ∃ s', Float.updates same hash (List.replicate m k) s = .ok s' ∧ Seen lg (n + m) s' := by
  intro m
  induction m with
  | zero => intro n s h _; exact ⟨s, rfl, h⟩
  | succ m ih =>
    intro n s h hm
    obtain ⟨s1, e1, h1⟩ := h.update hne hash hlg (by omega)
    obtain ⟨s2, e2, h2⟩ := ih (n + 1) s1 h1 (by omega)
    refine ⟨s2, ?_, by rw [show n + (m + 1) = n + 1 + m by omega]; exact h2⟩
    rw [List.replicate_succ]
    simp only [Float.updates, e1, Outcome.ok_bind, e2]

theorem seen_new (z : κ) (lgMax lg : Nat) (h3 : 3 ≤ lg) : Seen lg 0 (newItems z lgMax lg) := by
  have : max lg 3 = lg := by omega
  refine ⟨?_, ?_, rfl, ?_, ?_, rfl, rfl⟩
  · simp [newItems, newMap, this]
  · simp [newItems, newMap, this]
  · simp [newItems, newMap, List.countP_replicate]
  · simp [newItems, this]

end never

/-! ## float64 -/

open Murmur3 Items

/-- Go's `a == b` of two float64, given by their bits -/
def goEq (a b : Word) : Bool :=
  !isNaN a && !isNaN b && (a == b || (isZero a && isZero b))

/-- `ItemSketchDoubleHasher.Hash` common/item_sketch_double.go l.41-44.  `murmur3.SeedSum64` is the
first word of Murmur3_x64_128 (github.com/twmb/murmur3, not in /repo); it is taken to be the first
word of the hash of internal/murmur3.go, which computes the same function (C90). -/
def doubleHash (b : Word) : Nat :=
  match hashBytes (putUint64 b) 0 8 9001 with
  | .ok h => h.1.toNat
  | _ => 0

/-- neither a NaN nor the negative zero -/
def Plain (b : Word) : Prop := isNaN b = false ∧ b ≠ 0x8000000000000000#64

theorem isZero_cases {b : Word} (h : isZero b = true) : b = 0 ∨ b = 0x8000000000000000#64 := by
  unfold isZero at h
  have h := eq_of_beq h
  have h' : ∀ i, i < 63 → b.getLsbD i = false := by
    intro i hi
    have := congrArg (fun x => BitVec.getLsbD x i) h
    simp only [BitVec.getLsbD_and] at this
    have hm : (0x7fffffffffffffff#64).getLsbD i = true := by
      have : ∀ i : Fin 63, (0x7fffffffffffffff#64).getLsbD i = true := by decide +kernel
      exact this ⟨i, hi⟩
    simpa [hm] using this
  cases hb : b.getLsbD 63 with
  | false =>
    left
    apply BitVec.eq_of_getLsbD_eq
    intro i hi
    by_cases h63 : i = 63
    · subst h63; simpa using hb
    · simpa using h' i (by omega)
  | true =>
    right
    apply BitVec.eq_of_getLsbD_eq
    intro i hi
    by_cases h63 : i = 63
    · subst h63; rw [hb]; decide +kernel
    · rw [h' i (by omega)]
      have : ∀ i : Fin 63, (0x8000000000000000#64).getLsbD i = false := by decide +kernel
      exact (this ⟨i, by omega⟩).symm

theorem goEq_plain {a b : Word} (ha : Plain a) (hb : Plain b) : goEq a b = decide (a = b) := by
  unfold goEq
  rw [ha.1, hb.1]
  by_cases h : a = b
  · simp [h]
  · simp only [Bool.not_false, Bool.true_and, h, decide_false]
    cases hz : isZero a <;> cases hz' : isZero b <;> simp [h]
    rcases isZero_cases hz with rfl | rfl
    · rcases isZero_cases hz' with rfl | rfl
      · exact h rfl
      · exact hb.2 rfl
    · exact ha.2 rfl

theorem goEq_nan {k : Word} (h : isNaN k = true) (x : Word) : goEq x k = false := by
  simp [goEq, h]

/-- **C111** (partial: streams without NaN and negative zero) with Go's comparison and the hash of
the library the bounds bracket the true weight of every such item, whatever the history. -/
theorem C111_plain_items_partial {z : {b // Plain b}} {M : Nat} {s : Sketch {b // Plain b}}
    {f : {b // Plain b} → Int} {W : Int}
    (h : Reach .items (fun b => doubleHash b.1) z M s f W) (k : {b // Plain b}) :
    ∃ lb ub, lowerBound (fun a b => goEq a.1 b.1) (fun b => doubleHash b.1) s k = .ok lb ∧
      upperBound (fun a b => goEq a.1 b.1) (fun b => doubleHash b.1) s k = .ok ub ∧
      0 ≤ lb ∧ lb ≤ f k ∧ f k ≤ ub := by
  obtain ⟨lb, ub, est, h1, h2, _, h4, h5, h6, _⟩ := C15_bounds_bracket h k
  have hs : (fun a b : {b // Plain b} => goEq a.1 b.1) = fun a b => decide (a = b) := by
    funext a b
    rw [goEq_plain a.2 b.2]
    simp [Subtype.ext_iff]
  refine ⟨lb, ub, ?_, ?_, h4, h5, h6⟩
  · unfold lowerBound
    rw [hs, get_eq]; exact h1
  · unfold upperBound
    rw [hs, get_eq]; exact h2

/-- **C111** refuted for NaN: whatever the table holds, a NaN is not found and its upper bound is
the offset. -/
theorem C111_nan_never_found {k : Word} (h : isNaN k = true) (s : Sketch Word) {lg : Nat}
    (hlen : s.map.slots.length = 2 ^ lg) (hfree : ∃ x ∈ s.map.slots, x.st = 0) :
    lowerBound goEq doubleHash s k = .ok 0 ∧
    upperBound goEq doubleHash s k = .ok (wrap 8 s.offset) := by
  have := get_never (goEq_nan h) doubleHash hlen hfree
  refine ⟨this, ?_⟩
  unfold upperBound
  rw [this]
  simp

/-- **C111** refuted for NaN: after `m` updates of a new sketch with one NaN, as many as the map
takes without growing, the sketch holds `m` items, the stream weight is `m`, and the upper bound
of the NaN is 0. -/
theorem C111_nan_uncounted {k : Word} (h : isNaN k = true) (lgMax lg m : Nat) (h3 : 3 ≤ lg)
    (h14 : lg ≤ 14) (hm : m ≤ capOf (2 ^ lg)) :
    ∃ s, updates goEq doubleHash (List.replicate m k) (newItems 0 lgMax lg) = .ok s ∧
      s.weight = m ∧ s.map.num = m ∧ upperBound goEq doubleHash s k = .ok 0 := by
  obtain ⟨s, e, hs⟩ := Seen.updates (goEq_nan h) doubleHash h14 m 0 _ (seen_new 0 lgMax lg h3)
    (by omega)
  rw [Nat.zero_add] at hs
  have hp : 0 < 2 ^ lg := by positivity
  have hcap : capOf (2 ^ lg) < 2 ^ lg := by unfold capOf; omega
  refine ⟨s, e, hs.weight, hs.num, ?_⟩
  rw [(C111_nan_never_found h s hs.len (hs.free (by omega))).2, hs.off]
  rfl

/-- the two zeros, which Go's `==` does not tell apart -/
example : goEq 0 0x8000000000000000#64 = true := by decide +kernel

/-- **C111** refuted for the zeros: they are one item to `==`, updated twice, and the upper bound
of that item is 1. -/
theorem C111_zeros_split :
    (do let s ← updates goEq doubleHash [0, 0x8000000000000000#64] (newItems 0 3 3)
        upperBound goEq doubleHash s 0) = .ok 1 := by
  decide +kernel

/-- a NaN and a plain item -/
example : isNaN 0x7ff8000000000001#64 = true ∧ Plain 0x3ff0000000000000#64 :=
  ⟨by decide +kernel, by decide +kernel, by decide +kernel⟩

/-- the hypotheses of `C111_plain_items_partial` are met by a sketch that has seen 1.0 twice -/
example : ∃ s, Reach .items (fun b : {b // Plain b} => doubleHash b.1)
    ⟨0, by decide +kernel, by decide +kernel⟩ 3 s
    (fun x => if x = ⟨0x3ff0000000000000#64, by decide +kernel, by decide +kernel⟩ then 0 + 2 else 0)
    (0 + 2) := by
  obtain ⟨s, e⟩ | ⟨_, h, _⟩ := C15_update_total
    (Reach.new (kd := .items) (hash := fun b : {b // Plain b} => doubleHash b.1)
      (z := ⟨0, by decide +kernel, by decide +kernel⟩) (M := 3) 3 3 (by simp [Supported])
      (le_refl _) (le_refl _))
    ⟨0x3ff0000000000000#64, by decide +kernel, by decide +kernel⟩ 2 (by norm_num) (by norm_num)
  · exact ⟨s, Reach.update _ 2 (Reach.new 3 3 (by simp [Supported]) (le_refl _) (le_refl _))
      (by norm_num) e⟩
  · cases h

end Verif.Freq.Float
