import Verif.KllProps
import Verif.KllViewProps
import Verif.Ints

/-!
# C104: iterating over a KLL sketch

`kll/items_sketch_iterator.go`, `kll/items_sketch_sorted_view_iterator.go`.  The iterator owns copies of
the arrays of the sketch (`GetIterator`, kll/items_sketch.go:243-250, 581-587, 623-627).
-/

namespace Verif.Kll

open Verif

variable {α : Type}

/-! ## Model -/

/-- kll/items_sketch_iterator.go:22-31 (`itemsSketchOp` is never used) -/
structure It (α : Type) where
  quantiles : List α
  levelsArr : List Nat
  numLevels : Nat
  index : Nat
  level : Nat
  weight : Int
  isInitialized : Bool

/-- kll/items_sketch.go:581-587 and kll/items_sketch_iterator.go:33-43; `getNumLevels`
(kll/items_sketch.go:619-621) is the length of `levels` less one -/
def getIterator (env : Env α) (s : Sketch α) : It α :=
  ⟨getTotalItemsArray env s, s.levels, s.levels.length - 1, 0, 0, 0, false⟩

/-- kll/items_sketch_iterator.go:58-70.  `fuel` bounds the number of rounds. -/
def nextLevel : Nat → It α → Outcome (Bool × It α)
  | 0, _ => .panic
  | fuel + 1, it =>
    if it.level + 1 = it.numLevels then .ok (false, { it with level := it.level + 1 })
    else do
      let a ← rd it.levelsArr (it.level + 1)
      let b ← rd it.levelsArr (it.level + 2)
      if a ≠ b then
        .ok (true, { it with level := it.level + 1, weight := wrap 8 (it.weight * 2), index := a })
      else nextLevel fuel { it with level := it.level + 1, weight := wrap 8 (it.weight * 2) }

/-- kll/items_sketch_iterator.go:45-71 -/
def It.next (it : It α) : Outcome (Bool × It α) := do
  let it ← if it.isInitialized then .ok { it with index := it.index + 1 } else do
    let i ← rd it.levelsArr 0
    .ok { it with level := 0, index := i, weight := 1, isInitialized := true }
  let e ← rd it.levelsArr (it.level + 1)
  if it.index < e then .ok (true, it) else nextLevel (it.numLevels + 1) it

/-- kll/items_sketch_iterator.go:77-79 -/
def It.getQuantile (it : It α) : Outcome α := rd it.quantiles it.index

/-- kll/items_sketch_iterator.go:81-83 -/
def It.getWeight (it : It α) : Int := it.weight

/-- The loop of a caller, `for it.Next() { ... it.GetQuantile(), it.GetWeight() ... }`: what it sees,
and the iterator afterwards.  `fuel` bounds the number of calls. -/
def collect : Nat → It α → Outcome (List (α × Int) × It α)
  | 0, _ => .panic
  | fuel + 1, it => do
    let r ← it.next
    if r.1 then do
      let q ← r.2.getQuantile
      let rest ← collect fuel r.2
      .ok ((q, r.2.getWeight) :: rest.1, rest.2)
    else .ok ([], r.2)

/-! ## Proof -/

/-- the items with their weights, from level `h` on -/
def tag (h : Nat) : List (List α) → List (α × Int)
  | [] => []
  | l :: ls => (l.map fun x => (x, (2 : Int) ^ h)) ++ tag (h + 1) ls

section
variable {Q : List α} {g : Nat} {Ls : List (List α)}

/-- the arrays of the iterator -/
structure Arr (Q : List α) (g : Nat) (Ls : List (List α)) (it : It α) : Prop where
  quantiles : it.quantiles = Q
  levels : it.levelsArr = offs g Ls
  num : it.numLevels = Ls.length

/-- the iterator stands at an item, after which `rest` follows -/
def At (Q : List α) (g : Nat) (Ls : List (List α)) (it : It α) (p : α × Int) (rest : List (α × Int)) : Prop :=
  Arr Q g Ls it ∧ it.isInitialized = true ∧ ∃ A P x S C, Ls = A ++ (P ++ x :: S) :: C ∧
    it.level = A.length ∧ it.index = g + size A + P.length ∧ it.weight = 2 ^ A.length ∧
    p = (x, 2 ^ A.length) ∧ rest = (S.map fun y => (y, (2 : Int) ^ A.length)) ++ tag (A.length + 1) C

theorem double_ok {h : Nat} (hh : h < 62) : wrap 8 ((2 : Int) ^ h * 2) = 2 ^ (h + 1) := by
  rw [← pow_succ]
  apply wrap_of_inRange
  have : (2 : Int) ^ (h + 1) ≤ 2 ^ 62 := pow_le_pow_right₀ (by norm_num) (by omega)
  have : (0 : Int) ≤ 2 ^ (h + 1) := by positivity
  constructor <;> norm_num <;> omega

theorem nextLevel_ok (hL : Ls.length ≤ 62) (C : List (List α)) :
    ∀ (A : List (List α)) (fuel : Nat) (it : It α), Ls = A ++ C → C.length < fuel → Arr Q g Ls it →
      it.isInitialized = true → it.level + 1 = A.length → it.weight = 2 ^ it.level →
      (tag A.length C = [] ∧ ∃ it', nextLevel fuel it = .ok (false, it') ∧ Arr Q g Ls it' ∧
        it'.isInitialized = true ∧ it'.level = Ls.length) ∨
      ∃ p rest it', tag A.length C = p :: rest ∧ nextLevel fuel it = .ok (true, it') ∧
        At Q g Ls it' p rest := by
  induction C with
  | nil =>
    intro A fuel it e hf ha hi hl hw
    left
    refine ⟨rfl, ?_⟩
    obtain ⟨f, rfl⟩ : ∃ f, fuel = f + 1 := ⟨fuel - 1, by omega⟩
    have hA : A.length = Ls.length := by rw [e]; simp
    unfold nextLevel
    rw [if_pos (by rw [ha.num]; omega)]
    exact ⟨_, rfl, ⟨ha.quantiles, ha.levels, ha.num⟩, hi, by show it.level + 1 = _; omega⟩
  | cons l C ih =>
    intro A fuel it e hf ha hi hl hw
    obtain ⟨f, rfl⟩ : ∃ f, fuel = f + 1 := ⟨fuel - 1, by omega⟩
    have hlen : Ls.length = A.length + (C.length + 1) := by rw [e]; simp
    have h1 : rd it.levelsArr (it.level + 1) = .ok (g + size A) := by
      rw [ha.levels, rd_offs _ _ (by omega), hl, e, List.take_left']
      rfl
    have h2 : rd it.levelsArr (it.level + 2) = .ok (g + size A + l.length) := by
      rw [ha.levels, rd_offs _ _ (by omega), show it.level + 2 = (A ++ [l]).length by simp; omega, e,
        show A ++ l :: C = (A ++ [l]) ++ C by simp, List.take_left' rfl]
      simp [Nat.add_assoc]
    have hw2 : wrap 8 (it.weight * 2) = 2 ^ A.length := by
      rw [hw, double_ok (by omega), hl]
    unfold nextLevel
    rw [if_neg (by rw [ha.num]; omega), h1, Outcome.ok_bind, h2, Outcome.ok_bind, hw2]
    cases l with
    | nil =>
      rw [if_neg (by simp)]
      have := ih (A ++ [[]]) f { it with level := it.level + 1, weight := 2 ^ A.length } (by rw [e]; simp)
        (by simp only [List.length_cons] at hf; omega) ⟨ha.quantiles, ha.levels, ha.num⟩ hi
        (by simp; omega) (by simp only [hl])
      simpa [tag] using this
    | cons x S =>
      rw [if_pos (by simp)]
      right
      refine ⟨(x, 2 ^ A.length), _, _, ?_, rfl, ⟨ha.quantiles, ha.levels, ha.num⟩, hi, A, [], x, S, C,
        ?_, hl, ?_, rfl, rfl, rfl⟩
      · simp [tag]
      · rw [e]; simp
      · simp

/-- the iterator is fresh or stands at an item; `rest` is still to come -/
def To (Q : List α) (g : Nat) (Ls : List (List α)) (it : It α) (rest : List (α × Int)) : Prop :=
  (Arr Q g Ls it ∧ it.isInitialized = false ∧ rest = tag 0 Ls) ∨ ∃ p, At Q g Ls it p rest

theorem next_ok (hL : Ls.length ≤ 62) (hne : Ls ≠ []) {it : It α} {rest : List (α × Int)}
    (h : To Q g Ls it rest) :
    (rest = [] ∧ ∃ it', it.next = .ok (false, it') ∧ Arr Q g Ls it' ∧ it'.isInitialized = true ∧
      it'.level = Ls.length) ∨
    ∃ p rest' it', rest = p :: rest' ∧ it.next = .ok (true, it') ∧ At Q g Ls it' p rest' := by
  rcases h with ⟨ha, hi, rfl⟩ | ⟨p, ha, hi, A, P, x, S, C, e, hl, hx, hw, rfl, rfl⟩
  · obtain ⟨l, C, rfl⟩ : ∃ l C, Ls = l :: C := by
      cases Ls with
      | nil => exact absurd rfl hne
      | cons l C => exact ⟨l, C, rfl⟩
    have h0 : rd it.levelsArr 0 = .ok g := by rw [ha.levels]; rfl
    have h1 : rd it.levelsArr (0 + 1) = .ok (g + l.length) := by
      rw [ha.levels, rd_offs _ _ (by simp)]; simp
    unfold It.next
    rw [if_neg (by rw [hi]; simp), h0, Outcome.ok_bind, Outcome.ok_bind]
    dsimp only
    rw [h1, Outcome.ok_bind]
    cases l with
    | nil =>
      rw [if_neg (by simp)]
      have := nextLevel_ok (Q := Q) (g := g) hL C [[]] (it.numLevels + 1)
        { it with level := 0, index := g, weight := 1, isInitialized := true } (by simp)
        (by rw [ha.num]; simp; omega) ⟨ha.quantiles, ha.levels, ha.num⟩ rfl rfl (by simp)
      rcases this with ⟨a, b⟩ | ⟨p, rest, it', a, b⟩
      · exact Or.inl ⟨by simpa [tag] using a, b⟩
      · exact Or.inr ⟨p, rest, it', by simpa [tag] using a, b⟩
    | cons x S =>
      rw [if_pos (by simp)]
      exact Or.inr ⟨(x, 1), _, _, by simp [tag]; rfl, rfl, ⟨ha.quantiles, ha.levels, ha.num⟩, rfl,
        [], [], x, S, C, rfl, rfl, by simp, by simp, by simp, by simp⟩
  · have hlen : Ls.length = A.length + (C.length + 1) := by rw [e]; simp
    have h1 : rd it.levelsArr (it.level + 1) = .ok (g + size A + (P.length + (S.length + 1))) := by
      rw [ha.levels, rd_offs _ _ (by omega), show it.level + 1 = (A ++ [P ++ x :: S]).length by simp [hl], e,
        show A ++ (P ++ x :: S) :: C = (A ++ [P ++ x :: S]) ++ C by simp, List.take_left' rfl]
      simp [Nat.add_assoc]
    unfold It.next
    rw [if_pos hi, Outcome.ok_bind]
    dsimp only
    rw [h1, Outcome.ok_bind]
    cases S with
    | nil =>
      rw [if_neg (by simp; omega)]
      have := nextLevel_ok (Q := Q) (g := g) hL C (A ++ [P ++ [x]]) (it.numLevels + 1)
        { it with index := it.index + 1 } (by rw [e]; simp)
        (by rw [ha.num]; omega) ⟨ha.quantiles, ha.levels, ha.num⟩ hi (by simp [hl])
        (by simp only [hw, hl])
      rw [show (A ++ [P ++ [x]]).length = A.length + 1 by simp] at this
      simpa using this
    | cons y S =>
      rw [if_pos (by simp; omega)]
      refine Or.inr ⟨(y, 2 ^ A.length), _, _, rfl, rfl, ⟨ha.quantiles, ha.levels, ha.num⟩, hi, A, P ++ [x], y, S,
        C, by rw [e]; simp, hl, ?_, hw, rfl, rfl⟩
      simp
      omega

theorem At.get {G : List α} (hG : G.length = g) {it : It α} {p : α × Int} {rest : List (α × Int)}
    (h : At (G ++ Ls.flatten) g Ls it p rest) : it.getQuantile = .ok p.1 ∧ it.getWeight = p.2 := by
  obtain ⟨ha, _, A, P, x, S, C, e, hl, hx, hw, rfl, rfl⟩ := h
  refine ⟨?_, hw⟩
  unfold It.getQuantile
  rw [ha.quantiles]
  apply rd_ok
  rw [show G ++ Ls.flatten = (G ++ A.flatten ++ P) ++ x :: (S ++ C.flatten) by rw [e]; simp]
  apply get_mid
  simp only [List.length_append, hx, hG]
  rfl

theorem collect_ok {G : List α} (hG : G.length = g) (hL : Ls.length ≤ 62) (hne : Ls ≠ [])
    (rest : List (α × Int)) : ∀ (fuel : Nat) (it : It α), rest.length < fuel →
      To (G ++ Ls.flatten) g Ls it rest →
      ∃ it', collect fuel it = .ok (rest, it') ∧ Arr (G ++ Ls.flatten) g Ls it' ∧
        it'.isInitialized = true ∧ it'.level = Ls.length := by
  induction rest with
  | nil =>
    intro fuel it hf h
    obtain ⟨f, rfl⟩ : ∃ f, fuel = f + 1 := ⟨fuel - 1, by simp at hf; omega⟩
    rcases next_ok hL hne h with ⟨_, it', e, ha, hi, hl⟩ | ⟨p, r, it', e, _⟩
    · refine ⟨it', ?_, ha, hi, hl⟩
      unfold collect
      rw [e, Outcome.ok_bind]
      rfl
    · cases e
  | cons p rest ih =>
    intro fuel it hf h
    obtain ⟨f, rfl⟩ : ∃ f, fuel = f + 1 := ⟨fuel - 1, by simp at hf; omega⟩
    rcases next_ok hL hne h with ⟨e, _⟩ | ⟨p', r, it', e, en, hat⟩
    · cases e
    · cases e
      obtain ⟨g1, g2⟩ := hat.get hG
      obtain ⟨it2, ec, hd⟩ := ih f it' (by simp only [List.length_cons] at hf; omega) (Or.inr ⟨_, hat⟩)
      refine ⟨it2, ?_, hd⟩
      unfold collect
      rw [en, Outcome.ok_bind]
      simp only [if_true, g1, Outcome.ok_bind, ec, g2]

/-- one call too many reads beyond the end of the level array -/
theorem next_after {it : It α} (ha : Arr Q g Ls it) (hi : it.isInitialized = true)
    (hl : it.level = Ls.length) : it.next = .panic := by
  unfold It.next
  rw [if_pos hi, Outcome.ok_bind]
  dsimp only
  have : rd it.levelsArr (it.level + 1) = .panic := by
    unfold rd
    rw [ha.levels, List.getElem?_eq_none (by rw [offs_length, hl])]
    rfl
  rw [this, Outcome.panic_bind]

end

end Verif.Kll
