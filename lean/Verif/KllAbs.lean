import Verif.KllArrays
import Verif.RandSim
import Mathlib.Tactic.Ring

/-!
# The KLL sketch as a list of levels

`Rep s a`: the flat array of the sketch `s` holds the levels of `a` one after the other, above
`a.free` unused cells.  The update and compaction of the model are shown to be operations on this
list of levels.
-/

namespace Verif.Kll

open Verif

variable {α : Type}

/-! ## Capacities as plain numbers -/

def icapA (k d : Nat) : Nat :=
  if ((k * 2) % 65536 * 2 ^ d / 3 ^ d + 1) / 2 ≤ k then ((k * 2) % 65536 * 2 ^ d / 3 ^ d + 1) / 2
  else k

def icap (k d : Nat) : Nat :=
  if d ≤ 30 then icapA k d else icapA (icapA k (d / 2)) (d - d / 2)

def cap (k m d : Nat) : Nat := max m (icap k d)

theorem icapA_le (k d : Nat) : icapA k d ≤ k := by
  unfold icapA; split
  · assumption
  · exact Nat.le_refl _

theorem icap_le (k d : Nat) : icap k d ≤ k := by
  unfold icap; split
  · exact icapA_le k d
  · exact Nat.le_trans (icapA_le _ _) (icapA_le _ _)

theorem cap_le {k m : Nat} (h : m ≤ k) (d : Nat) : cap k m d ≤ k := by
  unfold cap; have := icap_le k d; omega

theorem m_le_cap (k m d : Nat) : m ≤ cap k m d := by unfold cap; omega

theorem intCapAux_ok {k d : Nat} (hk : k ≤ 65535) (hd : d ≤ 60) : intCapAux k d = .ok (icap k d) := by
  unfold intCapAux icap
  by_cases h : d ≤ 30
  · rw [if_pos h, if_pos h]
    unfold intCapAuxAux
    rw [if_neg (by omega)]
    rfl
  · rw [if_neg h, if_neg h]
    have e1 : intCapAuxAux k (d / 2) = .ok (icapA k (d / 2)) := by
      unfold intCapAuxAux
      rw [if_neg (by omega)]
      rfl
    rw [e1, Outcome.ok_bind, Nat.mod_eq_of_lt (by have := icapA_le k (d / 2); omega)]
    unfold intCapAuxAux
    rw [if_neg (by omega)]
    rfl

theorem levelCapacity_ok {k m L level : Nat} (hk : k ≤ 65535) (hl : level < L) (hL : L ≤ 61) :
    levelCapacity k L level m = .ok (cap k m (L - (level + 1))) := by
  unfold levelCapacity
  rw [sub_ok (by omega), Outcome.ok_bind, intCapAux_ok hk (by omega), Outcome.ok_bind]
  rfl

/-- Capacity of all levels. -/
def tot (k m : Nat) : Nat → Nat
  | 0 => 0
  | L + 1 => tot k m L + cap k m L

theorem tot_mono (k m : Nat) {a b : Nat} (h : a ≤ b) : tot k m a ≤ tot k m b := by
  induction b with
  | zero => rw [Nat.le_zero.1 h]
  | succ b ih =>
    rcases Nat.lt_or_ge a (b + 1) with h' | h'
    · have := ih (by omega)
      show tot k m a ≤ tot k m b + cap k m b
      omega
    · rw [Nat.le_antisymm h h']

theorem computeTotal_ok {k m L : Nat} (hk : k ≤ 65535) (hL : L ≤ 61) :
    computeTotalItemCapacity k m L = .ok (tot k m L) := by
  unfold computeTotalItemCapacity
  have hH := range_fold (n := L)
    (f := fun total level => do
      let c ← levelCapacity k L level m
      Outcome.ok (total + c))
    (fun i total => total + tot k m (L - i) = tot k m L) (s0 := 0) (by simp) ?_
  · obtain ⟨s, hs, h⟩ := hH
    have : s = tot k m L := by simpa [tot] using h
    rw [hs, this]
  · intro i s hi hs
    rw [levelCapacity_ok hk hi hL]
    refine ⟨_, rfl, ?_⟩
    have e : L - i = (L - (i + 1)) + 1 := by omega
    rw [e] at hs
    show s + cap k m (L - (i + 1)) + tot k m (L - (i + 1)) = tot k m L
    have : tot k m (L - (i + 1) + 1) = tot k m (L - (i + 1)) + cap k m (L - (i + 1)) := rfl
    omega

theorem tot_le {k m : Nat} (h : m ≤ k) (L : Nat) : tot k m L ≤ k * L := by
  induction L with
  | zero => simp [tot]
  | succ L ih =>
    have := cap_le h L
    show tot k m L + cap k m L ≤ k * (L + 1)
    rw [Nat.mul_succ]; omega

/-! ## Level boundaries -/

/-- Number of items in all levels. -/
def size (Ls : List (List α)) : Nat := Ls.flatten.length

@[simp] theorem size_nil : size ([] : List (List α)) = 0 := rfl
@[simp] theorem size_cons (l : List α) (Ls : List (List α)) : size (l :: Ls) = l.length + size Ls := by
  simp [size]
@[simp] theorem size_append (A B : List (List α)) : size (A ++ B) = size A + size B := by
  simp [size]

/-- Starting positions of the levels. -/
def starts (g : Nat) : List (List α) → List Nat
  | [] => []
  | l :: ls => g :: starts (g + l.length) ls

/-- All boundaries. -/
def offs (g : Nat) : List (List α) → List Nat
  | [] => [g]
  | l :: ls => g :: offs (g + l.length) ls

theorem starts_length (g : Nat) (A : List (List α)) : (starts g A).length = A.length := by
  induction A generalizing g with
  | nil => rfl
  | cons l ls ih => simp [starts, ih]

theorem offs_length (g : Nat) (A : List (List α)) : (offs g A).length = A.length + 1 := by
  induction A generalizing g with
  | nil => rfl
  | cons l ls ih => simp [offs, ih]

theorem offs_append (g : Nat) (A B : List (List α)) :
    offs g (A ++ B) = starts g A ++ offs (g + size A) B := by
  induction A generalizing g with
  | nil => simp [starts]
  | cons l ls ih => simp [starts, offs, ih, Nat.add_assoc]

theorem starts_append (g : Nat) (A B : List (List α)) :
    starts g (A ++ B) = starts g A ++ starts (g + size A) B := by
  induction A generalizing g with
  | nil => simp [starts]
  | cons l ls ih => simp [starts, ih, Nat.add_assoc]

theorem offs_eq (g : Nat) (A : List (List α)) : offs g A = starts g A ++ [g + size A] := by
  have := offs_append g A []
  simpa [offs] using this

theorem starts_shift (g x : Nat) (A : List (List α)) :
    (starts g A).map (· + x) = starts (g + x) A := by
  induction A generalizing g with
  | nil => rfl
  | cons l ls ih => simp [starts, ih, Nat.add_right_comm]

theorem offs_get (g : Nat) (A : List (List α)) {i : Nat} (hi : i ≤ A.length) :
    (offs g A)[i]? = some (g + size (A.take i)) := by
  induction A generalizing g i with
  | nil =>
    have : i = 0 := by simpa using hi
    subst this; simp [offs]
  | cons l ls ih =>
    cases i with
    | zero => simp [offs]
    | succ i =>
      simp only [List.length_cons] at hi
      simp only [offs, List.getElem?_cons_succ, List.take_succ_cons, size_cons]
      rw [ih (g + l.length) (by omega), Nat.add_assoc]

theorem rd_offs (g : Nat) (A : List (List α)) {i : Nat} (hi : i ≤ A.length) :
    rd (offs g A) i = .ok (g + size (A.take i)) := rd_ok (offs_get g A hi)

theorem size_take_le (A : List (List α)) (i : Nat) : size (A.take i) ≤ size A := by
  have := size_append (A.take i) (A.drop i)
  rw [List.take_append_drop] at this; omega

theorem addToLevels_ok (S T : List Nat) (x : Nat) :
    addToLevels (S ++ T) S.length x = .ok (S.map (· + x) ++ T) := by
  unfold addToLevels
  have hH := range_fold (n := S.length)
    (f := fun lv l => do
      let v ← rd lv l
      wr lv l (v + x))
    (fun i lv => lv = (S.take i).map (· + x) ++ S.drop i ++ T) (s0 := S ++ T) (by simp) ?_
  · obtain ⟨s, hs, rfl⟩ := hH
    rw [hs]; simp
  · rintro i lv hi rfl
    have ht : S.take (i + 1) = S.take i ++ [S[i]] := by
      rw [List.take_add_one, List.getElem?_eq_getElem hi]; rfl
    have htl : ((S.take i).map (· + x)).length = i := by
      rw [List.length_map, List.length_take]; omega
    have e : (S.take i).map (· + x) ++ S.drop i ++ T =
        (S.take i).map (· + x) ++ S[i] :: (S.drop (i + 1) ++ T) := by
      rw [drop_cons_of hi]; asm
    rw [e, rd_mid _ _ _ htl.symm, Outcome.ok_bind, wr_mid _ _ _ _ htl.symm]
    refine ⟨_, rfl, ?_⟩
    rw [ht, List.map_append]; asm
    rfl

/-! ## Abstract sketches -/

structure Abs (α : Type) where
  k : Nat
  m : Nat
  minK : Nat
  zs : Bool
  n : Nat
  free : Nat
  Ls : List (List α)
  minItem : α
  maxItem : α
  hasMinMax : Bool
  log : List Nat

structure Rep (s : Sketch α) (a : Abs α) : Prop where
  k : s.k = a.k
  m : s.m = a.m
  minK : s.minK = a.minK
  zs : s.isLevelZeroSorted = a.zs
  n : s.n = a.n
  numLevels : s.numLevels = a.Ls.length
  levels : s.levels = offs a.free a.Ls
  items : ∃ G, G.length = a.free ∧ s.items = G ++ a.Ls.flatten
  minItem : s.minItem = a.minItem
  maxItem : s.maxItem = a.maxItem
  hasMinMax : s.hasMinMax = a.hasMinMax
  log : s.log = a.log

/-- The part of a level that stays when it is compacted. -/
def leftover (L : List α) : List α := L.take (L.length % 2)

/-- The part that is halved. -/
def evenPart (L : List α) : List α := L.drop (L.length % 2)

theorem leftover_append (L : List α) : leftover L ++ evenPart L = L := List.take_append_drop _ _

theorem evenPart_length (L : List α) : (evenPart L).length = 2 * (L.length / 2) := by
  unfold evenPart; rw [List.length_drop]; omega

theorem leftover_length (L : List α) : (leftover L).length = L.length % 2 := by
  unfold leftover; rw [List.length_take]; have := Nat.mod_le L.length 2; omega

/-- Compaction of level `h`. -/
def compactAt (env : Env α) (doSort : Bool) (o : Nat) : Nat → List (List α) → List (List α)
  | 0, L :: B :: C => leftover L :: above env doSort o (evenPart L) B :: C
  | h + 1, l :: ls => l :: compactAt env doSort o h ls
  | _, ls => ls

theorem compactAt_append (env : Env α) (doSort : Bool) (o : Nat) (A : List (List α)) (L B : List α)
    (C : List (List α)) :
    compactAt env doSort o A.length (A ++ L :: B :: C) =
      A ++ leftover L :: above env doSort o (evenPart L) B :: C := by
  induction A with
  | nil => simp [compactAt]
  | cons l ls ih => simp [compactAt, ih]

/-- Number of items in level `h`. -/
def pop (Ls : List (List α)) (h : Nat) : Nat := (Ls.getD h []).length

theorem pop_append (A : List (List α)) (L : List α) (C : List (List α)) :
    pop (A ++ L :: C) A.length = L.length := by
  simp [pop]

def aCompress (env : Env α) (a : Abs α) (h o : Nat) : Abs α :=
  { a with
    free := a.free + pop a.Ls h / 2
    Ls := compactAt env (h == 0) o h a.Ls
    log := h :: a.log }

theorem keepLeftover_ok (P Y S : List α) (lo : List α) (hlo : lo.length ≤ 1) {r : Nat}
    (hr : r = lo.length) :
    ∃ Y', keepLeftover (r == 1) (P ++ lo ++ Y ++ S) P.length (P.length + Y.length) =
      .ok (P ++ Y' ++ lo ++ S) ∧ Y'.length = Y.length := by
  subst hr
  match lo, hlo with
  | [], _ => exact ⟨Y, by simp [keepLeftover], rfl⟩
  | [x], _ =>
    unfold keepLeftover
    rw [if_pos (by simp)]
    have h1 : rd (P ++ [x] ++ Y ++ S) P.length = .ok x := by
      rw [show P ++ [x] ++ Y ++ S = P ++ x :: (Y ++ S) by asm]
      exact rd_mid _ _ _ rfl
    rw [h1, Outcome.ok_bind]
    obtain ⟨Y', y, hy⟩ : ∃ Y' y, [x] ++ Y = Y' ++ [y] := by
      rcases List.eq_nil_or_concat ([x] ++ Y) with h | ⟨Y', y, h⟩
      · simp at h
      · exact ⟨Y', y, by rw [h, List.concat_eq_append]⟩
    have hl : Y'.length = Y.length := by
      have := congrArg List.length hy
      simp at this; omega
    refine ⟨Y', ?_, hl⟩
    rw [show P ++ [x] ++ Y ++ S = (P ++ Y') ++ y :: S by
      rw [List.append_assoc P, hy]; asm]
    rw [wr_mid _ _ _ _ (by rw [List.length_append]; omega)]
    asm

theorem shiftBelow_ok (h : Nat) (G A Y S : List α) (hA : h = 0 → A = []) :
    ∃ Y', shiftBelow h (G ++ A ++ Y ++ S) (G.length + A.length) G.length Y.length =
      .ok (G ++ Y' ++ A ++ S) ∧ Y'.length = Y.length := by
  unfold shiftBelow
  by_cases h0 : 0 < h
  · rw [if_pos h0, sub_ok (by omega), Outcome.ok_bind,
      show G.length + A.length - G.length = A.length by omega]
    exact moveUp_ok G A Y S
  · rw [if_neg h0, hA (by omega)]
    exact ⟨Y, by simp, rfl⟩

theorem split_two {Ls : List (List α)} {h : Nat} (hh : h + 1 < Ls.length) :
    ∃ A L B C, Ls = A ++ L :: B :: C ∧ A.length = h := by
  refine ⟨Ls.take h, Ls[h], Ls[h + 1], Ls.drop (h + 2), ?_, by rw [List.length_take]; omega⟩
  rw [← drop_cons_of hh, ← drop_cons_of (by omega : h < Ls.length), List.take_append_drop]

theorem compressLevel_ok {env : Env α} (hs : ∀ l, (env.sort l).Perm l) {s : Sketch α} {a : Abs α}
    (hr : Rep s a) {h o : Nat} (ho : o < 2) (hh : h + 1 < a.Ls.length) (hp : 2 ≤ pop a.Ls h) :
    ∃ s', compressLevel env s h o = .ok s' ∧ Rep s' (aCompress env a h o) := by
  obtain ⟨A, L, B, C, hLs, hA⟩ := split_two hh
  obtain ⟨G, hG, hit⟩ := hr.items
  have hlv := hr.levels
  unfold aCompress
  rw [hLs] at hlv hit hp ⊢
  rw [← hA] at hp ⊢
  rw [pop_append] at hp ⊢
  rw [compactAt_append]
  set g := a.free with hg
  set t := L.length / 2 with ht
  set p := g + size A with hpdef
  set r := L.length % 2 with hrdef
  have hLl : L.length = r + 2 * t := by omega
  have hr2 : r < 2 := Nat.mod_lt _ (by omega)
  have e0 : s.levels = starts g A ++ p :: (p + L.length) :: offs (p + L.length + B.length) C := by
    rw [hlv, offs_append]; rfl
  have hsl : (starts g A).length = A.length := starts_length g A
  have e1 : s.levels = (starts g A ++ [p]) ++ (p + L.length) :: offs (p + L.length + B.length) C := by
    rw [e0]; asm
  obtain ⟨q, Q, hq⟩ : ∃ q Q, offs (p + L.length + B.length) C = q :: Q ∧
      q = p + L.length + B.length := by
    cases C with
    | nil => exact ⟨_, _, rfl, rfl⟩
    | cons c C => exact ⟨_, _, rfl, rfl⟩
  obtain ⟨hq, hq'⟩ := hq
  have e2 : s.levels = (starts g A ++ [p, p + L.length]) ++ q :: Q := by
    rw [e0, hq]; asm
  unfold compressLevel
  have r1 : rd s.levels A.length = .ok p := by rw [e0]; exact rd_mid _ _ _ hsl.symm
  have r2 : rd s.levels (A.length + 1) = .ok (p + L.length) := by
    rw [e1]; exact rd_mid _ _ _ (by simp [hsl])
  have r3 : rd s.levels (A.length + 2) = .ok q := by
    rw [e2]; exact rd_mid _ _ _ (by simp [hsl])
  rw [r1, Outcome.ok_bind, r2, Outcome.ok_bind, r3, Outcome.ok_bind, sub_ok (by omega),
    Outcome.ok_bind, sub_ok (by omega), Outcome.ok_bind]
  simp only [show p + L.length - p = L.length by omega,
    show q - (p + L.length) = B.length by omega]
  -- the even part
  have hadj1 : (if (L.length % 2 == 1) = true then p + 1 else p) = p + r := by
    by_cases h1 : r = 1
    · rw [if_pos (by simpa using h1)]; omega
    · rw [if_neg (by rw [beq_iff_eq]; exact h1)]; omega
  have hadj2 : (if (L.length % 2 == 1) = true then L.length - 1 else L.length) = 2 * t := by
    by_cases h1 : r = 1
    · rw [if_pos (by simpa using h1)]; omega
    · rw [if_neg (by rw [beq_iff_eq]; exact h1)]; omega
  rw [hadj1, hadj2, show 2 * t / 2 = t by omega]
  have hlol : (leftover L).length = r := leftover_length L
  have hXl : (evenPart L).length = 2 * t := evenPart_length L
  have hAf : A.flatten.length = size A := rfl
  obtain ⟨Y, hY, hYl⟩ := compactSegment_ok hs (G ++ A.flatten ++ leftover L) (evenPart L) B
    C.flatten (A.length == 0) ho hXl (by omega)
  have eit : s.items = G ++ A.flatten ++ leftover L ++ evenPart L ++ B ++ C.flatten := by
    rw [hit, List.flatten_append, List.flatten_cons, List.flatten_cons]
    conv_lhs => rw [← leftover_append L]
    asm
  have hPl : (G ++ A.flatten ++ leftover L).length = p + r := by
    simp only [List.length_append, hlol, hAf]; omega
  rw [hPl, show p + r + 2 * t = p + L.length by omega, ← eit] at hY
  rw [hY, Outcome.ok_bind, sub_ok (by omega), Outcome.ok_bind]
  -- boundaries
  have w1 : wr s.levels (A.length + 1) (p + L.length - t) =
      .ok ((starts g A ++ [p]) ++ (p + L.length - t) :: q :: Q) := by
    rw [e1, wr_mid _ _ _ _ (by simp [hsl]), hq]
  rw [w1, Outcome.ok_bind]
  have hcur : subIf (L.length % 2 == 1) (p + L.length - t) = .ok (p + t) := by
    unfold subIf
    by_cases h1 : r = 1
    · rw [if_pos (by simpa using h1), sub_ok (by omega)]
      congr 1; omega
    · rw [if_neg (by rw [beq_iff_eq]; exact h1)]
      congr 1; omega
  rw [hcur, Outcome.ok_bind]
  have w2 : wr ((starts g A ++ [p]) ++ (p + L.length - t) :: q :: Q) A.length (p + t) =
      .ok (starts g A ++ ((p + t) :: (p + L.length - t) :: q :: Q)) := by
    rw [show (starts g A ++ [p]) ++ (p + L.length - t) :: q :: Q =
      starts g A ++ p :: (p + L.length - t) :: q :: Q by asm]
    exact wr_mid _ _ _ _ hsl.symm
  rw [w2, Outcome.ok_bind]
  -- the left-over item
  obtain ⟨Y1, hY1, hY1l⟩ := keepLeftover_ok (G ++ A.flatten) Y
    (above env (A.length == 0) o (evenPart L) B ++ C.flatten) (leftover L) (by omega) hlol.symm
  have hGA : (G ++ A.flatten).length = p := by simp only [List.length_append, hAf]; omega
  rw [hGA, hYl] at hY1
  rw [show G ++ A.flatten ++ leftover L ++ Y ++ above env (A.length == 0) o (evenPart L) B ++
    C.flatten = G ++ A.flatten ++ leftover L ++ Y ++
      (above env (A.length == 0) o (evenPart L) B ++ C.flatten) by asm, hY1, Outcome.ok_bind]
  -- the levels below
  obtain ⟨base, hb, hbase⟩ : ∃ base,
      rd (starts g A ++ ((p + t) :: (p + L.length - t) :: q :: Q)) 0 = .ok base ∧
      (0 < A.length → base = g) := by
    cases A with
    | nil => exact ⟨_, rfl, fun h => absurd h (by simp)⟩
    | cons l A => exact ⟨g, rfl, fun _ => rfl⟩
  rw [hb, Outcome.ok_bind]
  obtain ⟨Y2, hY2, hY2l⟩ : ∃ Y2, shiftBelow A.length (G ++ A.flatten ++ Y1 ++ leftover L ++
      (above env (A.length == 0) o (evenPart L) B ++ C.flatten)) p base t =
      .ok (G ++ Y2 ++ A.flatten ++ leftover L ++
        (above env (A.length == 0) o (evenPart L) B ++ C.flatten)) ∧ Y2.length = t := by
    by_cases h0 : 0 < A.length
    · rw [hbase h0]
      obtain ⟨Y2, h2, h2l⟩ := shiftBelow_ok A.length G A.flatten Y1 (leftover L ++
        (above env (A.length == 0) o (evenPart L) B ++ C.flatten)) (fun h => absurd h (by omega))
      refine ⟨Y2, ?_, by omega⟩
      rw [hG, hAf, hY1l, hYl] at h2
      have := h2
      rw [List.append_assoc (G ++ A.flatten ++ Y1), this]
      asm
    · have hA0 : A = [] := List.eq_nil_of_length_eq_zero (by omega)
      refine ⟨Y1, ?_, by omega⟩
      unfold shiftBelow
      rw [if_neg h0, hA0]
      simp
  rw [hY2, Outcome.ok_bind]
  have w3 := addToLevels_ok (starts g A) ((p + t) :: (p + L.length - t) :: q :: Q) t
  rw [hsl, starts_shift] at w3
  rw [w3, Outcome.ok_bind]
  refine ⟨_, rfl, ?_⟩
  have hal := above_length hs (A.length == 0) o (evenPart L) B
  refine
    { k := hr.k
      m := hr.m
      minK := hr.minK
      zs := hr.zs
      n := hr.n
      numLevels := ?_
      levels := ?_
      items := ⟨G ++ Y2, by simp only [List.length_append]; omega, ?_⟩
      minItem := hr.minItem
      maxItem := hr.maxItem
      hasMinMax := hr.hasMinMax
      log := ?_ }
  · have := hr.numLevels
    rw [hLs] at this
    simpa using this
  · show starts (g + t) A ++ (p + t) :: (p + L.length - t) :: q :: Q = _
    rw [offs_append]
    simp only [offs, hlol, hal, hXl]
    rw [← hq]
    rw [show g + t + size A = p + t by omega, show p + t + r = p + L.length - t by omega,
      show p + L.length - t + (2 * t / 2 + B.length) = p + L.length + B.length by omega]
  · show G ++ Y2 ++ A.flatten ++ leftover L ++ _ = _
    rw [List.flatten_append, List.flatten_cons, List.flatten_cons]
    asm
  · show A.length :: s.log = A.length :: a.log
    rw [hr.log]

/-! ## Choosing the level -/

def aFind (k m L : Nat) : List (List α) → Nat → Outcome Nat
  | [], _ => .panic
  | l :: ls, i => if cap k m (L - (i + 1)) ≤ l.length then .ok i else aFind k m L ls (i + 1)

theorem findLevelFrom_ok {k m L : Nat} (hk : k ≤ 65535) (hL : L ≤ 61) (levels : List Nat)
    (g : Nat) (A R : List (List α)) (hl : levels = offs g (A ++ R)) (hn : (A ++ R).length = L)
    (fuel : Nat) (hf : R.length < fuel) (i : Nat) (hi : aFind k m L R A.length = .ok i) :
    findLevelFrom k m L levels fuel A.length = .ok i := by
  induction R generalizing A fuel with
  | nil => simp [aFind] at hi
  | cons l R ih =>
    obtain ⟨f, rfl⟩ : ∃ f, fuel = f + 1 := ⟨fuel - 1, by omega⟩
    unfold findLevelFrom
    have hAL : A.length < L := by rw [← hn]; simp
    have r1 : rd levels (A.length + 1) = .ok (g + size A + l.length) := by
      rw [hl, rd_offs _ _ (by simp)]
      rw [show A ++ l :: R = (A ++ [l]) ++ R by asm,
        show A.length + 1 = (A ++ [l]).length by simp, List.take_left]
      simp [Nat.add_assoc]
    have r2 : rd levels A.length = .ok (g + size A) := by
      rw [hl, rd_offs _ _ (by simp)]
      simp
    rw [r1, Outcome.ok_bind, r2, Outcome.ok_bind, sub_ok (by omega), Outcome.ok_bind,
      levelCapacity_ok hk hAL hL, Outcome.ok_bind,
      show g + size A + l.length - (g + size A) = l.length by omega]
    unfold aFind at hi
    by_cases hc : cap k m (L - (A.length + 1)) ≤ l.length
    · rw [if_pos hc] at hi ⊢
      exact hi
    · rw [if_neg hc] at hi ⊢
      have := ih (A ++ [l]) (by rw [hl]; simp) (by rw [← hn]; simp) f
        (by simp at hf; omega) (by simpa using hi)
      simpa using this

def aAddTop (a : Abs α) : Abs α :=
  { a with
    free := a.free + cap a.k a.m a.Ls.length
    Ls := a.Ls ++ [[]] }

theorem addEmptyTopLevel_ok {env : Env α} {s : Sketch α} {a : Abs α} (hr : Rep s a)
    (hk : a.k ≤ 65535) (hL : a.Ls.length + 1 ≤ 61) :
    ∃ s', addEmptyTopLevel env s = .ok s' ∧ Rep s' (aAddTop a) := by
  obtain ⟨G, hG, hit⟩ := hr.items
  unfold addEmptyTopLevel
  have r1 : rd s.levels s.numLevels = .ok (a.free + size a.Ls) := by
    rw [hr.levels, hr.numLevels, rd_offs _ _ (Nat.le_refl _), List.take_length]
  have hcap : levelCapacity s.k (s.numLevels + 1) 0 s.m = .ok (cap a.k a.m a.Ls.length) := by
    rw [hr.k, hr.m, hr.numLevels, levelCapacity_ok hk (by omega) hL]
    rfl
  rw [r1, Outcome.ok_bind, hcap, Outcome.ok_bind]
  set d := cap a.k a.m a.Ls.length with hd
  have hlen : s.levels.length = s.numLevels + 1 := by
    rw [hr.levels, hr.numLevels, offs_length]
  have hgrow : decide (s.levels.length < s.numLevels + 2) = true := by
    rw [hlen]; simp
  simp only [hgrow, if_true]
  have e0 : s.levels ++ List.replicate (s.numLevels + 2 - s.levels.length) 0 = s.levels ++ [0] := by
    rw [hlen, show s.numLevels + 2 - (s.numLevels + 1) = 1 by omega]; rfl
  rw [e0]
  have w1 := addToLevels_ok s.levels [0] d
  rw [hlen] at w1
  rw [w1, Outcome.ok_bind]
  rw [wr_mid _ _ _ _ (by rw [List.length_map, hlen]), Outcome.ok_bind]
  have hil : s.items.length = a.free + size a.Ls := by
    rw [hit, List.length_append, hG]; rfl
  have hrep : List.replicate (a.free + size a.Ls + d) env.zero =
      List.replicate d env.zero ++ List.replicate (a.free + size a.Ls) env.zero ++ [] := by
    rw [List.append_nil, List.replicate_append_replicate, Nat.add_comm d]
  have c1 := copyItems_ok (List.replicate d env.zero)
    (List.replicate (a.free + size a.Ls) env.zero) [] [] s.items [] (by simp [hil])
  simp only [List.length_replicate, List.nil_append, List.append_nil, List.length_nil] at c1
  rw [hil] at c1
  rw [hrep, List.append_nil, c1, Outcome.ok_bind]
  refine ⟨_, rfl, ?_⟩
  unfold aAddTop
  refine
    { k := hr.k
      m := hr.m
      minK := hr.minK
      zs := hr.zs
      n := hr.n
      numLevels := by
        show s.numLevels + 1 = _
        rw [hr.numLevels]; simp
      levels := ?_
      items := ⟨List.replicate d env.zero ++ G, by simp [hG, Nat.add_comm, hd], ?_⟩
      minItem := hr.minItem
      maxItem := hr.maxItem
      hasMinMax := hr.hasMinMax
      log := hr.log }
  · show s.levels.map (· + d) ++ [a.free + size a.Ls + d] = _
    rw [hr.levels, offs_eq, List.map_append, starts_shift, offs_append]
    simp [offs, hd, Nat.add_right_comm]
  · show List.replicate d env.zero ++ s.items = _
    rw [hit]
    simp

def aPrepare (a : Abs α) : Outcome (Nat × Abs α) := do
  let h ← aFind a.k a.m a.Ls.length a.Ls 0
  if h = a.Ls.length - 1 then .ok (h, aAddTop a) else .ok (h, a)

theorem aFind_spec {k m L : Nat} {R : List (List α)} {i0 i : Nat} (h : aFind k m L R i0 = .ok i) :
    ∃ j, i = i0 + j ∧ j < R.length ∧ cap k m (L - (i + 1)) ≤ pop R j := by
  induction R generalizing i0 with
  | nil => simp [aFind] at h
  | cons l R ih =>
    unfold aFind at h
    by_cases hc : cap k m (L - (i0 + 1)) ≤ l.length
    · rw [if_pos hc] at h
      have : i0 = i := by simpa using h
      subst this
      exact ⟨0, rfl, by simp, by simpa [pop] using hc⟩
    · rw [if_neg hc] at h
      obtain ⟨j, h1, h2, h3⟩ := ih h
      refine ⟨j + 1, by omega, by simp; omega, ?_⟩
      simpa [pop] using h3

theorem compressPrepare_ok {env : Env α} {s : Sketch α} {a : Abs α} (hr : Rep s a)
    (hk : a.k ≤ 65535) (hL : a.Ls.length + 1 ≤ 61) {p : Nat × Abs α} (hp : aPrepare a = .ok p) :
    ∃ s', compressPrepare env s = .ok (p.1, s') ∧ Rep s' p.2 := by
  unfold aPrepare at hp
  obtain ⟨h, hf, hp⟩ := Outcome.bind_eq_ok.1 hp
  unfold compressPrepare
  have e1 : findLevelToCompact s.k s.m s.numLevels s.levels = .ok h := by
    unfold findLevelToCompact
    rw [hr.k, hr.m, hr.numLevels]
    exact findLevelFrom_ok (L := a.Ls.length) hk (by omega) s.levels a.free [] a.Ls hr.levels rfl _
      (by rw [hr.levels, offs_length]; omega) h hf
  rw [e1, Outcome.ok_bind, hr.numLevels]
  by_cases ht : h = a.Ls.length - 1
  · rw [if_pos ht] at hp ⊢
    obtain ⟨s', h1, h2⟩ := addEmptyTopLevel_ok (env := env) hr hk hL
    rw [h1, Outcome.ok_bind]
    have : p = (h, aAddTop a) := by simpa using hp.symm
    subst this
    exact ⟨s', rfl, h2⟩
  · rw [if_neg ht] at hp ⊢
    have : p = (h, a) := by simpa using hp.symm
    subst this
    exact ⟨s, rfl, hr⟩

theorem aPrepare_spec {a : Abs α} (hm : 2 ≤ a.m) {p : Nat × Abs α} (hp : aPrepare a = .ok p) :
    (p.1 < a.Ls.length ∧ cap a.k a.m (a.Ls.length - (p.1 + 1)) ≤ pop a.Ls p.1 ∧
      2 ≤ pop a.Ls p.1) ∧
    ((p.1 + 1 = a.Ls.length ∧ p.2 = aAddTop a) ∨ (p.1 + 1 < a.Ls.length ∧ p.2 = a)) := by
  unfold aPrepare at hp
  obtain ⟨h, hf, hp⟩ := Outcome.bind_eq_ok.1 hp
  obtain ⟨j, h1, h2, h3⟩ := aFind_spec hf
  have : h = j := by omega
  subst this
  have h4 := m_le_cap a.k a.m (a.Ls.length - (h + 1))
  by_cases ht : h = a.Ls.length - 1
  · rw [if_pos ht] at hp
    have : p = (h, aAddTop a) := by simpa using hp.symm
    subst this
    exact ⟨⟨h2, h3, le_trans hm (le_trans h4 h3)⟩, Or.inl ⟨by simp; omega, rfl⟩⟩
  · rw [if_neg ht] at hp
    have : p = (h, a) := by simpa using hp.symm
    subst this
    exact ⟨⟨h2, h3, le_trans hm (le_trans h4 h3)⟩, Or.inr ⟨by simp; omega, rfl⟩⟩

end Verif.Kll
