import Verif.KllViewModel
import Verif.KllRun
import Verif.ViewQueries

/-!
# The sorted view of a KLL sketch is the sorted list of its items with their weights
-/

namespace Verif.Kll

open Verif Verif.View Verif.Inequality

variable {α : Type} [LinearOrder α]

local macro "asm" : tactic => `(tactic| simp only [List.append_assoc, List.cons_append,
  List.nil_append, List.append_nil, List.singleton_append])

/-! ## Tandem merge -/

/-- `compareFn(a, b) || a == b` on pairs -/
def leP (lt : α → α → Bool) (x y : α × Int) : Bool := lt x.1 y.1 || decide (x.1 = y.1)

theorem get_two {β : Type} {P A B S : List β} {j i : Nat} (hi : i < B.length)
    (hj : j = P.length + A.length + i) : (P ++ A ++ B ++ S)[j]? = some B[i] := by
  apply get_seg (P := P ++ A) (X := B) (S := S) (i := i) (List.getElem?_eq_getElem hi)
  simp [hj]

theorem tandemLoop_ok (lt : α → α → Bool) (P A B S Q T : List (α × Int)) (hPQ : P.length = Q.length) :
    ∀ (fuel a b : Nat) (M Y : List (α × Int)), a ≤ A.length → b ≤ B.length →
      A.length + B.length < a + b + fuel → M.length = a + b →
      Y.length + (a + b) = A.length + B.length →
      M ++ mergeL (leP lt) (A.drop a) (B.drop b) = mergeL (leP lt) A B →
      ∃ a' b' M' Y', tandemLoop lt (P ++ A ++ B ++ S) (P.length + A.length)
          (P.length + A.length + B.length) fuel
          (P.length + a, P.length + A.length + b, P.length + (a + b), Q ++ M ++ Y ++ T) =
        .ok (P.length + a', P.length + A.length + b', P.length + (a' + b'), Q ++ M' ++ Y' ++ T) ∧
      a' ≤ A.length ∧ b' ≤ B.length ∧ (a' = A.length ∨ b' = B.length) ∧
      M'.length = a' + b' ∧ Y'.length + (a' + b') = A.length + B.length ∧
      M' ++ mergeL (leP lt) (A.drop a') (B.drop b') = mergeL (leP lt) A B := by
  intro fuel
  induction fuel with
  | zero => intro a b M Y ha hb hf; omega
  | succ fuel ih =>
    intro a b M Y ha hb hf hM hY hmer
    unfold tandemLoop
    by_cases hc : a < A.length ∧ b < B.length
    · rw [if_pos (by omega)]
      have hx : rd (P ++ A ++ B ++ S) (P.length + a) = .ok A[a] := by
        apply rd_ok
        rw [List.append_assoc (P ++ A)]
        exact get_seg (List.getElem?_eq_getElem hc.1) rfl
      have hy : rd (P ++ A ++ B ++ S) (P.length + A.length + b) = .ok B[b] :=
        rd_ok (get_two hc.2 rfl)
      rw [hx, Outcome.ok_bind, hy, Outcome.ok_bind]
      obtain ⟨y0, Y0, rfl⟩ : ∃ y0 Y0, Y = y0 :: Y0 := by
        cases Y with
        | nil => simp at hY; omega
        | cons y0 Y0 => exact ⟨y0, Y0, rfl⟩
      have hw : ∀ v, wr (Q ++ M ++ y0 :: Y0 ++ T) (P.length + (a + b)) v =
          .ok (Q ++ (M ++ [v]) ++ Y0 ++ T) := by
        intro v
        have e : Q ++ M ++ y0 :: Y0 ++ T = (Q ++ M) ++ y0 :: (Y0 ++ T) := by asm
        rw [e, wr_mid _ _ _ _ (by simp [hM, hPQ])]
        asm
      have hda := drop_cons_of hc.1
      have hdb := drop_cons_of hc.2
      simp only [List.length_cons] at hY
      by_cases hlt : lt A[a].1 B[b].1 = true ∨ A[a].1 = B[b].1
      · rw [if_pos hlt, hw, Outcome.ok_bind]
        have hle : leP lt A[a] B[b] = true := by simpa [leP] using hlt
        have h1 : P.length + (a + b) + 1 = P.length + (a + 1 + b) := by omega
        have h2 : P.length + a + 1 = P.length + (a + 1) := by omega
        rw [h1, h2]
        refine ih (a + 1) b (M ++ [A[a]]) Y0 (by omega) hb (by omega) (by simp; omega) (by omega) ?_
        rw [← hmer, hda, hdb, mergeL_cons, if_pos hle]
        asm
      · rw [if_neg hlt, hw, Outcome.ok_bind]
        have hle : ¬ leP lt A[a] B[b] = true := by simpa [leP] using hlt
        have h1 : P.length + (a + b) + 1 = P.length + (a + (b + 1)) := by omega
        have h2 : P.length + A.length + b + 1 = P.length + A.length + (b + 1) := by omega
        rw [h1, h2]
        refine ih a (b + 1) (M ++ [B[b]]) Y0 ha (by omega) (by omega) (by simp; omega) (by omega) ?_
        rw [← hmer, hda, hdb, mergeL_cons, if_neg hle]
        asm
    · rw [if_neg (by omega)]
      exact ⟨a, b, M, Y, rfl, ha, hb, by omega, hM, hY, hmer⟩

theorem copySlice_ok {β : Type} (D Y T P X S : List β) (h : Y.length = X.length) {d f t : Nat}
    (hd : d = D.length) (hf : f = P.length) (ht : t = P.length + X.length) :
    copySlice (D ++ Y ++ T) d (P ++ X ++ S) f t = .ok (D ++ X ++ T) := by
  subst hd hf ht
  unfold copySlice
  rw [if_pos (by simp)]
  have e1 : ((P ++ X ++ S).take (P.length + X.length)).drop P.length = X := by
    rw [List.take_left' (by simp), List.drop_left' rfl]
  have e2 : X.take ((D ++ Y ++ T).length - D.length) = X := by
    apply List.take_of_length_le
    simp [h]
  simp only [e1, e2]
  congr 1
  have e3 : (D ++ Y ++ T).take D.length = D := by
    rw [List.append_assoc, List.take_left' rfl]
  have e4 : (D ++ Y ++ T).drop (D.length + X.length) = T := List.drop_left' (by simp [h])
  rw [e3, e4]

theorem tandemRest_ok (lt : α → α → Bool) (P A B S Q T M Y : List (α × Int))
    (hPQ : P.length = Q.length) {a b : Nat} (ha : a ≤ A.length) (hb : b ≤ B.length)
    (hor : a = A.length ∨ b = B.length) (hM : M.length = a + b)
    (hY : Y.length + (a + b) = A.length + B.length)
    (hmer : M ++ mergeL (leP lt) (A.drop a) (B.drop b) = mergeL (leP lt) A B) :
    tandemRest (P ++ A ++ B ++ S) (P.length + A.length) (P.length + A.length + B.length)
      (P.length + a, P.length + A.length + b, P.length + (a + b), Q ++ M ++ Y ++ T) =
      .ok (Q ++ mergeL (leP lt) A B ++ T) := by
  unfold tandemRest
  simp only []
  by_cases h1 : a < A.length
  · have hbB : b = B.length := by omega
    subst hbB
    rw [if_pos (by omega)]
    rw [List.drop_length, mergeL_nil_right] at hmer
    have e : P ++ A ++ B ++ S = (P ++ A.take a) ++ A.drop a ++ (B ++ S) := by
      have := List.take_append_drop a A
      conv_lhs => rw [← this]
      asm
    rw [e, copySlice_ok (Q ++ M) Y T (P ++ A.take a) (A.drop a) (B ++ S) (by simp; omega)
      (by simp; omega) (by simp; omega) (by simp; omega), ← hmer]
    asm
  · have haA : a = A.length := by omega
    subst haA
    rw [if_neg (by omega)]
    rw [List.drop_length, mergeL_nil_left] at hmer
    by_cases h2 : b < B.length
    · rw [if_pos (by omega)]
      have e : P ++ A ++ B ++ S = (P ++ A ++ B.take b) ++ B.drop b ++ S := by
        have := List.take_append_drop b B
        conv_lhs => rw [← this]
        asm
      rw [e, copySlice_ok (Q ++ M) Y T (P ++ A ++ B.take b) (B.drop b) S (by simp; omega)
        (by simp; omega) (by simp; omega) (by simp; omega), ← hmer]
      asm
    · rw [if_neg (by omega)]
      have hbB : b = B.length := by omega
      subst hbB
      have : Y = [] := List.eq_nil_of_length_eq_zero (by omega)
      subst this
      rw [List.drop_length, List.append_nil] at hmer
      rw [hmer]
      asm

theorem tandemMerge_ok (lt : α → α → Bool) (P A B S Q Y T : List (α × Int))
    (hPQ : P.length = Q.length) (hY : Y.length = A.length + B.length) {levels : List Nat}
    {s1 n1 s2 n2 : Nat} (h1 : rd levels s1 = .ok P.length)
    (h2 : rd levels (s1 + n1) = .ok (P.length + A.length))
    (h3 : rd levels s2 = .ok (P.length + A.length))
    (h4 : rd levels (s2 + n2) = .ok (P.length + A.length + B.length)) :
    tandemMerge lt (P ++ A ++ B ++ S) (Q ++ Y ++ T) levels s1 n1 s2 n2 =
      .ok (Q ++ mergeL (leP lt) A B ++ T) := by
  unfold tandemMerge
  rw [h1, Outcome.ok_bind, h2, Outcome.ok_bind, h3, Outcome.ok_bind, h4, Outcome.ok_bind]
  obtain ⟨a, b, M, Y', hl, ha, hb, hor, hM, hY', hmer⟩ := tandemLoop_ok lt P A B S Q T hPQ
    ((P ++ A ++ B ++ S).length + 1) 0 0 [] Y (Nat.zero_le _) (Nat.zero_le _)
    (by simp only [List.length_append]; omega) rfl (by omega) (by simp)
  simp only [Nat.add_zero, List.append_nil] at hl
  rw [hl, Outcome.ok_bind]
  exact tandemRest_ok lt P A B S Q T M Y' hPQ ha hb hor hM hY' hmer

theorem leP_sorted {lt : α → α → Bool} (hlt : ∀ a b, lt a b = decide (a < b)) {A B : List (α × Int)}
    (hA : A.Pairwise fun a b => a.1 ≤ b.1) (hB : B.Pairwise fun a b => a.1 ≤ b.1) :
    (mergeL (leP lt) A B).Pairwise fun a b => a.1 ≤ b.1 := by
  have hle : ∀ x y, leP lt x y = true ↔ x.1 ≤ y.1 := by
    intro x y
    simp only [leP, hlt, Bool.or_eq_true, decide_eq_true_eq]
    exact le_iff_lt_or_eq.symm
  induction A generalizing B with
  | nil => simpa using hB
  | cons a A ihA =>
    induction B with
    | nil => simpa using hA
    | cons b B ihB =>
      rw [mergeL_cons]
      have hA' := List.pairwise_cons.1 hA
      have hB' := List.pairwise_cons.1 hB
      split
      · rename_i h
        rw [hle] at h
        refine List.Pairwise.cons ?_ (ihA hA'.2 hB)
        intro y hy
        have := (mergeL_perm (leP lt) A (b :: B)).mem_iff.1 hy
        rcases List.mem_append.1 this with h1 | h1
        · exact hA'.1 y h1
        · rcases List.mem_cons.1 h1 with rfl | h1
          · exact h
          · exact le_trans h (hB'.1 y h1)
      · rename_i h
        rw [hle] at h
        have h' : b.1 ≤ a.1 := le_of_lt (not_le.1 h)
        refine List.Pairwise.cons ?_ (ihB hB'.2)
        intro y hy
        have := (mergeL_perm (leP lt) (a :: A) B).mem_iff.1 hy
        rcases List.mem_append.1 this with h1 | h1
        · rcases List.mem_cons.1 h1 with rfl | h1
          · exact h'
          · exact le_trans h' (hA'.1 y h1)
        · exact hB'.1 y h1

/-! ## The recursion -/

theorem blockyRec_ok {lt : α → α → Bool} (hlt : ∀ a b, lt a b = decide (a < b)) (J : List Nat) :
    ∀ (fuel : Nat) (A X B : List (List (α × Int))) (P S Q T : List (α × Int)),
      X ≠ [] → X.length ≤ fuel → P.length = size A → Q.length = size A →
      (∀ l ∈ X, l.Pairwise fun a b => a.1 ≤ b.1) →
      ∃ Y Z, blockyRec lt (offs 0 (A ++ X ++ B) ++ J) fuel (P ++ X.flatten ++ S)
          (Q ++ X.flatten ++ T) A.length X.length = .ok (P ++ Y ++ S, Q ++ Z ++ T) ∧
        Y.length = X.flatten.length ∧ Z.Perm X.flatten ∧ Z.Pairwise fun a b => a.1 ≤ b.1 := by
  intro fuel
  induction fuel with
  | zero =>
    intro A X B P S Q T hne hf
    exact absurd (List.eq_nil_of_length_eq_zero (by omega)) hne
  | succ fuel ih =>
    intro A X B P S Q T hne hf hP hQ hs
    unfold blockyRec
    by_cases h1 : X.length = 1
    · rw [if_pos h1]
      obtain ⟨l, rfl⟩ := List.length_eq_one_iff.1 h1
      exact ⟨_, _, rfl, rfl, List.Perm.refl _, by simpa using hs l (by simp)⟩
    · rw [if_neg h1]
      have hpos := List.length_pos_of_ne_nil hne
      -- the two halves
      obtain ⟨X1, X2, rfl, hX1⟩ : ∃ X1 X2, X = X1 ++ X2 ∧ X1.length = X.length / 2 :=
        ⟨X.take (X.length / 2), X.drop (X.length / 2), (List.take_append_drop _ _).symm,
          by rw [List.length_take]; omega⟩
      have hl : (X1 ++ X2).length = X1.length + X2.length := List.length_append
      have e2 : (X1 ++ X2).length - (X1 ++ X2).length / 2 = X2.length := by omega
      have h1ne : X1 ≠ [] := by
        intro h; have h0 : X1.length = 0 := by rw [h]; rfl
        omega
      have h2ne : X2 ≠ [] := by
        intro h; have h0 : X2.length = 0 := by rw [h]; rfl
        omega
      have p1 := List.length_pos_of_ne_nil h1ne
      have p2 := List.length_pos_of_ne_nil h2ne
      simp only [← hX1] at e2 ⊢
      rw [e2]
      have a1 : P ++ (X1 ++ X2).flatten ++ S = P ++ X1.flatten ++ (X2.flatten ++ S) := by
        rw [List.flatten_append]; asm
      have a2 : Q ++ (X1 ++ X2).flatten ++ T = Q ++ X1.flatten ++ (X2.flatten ++ T) := by
        rw [List.flatten_append]; asm
      obtain ⟨Y1, Z1, hr1, hY1, hZ1, hZ1s⟩ := ih A X1 (X2 ++ B) Q (X2.flatten ++ T) P
        (X2.flatten ++ S) h1ne (by omega) hQ hP (fun l hl => hs l (by simp [hl]))
      have hlv : offs 0 (A ++ X1 ++ (X2 ++ B)) = offs 0 (A ++ (X1 ++ X2) ++ B) := by
        congr 1; asm
      rw [hlv] at hr1
      rw [a1, a2, hr1, Outcome.ok_bind]
      simp only []
      have b1 : Q ++ Y1 ++ (X2.flatten ++ T) = (Q ++ Y1) ++ X2.flatten ++ T := by asm
      have b2 : P ++ Z1 ++ (X2.flatten ++ S) = (P ++ Z1) ++ X2.flatten ++ S := by asm
      obtain ⟨Y2, Z2, hr2, hY2, hZ2, hZ2s⟩ := ih (A ++ X1) X2 B (Q ++ Y1) T (P ++ Z1) S h2ne
        (by omega) (by simp [hQ, hY1, size]) (by simp [hP, hZ1.length_eq, size])
        (fun l hl => hs l (by simp [hl]))
      have hlv2 : offs 0 (A ++ X1 ++ X2 ++ B) = offs 0 (A ++ (X1 ++ X2) ++ B) := by
        congr 1; asm
      rw [hlv2, List.length_append] at hr2
      rw [b1, b2, hr2, Outcome.ok_bind]
      simp only []
      have c1 : P ++ Z1 ++ Z2 ++ S = P ++ Z1 ++ Z2 ++ S := rfl
      have c2 : Q ++ Y1 ++ Y2 ++ T = Q ++ (Y1 ++ Y2) ++ T := by asm
      have hb : ∀ i (C D : List (List (α × Int))), A ++ (X1 ++ X2) ++ B = C ++ D → i = C.length →
          rd (offs 0 (A ++ (X1 ++ X2) ++ B) ++ J) i = .ok (size C) := by
        intro i C D hCD hi
        apply rd_ok
        rw [List.getElem?_append_left (by rw [offs_length, hCD]; simp; omega), hCD,
          offs_get _ _ (by simp; omega), hi, List.take_left' rfl]
        simp
      have szA : size A = P.length := hP.symm
      have sz1 : size (A ++ X1) = P.length + Z1.length := by
        rw [size_append, szA, hZ1.length_eq]; rfl
      have sz2 : size (A ++ X1 ++ X2) = P.length + Z1.length + Z2.length := by
        rw [size_append, sz1, hZ2.length_eq]; rfl
      have d1 := hb A.length A (X1 ++ X2 ++ B) (by asm) rfl
      have d2 := hb (A.length + X1.length) (A ++ X1) (X2 ++ B) (by asm) (by simp)
      have d3 := hb (A.length + X1.length + X2.length) (A ++ X1 ++ X2) B (by asm)
        (by simp [Nat.add_assoc])
      rw [szA] at d1
      rw [sz1] at d2
      rw [sz2] at d3
      rw [c2, tandemMerge_ok lt P Z1 Z2 S Q (Y1 ++ Y2) T (by rw [hP, hQ])
        (by simp [hY1, hY2, hZ1.length_eq, hZ2.length_eq]) d1 d2 d2 d3]
      refine ⟨Z1 ++ Z2, mergeL (leP lt) Z1 Z2, ?_, ?_, ?_, leP_sorted hlt hZ1s hZ2s⟩
      · simp only [Outcome.ok_bind]
        asm
      · simp [hZ1.length_eq, hZ2.length_eq]
      · refine (mergeL_perm _ _ _).trans ?_
        rw [List.flatten_append]
        exact hZ1.append hZ2

theorem blocky_ok {lt : α → α → Bool} (hlt : ∀ a b, lt a b = decide (a < b)) (J : List Nat)
    {X : List (List (α × Int))} (hne : X ≠ []) (hs : ∀ l ∈ X, l.Pairwise fun a b => a.1 ≤ b.1) :
    ∃ Z, blockyTandemMergeSort lt X.flatten (offs 0 X ++ J) X.length = .ok Z ∧
      Z.Perm X.flatten ∧ Z.Pairwise fun a b => a.1 ≤ b.1 := by
  unfold blockyTandemMergeSort
  by_cases h1 : X.length = 1
  · rw [if_pos h1]
    obtain ⟨l, rfl⟩ := List.length_eq_one_iff.1 h1
    exact ⟨_, rfl, List.Perm.refl _, by simpa using hs l (by simp)⟩
  · rw [if_neg h1]
    obtain ⟨Y, Z, hr, _, hZ, hZs⟩ := blockyRec_ok hlt J (X.length + 1) [] X [] [] [] [] [] hne
      (by omega) rfl rfl hs
    simp only [List.nil_append, List.append_nil, List.length_nil] at hr
    rw [hr]
    exact ⟨Z, rfl, hZ, hZs⟩

/-! ## Filling the arrays -/

/-- The levels with their weights; the first one has weight `w`. -/
def wl (w : Int) : List (List α) → List (List (α × Int))
  | [] => []
  | l :: ls => l.map (fun x => (x, w)) :: wl (w * 2) ls

/-- The weights, in the order of the levels. -/
def ws (w : Int) : List (List α) → List Int
  | [] => []
  | l :: ls => List.replicate l.length w ++ ws (w * 2) ls

theorem wl_length (w : Int) (Ls : List (List α)) : (wl w Ls).length = Ls.length := by
  induction Ls generalizing w with
  | nil => rfl
  | cons l ls ih => simp [wl, ih]

theorem wl_append (w : Int) (A B : List (List α)) :
    wl w (A ++ B) = wl w A ++ wl (w * 2 ^ A.length) B := by
  induction A generalizing w with
  | nil => simp [wl]
  | cons l ls ih =>
    simp only [List.cons_append, wl, ih, List.length_cons]
    congr 3
    ring

theorem ws_append (w : Int) (A B : List (List α)) :
    ws w (A ++ B) = ws w A ++ ws (w * 2 ^ A.length) B := by
  induction A generalizing w with
  | nil => simp [ws]
  | cons l ls ih =>
    simp only [List.cons_append, ws, ih, List.length_cons, List.append_assoc]
    congr 3
    ring

theorem ws_length (w : Int) (A : List (List α)) : (ws w A).length = size A := by
  induction A generalizing w with
  | nil => rfl
  | cons l ls ih => simp [ws, ih]

theorem zip_ws (w : Int) (Ls : List (List α)) : Ls.flatten.zip (ws w Ls) = (wl w Ls).flatten := by
  induction Ls generalizing w with
  | nil => rfl
  | cons l ls ih =>
    simp only [List.flatten_cons, ws, wl]
    rw [List.zip_append (by simp), ih]
    congr 1
    clear ih
    induction l with
    | nil => rfl
    | cons x l ih => simp [List.replicate_succ, ih]

theorem size_wl (w : Int) (Ls : List (List α)) : size (wl w Ls) = size Ls := by
  induction Ls generalizing w with
  | nil => rfl
  | cons l ls ih => simp [wl, ih]

/-- Levels that are not empty. -/
def full {β : Type} (X : List (List β)) : List (List β) := X.filter fun l => l.length != 0

theorem full_flatten {β : Type} (X : List (List β)) : (full X).flatten = X.flatten := by
  induction X with
  | nil => rfl
  | cons l ls ih =>
    unfold full at ih ⊢
    rw [List.filter_cons]
    by_cases h : l.length = 0
    · rw [if_neg (by simp [h]), ih]
      simp [List.eq_nil_of_length_eq_zero h]
    · rw [if_pos (by simp [h]), List.flatten_cons, List.flatten_cons, ih]

theorem full_append {β : Type} (X Y : List (List β)) : full (X ++ Y) = full X ++ full Y := by
  simp [full]

theorem size_full {β : Type} (X : List (List β)) : size (full X) = size X := by
  unfold size; rw [full_flatten]

theorem full_length {β : Type} (X : List (List β)) : (full X).length ≤ X.length :=
  List.length_filter_le _ _

theorem fillWeights_ok (A : List Int) (w : Int) (m r : Nat) {p : Nat} (hp : p = A.length) :
    (List.range m).foldlM (fun cw i => wr cw (p + i) w) (A ++ List.replicate (m + r) 0) =
      .ok (A ++ List.replicate m w ++ List.replicate r 0) := by
  subst hp
  have hH := range_fold (n := m) (f := fun cw i => wr cw (A.length + i) w)
    (fun i st => st = A ++ List.replicate i w ++ List.replicate (m - i + r) 0)
    (s0 := A ++ List.replicate (m + r) 0) (by simp) ?_
  · obtain ⟨st, h1, rfl⟩ := hH
    rw [h1]; simp
  · rintro i st hi rfl
    refine ⟨_, ?_, rfl⟩
    have e : m - i + r = (m - (i + 1) + r) + 1 := by omega
    rw [e, List.replicate_succ (n := m - (i + 1) + r), wr_mid _ _ _ _ (by simp),
      List.replicate_succ' (n := i)]
    asm

theorem offs_snoc {β : Type} (g : Nat) (X : List (List β)) (l : List β) :
    offs g (X ++ [l]) = offs g X ++ [g + size X + l.length] := by
  rw [offs_append]
  simp only [offs]
  rw [offs_eq]
  asm

/-- Two consecutive writes that append a level. -/
theorem writeLevels_ok {β : Type} (X : List (List β)) (l : List β) (m : Nat) {d : Nat}
    (hd : d = X.length) :
    (do
      let ml ← wr (offs 0 X ++ List.replicate (m + 1) 0) d (size X)
      wr ml (d + 1) (size X + l.length)) =
    Outcome.ok (offs 0 (X ++ [l]) ++ List.replicate m 0) := by
  subst hd
  rw [offs_eq 0 X]
  have e : starts 0 X ++ [0 + size X] ++ List.replicate (m + 1) 0 =
      starts 0 X ++ size X :: List.replicate (m + 1) 0 := by simp
  rw [e, wr_mid _ _ _ _ (by rw [starts_length]), Outcome.ok_bind]
  have e2 : starts 0 X ++ size X :: List.replicate (m + 1) 0 =
      (starts 0 X ++ [size X]) ++ 0 :: List.replicate m 0 := by
    rw [List.replicate_succ]; asm
  rw [e2, wr_mid _ _ _ _ (by simp [starts_length]), offs_snoc, offs_eq]
  simp

theorem populateLoop_ok (g : Nat) (Ls : List (List α)) :
    (List.range Ls.length).foldlM (populateRound (offs g Ls) g)
      ⟨List.replicate (size Ls) 0, List.replicate (Ls.length + 1) 0, 0, 1⟩ =
    .ok ⟨ws 1 Ls, offs 0 (full (wl 1 Ls)) ++ List.replicate (Ls.length - (full (wl 1 Ls)).length) 0,
      (full (wl 1 Ls)).length, 2 ^ Ls.length⟩ := by
  have hH := range_fold (n := Ls.length) (f := populateRound (offs g Ls) g)
    (fun h st => st = ⟨ws 1 (Ls.take h) ++ List.replicate (size (Ls.drop h)) 0,
      offs 0 (full (wl 1 (Ls.take h))) ++
        List.replicate (Ls.length - (full (wl 1 (Ls.take h))).length) 0,
      (full (wl 1 (Ls.take h))).length, 2 ^ h⟩)
    (s0 := ⟨List.replicate (size Ls) 0, List.replicate (Ls.length + 1) 0, 0, 1⟩) ?_ ?_
  · obtain ⟨st, h1, rfl⟩ := hH
    rw [h1]
    simp
  · simp [ws, wl, full, offs, List.replicate_succ]
  · rintro h st hh rfl
    have ht : Ls.take (h + 1) = Ls.take h ++ [Ls[h]] := by
      rw [List.take_add_one, List.getElem?_eq_getElem hh]; rfl
    have hd : Ls.drop h = Ls[h] :: Ls.drop (h + 1) := drop_cons_of hh
    have hlen : (Ls.take h).length = h := by rw [List.length_take]; omega
    have hfl : (full (wl (1 : Int) (Ls.take h))).length ≤ h := by
      have := full_length (wl (1 : Int) (Ls.take h))
      rw [wl_length, hlen] at this
      exact this
    unfold populateRound
    rw [rd_offs _ _ (by omega), Outcome.ok_bind, sub_ok (by omega), Outcome.ok_bind,
      rd_offs _ _ (by omega), Outcome.ok_bind, sub_ok (by omega), Outcome.ok_bind]
    have s1 : g + size (Ls.take h) - g = size (Ls.take h) := by omega
    have s2 : g + size (Ls.take (h + 1)) - g = size (Ls.take h) + Ls[h].length := by
      rw [ht, size_append]; simp
    rw [s1, s2]
    have hwl : wl (1 : Int) (Ls.take (h + 1)) =
        wl 1 (Ls.take h) ++ [Ls[h].map fun x => (x, (2 : Int) ^ h)] := by
      rw [ht, wl_append, hlen]; simp [wl]
    by_cases h0 : Ls[h].length = 0
    · rw [if_neg (by omega)]
      have hnil : Ls[h] = [] := List.eq_nil_of_length_eq_zero h0
      refine ⟨_, rfl, ?_⟩
      rw [hwl, full_append]
      simp only [hnil, List.map_nil, full, List.filter_cons, List.length_nil, List.filter_nil,
        bne_self_eq_false, Bool.false_eq_true, if_false, List.append_nil]
      rw [hd, ht, ws_append, hnil]
      simp [ws, pow_succ]
    · rw [if_pos (by omega)]
      simp only []
      have f1 : size (Ls.take h) + Ls[h].length - size (Ls.take h) = Ls[h].length := by omega
      rw [f1, hd, size_cons, fillWeights_ok _ _ _ _ (by rw [ws_length]), Outcome.ok_bind]
      obtain ⟨m, hm⟩ : ∃ m, Ls.length - (full (wl (1 : Int) (Ls.take h))).length = m + 1 :=
        ⟨Ls.length - (full (wl (1 : Int) (Ls.take h))).length - 1, by omega⟩
      have hw := writeLevels_ok (full (wl (1 : Int) (Ls.take h)))
        (Ls[h].map fun x => (x, (2 : Int) ^ h)) m rfl
      rw [size_full, size_wl, List.length_map] at hw
      obtain ⟨ml, hw1, hw2⟩ := Outcome.bind_eq_ok.1 hw
      rw [hm, hw1, Outcome.ok_bind, hw2, Outcome.ok_bind]
      refine ⟨_, rfl, ?_⟩
      have hfull : full (wl (1 : Int) (Ls.take (h + 1))) =
          full (wl 1 (Ls.take h)) ++ [Ls[h].map fun x => (x, (2 : Int) ^ h)] := by
        rw [hwl, full_append]
        congr 1
        simp [full, h0]
      rw [hfull, ht, ws_append, hlen]
      have hm2 : Ls.length - (full (wl (1 : Int) (Ls.take h)) ++
          [Ls[h].map fun x => (x, (2 : Int) ^ h)]).length = m := by
        rw [List.length_append, List.length_singleton]; omega
      rw [hm2]
      simp [ws, pow_succ]

/-! ## The weights -/

theorem wsum_map (p : α → Bool) (w : Int) (l : List α) :
    wsum p (l.map fun x => (x, w)) = w * (l.countP p : Nat) := by
  induction l with
  | nil => simp
  | cons x l ih =>
    rw [List.map_cons, wsum_cons, ih, List.countP_cons]
    split
    · push_cast; ring
    · simp

theorem wsum_wl (p : α → Bool) (w : Int) (Ls : List (List α)) :
    wsum p (wl w Ls).flatten = w * (rk p Ls : Nat) := by
  induction Ls generalizing w with
  | nil => simp [wl, rk]
  | cons l ls ih =>
    simp only [wl, List.flatten_cons, rk]
    rw [wsum_append, ih, wsum_map]
    push_cast
    ring

theorem wl_pos {w : Int} (hw : 0 < w) (Ls : List (List α)) : ∀ z ∈ (wl w Ls).flatten, 0 < z.2 := by
  induction Ls generalizing w with
  | nil => simp [wl]
  | cons l ls ih =>
    intro z hz
    simp only [wl, List.flatten_cons, List.mem_append, List.mem_map] at hz
    rcases hz with ⟨x, _, rfl⟩ | hz
    · exact hw
    · exact ih (by omega) z hz

theorem wl_fst (w : Int) (Ls : List (List α)) : (wl w Ls).flatten.map Prod.fst = Ls.flatten := by
  induction Ls generalizing w with
  | nil => rfl
  | cons l ls ih => simp [wl, ih, Function.comp_def]

theorem wl_sorted (w : Int) {Ls : List (List α)} (h : ∀ l ∈ Ls, l.Pairwise (· ≤ ·)) :
    ∀ l ∈ wl w Ls, l.Pairwise fun a b => a.1 ≤ b.1 := by
  induction Ls generalizing w with
  | nil => simp [wl]
  | cons l ls ih =>
    intro x hx
    simp only [wl, List.mem_cons] at hx
    rcases hx with rfl | hx
    · rw [List.pairwise_map]; exact h l (by simp)
    · exact ih _ (fun l hl => h l (by simp [hl])) x hx

theorem convertToCumulative_eq (a : Int) (l : List Int) : convertToCumulative a l = cums a l := by
  induction l generalizing a with
  | nil => rfl
  | cons w ws ih => simp [convertToCumulative, cums, ih]

/-- The arrays of the view of sorted levels. -/
theorem populate_ok {lt : α → α → Bool} (hlt : ∀ a b, lt a b = decide (a < b)) (zero : α) (g : Nat)
    (G : List α) (hG : G.length = g) {Ls : List (List α)} (hsz : size Ls ≠ 0)
    (hs : ∀ l ∈ Ls, l.Pairwise (· ≤ ·)) :
    ∃ Z : List (α × Int), populateFromSketch lt zero (G ++ Ls.flatten) (offs g Ls) Ls.length (size Ls) =
        .ok (Z.map Prod.fst, cums 0 (Z.map Prod.snd)) ∧
      Z.Perm (wl 1 Ls).flatten ∧ Z.Pairwise fun a b => a.1 ≤ b.1 := by
  unfold populateFromSketch
  rw [rd_offs _ _ (Nat.zero_le _)]
  simp only [List.take_zero, size_nil, Nat.add_zero, Outcome.ok_bind]
  have hc := copyItems_ok [] (List.replicate (size Ls) zero) [] G Ls.flatten []
    (by simp [size])
  simp only [List.length_nil, List.nil_append, List.append_nil, hG] at hc
  have hc' : copyItems (List.replicate (size Ls) zero) 0 (G ++ Ls.flatten) g (size Ls) =
      .ok Ls.flatten := hc
  rw [hc', Outcome.ok_bind, populateLoop_ok, Outcome.ok_bind]
  have hne : full (wl (1 : Int) Ls) ≠ [] := by
    intro h
    have := size_full (wl (1 : Int) Ls)
    rw [h, size_wl] at this
    exact hsz this.symm
  obtain ⟨Z, hZ, hp, hZs⟩ := blocky_ok hlt
    (List.replicate (Ls.length - (full (wl (1 : Int) Ls)).length) 0) hne
    (fun l hl => wl_sorted 1 hs l (List.mem_filter.1 hl).1)
  rw [full_flatten] at hZ hp
  simp only [zip_ws]
  rw [hZ, Outcome.ok_bind, convertToCumulative_eq]
  exact ⟨Z, rfl, hp, hZs⟩

/-! ## The view of a sketch -/

/-- `Z` lists the retained items of `s` with their weights in order. -/
structure ViewOf (s : Sketch α) (v : SView α) (Z : List (α × Int)) : Prop where
  quantiles : v.quantiles = Z.map Prod.fst
  cumWeights : v.cumWeights = cums 0 (Z.map Prod.snd)
  totalN : v.totalN = s.n
  minItem : v.minItem = s.minItem
  maxItem : v.maxItem = s.maxItem
  wf : Wf Z
  pos : ∀ z ∈ Z, 0 < z.2
  weight : ∀ p, wsum p Z = weightOf p s
  mem : ∀ x, (∃ z ∈ Z, z.1 = x) ↔ ∃ h < s.numLevels, x ∈ levelItems s h
  ne : Z ≠ []
  many : 2 ≤ s.n → 2 ≤ Z.length
  top : ∀ z ∈ Z, z.2 ≤ 2 ^ (s.numLevels - 1)

theorem wl_le (w : Int) (hw : 0 ≤ w) (Ls : List (List α)) :
    ∀ z ∈ (wl w Ls).flatten, z.2 ≤ w * 2 ^ (Ls.length - 1) := by
  induction Ls generalizing w with
  | nil => simp [wl]
  | cons l ls ih =>
    intro z hz
    simp only [wl, List.flatten_cons, List.mem_append, List.mem_map] at hz
    rcases hz with ⟨x, _, rfl⟩ | hz
    · have : (1 : Int) ≤ 2 ^ ((l :: ls).length - 1) := one_le_pow₀ (by omega)
      simpa using le_mul_of_one_le_right hw this
    · have h1 := ih (w * 2) (by omega) z hz
      cases ls with
      | nil => simp [wl] at hz
      | cons l2 ls =>
        simp only [List.length_cons, Nat.add_sub_cancel] at h1 ⊢
        rw [pow_succ]
        linarith

theorem newSortedView_ok {env : Env α} (hlt : ∀ a b, env.lt a b = decide (a < b)) (hso : Sorts env)
    {s : Sketch α} {a : Abs α} {K : Prop} {S : List α} (hr : Rep s a) (hinv : Inv env K S a)
    (hn : s.n ≠ 0) : ∃ v Z, newSortedView env s = .ok v ∧ ViewOf s v Z := by
  have ho : IsOrd env.lt := by
    constructor
    · intro x y h
      rw [hlt] at h ⊢
      simp only [decide_eq_true_eq, decide_eq_false_iff_not] at h ⊢
      exact not_lt.2 (le_of_lt h)
    · intro x y z h1 h2
      rw [hlt] at h1 h2 ⊢
      simp only [decide_eq_false_iff_not, not_lt] at h1 h2 ⊢
      exact le_trans h1 h2
  have hsrt := hinv.srt ho hso
  have hS : ∀ l : List α, Sorted env.lt l → l.Pairwise (· ≤ ·) := by
    intro l hl
    refine hl.imp ?_
    intro x y h
    rw [hlt] at h
    simpa using h
  obtain ⟨G, hG, hit⟩ := hr.items
  have hne := hinv.core.ne
  obtain ⟨l0, ls, hLs⟩ : ∃ l0 ls, a.Ls = l0 :: ls := by
    cases h : a.Ls with
    | nil => exact absurd h hne
    | cons l0 ls => exact ⟨l0, ls, rfl⟩
  -- level zero after sorting
  obtain ⟨l0', hperm, hsorted, hsrc⟩ : ∃ l0', l0'.Perm l0 ∧ l0'.Pairwise (· ≤ ·) ∧
      viewSource env s = .ok (G ++ (l0' :: ls).flatten) := by
    unfold viewSource
    have hta : getTotalItemsArray env s = s.items := by simp [getTotalItemsArray, hn]
    rw [hta]
    by_cases hz : s.isLevelZeroSorted = true
    · refine ⟨l0, List.Perm.refl _, ?_, ?_⟩
      · exact hS _ (hsrt.zsorted (by rw [← hr.zs]; exact hz) l0 (by rw [hLs]; rfl))
      · simp only [if_pos hz]
        rw [hit, hLs]
    · refine ⟨env.sortSlice l0, hso.permSlice l0, hS _ (hso.sortedSlice l0), ?_⟩
      simp only [if_neg hz]
      rw [hr.levels, rd_offs _ _ (Nat.zero_le _), Outcome.ok_bind,
        rd_offs _ _ (by rw [hLs]; simp), Outcome.ok_bind, hLs]
      simp only [List.take_zero, size_nil, Nat.add_zero, List.take_succ_cons, size_cons]
      rw [hit, hLs, if_pos (by simp [hG])]
      congr 1
      simp only [List.flatten_cons]
      have e1 : (G ++ (l0 ++ ls.flatten)).take a.free = G := List.take_left' hG
      have e2 : (G ++ (l0 ++ ls.flatten)).take (a.free + l0.length) = G ++ l0 := by
        rw [← List.append_assoc]; exact List.take_left' (by simp [hG])
      have e3 : (G ++ (l0 ++ ls.flatten)).drop (a.free + l0.length) = ls.flatten := by
        rw [← List.append_assoc]; exact List.drop_left' (by simp [hG])
      rw [e1, e2, e3, List.drop_left' hG]
      asm
  have hoffs : offs a.free a.Ls = offs a.free (l0' :: ls) := by
    rw [hLs]; simp [offs, hperm.length_eq]
  have hsize : size a.Ls = size (l0' :: ls) := by
    rw [hLs]; simp [hperm.length_eq]
  have hrk : ∀ p, rk p a.Ls = rk p (l0' :: ls) := by
    intro p
    rw [hLs]; simp only [rk]; rw [hperm.countP_eq]
  have hwt : wt a.Ls = s.n := by rw [hinv.core.weight, hr.n]
  have hsz : size (l0' :: ls) ≠ 0 := by
    intro h
    rw [← hsize] at h
    have h1 : ∀ Ls : List (List α), size Ls = 0 → wt Ls = 0 := by
      intro Ls
      induction Ls with
      | nil => intro _; rfl
      | cons l ls ih =>
        intro hh
        rw [size_cons] at hh
        have := ih (by omega)
        unfold wt at this ⊢
        simp only [rk]
        rw [this]
        simp only [List.countP_true]
        omega
    exact hn (by rw [← hwt, h1 _ h])
  obtain ⟨Z, hpop, hZp, hZs⟩ := populate_ok hlt env.zero a.free G hG hsz
    (by
      intro l hl
      rcases List.mem_cons.1 hl with rfl | hl
      · exact hsorted
      · exact hS _ (hsrt.sorted l (by rw [hLs]; exact hl)))
  have hposZ : ∀ z ∈ Z, 0 < z.2 := fun z hz => wl_pos (by omega) _ z (hZp.mem_iff.1 hz)
  refine ⟨⟨Z.map Prod.fst, cums 0 (Z.map Prod.snd), s.n, s.maxItem, s.minItem⟩, Z, ?_, ?_⟩
  · unfold newSortedView
    have hemp : isEmpty s = false := by simp [isEmpty, hn]
    simp only [hemp, Bool.false_eq_true, if_false, getMaxItem, getMinItem, Outcome.ok_bind]
    rw [hsrc, Outcome.ok_bind, hr.levels, hr.numLevels, rd_offs _ _ (Nat.le_refl _),
      Outcome.ok_bind, rd_offs _ _ (Nat.zero_le _), Outcome.ok_bind, List.take_length,
      sub_ok (by simp), Outcome.ok_bind]
    have e : a.free + size a.Ls - (a.free + size (List.take 0 a.Ls)) = size (l0' :: ls) := by
      rw [hsize]; simp
    have e2 : a.Ls.length = (l0' :: ls).length := by rw [hLs]; simp
    rw [e, hoffs, e2, hpop]
    rfl
  · refine ⟨rfl, rfl, rfl, rfl, rfl, ⟨hZs, fun z hz => le_of_lt (hposZ z hz)⟩, hposZ, ?_, ?_, ?_, ?_, ?_⟩
    · intro p
      rw [wsum_perm p hZp, wsum_wl, hr.weightOf, hrk]
      simp
    · intro x
      have h1 : (∃ z ∈ Z, z.1 = x) ↔ x ∈ (l0' :: ls).flatten := by
        rw [← wl_fst 1 (l0' :: ls), ← (hZp.map Prod.fst).mem_iff, List.mem_map]
      have h2 : x ∈ (l0' :: ls).flatten ↔ x ∈ a.Ls.flatten := by
        rw [hLs]; simp only [List.flatten_cons, List.mem_append]; rw [hperm.mem_iff]
      rw [h1, h2, List.mem_flatten, hr.numLevels]
      constructor
      · rintro ⟨l, hl, hx⟩
        obtain ⟨h, hh, rfl⟩ := List.mem_iff_getElem.1 hl
        refine ⟨h, hh, ?_⟩
        rw [hr.levelItems hh, List.getD_eq_getElem?_getD, List.getElem?_eq_getElem hh]
        exact hx
      · rintro ⟨h, hh, hx⟩
        rw [hr.levelItems hh, List.getD_eq_getElem?_getD, List.getElem?_eq_getElem hh] at hx
        exact ⟨_, List.getElem_mem hh, hx⟩
    · intro hZ
      rw [hZ] at hZp
      have := hZp.length_eq
      have e : (wl (1 : Int) (l0' :: ls)).flatten.length = size (l0' :: ls) := size_wl 1 _
      rw [e] at this
      exact hsz this.symm
    · intro h2
      have e : (wl (1 : Int) (l0' :: ls)).flatten.length = size (l0' :: ls) := size_wl 1 _
      rw [hZp.length_eq, e, ← hsize]
      exact hinv.many (by rw [← hr.n]; exact h2)
    · intro z hz
      have := wl_le 1 (by omega) (l0' :: ls) z (hZp.mem_iff.1 hz)
      rw [hr.numLevels, hLs]
      simpa using this

end Verif.Kll
