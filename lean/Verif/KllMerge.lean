import Verif.KllGc

/-!
# `Merge` on the list of levels
-/

namespace Verif.Kll

open Verif

variable {α : Type}

/-! ## Reading the levels of a sketch -/

theorem currentLevelSizeItems_ok (f : Nat) (Ls : List (List α)) (lvl : Nat) :
    currentLevelSizeItems lvl Ls.length (offs f Ls) = .ok (pop Ls lvl) := by
  unfold currentLevelSizeItems
  by_cases h : Ls.length ≤ lvl
  · rw [if_pos h]
    unfold pop
    rw [List.getD_eq_getElem?_getD, List.getElem?_eq_none h]; rfl
  · rw [if_neg h, rd_offs _ _ (by omega), Outcome.ok_bind, rd_offs _ _ (by omega), Outcome.ok_bind]
    have := popsBelow_succ Ls (c := lvl) (by omega)
    unfold popsBelow at this
    rw [this, sub_ok (by omega)]
    congr 1; omega

/-- Level `lvl` in the flat array. -/
theorem level_split (G : List α) (Ls : List (List α)) {lvl : Nat} (h : lvl < Ls.length) :
    ∃ Q T, G ++ Ls.flatten = Q ++ Ls.getD lvl [] ++ T ∧ Q.length = G.length + size (Ls.take lvl) := by
  refine ⟨G ++ (Ls.take lvl).flatten, (Ls.drop (lvl + 1)).flatten, ?_, ?_⟩
  · rw [List.getD_eq_getElem?_getD, List.getElem?_eq_getElem h]
    have e : Ls.flatten = (Ls.take lvl).flatten ++ (Ls.drop lvl).flatten := by
      rw [← List.flatten_append, List.take_append_drop]
    have e2 : (Ls.drop lvl).flatten = Ls[lvl] ++ (Ls.drop (lvl + 1)).flatten := by
      rw [drop_cons_of h, List.flatten_cons]
    rw [e, e2]
    simp
  · rw [List.length_append]; rfl

/-- One level of `populateItemWorkArrays`. -/
theorem populateLevel_ok {env : Env α} (fa : Nat) (A : List (List α)) (Ga : List α)
    (hGa : Ga.length = fa) (fb : Nat) (B : List (List α)) (Gb : List α) (hGb : Gb.length = fb)
    (Jt : List (List α)) (Y S : List α) (z : Nat) (Z : List Nat)
    (hY : Y.length = pop A Jt.length + pop B Jt.length) :
    populateLevel env A.length (offs fa A) (Ga ++ A.flatten) B.length (offs fb B) (Gb ++ B.flatten)
      (Jt.flatten ++ Y ++ S, offs 0 Jt ++ z :: Z) Jt.length =
    .ok ((Jt ++ [mergeL env.lt (A.getD Jt.length []) (B.getD Jt.length [])]).flatten ++ S,
      offs 0 (Jt ++ [mergeL env.lt (A.getD Jt.length []) (B.getD Jt.length [])]) ++ Z) := by
  unfold populateLevel
  set lvl := Jt.length with hlvl
  set a := A.getD lvl [] with ha
  set b := B.getD lvl [] with hb
  have hpa : pop A lvl = a.length := rfl
  have hpb : pop B lvl = b.length := rfl
  have hla : lvl < A.length ∨ a = [] := by
    by_cases h : lvl < A.length
    · exact Or.inl h
    · right
      rw [ha, List.getD_eq_getElem?_getD, List.getElem?_eq_none (by omega)]; rfl
  have hlb : lvl < B.length ∨ b = [] := by
    by_cases h : lvl < B.length
    · exact Or.inl h
    · right
      rw [hb, List.getD_eq_getElem?_getD, List.getElem?_eq_none (by omega)]; rfl
  rw [currentLevelSizeItems_ok, Outcome.ok_bind, currentLevelSizeItems_ok, Outcome.ok_bind]
  have r0 : rd (offs 0 Jt ++ z :: Z) lvl = .ok (size Jt) := by
    rw [offs_eq]
    rw [show starts 0 Jt ++ [0 + size Jt] ++ z :: Z = starts 0 Jt ++ (0 + size Jt) :: z :: Z by asm,
      rd_mid _ _ _ (by rw [starts_length])]
    simp
  rw [r0, Outcome.ok_bind]
  have w0 : wr (offs 0 Jt ++ z :: Z) (lvl + 1) (size Jt + pop A lvl + pop B lvl) =
      .ok (offs 0 (Jt ++ [mergeL env.lt a b]) ++ Z) :=
    offs_zero_append Jt (mergeL env.lt a b) z Z rfl _ (by
      rw [mergeL_length, hpa, hpb]; omega)
  rw [w0, Outcome.ok_bind, hpa, hpb]
  have hJl : Jt.flatten.length = size Jt := rfl
  have hfl : ∀ X, (Jt ++ [X]).flatten ++ S = Jt.flatten ++ X ++ S := by intro X; simp
  rw [hfl]
  rw [hpa, hpb] at hY
  by_cases ha0 : a = []
  · by_cases hb0 : b = []
    · rw [if_neg (by simp [ha0]), if_neg (by simp [hb0]), if_neg (by simp [ha0])]
      rw [ha0, hb0] at hY
      have : Y = [] := List.eq_nil_of_length_eq_zero (by simpa using hY)
      simp [ha0, hb0, this]
    · have hbl : 0 < b.length := List.length_pos_of_ne_nil hb0
      rw [if_neg (by simp [ha0]), if_pos (by simp [ha0]; exact hbl)]
      have hlt : lvl < B.length := by
        rcases hlb with h | h
        · exact h
        · exact absurd h hb0
      obtain ⟨Q, T, e, hQ⟩ := level_split Gb B hlt
      rw [rd_offs _ _ (by omega), Outcome.ok_bind, e]
      have := copyItems_ok Jt.flatten Y S Q b T (by rw [hY, ha0]; simp)
      rw [hJl, hQ, hGb] at this
      rw [this, Outcome.ok_bind, ha0]
      simp
  · have hal : 0 < a.length := List.length_pos_of_ne_nil ha0
    have hlt : lvl < A.length := by
      rcases hla with h | h
      · exact h
      · exact absurd h ha0
    obtain ⟨Q, T, e, hQ⟩ := level_split Ga A hlt
    by_cases hb0 : b = []
    · rw [if_pos (by simp [hb0]; exact hal)]
      rw [rd_offs _ _ (by omega), Outcome.ok_bind, e]
      have := copyItems_ok Jt.flatten Y S Q a T (by rw [hY, hb0]; simp)
      rw [hJl, hQ, hGa] at this
      rw [this, Outcome.ok_bind, hb0]
      simp
    · have hbl : 0 < b.length := List.length_pos_of_ne_nil hb0
      have hlt' : lvl < B.length := by
        rcases hlb with h | h
        · exact h
        · exact absurd h hb0
      obtain ⟨Q', T', e', hQ'⟩ := level_split Gb B hlt'
      rw [if_neg (by omega), if_neg (by omega), if_pos ⟨hal, hbl⟩,
        rd_offs _ _ (by omega), Outcome.ok_bind, rd_offs _ _ (by omega), Outcome.ok_bind, e, e']
      have := mergeSorted_copy env.lt Jt.flatten Y S Q a T Q' b T' hY
      rw [hJl, hQ, hGa, hQ', hGb] at this
      rw [this, Outcome.ok_bind]

theorem zipL_get (lt : α → α → Bool) (ms os : List (List α)) (i : Nat)
    (hi : i < max ms.length os.length) :
    (zipL lt ms os)[i]? = some (mergeL lt (ms.getD i []) (os.getD i [])) := by
  induction ms generalizing os i with
  | nil =>
    rw [zipL_nil_left]
    simp only [List.length_nil, Nat.zero_max] at hi
    rw [List.getElem?_eq_getElem hi]
    simp [List.getD_eq_getElem?_getD, hi]
  | cons m ms ih =>
    cases os with
    | nil =>
      rw [zipL_nil_right]
      have hi' : i < (m :: ms).length := by simpa using hi
      rw [List.getElem?_eq_getElem hi']
      simp only [List.getD_eq_getElem?_getD, List.getElem?_eq_getElem hi']
      simp
    | cons o os =>
      simp only [zipL]
      cases i with
      | zero => simp
      | succ i =>
        simp only [List.getElem?_cons_succ, List.length_cons] at hi ⊢
        rw [ih os i (by omega)]
        simp

theorem joinL_get {lt : α → α → Bool} {A B : List (List α)} (hA : A ≠ []) {i : Nat} (h0 : 0 < i)
    (hi : i < max A.length B.length) :
    (joinL lt A B)[i]? = some (mergeL lt (A.getD i []) (B.getD i [])) := by
  cases A with
  | nil => exact absurd rfl hA
  | cons m ms =>
    obtain ⟨j, rfl⟩ : ∃ j, i = j + 1 := ⟨i - 1, by omega⟩
    simp only [joinL, List.getElem?_cons_succ]
    rw [zipL_get]
    · cases B with
      | nil => simp
      | cons o os => simp
    · simp only [List.length_cons, List.length_tail] at hi ⊢
      omega

theorem size_joinL {lt : α → α → Bool} {A B : List (List α)} (hA : A ≠ []) :
    size (joinL lt A B) = size A + size B.tail := by
  cases A with
  | nil => exact absurd rfl hA
  | cons m ms => simp only [joinL, size_cons, size_zipL]; omega

theorem populateWorkArrays_ok {env : Env α} (fa : Nat) (A : List (List α)) (Ga : List α)
    (hGa : Ga.length = fa) (fb : Nat) (B : List (List α)) (Gb : List α) (hGb : Gb.length = fb)
    (hA : A ≠ []) {W N : Nat} (hN : N = size A + size B.tail) (hW : max A.length B.length + 1 ≤ W) :
    ∃ Z, populateWorkArrays env (List.replicate N env.zero) (List.replicate W 0)
      (max A.length B.length) A.length (offs fa A) (Ga ++ A.flatten) B.length (offs fb B)
      (Gb ++ B.flatten) = .ok ((joinL env.lt A B).flatten, offs 0 (joinL env.lt A B) ++ Z) ∧
      (offs 0 (joinL env.lt A B) ++ Z).length = W := by
  unfold populateWorkArrays
  have hAl : 0 < A.length := List.length_pos_of_ne_nil hA
  have hl := joinL_length (lt := env.lt) (os := B) hA
  have hsz := size_joinL (lt := env.lt) (B := B) hA
  set J := joinL env.lt A B with hJ
  have hJ0 : J.take 1 = [A.getD 0 []] := by
    rw [hJ]
    cases A with
    | nil => exact absurd rfl hA
    | cons m ms => simp [joinL]
  obtain ⟨W', rfl⟩ : ∃ W', W = W' + 2 := ⟨W - 2, by omega⟩
  have w0 : wr (List.replicate (W' + 2) 0) 0 0 = .ok (0 :: 0 :: List.replicate W' 0) := by
    unfold wr
    rw [if_pos (by simp)]; rfl
  rw [w0, Outcome.ok_bind, currentLevelSizeItems_ok, Outcome.ok_bind, rd_offs _ _ (by omega),
    Outcome.ok_bind]
  simp only [List.take_zero, size_nil, Nat.add_zero]
  obtain ⟨Q, T, e, hQ⟩ := level_split Ga A hAl
  simp only [List.take_zero, size_nil, Nat.add_zero] at hQ
  have hp0 : pop A 0 = (A.getD 0 []).length := rfl
  have hle : pop A 0 ≤ N := by
    rw [hN]
    cases A with
    | nil => exact absurd rfl hA
    | cons m ms => simp [pop]; omega
  have c0 : copyItems (List.replicate N env.zero) 0 (Ga ++ A.flatten) fa (pop A 0) =
      .ok (A.getD 0 [] ++ List.replicate (N - pop A 0) env.zero) := by
    have := copyItems_ok [] (List.replicate (pop A 0) env.zero)
      (List.replicate (N - pop A 0) env.zero) Q (A.getD 0 []) T (by rw [List.length_replicate, hp0])
    rw [e]
    simp only [List.nil_append, List.length_nil, List.replicate_append_replicate] at this
    rw [show pop A 0 + (N - pop A 0) = N by omega, hQ, hGa] at this
    exact this
  rw [c0, Outcome.ok_bind]
  have w1 : wr (0 :: 0 :: List.replicate W' 0) 1 (pop A 0) =
      .ok (0 :: pop A 0 :: List.replicate W' 0) := by
    unfold wr
    rw [if_pos (by simp)]; rfl
  rw [w1, Outcome.ok_bind]
  have hH := range_fold (n := max A.length B.length - 1)
    (f := fun st i => populateLevel env A.length (offs fa A) (Ga ++ A.flatten) B.length (offs fb B)
      (Gb ++ B.flatten) st (i + 1))
    (fun i st => ∃ Y Z, st = ((J.take (i + 1)).flatten ++ Y, offs 0 (J.take (i + 1)) ++ Z) ∧
      Y.length = size (J.drop (i + 1)) ∧ (offs 0 (J.take (i + 1)) ++ Z).length = W' + 2)
    (s0 := (A.getD 0 [] ++ List.replicate (N - pop A 0) env.zero,
      0 :: pop A 0 :: List.replicate W' 0)) ?_ ?_
  · obtain ⟨st, hst, Y, Z, rfl, hY, hZ⟩ := hH
    have e1 : max A.length B.length - 1 + 1 = J.length := by omega
    rw [e1, List.take_length] at hZ
    rw [e1, List.drop_length, size_nil] at hY
    have hY0 : Y = [] := List.eq_nil_of_length_eq_zero hY
    rw [e1, List.take_length, hY0, List.append_nil] at hst
    exact ⟨Z, hst, hZ⟩
  · refine ⟨List.replicate (N - pop A 0) env.zero, List.replicate W' 0, ?_, ?_, ?_⟩
    · rw [hJ0]
      simp [offs, hp0]
    · have h1 : size (J.take 1) + size (J.drop 1) = size J := by
        rw [← size_append, List.take_append_drop]
      rw [hJ0] at h1
      simp only [size_cons, size_nil] at h1
      rw [List.length_replicate]
      show N - pop A 0 = size (J.drop 1)
      omega
    · rw [hJ0]
      simp [offs]
  · rintro i st hi ⟨Y, Z, rfl, hY, hZ⟩
    have hiJ : i + 1 < J.length := by omega
    have hget : J[i + 1] = mergeL env.lt (A.getD (i + 1) []) (B.getD (i + 1) []) := by
      have := joinL_get (lt := env.lt) (B := B) hA (i := i + 1) (by omega) (by omega)
      rw [← hJ, List.getElem?_eq_getElem hiJ] at this
      simpa using this
    have htl : (J.take (i + 1)).length = i + 1 := by rw [List.length_take]; omega
    have hdrop : size (J.drop (i + 1)) = J[i + 1].length + size (J.drop (i + 2)) := by
      rw [drop_cons_of hiJ, size_cons]
    have hgl : J[i + 1].length = pop A (i + 1) + pop B (i + 1) := by
      rw [hget, mergeL_length]; rfl
    obtain ⟨z, Z', rfl⟩ : ∃ z Z', Z = z :: Z' := by
      cases Z with
      | nil =>
        simp [offs_length] at hZ
        omega
      | cons z Z => exact ⟨z, Z, rfl⟩
    have hYs : Y = Y.take (pop A (i + 1) + pop B (i + 1)) ++
        Y.drop (pop A (i + 1) + pop B (i + 1)) := (List.take_append_drop _ _).symm
    have hYt : (Y.take (pop A (i + 1) + pop B (i + 1))).length = pop A (i + 1) + pop B (i + 1) := by
      rw [List.length_take]; omega
    have := populateLevel_ok (env := env) fa A Ga hGa fb B Gb hGb (J.take (i + 1))
      (Y.take (pop A (i + 1) + pop B (i + 1))) (Y.drop (pop A (i + 1) + pop B (i + 1))) z Z'
      (by rw [htl]; exact hYt)
    rw [htl, List.append_assoc, ← hYs, ← hget] at this
    have htk : J.take (i + 1) ++ [J[i + 1]] = J.take (i + 1 + 1) := by
      rw [List.take_add_one (i := i + 1), List.getElem?_eq_getElem hiJ]; rfl
    rw [htk] at this
    refine ⟨_, this, _, _, rfl, ?_, ?_⟩
    · rw [List.length_drop, hY, hdrop, hgl]
      show _ = size (J.drop (i + 2))
      omega
    · rw [← htk]
      simp [offs_length] at hZ ⊢
      omega

/-! ## The result -/

theorem finishMerge_ok {env : Env α} {k m W : Nat} {g : GC α} {Ls : List (List α)} {log : List Nat}
    (hg : GRep k m W g Ls log Ls.length) (myItems : List α) {len : Nat} (hlen : len ≤ Ls.length + 1)
    (hfit : size Ls ≤ tot k m Ls.length) :
    ∃ it, finishMerge env myItems len g = .ok (it, offs (tot k m Ls.length - size Ls) Ls) ∧
      ∃ G, G.length = tot k m Ls.length - size Ls ∧ it = G ++ Ls.flatten := by
  obtain ⟨Out, In, J, P, Zi, Zo, hLs, hO, hb, _, _, hol, _, _⟩ := hg.arrays
  have hIn : In = [] := by
    have := congrArg List.length hLs
    rw [List.length_append] at this
    exact List.eq_nil_of_length_eq_zero (by omega)
  subst hIn
  rw [List.append_nil] at hLs
  subst hLs
  unfold finishMerge
  set free := tot k m Ls.length - size Ls with hfree
  rw [hg.target, hg.cur, sub_ok hfit, Outcome.ok_bind]
  have hout0 : rd g.outLevels 0 = .ok 0 := by
    rw [hol]
    cases Ls <;> rfl
  rw [hout0, Outcome.ok_bind]
  obtain ⟨base, hbase⟩ : ∃ base : List α, base = (if tot k m Ls.length = myItems.length then myItems
      else List.replicate (tot k m Ls.length) env.zero) := ⟨_, rfl⟩
  have hbl : base.length = tot k m Ls.length := by
    rw [hbase]
    split
    · rename_i h; exact h.symm
    · simp
  rw [← hbase]
  have c0 : copyItems base free g.buf 0 (size Ls) = .ok (base.take free ++ Ls.flatten) := by
    have := copyItems_ok (base.take free) (base.drop free) [] [] Ls.flatten J (by
      rw [List.length_drop, hbl]
      show _ = size Ls
      omega)
    rw [List.append_nil, List.take_append_drop, List.nil_append, List.length_take, hbl,
      Nat.min_eq_left (by omega)] at this
    rw [hb, List.flatten_nil, List.append_nil]
    have h2 : Ls.flatten.length = size Ls := rfl
    rw [h2, List.append_nil] at this
    exact this
  simp only []
  rw [c0, Outcome.ok_bind, sub_ok (Nat.zero_le _), Outcome.ok_bind, Nat.sub_zero]
  have hlen2 : (if len < g.numLevels + 1 then g.numLevels + 1 else len) = Ls.length + 1 := by
    rw [hg.numLevels]
    split
    · rfl
    · omega
  rw [hlen2, hg.numLevels]
  have hH := range_fold (n := Ls.length + 1)
    (f := fun lv lvl => do
      let v ← rd g.outLevels lvl
      wr lv lvl (v + free))
    (fun i lv => lv = (offs free Ls).take i ++ List.replicate (Ls.length + 1 - i) 0)
    (s0 := List.replicate (Ls.length + 1) 0) (by simp) ?_
  · obtain ⟨lv, hlv, rfl⟩ := hH
    rw [hlv, Outcome.ok_bind]
    refine ⟨_, ?_, base.take free, ?_, rfl⟩
    · rw [Nat.sub_self, List.replicate_zero, List.append_nil,
        List.take_of_length_le (l := offs (tot k m Ls.length - size Ls) Ls)
          (by rw [offs_length])]
    · rw [List.length_take, hbl]; omega
  · rintro i lv hi rfl
    have hr : rd g.outLevels i = .ok (size (Ls.take i)) := by
      rw [hol]
      unfold rd
      rw [List.getElem?_append_left (by rw [offs_length]; omega), offs_get 0 Ls (by omega)]
      simp
    have hofl : (offs free Ls).length = Ls.length + 1 := offs_length _ _
    have hget : (offs free Ls)[i]? = some (free + size (Ls.take i)) := offs_get _ _ (by omega)
    refine ⟨(offs free Ls).take (i + 1) ++ List.replicate (Ls.length + 1 - (i + 1)) 0, ?_, rfl⟩
    rw [hr, Outcome.ok_bind]
    have hsplit : List.replicate (Ls.length + 1 - i) 0 =
        0 :: List.replicate (Ls.length + 1 - (i + 1)) 0 := by
      rw [show Ls.length + 1 - i = (Ls.length + 1 - (i + 1)) + 1 by omega, List.replicate_succ]
    rw [hsplit, wr_mid _ _ _ _ (by rw [List.length_take, hofl]; omega)]
    congr 1
    rw [List.take_add_one (i := i), hget]
    simp [Nat.add_comm]

/-! ## The abstract program -/

def aHigher (env : Env α) (a b : Abs α) (n : Nat) : Rand (Abs α) := do
  let st ← aGcLoop env a.k a.m a.zs (ubOnNumLevels n + 1) (joinL env.lt a.Ls b.Ls, a.log ++ b.log) 0
  Rand.ret { a with
    free := tot a.k a.m st.1.length - size st.1
    Ls := st.1
    log := st.2 }

def aUpper (env : Env α) (a b : Abs α) (n : Nat) : Rand (Abs α) :=
  if 1 < b.Ls.length then aHigher env a b n else Rand.ret a

def aPreamble (env : Env α) (a0 b a : Abs α) : Abs α :=
  { a with
    n := a0.n + b.n
    minK := if 1 < b.Ls.length then min a0.minK b.minK else a.minK
    minItem := if a0.n = 0 then b.minItem
      else if env.lt a0.minItem b.minItem then a0.minItem else b.minItem
    maxItem := if a0.n = 0 then b.maxItem
      else if env.lt b.maxItem a0.maxItem then a0.maxItem else b.maxItem
    hasMinMax := if a0.n = 0 then b.hasMinMax else true }

def aMerge (env : Env α) (a b : Abs α) : Rand (Abs α) :=
  if b.n = 0 then Rand.ret a
  else do
    let t ← (b.Ls.headD []).foldlM (aUpdate env) a
    let t ← aUpper env t b (a.n + b.n)
    Rand.ret (aPreamble env a b t)

/-! ## Level zero of the other sketch -/

theorem fold_inv {env : Env α} (hs : ∀ l, (env.sort l).Perm l) {K : Prop} (xs : List α) {S : List α}
    {a : Abs α} (hi : Inv env K S a) :
    Rand.All (fun b => Inv env K (S ++ xs) b ∧ b.n = a.n + xs.length ∧ b.k = a.k ∧ b.m = a.m ∧
      b.minK = a.minK) (xs.foldlM (aUpdate env) a) := by
  induction xs generalizing S a with
  | nil => exact ⟨by simpa using hi, rfl, rfl, rfl, rfl⟩
  | cons x xs ih =>
    rw [List.foldlM_cons]
    refine Rand.All.bind (aUpdate_inv hs hi x) ?_
    rintro b ⟨h1, h2, h3, h4, h5⟩
    refine (ih h1).mono ?_
    rintro c ⟨g1, g2, g3, g4, g5⟩
    refine ⟨by simpa using g1, by rw [g2, h2, List.length_cons]; omega, by rw [g3, h3],
      by rw [g4, h4], by rw [g5, h5]⟩

theorem fold_E {env : Env α} (hs : ∀ l, (env.sort l).Perm l) {K : Prop} (xs : List α) {S : List α}
    {a : Abs α} (hi : Inv env K S a) (p : α → Bool) :
    Rand.HasE (fun b => rkQ p b.Ls) (xs.foldlM (aUpdate env) a) (rkQ p a.Ls + xs.countP p) := by
  induction xs generalizing S a with
  | nil =>
    show _ = _
    simp
  | cons x xs ih =>
    rw [List.foldlM_cons]
    refine Rand.HasE.bind (h := fun b => rkQ p b.Ls + xs.countP p) ?_ ?_
    · have := (aUpdate_E hs hi x p).affine 1 (xs.countP p : ℚ)
      have e : (1 : ℚ) * (rkQ p a.Ls + if p x then 1 else 0) + (xs.countP p : ℚ) =
          rkQ p a.Ls + ((x :: xs).countP p : ℚ) := by
        rw [List.countP_cons]
        push_cast
        split <;> ring
      rw [e] at this
      exact this.congr ((aUpdate_inv hs hi x).mono fun b _ => by ring)
    · exact (aUpdate_inv hs hi x).mono fun b hb => ih hb.1

theorem fold_sq {env : Env α} (ho : IsOrd env.lt) (hso : Sorts env) {K : Prop} (xs : List α)
    {S : List α} {a : Abs α} (hi : Inv env K S a) {p : α → Bool} (hp : Down env.lt p) (t : ℚ) :
    Rand.ELe (fun b => (rkQ p b.Ls - (t + xs.countP p)) ^ 2 - q4 b.log)
      (xs.foldlM (aUpdate env) a) ((rkQ p a.Ls - t) ^ 2 - q4 a.log) := by
  induction xs generalizing S a t with
  | nil =>
    show _ ≤ _
    simp
  | cons x xs ih =>
    rw [List.foldlM_cons]
    refine Rand.ELe.bind (aUpdate_sq ho hso hi x hp t) ?_
    refine (aUpdate_inv hso.perm hi x).mono fun b hb => ?_
    have := ih hb.1 (t + if p x then 1 else 0)
    have e : (t + if p x = true then 1 else 0) + (xs.countP p : ℚ) =
        t + ((x :: xs).countP p : ℚ) := by
      rw [List.countP_cons]
      push_cast
      split <;> ring
    rw [e] at this
    exact this

theorem Rep.total {env : Env α} {K : Prop} {S : List α} {s : Sketch α} {a : Abs α} (hr : Rep s a)
    (hi : Inv env K S a) :
    ∃ G, G.length = a.free ∧ getTotalItemsArray env s = G ++ a.Ls.flatten := by
  unfold getTotalItemsArray
  by_cases h0 : s.n = 0
  · rw [if_pos h0]
    have h0' : a.n = 0 := by rw [← hr.n]; exact h0
    have hf : a.Ls.flatten = [] := by
      apply List.eq_nil_iff_forall_not_mem.2
      intro x hx
      have h1 := hi.core.mem x hx
      have h2 : S = [] := List.eq_nil_of_length_eq_zero (by rw [hi.core.len, h0'])
      rw [h2] at h1
      simp at h1
    refine ⟨List.replicate s.k env.zero, ?_, by rw [hf, List.append_nil]⟩
    rw [List.length_replicate, hr.k, hi.fresh h0']
  · rw [if_neg h0]
    exact hr.items

theorem mergeLevelZero_sim {env : Env α} (hs : ∀ l, (env.sort l).Perm l) {K : Prop} {S T : List α}
    {s o : Sketch α} {a b : Abs α} (hr : Rep s a) (hi : Inv env K S a) (ho : Rep o b)
    (hb : Inv env K T b) (hn : a.n + b.n < 2 ^ 60) :
    Rand.Sim Rep (mergeLevelZero env s o) ((b.Ls.headD []).foldlM (aUpdate env) a) := by
  unfold mergeLevelZero
  obtain ⟨G, hG, hit⟩ := ho.total hb
  have hlv := ho.levels
  have hb0 := head_le_wt b.Ls
  rw [hb.core.weight] at hb0
  have hne := hb.core.ne
  cases hL : b.Ls with
  | nil => exact absurd hL hne
  | cons l ls =>
    rw [hL] at hlv hit hb0
    simp only [List.headD_cons] at hb0
    have r0 : rd o.levels 0 = .ok b.free := by rw [hlv]; rfl
    have r1 : rd o.levels 1 = .ok (b.free + l.length) := by
      rw [hlv]
      cases ls <;> rfl
    rw [r0, Rand.ofOutcome_ok, Rand.ret_bind, r1, Rand.ofOutcome_ok, Rand.ret_bind,
      show b.free + l.length - b.free = l.length by omega, hit, List.headD_cons, List.flatten_cons]
    -- the loop over the cells against the fold over the items
    have key : ∀ (xs pre : List α) (s : Sketch α) (a : Abs α) (S : List α), l = pre ++ xs →
        Rep s a → Inv env K S a → a.n + xs.length < 2 ^ 60 →
        Rand.Sim Rep ((List.range' pre.length xs.length).foldlM (fun s i => do
          let x ← Rand.ofOutcome (rd (G ++ (l ++ ls.flatten)) (b.free + i))
          updateSome env s x) s) (xs.foldlM (aUpdate env) a) := by
      intro xs
      induction xs with
      | nil => intro pre s a S _ hr _ _; exact hr
      | cons x xs ih =>
        intro pre s a S hl hr hi hn
        rw [List.length_cons, List.range'_succ, List.foldlM_cons, List.foldlM_cons]
        have hrd : rd (G ++ (l ++ ls.flatten)) (b.free + pre.length) = .ok x := by
          rw [hl, show G ++ (pre ++ x :: xs ++ ls.flatten) =
            (G ++ pre) ++ x :: (xs ++ ls.flatten) by asm]
          exact rd_mid _ _ _ (by simp [hG])
        rw [hrd, Rand.ofOutcome_ok, Rand.ret_bind]
        simp only [List.length_cons] at hn
        refine Rand.Sim.bind (updateSome_sim hs hr hi.shape hi.core (by omega) x)
          (aUpdate_inv hs hi x) ?_
        rintro s' a' hr' ⟨h1, h2, _⟩
        have := ih (pre ++ [x]) s' a' (S ++ [x]) (by rw [hl]; asm) hr' h1 (by omega)
        rw [List.length_append] at this
        exact this
    have := key l [] s a S rfl hr hi (by omega)
    rw [List.range_eq_range']
    exact this

/-! ## The higher levels -/

/-- The joined levels satisfy the invariant of the loop. -/
theorem join_inv {env : Env α} {K : Prop} {S T : List α} {a b : Abs α}
    (hi : Inv env K (S ++ b.Ls.headD []) a) (hb : Inv env K T b) (h1 : 1 < b.Ls.length) :
    GInv env K a.k a.m (min a.minK b.minK) (S.length + b.n) a.zs (S ++ T)
      (joinL env.lt a.Ls b.Ls) (a.log ++ b.log) := by
  refine ⟨hi.core.join hb.core h1, ?_, ?_, ?_, ?_⟩
  · intro ho hso
    exact (hi.srt ho hso).join ho hi.core.ne (hb.srt ho hso)
  · intro hK
    obtain ⟨h2, h3⟩ := hi.pot hK
    obtain ⟨_, h5⟩ := hb.pot hK
    refine ⟨h2, h3.join hi.core.ne h5 h1 ?_ hb.core.weight⟩
    rw [← hi.core.len]; simp
  · have := joinL_length (lt := env.lt) (os := b.Ls) hi.core.ne
    omega
  · have hn : 2 ≤ b.n := by
      rcases hb.core.top with h | h
      · omega
      · have h2 : 2 ^ 1 ≤ 2 ^ (b.Ls.length - 1) := Nat.pow_le_pow_right (by omega) (by omega)
        omega
    have hs := hb.many hn
    have hz : size b.Ls = (b.Ls.headD []).length + size b.Ls.tail := by
      cases hl : b.Ls with
      | nil => rw [hl] at h1; simp at h1
      | cons l ls => simp
    have ha := hi.core.len
    rw [List.length_append] at ha
    rw [size_joinL hi.core.ne]
    by_cases h2 : 2 ≤ a.n
    · have := hi.many h2
      omega
    · by_cases h3 : 0 < a.n
      · have := hi.core.size_pos h3
        omega
      · omega

theorem fits_zero (k m : Nat) (Ls : List (List α)) : Fits k m Ls 0 := by
  right
  unfold popsBelow
  simp

theorem mergeHigher_sim {env : Env α} (hs : ∀ l, (env.sort l).Perm l) {K : Prop} {S T : List α}
    {s o : Sketch α} {a b : Abs α} (hr : Rep s a) (hi : Inv env K (S ++ b.Ls.headD []) a)
    (ho : Rep o b) (hb : Inv env K T b) (h1 : 1 < b.Ls.length) {n : Nat} (hnn : n = S.length + b.n)
    (hn : n < 2 ^ 60) :
    Rand.Sim Rep (mergeHigher env s o n (s.log ++ o.log)) (aHigher env a b n) := by
  subst hnn
  have hj := join_inv hi hb h1
  have hj0 : GInv env False a.k a.m 0 (S.length + b.n) a.zs (S ++ T)
      (joinL env.lt a.Ls b.Ls) (a.log ++ b.log) := 
            ⟨hj.core, hj.srt, fun h => h.elim, hj.two, hj.many⟩
  have hjl := joinL_length (lt := env.lt) (os := b.Ls) hi.core.ne
  have hub := hj.core.ub
  have hL := hj.core.levels_le hn
  obtain ⟨Ga, hGa, hita⟩ := hr.total hi
  obtain ⟨Gb, hGb, hitb⟩ := ho.total hb
  unfold mergeHigher
  simp only []
  have g1 : getNumRetained s = .ok (size a.Ls) := by
    unfold getNumRetained
    rw [hr.levels, hr.numLevels, rd_offs _ _ (Nat.le_refl _), Outcome.ok_bind,
      rd_offs _ _ (Nat.zero_le _), Outcome.ok_bind, List.take_length, sub_ok (by simp)]
    simp
  have g2 : getNumRetainedAboveLevelZero o.numLevels o.levels = .ok (size b.Ls.tail) := by
    unfold getNumRetainedAboveLevelZero
    rw [ho.levels, ho.numLevels, rd_offs _ _ (Nat.le_refl _), Outcome.ok_bind,
      rd_offs _ _ (by omega), Outcome.ok_bind, List.take_length]
    cases hLs : b.Ls with
    | nil => rw [hLs] at h1; simp at h1
    | cons l ls =>
      rw [sub_ok (by simp)]
      simp
      omega
  rw [g1, Rand.ofOutcome_ok, Rand.ret_bind, g2, Rand.ofOutcome_ok, Rand.ret_bind, hr.numLevels,
    ho.numLevels, hr.levels, ho.levels, hita, hitb]
  obtain ⟨Z, hpw, hZ⟩ := populateWorkArrays_ok (env := env) a.free a.Ls Ga hGa b.free b.Ls Gb hGb
    hi.core.ne (W := ubOnNumLevels (S.length + b.n) + 2) rfl (by omega)
  rw [hpw, Rand.ofOutcome_ok, Rand.ret_bind, ← hjl, hr.k, hr.m, hr.zs, hr.log, ho.log]
  simp only []
  have ginit : gcInit a.k a.m (joinL env.lt a.Ls b.Ls).length (joinL env.lt a.Ls b.Ls).flatten
      (offs 0 (joinL env.lt a.Ls b.Ls) ++ Z)
      (List.replicate (ubOnNumLevels (S.length + b.n) + 2) 0) (a.log ++ b.log) =
      .ok ⟨(joinL env.lt a.Ls b.Ls).flatten, offs 0 (joinL env.lt a.Ls b.Ls) ++ Z,
        0 :: List.replicate (ubOnNumLevels (S.length + b.n) + 1) 0,
        (joinL env.lt a.Ls b.Ls).length, size (joinL env.lt a.Ls b.Ls),
        tot a.k a.m (joinL env.lt a.Ls b.Ls).length, a.log ++ b.log⟩ := by
    unfold gcInit
    set J := joinL env.lt a.Ls b.Ls
    have e1 : rd (offs 0 J ++ Z) J.length = .ok (size J) := by
      unfold rd
      rw [List.getElem?_append_left (by rw [offs_length]; omega), offs_get 0 J (Nat.le_refl _),
        List.take_length]
      simp
    have e2 : rd (offs 0 J ++ Z) 0 = .ok 0 := by
      unfold rd
      rw [List.getElem?_append_left (by rw [offs_length]; omega), offs_get 0 J (Nat.zero_le _)]
      simp
    rw [e1, Outcome.ok_bind, e2, Outcome.ok_bind, sub_ok (Nat.zero_le _), Outcome.ok_bind,
      computeTotal_ok hi.shape.k (by omega), Outcome.ok_bind]
    have e3 : wr (List.replicate (ubOnNumLevels (S.length + b.n) + 2) 0) 0 0 =
        .ok (0 :: List.replicate (ubOnNumLevels (S.length + b.n) + 1) 0) := by
      unfold wr
      rw [if_pos (by simp)]; rfl
    rw [e3, Outcome.ok_bind]
    rfl
  rw [ginit, Rand.ofOutcome_ok, Rand.ret_bind]
  unfold aHigher
  have hloop := gcLoop_sim (env := env) (zs := a.zs) hs hi.shape.k hi.shape.m2 hn
    (ubOnNumLevels (S.length + b.n) + 1)
    ⟨(joinL env.lt a.Ls b.Ls).flatten, offs 0 (joinL env.lt a.Ls b.Ls) ++ Z,
      0 :: List.replicate (ubOnNumLevels (S.length + b.n) + 1) 0,
      (joinL env.lt a.Ls b.Ls).length, size (joinL env.lt a.Ls b.Ls),
      tot a.k a.m (joinL env.lt a.Ls b.Ls).length, a.log ++ b.log⟩
    (joinL env.lt a.Ls b.Ls, a.log ++ b.log) hj0 0
    ⟨rfl, rfl, rfl, rfl, [], joinL env.lt a.Ls b.Ls, [], [], Z,
      List.replicate (ubOnNumLevels (S.length + b.n) + 1) 0, rfl, rfl, by simp, by simp, rfl, rfl,
      hZ, by simp⟩ (by show 0 < (joinL env.lt a.Ls b.Ls).length; omega) (fits_zero _ _ _)
  refine Rand.Sim.bind hloop (aGcLoop_inv hs hi.shape.m2 (Nat.zero_le _) _ _ hj0 0
    (by show 0 < (joinL env.lt a.Ls b.Ls).length; omega) (fits_zero _ _ _) (by omega)) ?_
  rintro g st hg ⟨h4, h5, h6⟩
  have h6' : (joinL env.lt a.Ls b.Ls).length ≤ st.1.length := h6
  obtain ⟨it, hfin, G, hG, hit⟩ := finishMerge_ok (env := env) hg (Ga ++ a.Ls.flatten)
    (len := (offs a.free a.Ls).length) (by rw [offs_length]; omega) h5
  show Rand.Sim Rep (Rand.ofOutcome (finishMerge env (Ga ++ a.Ls.flatten) _ g) >>= _) _
  rw [hfin, Rand.ofOutcome_ok, Rand.ret_bind]
  exact
    { k := rfl
      m := rfl
      minK := hr.minK
      zs := rfl
      n := hr.n
      numLevels := hg.numLevels
      levels := rfl
      items := ⟨G, hG, hit⟩
      minItem := hr.minItem
      maxItem := hr.maxItem
      hasMinMax := hr.hasMinMax
      log := hg.log }

theorem Rep.setTotal {env : Env α} {K : Prop} {S : List α} {s : Sketch α} {a : Abs α} (hr : Rep s a)
    (hi : Inv env K S a) : Rep { s with items := getTotalItemsArray env s } a :=
  { k := hr.k
    m := hr.m
    minK := hr.minK
    zs := hr.zs
    n := hr.n
    numLevels := hr.numLevels
    levels := hr.levels
    items := hr.total hi
    minItem := hr.minItem
    maxItem := hr.maxItem
    hasMinMax := hr.hasMinMax
    log := hr.log }

theorem Rep.preamble {env : Env α} {s0 o s : Sketch α} {a0 b a : Abs α} (h0 : Rep s0 a0)
    (ho : Rep o b) (h : Rep s a) : Rep (mergePreamble env s0 o s) (aPreamble env a0 b a) := by
  refine
    { k := h.k
      m := h.m
      minK := ?_
      zs := h.zs
      n := ?_
      numLevels := h.numLevels
      levels := h.levels
      items := h.items
      minItem := ?_
      maxItem := ?_
      hasMinMax := ?_
      log := h.log }
  · simp only [mergePreamble, aPreamble, isEstimationMode, ho.numLevels, h0.minK, ho.minK, h.minK,
      decide_eq_true_eq]
  · simp only [mergePreamble, aPreamble, h0.n, ho.n]
  · simp only [mergePreamble, aPreamble, isEmpty, h0.n, h0.minItem, ho.minItem, beq_iff_eq]
  · simp only [mergePreamble, aPreamble, isEmpty, h0.n, h0.maxItem, ho.maxItem, beq_iff_eq]
  · simp only [mergePreamble, aPreamble, isEmpty, h0.n, ho.hasMinMax, beq_iff_eq]

theorem merge_sim {env : Env α} (hs : ∀ l, (env.sort l).Perm l) {K : Prop} {S T : List α}
    {s o : Sketch α} {a b : Abs α} (hr : Rep s a) (hi : Inv env K S a)
    (ho : Rep o b) (hb : Inv env K T b) (hn : a.n + b.n < 2 ^ 60) :
    Rand.Sim Rep (merge env s o) (aMerge env a b) := by
  unfold merge aMerge
  have e0 : (isEmpty o = true) ↔ b.n = 0 := by simp [isEmpty, ho.n]
  by_cases h0 : b.n = 0
  · rw [if_pos h0, if_pos (e0.2 h0)]
    exact hr
  · rw [if_neg h0, if_neg (fun h => h0 (e0.1 h))]
    refine Rand.Sim.bind (mergeLevelZero_sim hs hr hi ho hb hn) (fold_inv hs (b.Ls.headD []) hi) ?_
    rintro s1 a1 hr1 ⟨h1, h2, _⟩
    rw [hr.n, ho.n]
    have hup : Rand.Sim Rep (mergeUpper env s1 o (a.n + b.n)) (aUpper env a1 b (a.n + b.n)) := by
      unfold mergeUpper aUpper
      rw [ho.numLevels]
      by_cases hl : 1 < b.Ls.length
      · rw [if_pos hl, if_pos hl]
        exact mergeHigher_sim hs hr1 h1 ho hb hl (by rw [hi.core.len]) hn
      · rw [if_neg hl, if_neg hl]
        exact hr1.setTotal h1
    have hall : Rand.All (fun _ => True) (aUpper env a1 b (a.n + b.n)) := by
      unfold aUpper
      by_cases hl : 1 < b.Ls.length
      · rw [if_pos hl]
        unfold aHigher
        have hj := join_inv h1 hb hl
        have hjl := joinL_length (lt := env.lt) (os := b.Ls) h1.core.ne
        refine Rand.All.bind (aGcLoop_inv hs h1.shape.m2
          (le_trans (Nat.min_le_left _ _) h1.kappa) _ _ hj 0
          (by show 0 < (joinL env.lt a1.Ls b.Ls).length; omega) (fits_zero _ _ _)
          (by rw [hi.core.len]; omega)) ?_
        intro st _
        exact trivial
      · rw [if_neg hl]
        exact trivial
    refine Rand.Sim.bind hup hall ?_
    intro s2 a2 hr2 _
    exact hr.preamble ho hr2

/-! ## Invariants -/

theorem MM.preamble {env : Env α} (ho : IsOrd env.lt) {S T : List α} {a b t : Abs α}
    (ha : MM env.lt S a) (hb : MM env.lt T b) (hna : S.length = a.n) (hT : T ≠ []) :
    MM env.lt (S ++ T) (aPreamble env a b t) := by
  have hST : S ++ T ≠ [] := by simp [hT]
  unfold aPreamble
  by_cases h0 : a.n = 0
  · have hS : S = [] := List.eq_nil_of_length_eq_zero (by omega)
    subst hS
    simp only [if_pos h0, List.nil_append]
    exact ⟨hb.has, hb.minMem, hb.maxMem, hb.minLe, hb.maxGe⟩
  · have hS : S ≠ [] := by
      rintro rfl
      simp at hna
      omega
    simp only [if_neg h0]
    refine ⟨by simp [hST], ?_, ?_, ?_, ?_⟩
    · intro _
      show (if env.lt a.minItem b.minItem then a.minItem else b.minItem) ∈ _
      split
      · exact List.mem_append_left _ (ha.minMem hS)
      · exact List.mem_append_right _ (hb.minMem hT)
    · intro _
      show (if env.lt b.maxItem a.maxItem then a.maxItem else b.maxItem) ∈ _
      split
      · exact List.mem_append_left _ (ha.maxMem hS)
      · exact List.mem_append_right _ (hb.maxMem hT)
    · intro y hy
      show env.lt y (if env.lt a.minItem b.minItem then a.minItem else b.minItem) = false
      rw [List.mem_append] at hy
      split
      · rename_i hx
        rcases hy with hy | hy
        · exact ha.minLe y hy
        · exact ho.trans a.minItem b.minItem y (ho.asymm _ _ hx) (hb.minLe y hy)
      · rename_i hx
        rcases hy with hy | hy
        · exact ho.trans b.minItem a.minItem y (by simpa using hx) (ha.minLe y hy)
        · exact hb.minLe y hy
    · intro y hy
      show env.lt (if env.lt b.maxItem a.maxItem then a.maxItem else b.maxItem) y = false
      rw [List.mem_append] at hy
      split
      · rename_i hx
        rcases hy with hy | hy
        · exact ha.maxGe y hy
        · exact ho.trans y b.maxItem a.maxItem (hb.maxGe y hy) (ho.asymm _ _ hx)
      · rename_i hx
        rcases hy with hy | hy
        · exact ho.trans y a.maxItem b.maxItem (ha.maxGe y hy) (by simpa using hx)
        · exact hb.maxGe y hy

/-- With one level the items of level zero are the stream. -/
theorem one_level {env : Env α} {K : Prop} {T : List α} {b : Abs α} (hb : Inv env K T b)
    (h1 : b.Ls.length = 1) :
    (b.Ls.headD []).length = b.n ∧ b.log = [] ∧ (∀ x ∈ b.Ls.headD [], x ∈ T) ∧
    (∀ p, rk p b.Ls = (b.Ls.headD []).countP p) ∧
    (IsOrd env.lt → Sorts env → ∀ p, Down env.lt p → (b.Ls.headD []).countP p = T.countP p) := by
  have hw := hb.core.weight
  have hlog := hb.core.one h1
  have hm := hb.core.mem
  have herr := fun ho hso => (hb.srt ho hso).err
  obtain ⟨l, hl⟩ : ∃ l, b.Ls = [l] := List.length_eq_one_iff.1 h1
  rw [hl] at hw hm herr ⊢
  simp only [List.headD_cons]
  refine ⟨by simpa [wt, rk] using hw, hlog, fun x hx => hm x (by simpa using hx), ?_, ?_⟩
  · intro p; simp [rk]
  · intro ho hso p hp
    have := herr ho hso p hp
    rw [hlog] at this
    simp [rk] at this
    omega

theorem aMerge_inv {env : Env α} (hs : ∀ l, (env.sort l).Perm l) {K : Prop} {S T : List α}
    {a b : Abs α} (hi : Inv env K S a) (hb : Inv env K T b) :
    Rand.All (fun c => Inv env K (S ++ T) c ∧ c.n = a.n + b.n ∧ c.k = a.k ∧
      min a.minK b.minK ≤ c.minK) (aMerge env a b) := by
  unfold aMerge
  by_cases h0 : b.n = 0
  · rw [if_pos h0]
    have hT : T = [] := List.eq_nil_of_length_eq_zero (by rw [hb.core.len, h0])
    subst hT
    exact ⟨by simpa using hi, by omega, rfl, Nat.min_le_left _ _⟩
  · rw [if_neg h0]
    have hT : T ≠ [] := by
      rintro rfl
      have := hb.core.len
      simp at this
      omega
    refine Rand.All.bind (fold_inv hs (b.Ls.headD []) hi) ?_
    rintro t ⟨h1, h2, h3, h4, h5⟩
    unfold aUpper
    by_cases hl : 1 < b.Ls.length
    · rw [if_pos hl]
      unfold aHigher
      rw [Rand.bind_assoc]
      have hj := join_inv h1 hb hl
      have hjl := joinL_length (lt := env.lt) (os := b.Ls) h1.core.ne
      refine Rand.All.bind (aGcLoop_inv hs h1.shape.m2
        (le_trans (Nat.min_le_left _ _) h1.kappa) _ _ hj 0
        (by show 0 < (joinL env.lt t.Ls b.Ls).length; omega) (fits_zero _ _ _)
        (by rw [hi.core.len]; omega)) ?_
      rintro st ⟨g1, g2, g3⟩
      rw [hi.core.len] at g1
      refine ⟨⟨⟨?_, ?_, ?_, ?_, ?_, ?_⟩, ?_, ?_, ?_, ?_, ?_, ?_, fun _ => g1.many⟩, rfl, h3, ?_⟩
      · exact h1.shape.k
      · exact h1.shape.m2
      · exact h1.shape.mle
      · show tot t.k t.m st.1.length ≤ tot t.k t.m st.1.length - size st.1 + size st.1
        omega
      · show tot t.k t.m st.1.length - size st.1 + size st.1 ≤ t.k * st.1.length
        have := tot_le h1.shape.mle st.1.length
        omega
      · intro hk
        show tot t.k t.m st.1.length - size st.1 + size st.1 = tot t.k t.m st.1.length
        omega
      · exact g1.core
      · exact g1.srt
      · intro ho
        exact (hi.mm ho).preamble ho (hb.mm ho) hi.core.len hT
      · show (if 1 < b.Ls.length then min a.minK b.minK else t.minK) ≤ t.k
        rw [if_pos hl, h3]
        exact le_trans (Nat.min_le_left _ _) hi.kappa
      · intro hz
        have hz' : a.n + b.n = 0 := hz
        omega
      · intro hK
        obtain ⟨p1, p2⟩ := g1.pot hK
        refine ⟨p1, ?_⟩
        show Pot (if 1 < b.Ls.length then min a.minK b.minK else t.minK) (a.n + b.n) st.1 st.2
        rw [if_pos hl]
        rw [h5] at p2
        exact p2
      · show _ ≤ if 1 < b.Ls.length then min a.minK b.minK else t.minK
        rw [if_pos hl]
    · rw [if_neg hl]
      have hone : b.Ls.length = 1 := by
        have := List.length_pos_of_ne_nil hb.core.ne
        omega
      obtain ⟨o1, o2, o3, o4, o5⟩ := one_level hb hone
      have hmk : (if 1 < b.Ls.length then min a.minK b.minK else t.minK) = t.minK := if_neg hl
      have hn : a.n + b.n = t.n := by rw [h2, o1]
      refine ⟨⟨⟨h1.shape.k, h1.shape.m2, h1.shape.mle, h1.shape.room, h1.shape.bound,
        h1.shape.full⟩,
        ⟨h1.core.ne, ?_, ?_, ?_, ?_, h1.core.one⟩, ?_, ?_, ?_, ?_, ?_, ?_⟩, rfl, h3, ?_⟩
      · show wt t.Ls = a.n + b.n
        rw [hn]; exact h1.core.weight
      · show (S ++ T).length = a.n + b.n
        rw [List.length_append, hi.core.len, hb.core.len]
      · show t.Ls.length = 1 ∨ 2 ^ (t.Ls.length - 1) ≤ a.n + b.n
        rw [hn]; exact h1.core.top
      · intro x hx
        have := h1.core.mem x hx
        rw [List.mem_append] at this ⊢
        rcases this with h | h
        · exact Or.inl h
        · exact Or.inr (o3 x h)
      · intro ho hso
        have hh := h1.srt ho hso
        refine ⟨hh.sorted, hh.zsorted, fun p hp => ?_⟩
        have := hh.err p hp
        rw [List.countP_append, o5 ho hso p hp] at this
        rw [List.countP_append]
        exact this
      · intro ho
        exact (hi.mm ho).preamble ho (hb.mm ho) hi.core.len hT
      · show (if 1 < b.Ls.length then min a.minK b.minK else t.minK) ≤ t.k
        rw [hmk]; exact h1.kappa
      · intro hz
        have hz' : a.n + b.n = 0 := hz
        omega
      · intro hK
        obtain ⟨p1, p2⟩ := h1.pot hK
        refine ⟨p1, ?_⟩
        show Pot (if 1 < b.Ls.length then min a.minK b.minK else t.minK) (a.n + b.n) t.Ls t.log
        rw [hmk, hn]
        exact p2
      · show 2 ≤ a.n + b.n → 2 ≤ size t.Ls
        rw [hn]
        exact h1.many
      · show _ ≤ if 1 < b.Ls.length then min a.minK b.minK else t.minK
        rw [hmk, h5]
        exact Nat.min_le_left _ _

/-! ## Expectations -/

/-- The weight of the items of the other sketch in its level zero -/
theorem rkQ_joinL (lt : α → α → Bool) (p : α → Bool) {ms os : List (List α)} (h1 : ms ≠ []) :
    rkQ p (joinL lt ms os) = rkQ p ms + rkQ p os - (os.headD []).countP p := by
  have := rk_joinL lt p (os := os) h1
  have h2 : rkQ p (joinL lt ms os) + ((os.headD []).countP p : ℚ) = rkQ p ms + rkQ p os := by
    unfold rkQ
    exact_mod_cast this
  linarith

theorem rkQ_empty {env : Env α} {K : Prop} {T : List α} {b : Abs α} (hb : Inv env K T b)
    (h0 : b.n = 0) (p : α → Bool) : rkQ p b.Ls = 0 := by
  have hw := hb.core.weight
  have hle : ∀ Ls : List (List α), rk p Ls ≤ wt Ls := by
    intro Ls
    induction Ls with
    | nil => simp [rk]
    | cons l ls ih =>
      unfold wt at ih ⊢
      simp only [rk, List.countP_true]
      have := List.countP_le_length (p := p) (l := l)
      omega
  have := hle b.Ls
  unfold rkQ
  have h : rk p b.Ls = 0 := by omega
  rw [h]; simp

/-- A merge is unbiased. -/
theorem aMerge_E {env : Env α} (hs : ∀ l, (env.sort l).Perm l) {K : Prop} {S T : List α}
    {a b : Abs α} (hi : Inv env K S a) (hb : Inv env K T b) (p : α → Bool) :
    Rand.HasE (fun c => rkQ p c.Ls) (aMerge env a b) (rkQ p a.Ls + rkQ p b.Ls) := by
  unfold aMerge
  by_cases h0 : b.n = 0
  · rw [if_pos h0, rkQ_empty hb h0 p]
    show _ = _
    simp
  · rw [if_neg h0]
    refine Rand.HasE.bind (h := fun t => rkQ p t.Ls + (rkQ p b.Ls - (b.Ls.headD []).countP p)) ?_ ?_
    · have := (fold_E hs (b.Ls.headD []) hi p).affine 1 (rkQ p b.Ls - (b.Ls.headD []).countP p)
      have e : (1 : ℚ) * (rkQ p a.Ls + (b.Ls.headD []).countP p) +
          (rkQ p b.Ls - (b.Ls.headD []).countP p) = rkQ p a.Ls + rkQ p b.Ls := by ring
      rw [e] at this
      exact this.congr ((fold_inv hs (b.Ls.headD []) hi).mono fun b _ => by ring)
    · refine (fold_inv hs (b.Ls.headD []) hi).mono ?_
      rintro t ⟨h1, h2, h3, h4, h5⟩
      unfold aUpper
      by_cases hl : 1 < b.Ls.length
      · rw [if_pos hl]
        unfold aHigher
        rw [Rand.bind_assoc]
        have hj := join_inv h1 hb hl
        have hj0 : GInv env False t.k t.m 0 (S.length + b.n) t.zs (S ++ T)
            (joinL env.lt t.Ls b.Ls) (t.log ++ b.log) := 
            ⟨hj.core, hj.srt, fun h => h.elim, hj.two, hj.many⟩
        have hjl := joinL_length (lt := env.lt) (os := b.Ls) h1.core.ne
        have hE := aGcLoop_E hs h1.shape.m2 (ubOnNumLevels (a.n + b.n) + 1)
          (joinL env.lt t.Ls b.Ls, t.log ++ b.log) hj0 0
          (by show 0 < (joinL env.lt t.Ls b.Ls).length; omega) (fits_zero _ _ _)
          (by rw [hi.core.len]; omega) p
        simp only [rkQ_joinL env.lt p h1.core.ne] at hE
        have e : rkQ p t.Ls + rkQ p b.Ls - ((b.Ls.headD []).countP p : ℚ) =
          rkQ p t.Ls + (rkQ p b.Ls - ((b.Ls.headD []).countP p : ℚ)) := by ring
        rw [e] at hE
        refine Rand.HasE.bind hE ?_
        refine (aGcLoop_inv hs h1.shape.m2 (Nat.zero_le _) _ _ hj0 0
          (by show 0 < (joinL env.lt t.Ls b.Ls).length; omega) (fits_zero _ _ _)
          (by rw [hi.core.len]; omega)).mono ?_
        intro st _
        rfl
      · rw [if_neg hl]
        have hone : b.Ls.length = 1 := by
          have := List.length_pos_of_ne_nil hb.core.ne
          omega
        obtain ⟨o1, o2, o3, o4, o5⟩ := one_level hb hone
        show _ = rkQ p t.Ls
        have : rkQ p b.Ls = ((b.Ls.headD []).countP p : ℚ) := by
          unfold rkQ; rw [o4 p]
        rw [this]; ring

/-- The squared error minus `∑ 4^h` does not grow on average. -/
theorem aMerge_sq {env : Env α} (hord : IsOrd env.lt) (hso : Sorts env) {K : Prop} {S T : List α}
    {a b : Abs α} (hi : Inv env K S a) (hb : Inv env K T b) {p : α → Bool} (hp : Down env.lt p)
    (t : ℚ) :
    Rand.ELe (fun c => (rkQ p c.Ls - t) ^ 2 - q4 c.log) (aMerge env a b)
      ((rkQ p a.Ls + rkQ p b.Ls - t) ^ 2 - (q4 a.log + q4 b.log)) := by
  have hs := hso.perm
  unfold aMerge
  by_cases h0 : b.n = 0
  · rw [if_pos h0, rkQ_empty hb h0 p]
    have hone : b.Ls.length = 1 := by
      rcases hb.core.top with h | h
      · exact h
      · have : 0 < 2 ^ (b.Ls.length - 1) := Nat.pos_of_ne_zero (by positivity)
        omega
    rw [hb.core.one hone]
    show _ ≤ _
    simp
  · rw [if_neg h0]
    have hf := fold_sq hord hso (b.Ls.headD []) hi hp (t - rkQ p b.Ls)
    have hf2 : Rand.ELe (fun c => (rkQ p c.Ls - (t - rkQ p b.Ls + (b.Ls.headD []).countP p)) ^ 2 -
        (q4 c.log + q4 b.log)) ((b.Ls.headD []).foldlM (aUpdate env) a)
        ((rkQ p a.Ls + rkQ p b.Ls - t) ^ 2 - (q4 a.log + q4 b.log)) := by
      have h1 := hf.add (Rand.ELe.const (f := fun _ => -(q4 b.log : ℚ)) (c := -(q4 b.log : ℚ))
        ((fold_inv hs (b.Ls.headD []) hi).mono fun _ _ => le_refl _))
      have h2 := h1.of_le (g := fun c =>
        (rkQ p c.Ls - (t - rkQ p b.Ls + (b.Ls.headD []).countP p)) ^ 2 - (q4 c.log + q4 b.log))
        ((fold_inv hs (b.Ls.headD []) hi).mono fun c _ => le_of_eq (by ring))
      exact h2.mono (le_of_eq (by ring))
    refine Rand.ELe.bind hf2 ?_
    refine (fold_inv hs (b.Ls.headD []) hi).mono ?_
    rintro t' ⟨h1, h2, h3, h4, h5⟩
    unfold aUpper
    by_cases hl : 1 < b.Ls.length
    · rw [if_pos hl]
      unfold aHigher
      rw [Rand.bind_assoc]
      have hj := join_inv h1 hb hl
      have hj0 : GInv env False t'.k t'.m 0 (S.length + b.n) t'.zs (S ++ T)
          (joinL env.lt t'.Ls b.Ls) (t'.log ++ b.log) := 
            ⟨hj.core, hj.srt, fun h => h.elim, hj.two, hj.many⟩
      have hjl := joinL_length (lt := env.lt) (os := b.Ls) h1.core.ne
      have hE := aGcLoop_sq hord hso h1.shape.m2 (ubOnNumLevels (a.n + b.n) + 1)
        (joinL env.lt t'.Ls b.Ls, t'.log ++ b.log) hj0 0
        (by show 0 < (joinL env.lt t'.Ls b.Ls).length; omega) (fits_zero _ _ _)
        (by rw [hi.core.len]; omega) hp t
      simp only [rkQ_joinL env.lt p h1.core.ne, q4_append] at hE
      have e : (rkQ p t'.Ls + rkQ p b.Ls - ((b.Ls.headD []).countP p : ℚ) - t) ^ 2 -
          ((q4 t'.log + q4 b.log : Nat) : ℚ) =
          (rkQ p t'.Ls - (t - rkQ p b.Ls + (b.Ls.headD []).countP p)) ^ 2 -
            (q4 t'.log + q4 b.log) := by push_cast; ring
      rw [e] at hE
      refine Rand.ELe.bind hE ?_
      refine (aGcLoop_inv hs h1.shape.m2 (Nat.zero_le _) _ _ hj0 0
        (by show 0 < (joinL env.lt t'.Ls b.Ls).length; omega) (fits_zero _ _ _)
        (by rw [hi.core.len]; omega)).mono ?_
      intro st _
      exact le_refl _
    · rw [if_neg hl]
      have hone : b.Ls.length = 1 := by
        have := List.length_pos_of_ne_nil hb.core.ne
        omega
      obtain ⟨o1, o2, o3, o4, o5⟩ := one_level hb hone
      have : rkQ p b.Ls = ((b.Ls.headD []).countP p : ℚ) := by
        unfold rkQ; rw [o4 p]
      show (rkQ p t'.Ls - t) ^ 2 - (q4 t'.log : ℚ) ≤ _
      rw [this, o2]
      simp

end Verif.Kll
