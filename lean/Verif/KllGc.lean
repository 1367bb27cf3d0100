import Verif.KllUpdate

/-!
# `generalItemsCompress` on the list of levels

The loop works in one buffer: the finished levels at the bottom, then unused cells, then the levels
still to be treated.
-/

namespace Verif.Kll

open Verif

variable {α : Type}

/-! ## The abstract loop -/

/-- One round: level `c` is kept, or compacted with a coin. -/
def aGcRound (env : Env α) (k m : Nat) (zs : Bool) (st : List (List α) × List Nat) (c : Nat) :
    Rand (List (List α) × List Nat) :=
  if size st.1 < tot k m st.1.length ∨ pop st.1 c < cap k m (st.1.length - (c + 1)) then
    Rand.ret st
  else Rand.draw 2 >>= fun o => Rand.ret (cstep env (c == 0 && !zs) o c st.1, c :: st.2)

def aGcLoop (env : Env α) (k m : Nat) (zs : Bool) :
    Nat → List (List α) × List Nat → Nat → Rand (List (List α) × List Nat)
  | 0, _, _ => Rand.panic
  | fuel + 1, st, c => do
    let st ← aGcRound env k m zs st c
    if c + 1 = st.1.length then Rand.ret st else aGcLoop env k m zs fuel st (c + 1)

/-! ## The buffer -/

/-- The state of the loop before round `c`. -/
structure GRep (k m W : Nat) (g : GC α) (Ls : List (List α)) (log : List Nat) (c : Nat) : Prop where
  numLevels : g.numLevels = Ls.length
  cur : g.cur = size Ls
  target : g.target = tot k m Ls.length
  log : g.log = log
  arrays : ∃ Out In : List (List α), ∃ J : List α, ∃ P Zi Zo : List Nat,
    Ls = Out ++ In ∧ Out.length = c ∧ g.buf = Out.flatten ++ J ++ In.flatten ∧
    g.inLevels = P ++ offs (size Out + J.length) In ++ Zi ∧ P.length = c ∧
    g.outLevels = offs 0 Out ++ Zo ∧ g.inLevels.length = W ∧ g.outLevels.length = W

theorem offs_zero_append (Out : List (List α)) (l : List α) (z : Nat) (Zo : List Nat) {c : Nat}
    (hc : Out.length = c) (v : Nat) (hv : v = size Out + l.length) :
    wr (offs 0 Out ++ z :: Zo) (c + 1) v = .ok (offs 0 (Out ++ [l]) ++ Zo) := by
  rw [wr_mid _ _ _ _ (by rw [offs_length, hc])]
  subst hv
  rw [offs_append, offs_eq 0 Out]
  simp only [offs]
  asm
  simp

/-- Reading the boundaries of level `c`, after `gcTop`. -/
theorem rd_in (P : List Nat) (x : Nat) (l B : List α) (C : List (List α)) (Z : List Nat) {c : Nat}
    (hP : P.length = c) :
    rd (P ++ offs x (l :: B :: C) ++ Z) c = .ok x ∧
    rd (P ++ offs x (l :: B :: C) ++ Z) (c + 1) = .ok (x + l.length) ∧
    rd (P ++ offs x (l :: B :: C) ++ Z) (c + 2) = .ok (x + l.length + B.length) := by
  obtain ⟨Q, hQ⟩ : ∃ Q, offs (x + l.length + B.length) C = (x + l.length + B.length) :: Q := by
    cases C with
    | nil => exact ⟨_, rfl⟩
    | cons c C => exact ⟨_, rfl⟩
  simp only [offs, hQ]
  refine ⟨?_, ?_, ?_⟩
  · rw [show P ++ x :: (x + l.length) :: (x + l.length + B.length) :: Q ++ Z =
      P ++ x :: ((x + l.length) :: (x + l.length + B.length) :: Q ++ Z) by asm]
    exact rd_mid _ _ _ hP.symm
  · rw [show P ++ x :: (x + l.length) :: (x + l.length + B.length) :: Q ++ Z =
      (P ++ [x]) ++ (x + l.length) :: ((x + l.length + B.length) :: Q ++ Z) by asm]
    exact rd_mid _ _ _ (by simp [hP])
  · rw [show P ++ x :: (x + l.length) :: (x + l.length + B.length) :: Q ++ Z =
      (P ++ [x, x + l.length]) ++ (x + l.length + B.length) :: (Q ++ Z) by asm]
    exact rd_mid _ _ _ (by simp [hP])

/-- `gcTop` -/
theorem gcTop_ok {k m W : Nat} {g : GC α} {Ls : List (List α)} {log : List Nat} {c : Nat}
    (hg : GRep k m W g Ls log c) (hc : c < Ls.length) (hW : Ls.length + 2 ≤ W) :
    ∃ g' Out l B C J P Zi Zo, gcTop g c = .ok g' ∧
      (Ls = Out ++ l :: B :: C ∨ (Ls = Out ++ [l] ∧ B = [] ∧ C = [])) ∧ Out.length = c ∧
      g'.buf = Out.flatten ++ J ++ (l :: B :: C).flatten ∧
      g'.inLevels = P ++ offs (size Out + J.length) (l :: B :: C) ++ Zi ∧ P.length = c ∧
      g'.outLevels = offs 0 Out ++ Zo ∧ g'.inLevels.length = W ∧ g'.outLevels.length = W ∧
      g'.numLevels = Ls.length ∧ g'.cur = size Ls ∧ g'.target = tot k m Ls.length ∧
      g'.log = log := by
  obtain ⟨Out, In, J, P, Zi, Zo, rfl, hO, hb, hil, hP, hol, hW1, hW2⟩ := hg.arrays
  cases In with
  | nil => simp at hc; omega
  | cons l In =>
    unfold gcTop
    rw [hg.numLevels]
    by_cases ht : c + 1 = (Out ++ l :: In).length
    · have hIn : In = [] := by
        have : In.length = 0 := by simp at ht; omega
        exact List.eq_nil_of_length_eq_zero this
      subst hIn
      rw [if_pos ht]
      have hZ : ∃ z Zi', Zi = z :: Zi' := by
        cases Zi with
        | nil =>
          rw [hil] at hW1
          simp [offs_length, hP] at hW1 hW ht
          omega
        | cons z Zi => exact ⟨z, Zi, rfl⟩
      obtain ⟨z, Zi', rfl⟩ := hZ
      have hr : rd g.inLevels (c + 1) = .ok (size Out + J.length + l.length) := by
        rw [hil]
        simp only [offs]
        rw [show P ++ [size Out + J.length, size Out + J.length + l.length] ++ z :: Zi' =
          (P ++ [size Out + J.length]) ++ (size Out + J.length + l.length) :: z :: Zi' by asm]
        exact rd_mid _ _ _ (by simp [hP])
      have hw : wr g.inLevels (c + 2) (size Out + J.length + l.length) =
          .ok (P ++ offs (size Out + J.length) [l, []] ++ Zi') := by
        rw [hil]
        rw [wr_mid _ _ _ _ (by simp [offs_length, hP])]
        simp only [offs]
        asm
        simp
      rw [hr, Outcome.ok_bind, hw, Outcome.ok_bind]
      refine ⟨_, Out, l, [], [], J, P, Zi', Zo, rfl, Or.inr ⟨rfl, rfl, rfl⟩, hO, ?_, rfl, hP, hol,
        ?_, hW2, rfl, hg.cur, hg.target, hg.log⟩
      · rw [hb]; simp
      · rw [hil] at hW1
        simp [offs_length] at hW1 ⊢
        omega
    · rw [if_neg ht]
      cases In with
      | nil => simp at ht; omega
      | cons B C =>
        exact ⟨g, Out, l, B, C, J, P, Zi, Zo, rfl, Or.inl rfl, hO, hb, hil, hP, hol, hW1, hW2,
          hg.numLevels, hg.cur, hg.target, hg.log⟩

/-- One round of the loop is simulated. -/
theorem gcRound_sim {env : Env α} (hs : ∀ l, (env.sort l).Perm l) {k m W : Nat} {zs : Bool}
    {g : GC α} {Ls : List (List α)} {log : List Nat} {c : Nat} (hg : GRep k m W g Ls log c)
    (hc : c < Ls.length) (hW : Ls.length + 2 ≤ W) (hk : k ≤ 65535) (hm : 2 ≤ m)
    (hL : Ls.length + 1 ≤ 61) :
    Rand.Sim (fun g st => GRep k m W g st.1 st.2 (c + 1)) (gcRound env k m zs g c)
      (aGcRound env k m zs (Ls, log) c) := by
  obtain ⟨g', Out, l, B, C, J, P, Zi, Zo, htop, hf, hO, hb, hil, hP, hol, hW1, hW2, hn, hcur, htar,
    hlog⟩ := gcTop_ok hg hc hW
  have hpop : pop Ls c = l.length := by rw [← hO, pop_form hf]
  obtain ⟨r1, r2, r3⟩ := rd_in P (size Out + J.length) l B C Zi hP
  rw [← hil] at r1 r2 r3
  have hlen : Ls.length = c + 1 + (if c + 1 = Ls.length then 0 else 1 + C.length) := by
    rcases hf with rfl | ⟨rfl, rfl, rfl⟩
    · rw [if_neg (by simp; omega)]; simp; omega
    · rw [if_pos (by simp; omega)]; simp; omega
  obtain ⟨z, Zo', rfl⟩ : ∃ z Zo', Zo = z :: Zo' := by
    cases Zo with
    | nil =>
      rw [hol] at hW2
      simp [offs_length] at hW2
      omega
    | cons z Zo => exact ⟨z, Zo, rfl⟩
  have rout : rd g'.outLevels c = .ok (size Out) := by
    rw [hol, offs_eq]
    rw [show starts 0 Out ++ [0 + size Out] ++ z :: Zo' =
      starts 0 Out ++ (0 + size Out) :: z :: Zo' by asm, rd_mid _ _ _ (by rw [starts_length, hO])]
    simp
  have hof : Out.flatten.length = size Out := rfl
  unfold gcRound
  rw [htop, Rand.ofOutcome_ok, Rand.ret_bind]
  have hkeep : gcKeeps k m g' c = .ok (decide (size Ls < tot k m Ls.length ∨
      pop Ls c < cap k m (Ls.length - (c + 1)))) := by
    unfold gcKeeps
    rw [r1, Outcome.ok_bind, r2, Outcome.ok_bind, sub_ok (by omega), Outcome.ok_bind, hcur, htar,
      hn, show size Out + J.length + l.length - (size Out + J.length) = l.length by omega]
    by_cases h1 : size Ls < tot k m Ls.length
    · rw [if_pos h1]; simp [h1]
    · rw [if_neg h1, levelCapacity_ok hk hc (by omega), Outcome.ok_bind, hpop]
      simp [h1]
  rw [hkeep, Rand.ofOutcome_ok, Rand.ret_bind]
  unfold aGcRound
  by_cases hkp : size Ls < tot k m Ls.length ∨ pop Ls c < cap k m (Ls.length - (c + 1))
  · -- the level is kept
    rw [if_pos (by simpa using hkp), if_pos hkp]
    obtain ⟨J', hmv, hJ'⟩ := moveDown_ok Out.flatten J l (B ++ C.flatten)
    have hcopy : gcCopy g' c = .ok { g' with
        buf := Out.flatten ++ l ++ J' ++ (B ++ C.flatten)
        outLevels := offs 0 (Out ++ [l]) ++ Zo' } := by
      unfold gcCopy
      rw [r1, Outcome.ok_bind, r2, Outcome.ok_bind, sub_ok (by omega), Outcome.ok_bind, rout,
        Outcome.ok_bind, show size Out + J.length + l.length - (size Out + J.length) = l.length by
          omega]
      have : g'.buf = Out.flatten ++ J ++ l ++ (B ++ C.flatten) := by
        rw [hb, List.flatten_cons, List.flatten_cons]; asm
      rw [this]
      rw [hof] at hmv
      rw [hmv, Outcome.ok_bind, hol, offs_zero_append Out l z Zo' hO _ rfl, Outcome.ok_bind]
    rw [hcopy]
    refine ⟨hn, hcur, htar, hlog, ?_⟩
    have hw2 : (offs 0 (Out ++ [l]) ++ Zo').length = W := by
      rw [hol] at hW2
      simp [offs_length] at hW2 ⊢
      omega
    rcases hf with rfl | ⟨rfl, rfl, rfl⟩
    · refine ⟨Out ++ [l], B :: C, J', P ++ [size Out + J.length], Zi, Zo', by asm, by simp [hO], ?_,
        ?_, by simp [hP], rfl, hW1, hw2⟩
      · show Out.flatten ++ l ++ J' ++ (B ++ C.flatten) = _
        simp
      · show g'.inLevels = _
        rw [hil]
        simp only [offs, size_append, size_cons, size_nil, hJ']
        rw [show size Out + (l.length + 0) + J.length = size Out + J.length + l.length by omega]
        asm
    · refine ⟨Out ++ [l], [], J', P ++ [size Out + J.length],
        (size Out + J.length + l.length) :: Zi, Zo', by asm, by simp [hO], ?_,
        ?_, by simp [hP], rfl, hW1, hw2⟩
      · show Out.flatten ++ l ++ J' ++ ([] ++ [].flatten) = _
        simp
      · show g'.inLevels = _
        rw [hil]
        simp only [offs, size_append, size_cons, size_nil, hJ']
        rw [show size Out + (l.length + 0) + J.length = size Out + J.length + l.length by omega]
        asm
        simp
  · -- the level is compacted
    rw [if_neg (by simpa using hkp), if_neg hkp]
    refine Rand.Sim.draw fun o ho => ?_
    have hcap : cap k m (Ls.length - (c + 1)) ≤ pop Ls c := by
      by_contra hcon
      exact hkp (Or.inr (by omega))
    have hl2 : 2 ≤ l.length := by
      rw [← hpop]
      exact le_trans hm (le_trans (m_le_cap k m _) hcap)
    set t := l.length / 2 with ht
    set r := l.length % 2 with hrd
    have hLl : l.length = r + 2 * t := by omega
    have hr2 : r < 2 := Nat.mod_lt _ (by omega)
    have hlol : (leftover l).length = r := leftover_length l
    have hXl : (evenPart l).length = 2 * t := evenPart_length l
    have hbuf : g'.buf = Out.flatten ++ J ++ leftover l ++ (evenPart l ++ B ++ C.flatten) := by
      rw [hb, List.flatten_cons, List.flatten_cons]
      conv_lhs => rw [← leftover_append l]
      asm
    -- the left-over item
    obtain ⟨J', hlo, hJ'⟩ : ∃ J', gcLeftover (l.length % 2 == 1) g'.buf (size Out)
        (size Out + J.length) =
        .ok (Out.flatten ++ leftover l ++ J' ++ (evenPart l ++ B ++ C.flatten)) ∧
        J'.length = J.length := by
      unfold gcLeftover
      by_cases h1 : r = 1
      · rw [if_pos (by rw [beq_iff_eq]; exact h1), hbuf]
        obtain ⟨J', h2, h3⟩ := moveDown_ok Out.flatten J (leftover l) (evenPart l ++ B ++ C.flatten)
        rw [hof, hlol, h1] at h2
        exact ⟨J', h2, h3⟩
      · rw [if_neg (by rw [beq_iff_eq]; exact h1), hbuf]
        have : leftover l = [] := List.eq_nil_of_length_eq_zero (by omega)
        rw [this]
        exact ⟨J, by asm, rfl⟩
    obtain ⟨Y, hY, hYl⟩ := compactSegment_ok hs (Out.flatten ++ leftover l ++ J') (evenPart l) B
      C.flatten (c == 0 && !zs) ho hXl (by omega)
    have hPl : (Out.flatten ++ leftover l ++ J').length = size Out + J.length + r := by
      simp only [List.length_append, hlol, hof, hJ']; omega
    rw [hPl] at hY
    have hadj1 : (if (l.length % 2 == 1) = true then size Out + J.length + 1
        else size Out + J.length) = size Out + J.length + r := by
      by_cases h1 : r = 1
      · rw [if_pos (by rw [beq_iff_eq]; exact h1)]; omega
      · rw [if_neg (by rw [beq_iff_eq]; exact h1)]; omega
    have hadj2 : (if (l.length % 2 == 1) = true then l.length - 1 else l.length) = 2 * t := by
      by_cases h1 : r = 1
      · rw [if_pos (by rw [beq_iff_eq]; exact h1)]; omega
      · rw [if_neg (by rw [beq_iff_eq]; exact h1)]; omega
    have hadj3 : (if (l.length % 2 == 1) = true then size Out + 1 else size Out) =
        size Out + (leftover l).length := by
      rw [hlol]
      by_cases h1 : r = 1
      · rw [if_pos (by rw [beq_iff_eq]; exact h1)]; omega
      · rw [if_neg (by rw [beq_iff_eq]; exact h1)]; omega
    have hdelta : gcDelta k m Ls.length c =
        .ok (if c + 1 = Ls.length then cap k m Ls.length else 0) := by
      unfold gcDelta
      by_cases h1 : c + 1 = Ls.length
      · rw [if_pos h1, if_pos h1, levelCapacity_ok hk (by omega) hL]
        rfl
      · rw [if_neg h1, if_neg h1]
    have hsz : t ≤ size Ls := by
      rcases hf with rfl | ⟨rfl, rfl, rfl⟩
      · simp only [size_append, size_cons]; omega
      · simp only [size_append, size_cons]; omega
    have hwin : wr g'.inLevels (c + 1) (size Out + J.length + l.length - t) =
        .ok ((P ++ [size Out + J.length]) ++
          offs (size Out + J.length + l.length - t) (above env (c == 0 && !zs) o (evenPart l) B :: C) ++
          Zi) := by
      rw [hil]
      simp only [offs]
      rw [show P ++ (size Out + J.length) :: (size Out + J.length + l.length) ::
        offs (size Out + J.length + l.length + B.length) C ++ Zi =
        (P ++ [size Out + J.length]) ++ (size Out + J.length + l.length) ::
        (offs (size Out + J.length + l.length + B.length) C ++ Zi) by asm]
      rw [wr_mid _ _ _ _ (by simp [hP])]
      have hab := above_length hs (c == 0 && !zs) o (evenPart l) B
      rw [show size Out + J.length + l.length - t +
        (above env (c == 0 && !zs) o (evenPart l) B).length =
        size Out + J.length + l.length + B.length by rw [hab]; omega]
      asm
    have hcomp : gcCompact env k m zs g' c o = .ok
        { buf := Out.flatten ++ leftover l ++ J' ++ Y ++
            above env (c == 0 && !zs) o (evenPart l) B ++ C.flatten
          inLevels := (P ++ [size Out + J.length]) ++
            offs (size Out + J.length + l.length - t)
              (above env (c == 0 && !zs) o (evenPart l) B :: C) ++ Zi
          outLevels := offs 0 (Out ++ [leftover l]) ++ Zo'
          numLevels := if c + 1 = Ls.length then Ls.length + 1 else Ls.length
          cur := size Ls - t
          target := tot k m Ls.length + (if c + 1 = Ls.length then cap k m Ls.length else 0)
          log := c :: log } := by
      unfold gcCompact
      rw [r1, Outcome.ok_bind, r2, Outcome.ok_bind, r3, Outcome.ok_bind, sub_ok (by omega),
        Outcome.ok_bind, sub_ok (by omega), Outcome.ok_bind]
      simp only [show size Out + J.length + l.length - (size Out + J.length) = l.length by omega,
        show size Out + J.length + l.length + B.length - (size Out + J.length + l.length) =
          B.length by omega]
      rw [rout, Outcome.ok_bind, hlo, Outcome.ok_bind, hadj3, hol,
        offs_zero_append Out (leftover l) z Zo' hO _ rfl, Outcome.ok_bind, hadj1, hadj2]
      rw [show size Out + J.length + l.length = size Out + J.length + r + 2 * t by omega]
      rw [show Out.flatten ++ leftover l ++ J' ++ (evenPart l ++ B ++ C.flatten) =
        Out.flatten ++ leftover l ++ J' ++ evenPart l ++ B ++ C.flatten by asm]
      rw [hY, Outcome.ok_bind, hcur, show 2 * t / 2 = t by omega, sub_ok hsz, Outcome.ok_bind,
        sub_ok (by omega), Outcome.ok_bind]
      rw [show size Out + J.length + r + 2 * t = size Out + J.length + l.length by omega, hwin,
        Outcome.ok_bind, hn, hdelta, Outcome.ok_bind, htar, hlog]
    show Rand.Sim _ (Rand.ofOutcome (gcCompact env k m zs g' c o)) _
    rw [hcomp]
    have hcs : cstep env (c == 0 && !zs) o c Ls =
        Out ++ leftover l :: above env (c == 0 && !zs) o (evenPart l) B :: C := by
      unfold cstep
      rw [← hO]
      rcases hf with rfl | ⟨rfl, rfl, rfl⟩
      · rw [if_neg (by simp), compactAt_append]
      · rw [if_pos (by simp), show Out ++ [l] ++ [[]] = Out ++ l :: [] :: [] by asm,
          compactAt_append]
    have hcl := cstep_length env (c == 0 && !zs) o hc
    have hcsz := cstep_size hs (c == 0 && !zs) o hc
    refine ⟨hcl.symm, ?_, ?_, rfl, ?_⟩
    · show size Ls - t = size (cstep env (c == 0 && !zs) o c Ls)
      rw [hpop] at hcsz
      omega
    · show _ = tot k m (cstep env (c == 0 && !zs) o c Ls).length
      rw [hcl]
      by_cases h1 : c + 1 = Ls.length
      · simp only [if_pos h1]; rfl
      · simp only [if_neg h1]; rfl
    · refine ⟨Out ++ [leftover l], above env (c == 0 && !zs) o (evenPart l) B :: C, J' ++ Y,
        P ++ [size Out + J.length], Zi, Zo', ?_, by simp [hO], ?_, ?_, by simp [hP], rfl, ?_, ?_⟩
      · rw [hcs]; asm
      · show Out.flatten ++ leftover l ++ J' ++ Y ++
            above env (c == 0 && !zs) o (evenPart l) B ++ C.flatten = _
        simp
      · show (P ++ [size Out + J.length]) ++ offs _ _ ++ Zi = _
        rw [show size (Out ++ [leftover l]) + (J' ++ Y).length =
          size Out + J.length + l.length - t by
            simp only [size_append, size_cons, size_nil, List.length_append, hlol, hJ', hYl]; omega]
      · show ((P ++ [size Out + J.length]) ++ offs (size Out + J.length + l.length - t)
            (above env (c == 0 && !zs) o (evenPart l) B :: C) ++ Zi).length = W
        rw [hil] at hW1
        simp [offs_length] at hW1 ⊢
        omega
      · show (offs 0 (Out ++ [leftover l]) ++ Zo').length = W
        rw [hol] at hW2
        simp [offs_length] at hW2 ⊢
        omega

/-! ## The invariant of the loop -/

theorem tot_succ (k m L : Nat) : tot k m (L + 1) = tot k m L + cap k m L := rfl

/-- Number of items in the first `c` levels -/
def popsBelow (Ls : List (List α)) (c : Nat) : Nat := size (Ls.take c)

/-- Before round `c` the finished levels are within their capacities, or there is room already. -/
def Fits (k m : Nat) (Ls : List (List α)) (c : Nat) : Prop :=
  size Ls < tot k m Ls.length ∨
    popsBelow Ls c + tot k m (Ls.length - c) ≤ tot k m Ls.length

theorem popsBelow_succ (Ls : List (List α)) {c : Nat} (hc : c < Ls.length) :
    popsBelow Ls (c + 1) = popsBelow Ls c + pop Ls c := by
  unfold popsBelow pop
  have e : Ls.take (c + 1) = Ls.take c ++ [Ls[c]] := by
    rw [List.take_add_one, List.getElem?_eq_getElem hc]; rfl
  rw [e, size_append, size_cons, size_nil, List.getD_eq_getElem?_getD, List.getElem?_eq_getElem hc]
  rfl

theorem popsBelow_cstep {env : Env α} (doSort : Bool) (o : Nat) {Ls : List (List α)} {c : Nat}
    (hc : c < Ls.length) :
    popsBelow (cstep env doSort o c Ls) (c + 1) = popsBelow Ls c + pop Ls c % 2 := by
  obtain ⟨A, L, B, C, hf, hA, hcs⟩ := cstep_form env doSort hc
  rw [hcs o]
  unfold popsBelow
  have e1 : (A ++ leftover L :: above env doSort o (evenPart L) B :: C).take (c + 1) =
      A ++ [leftover L] := by
    rw [show A ++ leftover L :: above env doSort o (evenPart L) B :: C =
      (A ++ [leftover L]) ++ above env doSort o (evenPart L) B :: C by asm,
      show c + 1 = (A ++ [leftover L]).length by simp [hA], List.take_left]
  have e2 : Ls.take c = A := by
    rw [← hA]
    rcases hf with rfl | ⟨rfl, rfl, rfl⟩
    · rw [List.take_left]
    · rw [List.take_left]
  rw [e1, e2, size_append, size_cons, size_nil, leftover_length, ← hA, pop_form hf]
  rfl

theorem fits_keep {k m : Nat} {Ls : List (List α)} {c : Nat} (hc : c < Ls.length)
    (hf : Fits k m Ls c)
    (hkp : size Ls < tot k m Ls.length ∨ pop Ls c < cap k m (Ls.length - (c + 1))) :
    Fits k m Ls (c + 1) := by
  rcases hf with h | h
  · exact Or.inl h
  · rcases hkp with h1 | h1
    · exact Or.inl h1
    · right
      rw [popsBelow_succ Ls hc]
      have e : tot k m (Ls.length - c) =
          tot k m (Ls.length - (c + 1)) + cap k m (Ls.length - (c + 1)) := by
        rw [← tot_succ]; congr 1; omega
      omega

theorem fits_cstep {env : Env α} (hs : ∀ l, (env.sort l).Perm l) {k m : Nat} (hm : 2 ≤ m)
    {Ls : List (List α)} {c : Nat} (hc : c < Ls.length) (hf : Fits k m Ls c) (doSort : Bool)
    (o : Nat) : Fits k m (cstep env doSort o c Ls) (c + 1) := by
  have hl := cstep_length env doSort o hc
  have hz := cstep_size hs doSort o hc
  have hpb := popsBelow_cstep (env := env) doSort o hc
  unfold Fits
  rw [hl, hpb]
  have hmod : pop Ls c % 2 < 2 := Nat.mod_lt _ (by omega)
  by_cases ht : c + 1 = Ls.length
  · rw [if_pos ht, tot_succ]
    have h1 := m_le_cap k m Ls.length
    rcases hf with h | h
    · left; omega
    · right
      rw [show Ls.length + 1 - (c + 1) = Ls.length - c by omega]
      omega
  · rw [if_neg ht]
    rcases hf with h | h
    · left; omega
    · right
      have e : tot k m (Ls.length - c) =
          tot k m (Ls.length - (c + 1)) + cap k m (Ls.length - (c + 1)) := by
        rw [← tot_succ]; congr 1; omega
      have h1 := m_le_cap k m (Ls.length - (c + 1))
      omega

theorem fits_end {k m : Nat} {Ls : List (List α)} (hf : Fits k m Ls Ls.length) :
    size Ls ≤ tot k m Ls.length := by
  rcases hf with h | h
  · omega
  · unfold popsBelow at h
    rw [List.take_length] at h
    omega

/-- What a round keeps. -/
structure GInv (env : Env α) (K : Prop) (k m κ n : Nat) (zs : Bool) (S : List α)
    (Ls : List (List α)) (log : List Nat) : Prop where
  core : Core n S Ls log
  srt : IsOrd env.lt → Sorts env → Srt env S zs Ls log
  pot : K → k ≤ 32767 ∧ Pot κ n Ls log
  two : 2 ≤ Ls.length
  many : 2 ≤ size Ls

theorem m_le_tot (k m L : Nat) : m * L ≤ tot k m L := by
  induction L with
  | zero => simp
  | succ L ih =>
    rw [tot_succ, Nat.mul_succ]
    have := m_le_cap k m L
    omega

theorem aGcRound_inv {env : Env α} (hs : ∀ l, (env.sort l).Perm l) {K : Prop} {k m κ n : Nat}
    {zs : Bool} {S : List α} {st : List (List α) × List Nat} (hm : 2 ≤ m) (hκ : κ ≤ k)
    (hi : GInv env K k m κ n zs S st.1 st.2) {c : Nat} (hc : c < st.1.length)
    (hf : Fits k m st.1 c) :
    Rand.All (fun st' => GInv env K k m κ n zs S st'.1 st'.2 ∧ Fits k m st'.1 (c + 1) ∧
      st.1.length ≤ st'.1.length) (aGcRound env k m zs st c) := by
  unfold aGcRound
  by_cases hkp : size st.1 < tot k m st.1.length ∨ pop st.1 c < cap k m (st.1.length - (c + 1))
  · rw [if_pos hkp]
    exact ⟨hi, fits_keep hc hf hkp, Nat.le_refl _⟩
  · rw [if_neg hkp]
    refine Rand.All.bind (P := fun o => o < 2) (Rand.All.draw (by omega) fun i hi => hi) ?_
    intro o ho
    have hcap : cap k m (st.1.length - (c + 1)) ≤ pop st.1 c := by
      by_contra hcon
      exact hkp (Or.inr (by omega))
    have hp : 2 ≤ pop st.1 c := le_trans hm (le_trans (m_le_cap k m _) hcap)
    have hlen := cstep_length env (c == 0 && !zs) o hc
    refine ⟨⟨hi.core.comp hs _ o hc hp, ?_, ?_, ?_, ?_⟩, fits_cstep hs hm hc hf _ o, ?_⟩
    · intro hord hso
      refine (hi.srt hord hso).comp hord hso o hc ?_
      intro h1 h2
      subst h2
      simpa using h1
    · intro hK
      obtain ⟨h1, h2⟩ := hi.pot hK
      exact ⟨h1, h2.comp hs hi.core.weight hκ h1 hm _ o hc hcap⟩
    · show 2 ≤ (cstep env (c == 0 && !zs) o c st.1).length
      have := hi.two
      rw [hlen]
      split <;> omega
    · show 2 ≤ size (cstep env (c == 0 && !zs) o c st.1)
      have h1 := cstep_size hs (c == 0 && !zs) o hc
      have h2 : tot k m st.1.length ≤ size st.1 := by
        by_contra hcon
        exact hkp (Or.inl (by omega))
      have h3 := m_le_tot k m st.1.length
      have h4 : 2 * 2 ≤ m * st.1.length := Nat.mul_le_mul hm hi.two
      have h5 : pop st.1 c ≤ size st.1 := by
        have := popsBelow_succ st.1 hc
        have h6 := size_take_le st.1 (c + 1)
        unfold popsBelow at this
        omega
      omega
    · have := cstep_length env (c == 0 && !zs) o hc
      show st.1.length ≤ (cstep env (c == 0 && !zs) o c st.1).length
      rw [this]
      split <;> omega

/-- The levels stay below the bound used for the boundary arrays. -/
theorem Core.ub {n : Nat} {S : List α} {Ls : List (List α)} {log : List Nat}
    (hc : Core n S Ls log) : Ls.length ≤ ubOnNumLevels n := by
  unfold ubOnNumLevels
  rcases hc.top with h | h
  · omega
  · by_cases h1 : Ls.length = 1
    · omega
    · have hn : n ≠ 0 := by
        rintro rfl
        have : 0 < 2 ^ (Ls.length - 1) := Nat.pos_of_ne_zero (by positivity)
        omega
      have := (Nat.le_log2 hn).2 h
      omega

theorem aGcLoop_inv {env : Env α} (hs : ∀ l, (env.sort l).Perm l) {K : Prop} {k m κ n : Nat}
    {zs : Bool} {S : List α} (hm : 2 ≤ m) (hκ : κ ≤ k) (fuel : Nat)
    (st : List (List α) × List Nat)
    (hi : GInv env K k m κ n zs S st.1 st.2) (c : Nat) (hc : c < st.1.length)
    (hf : Fits k m st.1 c) (hfuel : ubOnNumLevels n < fuel + c) :
    Rand.All (fun st' => GInv env K k m κ n zs S st'.1 st'.2 ∧
      size st'.1 ≤ tot k m st'.1.length ∧ st.1.length ≤ st'.1.length)
      (aGcLoop env k m zs fuel st c) := by
  induction fuel generalizing st c with
  | zero => have := hi.core.ub; omega
  | succ fuel ih =>
    unfold aGcLoop
    refine Rand.All.bind (aGcRound_inv hs hm hκ hi hc hf) ?_
    rintro st' ⟨h1, h2, h3⟩
    by_cases hend : c + 1 = st'.1.length
    · rw [if_pos hend]
      rw [hend] at h2
      exact ⟨h1, fits_end h2, h3⟩
    · rw [if_neg hend]
      exact (ih st' h1 (c + 1) (by omega) h2 (by omega)).mono fun st2 h => ⟨h.1, h.2.1, by omega⟩

theorem gcLoop_sim {env : Env α} (hs : ∀ l, (env.sort l).Perm l) {k m n : Nat}
    {zs : Bool} {S : List α} (hk : k ≤ 65535) (hm : 2 ≤ m) (hn : n < 2 ^ 60) (fuel : Nat)
    (g : GC α) (st : List (List α) × List Nat) (hi : GInv env False k m 0 n zs S st.1 st.2) (c : Nat)
    (hg : GRep k m (ubOnNumLevels n + 2) g st.1 st.2 c) (hc : c < st.1.length)
    (hf : Fits k m st.1 c) :
    Rand.Sim (fun g st => GRep k m (ubOnNumLevels n + 2) g st.1 st.2 st.1.length)
      (gcLoop env k m zs fuel g c) (aGcLoop env k m zs fuel st c) := by
  induction fuel generalizing st g c with
  | zero => exact trivial
  | succ fuel ih =>
    unfold gcLoop aGcLoop
    have hL := hi.core.levels_le hn
    have hub := hi.core.ub
    refine Rand.Sim.bind (gcRound_sim hs hg hc (by omega) hk hm (by omega))
      (aGcRound_inv hs hm (Nat.zero_le k) hi hc hf) ?_
    rintro g' st' hg' ⟨h1, h2, h3⟩
    rw [hg'.numLevels]
    by_cases hend : c + 1 = st'.1.length
    · rw [if_pos hend, if_pos hend]
      rw [hend] at hg'
      exact hg'
    · rw [if_neg hend, if_neg hend]
      exact ih g' st' h1 (c + 1) hg' (by omega) h2

/-! ## Expectations -/

theorem aGcRound_E {env : Env α} (hs : ∀ l, (env.sort l).Perm l) {k m : Nat} {zs : Bool}
    {st : List (List α) × List Nat} {c : Nat} (hc : c < st.1.length) (p : α → Bool) :
    Rand.HasE (fun st' => rkQ p st'.1) (aGcRound env k m zs st c) (rkQ p st.1) := by
  unfold aGcRound
  by_cases hkp : size st.1 < tot k m st.1.length ∨ pop st.1 c < cap k m (st.1.length - (c + 1))
  · rw [if_pos hkp]; exact Rand.HasE.ret
  · rw [if_neg hkp]
    refine Rand.HasE.bind (h := fun o => rkQ p (cstep env (c == 0 && !zs) o c st.1)) ?_ ?_
    · have hd := Rand.HasE.draw (n := 2)
        (f := fun o => rkQ p (cstep env (c == 0 && !zs) o c st.1)) (by omega)
      rw [half_sum, rkQ_cstep_avg hs p _ hc] at hd
      exact hd
    · exact Rand.All.draw (by omega) fun o ho => rfl

theorem aGcLoop_E {env : Env α} (hs : ∀ l, (env.sort l).Perm l) {k m n : Nat}
    {zs : Bool} {S : List α} (hm : 2 ≤ m) (fuel : Nat)
    (st : List (List α) × List Nat)
    (hi : GInv env False k m 0 n zs S st.1 st.2) (c : Nat) (hc : c < st.1.length)
    (hf : Fits k m st.1 c) (hfuel : ubOnNumLevels n < fuel + c) (p : α → Bool) :
    Rand.HasE (fun st' => rkQ p st'.1) (aGcLoop env k m zs fuel st c) (rkQ p st.1) := by
  induction fuel generalizing st c with
  | zero => have := hi.core.ub; omega
  | succ fuel ih =>
    unfold aGcLoop
    refine Rand.HasE.bind (aGcRound_E hs hc p) ?_
    refine (aGcRound_inv hs hm (Nat.zero_le k) hi hc hf).mono ?_
    rintro st' ⟨h1, h2, h3⟩
    by_cases hend : c + 1 = st'.1.length
    · rw [if_pos hend]; exact Rand.HasE.ret
    · rw [if_neg hend]
      exact ih st' h1 (c + 1) (by omega) h2 (by omega)

theorem aGcRound_sq {env : Env α} (hso : Sorts env) {k m : Nat} {zs : Bool}
    {S : List α} {st : List (List α) × List Nat} (hsrt : Srt env S zs st.1 st.2) {c : Nat}
    (hc : c < st.1.length) {p : α → Bool} (hp : Down env.lt p) (t : ℚ) :
    Rand.ELe (fun st' => (rkQ p st'.1 - t) ^ 2 - q4 st'.2) (aGcRound env k m zs st c)
      ((rkQ p st.1 - t) ^ 2 - q4 st.2) := by
  have hs := hso.perm
  unfold aGcRound
  by_cases hkp : size st.1 < tot k m st.1.length ∨ pop st.1 c < cap k m (st.1.length - (c + 1))
  · rw [if_pos hkp]; exact le_refl _
  · rw [if_neg hkp]
    refine Rand.ELe.bind (h := fun o => (rkQ p (cstep env (c == 0 && !zs) o c st.1) - t) ^ 2 -
      (4 ^ c + q4 st.2)) ?_ ?_
    · apply Rand.ELe.draw (by omega)
      rw [half_sum]
      have := sq_cstep_avg hs hp hc (hsrt.ready hso (doSort := c == 0 && !zs) (h := c) (by
        intro e1 e2
        subst e2
        simpa using e1)) t
      linarith
    · refine Rand.All.draw (by omega) fun o ho => ?_
      show _ ≤ _
      simp only [q4_cons]
      push_cast
      exact le_refl _

theorem aGcLoop_sq {env : Env α} (hord : IsOrd env.lt) (hso : Sorts env) {k m n : Nat}
    {zs : Bool} {S : List α} (hm : 2 ≤ m) (fuel : Nat)
    (st : List (List α) × List Nat)
    (hi : GInv env False k m 0 n zs S st.1 st.2) (c : Nat) (hc : c < st.1.length)
    (hf : Fits k m st.1 c) (hfuel : ubOnNumLevels n < fuel + c) {p : α → Bool}
    (hp : Down env.lt p) (t : ℚ) :
    Rand.ELe (fun st' => (rkQ p st'.1 - t) ^ 2 - q4 st'.2) (aGcLoop env k m zs fuel st c)
      ((rkQ p st.1 - t) ^ 2 - q4 st.2) := by
  have hs := hso.perm
  induction fuel generalizing st c with
  | zero => have := hi.core.ub; omega
  | succ fuel ih =>
    unfold aGcLoop
    refine Rand.ELe.bind (aGcRound_sq hso (hi.srt hord hso) hc hp t) ?_
    refine (aGcRound_inv hs hm (Nat.zero_le k) hi hc hf).mono ?_
    rintro st' ⟨h1, h2, h3⟩
    by_cases hend : c + 1 = st'.1.length
    · rw [if_pos hend]; exact le_refl _
    · rw [if_neg hend]
      exact ih st' h1 (c + 1) (by omega) h2 (by omega)

end Verif.Kll
