import Verif.BitPackTables

/-!
# Lemmas about the straight-line block packers
-/

namespace Verif.BitPack

/-- bit `p` (most significant first) of a byte buffer: the independent stream view -/
def byteBit (bytes : List Nat) (p : Nat) : Bool := (bytes.getD (p / 8) 0).testBit (7 - p % 8)

/-- bit `p` of the concatenation of the values, `n` bits each, most significant bit first -/
def streamBit (vals : List Nat) (n p : Nat) : Bool := (vals.getD (p / n) 0).testBit (n - 1 - p % n)

/-! ## Symbolic evaluation of one output bit -/

/-- source bits that statement `st` contributes to output bit `b`; source words have `sw` bits -/
def Stmt.contrib (st : Stmt) (w sw b : Nat) : List (Nat × Nat) :=
  if b < w && Nat.ble st.sh b && st.mask.testBit (b - st.sh) && Nat.blt (b - st.sh + st.r) sw
  then [(st.s, b - st.sh + st.r)] else []

def symStep (w sw b : Nat) (a : Bool × List (Nat × Nat)) (st : Stmt) : Bool × List (Nat × Nat) :=
  if st.isAssign then (false, st.contrib w sw b) else (a.1, a.2 ++ st.contrib w sw b)

def evalSym (src : List Nat) (y b : Nat) (a : Bool × List (Nat × Nat)) : Bool :=
  (a.1 && y.testBit b) || a.2.any fun p => (src.getD p.1 0).testBit p.2

theorem testBit_ge {x n k : Nat} (h : x < 2 ^ n) (hk : n ≤ k) : x.testBit k = false :=
  Nat.testBit_lt_two_pow (Nat.lt_of_lt_of_le h (Nat.pow_le_pow_right (by decide) hk))

theorem val_testBit (st : Stmt) (w sw b x : Nat) (hx : x < 2 ^ sw) :
    (st.val w x).testBit b = (st.contrib w sw b).any fun p => x.testBit p.2 := by
  unfold Stmt.val Stmt.contrib
  simp only [Nat.testBit_mod_two_pow, Nat.testBit_shiftLeft, Nat.testBit_and,
    Nat.testBit_shiftRight]
  by_cases h4 : b - st.sh + st.r < sw
  · have h5 : Nat.blt (b - st.sh + st.r) sw = true := by rw [Nat.blt, Nat.ble_eq]; exact h4
    rw [h5, Nat.add_comm st.r]
    by_cases h1 : b < w
    · by_cases h2 : st.sh ≤ b
      · have h6 : Nat.ble st.sh b = true := Nat.ble_eq.mpr h2
        rw [h6]
        cases st.mask.testBit (b - st.sh) <;> simp [h1, h2]
      · have h6 : Nat.ble st.sh b = false := by
          rw [← Bool.not_eq_true, Nat.ble_eq]; exact h2
        rw [h6]; simp [h2]
    · simp [h1]
  · have h5 : Nat.blt (b - st.sh + st.r) sw = false := by
      rw [← Bool.not_eq_true, Nat.blt, Nat.ble_eq]; omega
    rw [h5, testBit_ge hx (by omega : sw ≤ st.r + (b - st.sh))]
    simp

theorem exec_spec (w sw b : Nat) (src : List Nat) (hsrc : ∀ x ∈ src, x < 2 ^ sw) (j : Nat) :
    ∀ (prog : List Stmt) (dst dst' : List Nat), exec w src prog dst = some dst' →
      ∀ (y : Nat) (a : Bool × List (Nat × Nat)), (dst.getD j 0).testBit b = evalSym src y b a →
        (dst'.getD j 0).testBit b
          = evalSym src y b ((prog.filter fun st => st.d == j).foldl (symStep w sw b) a) := by
  intro prog
  induction prog with
  | nil =>
    intro dst dst' h y a ha
    simp only [exec, Option.some.injEq] at h
    subst h
    simpa using ha
  | cons st l ih =>
    intro dst dst' h y a ha
    simp only [exec, Stmt.exec] at h
    cases hx : src[st.s]? with
    | none => simp [hx] at h
    | some x =>
      cases hy : dst[st.d]? with
      | none => simp [hx, hy] at h
      | some z =>
        simp only [hx, hy] at h
        have hd : st.d < dst.length := (List.getElem?_eq_some_iff.mp hy).1
        have hxm : x < 2 ^ sw := hsrc x (List.mem_of_getElem? hx)
        have hg : src.getD st.s 0 = x := by simp [List.getD, hx]
        have hc : ∀ p ∈ st.contrib w sw b, p.1 = st.s := by
          intro p hp
          unfold Stmt.contrib at hp
          split at hp <;> simp at hp
          simp [hp]
        have hcon : (st.val w x).testBit b
            = (st.contrib w sw b).any fun p => (src.getD p.1 0).testBit p.2 := by
          rw [val_testBit st w sw b x hxm, Bool.eq_iff_iff, List.any_eq_true, List.any_eq_true]
          constructor
          · rintro ⟨p, hp, h'⟩
            exact ⟨p, hp, by rw [hc p hp, hg]; exact h'⟩
          · rintro ⟨p, hp, h'⟩
            exact ⟨p, hp, by rw [hc p hp, hg] at h'; exact h'⟩
        by_cases hj : st.d = j
        · have hf : ((st :: l).filter fun st => st.d == j)
              = st :: l.filter fun st => st.d == j := by simp [hj]
          rw [hf, List.foldl_cons]
          refine ih _ dst' h y _ ?_
          subst hj
          have hz : dst.getD st.d 0 = z := by simp [List.getD, hy]
          rw [hz] at ha
          have : (dst.set st.d (if st.isAssign then st.val w x else z ||| st.val w x)).getD st.d 0
              = if st.isAssign then st.val w x else z ||| st.val w x := by
            simp [List.getD, hd]
          rw [this]
          unfold symStep
          cases st.isAssign
          · simp only [Bool.false_eq_true, if_false, Nat.testBit_or, ha, evalSym, List.any_append,
              hcon, Bool.or_assoc]
          · simp only [if_true, evalSym, Bool.false_and, Bool.false_or, hcon]
        · have hf : ((st :: l).filter fun st => st.d == j)
              = l.filter fun st => st.d == j := by simp [hj]
          rw [hf]
          refine ih _ dst' h y _ ?_
          rw [← ha]
          simp only [List.getD, List.getElem?_set_ne hj]

/-- indices used by a program are in range -/
def inRange (prog : List Stmt) (sl dl : Nat) : Bool :=
  prog.all fun st => Nat.blt st.s sl && Nat.blt st.d dl

theorem exec_total (w : Nat) (src : List Nat) (sl dl : Nat) (hs : sl ≤ src.length) :
    ∀ (prog : List Stmt) (dst : List Nat), inRange prog sl dl = true → dl ≤ dst.length →
      ∃ dst', exec w src prog dst = some dst' ∧ dst'.length = dst.length
        ∧ ∀ j, dl ≤ j → dst'[j]? = dst[j]? := by
  intro prog
  induction prog with
  | nil => intro dst _ _; exact ⟨dst, rfl, rfl, fun _ _ => rfl⟩
  | cons st l ih =>
    intro dst h hd
    simp only [inRange, List.all_cons, Bool.and_eq_true] at h
    obtain ⟨⟨h1, h2⟩, h3⟩ := h
    have h1 : st.s < sl := by rw [Nat.blt, Nat.ble_eq] at h1; exact h1
    have h2 : st.d < dl := by rw [Nat.blt, Nat.ble_eq] at h2; exact h2
    simp only [exec, Stmt.exec, List.getElem?_eq_getElem (show st.s < src.length by omega),
      List.getElem?_eq_getElem (show st.d < dst.length by omega)]
    obtain ⟨dst', e, e1, e2⟩ := ih (dst.set st.d (if st.isAssign then st.val w src[st.s]
      else dst[st.d] ||| st.val w src[st.s])) h3 (by simpa using hd)
    refine ⟨dst', e, by simpa using e1, fun j hj => ?_⟩
    rw [e2 j hj, List.getElem?_set_ne (by omega)]

/-- expected symbolic value of output bit `b` of byte `j` when packing `n`-bit values -/
def packWant (n j b : Nat) : List (Nat × Nat) :=
  [((8 * j + (7 - b)) / n, n - 1 - (8 * j + (7 - b)) % n)]

/-- expected symbolic value of bit `b` of value `i` when unpacking `n`-bit values -/
def unpackWant (n i b : Nat) : List (Nat × Nat) :=
  if Nat.blt b n then [((i * n + (n - 1 - b)) / 8, 7 - (i * n + (n - 1 - b)) % 8)] else []

def cellsOk (want : Nat → Nat → List (Nat × Nat)) (w sw dl : Nat) (prog : List Stmt) : Bool :=
  (List.range dl).all fun j =>
    let sts := prog.filter fun st => st.d == j
    (List.range w).all fun b => sts.foldl (symStep w sw b) (true, []) == (false, want j b)

def packOk (n : Nat) : Bool :=
  match packProg n with
  | none => false
  | some p => inRange p 8 n && cellsOk (packWant n) 8 n n p

def unpackOk (n : Nat) : Bool :=
  match unpackProg n with
  | none => false
  | some p => inRange p n 8 && cellsOk (unpackWant n) 64 8 8 p

end Verif.BitPack
