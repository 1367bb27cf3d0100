import Verif.HllAux
import Verif.Loops
import Mathlib.Algebra.BigOperators.Group.List.Basic

/-!
# Abstract register arrays and the exception list of the 4-bit representation
-/

namespace Verif.Hll

variable {H : Type}

/-! ## Lists of registers -/

theorem getD_set {R : List Nat} {j v : Nat} (h : j < R.length) (i : Nat) :
    (R.set j v).getD i 0 = if i = j then v else R.getD i 0 := by
  rw [List.getD_eq_getElem?_getD, List.getD_eq_getElem?_getD, List.getElem?_set]
  by_cases hij : j = i
  · subst hij; simp [h]
  · rw [if_neg hij, if_neg (Ne.symm hij)]

theorem getD_mem {R : List Nat} {j : Nat} (h : j < R.length) : R.getD j 0 ∈ R := by
  rw [List.getD_eq_getElem?_getD, List.getElem?_eq_getElem h]
  exact List.getElem_mem h

theorem getD_eq {R : List Nat} {j : Nat} (h : j < R.length) : R.getD j 0 = R[j] := by
  rw [List.getD_eq_getElem?_getD, List.getElem?_eq_getElem h]; rfl

theorem mem_iff_getD {R : List Nat} {v : Nat} : v ∈ R ↔ ∃ j, j < R.length ∧ R.getD j 0 = v := by
  constructor
  · intro h
    obtain ⟨j, hj, e⟩ := List.mem_iff_getElem.mp h
    exact ⟨j, hj, by rw [getD_eq hj, e]⟩
  · rintro ⟨j, hj, rfl⟩
    exact getD_mem hj

theorem map_range_getD (R : List Nat) : (List.range R.length).map (fun j => R.getD j 0) = R := by
  apply List.ext_getElem
  · simp
  · intro i h1 h2
    rw [List.getElem_map, List.getElem_range, getD_eq h2]

theorem countP_range {R : List Nat} (p : Nat → Bool) :
    (List.range R.length).countP (fun j => p (R.getD j 0)) = R.countP p := by
  conv_rhs => rw [← map_range_getD R]
  rw [List.countP_map]
  rfl

theorem set_getD_self {R : List Nat} {j : Nat} : R.set j (R.getD j 0) = R := by
  apply List.ext_getElem
  · simp
  · intro i h1 h2
    rw [List.getElem_set]
    split
    · subst_vars; rw [getD_eq h2]
    · rfl

theorem count_set {R : List Nat} {j v : Nat} (h : j < R.length) (x : Nat) :
    (((R.set j v).count x : Nat) : Int) =
      R.count x - (if R.getD j 0 = x then 1 else 0) + (if v = x then 1 else 0) := by
  rw [List.count_set h, getD_eq h]
  have hpos : R[j] = x → 1 ≤ R.count x := by
    intro e
    exact List.count_pos_iff.mpr (e ▸ List.getElem_mem h)
  by_cases h1 : R[j] = x
  · have := hpos h1
    by_cases h2 : v = x <;> simp [h1, h2] <;> omega
  · by_cases h2 : v = x <;> simp [h1, h2]

theorem sum_set {R : List Nat} {j v : Nat} (h : j < R.length) (f : Nat → Int) :
    ((R.set j v).map f).sum = (R.map f).sum - f (R.getD j 0) + f v := by
  induction R generalizing j with
  | nil => simp at h
  | cons a R ih =>
    cases j with
    | zero => simp; ring
    | succ j =>
      simp only [List.length_cons, Nat.add_lt_add_iff_right] at h
      simp only [List.set_cons_succ, List.map_cons, List.sum_cons, List.getD_cons_succ]
      rw [ih h]; ring

theorem countP_set {R : List Nat} {j v : Nat} (h : j < R.length) (p : Nat → Bool)
    (hmono : p (R.getD j 0) = true → p v = true) : R.countP p ≤ (R.set j v).countP p := by
  induction R generalizing j with
  | nil => simp at h
  | cons a R ih =>
    cases j with
    | zero =>
      simp only [List.set_cons_zero, List.countP_cons]
      have : p a = true → p v = true := by simpa using hmono
      by_cases h1 : p a = true
      · simp [h1, this h1]
      · simp [h1]
    | succ j =>
      simp only [List.length_cons, Nat.add_lt_add_iff_right] at h
      simp only [List.set_cons_succ, List.countP_cons]
      have := ih h (by simpa using hmono)
      omega

/-- the smallest register (registers are at most 63) -/
def lowest (R : List Nat) : Nat := R.foldr min 63

theorem lowest_le {R : List Nat} {v : Nat} (h : v ∈ R) : lowest R ≤ v := by
  unfold lowest
  induction R with
  | nil => simp at h
  | cons a R ih =>
    rw [List.foldr_cons]
    rcases List.mem_cons.mp h with rfl | h
    · exact Nat.min_le_left _ _
    · exact le_trans (Nat.min_le_right _ _) (ih h)

theorem le_lowest {R : List Nat} {c : Nat} (h : ∀ v ∈ R, c ≤ v) (h63 : c ≤ 63) : c ≤ lowest R := by
  unfold lowest
  induction R with
  | nil => simpa using h63
  | cons a R ih =>
    rw [List.foldr_cons]
    exact le_min (h a (by simp)) (ih (fun v hv => h v (by simp [hv])))

theorem lowest_eq {R : List Nat} {c : Nat} (h : ∀ v ∈ R, c ≤ v) (h63 : c ≤ 63) (hc : c ∈ R) :
    lowest R = c := le_antisymm (lowest_le hc) (le_lowest h h63)

/-! ## Exceptions -/

/-- the slots whose register is at least `c + 15`, with their registers -/
def excs (R : List Nat) (c : Nat) : List (Nat × Nat) :=
  ((List.range R.length).filter (fun j => decide (c + 15 ≤ R.getD j 0))).map
    (fun j => (j, R.getD j 0))

theorem mem_excs {R : List Nat} {c s v : Nat} :
    (s, v) ∈ excs R c ↔ s < R.length ∧ v = R.getD s 0 ∧ c + 15 ≤ v := by
  unfold excs
  simp only [List.mem_map, List.mem_filter, List.mem_range, decide_eq_true_eq, Prod.mk.injEq]
  constructor
  · rintro ⟨j, ⟨h1, h2⟩, rfl, rfl⟩; exact ⟨h1, rfl, h2⟩
  · rintro ⟨h1, rfl, h3⟩; exact ⟨s, ⟨h1, h3⟩, rfl, rfl⟩

theorem length_excs (R : List Nat) (c : Nat) :
    (excs R c).length = R.countP (fun v => decide (c + 15 ≤ v)) := by
  unfold excs
  rw [List.length_map, ← List.countP_eq_length_filter]
  exact countP_range (fun v => decide (c + 15 ≤ v))

theorem excs_keys (R : List Nat) (c : Nat) :
    (excs R c).map Prod.fst = (List.range R.length).filter (fun j => decide (c + 15 ≤ R.getD j 0)) := by
  unfold excs
  rw [List.map_map]
  exact (List.map_congr_left (fun j _ => rfl)).trans (List.map_id _)

theorem range_perm {n j : Nat} (h : j < n) :
    (List.range n).Perm (j :: (List.range n).erase j) :=
  List.perm_cons_erase (List.mem_range.mpr h)

theorem excs_split {R : List Nat} {c j : Nat} (h : j < R.length) :
    (excs R c).Perm ((if c + 15 ≤ R.getD j 0 then [(j, R.getD j 0)] else []) ++
      (((List.range R.length).erase j).filter (fun j => decide (c + 15 ≤ R.getD j 0))).map
        (fun j => (j, R.getD j 0))) := by
  unfold excs
  have := ((range_perm h).filter (fun j => decide (c + 15 ≤ R.getD j 0))).map
    (fun j => (j, R.getD j 0))
  refine this.trans ?_
  rw [List.filter_cons]
  by_cases hc : c + 15 ≤ R.getD j 0
  · rw [if_pos (by simpa only [decide_eq_true_eq] using hc), if_pos hc, List.map_cons]
    exact List.Perm.refl _
  · rw [if_neg (by simpa only [decide_eq_true_eq] using hc), if_neg hc]
    exact List.Perm.refl _

theorem excs_rest {R : List Nat} {c j v : Nat} (h : j < R.length) :
    (((List.range (R.set j v).length).erase j).filter
        (fun i => decide (c + 15 ≤ (R.set j v).getD i 0))).map (fun i => (i, (R.set j v).getD i 0)) =
    (((List.range R.length).erase j).filter (fun i => decide (c + 15 ≤ R.getD i 0))).map
      (fun i => (i, R.getD i 0)) := by
  rw [List.length_set]
  have hne : ∀ i ∈ (List.range R.length).erase j, (R.set j v).getD i 0 = R.getD i 0 := by
    intro i hi
    have : i ≠ j := by
      rintro rfl
      exact (List.nodup_range.not_mem_erase) hi
    rw [getD_set h, if_neg this]
  rw [List.filter_congr (q := fun i => decide (c + 15 ≤ R.getD i 0))
    (fun i hi => by rw [hne i hi])]
  apply List.map_congr_left
  intro i hi
  rw [hne i (List.mem_filter.mp hi).1]

/-- the exceptions other than slot `j` are unchanged by a write to slot `j` -/
theorem excs_set {R : List Nat} {c j v : Nat} (h : j < R.length) :
    ∃ L, (excs R c).Perm ((if c + 15 ≤ R.getD j 0 then [(j, R.getD j 0)] else []) ++ L) ∧
      (excs (R.set j v) c).Perm ((if c + 15 ≤ v then [(j, v)] else []) ++ L) := by
  refine ⟨_, excs_split h, ?_⟩
  have := excs_split (R := R.set j v) (c := c) (j := j) (by simpa using h)
  rw [getD_set h, if_pos rfl, excs_rest h] at this
  exact this

/-! ## The abstract array -/

/-- registers together with the HIP and KxQ accumulators -/
structure Regs (H : Type) where
  R : List Nat
  hip : H
  kxq0 : Int
  kxq1 : Int

/-- contribution of a register to `kxq0` (values below 32) and `kxq1` -/
def w0 (v : Nat) : Int := if v < 32 then 2 ^ (63 - v) else 0
def w1 (v : Nat) : Int := if v < 32 then 0 else 2 ^ (63 - v)

/-- A coupon with value `v` for slot `j` arrives. -/
def Regs.step (F : Fl H) (lgK : Nat) (S : Regs H) (j v : Nat) : Regs H :=
  if v > S.R.getD j 0 then
    { R := S.R.set j v, hip := F.step lgK S.kxq0 S.kxq1 S.hip,
      kxq0 := S.kxq0 - w0 (S.R.getD j 0) + w0 v, kxq1 := S.kxq1 - w1 (S.R.getD j 0) + w1 v }
  else S

/-- the KxQ accumulators are the sums they stand for -/
def Regs.Exact (S : Regs H) : Prop :=
  S.kxq0 = (S.R.map w0).sum ∧ S.kxq1 = (S.R.map w1).sum

theorem Regs.Exact.step {F : Fl H} {lgK : Nat} {S : Regs H} (h : S.Exact) {j v : Nat}
    (hj : j < S.R.length) : (S.step F lgK j v).Exact := by
  unfold Regs.step
  split
  · exact ⟨by simp only; rw [sum_set hj, h.1], by simp only; rw [sum_set hj, h.2]⟩
  · exact h

theorem Regs.step_length (F : Fl H) (lgK : Nat) (S : Regs H) (j v : Nat) :
    (S.step F lgK j v).R.length = S.R.length := by
  unfold Regs.step; split <;> simp

/-- registers after a step -/
theorem Regs.step_getD {F : Fl H} {lgK : Nat} {S : Regs H} {j v : Nat} (hj : j < S.R.length)
    (i : Nat) :
    (S.step F lgK j v).R.getD i 0 = if i = j then max (S.R.getD j 0) v else S.R.getD i 0 := by
  unfold Regs.step
  split
  · simp only
    rw [getD_set hj]
    by_cases hij : i = j
    · rw [if_pos hij, if_pos hij]; omega
    · rw [if_neg hij, if_neg hij]
  · by_cases hij : i = j
    · rw [if_pos hij, hij]; omega
    · rw [if_neg hij]

theorem hipAndKxQ_spec {F : Fl H} {a : Arr H} {old new : Nat} (h : old < new) (h63 : new ≤ 63) :
    hipAndKxQ F a old new = .ok { a with
      hip := F.step a.lgK a.kxq0 a.kxq1 a.hip
      kxq0 := a.kxq0 - w0 old + w0 new
      kxq1 := a.kxq1 - w1 old + w1 new } := by
  unfold hipAndKxQ invPow2 w0 w1
  rw [if_neg (by omega), if_pos (by omega : old ≤ 63), if_pos (by omega : new ≤ 63)]
  simp only [Outcome.ok_bind]
  by_cases h1 : old < 32 <;> by_cases h2 : new < 32 <;> simp [h1, h2]

end Verif.Hll
