import Mathlib.Tactic.Linarith
import Mathlib.Tactic.FieldSimp
import Mathlib.Tactic.Ring
import Mathlib.Algebra.Order.BigOperators.Group.List
import Verif.TDigestModel

/-!
# The merging loop of the t-digest

Whatever the size limit allows, merging keeps the total weight and the weighted sum of the means,
keeps the centroids in order of their means, and leaves the first and the last centroid alone.
-/

namespace Verif.TDigest

set_option linter.unusedSectionVars false

variable {α : Type} [Field α] [LinearOrder α] [IsStrictOrderedRing α]

/-- Total weight of a list of centroids. -/
def wsum (l : List (Cen α)) : Nat := (l.map Cen.weight).sum

/-- Weighted sum of the means. -/
def msum (l : List (Cen α)) : α := (l.map fun c => (c.weight : α) * c.mean).sum

@[simp] theorem wsum_nil : wsum ([] : List (Cen α)) = 0 := rfl
@[simp] theorem wsum_cons (c : Cen α) (l) : wsum (c :: l) = c.weight + wsum l := by simp [wsum]
@[simp] theorem wsum_append (l l' : List (Cen α)) : wsum (l ++ l') = wsum l + wsum l' := by
  simp [wsum]
@[simp] theorem msum_nil : msum ([] : List (Cen α)) = 0 := rfl
@[simp] theorem msum_cons (c : Cen α) (l) : msum (c :: l) = (c.weight : α) * c.mean + msum l := by
  simp [msum]
@[simp] theorem msum_append (l l' : List (Cen α)) : msum (l ++ l') = msum l + msum l' := by
  simp [msum]

theorem wsum_perm {l l' : List (Cen α)} (h : l.Perm l') : wsum l = wsum l' :=
  (h.map Cen.weight).sum_eq
theorem msum_perm {l l' : List (Cen α)} (h : l.Perm l') : msum l = msum l' :=
  (h.map _).sum_eq
@[simp] theorem wsum_reverse (l : List (Cen α)) : wsum l.reverse = wsum l :=
  wsum_perm l.reverse_perm
@[simp] theorem msum_reverse (l : List (Cen α)) : msum l.reverse = msum l :=
  msum_perm l.reverse_perm

@[simp] theorem add_weight (c o : Cen α) : (c.add o).weight = c.weight + o.weight := rfl

theorem add_mass {c o : Cen α} (h : 0 < c.weight) :
    ((c.add o).weight : α) * (c.add o).mean
      = (c.weight : α) * c.mean + (o.weight : α) * o.mean := by
  have hc : (0 : α) < c.weight := by exact_mod_cast h
  have ho : (0 : α) ≤ o.weight := Nat.cast_nonneg _
  have hne : (c.weight : α) + (o.weight : α) ≠ 0 := by linarith
  simp only [Cen.add, Nat.cast_add]
  field_simp
  ring

theorem add_between {c o : Cen α} (hc : 0 < c.weight) (h : c.mean ≤ o.mean) :
    c.mean ≤ (c.add o).mean ∧ (c.add o).mean ≤ o.mean := by
  have hc' : (0 : α) < c.weight := by exact_mod_cast hc
  have ho : (0 : α) ≤ o.weight := Nat.cast_nonneg _
  have hs : (0 : α) < (c.weight : α) + (o.weight : α) := by linarith
  have hd : 0 ≤ o.mean - c.mean := by linarith
  simp only [Cen.add, Nat.cast_add]
  constructor
  · have : 0 ≤ (o.mean - c.mean) * (o.weight : α) / ((c.weight : α) + (o.weight : α)) :=
      div_nonneg (mul_nonneg hd ho) hs.le
    linarith
  · have : (o.mean - c.mean) * (o.weight : α) / ((c.weight : α) + (o.weight : α))
        ≤ o.mean - c.mean := by
      rw [div_le_iff₀ hs]
      exact mul_le_mul_of_nonneg_left (by linarith) hd
    linarith

theorem add_between' {c o : Cen α} (hc : 0 < c.weight) (h : o.mean ≤ c.mean) :
    (c.add o).mean ≤ c.mean ∧ o.mean ≤ (c.add o).mean := by
  have hc' : (0 : α) < c.weight := by exact_mod_cast hc
  have ho : (0 : α) ≤ o.weight := Nat.cast_nonneg _
  have hs : (0 : α) < (c.weight : α) + (o.weight : α) := by linarith
  have hd : 0 ≤ c.mean - o.mean := by linarith
  simp only [Cen.add, Nat.cast_add]
  have e : (o.mean - c.mean) * (o.weight : α) / ((c.weight : α) + (o.weight : α))
      = - ((c.mean - o.mean) * (o.weight : α) / ((c.weight : α) + (o.weight : α))) := by
    rw [← neg_div]; congr 1; ring
  rw [e]
  constructor
  · have : 0 ≤ (c.mean - o.mean) * (o.weight : α) / ((c.weight : α) + (o.weight : α)) :=
      div_nonneg (mul_nonneg hd ho) hs.le
    linarith
  · have : (c.mean - o.mean) * (o.weight : α) / ((c.weight : α) + (o.weight : α))
        ≤ c.mean - o.mean := by
      rw [div_le_iff₀ hs]
      exact mul_le_mul_of_nonneg_left (by linarith) hd
    linarith

/-! ### The loop -/

variable (ok : α → α → Bool)

theorem loop_ne_nil (n i) (cur : Cen α) (wsf) (l) : mergeLoop ok n i cur wsf l ≠ [] := by
  induction l generalizing i cur wsf with
  | nil => simp [mergeLoop]
  | cons b bs ih =>
    rw [mergeLoop]
    split
    · exact ih _ _ _
    · simp

theorem loop_wsum (n i) (cur : Cen α) (wsf) (l) :
    wsum (mergeLoop ok n i cur wsf l) = cur.weight + wsum l := by
  induction l generalizing i cur wsf with
  | nil => simp [mergeLoop]
  | cons b bs ih =>
    rw [mergeLoop]
    split
    · rw [ih]; simp; omega
    · simp [ih]

theorem loop_pos (n i) (cur : Cen α) (wsf) (l) (hc : 0 < cur.weight) (hl : ∀ c ∈ l, 0 < c.weight) :
    ∀ c ∈ mergeLoop ok n i cur wsf l, 0 < c.weight := by
  induction l generalizing i cur wsf with
  | nil => simpa [mergeLoop] using hc
  | cons b bs ih =>
    have hb := hl b (by simp)
    have hbs : ∀ c ∈ bs, 0 < c.weight := fun c h => hl c (by simp [h])
    rw [mergeLoop]
    split
    · exact ih _ _ _ (by simp; omega) hbs
    · intro c hc'
      rcases List.mem_cons.1 hc' with rfl | hc'
      · exact hc
      · exact ih _ _ _ hb hbs c hc'

theorem loop_msum (n i) (cur : Cen α) (wsf) (l) (hc : 0 < cur.weight)
    (hl : ∀ c ∈ l, 0 < c.weight) :
    msum (mergeLoop ok n i cur wsf l) = (cur.weight : α) * cur.mean + msum l := by
  induction l generalizing i cur wsf with
  | nil => simp [mergeLoop]
  | cons b bs ih =>
    have hb := hl b (by simp)
    have hbs : ∀ c ∈ bs, 0 < c.weight := fun c h => hl c (by simp [h])
    rw [mergeLoop]
    split
    · rw [ih _ _ _ (by simp; omega) hbs, add_mass hc]; simp [add_assoc]
    · simp [ih _ _ _ hb hbs]

/-- The loop keeps the order, for the ascending and for the descending pass: `R` is `≤` or `≥`. -/
structure Ord (R : α → α → Prop) : Prop where
  refl : ∀ a, R a a
  trans : ∀ {a b c}, R a b → R b c → R a c
  add : ∀ {c o : Cen α}, 0 < c.weight → R c.mean o.mean →
    R c.mean (c.add o).mean ∧ R (c.add o).mean o.mean

theorem ordLe : Ord (fun a b : α => a ≤ b) :=
  ⟨le_refl, le_trans, fun h h' => add_between h h'⟩

theorem ordGe : Ord (fun a b : α => b ≤ a) :=
  ⟨le_refl, fun h h' => le_trans h' h, fun h h' => add_between' h h'⟩

theorem loop_lower {R : α → α → Prop} (O : Ord R) (n i) (cur : Cen α) (wsf) (l)
    (hc : 0 < cur.weight) (hl : ∀ c ∈ l, 0 < c.weight)
    (h1 : ∀ c ∈ l, R cur.mean c.mean) (h2 : l.Pairwise fun a b => R a.mean b.mean) :
    ∀ c ∈ mergeLoop ok n i cur wsf l, R cur.mean c.mean := by
  induction l generalizing i cur wsf with
  | nil => simpa [mergeLoop] using O.refl _
  | cons b bs ih =>
    have hb := hl b (by simp)
    have hbs : ∀ c ∈ bs, 0 < c.weight := fun c h => hl c (by simp [h])
    rw [List.pairwise_cons] at h2
    rw [mergeLoop]
    split
    · intro c hc'
      obtain ⟨a1, a2⟩ := O.add hc (h1 b (by simp))
      exact O.trans a1 (ih _ _ _ (by simp; omega) hbs
        (fun c h => O.trans a2 (h2.1 c h)) h2.2 c hc')
    · intro c hc'
      rcases List.mem_cons.1 hc' with rfl | hc'
      · exact O.refl _
      · exact O.trans (h1 b (by simp)) (ih _ _ _ hb hbs h2.1 h2.2 c hc')

theorem loop_sorted {R : α → α → Prop} (O : Ord R) (n i) (cur : Cen α) (wsf) (l)
    (hc : 0 < cur.weight) (hl : ∀ c ∈ l, 0 < c.weight)
    (h1 : ∀ c ∈ l, R cur.mean c.mean) (h2 : l.Pairwise fun a b => R a.mean b.mean) :
    (mergeLoop ok n i cur wsf l).Pairwise fun a b => R a.mean b.mean := by
  induction l generalizing i cur wsf with
  | nil => simp [mergeLoop]
  | cons b bs ih =>
    have hb := hl b (by simp)
    have hbs : ∀ c ∈ bs, 0 < c.weight := fun c h => hl c (by simp [h])
    rw [List.pairwise_cons] at h2
    rw [mergeLoop]
    split
    · obtain ⟨a1, a2⟩ := O.add hc (h1 b (by simp))
      exact ih _ _ _ (by simp; omega) hbs (fun c h => O.trans a2 (h2.1 c h)) h2.2
    · refine List.pairwise_cons.2 ⟨fun c hc' => ?_, ih _ _ _ hb hbs h2.1 h2.2⟩
      exact O.trans (h1 b (by simp)) (loop_lower ok O _ _ _ _ _ hb hbs h2.1 h2.2 c hc')

/-- The last element is never merged into its predecessor. -/
theorem loop_last (n i) (cur : Cen α) (wsf) (l) (hn : n = i + l.length) :
    (mergeLoop ok n i cur wsf l).getLast? = (cur :: l).getLast? := by
  induction l generalizing i cur wsf with
  | nil => simp [mergeLoop]
  | cons b bs ih =>
    rw [mergeLoop]
    split
    · rename_i h
      rw [ih _ _ _ (by simp at hn; omega)]
      rcases bs with _ | ⟨b', bs⟩
      · exfalso; simp at hn; omega
      · simp [List.getLast?_cons_cons]
    · have := ih (i + 1) b (wsf + (cur.weight : α)) (by simp at hn; omega)
      rw [List.getLast?_cons, List.getLast?_cons_cons, this]
      simp [List.getLast?_cons]

/-- The first element is never merged with its successor. -/
theorem loop_head (n) (cur : Cen α) (wsf) (l) :
    (mergeLoop ok n 1 cur wsf l).head? = some cur := by
  cases l with
  | nil => simp [mergeLoop]
  | cons b bs => simp [mergeLoop]

/-! ### The stable sort -/

theorem sort_perm (l : List (Cen α)) : (sortCens l).Perm l := List.perm_insertionSort _ _

theorem sort_sorted (l : List (Cen α)) :
    (sortCens l).Pairwise fun a b => a.mean ≤ b.mean := by
  have : Std.Total (fun a b : Cen α => a.mean ≤ b.mean) := ⟨fun a b => le_total _ _⟩
  have : IsTrans (Cen α) (fun a b : Cen α => a.mean ≤ b.mean) := ⟨fun _ _ _ h h' => le_trans h h'⟩
  exact List.pairwise_insertionSort _ _

theorem sort_cons (a : Cen α) (l) :
    sortCens (a :: l) = (sortCens l).orderedInsert (fun a b => a.mean ≤ b.mean) a := rfl

theorem sort_head_cons (a : Cen α) (l) :
    (sortCens (a :: l)).head? = match (sortCens l).head? with
      | none => some a
      | some b => if a.mean ≤ b.mean then some a else some b := by
  rw [sort_cons]
  cases sortCens l with
  | nil => simp
  | cons b bs =>
    simp only [List.orderedInsert, List.head?_cons]
    split <;> simp

theorem insert_last (a : Cen α) (l : List (Cen α)) (hl : l.Pairwise fun a b => a.mean ≤ b.mean) :
    (l.orderedInsert (fun a b => a.mean ≤ b.mean) a).getLast? = match l.getLast? with
      | none => some a
      | some b => if b.mean < a.mean then some a else some b := by
  induction l with
  | nil => simp
  | cons b bs ih =>
    rw [List.pairwise_cons] at hl
    rw [List.orderedInsert]
    split
    · rename_i h
      rw [List.getLast?_cons_cons]
      have hlast : ∃ c, (b :: bs).getLast? = some c ∧ c ∈ b :: bs := by
        rw [List.getLast?_eq_some_getLast (by simp)]
        exact ⟨_, rfl, List.getLast_mem _⟩
      obtain ⟨c, hc, hm⟩ := hlast
      rw [hc]
      have : a.mean ≤ c.mean := by
        rcases List.mem_cons.1 hm with rfl | hm
        · exact h
        · exact le_trans h (hl.1 c hm)
      simp [not_lt.2 this]
    · rename_i h
      rw [List.getLast?_cons, ih hl.2]
      cases bs with
      | nil => simp [not_le.1 h]
      | cons b' bs =>
        rw [List.getLast?_cons_cons]
        cases hq : (b' :: bs).getLast? with
        | none => simp at hq
        | some c =>
          simp only
          split <;> simp

theorem sort_last_cons (a : Cen α) (l) :
    (sortCens (a :: l)).getLast? = match (sortCens l).getLast? with
      | none => some a
      | some b => if b.mean < a.mean then some a else some b := by
  rw [sort_cons]; exact insert_last a _ (sort_sorted l)

/-- A run of centroids in order whose first and last have weight one. -/
structure Run (A : List (Cen α)) : Prop where
  sorted : A.Pairwise fun a b => a.mean ≤ b.mean
  first : ∀ c, A.head? = some c → c.weight = 1
  last : ∀ c, A.getLast? = some c → c.weight = 1

theorem sort_head_append {A : List (Cen α)} (hs : A.Pairwise fun a b => a.mean ≤ b.mean)
    (B : List (Cen α)) : (sortCens (A ++ B)).head? = match A.head?, (sortCens B).head? with
      | none, x => x
      | some a, none => some a
      | some a, some b => if a.mean ≤ b.mean then some a else some b := by
  induction A with
  | nil => simp
  | cons a A ih =>
    rw [List.pairwise_cons] at hs
    rw [List.cons_append, sort_head_cons, ih hs.2]
    cases A with
    | nil => cases (sortCens B).head? <;> simp
    | cons a' A =>
      have h := hs.1 a' (by simp)
      cases hB : (sortCens B).head? with
      | none => simp [h]
      | some b =>
        simp only [List.head?_cons]
        by_cases h1 : a'.mean ≤ b.mean
        · simp [h1, h, le_trans h h1]
        · simp [h1]

theorem sort_last_append {A : List (Cen α)} (hs : A.Pairwise fun a b => a.mean ≤ b.mean)
    (B : List (Cen α)) : (sortCens (A ++ B)).getLast? = match A.getLast?, (sortCens B).getLast? with
      | none, x => x
      | some a, none => some a
      | some a, some b => if b.mean < a.mean then some a else some b := by
  induction A with
  | nil => simp
  | cons a A ih =>
    rw [List.pairwise_cons] at hs
    rw [List.cons_append, sort_last_cons, ih hs.2]
    cases A with
    | nil => cases (sortCens B).getLast? <;> simp
    | cons a' A =>
      rw [List.getLast?_cons_cons]
      obtain ⟨c, hc, hm⟩ : ∃ c, (a' :: A).getLast? = some c ∧ c ∈ a' :: A := by
        rw [List.getLast?_eq_some_getLast (by simp)]
        exact ⟨_, rfl, List.getLast_mem _⟩
      have h := hs.1 c hm
      rw [hc]
      cases hB : (sortCens B).getLast? with
      | none => simp [not_lt.2 h]
      | some b =>
        simp only
        by_cases h1 : b.mean < c.mean
        · simp [h1, not_lt.2 h]
        · have : ¬ b.mean < a.mean := not_lt.2 (le_trans h (not_lt.1 h1))
          simp [h1, this]

/-- Sorting runs together: the first and the last still have weight one. -/
structure Ends (L : List (Cen α)) : Prop where
  first : ∀ c, (sortCens L).head? = some c → c.weight = 1
  last : ∀ c, (sortCens L).getLast? = some c → c.weight = 1

theorem ends_nil : Ends ([] : List (Cen α)) := ⟨by simp [sortCens], by simp [sortCens]⟩

theorem ends_append {A B : List (Cen α)} (hA : Run A) (hB : Ends B) : Ends (A ++ B) := by
  constructor
  · intro c hc
    rw [sort_head_append hA.sorted] at hc
    cases ha : A.head? with
    | none => rw [ha] at hc; exact hB.first c hc
    | some a =>
      cases hb : (sortCens B).head? with
      | none => rw [ha, hb] at hc; simp at hc; subst hc; exact hA.first _ ha
      | some b =>
        rw [ha, hb] at hc
        simp only at hc
        split at hc <;> (simp at hc; subst hc)
        · exact hA.first _ ha
        · exact hB.first _ hb
  · intro c hc
    rw [sort_last_append hA.sorted] at hc
    cases ha : A.getLast? with
    | none => rw [ha] at hc; exact hB.last c hc
    | some a =>
      cases hb : (sortCens B).getLast? with
      | none => rw [ha, hb] at hc; simp at hc; subst hc; exact hA.last _ ha
      | some b =>
        rw [ha, hb] at hc
        simp only at hc
        split at hc <;> (simp at hc; subst hc)
        · exact hA.last _ ha
        · exact hB.last _ hb

theorem ends_singles (l : List α) {B : List (Cen α)} (hB : Ends B) : Ends (singles l ++ B) := by
  induction l with
  | nil => simpa [singles] using hB
  | cons x l ih =>
    have : singles (x :: l) ++ B = [⟨x, 1⟩] ++ (singles l ++ B) := by simp [singles]
    rw [this]
    exact ends_append ⟨by simp, by simp, by simp⟩ ih

@[simp] theorem msum_singles (l : List α) : msum (singles l) = l.sum := by
  simp [msum, singles, Function.comp_def]

@[simp] theorem wsum_singles (l : List α) : wsum (singles l) = l.length := by
  simp [wsum, singles, Function.comp_def]

end Verif.TDigest
