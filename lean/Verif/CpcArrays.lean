import Verif.CpcPairs
import Verif.CpcSketch
import Verif.Loops
import Mathlib.Data.List.Sort
import Mathlib.Data.List.Perm.Basic

/-!
# Arrays of pairs: reading a table, sorting, merging, permuting, making a table
-/

namespace Verif.Cpc

open Outcome

/-! ## Reading a table -/

theorem unwrapHead_perm (hb : Nat) : ∀ (slots : List (Option Nat)) (l r : List Nat),
    ((unwrapHead hb slots l r).2.1 ++ (unwrapHead hb slots l r).1.filterMap id ++
      (unwrapHead hb slots l r).2.2).Perm (l ++ slots.filterMap id ++ r) := by
  intro slots
  induction slots with
  | nil => intro l r; simp [unwrapHead]
  | cons a slots ih =>
    intro l r
    cases a with
    | none => simp [unwrapHead]
    | some x =>
      rw [unwrapHead]
      split
      · refine (ih l (x :: r)).trans ?_
        simp only [List.filterMap_cons, id, List.append_assoc]
        refine List.Perm.append_left l ?_
        exact List.perm_middle
      · refine (ih (l ++ [x]) r).trans ?_
        simp

/-- What `unwrap` returns for a table that holds the set `S`. -/
structure Lists (ps : List Nat) (S : Finset Nat) : Prop where
  nodup : ps.Nodup
  set : ps.toFinset = S

theorem Lists.len {ps : List Nat} {S : Finset Nat} (h : Lists ps S) : ps.length = S.card := by
  rw [← h.set, List.toFinset_card_of_nodup h.nodup]

theorem Lists.mem {ps : List Nat} {S : Finset Nat} (h : Lists ps S) {x : Nat} : x ∈ ps ↔ x ∈ S := by
  rw [← h.set, List.mem_toFinset]

theorem Lists.perm {ps qs : List Nat} {S : Finset Nat} (h : Lists ps S) (hp : qs.Perm ps) : Lists qs S :=
  ⟨hp.nodup_iff.mpr h.nodup, by rw [← h.set]; exact List.toFinset_eq_of_perm _ _ hp⟩

theorem unwrap_spec {p : PT} {vb : Nat} {S : Finset Nat} (h : PTInv p vb S) :
    ∃ ps, p.unwrap = .ok ps ∧ Lists ps S := by
  have hfin : Lists (p.slots.filterMap id) S := ⟨h.core.nodup, filterMap_toFinset h.core⟩
  unfold PT.unwrap
  split
  · rename_i hn
    have h0 : S.card = 0 := by rw [← h.num]; omega
    rw [Finset.card_eq_zero] at h0
    exact ⟨[], rfl, by simp, by simp [h0]⟩
  · have h2 := h.lg2
    have h3 := h.core.lgvb
    have h4 := h.vbeq
    rw [if_neg (by omega)]
    have htake : p.slots.take (2 ^ p.lg) = p.slots := List.take_of_length_le (by rw [h.core.len])
    rw [htake]
    have hp := unwrapHead_perm (1 <<< (p.vb - 1)) p.slots [] []
    simp only [List.nil_append, List.append_nil] at hp
    have hl := hfin.perm hp
    have hlen := hl.len
    rw [← h.num] at hlen
    simp only
    rw [if_neg (Nat.not_lt.mpr (le_of_eq hlen)), if_neg (Nat.not_lt.mpr (le_of_eq hlen.symm))]
    exact ⟨_, rfl, hl⟩

/-! ## Sorting -/

theorem insertLeft_perm (v : Nat) : ∀ l : List Nat, ((insertLeft v l).1).Perm (v :: l) := by
  intro l
  induction l with
  | nil => exact List.Perm.refl _
  | cons x xs ih =>
    rw [insertLeft]
    split
    · exact (ih.cons x).trans (List.Perm.swap v x xs)
    · exact List.Perm.refl _

theorem insertLeft_le (v : Nat) : ∀ l : List Nat, (insertLeft v l).2 ≤ l.length := by
  intro l
  induction l with
  | nil => simp [insertLeft]
  | cons x xs ih =>
    rw [insertLeft]
    split
    · simp only [List.length_cons]; omega
    · simp

theorem insertLeft_sorted (v : Nat) : ∀ l : List Nat, l.Pairwise (· ≥ ·) →
    ((insertLeft v l).1).Pairwise (· ≥ ·) := by
  intro l
  induction l with
  | nil => intro _; simp [insertLeft]
  | cons x xs ih =>
    intro h
    rw [List.pairwise_cons] at h
    rw [insertLeft]
    split
    · rename_i hlt
      refine List.pairwise_cons.mpr ⟨?_, ih h.2⟩
      intro y hy
      rcases List.mem_cons.mp ((insertLeft_perm v xs).mem_iff.mp hy) with rfl | hy
      · exact hlt.le
      · exact h.1 y hy
    · rename_i hlt
      refine List.pairwise_cons.mpr ⟨?_, List.pairwise_cons.mpr h⟩
      intro y hy
      rcases List.mem_cons.mp hy with rfl | hy
      · exact Nat.not_lt.mp hlt
      · exact (h.1 y hy).trans (Nat.not_lt.mp hlt)

theorem sortLoop_perm (limit : Nat) : ∀ (rest done : List Nat) (cost : Nat),
    (sortLoop limit done rest cost).Perm (done.reverse ++ rest) := by
  intro rest
  induction rest with
  | nil => intro done cost; simp [sortLoop]
  | cons v rest ih =>
    intro done cost
    rw [sortLoop]
    have h1 : ((insertLeft v done).1.reverse ++ rest).Perm (done.reverse ++ v :: rest) := by
      have := (List.reverse_perm _).trans (insertLeft_perm v done)
      refine (this.append_right rest).trans ?_
      refine List.Perm.trans ?_ (List.perm_middle.symm)
      exact ((List.reverse_perm done).symm.append_right rest).cons v
    simp only
    split
    · refine List.Perm.trans ?_ h1
      refine ((List.perm_insertionSort _ _).append_left _).trans ?_
      rw [List.take_append_drop]
    · exact (ih _ _).trans h1

theorem introSort_perm (l : List Nat) : (introSort l).Perm l := by
  cases l with
  | nil => exact List.Perm.refl _
  | cons v rest => exact sortLoop_perm _ rest [v] 0

/-- the number of moves of the insertion sort -/
def moves : List Nat → List Nat → Nat
  | _, [] => 0
  | done, v :: rest => (insertLeft v done).2 + moves (insertLeft v done).1 rest

theorem sortLoop_sorted (limit : Nat) : ∀ (rest done : List Nat) (cost : Nat),
    done.Pairwise (· ≥ ·) → cost + moves done rest ≤ limit →
    (sortLoop limit done rest cost).Pairwise (· ≤ ·) := by
  intro rest
  induction rest with
  | nil =>
    intro done cost h _
    rw [sortLoop, List.pairwise_reverse]
    exact h
  | cons v rest ih =>
    intro done cost h hc
    rw [moves] at hc
    rw [sortLoop]
    simp only
    rw [if_neg (by omega)]
    exact ih _ _ (insertLeft_sorted v done h) (by omega)

theorem moves_le : ∀ (rest done : List Nat),
    2 * moves done rest ≤ rest.length * (2 * done.length + rest.length - 1) := by
  intro rest
  induction rest with
  | nil => intro done; simp [moves]
  | cons v rest ih =>
    intro done
    rw [moves]
    have h1 := insertLeft_le v done
    have h2 := ih (insertLeft v done).1
    rw [(insertLeft_perm v done).length_eq, List.length_cons] at h2
    rw [List.length_cons]
    generalize moves (insertLeft v done).1 rest = m at *
    generalize (insertLeft v done).2 = a at *
    generalize done.length = d at *
    generalize rest.length = r at *
    have e1 : 2 * (d + 1) + r - 1 = 2 * d + r + 1 := by omega
    have e2 : 2 * d + (r + 1) - 1 = 2 * d + r := by omega
    rw [e1] at h2
    rw [e2]
    nlinarith

/-- No more than 17 items: the sort is always right. -/
theorem introSort_sorted {l : List Nat} (h : l.length ≤ 17) : (introSort l).Pairwise (· ≤ ·) := by
  cases l with
  | nil => exact List.Pairwise.nil
  | cons v rest =>
    rw [List.length_cons] at h
    rw [introSort]
    refine sortLoop_sorted _ rest [v] 0 (by simp) ?_
    have := moves_le rest [v]
    simp only [List.length_cons, List.length_nil] at this
    generalize moves [v] rest = m at *
    generalize rest.length = r at *
    have e : 2 * (0 + 1) + r - 1 = r + 1 := by omega
    rw [e] at this
    nlinarith

theorem strict_of_le {l : List Nat} (h : l.Pairwise (· ≤ ·)) (hn : l.Nodup) : l.Pairwise (· < ·) :=
  (h.and hn).imp (fun ⟨h1, h2⟩ => lt_of_le_of_ne h1 h2)

theorem nodup_of_strict {l : List Nat} (h : l.Pairwise (· < ·)) : l.Nodup :=
  h.imp (fun h => Nat.ne_of_lt h)

/-! ## Merging in place -/

def mrg : List Nat → List Nat → List Nat
  | [], bs => bs
  | as, [] => as
  | x :: as, y :: bs => if x < y then x :: mrg as (y :: bs) else y :: mrg (x :: as) bs
termination_by as bs => as.length + bs.length

theorem mrg_nil_right (as : List Nat) : mrg as [] = as := by
  cases as <;> rw [mrg]; simp

theorem mrg_perm : ∀ as bs : List Nat, (mrg as bs).Perm (as ++ bs)
  | [], bs => by rw [mrg]; exact List.Perm.refl _
  | x :: as, [] => by rw [mrg_nil_right]; simp
  | x :: as, y :: bs => by
    rw [mrg]
    split
    · exact (mrg_perm as (y :: bs)).cons x
    · exact ((mrg_perm (x :: as) bs).cons y).trans List.perm_middle.symm
termination_by as bs => as.length + bs.length

theorem mrg_sorted : ∀ {as bs : List Nat}, as.Pairwise (· ≤ ·) → bs.Pairwise (· ≤ ·) →
    (mrg as bs).Pairwise (· ≤ ·)
  | [], bs => by intro _ h; rw [mrg]; exact h
  | x :: as, [] => by intro h _; rw [mrg_nil_right]; exact h
  | x :: as, y :: bs => by
    intro h1 h2
    rw [mrg]
    have g1 := List.pairwise_cons.mp h1
    have g2 := List.pairwise_cons.mp h2
    split
    · rename_i hlt
      refine List.pairwise_cons.mpr ⟨?_, mrg_sorted g1.2 h2⟩
      intro z hz
      rcases List.mem_append.mp ((mrg_perm _ _).mem_iff.mp hz) with hz | hz
      · exact g1.1 z hz
      · rcases List.mem_cons.mp hz with rfl | hz
        · exact hlt.le
        · exact hlt.le.trans (g2.1 z hz)
    · rename_i hlt
      refine List.pairwise_cons.mpr ⟨?_, mrg_sorted h1 g2.2⟩
      intro z hz
      rcases List.mem_append.mp ((mrg_perm _ _).mem_iff.mp hz) with hz | hz
      · rcases List.mem_cons.mp hz with rfl | hz
        · exact Nat.not_lt.mp hlt
        · exact (Nat.not_lt.mp hlt).trans (g1.1 z hz)
      · exact g2.1 z hz
termination_by as bs => as.length + bs.length

theorem take_set_succ {arr : List Nat} {c x : Nat} (h : c < arr.length) :
    (arr.set c x).take (c + 1) = arr.take c ++ [x] := by
  rw [List.take_add_one, List.take_set_of_le (Nat.le_refl c), List.getElem?_set_self h]
  rfl

theorem drop_set_lt {arr : List Nat} {b c x : Nat} (h : c < b) : (arr.set c x).drop b = arr.drop b := by
  rw [List.drop_set_of_lt h]

theorem mergeLoop_spec (arrA : List Nat) : ∀ (n a b c : Nat) (arr : List Nat),
    a ≤ arrA.length → b ≤ arr.length → c + (arrA.length - a) = b → n = (arrA.length - a) + (arr.length - b) →
    mergeLoop arrA arrA.length arr.length n a b c arr =
      .ok (arr.take c ++ mrg (arrA.drop a) (arr.drop b)) := by
  intro n
  induction n with
  | zero =>
    intro a b c arr ha hb hc hn
    rw [mergeLoop, List.drop_eq_nil_of_le (by omega : arrA.length ≤ a),
      List.drop_eq_nil_of_le (by omega : arr.length ≤ b), mrg, List.append_nil,
      List.take_of_length_le (by omega)]
  | succ n ih =>
    intro a b c arr ha hb hc hn
    rw [mergeLoop]
    by_cases hbl : b ≥ arr.length
    · rw [if_pos hbl]
      have hal : a < arrA.length := by omega
      rw [List.getElem?_eq_getElem hal]
      simp only
      have := ih (a + 1) b (c + 1) (arr.set c arrA[a]) (by omega) (by simpa using hb) (by omega)
        (by rw [List.length_set]; omega)
      rw [List.length_set] at this
      rw [this, take_set_succ (by omega), drop_set_lt (by omega),
        List.drop_eq_nil_of_le (by omega : arr.length ≤ b), mrg_nil_right, mrg_nil_right,
        List.drop_eq_getElem_cons hal]
      simp
    · rw [if_neg hbl]
      have hb' : b < arr.length := by omega
      by_cases hal : a ≥ arrA.length
      · rw [if_pos hal, List.getElem?_eq_getElem hb']
        simp only
        have := ih a (b + 1) (c + 1) (arr.set c arr[b]) (by omega) (by rw [List.length_set]; omega) (by omega)
          (by rw [List.length_set]; omega)
        rw [List.length_set] at this
        rw [this, take_set_succ (by omega), drop_set_lt (by omega),
          List.drop_eq_nil_of_le hal, mrg, mrg, List.drop_eq_getElem_cons hb']
        simp
      · rw [if_neg hal]
        have hal' : a < arrA.length := by omega
        rw [List.getElem?_eq_getElem hal', List.getElem?_eq_getElem hb']
        simp only
        rw [List.drop_eq_getElem_cons hal', List.drop_eq_getElem_cons hb', mrg]
        split
        · have := ih (a + 1) b (c + 1) (arr.set c arrA[a]) (by omega) (by rw [List.length_set]; omega) (by omega)
            (by rw [List.length_set]; omega)
          rw [List.length_set] at this
          rw [this, take_set_succ (by omega), drop_set_lt (by omega), List.drop_eq_getElem_cons hb']
          simp
        · have := ih a (b + 1) (c + 1) (arr.set c arr[b]) (by omega) (by rw [List.length_set]; omega) (by omega)
            (by rw [List.length_set]; omega)
          rw [List.length_set] at this
          rw [this, take_set_succ (by omega), drop_set_lt (by omega), List.drop_eq_getElem_cons hal']
          simp

/-! ## The pairs of a window -/

theorem windowPairs_mem : ∀ (w : List (BitVec 8)) (r0 x : Nat),
    x ∈ windowPairs r0 w ↔ x % 64 < 8 ∧ r0 ≤ x / 64 ∧
      ∃ b, w[x / 64 - r0]? = some b ∧ b.getLsbD (x % 64) = true := by
  intro w
  induction w with
  | nil => intro r0 x; simp [windowPairs]
  | cons b w ih =>
    intro r0 x
    rw [windowPairs, List.mem_append, ih]
    have hb : x ∈ bitsOfByte r0 b ↔ x / 64 = r0 ∧ x % 64 < 8 ∧ b.getLsbD (x % 64) = true := by
      unfold bitsOfByte
      simp only [List.mem_map, List.mem_filter, List.mem_range]
      constructor
      · rintro ⟨c, ⟨hc, hb⟩, rfl⟩
        rw [join6 (by omega)]
        have h1 : (64 * r0 + c) / 64 = r0 := by omega
        have h2 : (64 * r0 + c) % 64 = c := by omega
        rw [h1, h2]
        exact ⟨rfl, hc, hb⟩
      · rintro ⟨h1, h2, h3⟩
        refine ⟨x % 64, ⟨h2, h3⟩, ?_⟩
        rw [join6 (by omega), ← h1]
        exact Nat.div_add_mod x 64
    rw [hb]
    constructor
    · rintro (⟨h1, h2, h3⟩ | ⟨h1, h2, b', h3, h4⟩)
      · refine ⟨h2, by omega, b, ?_, h3⟩
        rw [h1, Nat.sub_self, List.getElem?_cons_zero]
      · refine ⟨h1, by omega, b', ?_, h4⟩
        rw [show x / 64 - r0 = (x / 64 - (r0 + 1)) + 1 by omega, List.getElem?_cons_succ]
        exact h3
    · rintro ⟨h1, h2, b', h3, h4⟩
      by_cases hr : x / 64 = r0
      · left
        rw [hr, Nat.sub_self, List.getElem?_cons_zero, Option.some.injEq] at h3
        exact ⟨hr, h1, by rw [h3]; exact h4⟩
      · right
        refine ⟨h1, by omega, b', ?_, h4⟩
        rw [show x / 64 - r0 = (x / 64 - (r0 + 1)) + 1 by omega, List.getElem?_cons_succ] at h3
        exact h3

theorem windowPairs_sorted : ∀ (w : List (BitVec 8)) (r0 : Nat), (windowPairs r0 w).Pairwise (· < ·) := by
  intro w
  induction w with
  | nil => intro r0; exact List.Pairwise.nil
  | cons b w ih =>
    intro r0
    rw [windowPairs, List.pairwise_append]
    refine ⟨?_, ih _, ?_⟩
    · unfold bitsOfByte
      rw [List.pairwise_map]
      refine List.Pairwise.imp_of_mem ?_ (List.pairwise_lt_range.filter _)
      intro a c ha hc hlt
      have h1 := (List.mem_filter.mp ha).1
      have h2 := (List.mem_filter.mp hc).1
      rw [List.mem_range] at h1 h2
      rw [join6 (by omega), join6 (by omega)]
      omega
    · intro x hx y hy
      have h2 := (windowPairs_mem w (r0 + 1) y).mp hy
      unfold bitsOfByte at hx
      obtain ⟨c, hc, rfl⟩ := List.mem_map.mp hx
      have h1 := (List.mem_filter.mp hc).1
      rw [List.mem_range] at h1
      rw [join6 (by omega)]
      omega

/-- the part of a set inside the first window -/
def inWin (S : Finset Nat) : Finset Nat := S.filter fun x => x % 64 < 8

theorem windowPairs_lists {K : Nat} {w : List (BitVec 8)} {S : Finset Nat} (h : IsWindow K 0 w S)
    (hv : ∀ x ∈ S, x < 64 * K) : Lists (windowPairs 0 w) (inWin S) := by
  refine ⟨nodup_of_strict (windowPairs_sorted w 0), ?_⟩
  ext x
  rw [List.mem_toFinset, windowPairs_mem, inWin, Finset.mem_filter]
  have hx : 64 * (x / 64) + (0 + x % 64) = x := by omega
  constructor
  · rintro ⟨h1, _, b, h3, h4⟩
    have := h.2 _ b h3 (x % 64) h1
    rw [Nat.sub_zero, hx, h4] at this
    exact ⟨of_decide_eq_true this.symm, h1⟩
  · rintro ⟨h1, h2⟩
    have hlt := hv x h1
    have hr : x / 64 < w.length := by rw [h.1]; omega
    refine ⟨h2, Nat.zero_le _, w[x / 64], by rw [Nat.sub_zero]; exact List.getElem?_eq_getElem hr, ?_⟩
    have := h.2 _ _ (List.getElem?_eq_getElem hr) (x % 64) h2
    rw [this, hx]
    exact decide_eq_true h1

/-! ## Making a table -/

theorem slotsFor_spec (n : Nat) : ∀ (fuel lg m : Nat), lg ≤ m → m < lg + fuel → 4 * n ≤ 3 * 2 ^ m →
    lg ≤ slotsFor n fuel lg ∧ slotsFor n fuel lg ≤ m ∧ 4 * n ≤ 3 * 2 ^ (slotsFor n fuel lg) := by
  intro fuel
  induction fuel with
  | zero => intro lg m h1 h2 _; omega
  | succ fuel ih =>
    intro lg m h1 h2 h3
    rw [slotsFor]
    split
    · rename_i hgt
      have hne : lg ≠ m := by rintro rfl; omega
      obtain ⟨g1, g2, g3⟩ := ih (lg + 1) m (by omega) (by omega) h3
      exact ⟨by omega, g2, g3⟩
    · exact ⟨Nat.le_refl _, h1, by omega⟩

theorem mustInsert_fold {vb : Nat} : ∀ (ps : List Nat) {t : PT} {S : Finset Nat}, t.vb = vb →
    Core vb t.lg t.slots S → ps.Nodup → (∀ x ∈ ps, x ∉ S ∧ x < 2 ^ vb) →
    S.card + ps.length < 2 ^ t.lg →
    ∃ t', ps.foldlM mustInsert t = .ok t' ∧ t'.lg = t.lg ∧ t'.vb = vb ∧
      Core vb t'.lg t'.slots (S ∪ ps.toFinset) := by
  intro ps
  induction ps with
  | nil => intro t S hv hc _ _ _; exact ⟨t, rfl, rfl, hv, by simpa using hc⟩
  | cons x ps ih =>
    intro t S hv hc hn hx hroom
    rw [List.nodup_cons] at hn
    rw [List.length_cons] at hroom
    obtain ⟨h1, h2⟩ := hx x List.mem_cons_self
    obtain ⟨i, e, hs, hc'⟩ := hc.locate_not_mem (num := t.num) h1 h2 (by omega)
    have heta : t = ⟨t.lg, vb, t.num, t.slots⟩ := by cases t; simp at hv; simp [hv]
    rw [← heta] at e
    obtain ⟨t', e2, l2, v2, c2⟩ := ih (t := { t with slots := t.slots.set i (some x) }) (S := insert x S)
      hv hc' hn.2
      (by
        intro y hy
        refine ⟨?_, (hx y (List.mem_cons_of_mem _ hy)).2⟩
        rw [Finset.mem_insert]
        rintro (rfl | hy')
        · exact hn.1 hy
        · exact (hx y (List.mem_cons_of_mem _ hy)).1 hy')
      (by rw [Finset.card_insert_of_notMem h1]; simp only; omega)
    refine ⟨t', ?_, l2, v2, ?_⟩
    · rw [List.foldlM_cons]
      unfold mustInsert
      rw [e, ok_bind, if_neg (by rw [hs]; simp), ok_bind]
      exact e2
    · rw [List.toFinset_cons, Finset.union_insert, ← Finset.insert_union]
      exact c2

theorem ptOfPairs_spec {ps : List Nat} {lgK : Nat} {S : Finset Nat} (h : Lists ps S)
    (hv : ∀ x ∈ S, x < 2 ^ (6 + lgK)) (hcap : Cap (6 + lgK) S.card) :
    ∃ t, ptOfPairs ps lgK = .ok t ∧ PTInv t (6 + lgK) S := by
  unfold Cap at hcap
  have hlen := h.len
  obtain ⟨g1, g2, g3⟩ := slotsFor_spec ps.length 64 2 (min 26 (6 + lgK)) (by omega) (by omega)
    (by rw [hlen]; exact hcap)
  have hpos := Nat.two_pow_pos (slotsFor ps.length 64 2)
  unfold ptOfPairs
  generalize slotsFor ps.length 64 2 = lg at *
  obtain ⟨t0, e0, i0, l0⟩ := PTInv.new (lg := lg) (vb := 6 + lgK) g1 (by omega) (by omega)
  obtain ⟨t1, e1, l1, v1, c1⟩ := mustInsert_fold ps (t := t0) (S := ∅) i0.vbeq
    i0.core h.nodup (by
      intro x hx
      exact ⟨by simp, hv x (h.mem.mp hx)⟩)
    (by rw [l0, Finset.card_empty]; omega)
  rw [Finset.empty_union, h.set] at c1
  rw [e0, ok_bind, e1, ok_bind]
  refine ⟨_, rfl, v1, ?_, ?_, c1, hlen, ?_⟩
  · simp only [l1, l0]; exact g1
  · simp only [l1, l0]; omega
  · simp only [l1, l0]; rw [← hlen]; exact g3

/-! ## Changing the columns -/

theorem mapM_ok {f : Nat → Outcome Nat} {g : Nat → Nat} : ∀ {l : List Nat},
    (∀ x ∈ l, f x = .ok (g x)) → l.mapM f = .ok (l.map g) := by
  intro l
  induction l with
  | nil => intro _; rfl
  | cons x l ih =>
    intro h
    rw [List.mapM_cons, h x List.mem_cons_self, ok_bind,
      ih (fun y hy => h y (List.mem_cons_of_mem _ hy)), ok_bind]
    rfl

end Verif.Cpc
