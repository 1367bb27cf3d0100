import Verif.ThetaUnionProps
import Verif.PlainTable

/-!
# C09: theta intersection
-/

namespace Verif.Theta

open Probe HashTable

/-! ## table sizes -/

/-- largest number of retained hashes of any sketch with `lgK ≤ 26` -/
def maxRetained : Nat := 15 * 2 ^ 27 / 16

theorem lgSize_spec {n : Nat} (h1 : 1 ≤ n) (h2 : n ≤ maxRetained) :
    1 ≤ lgSizeFromCount n ∧ lgSizeFromCount n ≤ 27 ∧ n ≤ 15 * 2 ^ lgSizeFromCount n / 16 := by
  have hlog : 2 ^ Nat.log2 n ≤ n := Nat.log2_self_le (by omega)
  have hlog2 : n < 2 ^ (Nat.log2 n + 1) := Nat.lt_log2_self
  have hmax : maxRetained = 125829120 := by decide
  have hle : Nat.log2 n ≤ 26 := by
    by_contra hcon
    have : 2 ^ 27 ≤ 2 ^ Nat.log2 n := Nat.pow_le_pow_right (by omega) (by omega)
    omega
  unfold lgSizeFromCount
  simp only
  split
  · rename_i hgt
    have h26 : Nat.log2 n ≤ 25 := by
      by_contra hcon
      have h26 : Nat.log2 n = 26 := by omega
      rw [h26] at hgt
      have : (2 : Nat) ^ (26 + 1) * 15 / 16 = 125829120 := by norm_num
      omega
    refine ⟨by omega, by omega, ?_⟩
    have e1 : (2 : Nat) ^ (n.log2 + 2) = 2 * 2 ^ (n.log2 + 1) := by rw [← pow_succ']
    rw [e1]
    omega
  · rename_i hle'
    refine ⟨by omega, by omega, ?_⟩
    omega

/-! ## specification -/

/-- Abstract state of an intersection after at least one input. -/
structure ISpec where
  empty : Bool
  theta : Nat
  hashes : List Nat
  deriving DecidableEq

/-- Abstract effect of one input. -/
def istep (s : Option ISpec) (v : View) : ISpec :=
  match s with
  | none => if v.isEmpty then ⟨true, maxTheta, []⟩ else ⟨false, v.theta, sortN v.all⟩
  | some s =>
    if s.empty then s
    else if v.isEmpty then ⟨true, maxTheta, []⟩
    else
      let th := min s.theta v.theta
      let hs := s.hashes.filter (fun h => decide (h < th) && decide (h ∈ v.all))
      ⟨decide (hs = [] ∧ s.hashes ≠ [] ∧ v.all ≠ [] ∧ th = maxTheta), th, hs⟩

def ispec (vs : List View) : Option ISpec := vs.foldl (fun s v => some (istep s v)) none

def irun (sh : Option Nat) : Inter → List View → Outcome Inter
  | s, [] => .ok s
  | s, v :: vs => do let s ← s.update sh v; irun sh s vs

/-! ## loops -/

theorem interCopy_spec : ∀ (es : List Nat) (t : Tbl), Plain elem t → es.Nodup → (∀ e ∈ es, e ≠ 0) →
    (∀ e ∈ es, e ∉ all t) → (all t).length + es.length ≤ 15 * 2 ^ t.lgCur / 16 →
    ∃ t', interCopy es t = .ok t' ∧ interFill es t = .ok t' ∧ Plain elem t' ∧ SameShape t t' ∧
      (all t').Perm (es ++ all t) := by
  intro es
  induction es with
  | nil => intro t h _ _ _ _; exact ⟨t, rfl, rfl, h, SameShape.refl t, List.Perm.refl _⟩
  | cons e es ih =>
    intro t h hnd hnz hdis hroom
    rw [List.length_cons] at hroom
    have h2 := Nat.two_pow_pos t.lgCur
    have habs : ∀ x ∈ itemsOf elem t.entries, elem.key x ≠ e := by
      intro x hx hk
      have hk' : x = e := hk
      rw [hk'] at hx
      exact hdis e (by simp) hx
    obtain ⟨p, hf⟩ := h.find_absent habs (by
      have hh : (itemsOf elem t.entries).length = (all t).length := rfl
      omega)
    obtain ⟨t1, e1, i1, s1, p1⟩ := h.insert (e := e) (hnz e (by simp)) hf (by
      have hh : (itemsOf elem t.entries).length = (all t).length := rfl
      omega)
    have p1' : (all t1).Perm (e :: all t) := p1
    rw [List.nodup_cons] at hnd
    obtain ⟨t2, e2, e2', i2, s2, p2⟩ := ih t1 i1 hnd.2 (fun x hx => hnz x (by simp [hx])) (by
      intro x hx hx1
      rcases List.mem_cons.mp (p1'.mem_iff.mp hx1) with rfl | hx1
      · exact hnd.1 hx
      · exact hdis x (by simp [hx]) hx1) (by
      rw [p1'.length_eq, s1.lgCur, List.length_cons]; omega)
    refine ⟨t2, ?_, ?_, i2, s1.trans s2, ?_⟩
    · unfold interCopy; rw [hf]; simp only [e1, Outcome.ok_bind]; exact e2
    · unfold interFill; rw [hf]; simp only [e1, Outcome.ok_bind]; exact e2'
    · refine p2.trans ((List.Perm.append_left es p1').trans ?_)
      rw [List.cons_append]
      exact List.perm_middle

theorem interMatch_spec (t : Tbl) (h : Plain elem t) (hroom : (all t).length < 2 ^ t.lgCur)
    (ord : Bool) (N : Nat) : ∀ (es ms : List Nat) (count : Nat), (ms ++ es).Nodup →
    (∀ x ∈ ms, x ∈ all t) → ms.length + es.length ≤ N → (ord = true → es.Pairwise (· < ·)) →
    ∃ c', interMatch t ord (min t.numEntries N) es ms count =
        .ok (ms ++ es.filter (fun e => decide (e < t.theta) && decide (e ∈ all t)), c') ∧
      c' ≤ count + es.length ∧ (ord = false → c' = count + es.length) := by
  intro es
  induction es with
  | nil => intro ms count _ _ _ _; exact ⟨count, by simp [interMatch], by simp, by simp⟩
  | cons e es ih =>
    intro ms count hnd hms hN hord
    rw [List.length_cons] at hN
    have hord' : ord = true → es.Pairwise (· < ·) := fun ho => (List.pairwise_cons.mp (hord ho)).2
    have hnd' : (ms ++ es).Nodup := by
      rw [List.nodup_append] at hnd ⊢
      exact ⟨hnd.1, (List.nodup_cons.mp hnd.2.1).2, fun a ha b hb => hnd.2.2 a ha b (by simp [hb])⟩
    unfold interMatch
    by_cases hlt : e < t.theta
    · rw [if_pos hlt]
      by_cases hin : e ∈ all t
      · obtain ⟨p, hf, hp⟩ := h.find_present (e := e) hin
        have hf' : t.find elem e = .found p := hf
        rw [hf']
        have hnd1 : (ms ++ [e]).Nodup := by
          rw [List.nodup_append] at hnd ⊢
          refine ⟨hnd.1, by simp, fun a ha b hb => ?_⟩
          rw [List.mem_singleton] at hb; subst hb
          exact hnd.2.2 a ha b (by simp)
        have hsub : (ms ++ [e]).length ≤ (all t).length := by
          apply List.Subperm.length_le
          apply hnd1.subperm
          intro x hx
          rcases List.mem_append.mp hx with hx | hx
          · exact hms x hx
          · rw [List.mem_singleton] at hx; subst hx; exact hin
        have hne : ¬ ms.length = min t.numEntries N := by
          rw [List.length_append, List.length_singleton] at hsub
          have : t.numEntries = (all t).length := h.num
          omega
        simp only
        rw [if_neg hne, hp]
        obtain ⟨c', e', hc1, hc2⟩ := ih (ms ++ [e]) (count + 1)
          (by rw [List.append_assoc]; exact hnd)
          (by
            intro x hx
            rcases List.mem_append.mp hx with hx | hx
            · exact hms x hx
            · rw [List.mem_singleton] at hx; subst hx; exact hin)
          (by rw [List.length_append, List.length_singleton]; omega) hord'
        refine ⟨c', ?_, by rw [List.length_cons]; omega, fun ho => by
          rw [List.length_cons]; have := hc2 ho; omega⟩
        simp only
        rw [e', List.filter_cons_of_pos (by simp [hlt, hin])]
        simp
      · have habs : ∀ x ∈ itemsOf elem t.entries, elem.key x ≠ e := by
          intro x hx hk
          have hk' : x = e := hk
          rw [hk'] at hx
          exact hin hx
        obtain ⟨p, hf⟩ := h.find_absent habs hroom
        rw [hf]
        obtain ⟨c', e', hc1, hc2⟩ := ih ms (count + 1) hnd' hms (by omega) hord'
        refine ⟨c', ?_, by rw [List.length_cons]; omega, fun ho => by
          rw [List.length_cons]; have := hc2 ho; omega⟩
        simp only
        rw [e', List.filter_cons_of_neg (by simp [hin])]
    · rw [if_neg hlt]
      cases ord with
      | true =>
        simp only [if_true]
        refine ⟨count, ?_, by omega, by simp⟩
        have : (e :: es).filter (fun e => decide (e < t.theta) && decide (e ∈ all t)) = [] := by
          rw [List.filter_eq_nil_iff]
          intro x hx
          have hle : e ≤ x := by
            rcases List.mem_cons.mp hx with rfl | hx
            · exact le_refl _
            · exact le_of_lt ((List.pairwise_cons.mp (hord rfl)).1 x hx)
          have : ¬ x < t.theta := by omega
          simp [this]
        rw [this, List.append_nil]
      | false =>
        simp only [Bool.false_eq_true, if_false]
        obtain ⟨c', e', hc1, hc2⟩ := ih ms (count + 1) hnd' hms (by omega) hord'
        refine ⟨c', ?_, by rw [List.length_cons]; omega, fun _ => by
          rw [List.length_cons]; have := hc2 rfl; omega⟩
        rw [e', List.filter_cons_of_neg (by simp [hlt])]

/-! ## invariant -/

/-- inputs acceptable to the set operations -/
structure Input (sh : Nat) (v : View) : Prop where
  valid : Valid v
  seed : v.seedHash = sh
  size : v.numRetained ≤ maxRetained

structure IInv (s : Inter) (a : ISpec) : Prop where
  isValid : s.isValid = true
  empty : s.table.isEmpty = a.empty
  theta : s.table.theta = a.theta
  le : a.theta ≤ maxTheta
  hashes : sortN (all s.table) = a.hashes
  table : (s.table.numEntries = 0 ∧ all s.table = []) ∨
    (Plain elem s.table ∧ 1 ≤ (all s.table).length ∧ (all s.table).length < 2 ^ s.table.lgCur)
  range : ∀ x ∈ all s.table, x ≠ 0 ∧ x < s.table.theta
  nodup : (all s.table).Nodup
  size : (all s.table).length ≤ maxRetained
  emp : a.empty = true → a.theta = maxTheta ∧ a.hashes = []

theorem all_new0 (st th : Nat) (em : Bool) : all (Table.new elem 0 0 0 st th em) = [] := by
  simp [all, Table.new]

theorem sortN_nil : sortN [] = [] := by simp [sortN]

theorem sortN_eq_nil {l : List Nat} : sortN l = [] ↔ l = [] := by
  constructor
  · intro h
    have := congrArg List.length h
    rw [sortN_length] at this
    exact List.length_eq_zero_iff.mp this
  · rintro rfl; exact sortN_nil

theorem iupdate_first {sh : Nat} {v : View} (hv : Input sh v) :
    ∃ s', newInter.update (some sh) v = .ok s' ∧ IInv s' (istep none v) := by
  unfold Inter.update
  have h0 : newInter.table.isEmpty = false := rfl
  have h1 : newInter.table.theta = maxTheta := rfl
  have h2 : newInter.isValid = false := rfl
  simp only [h0, h1, h2, hv.seed, bne_self_eq_false, Bool.and_false, Bool.false_eq_true, if_false,
    Bool.false_or, Bool.false_and]
  have hth := hv.valid.theta
  by_cases hn : v.numRetained = 0
  · rw [if_pos hn]
    have hall : v.all = [] := by
      rw [hv.valid.num] at hn; exact List.length_eq_zero_iff.mp hn
    refine ⟨_, rfl, ?_⟩
    cases hem : v.isEmpty
    · simp only [istep, hem, Bool.false_eq_true, if_false]
      exact { isValid := rfl, empty := rfl, theta := by simp [Table.new]; omega, le := hth,
              hashes := by simp [all_new0, hall, sortN_nil], table := Or.inl ⟨rfl, all_new0 _ _ _⟩,
              range := by simp [all_new0], nodup := by simp [all_new0], size := by simp [all_new0],
              emp := by simp }
    · simp only [istep, hem, if_true]
      exact { isValid := rfl, empty := rfl, theta := rfl, le := le_refl _,
              hashes := by simp [all_new0, sortN_nil], table := Or.inl ⟨rfl, all_new0 _ _ _⟩,
              range := by simp [all_new0], nodup := by simp [all_new0], size := by simp [all_new0],
              emp := by simp }
  · rw [if_neg hn]
    have hem : v.isEmpty = false := by
      cases hem : v.isEmpty
      · rfl
      · exfalso; apply hn; rw [hv.valid.num, hv.valid.empty hem]; rfl
    simp only [hem, Bool.false_eq_true, if_false, Bool.not_false, if_true]
    rw [Nat.min_eq_right hth]
    obtain ⟨l1, l2, l3⟩ := lgSize_spec (Nat.one_le_iff_ne_zero.mpr hn) hv.size
    obtain ⟨pl, it⟩ := plain_new (E := elem) (lg := lgSizeFromCount v.numRetained)
      (nom := pred8 (lgSizeFromCount v.numRetained)) (rf := 0) (st := maxTheta) (th := v.theta)
      (em := false) l1 (by omega) (Or.inl (by unfold pred8; omega))
    obtain ⟨t', e1, -, i1, s1, p1⟩ := interCopy_spec v.all _ pl hv.valid.nodup
      (fun e he => (hv.valid.range e he).1) (by intro e _; rw [all_eq, it]; simp) (by
        rw [all_eq, it, ← hv.valid.num]; simpa [Table.new] using l3)
    rw [all_eq (Table.new _ _ _ _ _ _ _), it, List.append_nil] at p1
    have hnum : t'.numEntries = v.numRetained := by
      rw [hv.valid.num, ← p1.length_eq]; exact i1.num
    rw [e1]
    simp only [Outcome.ok_bind]
    rw [if_neg (by rw [hnum]; simp)]
    refine ⟨_, rfl, ?_⟩
    simp only [istep, hem, Bool.false_eq_true, if_false]
    have hth' : t'.theta = v.theta := s1.theta
    have hlg' : t'.lgCur = lgSizeFromCount v.numRetained := s1.lgCur
    have h2 := Nat.two_pow_pos (lgSizeFromCount v.numRetained)
    exact { isValid := rfl, empty := s1.isEmpty, theta := hth', le := hth,
            hashes := sortN_congr p1,
            table := Or.inr ⟨i1, by rw [p1.length_eq, ← hv.valid.num]; omega,
              by rw [p1.length_eq, ← hv.valid.num, hlg']; omega⟩,
            range := by
              intro x hx
              rw [hth']
              exact hv.valid.range x (p1.mem_iff.mp hx),
            nodup := p1.nodup_iff.mpr hv.valid.nodup,
            size := by rw [p1.length_eq, ← hv.valid.num]; exact hv.size,
            emp := by simp }

theorem filter_comm_perm {l m : List Nat} (hl : l.Nodup) (hm : m.Nodup) (th : Nat) :
    (m.filter (fun e => decide (e < th) && decide (e ∈ l))).Perm
      (l.filter (fun e => decide (e < th) && decide (e ∈ m))) := by
  apply (List.perm_ext_iff_of_nodup (hm.filter _) (hl.filter _)).mpr
  intro x
  simp only [List.mem_filter, Bool.and_eq_true, decide_eq_true_eq]
  constructor
  · rintro ⟨a, b, c⟩; exact ⟨c, b, a⟩
  · rintro ⟨a, b, c⟩; exact ⟨c, b, a⟩

theorem sortN_filter (l : List Nat) (p : Nat → Bool) : (sortN l).filter p = sortN (l.filter p) := by
  apply sortN_eq_of_perm
  · exact (sortN_perm l).filter p
  · exact (sortN_pairwise l).filter p

theorem iupdate_next {sh : Nat} {s : Inter} {a : ISpec} (h : IInv s a) {v : View} (hv : Input sh v) :
    ∃ s', s.update (some sh) v = .ok s' ∧ IInv s' (istep (some a) v) := by
  unfold Inter.update
  by_cases hae : a.empty = true
  · have : s.table.isEmpty = true := by rw [h.empty]; exact hae
    rw [if_pos this]
    refine ⟨s, rfl, ?_⟩
    have : istep (some a) v = a := by simp [istep, hae]
    rw [this]; exact h
  have hae' : a.empty = false := by simpa using hae
  have hse : s.table.isEmpty = false := by rw [h.empty]; exact hae'
  simp only [hse, h.isValid, hv.seed, bne_self_eq_false, Bool.and_false, Bool.false_eq_true, if_false,
    Bool.false_or, Bool.true_and, Bool.not_true]
  have hvth := hv.valid.theta
  have hale := h.le
  -- the abstract step
  cases hem : v.isEmpty with
  | true =>
    have hall := hv.valid.empty hem
    have hn : v.numRetained = 0 := by rw [hv.valid.num, hall]; rfl
    have hst : istep (some a) v = ⟨true, maxTheta, []⟩ := by simp [istep, hae', hem]
    rw [hst]
    simp only [if_true]
    by_cases hz : (s.table.numEntries == 0) = true
    · rw [if_pos hz]
      refine ⟨_, rfl, ?_⟩
      have hz' : s.table.numEntries = 0 := by simpa using hz
      have hnil : all s.table = [] := by
        rcases h.table with ⟨-, hh⟩ | ⟨pl, hlen, -⟩
        · exact hh
        · have : s.table.numEntries = (all s.table).length := pl.num
          omega
      have hall' : all ({ s.table with isEmpty := true, theta := maxTheta } : Tbl) = [] := hnil
      exact { isValid := rfl, empty := rfl, theta := rfl, le := le_refl _,
              hashes := by rw [hall', sortN_nil], table := Or.inl ⟨hz', hall'⟩,
              range := by rw [hall']; simp, nodup := by rw [hall']; simp,
              size := by rw [hall']; simp, emp := by simp }
    · rw [if_neg hz, if_pos hn]
      refine ⟨_, rfl, ?_⟩
      exact { isValid := rfl, empty := rfl, theta := rfl, le := le_refl _,
              hashes := by simp [all_new0, sortN_nil], table := Or.inl ⟨rfl, all_new0 _ _ _⟩,
              range := by simp [all_new0], nodup := by simp [all_new0], size := by simp [all_new0],
              emp := by simp }
  | false =>
    simp only [Bool.false_eq_true, if_false]
    set th := min s.table.theta v.theta with hthdef
    have hthle : th ≤ maxTheta := by omega
    set hs := a.hashes.filter (fun x => decide (x < th) && decide (x ∈ v.all)) with hhs
    have hst : istep (some a) v =
        ⟨decide (hs = [] ∧ a.hashes ≠ [] ∧ v.all ≠ [] ∧ th = maxTheta), th, hs⟩ := by
      simp [istep, hae', hem, hhs, hthdef, h.theta]
    rw [hst]
    have hhs' : hs = sortN ((all s.table).filter (fun x => decide (x < th) && decide (x ∈ v.all))) := by
      rw [hhs, ← h.hashes, sortN_filter]
    by_cases hz : (s.table.numEntries == 0) = true
    · rw [if_pos hz]
      refine ⟨_, rfl, ?_⟩
      have hz' : s.table.numEntries = 0 := by simpa using hz
      have hnil : all s.table = [] := by
        rcases h.table with ⟨-, hh⟩ | ⟨pl, hlen, -⟩
        · exact hh
        · have : s.table.numEntries = (all s.table).length := pl.num
          omega
      have hall' : all ({ s.table with isEmpty := false, theta := th } : Tbl) = [] := hnil
      have hah : a.hashes = [] := by rw [← h.hashes, hnil, sortN_nil]
      exact { isValid := rfl, empty := by simp [hah], theta := rfl, le := hthle,
              hashes := by rw [hall', hhs', hnil]; simp, table := Or.inl ⟨hz', hall'⟩,
              range := by rw [hall']; simp, nodup := by rw [hall']; simp,
              size := by rw [hall']; simp, emp := by simp [hah] }
    · rw [if_neg hz]
      have hz' : s.table.numEntries ≠ 0 := by simpa using hz
      obtain ⟨pl, hlen, hroom⟩ : Plain elem s.table ∧ 1 ≤ (all s.table).length ∧
          (all s.table).length < 2 ^ s.table.lgCur := by
        rcases h.table with ⟨hh, -⟩ | hh
        · exact absurd hh hz'
        · exact hh
      have hah : a.hashes ≠ [] := by
        intro hcon
        rw [← h.hashes, sortN_eq_nil] at hcon
        rw [hcon] at hlen; simp at hlen
      by_cases hn : v.numRetained = 0
      · rw [if_pos hn]
        have hall : v.all = [] := by
          rw [hv.valid.num] at hn; exact List.length_eq_zero_iff.mp hn
        refine ⟨_, rfl, ?_⟩
        have hsn : hs = [] := by rw [hhs, hall]; simp
        exact { isValid := rfl, empty := by simp [hall, Table.new], theta := rfl, le := hthle,
                hashes := by rw [all_new0, sortN_nil, hsn], table := Or.inl ⟨rfl, all_new0 _ _ _⟩,
                range := by simp [all_new0], nodup := by simp [all_new0],
                size := by simp [all_new0], emp := by simp [hall] }
      · rw [if_neg hn]
        have hvall : v.all ≠ [] := by
          intro hcon; apply hn; rw [hv.valid.num, hcon]; rfl
        have pl' : Plain elem ({ s.table with isEmpty := false, theta := th } : Tbl) :=
          { chain := pl.chain, lg := pl.lg, mode := pl.mode, num := pl.num }
        obtain ⟨c', e1, hc1, hc2⟩ := interMatch_spec { s.table with isEmpty := false, theta := th } pl'
          hroom v.isOrdered v.numRetained v.all [] 0 (by simpa using hv.valid.nodup) (by simp)
          (by rw [hv.valid.num]; simp) hv.valid.ordered
        simp only [List.nil_append, Nat.zero_add] at e1 hc1 hc2
        rw [e1]
        simp only [Outcome.ok_bind]
        have hc1' : ¬ c' > v.numRetained := by rw [hv.valid.num]; omega
        rw [if_neg hc1']
        have hc2' : ¬ (!v.isOrdered && decide (c' < v.numRetained)) = true := by
          cases ho : v.isOrdered
          · have := hc2 ho; rw [hv.valid.num]; simp [this]
          · simp
        rw [if_neg hc2']
        set ms := v.all.filter (fun e => decide (e < th) &&
          decide (e ∈ all ({ s.table with isEmpty := false, theta := th } : Tbl))) with hms
        have hmsp : ms.Perm ((all s.table).filter (fun x => decide (x < th) && decide (x ∈ v.all))) :=
          filter_comm_perm h.nodup hv.valid.nodup th
        have hhsm : hs = sortN ms := by rw [hhs']; exact sortN_congr hmsp.symm
        by_cases hm0 : ms.length = 0
        · rw [if_pos hm0]
          have hmnil : ms = [] := List.length_eq_zero_iff.mp hm0
          have hsn : hs = [] := by rw [hhsm, hmnil, sortN_nil]
          refine ⟨_, rfl, ?_⟩
          by_cases hmax : th = maxTheta
          · have e2 : (if (Table.new elem 0 0 0 maxTheta th false).theta = maxTheta
                then { Table.new elem 0 0 0 maxTheta th false with isEmpty := true }
                else Table.new elem 0 0 0 maxTheta th false) = Table.new elem 0 0 0 maxTheta th true := by
              rw [if_pos (by exact hmax)]; rfl
            rw [e2]
            exact { isValid := rfl, empty := by
                      symm; show decide _ = true; rw [decide_eq_true_eq]; exact ⟨hsn, hah, hvall, hmax⟩,
                    theta := rfl, le := hthle,
                    hashes := by rw [all_new0, sortN_nil, hsn], table := Or.inl ⟨rfl, all_new0 _ _ _⟩,
                    range := by simp [all_new0], nodup := by simp [all_new0],
                    size := by simp [all_new0], emp := fun _ => ⟨hmax, hsn⟩ }
          · have e2 : (if (Table.new elem 0 0 0 maxTheta th false).theta = maxTheta
                then { Table.new elem 0 0 0 maxTheta th false with isEmpty := true }
                else Table.new elem 0 0 0 maxTheta th false) = Table.new elem 0 0 0 maxTheta th false := by
              rw [if_neg (by exact hmax)]
            rw [e2]
            exact { isValid := rfl, empty := by simp [hmax, Table.new],
                    theta := rfl, le := hthle,
                    hashes := by rw [all_new0, sortN_nil, hsn], table := Or.inl ⟨rfl, all_new0 _ _ _⟩,
                    range := by simp [all_new0], nodup := by simp [all_new0],
                    size := by simp [all_new0], emp := by simp [hmax] }
        · rw [if_neg hm0]
          have hmslen : ms.length ≤ maxRetained := by
            have : ms.length ≤ v.all.length := List.length_filter_le _ _
            have := hv.size; rw [hv.valid.num] at this; omega
          obtain ⟨l1, l2, l3⟩ := lgSize_spec (Nat.one_le_iff_ne_zero.mpr hm0) hmslen
          obtain ⟨pl2, it2⟩ := plain_new (E := elem) (lg := lgSizeFromCount ms.length)
            (nom := pred8 (lgSizeFromCount ms.length)) (rf := 0) (st := maxTheta) (th := th)
            (em := false) l1 (by omega) (Or.inl (by unfold pred8; omega))
          have hmsr : ∀ e ∈ ms, e ≠ 0 ∧ e < th := by
            intro e he
            have hmem := List.mem_filter.mp (hmsp.mem_iff.mp he)
            have h2 := hmem.2
            rw [Bool.and_eq_true, decide_eq_true_eq] at h2
            exact ⟨(h.range e hmem.1).1, h2.1⟩
          have hmsnd : ms.Nodup := hv.valid.nodup.filter _
          obtain ⟨t', -, e3, i1, s1, p1⟩ := interCopy_spec ms _ pl2 hmsnd
            (fun e he => (hmsr e he).1) (by intro e _; rw [all_eq, it2]; simp) (by
              rw [all_eq, it2]; simpa [Table.new] using l3)
          rw [all_eq (Table.new _ _ _ _ _ _ _), it2, List.append_nil] at p1
          rw [e3]
          simp only [Outcome.ok_bind]
          refine ⟨_, rfl, ?_⟩
          have hth' : t'.theta = th := s1.theta
          have hlg' : t'.lgCur = lgSizeFromCount ms.length := s1.lgCur
          have h2 := Nat.two_pow_pos (lgSizeFromCount ms.length)
          have hsne : hs ≠ [] := by
            rw [hhsm]; intro hcon; rw [sortN_eq_nil] at hcon; rw [hcon] at hm0; exact hm0 rfl
          have hem' : t'.isEmpty = false := s1.isEmpty
          exact { isValid := rfl, empty := by simp [hem', hsne],
                  theta := hth', le := hthle, hashes := by rw [hhsm]; exact sortN_congr p1,
                  table := Or.inr ⟨i1, by rw [p1.length_eq]; omega,
                    by rw [p1.length_eq, hlg']; omega⟩,
                  range := by
                    intro x hx
                    rw [hth']
                    exact hmsr x (p1.mem_iff.mp hx),
                  nodup := p1.nodup_iff.mpr hmsnd,
                  size := by rw [p1.length_eq]; exact hmslen,
                  emp := by simp [hsne] }

theorem irun_inv {sh : Nat} : ∀ (vs : List View) (s : Inter) (a : ISpec), IInv s a →
    (∀ v ∈ vs, Input sh v) →
    ∃ s' a', irun (some sh) s vs = .ok s' ∧
      vs.foldl (fun s v => some (istep s v)) (some a) = some a' ∧ IInv s' a' := by
  intro vs
  induction vs with
  | nil => intro s a h _; exact ⟨s, a, rfl, rfl, h⟩
  | cons v vs ih =>
    intro s a h hvs
    obtain ⟨s1, e1, i1⟩ := iupdate_next h (hvs v (by simp))
    obtain ⟨s2, a2, e2, f2, i2⟩ := ih s1 _ i1 (fun w hw => hvs w (by simp [hw]))
    exact ⟨s2, a2, by simp [irun, e1, e2], f2, i2⟩

/-- The implementation computes exactly the abstract intersection. -/
theorem inter_refines {sh : Nat} (vs : List View) (hne : vs ≠ []) (hvs : ∀ v ∈ vs, Input sh v)
    (ordered : Bool) :
    ∃ s c a, irun (some sh) newInter vs = .ok s ∧ s.result (some sh) ordered = .ok c ∧
      ispec vs = some a ∧ c.isEmpty = a.empty ∧ c.theta = a.theta ∧ sortN c.entries = a.hashes ∧
      Valid c.view ∧ c.seedHash = sh ∧ (ordered = true → c.isOrdered = true) ∧
      c.entries.length ≤ maxRetained := by
  match vs, hne, hvs with
  | v :: vs, _, hvs =>
    obtain ⟨s1, e1, i1⟩ := iupdate_first (hvs v (by simp))
    obtain ⟨s2, a2, e2, f2, i2⟩ := irun_inv vs s1 _ i1 (fun w hw => hvs w (by simp [hw]))
    have hent : (if s2.table.numEntries > 0 then
        if ordered = true then sortN (s2.table.entries.filter (fun e => e != 0))
        else s2.table.entries.filter (fun e => e != 0) else []) =
        if ordered = true then sortN (all s2.table) else all s2.table := by
      by_cases hn : s2.table.numEntries > 0
      · rw [if_pos hn]; rfl
      · rw [if_neg hn]
        have hnil : all s2.table = [] := by
          rcases i2.table with ⟨-, hh⟩ | ⟨pl, hlen, -⟩
          · exact hh
          · have : s2.table.numEntries = (all s2.table).length := pl.num
            omega
        rw [hnil, sortN_nil]; simp
    have hp : (if ordered = true then sortN (all s2.table) else all s2.table).Perm (all s2.table) := by
      split
      · exact sortN_perm _
      · exact List.Perm.refl _
    refine ⟨s2, compactFromEntries s2.table.isEmpty ordered sh s2.table.theta
        (if ordered = true then sortN (all s2.table) else all s2.table), a2,
      by simp [irun, e1, e2], ?_, f2, ?_, ?_, ?_, ?_, ?_, ?_, ?_⟩
    · unfold Inter.result
      rw [i2.isValid]
      simp only [Bool.not_true, Bool.false_eq_true, if_false]
      rw [hent]
    · exact i2.empty
    · exact i2.theta
    · rw [← i2.hashes]; exact sortN_congr hp
    · refine compactFromEntries_valid (hp.nodup_iff.mpr i2.nodup) ?_ ?_ (by rw [i2.theta]; exact i2.le) ?_
      · intro e he; exact i2.range e (hp.mem_iff.mp he)
      · intro ho; rw [if_pos ho]; exact sortN_strict i2.nodup
      · intro hem
        have h1 := (i2.emp (by rw [← i2.empty]; exact hem)).2
        rw [← i2.hashes, sortN_eq_nil] at h1
        rw [h1, sortN_nil]; simp
    · rfl
    · intro ho; simp [compactFromEntries, ho]
    · exact le_trans (le_of_eq hp.length_eq) i2.size

/-! ## properties of the abstract intersection, in terms of the inputs only -/

/-- minimum of the input thetas -/
def minAll (vs : List View) : Nat := (vs.map View.theta).foldl min maxTheta

theorem foldl_min_le (l : List Nat) : ∀ a : Nat, l.foldl min a ≤ a := by
  induction l with
  | nil => intro a; exact le_refl _
  | cons b l ih => intro a; exact le_trans (ih _) (min_le_left _ _)

/-- What an abstract intersection state says about the inputs. -/
structure Meaning (vs : List View) (a : ISpec) : Prop where
  nonempty : a.empty = false → (∀ v ∈ vs, v.isEmpty = false) ∧ a.theta = minAll vs ∧
    a.hashes.Pairwise (· < ·) ∧
    ∀ h, h ∈ a.hashes ↔ h < a.theta ∧ ∀ v ∈ vs, h ∈ v.all
  empty : a.empty = true → a.theta = maxTheta ∧ a.hashes = [] ∧
    ((∃ v ∈ vs, v.isEmpty = true) ∨
      ∃ ws, ws <+: vs ∧ ws ≠ [] ∧ minAll ws = maxTheta ∧ ∀ h, ¬ ∀ v ∈ ws, h ∈ v.all)

theorem minAll_append (vs : List View) (v : View) : minAll (vs ++ [v]) = min (minAll vs) v.theta := by
  simp [minAll, List.foldl_append]

theorem meaning_first {v : View} (hv : Valid v) : Meaning [v] (istep none v) := by
  cases hem : v.isEmpty
  · simp only [istep, hem, Bool.false_eq_true, if_false]
    refine ⟨fun _ => ⟨by simp [hem], ?_, sortN_strict hv.nodup, ?_⟩, by simp⟩
    · have := hv.theta
      simp only [minAll, List.map_cons, List.map_nil, List.foldl_cons, List.foldl_nil]; omega
    · intro h
      simp only [mem_sortN, List.forall_mem_singleton]
      exact ⟨fun hh => ⟨(hv.range h hh).2, hh⟩, fun hh => hh.2⟩
  · simp only [istep, hem, if_true]
    exact ⟨by simp, fun _ => ⟨rfl, rfl, Or.inl ⟨v, by simp, hem⟩⟩⟩

theorem meaning_next {vs : List View} {a : ISpec}
    (h : Meaning vs a) {v : View} (hv : Valid v) :
    Meaning (vs ++ [v]) (istep (some a) v) := by
  cases hae : a.empty with
  | true =>
    have : istep (some a) v = a := by simp [istep, hae]
    rw [this]
    refine ⟨by rw [hae]; simp, fun _ => ?_⟩
    obtain ⟨h1, h2, h3⟩ := h.empty hae
    refine ⟨h1, h2, ?_⟩
    rcases h3 with ⟨w, hw, hwe⟩ | ⟨ws, hp, hx⟩
    · exact Or.inl ⟨w, by simp [hw], hwe⟩
    · exact Or.inr ⟨ws, hp.trans (List.prefix_append _ _), hx⟩
  | false =>
    obtain ⟨n1, n2, n3, n4⟩ := h.nonempty hae
    cases hem : v.isEmpty with
    | true =>
      have : istep (some a) v = ⟨true, maxTheta, []⟩ := by simp [istep, hae, hem]
      rw [this]
      exact ⟨by simp, fun _ => ⟨rfl, rfl, Or.inl ⟨v, by simp, hem⟩⟩⟩
    | false =>
      set th := min a.theta v.theta with hth
      set hs := a.hashes.filter (fun x => decide (x < th) && decide (x ∈ v.all)) with hhs
      have hst : istep (some a) v =
          ⟨decide (hs = [] ∧ a.hashes ≠ [] ∧ v.all ≠ [] ∧ th = maxTheta), th, hs⟩ := by
        simp [istep, hae, hem, hhs, hth]
      rw [hst]
      have hthm : th = minAll (vs ++ [v]) := by rw [minAll_append, hth, n2]
      have hmem : ∀ x, x ∈ hs ↔ x < th ∧ ∀ w ∈ vs ++ [v], x ∈ w.all := by
        intro x
        rw [hhs, List.mem_filter, Bool.and_eq_true, decide_eq_true_eq, decide_eq_true_eq, n4]
        constructor
        · rintro ⟨⟨h1, h2⟩, h3, h4⟩
          refine ⟨h3, fun w hw => ?_⟩
          rcases List.mem_append.mp hw with hw | hw
          · exact h2 w hw
          · rw [List.mem_singleton] at hw; subst hw; exact h4
        · rintro ⟨h1, h2⟩
          exact ⟨⟨by omega, fun w hw => h2 w (by simp [hw])⟩, h1, h2 v (by simp)⟩
      refine ⟨fun _ => ⟨?_, hthm, n3.filter _, hmem⟩, ?_⟩
      · intro w hw
        rcases List.mem_append.mp hw with hw | hw
        · exact n1 w hw
        · rw [List.mem_singleton] at hw; subst hw; exact hem
      · intro hd
        simp only [decide_eq_true_eq] at hd
        obtain ⟨d1, d2, d3, d4⟩ := hd
        refine ⟨d4, d1, Or.inr ⟨vs ++ [v], List.prefix_rfl, by simp, by rw [← hthm]; exact d4, ?_⟩⟩
        intro x hx
        have hxv := (hv.range x (hx v (by simp))).2
        have hxlt : x < th := by
          rw [d4]; exact lt_of_lt_of_le hxv hv.theta
        have : x ∈ hs := (hmem x).mpr ⟨hxlt, hx⟩
        rw [d1] at this; simp at this

theorem meaning_run : ∀ (ws vs : List View) (a a' : ISpec), vs ≠ [] → (∀ v ∈ vs, Valid v) →
    (∀ v ∈ ws, Valid v) → Meaning vs a →
    ws.foldl (fun s v => some (istep s v)) (some a) = some a' → Meaning (vs ++ ws) a' := by
  intro ws
  induction ws with
  | nil =>
    intro vs a a' _ _ _ h he
    simp only [List.foldl_nil, Option.some.injEq] at he
    subst he; simpa using h
  | cons w ws ih =>
    intro vs a a' hne hvs hws h he
    have := ih (vs ++ [w]) _ a' (by simp) (by
      intro x hx
      rcases List.mem_append.mp hx with hx | hx
      · exact hvs x hx
      · rw [List.mem_singleton] at hx; subst hx; exact hws x (by simp))
      (fun x hx => hws x (by simp [hx])) (meaning_next h (hws w (by simp))) he
    simpa using this

/-- C09.  For every non-empty sequence of valid inputs, in every layout: updates and result succeed and
the result is a valid sketch.  If the result is not flagged empty, no input was empty, its theta is the
minimum of the input thetas and it retains exactly the hashes below theta that occur in every input.
If it is flagged empty, it retains nothing and is exact (theta at its maximum), and either some
input was empty or already a prefix of the inputs, all exact, had no hash in common. -/
theorem C09_intersection_result (sh : Nat) (vs : List View) (hne : vs ≠ [])
    (hvs : ∀ v ∈ vs, Input sh v) (ordered : Bool) :
    ∃ s c, irun (some sh) newInter vs = .ok s ∧ s.result (some sh) ordered = .ok c ∧
      c.entries.Nodup ∧ c.seedHash = sh ∧ Valid c.view ∧
      (ordered = true → c.entries.Pairwise (· < ·)) ∧
      (c.isEmpty = false → (∀ v ∈ vs, v.isEmpty = false) ∧ c.theta = minAll vs ∧
        ∀ h, h ∈ c.entries ↔ h < c.theta ∧ ∀ v ∈ vs, h ∈ v.all) ∧
      (c.isEmpty = true → c.theta = maxTheta ∧ c.entries = [] ∧
        ((∃ v ∈ vs, v.isEmpty = true) ∨
          ∃ ws, ws <+: vs ∧ ws ≠ [] ∧ minAll ws = maxTheta ∧ ∀ h, ¬ ∀ v ∈ ws, h ∈ v.all)) := by
  obtain ⟨s, c, a, e1, e2, ha, hem, hth, hent, hval, hsh, hord, -⟩ := inter_refines vs hne hvs ordered
  have hm : Meaning vs a := by
    match vs, hne, hvs, ha with
    | v :: vs, _, hvs, ha =>
      have := meaning_run vs [v] _ a (by simp) (by simpa using (hvs v (by simp)).valid)
        (fun w hw => (hvs w (by simp [hw])).valid) (meaning_first (hvs v (by simp)).valid) ha
      simpa using this
  refine ⟨s, c, e1, e2, hval.nodup, hsh, hval, fun ho => hval.ordered (hord ho), ?_, ?_⟩
  · intro hc
    obtain ⟨n1, n2, n3, n4⟩ := hm.nonempty (by rw [← hem]; exact hc)
    refine ⟨n1, by rw [hth, n2], ?_⟩
    intro h
    rw [hth, ← n4, ← hent, mem_sortN]
  · intro hc
    obtain ⟨m1, m2, m3⟩ := hm.empty (by rw [← hem]; exact hc)
    exact ⟨by rw [hth, m1], by rw [m2] at hent; exact sortN_eq_nil.mp hent, m3⟩

/-- an empty input always makes the result empty -/
theorem ispec_empty_absorbs (vs : List View) (a : ISpec) (ha : ispec vs = some a)
    (he : ∃ v ∈ vs, v.isEmpty = true) : a.empty = true := by
  have keep : ∀ (ws : List View) (b b' : ISpec), b.empty = true →
      ws.foldl (fun s v => some (istep s v)) (some b) = some b' → b'.empty = true := by
    intro ws
    induction ws with
    | nil => intro b b' hb h; simp at h; rw [← h]; exact hb
    | cons w ws ih =>
      intro b b' hb h
      have : istep (some b) w = b := by simp [istep, hb]
      rw [List.foldl_cons, this] at h
      exact ih b b' hb h
  have gen : ∀ (ws : List View) (s : Option ISpec) (b' : ISpec), (∃ v ∈ ws, v.isEmpty = true) →
      ws.foldl (fun s v => some (istep s v)) s = some b' → b'.empty = true := by
    intro ws
    induction ws with
    | nil => intro s b' h; obtain ⟨v, hv, _⟩ := h; simp at hv
    | cons w ws ih =>
      intro s b' h hf
      rw [List.foldl_cons] at hf
      obtain ⟨v, hv, hve⟩ := h
      rcases List.mem_cons.mp hv with rfl | hv
      · refine keep ws _ b' ?_ hf
        cases s with
        | none => simp [istep, hve]
        | some s =>
          by_cases hs : s.empty = true
          · simp [istep, hs]
          · simp [istep, hs, hve]
      · exact ih _ b' ⟨v, hv, hve⟩ hf
  exact gen vs none a he ha

/-- C09 (empty input).  If some input is empty the result is empty. -/
theorem C09_empty_input (sh : Nat) (vs : List View) (hvs : ∀ v ∈ vs, Input sh v) (ordered : Bool)
    (he : ∃ v ∈ vs, v.isEmpty = true) :
    ∃ s c, irun (some sh) newInter vs = .ok s ∧ s.result (some sh) ordered = .ok c ∧
      c.isEmpty = true := by
  have hne : vs ≠ [] := by rintro rfl; obtain ⟨v, hv, _⟩ := he; simp at hv
  obtain ⟨s, c, a, e1, e2, ha, hem, -⟩ := inter_refines vs hne hvs ordered
  exact ⟨s, c, e1, e2, by rw [hem]; exact ispec_empty_absorbs vs a ha he⟩

theorem istep_same {s : Option ISpec} {v w : View} (h : SameSketch v w) (hv : v.all.Nodup)
    (hw : w.all.Nodup) : istep s v = istep s w := by
  obtain ⟨h1, h2, h3⟩ := h
  have hp : v.all.Perm w.all := (List.perm_ext_iff_of_nodup hv hw).mpr h3
  cases s with
  | none => simp only [istep, h1, h2, sortN_congr hp]
  | some s =>
    have hnil : v.all = [] ↔ w.all = [] := by
      constructor
      · intro hh; rw [hh] at hp; exact hp.symm.eq_nil
      · intro hh; rw [hh] at hp; exact hp.eq_nil
    simp only [istep, h1, h2, h3, ne_eq, hnil]

/-- C09 (layout).  The same sketches in different layouts give the same result. -/
theorem C09_layout_independent (sh : Nat) (vs ws : List View) (hne : vs ≠ [])
    (hsame : List.Forall₂ SameSketch vs ws) (hvs : ∀ v ∈ vs, Input sh v)
    (hws : ∀ v ∈ ws, Input sh v) (o o' : Bool) :
    ∃ s t c d, irun (some sh) newInter vs = .ok s ∧ irun (some sh) newInter ws = .ok t ∧
      s.result (some sh) o = .ok c ∧ t.result (some sh) o' = .ok d ∧
      c.theta = d.theta ∧ c.isEmpty = d.isEmpty ∧ c.entries.Perm d.entries := by
  have hne' : ws ≠ [] := by
    rintro rfl; cases hsame; exact hne rfl
  obtain ⟨s, c, a, e1, e2, ha, hem, hth, hent, -⟩ := inter_refines vs hne hvs o
  obtain ⟨t, d, b, f1, f2, hb, gem, gth, gent, -⟩ := inter_refines ws hne' hws o'
  have hfold : ∀ (vs ws : List View) (s : Option ISpec), List.Forall₂ SameSketch vs ws →
      (∀ v ∈ vs, Input sh v) → (∀ v ∈ ws, Input sh v) →
      vs.foldl (fun s v => some (istep s v)) s = ws.foldl (fun s v => some (istep s v)) s := by
    intro vs ws s h
    induction h generalizing s with
    | nil => intro _ _; rfl
    | @cons v w l l' hvw _ ih =>
      intro h1 h2
      rw [List.foldl_cons, List.foldl_cons, istep_same hvw (h1 v (by simp)).valid.nodup
        (h2 w (by simp)).valid.nodup]
      exact ih _ (fun x hx => h1 x (by simp [hx])) (fun x hx => h2 x (by simp [hx]))
  have hab : a = b := by
    have := hfold vs ws none hsame hvs hws
    unfold ispec at ha hb
    rw [ha, hb] at this
    simpa using this
  subst hab
  refine ⟨s, t, c, d, e1, f1, e2, f2, by rw [hth, gth], by rw [hem, gem], ?_⟩
  exact ((sortN_perm _).symm.trans (by rw [hent, gent])).trans (sortN_perm _)

/-- Asking for a result before any update is an error. -/
theorem C09_result_before_update (sh : Option Nat) (o : Bool) :
    ∃ m, newInter.result sh o = .err m := ⟨_, rfl⟩

/-- Finding: the reported theta depends on the order of the inputs.  Two exact disjoint sketches
followed by one in estimation mode give an exact empty result; the other order gives a non-empty
result in estimation mode. -/
theorem C09_theta_depends_on_order :
    ∃ (x y z : View), Input 7 x ∧ Input 7 y ∧ Input 7 z ∧
      ((irun (some 7) newInter [x, y, z]).bind (fun s => s.result (some 7) false)).bind
          (fun c => .ok (c.isEmpty, c.theta)) = .ok (true, maxTheta) ∧
      ((irun (some 7) newInter [z, x, y]).bind (fun s => s.result (some 7) false)).bind
          (fun c => .ok (c.isEmpty, c.theta)) = .ok (false, 1000) := by
  refine ⟨⟨false, true, maxTheta, 7, 1, [5]⟩, ⟨false, true, maxTheta, 7, 1, [6]⟩,
    ⟨false, true, 1000, 7, 1, [5]⟩, ?_, ?_, ?_, by decide +kernel, by decide +kernel⟩ <;>
  exact { valid := { nodup := by decide, range := by decide, num := rfl, ordered := by decide,
                     theta := by decide, empty := by decide }, seed := rfl, size := by decide }

/-! ## non-vacuity -/

example : ((irun (some 7) newInter [⟨false, true, maxTheta, 7, 3, [3, 5, 9]⟩,
    ⟨false, false, 1000, 7, 2, [9, 3]⟩]).bind (fun s => s.result (some 7) false)).bind
    (fun c => .ok (c.entries.length, c.theta, c.isEmpty)) = .ok (2, 1000, false) := by decide +kernel

end Verif.Theta
