import Verif.ThetaInterProps

/-!
# C10: theta A-not-B
-/

namespace Verif.Theta

open Probe HashTable

/-- The hash-based set of B's hashes below theta. -/
theorem hashB_spec (theta : Nat) (ord : Bool) : ∀ (es : List Nat) (t : Tbl), Plain elem t →
    es.Nodup → (∀ e ∈ es, e ≠ 0) → (∀ e ∈ es, e ∉ all t) → (ord = true → es.Pairwise (· < ·)) →
    (all t).length + es.length ≤ 15 * 2 ^ t.lgCur / 16 →
    ∃ t', hashB theta ord es t = .ok t' ∧ Plain elem t' ∧ SameShape t t' ∧
      (all t').length ≤ (all t).length + es.length ∧
      ∀ x, x ∈ all t' ↔ x ∈ all t ∨ (x ∈ es ∧ x < theta) := by
  intro es
  induction es with
  | nil =>
    intro t h _ _ _ _ _
    exact ⟨t, rfl, h, SameShape.refl t, by simp, by simp⟩
  | cons e es ih =>
    intro t h hnd hnz hdis hord hroom
    rw [List.length_cons] at hroom
    have h2 := Nat.two_pow_pos t.lgCur
    rw [List.nodup_cons] at hnd
    have hord' : ord = true → es.Pairwise (· < ·) := fun ho => (List.pairwise_cons.mp (hord ho)).2
    have hskip : ¬ e < theta → ∀ (t' : Tbl), (∀ x, x ∈ all t' ↔ x ∈ all t ∨ (x ∈ es ∧ x < theta)) →
        ∀ x, x ∈ all t' ↔ x ∈ all t ∨ (x ∈ e :: es ∧ x < theta) := by
      intro hlt t' hm x
      rw [hm x, List.mem_cons]
      constructor
      · rintro (hx | ⟨hx, hx2⟩)
        · exact Or.inl hx
        · exact Or.inr ⟨Or.inr hx, hx2⟩
      · rintro (hx | ⟨rfl | hx, hx2⟩)
        · exact Or.inl hx
        · exact absurd hx2 hlt
        · exact Or.inr ⟨hx, hx2⟩
    unfold hashB
    by_cases hlt : e < theta
    · rw [if_pos hlt]
      have habs : ∀ x ∈ itemsOf elem t.entries, elem.key x ≠ e := by
        intro x hx hk
        have hk' : x = e := hk
        rw [hk'] at hx
        exact hdis e (by simp) hx
      obtain ⟨p, hf⟩ := h.find_absent habs (by
        have hh : (itemsOf elem t.entries).length = (all t).length := rfl
        omega)
      obtain ⟨t1, e1, i1, s1, p1⟩ := h.insert (e := e) (hnz e (by simp)) hf (by
        have hh : (itemsOf elem t.entries).length = (all t).length := rfl
        omega)
      have p1' : (all t1).Perm (e :: all t) := p1
      have hl1 : (all t1).length = (all t).length + 1 := by rw [p1'.length_eq, List.length_cons]
      obtain ⟨t2, e2, i2, s2, l2, m2⟩ := ih t1 i1 hnd.2 (fun x hx => hnz x (by simp [hx])) (by
        intro x hx hx1
        rcases List.mem_cons.mp (p1'.mem_iff.mp hx1) with rfl | hx1
        · exact hnd.1 hx
        · exact hdis x (by simp [hx]) hx1) hord' (by rw [hl1, s1.lgCur]; omega)
      refine ⟨t2, ?_, i2, s1.trans s2, by rw [List.length_cons]; omega, ?_⟩
      · rw [hf]; simp only [e1, Outcome.ok_bind]; exact e2
      · intro x
        rw [m2 x, p1'.mem_iff, List.mem_cons, List.mem_cons]
        constructor
        · rintro ((rfl | hx) | ⟨hx, hx2⟩)
          · exact Or.inr ⟨Or.inl rfl, hlt⟩
          · exact Or.inl hx
          · exact Or.inr ⟨Or.inr hx, hx2⟩
        · rintro (hx | ⟨rfl | hx, hx2⟩)
          · exact Or.inl (Or.inr hx)
          · exact Or.inl (Or.inl rfl)
          · exact Or.inr ⟨hx, hx2⟩
    · rw [if_neg hlt]
      cases ord with
      | true =>
        simp only [if_true]
        refine ⟨t, rfl, h, SameShape.refl t, by omega, hskip hlt t ?_⟩
        intro x
        constructor
        · exact Or.inl
        · rintro (hx | ⟨hx, hx2⟩)
          · exact hx
          · exfalso
            have := (List.pairwise_cons.mp (hord rfl)).1 x hx
            omega
      | false =>
        simp only [Bool.false_eq_true, if_false]
        obtain ⟨t2, e2, i2, s2, l2, m2⟩ := ih t h hnd.2 (fun x hx => hnz x (by simp [hx]))
          (fun x hx => hdis x (by simp [hx])) hord' (by omega)
        exact ⟨t2, e2, i2, s2, by rw [List.length_cons]; omega, hskip hlt t2 m2⟩

theorem scanA_spec (t : Tbl) (h : Plain elem t) (hroom : (all t).length < 2 ^ t.lgCur) (theta : Nat)
    (ord : Bool) : ∀ (es acc : List Nat), (ord = true → es.Pairwise (· < ·)) →
    scanA t theta ord es acc =
      .ok (acc ++ es.filter (fun e => !decide (e ∈ all t) && decide (e < theta))) := by
  intro es
  induction es with
  | nil => intro acc _; simp [scanA]
  | cons e es ih =>
    intro acc hord
    have hord' : ord = true → es.Pairwise (· < ·) := fun ho => (List.pairwise_cons.mp (hord ho)).2
    unfold scanA
    by_cases hlt : e < theta
    · rw [if_pos hlt]
      by_cases hin : e ∈ all t
      · obtain ⟨p, hf, -⟩ := h.find_present (e := e) hin
        have hf' : t.find elem e = .found p := hf
        rw [hf']
        simp only
        rw [ih acc hord', List.filter_cons_of_neg (by simp [hin])]
      · have habs : ∀ x ∈ itemsOf elem t.entries, elem.key x ≠ e := by
          intro x hx hk
          have hk' : x = e := hk
          rw [hk'] at hx
          exact hin hx
        obtain ⟨p, hf⟩ := h.find_absent habs hroom
        rw [hf]
        simp only
        rw [ih _ hord', List.filter_cons_of_pos (by simp [hin, hlt])]
        simp
    · rw [if_neg hlt]
      cases ord with
      | true =>
        simp only [if_true]
        have : (e :: es).filter (fun e => !decide (e ∈ all t) && decide (e < theta)) = [] := by
          rw [List.filter_eq_nil_iff]
          intro x hx
          have hle : e ≤ x := by
            rcases List.mem_cons.mp hx with rfl | hx
            · exact le_refl _
            · exact le_of_lt ((List.pairwise_cons.mp (hord rfl)).1 x hx)
          have : ¬ x < theta := by omega
          simp [this]
        rw [this, List.append_nil]
      | false =>
        simp only [Bool.false_eq_true, if_false]
        rw [ih acc hord', List.filter_cons_of_neg (by simp [hlt])]

/-- The hash-based algorithm returns A's hashes below theta which are not in B, in A's order. -/
theorem computeHashBased_spec {sh : Nat} {a b : View} (ha : Valid a) (hb : Input sh b)
    (hn : b.numRetained ≠ 0) (theta : Nat) :
    computeHashBased a b theta =
      .ok (a.all.filter (fun e => !decide (e ∈ b.all) && decide (e < theta))) := by
  obtain ⟨l1, l2, l3⟩ := lgSize_spec (Nat.one_le_iff_ne_zero.mpr hn) hb.size
  obtain ⟨pl, it⟩ := plain_new (E := elem) (lg := lgSizeFromCount b.numRetained)
    (nom := lgSizeFromCount b.numRetained) (rf := 0) (st := 0) (th := 0)
    (em := false) l1 (by omega) (Or.inr ⟨rfl, rfl⟩)
  have hallnil : all (Table.new elem (lgSizeFromCount b.numRetained) (lgSizeFromCount b.numRetained)
      0 0 0 false) = [] := it
  have h2 := Nat.two_pow_pos (lgSizeFromCount b.numRetained)
  obtain ⟨t, e1, i1, s1, len1, m1⟩ := hashB_spec theta b.isOrdered b.all _ pl hb.valid.nodup
    (fun e he => (hb.valid.range e he).1) (by rw [hallnil]; simp) hb.valid.ordered (by
      rw [hallnil, ← hb.valid.num]; simpa [Table.new] using l3)
  rw [hallnil, ← hb.valid.num] at len1
  have hlg : t.lgCur = lgSizeFromCount b.numRetained := s1.lgCur
  unfold computeHashBased
  simp only [e1, Outcome.ok_bind]
  rw [scanA_spec t i1 (by rw [hlg]; simp at len1; omega) theta a.isOrdered a.all [] ha.ordered]
  rw [List.nil_append]
  congr 1
  apply List.filter_congr
  intro x _
  by_cases hx : x < theta
  · have : x ∈ all t ↔ x ∈ b.all := by rw [m1 x, hallnil]; simp [hx]
    simp [this]
  · simp [hx]

/-- C10 (algorithms agree).  On every pair of valid sketches the hash-based algorithm and the
map-based one used for two ordered sketches return the same list. -/
theorem C10_algorithms_agree {sh : Nat} {a b : View} (ha : Valid a) (hb : Input sh b)
    (hn : b.numRetained ≠ 0) (theta : Nat) :
    computeHashBased a b theta = .ok (computeSortBased a b theta) := by
  rw [computeHashBased_spec ha hb hn theta]
  congr 1
  apply List.filter_congr
  intro x _
  simp

/-- C10.  For every two valid sketches with the expected seed hash, in every layout, the difference
succeeds and is a valid sketch.  If A is empty the result is empty with A's theta.  Otherwise (B's
theta being maximal if B is empty, as for every sketch built from updates) its theta is the
minimum of both thetas and it retains exactly the hashes of A below theta that do not occur in B;
it is flagged empty iff nothing is retained, theta is maximal and not (B empty and A retaining). -/
theorem C10_a_not_b_result (sh : Nat) (a b : View) (ha : Input sh a) (hb : Input sh b)
    (hbt : b.isEmpty = true → b.theta = maxTheta) (ordered : Bool) :
    ∃ c, aNotB a b (some sh) ordered = .ok c ∧ Valid c.view ∧
      c.theta = (if a.isEmpty then a.theta else min a.theta b.theta) ∧
      (∀ h, h ∈ c.entries ↔ h ∈ a.all ∧ h ∉ b.all ∧ h < c.theta) ∧
      c.entries.Nodup ∧ c.seedHash = sh ∧ (ordered = true → c.entries.Pairwise (· < ·)) ∧
      (c.isEmpty = true ↔ a.isEmpty = true ∨ (c.entries = [] ∧ c.theta = maxTheta)) := by
  unfold aNotB
  simp only
  by_cases hae : a.isEmpty = true
  · rw [if_pos hae]
    have hnil := ha.valid.empty hae
    have hp := newCompact_perm ha.valid ordered
    have hent : (newCompact a ordered).entries = [] := by rw [hnil] at hp; exact hp.eq_nil
    refine ⟨_, rfl, newCompact_valid ha.valid ordered, by simp [newCompact, hae], ?_, by rw [hent]; simp,
      ha.seed, by rw [hent]; simp, ?_⟩
    · intro h; rw [hent, hnil]; simp
    · simp [newCompact, hae]
  rw [if_neg hae]
  have hae' : a.isEmpty = false := by simpa using hae
  by_cases hbe : (decide (a.numRetained > 0) && b.isEmpty) = true
  · rw [if_pos hbe]
    rw [Bool.and_eq_true, decide_eq_true_eq] at hbe
    obtain ⟨hpos, hbe⟩ := hbe
    have hbnil := hb.valid.empty hbe
    have hp := newCompact_perm ha.valid ordered
    have hat := ha.valid.theta
    have hbt' := hbt hbe
    have hth : (newCompact a ordered).theta = a.theta := rfl
    refine ⟨_, rfl, newCompact_valid ha.valid ordered, ?_, ?_, (newCompact_valid ha.valid ordered).nodup,
      ha.seed, ?_, ?_⟩
    · rw [if_neg hae, hth]; omega
    · intro h
      rw [hp.mem_iff, hbnil, hth]
      constructor
      · intro hh; exact ⟨hh, by simp, (ha.valid.range h hh).2⟩
      · intro hh; exact hh.1
    · intro ho
      apply (newCompact_valid ha.valid ordered).ordered
      show (a.isOrdered || ordered) = true
      rw [ho]; simp
    · have h1 : (newCompact a ordered).isEmpty = false := hae'
      rw [h1]
      simp only [Bool.false_eq_true, hae', false_or, false_iff, not_and]
      intro hcon
      rw [hcon] at hp
      rw [ha.valid.num, ← hp.length_eq] at hpos
      simp at hpos
  rw [if_neg hbe, if_neg (by rw [ha.seed]; simp), if_neg (by rw [hb.seed]; simp)]
  set theta := min a.theta b.theta with hth
  have hthle : theta ≤ maxTheta := by have := ha.valid.theta; omega
  -- all three branches compute the same list
  have hent : aNotBEntries a b theta =
      .ok (a.all.filter (fun e => !decide (e ∈ b.all) && decide (e < theta))) := by
    unfold aNotBEntries
    by_cases hn : b.numRetained = 0
    · rw [if_pos hn]
      have hbnil : b.all = [] := by
        rw [hb.valid.num] at hn; exact List.length_eq_zero_iff.mp hn
      rw [hbnil]; simp
    · rw [if_neg hn]
      split
      · rw [← C10_algorithms_agree ha.valid hb hn theta, computeHashBased_spec ha.valid hb hn theta]
      · exact computeHashBased_spec ha.valid hb hn theta
  rw [hent]
  simp only [Outcome.ok_bind, Outcome.pure_eq]
  set es := a.all.filter (fun e => !decide (e ∈ b.all) && decide (e < theta)) with hes
  have hnd : es.Nodup := ha.valid.nodup.filter _
  have hmem : ∀ h, h ∈ es ↔ h ∈ a.all ∧ h ∉ b.all ∧ h < theta := by
    intro h; rw [hes, List.mem_filter]; simp
  have hp : (if (ordered && !a.isOrdered) = true then sortN es else es).Perm es := by
    split
    · exact sortN_perm _
    · exact List.Perm.refl _
  have hsorted : (a.isOrdered || ordered) = true →
      (if (ordered && !a.isOrdered) = true then sortN es else es).Pairwise (· < ·) := by
    intro ho
    cases hio : a.isOrdered
    · rw [hio] at ho
      simp only [Bool.false_or] at ho
      rw [ho]; exact sortN_strict hnd
    · simp only [Bool.not_true, Bool.and_false, Bool.false_eq_true, if_false]
      exact (ha.valid.ordered hio).filter _
  have hval : Valid (compactFromEntries (if es.length = 0 ∧ theta = maxTheta then true else a.isEmpty)
      (a.isOrdered || ordered) sh theta
      (if (ordered && !a.isOrdered) = true then sortN es else es)).view := by
    refine compactFromEntries_valid (hp.nodup_iff.mpr hnd) ?_ hsorted hthle ?_
    · intro e he
      have := (hmem e).mp (hp.mem_iff.mp he)
      exact ⟨(ha.valid.range e this.1).1, this.2.2⟩
    · intro hem
      by_cases hc : es.length = 0 ∧ theta = maxTheta
      · have : es = [] := List.length_eq_zero_iff.mp hc.1
        rw [this] at hp ⊢; exact hp.eq_nil
      · rw [if_neg hc] at hem; exact absurd hem hae
  refine ⟨_, rfl, hval, ?_, ?_, hval.nodup, rfl, ?_, ?_⟩
  · rw [if_neg hae]; rfl
  · intro h
    exact hp.mem_iff.trans (hmem h)
  · intro ho; exact hsorted (by rw [ho]; simp)
  · simp only [compactFromEntries, hae', Bool.false_eq_true, false_or]
    have hnil : (if (ordered && !a.isOrdered) = true then sortN es else es) = [] ↔ es.length = 0 := by
      rw [← hp.length_eq, List.length_eq_zero_iff]
    rw [hnil]
    by_cases hc : es.length = 0 ∧ theta = maxTheta
    · simp [hc]
    · rw [if_neg hc]; simp only [Bool.false_eq_true, false_iff]; exact hc

/-! ## non-vacuity -/

example : (aNotB ⟨false, false, maxTheta, 7, 3, [9, 3, 5]⟩ ⟨false, true, 1000, 7, 2, [3, 8]⟩ (some 7)
    false).bind (fun c => .ok (c.entries, c.theta)) = .ok ([9, 5], 1000) := by decide +kernel

end Verif.Theta
