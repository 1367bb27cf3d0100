import Verif.ThetaUpdateProps
import Verif.ThetaMean2

/-!
# Theta of an update sketch is a stopping threshold
-/

namespace Verif.Theta

open Probe HashTable

/-- `θ'` is `θ` cut down to the `k + 1` smallest value if more than `cap` values lie below `θ` -/
def IsCut (k cap : Nat) (V : Finset Nat) (θ θ' : Nat) : Prop :=
  if (V.filter (· < θ)).card ≤ cap then θ' = θ
  else θ' ∈ V ∧ θ' < θ ∧ (V.filter (· < θ')).card = k

theorem IsCut.le {k cap : Nat} {V : Finset Nat} {θ θ' : Nat} (h : IsCut k cap V θ θ') : θ' ≤ θ := by
  unfold IsCut at h
  split at h
  · omega
  · omega

/-- the values of the items -/
def vals {ι : Type} [DecidableEq ι] (h : ι → Nat) (P : Finset ι) : Finset Nat := P.image h

theorem card_vals {ι : Type} [DecidableEq ι] {h : ι → Nat} (hi : Function.Injective h)
    (P : Finset ι) (a : Nat) : ((vals h P).filter (· < a)).card = (P.filter fun i => h i < a).card := by
  unfold vals
  rw [Finset.filter_image, Finset.card_image_of_injective _ hi]

/-- A cut depends only on the values from the threshold on. -/
theorem IsCut.same {ι : Type} [DecidableEq ι] {h h' : ι → Nat} (hi : Function.Injective h)
    (hi' : Function.Injective h') {P : Finset ι} {k cap θ θ1 θ2 T : Nat}
    (hd : ∀ i, h i ≠ h' i → h i < T ∧ h' i < T) (c1 : IsCut k cap (vals h P) θ θ1)
    (c2 : IsCut k cap (vals h' P) θ θ2) (hT : T ≤ θ1) : θ2 = θ1 := by
  have hle := c1.le
  have hcnt : ∀ a, T ≤ a → ((vals h P).filter (· < a)).card = ((vals h' P).filter (· < a)).card := by
    intro a ha
    rw [card_vals hi, card_vals hi']
    congr 1
    apply Finset.filter_congr
    intro i _
    by_cases e : h i = h' i
    · rw [e]
    · have := hd i e
      constructor <;> intro <;> omega
  unfold IsCut at c1 c2
  rw [hcnt θ (by omega)] at c1
  split at c1
  · rename_i hc
    rw [if_pos hc] at c2
    omega
  · rename_i hc
    rw [if_neg hc] at c2
    obtain ⟨m1, l1, n1⟩ := c1
    obtain ⟨m2, l2, n2⟩ := c2
    rw [hcnt θ1 hT] at n1
    have hm : θ1 ∈ vals h' P := by
      unfold vals at m1 ⊢
      rw [Finset.mem_image] at m1 ⊢
      obtain ⟨i, hi, e⟩ := m1
      refine ⟨i, hi, ?_⟩
      by_contra hne
      have := hd i (by rw [e]; exact fun h => hne h.symm)
      omega
    have hmono : ∀ {a b : Nat}, a ∈ vals h' P → a < b →
        ((vals h' P).filter (· < a)).card < ((vals h' P).filter (· < b)).card := by
      intro a b ha hab
      apply Finset.card_lt_card
      rw [Finset.ssubset_iff_of_subset]
      · exact ⟨a, Finset.mem_filter.mpr ⟨ha, hab⟩, by simp⟩
      · intro x hx
        rw [Finset.mem_filter] at hx ⊢
        exact ⟨hx.1, by omega⟩
    rcases Nat.lt_trichotomy θ1 θ2 with hlt | heq | hgt
    · have := hmono hm hlt; omega
    · exact heq.symm
    · have := hmono m2 hgt; omega

/-! ## the sketch -/

variable {ι : Type} [DecidableEq ι]

/-- the hash words whose upper 63 bits are `h`; the lowest bit is not used by the sketch -/
def words (low h : ι → Nat) (i : ι) : Nat := 2 * h i + low i % 2

omit [DecidableEq ι] in
theorem hash63_words (low h : ι → Nat) : hash63 (words low h) = h := by
  funext i
  unfold hash63 words
  omega

theorem card_all {low h : ι → Nat} (hp : Proper h) {lgK start : Nat} {t : Tbl} {xs : List ι}
    (i : SInv (words low h) lgK start t xs) :
    (all t).length = (xs.toFinset.filter fun i => h i < t.theta).card := by
  rw [← card_vals hp.1, ← List.toFinset_card_of_nodup (nodup_all i.tinv)]
  congr 1
  ext a
  rw [List.mem_toFinset, i.ret a, hash63_words, Finset.mem_filter]
  unfold vals
  rw [Finset.mem_image]
  simp only [List.mem_map, List.mem_toFinset]
  constructor
  · rintro ⟨h1, h2, h3⟩; exact ⟨h1, h3⟩
  · rintro ⟨⟨x, hx, e⟩, h3⟩
    exact ⟨⟨x, hx, e⟩, by have := hp.2 x; omega, h3⟩

theorem mem_all {low h : ι → Nat} {lgK start : Nat} {t : Tbl} {xs : List ι}
    (i : SInv (words low h) lgK start t xs) {a : Nat} (ha : a ∈ all t) : a ∈ vals h xs.toFinset := by
  have := ((i.ret a).mp ha).1
  rw [hash63_words] at this
  unfold vals
  simpa using this

/-- An update cuts theta when more than 15/16 of the full table would be in use. -/
theorem update_cut {low h : ι → Nat} (hp : Proper h) {lgK start : Nat} {t t' : Tbl} {st : Status}
    {xs : List ι} {x : ι} (i : SInv (words low h) lgK start t xs)
    (i' : SInv (words low h) lgK start t' (xs ++ [x])) (e : update t (words low h x) = .ok (t', st)) :
    IsCut (2 ^ lgK) (15 * 2 ^ (lgK + 1) / 16) (vals h (xs ++ [x]).toFinset) t.theta t'.theta ∧
      (t'.theta ≠ t.theta → (all t').length = 2 ^ lgK) := by
  have hx : words low h x >>> 1 = h x := by
    have := congrFun (hash63_words low h) x
    unfold hash63 at this
    rw [Nat.shiftRight_eq_div_pow]
    simpa using this
  have hcap : (all t').length ≤ 15 * 2 ^ (lgK + 1) / 16 := by
    have h1 := i'.tinv.cap
    have h2 := computeCapacity_le i'.tinv.lgCur
    rw [i'.lgk] at h2
    have h3 : t'.numEntries = (all t').length := i'.tinv.num
    rw [i'.lgk] at h1
    omega
  have hn := card_all hp i'
  by_cases hθ : t'.theta = t.theta
  · refine ⟨?_, fun hc => absurd hθ hc⟩
    unfold IsCut
    rw [if_pos]
    · exact hθ
    · rw [card_vals hp.1, ← hθ, ← hn]; exact hcap
  · -- theta changed: the entry was inserted and the table rebuilt
    have hti := tinv_isEmpty false i.tinv
    unfold update at e
    rw [hx] at e
    dsimp only at e
    split at e
    · simp only [Outcome.ok.injEq, Prod.mk.injEq] at e
      exact absurd (by rw [← e.1]) hθ
    · simp only [Outcome.ok.injEq, Prod.mk.injEq] at e
      exact absurd (by rw [← e.1]) hθ
    · rename_i hs
      have hsc : h x < t.theta ∧ h x ≠ 0 := by
        unfold Table.screen at hs
        by_cases h1 : h x ≥ t.theta
        · rw [if_pos h1] at hs; cases hs
        · rw [if_neg h1] at hs
          by_cases h2 : h x = 0
          · rw [if_pos h2] at hs; cases hs
          · exact ⟨by omega, h2⟩
      split at e
      · rename_i p hf
        obtain ⟨t1, e1, i1, s1, em1, th1, p1, ch1⟩ := insert_inv hti (e := h x) hsc.2 hsc.1 hf
        rw [e1] at e
        simp only [Outcome.ok_bind, Outcome.pure_eq, Outcome.ok.injEq, Prod.mk.injEq] at e
        obtain ⟨rfl, _⟩ := e
        obtain ⟨hc, hnum, y, hy, hyk⟩ := ch1 hθ
        have hyk' : y = t1.theta := hyk
        have hlen : (all t1).length = 2 ^ lgK := by
          have h3 : t1.numEntries = (all t1).length := i'.tinv.num
          rw [← h3, hnum, ← i.lgk]
        refine ⟨?_, fun _ => hlen⟩
        have hins : h x ∉ all t := by
          intro hm
          rcases hti.find_total (h x) with ⟨q, hf', _, habs⟩ | ⟨q, z, hf', _⟩
          · exact habs (h x) hm rfl
          · have : ({ t with isEmpty := false } : Tbl).find elem (h x) = .empty p := hf
            rw [hf'] at this; cases this
        have hsub : (h x :: all t).toFinset = (vals h (xs ++ [x]).toFinset).filter (· < t.theta) := by
          ext a
          rw [List.mem_toFinset, List.mem_cons, Finset.mem_filter]
          constructor
          · rintro (rfl | ha)
            · exact ⟨by unfold vals; simp, hsc.1⟩
            · have := mem_all i ha
              refine ⟨?_, ((i.ret a).mp ha).2.2⟩
              unfold vals at this ⊢
              simp only [List.toFinset_append, Finset.image_union, Finset.mem_union]
              exact Or.inl this
          · rintro ⟨ha, hl⟩
            unfold vals at ha
            simp only [List.toFinset_append, Finset.image_union, Finset.mem_union,
              Finset.mem_image, List.mem_toFinset] at ha
            rcases ha with ⟨z, hz, e⟩ | ⟨z, hz, e⟩
            · right
              rw [i.ret a, hash63_words]
              exact ⟨List.mem_map.mpr ⟨z, hz, e⟩, by have := hp.2 z; omega, hl⟩
            · left
              simp only [List.mem_singleton] at hz
              rw [← e, hz]
        unfold IsCut
        rw [if_neg]
        · have hm : t1.theta ∈ (h x :: all t).toFinset := by
            rw [List.mem_toFinset, ← hyk']; exact hy
          rw [hsub, Finset.mem_filter] at hm
          refine ⟨hm.1, hm.2, ?_⟩
          rw [card_vals hp.1, ← hn, hlen]
        · rw [← hsub, List.toFinset_card_of_nodup
            (List.nodup_cons.mpr ⟨hins, nodup_all i.tinv⟩), List.length_cons]
          have hc' : 15 * 2 ^ (t.lgNom + 1) / 16 < (all t).length + 1 := hc
          rw [i.lgk] at hc'
          omega
      · simp only [Outcome.ok.injEq, Prod.mk.injEq] at e
        exact absurd (by rw [← e.1]) hθ
      · simp only [Outcome.ok.injEq, Prod.mk.injEq] at e
        exact absurd (by rw [← e.1]) hθ
      · cases e

/-- A trim cuts theta when more than `k` entries are retained. -/
theorem trim_cut {low h : ι → Nat} (hp : Proper h) {lgK start : Nat} {t t' : Tbl}
    {xs : List ι} (i : SInv (words low h) lgK start t xs)
    (e : t.trim elem = .ok t') :
    SInv (words low h) lgK start t' xs ∧
    IsCut (2 ^ lgK) (2 ^ lgK) (vals h xs.toFinset) t.theta t'.theta ∧
      (t'.theta ≠ t.theta → (all t').length = 2 ^ lgK) ∧
      (t'.theta = t.theta → (all t').length = (all t).length) := by
  obtain ⟨t1, e1, i1, th1, n1, p1, c1⟩ := trim_sinv i
  rw [e1] at e
  cases e
  have hn := card_all hp i
  have hn1 := card_all hp i1
  refine ⟨i1, ?_, ?_, ?_⟩
  · unfold IsCut
    rw [card_vals hp.1, ← hn]
    by_cases hθ : t'.theta = t.theta
    · rw [if_pos]
      · exact hθ
      · have : (all t').length = (all t).length := by rw [hn, hn1, hθ]
        omega
    · obtain ⟨h1, h2⟩ := c1 hθ
      rw [if_neg (by omega)]
      refine ⟨mem_all i h2, by omega, ?_⟩
      rw [card_vals hp.1, ← hn1, n1]
      omega
  · intro hθ
    obtain ⟨h1, _⟩ := c1 hθ
    omega
  · intro hθ
    rw [hn, hn1, hθ]

/-- Two runs on hashings that differ only below `T` have the same theta, if it is at least `T`. -/
theorem run_same {low h h' : ι → Nat} (hp : Proper h) (hp' : Proper h') {T lgK start : Nat}
    (hd : ∀ i, h i ≠ h' i → h i < T ∧ h' i < T) : ∀ (ops : List (Op ι)) (t t' : Tbl) (xs : List ι)
    (s s' : Tbl), SInv (words low h) lgK start t xs → SInv (words low h') lgK start t' xs →
    (T ≤ t.theta → t'.theta = t.theta) → run (words low h) t ops = .ok s →
    run (words low h') t' ops = .ok s' → T ≤ s.theta → s'.theta = s.theta := by
  intro ops
  induction ops with
  | nil =>
    intro t t' xs s s' i i' hr e e' hT
    simp only [run, Outcome.ok.injEq] at e e'
    subst e; subst e'
    exact hr hT
  | cons op ops ih =>
    intro t t' xs s s' i i' hr e e' hT
    cases op with
    | update x =>
      obtain ⟨t1, st, e1, i1, hl, -⟩ := update_inv i x
      obtain ⟨t1', st', e1', i1', -⟩ := update_inv i' x
      simp only [run, step, e1, e1', Outcome.ok_bind, Outcome.pure_eq] at e e'
      refine ih t1 t1' (xs ++ [x]) s s' i1 i1' ?_ e e' hT
      intro hT1
      have hθ := hr (hT1.trans hl)
      have c1 := (update_cut hp i i1 e1).1
      have c2 := (update_cut hp' i' i1' e1').1
      rw [hθ] at c2
      exact IsCut.same hp.1 hp'.1 hd c1 c2 hT1
    | updateEmptyString =>
      simp only [run, step, updateEmptyString, Outcome.ok_bind, Outcome.pure_eq] at e e'
      exact ih t t' xs s s' i i' hr e e' hT
    | trim =>
      obtain ⟨t1, e1, -, hl, -⟩ := trim_sinv i
      obtain ⟨t1', e1', -⟩ := trim_sinv i'
      simp only [run, step, e1, e1', Outcome.ok_bind] at e e'
      obtain ⟨i1, c1, -⟩ := trim_cut hp i e1
      obtain ⟨i1', c2, -⟩ := trim_cut hp' i' e1'
      refine ih t1 t1' xs s s' i1 i1' ?_ e e' hT
      intro hT1
      have hθ := hr (hT1.trans hl)
      rw [hθ] at c2
      exact IsCut.same hp.1 hp'.1 hd c1 c2 hT1
    | reset =>
      have j := reset_sinv i
      have j' := reset_sinv i'
      simp only [run, step, Outcome.ok_bind] at e e'
      refine ih _ _ [] s s' j j' (fun _ => ?_) e e' hT
      rw [j.fresh (j.empty.mpr rfl), j'.fresh (j'.empty.mpr rfl)]

/-- Below a reduced theta at least `k` entries are retained, and theta is the hash of an item. -/
theorem run_many {low h : ι → Nat} (hp : Proper h) {lgK start : Nat} : ∀ (ops : List (Op ι))
    (t : Tbl) (xs : List ι) (s : Tbl), SInv (words low h) lgK start t xs →
    (t.theta ≠ start → 2 ^ lgK ≤ (all t).length ∧ ∃ x ∈ xs, h x = t.theta) →
    run (words low h) t ops = .ok s →
    s.theta ≠ start → 2 ^ lgK ≤ (all s).length ∧ ∃ x ∈ presented xs ops, h x = s.theta := by
  have hin : ∀ {k cap : Nat} {xs : List ι} {θ θ' : Nat}, IsCut k cap (vals h xs.toFinset) θ θ' →
      θ' ≠ θ → ∃ x ∈ xs, h x = θ' := by
    intro k cap xs θ θ' hc hne
    unfold IsCut at hc
    split at hc
    · exact absurd hc hne
    · have := hc.1
      unfold vals at this
      simpa using this
  intro ops
  induction ops with
  | nil =>
    intro t xs s i hr e
    simp only [run, Outcome.ok.injEq] at e
    subst e
    exact hr
  | cons op ops ih =>
    intro t xs s i hr e
    cases op with
    | update x =>
      obtain ⟨t1, st, e1, i1, hl, -⟩ := update_inv i x
      simp only [run, step, e1, Outcome.ok_bind, Outcome.pure_eq] at e
      refine ih t1 (xs ++ [x]) s i1 ?_ e
      intro hT1
      by_cases hθ : t1.theta = t.theta
      · obtain ⟨r1, y, hy, r2⟩ := hr (by rw [← hθ]; exact hT1)
        refine ⟨r1.trans ?_, y, List.mem_append_left _ hy, by rw [r2, hθ]⟩
        rw [card_all hp i, card_all hp i1, hθ]
        apply Finset.card_le_card
        intro a ha
        rw [Finset.mem_filter, List.mem_toFinset] at ha ⊢
        exact ⟨List.mem_append_left _ ha.1, ha.2⟩
      · have hc := update_cut hp i i1 e1
        exact ⟨(hc.2 hθ).ge, hin hc.1 hθ⟩
    | updateEmptyString =>
      simp only [run, step, updateEmptyString, Outcome.ok_bind, Outcome.pure_eq] at e
      exact ih t xs s i hr e
    | trim =>
      obtain ⟨t1, e1, -, hl, -⟩ := trim_sinv i
      simp only [run, step, e1, Outcome.ok_bind] at e
      obtain ⟨i1, c0, c1, c2⟩ := trim_cut hp i e1
      refine ih t1 xs s i1 ?_ e
      intro hT1
      by_cases hθ : t1.theta = t.theta
      · rw [c2 hθ, hθ]; exact hr (by rw [← hθ]; exact hT1)
      · exact ⟨(c1 hθ).ge, hin c0 hθ⟩
    | reset =>
      have j := reset_sinv i
      simp only [run, step, Outcome.ok_bind] at e
      refine ih _ [] s j (fun hc => absurd (j.fresh (j.empty.mpr rfl)) hc) e

end Verif.Theta
