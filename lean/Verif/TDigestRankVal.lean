import Verif.TDigestRank

/-!
# `Rank`, `CDF` and `PMF` of a digest built through the API
-/

namespace Verif.TDigest

set_option linter.unusedSectionVars false

variable {α : Type} [Field α] [LinearOrder α] [IsStrictOrderedRing α]

/-- The answer `r` of `Rank(v)` for the values `xs` once compressed to the centroids `cs`. -/
inductive RankVal (cs : List (Cen α)) (xs : List α) : Fl α → α → Prop where
  | low {v} : v ≠ .nan → (∀ x ∈ xs, v.lt (.fin x) = true) → RankVal cs xs v 0
  | high {v} : v ≠ .nan → (∀ x ∈ xs, (Fl.fin x).lt v = true) → RankVal cs xs v 1
  | one {x} : xs = [x] → RankVal cs xs (.fin x) (1 / 2)
  | mid {v p} : (∃ x ∈ xs, x ≤ v) → (∃ x ∈ xs, v ≤ x) → Pos cs v p →
      RankVal cs xs (.fin v) (p / (xs.length : α))

theorem rankVal_range {cs : List (Cen α)} {xs : List α} (hg : Good cs) (hw : wsum cs = xs.length)
    {v : Fl α} {r : α} (h : RankVal cs xs v r) : 0 ≤ r ∧ r ≤ 1 := by
  cases h with
  | low _ _ => exact ⟨le_refl _, zero_le_one⟩
  | high _ _ => exact ⟨zero_le_one, le_refl _⟩
  | one _ => constructor <;> norm_num
  | mid _ _ hp =>
    obtain ⟨h1, h2⟩ := pos_range hg hp
    rw [hw] at h2
    have h3 : (0 : α) < (xs.length : α) := lt_trans h1 h2
    exact ⟨(div_pos h1 h3).le, (div_le_one h3).2 h2.le⟩

theorem flt_trans {a b c : Fl α} (h1 : a.lt b = true) (h2 : b.lt c = true) : a.lt c = true := by
  cases a <;> cases b <;> cases c <;> simp_all [Fl.lt]
  exact lt_trans h1 h2

theorem flt_irrefl (a : Fl α) : a.lt a = false := by
  cases a <;> simp [Fl.lt]

/-- From `x < v` and `v ≤ v'` (neither NaN). -/
theorem flt_of_lt_of_le {x v v' : Fl α} (hv' : v' ≠ .nan) (h1 : x.lt v = true)
    (h2 : v'.lt v = false) : x.lt v' = true := by
  cases x <;> cases v <;> cases v' <;> simp_all [Fl.lt]
  exact lt_of_lt_of_le h1 h2

theorem flt_of_le_of_lt {x v v' : Fl α} (hv : v ≠ .nan) (h1 : v'.lt v = false)
    (h2 : v'.lt x = true) : v.lt x = true := by
  cases x <;> cases v <;> cases v' <;> simp_all [Fl.lt]
  exact lt_of_le_of_lt h1 h2

theorem pos_single {cs : List (Cen α)} (hg : Good cs) (hw : wsum cs = 1) {v p : α}
    (hp : Pos cs v p) : p = 1 / 2 := by
  have hlen : cs.length ≤ 1 := by
    by_contra hc
    have h0 := hg.pos 0 (by omega)
    have h1 := hg.pos 1 (by omega)
    have h2 : S cs 1 = S cs 0 + Wt cs 0 := S_succ (by omega)
    have h3 : S cs 2 = S cs 1 + Wt cs 1 := S_succ (by omega)
    have h4 := S_mono cs (show 2 ≤ cs.length by omega)
    rw [S_length] at h4
    omega
  cases hp with
  | @hit a b hab hb _ _ _ =>
    have ha0 : a = 0 := by omega
    have hb0 : b = 0 := by omega
    subst ha0; subst hb0
    have h1 : Wt cs 0 = 1 := by
      have h2 : S cs 1 = S cs 0 + Wt cs 0 := S_succ hb
      have h3 := S_length cs
      rw [show cs.length = 1 by omega] at h3
      have h5 := S_zero cs
      omega
    rw [C, h1, S_zero]
    simp
  | gap ha _ _ => omega

theorem rankVal_mono {cs : List (Cen α)} {xs : List α} (hne : xs ≠ []) (hg : Good cs)
    (hw : wsum cs = xs.length) {v v' : Fl α} {r r' : α} (hv : v'.lt v = false)
    (h : RankVal cs xs v r) (h' : RankVal cs xs v' r') : r ≤ r' := by
  obtain ⟨y, hy⟩ := List.exists_mem_of_ne_nil xs hne
  have hr := rankVal_range hg hw h
  have hr' := rankVal_range hg hw h'
  cases h with
  | low _ _ => exact hr'.1
  | high hn hall =>
    cases h' with
    | low hn' hall' =>
      have := flt_trans (flt_of_lt_of_le hn' (hall y hy) hv) (hall' y hy)
      rw [flt_irrefl] at this; simp at this
    | high _ _ => exact le_refl _
    | @one x hx =>
      have := hall x (by rw [hx]; simp)
      rw [hv] at this; simp at this
    | mid _ hup _ =>
      obtain ⟨x, hx, hle⟩ := hup
      have := flt_of_lt_of_le (by simp) (hall x hx) hv
      simp only [Fl.lt, decide_eq_true_eq] at this
      exact absurd hle (not_le.2 this)
  | @one x hx =>
    cases h' with
    | low hn' hall' =>
      have := hall' x (by rw [hx]; simp)
      rw [hv] at this; simp at this
    | high _ _ => exact hr.2
    | one _ => exact le_refl _
    | mid _ _ hp =>
      rw [pos_single hg (by rw [hw, hx]; rfl) hp, hx]; simp
  | mid hlo hup hp =>
    cases h' with
    | low hn' hall' =>
      obtain ⟨x, hx, hle⟩ := hlo
      have := flt_of_le_of_lt (by simp) hv (hall' x hx)
      simp only [Fl.lt, decide_eq_true_eq] at this
      exact absurd hle (not_le.2 this)
    | high _ _ => exact hr.2
    | one hx => rw [pos_single hg (by rw [hw, hx]; rfl) hp, hx]; simp
    | mid _ _ hp' =>
      have h2 := pos_mono hg (by simpa [Fl.lt] using hv) hp hp'
      have h3 : (0 : α) ≤ (xs.length : α) := Nat.cast_nonneg _
      exact div_le_div_of_nonneg_right h2 h3

/-! ### The compressed digest -/

theorem compress_done (ln : α → α) {d : Digest α} (h : d.buffer = []) : compress ln d = .ok d := by
  unfold compress; simp [h]

/-- A compressed digest: its centroids summarise all the values, and the first and the last are the
    minimum and the maximum. -/
structure Flat (e : Digest α) (xs : List α) : Prop where
  inv : Inv e xs
  buf : e.buffer = []
  sums : Sums e.centroids xs
  cw : e.cw = xs.length

theorem flat_of {e : Digest α} {xs : List α} (h : Inv e xs) (hb : e.buffer = []) : Flat e xs := by
  obtain ⟨ys, hp, hS, hw⟩ := h.split
  rw [hb, List.append_nil] at hp
  exact ⟨h, hb, sums_perm hS (List.Perm.refl _) hp, by rw [hw, hp.length_eq]⟩

theorem flat_good {e : Digest α} {xs : List α} (h : Flat e xs) : Good e.centroids :=
  good_of h.inv.run.sorted h.sums.pos

theorem flat_ne {e : Digest α} {xs : List α} (h : Flat e xs) (hne : xs ≠ []) :
    e.centroids ≠ [] := by
  obtain ⟨y, hy⟩ := List.exists_mem_of_ne_nil xs hne
  obtain ⟨c, hc, _⟩ := h.sums.lo y hy
  exact List.ne_nil_of_mem hc

theorem flat_first {e : Digest α} {xs : List α} (h : Flat e xs) {f : Cen α}
    (hf : e.centroids.head? = some f) :
    f.weight = 1 ∧ e.min = .fin f.mean ∧ f.mean ∈ xs ∧ ∀ x ∈ xs, f.mean ≤ x := by
  have h1 := h.inv.run.first f hf
  have hm := List.mem_of_mem_head? (by rw [hf]; rfl : f ∈ e.centroids.head?)
  have h2 := h.sums.one f hm h1
  have h3 : ∀ x ∈ xs, f.mean ≤ x := by
    intro x hx
    obtain ⟨c, hc, hle⟩ := h.sums.lo x hx
    refine le_trans ?_ hle
    obtain ⟨t, ht⟩ := List.head?_eq_some_iff.1 hf
    have hs := h.inv.run.sorted
    rw [ht] at hc hs
    rcases List.mem_cons.1 hc with rfl | hc
    · exact le_refl _
    · exact (List.pairwise_cons.1 hs).1 c hc
  obtain ⟨v, e1, e2, e3⟩ := h.inv.mn.2 (List.ne_nil_of_mem h2)
  refine ⟨h1, ?_, h2, h3⟩
  rw [e1, le_antisymm (e3 _ h2) (h3 v e2)]

theorem flat_last {e : Digest α} {xs : List α} (h : Flat e xs) {l : Cen α}
    (hl : e.centroids.getLast? = some l) :
    l.weight = 1 ∧ e.max = .fin l.mean ∧ l.mean ∈ xs ∧ ∀ x ∈ xs, x ≤ l.mean := by
  have h1 := h.inv.run.last l hl
  have hm := List.mem_of_getLast? hl
  have h2 := h.sums.one l hm h1
  have h3 : ∀ x ∈ xs, x ≤ l.mean := by
    intro x hx
    obtain ⟨c, hc, hle⟩ := h.sums.hi x hx
    refine le_trans hle ?_
    obtain ⟨t, ht⟩ := List.getLast?_eq_some_iff.1 hl
    have hs := h.inv.run.sorted
    rw [ht] at hc hs
    rcases List.mem_append.1 hc with hc | hc
    · exact (List.pairwise_append.1 hs).2.2 c hc _ (by simp)
    · simp only [List.mem_singleton] at hc; rw [← hc]
  obtain ⟨v, e1, e2, e3⟩ := h.inv.mx.2 (List.ne_nil_of_mem h2)
  refine ⟨h1, ?_, h2, h3⟩
  rw [e1, le_antisymm (h3 v e2) (e3 _ h2)]

theorem inv_single {d : Digest α} {xs : List α} (h : Inv d xs)
    (h1 : d.centroids.length + d.buffer.length = 1) : ∃ x, xs = [x] := by
  obtain ⟨ys, hp, hS, hw⟩ := h.split
  rw [← List.length_eq_one_iff, ← hp.length_eq, List.length_append, ← hS.w]
  cases hc : d.centroids with
  | nil => rw [hc] at h1; simpa using h1
  | cons c cs =>
    rw [hc] at h1
    have hcs : cs = [] := by
      apply List.length_eq_zero_iff.1; simp at h1; omega
    have h2 := h.run.first c (by rw [hc]; rfl)
    subst hcs
    simp at h1
    simp [h1, h2]

theorem rank_spec (ln : α → α) {d e : Digest α} {xs : List α} (h : Inv d xs) (hne : xs ≠ [])
    (hc : compress ln d = .ok e) (v : Fl α) (hv : v ≠ .nan) :
    ∃ d' r, rank ln d v = .ok (d', r) ∧ (d' = d ∨ d' = e) ∧ RankVal e.centroids xs v r := by
  obtain ⟨e', he, hi, hb, _⟩ := compress_inv ln h
  rw [hc] at he; cases he
  have hF := flat_of hi hb
  have hcne := flat_ne hF hne
  have hf := List.head?_eq_some_head hcne
  have hl := List.getLast?_eq_some_getLast hcne
  obtain ⟨f1, f2, f3, f4⟩ := flat_first hF hf
  obtain ⟨l1, l2, l3, l4⟩ := flat_last hF hl
  obtain ⟨mn, m1, m2, m3⟩ := h.mn.2 hne
  obtain ⟨mx, x1, x2, x3⟩ := h.mx.2 hne
  have hmn : (e.centroids.head hcne).mean = mn := le_antisymm (f4 _ m2) (m3 _ f3)
  have hmx : (e.centroids.getLast hcne).mean = mx := le_antisymm (x3 _ l3) (l4 _ x2)
  unfold rank
  rw [if_neg (fun h0 => hne ((inv_empty_iff h).1 h0)), if_neg hv, m1, x1]
  by_cases hlow : v.lt (.fin mn) = true
  · refine ⟨d, 0, by rw [if_pos hlow], Or.inl rfl, RankVal.low hv (fun x hx => ?_)⟩
    have hle := m3 x hx
    exact flt_of_lt_of_le (by simp) hlow (by simpa [Fl.lt] using hle)
  · rw [if_neg hlow]
    by_cases hhigh : (Fl.fin mx).lt v = true
    · refine ⟨d, 1, by rw [if_pos hhigh], Or.inl rfl, RankVal.high hv (fun x hx => ?_)⟩
      have hle := x3 x hx
      exact flt_of_le_of_lt (by simp) (by simpa [Fl.lt] using hle) hhigh
    · rw [if_neg hhigh]
      obtain ⟨u, rfl⟩ : ∃ u, v = .fin u := by
        cases v with
        | nan => exact absurd rfl hv
        | ninf => simp [Fl.lt] at hlow
        | fin u => exact ⟨u, rfl⟩
        | pinf => simp [Fl.lt] at hhigh
      simp only [Fl.lt, decide_eq_true_eq, not_lt] at hlow hhigh
      by_cases h1 : d.centroids.length + d.buffer.length = 1
      · rw [if_pos h1]
        obtain ⟨x, hx⟩ := inv_single h h1
        have hu : u = x := by
          rw [hx] at m2 x2
          simp only [List.mem_singleton] at m2 x2
          subst m2; subst x2; exact le_antisymm hhigh hlow
        subst hu
        exact ⟨d, 1 / 2, rfl, Or.inl rfl, RankVal.one hx⟩
      · rw [if_neg h1, hc]
        simp only [Outcome.ok_bind]
        rw [f2, l2]
        have h0 : 0 < e.centroids.length := List.length_pos_iff.2 hcne
        have hM0 : M e.centroids 0 = mn := by
          rw [← hmn, List.head_eq_getElem]
          simp [M, h0]
        have hMl : M e.centroids (e.centroids.length - 1) = mx := by
          rw [← hmx, List.getLast_eq_getElem]
          simp [M, h0]
        obtain ⟨r, hr, hp⟩ := rankInner_spec (flat_good hF) e.cw h0 (v := u)
          (by rw [hM0]; exact hlow) (by rw [hMl]; exact hhigh)
        refine ⟨e, r / (e.cw : α), ?_, Or.inr rfl, ?_⟩
        · simp only [rankTails, hf, hl]
          rw [if_neg (by rw [hmn]; exact not_lt.2 hlow), if_neg (by rw [hmx]; exact not_lt.2 hhigh),
            hr]
          rfl
        · rw [hF.cw]
          exact RankVal.mid ⟨mn, m2, hlow⟩ ⟨mx, x2, hhigh⟩ hp

/-- The state after `Rank` compresses to the same digest. -/
theorem compress_same (ln : α → α) {d d' e : Digest α} {xs : List α} (h : Inv d xs)
    (hc : compress ln d = .ok e) (hd : d' = d ∨ d' = e) :
    Inv d' xs ∧ compress ln d' = .ok e := by
  obtain ⟨e', he, hi, hb, _⟩ := compress_inv ln h
  rw [hc] at he; cases he
  rcases hd with rfl | rfl
  · exact ⟨h, hc⟩
  · exact ⟨hi, compress_done ln hb⟩

theorem validate_spec (sp : List (Fl α)) (h : validateSplitPoints sp = .ok ()) :
    (∀ v ∈ sp, v ≠ .nan) ∧ sp.Pairwise fun a b => a.lt b = true := by
  induction sp with
  | nil => simp
  | cons v sp ih =>
    cases sp with
    | nil =>
      unfold validateSplitPoints at h
      split at h
      · simp at h
      · rename_i hv; simpa using hv
    | cons w sp =>
      unfold validateSplitPoints at h
      split at h
      · simp at h
      · rename_i hv
        split at h
        · simp at h
        · rename_i hlt
          obtain ⟨h1, h2⟩ := ih h
          have hlt : v.lt w = true := by simpa using hlt
          refine ⟨by intro u hu; rcases List.mem_cons.1 hu with rfl | hu; exacts [hv, h1 u hu],
            List.pairwise_cons.2 ⟨fun u hu => ?_, h2⟩⟩
          rcases List.mem_cons.1 hu with rfl | hu
          · exact hlt
          · exact flt_trans hlt ((List.pairwise_cons.1 h2).1 u hu)

theorem validate_ok (sp : List (Fl α)) (h1 : ∀ v ∈ sp, v ≠ .nan)
    (h2 : sp.Pairwise fun a b => a.lt b = true) : validateSplitPoints sp = .ok () := by
  induction sp with
  | nil => rfl
  | cons v sp ih =>
    cases sp with
    | nil => simp [validateSplitPoints, h1 v]
    | cons w sp =>
      rw [List.pairwise_cons] at h2
      rw [validateSplitPoints, if_neg (h1 v (by simp)), if_neg (by simp [h2.1 w])]
      exact ih (fun u hu => h1 u (by simp [hu])) h2.2

theorem rankAll_spec (ln : α → α) {d e : Digest α} {xs : List α} (h : Inv d xs) (hne : xs ≠ [])
    (hc : compress ln d = .ok e) (sp : List (Fl α)) (hv : ∀ v ∈ sp, v ≠ .nan) :
    ∃ d' rs, rankAll ln d sp = .ok (d', rs) ∧ (d' = d ∨ d' = e) ∧
      List.Forall₂ (RankVal e.centroids xs) sp rs := by
  induction sp generalizing d with
  | nil => exact ⟨d, [], rfl, Or.inl rfl, .nil⟩
  | cons v sp ih =>
    obtain ⟨d1, r, e1, hd1, hr⟩ := rank_spec ln h hne hc v (hv v (by simp))
    obtain ⟨hi1, hc1⟩ := compress_same ln h hc hd1
    obtain ⟨d2, rs, e2, hd2, hrs⟩ := ih hi1 hc1 (fun u hu => hv u (by simp [hu]))
    refine ⟨d2, r :: rs, ?_, ?_, .cons hr hrs⟩
    · unfold rankAll; rw [e1]; simp only [Outcome.ok_bind]; rw [e2]; rfl
    · rcases hd2 with rfl | rfl
      · exact hd1
      · exact Or.inr rfl

theorem forall2_pairwise {β γ : Type} {R : β → γ → Prop} {P : β → β → Prop} {Q : γ → γ → Prop}
    (hPQ : ∀ a b x y, R a x → R b y → P a b → Q x y) {as : List β} {xs : List γ}
    (h : List.Forall₂ R as xs) (hp : as.Pairwise P) : xs.Pairwise Q := by
  induction h with
  | nil => simp
  | @cons a x as xs hax hrest ih =>
    rw [List.pairwise_cons] at hp ⊢
    refine ⟨fun y hy => ?_, ih hp.2⟩
    obtain ⟨i, hi, rfl⟩ := List.getElem_of_mem hy
    have hl := hrest.length_eq
    exact hPQ a as[i] x xs[i] hax ((List.forall₂_iff_get.1 hrest).2 i (by omega) hi)
      (hp.1 _ (List.getElem_mem _))

theorem differences_sum (x : α) (l : List α) :
    (differences (x :: l)).sum = (x :: l).getLast (by simp) := by
  induction l generalizing x with
  | nil => simp [differences]
  | cons y l ih =>
    have h := ih y
    simp only [differences, List.zipWith_cons_cons, List.sum_cons, List.getLast_cons_cons] at h ⊢
    rw [← h]; ring

theorem differences_length (l : List α) : (differences l).length = l.length := by
  cases l with
  | nil => rfl
  | cons x l => simp [differences]

theorem differences_nonneg (x : α) (l : List α) (hx : 0 ≤ x) (h : (x :: l).Pairwise (· ≤ ·)) :
    ∀ y ∈ differences (x :: l), 0 ≤ y := by
  intro y hy
  simp only [differences, List.mem_cons] at hy
  rcases hy with rfl | hy
  · exact hx
  · clear hx
    induction l generalizing x with
    | nil => simp at hy
    | cons z l ih =>
      rw [List.pairwise_cons] at h
      simp only [List.zipWith_cons_cons, List.mem_cons] at hy
      rcases hy with rfl | hy
      · have := h.1 z (by simp); linarith
      · exact ih z h.2 hy

end Verif.TDigest
