import Verif.TDigestMerge

/-!
# What a t-digest keeps of the values it was given
-/

namespace Verif.TDigest

set_option linter.unusedSectionVars false

variable {α : Type} [Field α] [LinearOrder α] [IsStrictOrderedRing α]

/-- The centroids `L` summarise the values `ys`. -/
structure Sums (L : List (Cen α)) (ys : List α) : Prop where
  pos : ∀ c ∈ L, 0 < c.weight
  one : ∀ c ∈ L, c.weight = 1 → c.mean ∈ ys
  lo : ∀ y ∈ ys, ∃ c ∈ L, c.mean ≤ y
  hi : ∀ y ∈ ys, ∃ c ∈ L, y ≤ c.mean
  w : wsum L = ys.length
  m : msum L = ys.sum

theorem sums_nil : Sums ([] : List (Cen α)) [] := by constructor <;> simp

theorem sums_append {A B : List (Cen α)} {xs ys : List α} (hA : Sums A xs) (hB : Sums B ys) :
    Sums (A ++ B) (xs ++ ys) := by
  constructor
  · intro c hc
    rcases List.mem_append.1 hc with h | h
    · exact hA.pos c h
    · exact hB.pos c h
  · intro c hc h1
    rcases List.mem_append.1 hc with h | h
    · exact List.mem_append_left _ (hA.one c h h1)
    · exact List.mem_append_right _ (hB.one c h h1)
  · intro y hy
    rcases List.mem_append.1 hy with h | h
    · obtain ⟨c, hc, hl⟩ := hA.lo y h; exact ⟨c, List.mem_append_left _ hc, hl⟩
    · obtain ⟨c, hc, hl⟩ := hB.lo y h; exact ⟨c, List.mem_append_right _ hc, hl⟩
  · intro y hy
    rcases List.mem_append.1 hy with h | h
    · obtain ⟨c, hc, hl⟩ := hA.hi y h; exact ⟨c, List.mem_append_left _ hc, hl⟩
    · obtain ⟨c, hc, hl⟩ := hB.hi y h; exact ⟨c, List.mem_append_right _ hc, hl⟩
  · simp [hA.w, hB.w]
  · simp [hA.m, hB.m]

theorem sums_singles (l : List α) : Sums (singles l) l := by
  constructor
  · intro c hc; simp only [singles, List.mem_map] at hc; obtain ⟨x, _, rfl⟩ := hc; simp
  · intro c hc _; simp only [singles, List.mem_map] at hc; obtain ⟨x, hx, rfl⟩ := hc; exact hx
  · intro y hy; exact ⟨⟨y, 1⟩, List.mem_map.2 ⟨y, hy, rfl⟩, le_refl _⟩
  · intro y hy; exact ⟨⟨y, 1⟩, List.mem_map.2 ⟨y, hy, rfl⟩, le_refl _⟩
  · simp
  · simp

theorem sums_perm {A B : List (Cen α)} {xs ys : List α} (h : Sums A xs) (hA : A.Perm B)
    (hx : xs.Perm ys) : Sums B ys := by
  constructor
  · intro c hc; exact h.pos c (hA.mem_iff.2 hc)
  · intro c hc h1; exact hx.mem_iff.1 (h.one c (hA.mem_iff.2 hc) h1)
  · intro y hy; obtain ⟨c, hc, hl⟩ := h.lo y (hx.mem_iff.2 hy); exact ⟨c, hA.mem_iff.1 hc, hl⟩
  · intro y hy; obtain ⟨c, hc, hl⟩ := h.hi y (hx.mem_iff.2 hy); exact ⟨c, hA.mem_iff.1 hc, hl⟩
  · rw [← wsum_perm hA, h.w, hx.length_eq]
  · rw [← msum_perm hA, h.m, hx.sum_eq]

/-- A centroid of weight one in the output of the loop was in the input. -/
theorem loop_one (ok : α → α → Bool) (n i) (cur : Cen α) (wsf) (l) (hc : 0 < cur.weight)
    (hl : ∀ c ∈ l, 0 < c.weight) :
    ∀ c ∈ mergeLoop ok n i cur wsf l, c.weight = 1 → c ∈ cur :: l := by
  induction l generalizing i cur wsf with
  | nil => intro c h _; simpa [mergeLoop] using h
  | cons b bs ih =>
    have hb := hl b (by simp)
    have hbs : ∀ c ∈ bs, 0 < c.weight := fun c h => hl c (by simp [h])
    rw [mergeLoop]
    split
    · intro c hc' h1
      rcases List.mem_cons.1 (ih _ _ _ (by simp; omega) hbs c hc' h1) with h | h
      · subst h; simp at h1; omega
      · simp [h]
    · intro c hc' h1
      rcases List.mem_cons.1 hc' with rfl | hc'
      · simp
      · exact List.mem_cons_of_mem _ (ih _ _ _ hb hbs c hc' h1)

/-! ### Minimum and maximum -/

/-- `m` is the minimum of `xs` (`+Inf` for no values). -/
def IsMin (m : Fl α) (xs : List α) : Prop :=
  (xs = [] → m = .pinf) ∧ (xs ≠ [] → ∃ v, m = .fin v ∧ v ∈ xs ∧ ∀ x ∈ xs, v ≤ x)

/-- `m` is the maximum of `xs` (`-Inf` for no values). -/
def IsMax (m : Fl α) (xs : List α) : Prop :=
  (xs = [] → m = .ninf) ∧ (xs ≠ [] → ∃ v, m = .fin v ∧ v ∈ xs ∧ ∀ x ∈ xs, x ≤ v)

theorem isMin_step {m : Fl α} {xs zs : List α} {v : α} (h : IsMin m xs) (hv : v ∈ zs)
    (hz : ∀ z ∈ zs, v ≤ z ∨ z ∈ xs) (hs : ∀ x ∈ xs, x ∈ zs) : IsMin (m.min (.fin v)) zs := by
  refine ⟨fun h0 => (by subst h0; simp at hv), fun _ => ?_⟩
  by_cases hx : xs = []
  · rw [h.1 hx]
    subst hx
    refine ⟨v, by simp [Fl.min, Fl.lt], hv, fun z hz' => ?_⟩
    rcases hz z hz' with h | h
    · exact h
    · simp at h
  · obtain ⟨u, rfl, hu, hle⟩ := h.2 hx
    by_cases hlt : v < u
    · refine ⟨v, by simp [Fl.min, Fl.lt, hlt], hv, fun z hz' => ?_⟩
      rcases hz z hz' with h | h
      · exact h
      · exact le_trans hlt.le (hle z h)
    · refine ⟨u, by simp [Fl.min, Fl.lt, hlt], hs u hu, fun z hz' => ?_⟩
      rcases hz z hz' with h | h
      · exact le_trans (not_lt.1 hlt) h
      · exact hle z h

theorem isMax_step {m : Fl α} {xs zs : List α} {v : α} (h : IsMax m xs) (hv : v ∈ zs)
    (hz : ∀ z ∈ zs, z ≤ v ∨ z ∈ xs) (hs : ∀ x ∈ xs, x ∈ zs) : IsMax (m.max (.fin v)) zs := by
  refine ⟨fun h0 => (by subst h0; simp at hv), fun _ => ?_⟩
  by_cases hx : xs = []
  · rw [h.1 hx]
    subst hx
    refine ⟨v, by simp [Fl.max, Fl.lt], hv, fun z hz' => ?_⟩
    rcases hz z hz' with h | h
    · exact h
    · simp at h
  · obtain ⟨u, rfl, hu, hle⟩ := h.2 hx
    by_cases hlt : u < v
    · refine ⟨v, by simp [Fl.max, Fl.lt, hlt], hv, fun z hz' => ?_⟩
      rcases hz z hz' with h | h
      · exact h
      · exact le_trans (hle z h) hlt.le
    · refine ⟨u, by simp [Fl.max, Fl.lt, hlt], hs u hu, fun z hz' => ?_⟩
      rcases hz z hz' with h | h
      · exact le_trans h (not_lt.1 hlt)
      · exact hle z h

/-! ### One merge -/

/-- The new list of centroids computed by `merge` from the values to merge. -/
def mergeCens (ln : α → α) (k : Nat) (rev : Bool) (W : Nat) (L : List (Cen α)) : List (Cen α) :=
  let s := if rev then (sortCens L).reverse else sortCens L
  match s with
  | [] => []
  | b :: bs =>
    let cs := mergeLoop (addThis ln k W) s.length 1 b 0 bs
    if rev then cs.reverse else cs

theorem sort_ne_nil {L : List (Cen α)} (h : L ≠ []) : sortCens L ≠ [] := fun h0 =>
  h (List.Perm.eq_nil (h0 ▸ (sort_perm L).symm))

theorem merge_eq (ln : α → α) (d : Digest α) (buf : List (Cen α)) (weight : Nat)
    {L : List (Cen α)} (hL : L = buf ++ d.centroids) (hne : L ≠ []) {f l : Cen α}
    (hf : (mergeCens ln d.k d.rev (d.cw + weight) L).head? = some f)
    (hl : (mergeCens ln d.k d.rev (d.cw + weight) L).getLast? = some l) :
    merge ln d buf weight = .ok
      { d with min := d.min.min (.fin f.mean), max := d.max.max (.fin l.mean)
               centroids := mergeCens ln d.k d.rev (d.cw + weight) L, buffer := []
               cw := d.cw + weight, rev := !d.rev } := by
  subst hL
  unfold merge
  unfold mergeCens at hf hl ⊢
  have hs : (if d.rev = true then (sortCens (buf ++ d.centroids)).reverse
      else sortCens (buf ++ d.centroids)) ≠ [] := by
    split
    · simpa using sort_ne_nil hne
    · exact sort_ne_nil hne
  revert hf hl
  dsimp only
  generalize (if d.rev = true then (sortCens (buf ++ d.centroids)).reverse
      else sortCens (buf ++ d.centroids)) = s at hs ⊢
  cases s with
  | nil => exact absurd rfl hs
  | cons b bs =>
    dsimp only
    intro hf hl
    rw [hf, hl]

/-- The two ways through the loop. -/
theorem mergeCens_spec (ln : α → α) (k : Nat) (rev : Bool) (W : Nat) {L : List (Cen α)}
    {ys : List α} (hne : L ≠ []) (hS : Sums L ys) (hE : Ends L) :
    Sums (mergeCens ln k rev W L) ys ∧ Run (mergeCens ln k rev W L) ∧
    (mergeCens ln k rev W L).head? = (sortCens L).head? ∧
    (mergeCens ln k rev W L).getLast? = (sortCens L).getLast? := by
  have hne' := sort_ne_nil hne
  have hSs := sums_perm hS (sort_perm L).symm (List.Perm.refl ys)
  have hso := sort_sorted L
  -- it is enough to have everything but the bounds
  suffices H : (∀ c ∈ mergeCens ln k rev W L, 0 < c.weight) ∧
      (∀ c ∈ mergeCens ln k rev W L, c.weight = 1 → c ∈ sortCens L) ∧
      wsum (mergeCens ln k rev W L) = wsum (sortCens L) ∧
      msum (mergeCens ln k rev W L) = msum (sortCens L) ∧
      (mergeCens ln k rev W L).Pairwise (fun a b => a.mean ≤ b.mean) ∧
      (mergeCens ln k rev W L).head? = (sortCens L).head? ∧
      (mergeCens ln k rev W L).getLast? = (sortCens L).getLast? by
    obtain ⟨h1, h2, h3, h4, h5, h6, h7⟩ := H
    refine ⟨⟨h1, fun c hc h => hSs.one c (h2 c hc h) h, ?_, ?_, h3.trans hSs.w, h4.trans hSs.m⟩,
      ⟨h5, ?_, ?_⟩, h6, h7⟩
    · intro y hy
      obtain ⟨c, hc, hle⟩ := hSs.lo y hy
      cases hs : sortCens L with
      | nil => exact absurd hs hne'
      | cons b bs =>
        rw [hs] at h6 hc hso
        refine ⟨b, List.mem_of_mem_head? (by rw [h6]; rfl), ?_⟩
        rcases List.mem_cons.1 hc with rfl | hc
        · exact hle
        · exact le_trans ((List.pairwise_cons.1 hso).1 c hc) hle
    · intro y hy
      obtain ⟨c, hc, hle⟩ := hSs.hi y hy
      refine ⟨(sortCens L).getLast hne', List.mem_of_getLast? (by
        rw [h7, List.getLast?_eq_some_getLast hne']), le_trans hle ?_⟩
      obtain ⟨init, hi⟩ : ∃ init, sortCens L = init ++ [(sortCens L).getLast hne'] :=
        ⟨_, (List.dropLast_append_getLast hne').symm⟩
      rw [hi] at hc hso
      rcases List.mem_append.1 hc with hc | hc
      · exact (List.pairwise_append.1 hso).2.2 c hc _ (by simp)
      · simp only [List.mem_singleton] at hc; rw [← hc]
    · intro c hc; exact hE.first c (h6 ▸ hc)
    · intro c hc; exact hE.last c (h7 ▸ hc)
  unfold mergeCens
  cases rev with
  | false =>
    simp only [Bool.false_eq_true, if_false]
    cases hs : sortCens L with
    | nil => exact absurd hs hne'
    | cons b bs =>
      rw [hs] at hso hSs
      rw [List.pairwise_cons] at hso
      have hb := hSs.pos b (by simp)
      have hbs : ∀ c ∈ bs, 0 < c.weight := fun c h => hSs.pos c (by simp [h])
      refine ⟨loop_pos _ _ _ _ _ _ hb hbs, loop_one _ _ _ _ _ _ hb hbs, ?_, ?_,
        loop_sorted _ ordLe _ _ _ _ _ hb hbs hso.1 hso.2, loop_head _ _ _ _ _,
        loop_last _ _ _ _ _ _ (by simp; omega)⟩
      · rw [loop_wsum]; simp
      · rw [loop_msum _ _ _ _ _ _ hb hbs]; simp
  | true =>
    simp only [if_true]
    obtain ⟨s, hs⟩ : ∃ s, s = (sortCens L).reverse := ⟨_, rfl⟩
    have hL : sortCens L = s.reverse := by rw [hs, List.reverse_reverse]
    rw [hL] at hso hSs hne' ⊢
    rw [List.reverse_reverse]
    rw [List.pairwise_reverse] at hso
    cases s with
    | nil => simp at hne'
    | cons b bs =>
      rw [List.pairwise_cons] at hso
      have hb := hSs.pos b (by simp)
      have hbs : ∀ c ∈ bs, 0 < c.weight := fun c h => hSs.pos c (by simp [h])
      dsimp only
      refine ⟨?_, ?_, ?_, ?_, ?_, ?_, ?_⟩
      · intro c hc; exact loop_pos _ _ _ _ _ _ hb hbs c (List.mem_reverse.1 hc)
      · intro c hc h1
        exact List.mem_reverse.2 (loop_one _ _ _ _ _ _ hb hbs c (List.mem_reverse.1 hc) h1)
      · rw [wsum_reverse, wsum_reverse, loop_wsum]; simp
      · rw [msum_reverse, msum_reverse, loop_msum _ _ _ _ _ _ hb hbs]; simp
      · rw [List.pairwise_reverse]
        exact loop_sorted _ ordGe _ _ _ _ _ hb hbs hso.1 hso.2
      · rw [List.head?_reverse, List.head?_reverse]
        exact loop_last _ _ _ _ _ _ (by simp; omega)
      · rw [List.getLast?_reverse, List.getLast?_reverse]
        exact loop_head _ _ _ _ _

/-! ### The invariant -/

/-- The digest `d` holds exactly the values `xs`. -/
structure Inv (d : Digest α) (xs : List α) : Prop where
  split : ∃ ys, (ys ++ d.buffer).Perm xs ∧ Sums d.centroids ys ∧ d.cw = ys.length
  run : Run d.centroids
  mn : IsMin d.min xs
  mx : IsMax d.max xs
  cap : d.cap = capacityOf d.k
  buf : d.buffer.length ≤ 4 * d.cap
  k : 10 ≤ d.k

theorem ends_of_run {A : List (Cen α)} (h : Run A) : Ends A := by
  have := ends_append h ends_nil
  simpa using this

theorem inv_new {k : Nat} {d : Digest α} (h : newDouble k = .ok d) : Inv d [] := by
  unfold newDouble at h
  split at h
  · simp at h
  · simp only [Outcome.ok.injEq] at h
    subst h
    exact ⟨⟨[], by simp, sums_nil, rfl⟩, ⟨by simp, by simp, by simp⟩, ⟨by simp, by simp⟩,
      ⟨by simp, by simp⟩, rfl, by simp, by simpa using ‹¬ _ < 10›⟩

/-- A merge of the buffer and of any summarised list `B` of centroids with good ends. -/
theorem merge_inv (ln : α → α) {d : Digest α} {xs : List α} (h : Inv d xs) (B : List (Cen α))
    {zs : List α} (hB : Sums B zs) (hE : Ends (B ++ d.centroids))
    (hne : d.buffer.length + B.length ≠ 0) :
    ∃ d', merge ln d (singles d.buffer ++ B) (d.buffer.length + zs.length) = .ok d' ∧
      Inv d' (xs ++ zs) ∧ d'.buffer = [] ∧ d'.k = d.k := by
  obtain ⟨ys, hp, hS, hw⟩ := h.split
  obtain ⟨L, hL⟩ : ∃ L, L = singles d.buffer ++ B ++ d.centroids := ⟨_, rfl⟩
  have hLne : L ≠ [] := by
    rw [hL]; intro h0; apply hne
    simp [singles] at h0
    simp [h0]
  have hSL : Sums L (d.buffer ++ zs ++ ys) := hL ▸
    sums_append (sums_append (sums_singles _) hB) hS
  have hper : (d.buffer ++ zs ++ ys).Perm (xs ++ zs) := by
    have h1 : (ys ++ d.buffer).Perm (d.buffer ++ ys) := List.perm_append_comm
    have h2 : (d.buffer ++ zs ++ ys).Perm (d.buffer ++ ys ++ zs) := by
      rw [List.append_assoc, List.append_assoc]
      exact List.Perm.append_left _ List.perm_append_comm
    exact h2.trans ((h1.symm.trans hp).append_right zs)
  have hSL' : Sums L (xs ++ zs) := sums_perm hSL (List.Perm.refl _) hper
  have hEL : Ends L := by
    rw [hL, List.append_assoc]; exact ends_singles _ hE
  obtain ⟨r1, r2, r3, r4⟩ := mergeCens_spec ln d.k d.rev (d.cw + (d.buffer.length + zs.length))
    hLne hSL' hEL
  have hne' := sort_ne_nil hLne
  have hf := List.head?_eq_some_head hne'
  have hl := List.getLast?_eq_some_getLast hne'
  rw [← r3] at hf
  rw [← r4] at hl
  refine ⟨_, merge_eq ln d _ _ hL hLne hf hl, ?_, rfl, rfl⟩
  have hfm := List.mem_of_mem_head? (by rw [hf]; rfl : _ ∈ (mergeCens ln d.k d.rev
    (d.cw + (d.buffer.length + zs.length)) L).head?)
  have hlm := List.mem_of_getLast? hl
  have hf1 := r2.first _ hf
  have hl1 := r2.last _ hl
  refine ⟨⟨xs ++ zs, by simp, r1, ?_⟩, r2, ?_, ?_, h.cap, by simp, h.k⟩
  · have := hp.length_eq
    simp only [List.length_append] at this ⊢
    omega
  · refine isMin_step h.mn (r1.one _ hfm hf1) (fun z hz => Or.inl ?_) (fun x hx => by simp [hx])
    obtain ⟨c, hc, hle⟩ := r1.lo z hz
    refine le_trans ?_ hle
    have hsrt := r2.sorted
    obtain ⟨t, ht⟩ := List.head?_eq_some_iff.1 hf
    rw [ht] at hc hsrt
    rcases List.mem_cons.1 hc with rfl | hc
    · exact le_refl _
    · exact (List.pairwise_cons.1 hsrt).1 c hc
  · refine isMax_step h.mx (r1.one _ hlm hl1) (fun z hz => Or.inl ?_) (fun x hx => by simp [hx])
    obtain ⟨c, hc, hle⟩ := r1.hi z hz
    refine le_trans hle ?_
    have hsrt := r2.sorted
    obtain ⟨t, ht⟩ := List.getLast?_eq_some_iff.1 hl
    rw [ht] at hc hsrt
    rcases List.mem_append.1 hc with hc | hc
    · exact (List.pairwise_append.1 hsrt).2.2 c hc _ (by simp)
    · simp only [List.mem_singleton] at hc; rw [← hc]

theorem compress_inv (ln : α → α) {d : Digest α} {xs : List α} (h : Inv d xs) :
    ∃ d', compress ln d = .ok d' ∧ Inv d' xs ∧ d'.buffer = [] ∧ d'.k = d.k := by
  unfold compress
  split
  · rename_i hb
    exact ⟨d, rfl, h, by simpa using hb, rfl⟩
  · rename_i hb
    have := merge_inv ln h [] sums_nil (by simpa using ends_of_run h.run) (by
      simp only [List.isEmpty_iff] at hb
      simpa using hb)
    simpa using this

theorem update_inv (ln : α → α) {d : Digest α} {xs : List α} (h : Inv d xs) (x : α) :
    ∃ d', update ln d (.fin x) = .ok d' ∧ Inv d' (xs ++ [x]) ∧ d'.k = d.k := by
  obtain ⟨d1, e1, h1, hb, hk⟩ : ∃ d1, (if d.buffer.length = d.cap * bufferMultiplier
      then compress ln d else .ok d) = .ok d1 ∧ Inv d1 xs ∧ d1.buffer.length < 4 * d1.cap ∧
      d1.k = d.k := by
    split
    · obtain ⟨d1, e, h1, h2, h3⟩ := compress_inv ln h
      refine ⟨d1, e, h1, ?_, h3⟩
      rw [h2, h1.cap]; simp [capacityOf]; have := h1.k; omega
    · rename_i hne
      have := h.buf
      simp only [bufferMultiplier] at hne
      exact ⟨d, rfl, h, by omega, rfl⟩
  unfold update
  rw [e1]
  refine ⟨_, rfl, ?_, hk⟩
  obtain ⟨ys, hp, hS, hw⟩ := h1.split
  refine ⟨⟨ys, ?_, hS, hw⟩, h1.run, ?_, ?_, h1.cap, by simp; omega, h1.k⟩
  · rw [← List.append_assoc]; exact hp.append_right _
  · exact isMin_step h1.mn (by simp) (fun z hz => by
      simp only [List.mem_append, List.mem_singleton] at hz
      rcases hz with h | rfl
      · exact Or.inr h
      · exact Or.inl (le_refl _)) (fun x hx => by simp [hx])
  · exact isMax_step h1.mx (by simp) (fun z hz => by
      simp only [List.mem_append, List.mem_singleton] at hz
      rcases hz with h | rfl
      · exact Or.inr h
      · exact Or.inl (le_refl _)) (fun x hx => by simp [hx])

theorem inv_empty_iff {d : Digest α} {xs : List α} (h : Inv d xs) :
    d.isEmpty = true ↔ xs = [] := by
  obtain ⟨ys, hp, hS, hw⟩ := h.split
  simp only [Digest.isEmpty, Bool.and_eq_true, List.isEmpty_iff]
  constructor
  · rintro ⟨h1, h2⟩
    rw [h1] at hS
    have := hS.w
    simp at this
    have hy : ys = [] := List.length_eq_zero_iff.1 this.symm
    rw [hy, h2] at hp
    exact hp.symm.eq_nil
  · rintro rfl
    have := hp.eq_nil
    simp only [List.append_eq_nil_iff] at this
    refine ⟨?_, this.2⟩
    have hw := hS.w
    rw [this.1] at hw
    cases hc : d.centroids with
    | nil => rfl
    | cons c cs =>
      have := hS.pos c (by rw [hc]; simp)
      rw [hc] at hw; simp at hw; omega

theorem inv_total {d : Digest α} {xs : List α} (h : Inv d xs) : d.totalWeight = xs.length := by
  obtain ⟨ys, hp, hS, hw⟩ := h.split
  rw [Digest.totalWeight, hw, ← hp.length_eq, List.length_append]

theorem merge_with_inv (ln : α → α) {d o : Digest α} {xs zs : List α} (h : Inv d xs)
    (ho : Inv o zs) (hne : zs ≠ []) :
    ∃ d', mergeWith ln d o = .ok d' ∧ Inv d' (xs ++ zs) ∧ d'.buffer = [] ∧ d'.k = d.k := by
  obtain ⟨ys, hp, hS, hw⟩ := ho.split
  unfold mergeWith
  have hoe : ¬ o.isEmpty = true := fun h0 => hne ((inv_empty_iff ho).1 h0)
  rw [if_neg hoe, inv_total ho, List.append_assoc]
  refine merge_inv ln h (singles o.buffer ++ o.centroids) (zs := zs) ?_ ?_ ?_
  · exact sums_perm (sums_append (sums_singles o.buffer) hS) (List.Perm.refl _)
      (List.perm_append_comm.trans hp)
  · rw [List.append_assoc]
    exact ends_singles _ (ends_append ho.run (ends_of_run h.run))
  · intro h0
    apply hoe
    simp [singles] at h0
    simp [Digest.isEmpty, h0]

/-- Digests obtained through the API, with the values they were given.  `compress` is what the
    queries and the encoder do to the digest. -/
inductive Built (ln : α → α) : Digest α → List α → Prop where
  | new {k d} : newDouble k = .ok d → Built ln d []
  | update {d xs d'} (x : α) : Built ln d xs → update ln d (.fin x) = .ok d' →
      Built ln d' (xs ++ [x])
  | merge {d o xs zs d'} : Built ln d xs → Built ln o zs → mergeWith ln d o = .ok d' →
      Built ln d' (xs ++ zs)
  | compress {d xs d'} : Built ln d xs → compress ln d = .ok d' → Built ln d' xs

theorem built_inv {ln : α → α} {d : Digest α} {xs : List α} (h : Built ln d xs) : Inv d xs := by
  induction h with
  | new h => exact inv_new h
  | update x _ h ih =>
    obtain ⟨d', e, hi, _⟩ := update_inv ln ih x
    rw [e] at h; cases h; exact hi
  | @merge d o xs zs d' _ _ h ih1 ih2 =>
    by_cases hz : zs = []
    · rw [mergeWith, if_pos ((inv_empty_iff ih2).2 hz)] at h
      simp at h
    · obtain ⟨d', e, hi, _⟩ := merge_with_inv ln ih1 ih2 hz
      rw [e] at h; cases h; exact hi
  | compress _ h ih =>
    obtain ⟨d', e, hi, _⟩ := compress_inv ln ih
    rw [e] at h; cases h; exact hi

end Verif.TDigest
