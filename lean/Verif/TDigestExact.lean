import Mathlib.Data.Nat.Cast.Order.Field
import Mathlib.Tactic.NormNum
import Verif.TDigestQuantile

/-!
# Small streams: a t-digest that has merged nothing is exact
-/

namespace Verif.TDigest

set_option linter.unusedSectionVars false

variable {α : Type} [Field α] [LinearOrder α] [IsStrictOrderedRing α]

/-- With fewer than `2k/3` values the size limit never allows a centroid of weight two. -/
theorem addThis_small (ln : α → α) (hln : ∀ x, x ≤ 1 → ln x ≤ 0) {k W : Nat} (hW : 0 < W)
    (hk : 3 * W < 2 * k) {wsf p : α} (h0 : 0 ≤ wsf) (h1 : wsf ≤ (W : α)) (hp : 2 ≤ p) :
    addThis ln k W wsf p = false := by
  unfold addThis
  simp only [decide_eq_false_iff_not, not_le]
  have hWp : (0 : α) < (W : α) := by exact_mod_cast hW
  have hkp : (0 : α) < (k : α) := by exact_mod_cast (by omega : 0 < k)
  have hWk : (3 : α) * (W : α) < 2 * (k : α) := by exact_mod_cast hk
  have hz : sfZ ln (2 * (k : α)) (W : α) ≤ 24 := by
    have := hln ((W : α) / (2 * (k : α))) (by rw [div_le_one (by linarith)]; linarith)
    unfold sfZ; linarith
  obtain ⟨q, hq⟩ : ∃ q, q = wsf / (W : α) := ⟨_, rfl⟩
  have hq0 : 0 ≤ q := hq ▸ div_nonneg h0 hWp.le
  have hq1 : q ≤ 1 := by rw [hq, div_le_one hWp]; exact h1
  have hqq0 : 0 ≤ q * (1 - q) := mul_nonneg hq0 (by linarith)
  have hqq : q * (1 - q) ≤ 1 / 4 := by nlinarith [sq_nonneg (q - 1 / 2)]
  rw [← hq]
  have hle : sfMax q (sfNormalizer ln (2 * (k : α)) (W : α)) ≤ 3 / (k : α) := by
    unfold sfMax sfNormalizer
    rw [div_div_eq_mul_div, div_le_div_iff₀ (by linarith) hkp]
    have : q * (1 - q) * sfZ ln (2 * (k : α)) (W : α) ≤ 6 := by
      calc q * (1 - q) * sfZ ln (2 * (k : α)) (W : α) ≤ q * (1 - q) * 24 :=
            mul_le_mul_of_nonneg_left hz hqq0
        _ ≤ 6 := by linarith
    nlinarith
  refine lt_of_le_of_lt (mul_le_mul_of_nonneg_left ((min_le_left _ _).trans hle) hWp.le) ?_
  refine lt_of_lt_of_le ?_ hp
  rw [mul_div_assoc', div_lt_iff₀ hkp]
  linarith

theorem loop_id (ok : α → α → Bool) (W : α)
    (hok : ∀ wsf p, 0 ≤ wsf → wsf ≤ W → 2 ≤ p → ok wsf p = false) (n i) (cur : Cen α) (wsf) (l)
    (hc : cur.weight = 1) (hl : ∀ c ∈ l, c.weight = 1) (h0 : 0 ≤ wsf)
    (h1 : wsf + (1 + l.length : Nat) ≤ W) : mergeLoop ok n i cur wsf l = cur :: l := by
  induction l generalizing i cur wsf with
  | nil => rfl
  | cons b bs ih =>
    have hb := hl b (by simp)
    rw [mergeLoop]
    push_cast [List.length_cons] at h1
    have hlen : (0 : α) ≤ (bs.length : α) := Nat.cast_nonneg _
    rw [if_neg (by
      rintro ⟨-, -, h⟩
      rw [hok wsf _ h0 (by linarith) (by rw [hc, hb]; push_cast; linarith)] at h
      simp at h)]
    rw [ih _ _ _ hb (fun c h => hl c (by simp [h])) (by rw [hc]; push_cast; linarith)
      (by rw [hc]; push_cast; linarith)]

/-- Digests of parameter `k` built through the API, with the values they were given; the digests
    merged in have the same `k`. -/
inductive BuiltK (ln : α → α) (k : Nat) : Digest α → List α → Prop where
  | new {d} : newDouble k = .ok d → BuiltK ln k d []
  | update {d xs d'} (x : α) : BuiltK ln k d xs → update ln d (.fin x) = .ok d' →
      BuiltK ln k d' (xs ++ [x])
  | merge {d o xs zs d'} : BuiltK ln k d xs → BuiltK ln k o zs → mergeWith ln d o = .ok d' →
      BuiltK ln k d' (xs ++ zs)
  | compress {d xs d'} : BuiltK ln k d xs → compress ln d = .ok d' → BuiltK ln k d' xs

theorem builtK_built {ln : α → α} {k : Nat} {d : Digest α} {xs : List α} (h : BuiltK ln k d xs) :
    Built ln d xs := by
  induction h with
  | new h => exact .new h
  | update x _ h ih => exact .update x ih h
  | merge _ _ h ih1 ih2 => exact .merge ih1 ih2 h
  | compress _ h ih => exact .compress ih h

/-- Nothing has been merged: the means and the buffer are the values. -/
structure Plain (k : Nat) (d : Digest α) (xs : List α) : Prop where
  inv : Inv d xs
  k : d.k = k
  one : ∀ c ∈ d.centroids, c.weight = 1
  vals : (d.centroids.map Cen.mean ++ d.buffer).Perm xs

theorem mergeCens_plain (ln : α → α) (hln : ∀ x, x ≤ 1 → ln x ≤ 0) {k : Nat} (rev : Bool)
    {L : List (Cen α)} (hne : L ≠ []) (h1 : ∀ c ∈ L, c.weight = 1) (hk : 3 * L.length < 2 * k) :
    mergeCens ln k rev L.length L = sortCens L := by
  have hp := sort_perm L
  have h1' : ∀ c ∈ sortCens L, c.weight = 1 := fun c h => h1 c (hp.mem_iff.1 h)
  have hW : 0 < L.length := List.length_pos_iff.2 hne
  have hok : ∀ wsf p : α, 0 ≤ wsf → wsf ≤ (L.length : α) → 2 ≤ p →
      addThis ln k L.length wsf p = false :=
    fun wsf p a b c => addThis_small ln hln hW hk a b c
  unfold mergeCens
  dsimp only
  cases rev with
  | false =>
    simp only [Bool.false_eq_true, if_false]
    cases hs : sortCens L with
    | nil => exact absurd hs (sort_ne_nil hne)
    | cons b bs =>
      rw [hs] at h1' hp
      dsimp only
      refine loop_id _ _ hok _ _ _ _ _ (h1' b (by simp)) (fun c h => h1' c (by simp [h]))
        (le_refl _) ?_
      have := hp.length_eq
      simp only [List.length_cons] at this
      rw [← this]; push_cast; linarith
  | true =>
    simp only [if_true]
    cases hs : (sortCens L).reverse with
    | nil => exact absurd (by simpa using hs) (sort_ne_nil hne)
    | cons b bs =>
      have hm : ∀ c ∈ b :: bs, c.weight = 1 := by
        rw [← hs]; intro c hc; exact h1' c (List.mem_reverse.1 hc)
      have hlen : (b :: bs).length = L.length := by
        rw [← hs, List.length_reverse, hp.length_eq]
      dsimp only
      rw [loop_id _ _ hok _ _ _ _ _ (hm b (by simp)) (fun c h => hm c (by simp [h]))
        (le_refl _) ?_, ← hs, List.reverse_reverse]
      simp only [List.length_cons] at hlen
      rw [← hlen]; push_cast; linarith

theorem singles_mean (l : List α) : (singles l).map Cen.mean = l := by
  simp [singles, Function.comp_def]

theorem merge_plain (ln : α → α) (hln : ∀ x, x ≤ 1 → ln x ≤ 0) {k : Nat} {d d' : Digest α}
    {xs zs : List α} (h : Plain k d xs) (B : List (Cen α)) (hB1 : ∀ c ∈ B, c.weight = 1)
    (hBv : (B.map Cen.mean).Perm zs) (hk : 3 * (xs.length + zs.length) < 2 * k)
    (hm : merge ln d (singles d.buffer ++ B) (d.buffer.length + zs.length) = .ok d')
    (hI : Inv d' (xs ++ zs)) : Plain k d' (xs ++ zs) := by
  obtain ⟨L, hL⟩ : ∃ L, L = singles d.buffer ++ B ++ d.centroids := ⟨_, rfl⟩
  have hvals : (L.map Cen.mean).Perm (xs ++ zs) := by
    rw [hL, List.map_append, List.map_append, singles_mean]
    have h1 : (d.buffer ++ B.map Cen.mean ++ d.centroids.map Cen.mean).Perm
        (d.centroids.map Cen.mean ++ (d.buffer ++ B.map Cen.mean)) := List.perm_append_comm
    rw [← List.append_assoc] at h1
    exact h1.trans (List.Perm.append h.vals hBv)
  have hL1 : ∀ c ∈ L, c.weight = 1 := by
    intro c hc
    rw [hL] at hc
    rcases List.mem_append.1 hc with hc | hc
    · rcases List.mem_append.1 hc with hc | hc
      · simp only [singles, List.mem_map] at hc; obtain ⟨x, _, rfl⟩ := hc; rfl
      · exact hB1 c hc
    · exact h.one c hc
  have hlen : L.length = xs.length + zs.length := by
    have := hvals.length_eq; simpa using this
  have hcw : d.cw + (d.buffer.length + zs.length) = L.length := by
    have h1 := inv_total h.inv
    rw [Digest.totalWeight] at h1
    omega
  by_cases hne : L = []
  · -- nothing to merge: `merge` panics
    exfalso
    rw [hne] at hL
    unfold merge at hm
    rw [← hL] at hm
    cases hr : d.rev <;> simp [sortCens, hr] at hm
  · have hmc := mergeCens_plain ln hln d.rev (k := k) hne hL1 (by rw [hlen]; exact hk)
    have hne' := sort_ne_nil hne
    rw [← hcw, ← h.k] at hmc
    have e := merge_eq ln d (singles d.buffer ++ B) (d.buffer.length + zs.length) hL hne
      (by rw [hmc]; exact List.head?_eq_some_head hne')
      (by rw [hmc]; exact List.getLast?_eq_some_getLast hne')
    rw [e] at hm
    simp only [Outcome.ok.injEq] at hm
    subst hm
    refine ⟨hI, h.k, ?_, ?_⟩
    · dsimp only; rw [hmc]; intro c hc; exact hL1 c ((sort_perm L).mem_iff.1 hc)
    · dsimp only; rw [hmc, List.append_nil]
      exact ((sort_perm L).map _).trans hvals

theorem compress_plain (ln : α → α) (hln : ∀ x, x ≤ 1 → ln x ≤ 0) {k : Nat} {d d' : Digest α}
    {xs : List α} (h : Plain k d xs) (hk : 3 * xs.length < 2 * k)
    (hc : compress ln d = .ok d') : Plain k d' xs := by
  obtain ⟨e, he, hi, _, _⟩ := compress_inv ln h.inv
  rw [hc] at he; cases he
  unfold compress at hc
  split at hc
  · cases hc; exact h
  · have := merge_plain ln hln h [] (zs := []) (by simp) (by simp) (by simpa using hk)
      (by simpa using hc) (by simpa using hi)
    simpa using this

theorem builtK_plain {ln : α → α} (hln : ∀ x, x ≤ 1 → ln x ≤ 0) {k : Nat} {d : Digest α}
    {xs : List α} (h : BuiltK ln k d xs) (hk : 3 * xs.length < 2 * k) : Plain k d xs := by
  induction h with
  | new h =>
    have hi := inv_new h
    unfold newDouble at h
    split at h
    · simp at h
    · simp only [Outcome.ok.injEq] at h
      subst h
      exact ⟨hi, rfl, by simp, by simp⟩
  | @update d xs d' x _ h ih =>
    simp only [List.length_append, List.length_singleton] at hk
    have hP := ih (by omega)
    obtain ⟨d1, e1, hP1⟩ : ∃ d1, (if d.buffer.length = d.cap * bufferMultiplier
        then compress ln d else .ok d) = .ok d1 ∧ Plain k d1 xs := by
      split
      · obtain ⟨d1, e, _⟩ := compress_inv ln hP.inv
        exact ⟨d1, e, compress_plain ln hln hP (by omega) e⟩
      · exact ⟨d, rfl, hP⟩
    obtain ⟨d2, e2, hI, hk2⟩ := update_inv ln hP.inv x
    rw [h] at e2; cases e2
    unfold update at h
    rw [e1] at h
    simp only [Outcome.ok_bind, Outcome.ok.injEq] at h
    subst h
    refine ⟨hI, hP1.k, hP1.one, ?_⟩
    dsimp only
    rw [← List.append_assoc]
    exact hP1.vals.append_right _
  | @merge d o xs zs d' _ _ h ih1 ih2 =>
    simp only [List.length_append] at hk
    have hP := ih1 (by omega)
    have hO := ih2 (by omega)
    by_cases hz : zs = []
    · rw [mergeWith, if_pos ((inv_empty_iff hO.inv).2 hz)] at h
      simp at h
    · obtain ⟨d2, e2, hI, _⟩ := merge_with_inv ln hP.inv hO.inv hz
      rw [h] at e2; cases e2
      unfold mergeWith at h
      rw [if_neg (fun h0 => hz ((inv_empty_iff hO.inv).1 h0)), inv_total hO.inv,
        List.append_assoc] at h
      refine merge_plain ln hln hP (singles o.buffer ++ o.centroids) ?_ ?_ hk h hI
      · intro c hc
        rcases List.mem_append.1 hc with hc | hc
        · simp only [singles, List.mem_map] at hc; obtain ⟨x, _, rfl⟩ := hc; rfl
        · exact hO.one c hc
      · rw [List.map_append, singles_mean]
        exact List.perm_append_comm.trans hO.vals
  | compress _ h ih => exact compress_plain ln hln (ih hk) hk h

/-! ### Counting -/

/-- The compressed digest of a small stream: the sorted values with weight one. -/
structure Listing (cs : List (Cen α)) (xs : List α) : Prop where
  len : cs.length = xs.length
  good : Good cs
  one : ∀ i, i < cs.length → Wt cs i = 1
  vals : (cs.map Cen.mean).Perm xs

theorem listing_of {k : Nat} {e : Digest α} {xs : List α} (h : Plain k e xs) (hb : e.buffer = []) :
    Listing e.centroids xs := by
  have hv := h.vals
  rw [hb, List.append_nil] at hv
  refine ⟨by simpa using hv.length_eq, flat_good (flat_of h.inv hb), fun i hi => ?_, hv⟩
  have := h.one e.centroids[i] (List.getElem_mem hi)
  simpa [Wt, hi] using this

theorem listing_S {cs : List (Cen α)} {xs : List α} (h : Listing cs xs) {i : Nat}
    (hi : i ≤ cs.length) : S cs i = i := by
  induction i with
  | zero => exact S_zero cs
  | succ i ih => rw [S_succ (by omega), ih (by omega), h.one i (by omega)]

theorem listing_C {cs : List (Cen α)} {xs : List α} (h : Listing cs xs) {i : Nat}
    (hi : i < cs.length) : C cs i = (i : α) + 1 / 2 := by
  rw [C, listing_S h (by omega), h.one i hi]; push_cast; ring

/-- If `p` holds exactly at the first `a` means, `a` of the values satisfy `p`. -/
theorem listing_count {cs : List (Cen α)} {xs : List α} (h : Listing cs xs) (p : α → Bool)
    {a : Nat} (ha : a ≤ cs.length) (h1 : ∀ i, i < a → p (M cs i) = true)
    (h2 : ∀ i, a ≤ i → i < cs.length → p (M cs i) = false) : xs.countP p = a := by
  rw [← h.vals.countP_eq p, ← List.take_append_drop a (cs.map Cen.mean), List.countP_append]
  have e1 : List.countP p ((cs.map Cen.mean).take a) = ((cs.map Cen.mean).take a).length := by
    rw [List.countP_eq_length]
    intro x hx
    obtain ⟨i, hi, rfl⟩ := List.getElem_of_mem hx
    simp only [List.length_take, List.length_map] at hi
    have := h1 i (by omega)
    simpa [M, show i < cs.length by omega] using this
  have e2 : List.countP p ((cs.map Cen.mean).drop a) = 0 := by
    rw [List.countP_eq_zero]
    intro x hx
    obtain ⟨i, hi, rfl⟩ := List.getElem_of_mem hx
    simp only [List.length_drop, List.length_map] at hi
    have := h2 (a + i) (by omega) (by omega)
    simpa [M, show a + i < cs.length by omega] using this
  rw [e1, e2]
  simp [ha]

theorem listing_rank {cs : List (Cen α)} {xs : List α} (h : Listing cs xs) (hne : xs ≠ [])
    {v r : α} (hr : RankVal cs xs (.fin v) r) :
    (v ∈ xs → r = ((xs.countP (· < v) : α) + (xs.countP (· ≤ v) : α)) / (2 * (xs.length : α))) ∧
    |r - ((xs.countP (· < v) : α) + (xs.countP (· ≤ v) : α)) / (2 * (xs.length : α))|
      ≤ 1 / (2 * (xs.length : α)) := by
  have hn : (0 : α) < (xs.length : α) := by exact_mod_cast List.length_pos_iff.2 hne
  have hpos : (0 : α) ≤ 1 / (2 * (xs.length : α)) := by positivity
  suffices H : r = ((xs.countP (· < v) : α) + (xs.countP (· ≤ v) : α)) / (2 * (xs.length : α)) ∨
      (v ∉ xs ∧ |r - ((xs.countP (· < v) : α) + (xs.countP (· ≤ v) : α)) / (2 * (xs.length : α))|
      ≤ 1 / (2 * (xs.length : α))) by
    rcases H with H | ⟨H1, H2⟩
    · exact ⟨fun _ => H, by rw [← H, sub_self, abs_zero]; exact hpos⟩
    · exact ⟨fun h => absurd h H1, H2⟩
  cases hr with
  | low _ hall =>
    left
    have hall' : ∀ x ∈ xs, v < x := fun x hx => by simpa [Fl.lt] using hall x hx
    have e1 : xs.countP (· < v) = 0 := List.countP_eq_zero.2 (fun x hx => by
      simpa using (hall' x hx).le)
    have e2 : xs.countP (· ≤ v) = 0 := List.countP_eq_zero.2 (fun x hx => by
      simpa using hall' x hx)
    rw [e1, e2]; simp
  | high _ hall =>
    left
    have hall' : ∀ x ∈ xs, x < v := fun x hx => by simpa [Fl.lt] using hall x hx
    have e1 : xs.countP (· < v) = xs.length := List.countP_eq_length.2 (fun x hx => by
      simpa using hall' x hx)
    have e2 : xs.countP (· ≤ v) = xs.length := List.countP_eq_length.2 (fun x hx => by
      simpa using (hall' x hx).le)
    rw [e1, e2]; field_simp; ring
  | one hx => left; rw [hx]; simp
  | mid _ _ hp =>
    cases hp with
    | @hit a b hab hb l m g =>
      left
      have e1 : xs.countP (· < v) = a := listing_count h _ (by omega)
        (fun i hi => by simpa using l i hi)
        (fun i hi hl => by
          simp only [decide_eq_false_iff_not, not_lt]
          rcases Nat.lt_or_ge b i with hbi | hbi
          · exact (g i hbi hl).le
          · exact (m i hi hbi).ge)
      have e2 : xs.countP (· ≤ v) = b + 1 := listing_count h _ (by omega)
        (fun i hi => by
          simp only [decide_eq_true_eq]
          rcases Nat.lt_or_ge i a with hai | hai
          · exact (l i hai).le
          · exact (m i hai (by omega)).le)
        (fun i hi hl => by simpa using g i (by omega) hl)
      rw [e1, e2, listing_C h (by omega), listing_C h hb]
      push_cast
      field_simp
      ring
    | @gap a ha l g =>
      right
      have e1 : xs.countP (· < v) = a + 1 := listing_count h _ (by omega)
        (fun i hi => by simpa using l i (by omega))
        (fun i hi hl => by simpa using (g i (by omega) hl).le)
      have e2 : xs.countP (· ≤ v) = a + 1 := listing_count h _ (by omega)
        (fun i hi => by simpa using (l i (by omega)).le)
        (fun i hi hl => by simpa using g i (by omega) hl)
      obtain ⟨g1, g2⟩ := gap_bounds h.good ha (l a (le_refl _)) (g (a + 1) (by omega) ha)
      refine ⟨fun hv => ?_, ?_⟩
      · rw [← h.vals.mem_iff] at hv
        obtain ⟨i, hi, rfl⟩ := List.getElem_of_mem hv
        simp only [List.length_map] at hi
        rcases Nat.lt_or_ge a i with h' | h'
        · have := g i h' hi
          simp [M, hi] at this
        · have := l i h'
          simp [M, hi] at this
      · rw [e1, e2]
        generalize C cs a + (C cs (a + 1) - C cs a) * (v - M cs a) / (M cs (a + 1) - M cs a) = p
          at g1 g2 ⊢
        rw [listing_C h (by omega)] at g1
        rw [listing_C h ha] at g2
        push_cast at g1 g2 ⊢
        have e : p / (xs.length : α) - ((a : α) + 1 + ((a : α) + 1)) / (2 * (xs.length : α))
            = (p - ((a : α) + 1)) / (xs.length : α) := by field_simp; ring
        rw [e, abs_le]
        constructor
        · rw [le_div_iff₀ hn]
          have : -(1 / (2 * (xs.length : α))) * (xs.length : α) = - (1 / 2) := by field_simp
          rw [this]; linarith
        · rw [div_le_iff₀ hn]
          have : 1 / (2 * (xs.length : α)) * (xs.length : α) = 1 / 2 := by field_simp
          rw [this]; linarith

/-- The values in ascending order are the means of the centroids. -/
theorem listing_sorted {cs : List (Cen α)} {xs : List α} (h : Listing cs xs)
    (hs : cs.Pairwise fun a b => a.mean ≤ b.mean) :
    cs.map Cen.mean = xs.insertionSort (· ≤ ·) := by
  refine List.Perm.eq_of_pairwise (le := (· ≤ ·)) ?_ ?_ ?_ ?_
  · intro a b _ _ h1 h2; exact le_antisymm h1 h2
  · exact (List.pairwise_map.2 hs)
  · exact List.pairwise_insertionSort _ _
  · exact h.vals.trans (List.perm_insertionSort _ _).symm

theorem listing_quantile {cs : List (Cen α)} {xs : List α} (h : Listing cs xs) (hne : xs ≠ [])
    {r q : α} (h0 : 0 ≤ r) (hq : QVal cs xs.length r q) :
    ∃ i, i < xs.length ∧ q = M cs i ∧ (i : α) ≤ r * (xs.length : α) ∧
      (r * (xs.length : α) < (i : α) + 1 ∨ i + 1 = xs.length) := by
  have hlen := h.len
  have hn : 0 < xs.length := List.length_pos_iff.2 hne
  have hnn : (0 : α) ≤ (xs.length : α) := Nat.cast_nonneg _
  cases hq with
  | low hw => exact ⟨0, hn, rfl, by push_cast; exact mul_nonneg h0 hnn, Or.inl (by simpa using hw)⟩
  | high hw =>
    refine ⟨xs.length - 1, by omega, by rw [h.len], ?_, Or.inr (by omega)⟩
    rw [Nat.cast_sub hn]; push_cast; linarith
  | @mid j hge hle hj d1 d2 =>
    rw [listing_C h (by omega)] at d1
    rw [listing_C h hj] at d2
    push_cast at d2
    have w1 : (at' cs j).weight = 1 := h.one j (by omega)
    have w2 : (at' cs (j + 1)).weight = 1 := h.one (j + 1) hj
    unfold quantileStep
    dsimp only
    rw [listing_C h (show j < cs.length by omega), w1, w2]
    by_cases hlt : r * (xs.length : α) < (j : α) + 1
    · rw [if_pos ⟨rfl, by linarith⟩]
      exact ⟨j, by omega, rfl, by linarith, Or.inl hlt⟩
    · have hge' := not_lt.1 hlt
      rw [if_neg (by rintro ⟨-, h⟩; linarith), if_pos ⟨rfl, by push_cast; linarith⟩]
      exact ⟨j + 1, by omega, rfl, by push_cast; linarith, Or.inl (by push_cast; linarith)⟩

end Verif.TDigest
