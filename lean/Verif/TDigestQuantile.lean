import Verif.TDigestRankVal

/-!
# `Quantile` of a t-digest
-/

namespace Verif.TDigest

set_option linter.unusedSectionVars false

variable {α : Type} [Field α] [LinearOrder α] [IsStrictOrderedRing α]

theorem weightedAverage_between {x1 w1 x2 w2 : α} (hx : x1 ≤ x2) (h1 : 0 ≤ w1) (h2 : 0 ≤ w2)
    (h : 0 < w1 + w2) :
    x1 ≤ weightedAverage x1 w1 x2 w2 ∧ weightedAverage x1 w1 x2 w2 ≤ x2 := by
  unfold weightedAverage
  rw [le_div_iff₀ h, div_le_iff₀ h]
  constructor
  · have := mul_le_mul_of_nonneg_right hx h2
    linarith
  · have := mul_le_mul_of_nonneg_right hx h1
    linarith

/-- Between two adjacent centroids the answer lies between their means. -/
theorem quantileStep_between {weight wsf : α} {c c' : Cen α} (hm : c.mean ≤ c'.mean)
    (hc : 0 < c.weight) (hc' : 0 < c'.weight) (h1 : wsf ≤ weight)
    (h2 : weight < wsf + ((c.weight : α) + (c'.weight : α)) / 2) :
    c.mean ≤ quantileStep weight wsf c c' ∧ quantileStep weight wsf c c' ≤ c'.mean := by
  have hcp : (1 : α) ≤ c.weight := by exact_mod_cast hc
  have hcp' : (1 : α) ≤ c'.weight := by exact_mod_cast hc'
  unfold quantileStep
  dsimp only
  split
  · exact ⟨le_refl _, hm⟩
  · rename_i hn1
    split
    · exact ⟨hm, le_refl _⟩
    · rename_i hn2
      apply weightedAverage_between hm
      · split
        · rename_i h; have := not_and.1 hn1 h; linarith [not_lt.1 this]
        · linarith
      · split
        · rename_i h; have := not_and.1 hn2 h; linarith [not_le.1 this]
        · linarith
      · split <;> split
        · rename_i h h'
          have h3 := not_lt.1 (not_and.1 hn1 h)
          have h4 := not_le.1 (not_and.1 hn2 h')
          linarith
        · rename_i h h'
          have h3 := not_lt.1 (not_and.1 hn1 h)
          linarith
        · rename_i h h'
          have h4 := not_le.1 (not_and.1 hn2 h')
          linarith
        · linarith

theorem C_next {cs : List (Cen α)} {i : Nat} (h : i + 1 < cs.length) :
    C cs (i + 1) = C cs i + ((Wt cs i : α) + (Wt cs (i + 1) : α)) / 2 := by
  rw [C, C, S_succ (by omega)]
  push_cast
  ring

/-- Centroid at an index. -/
def at' (cs : List (Cen α)) (i : Nat) : Cen α := cs.getD i ⟨0, 0⟩

theorem drop_at {cs : List (Cen α)} {i : Nat} (h : i < cs.length) :
    cs.drop i = at' cs i :: cs.drop (i + 1) := by
  rw [List.drop_eq_getElem_cons h]; simp [at', h]

/-- The loop stops at the adjacent pair around the target weight. -/
theorem quantileLoop_spec {cs : List (Cen α)} (W : Nat) (mx weight : α) (i : Nat)
    (hi : i < cs.length) (h1 : C cs i ≤ weight) (h2 : weight < C cs (cs.length - 1)) :
    ∃ j, i ≤ j ∧ j + 1 < cs.length ∧ C cs j ≤ weight ∧ weight < C cs (j + 1) ∧
      quantileLoop W mx weight (C cs i) (at' cs i) (cs.drop (i + 1))
        = quantileStep weight (C cs j) (at' cs j) (at' cs (j + 1)) := by
  induction hn : cs.length - i generalizing i with
  | zero => omega
  | succ n ih =>
    rcases Nat.lt_or_ge (i + 1) cs.length with h | h
    · rw [drop_at h, quantileLoop]
      have hC := C_next h
      have e : C cs i + (((at' cs i).weight : α) + ((at' cs (i + 1)).weight : α)) / 2
          = C cs (i + 1) := hC.symm
      rw [e]
      split
      · rename_i hlt
        exact ⟨i, le_refl _, h, h1, hlt, rfl⟩
      · rename_i hlt
        obtain ⟨j, a, b, c, d, e⟩ := ih (i + 1) h (not_lt.1 hlt) (by omega)
        exact ⟨j, by omega, b, c, d, e⟩
    · exfalso
      have : cs.length - 1 = i := by omega
      rw [this] at h2
      exact absurd h1 (not_le.2 h2)

theorem Wt_last {e : Digest α} {xs : List α} (hF : Flat e xs) (hne : e.centroids ≠ []) :
    Wt e.centroids (e.centroids.length - 1) = 1 := by
  have h0 : 0 < e.centroids.length := List.length_pos_iff.2 hne
  have := (flat_last hF (List.getLast?_eq_some_getLast hne)).1
  rw [List.getLast_eq_getElem] at this
  simpa [Wt, h0] using this

theorem Wt_first {e : Digest α} {xs : List α} (hF : Flat e xs) (hne : e.centroids ≠ []) :
    Wt e.centroids 0 = 1 := by
  have h0 : 0 < e.centroids.length := List.length_pos_iff.2 hne
  have := (flat_first hF (List.head?_eq_some_head hne)).1
  rw [List.head_eq_getElem] at this
  simpa [Wt, h0] using this

theorem M_first {e : Digest α} {xs : List α} (hF : Flat e xs) (hne : e.centroids ≠ []) :
    e.min = .fin (M e.centroids 0) ∧ M e.centroids 0 ∈ xs ∧ ∀ x ∈ xs, M e.centroids 0 ≤ x := by
  have h0 : 0 < e.centroids.length := List.length_pos_iff.2 hne
  have := (flat_first hF (List.head?_eq_some_head hne)).2
  rw [List.head_eq_getElem] at this
  simpa [M, h0] using this

theorem M_last {e : Digest α} {xs : List α} (hF : Flat e xs) (hne : e.centroids ≠ []) :
    e.max = .fin (M e.centroids (e.centroids.length - 1)) ∧
      M e.centroids (e.centroids.length - 1) ∈ xs ∧
      ∀ x ∈ xs, x ≤ M e.centroids (e.centroids.length - 1) := by
  have h0 : 0 < e.centroids.length := List.length_pos_iff.2 hne
  have := (flat_last hF (List.getLast?_eq_some_getLast hne)).2
  rw [List.getLast_eq_getElem] at this
  simpa [M, h0] using this

theorem C_last {e : Digest α} {xs : List α} (hF : Flat e xs) (hne : e.centroids ≠ []) :
    C e.centroids (e.centroids.length - 1) = (xs.length : α) - 1 / 2 := by
  have h0 : 0 < e.centroids.length := List.length_pos_iff.2 hne
  have h1 := Wt_last hF hne
  have h2 := S_succ (cs := e.centroids) (i := e.centroids.length - 1) (by omega)
  rw [show e.centroids.length - 1 + 1 = e.centroids.length by omega, S_length, hF.sums.w, h1] at h2
  rw [C, h1, h2]
  push_cast
  ring

/-- The answer of `Quantile(r)` on the centroids `cs` of total weight `W`. -/
inductive QVal (cs : List (Cen α)) (W : Nat) (r : α) : α → Prop where
  | low : r * (W : α) < 1 → QVal cs W r (M cs 0)
  | high : (W : α) - 1 < r * (W : α) → QVal cs W r (M cs (cs.length - 1))
  | mid {j} : 1 ≤ r * (W : α) → r * (W : α) ≤ (W : α) - 1 → j + 1 < cs.length →
      C cs j ≤ r * (W : α) → r * (W : α) < C cs (j + 1) →
      QVal cs W r (quantileStep (r * (W : α)) (C cs j) (at' cs j) (at' cs (j + 1)))

theorem quantileMany_spec {e : Digest α} {xs : List α} (hF : Flat e xs) {c : Cen α}
    {cs : List (Cen α)} (hc : e.centroids = c :: cs) (r : α) :
    QVal e.centroids e.cw r (quantileMany e.cw (M e.centroids 0)
      (M e.centroids (e.centroids.length - 1)) r c cs) := by
  have hne : e.centroids ≠ [] := by rw [hc]; simp
  have hw1 := Wt_first hF hne
  have hwl := Wt_last hF hne
  have hcl := C_last hF hne
  have h0 : 0 < e.centroids.length := List.length_pos_iff.2 hne
  have hc1 : c.weight = 1 := by simpa [Wt, hc] using hw1
  have hl1 : ((c :: cs).getLast (by simp)).weight = 1 :=
    hF.inv.run.last _ (by rw [hc, List.getLast?_eq_some_getLast])
  unfold quantileMany
  dsimp only
  rw [hc1, hl1]
  split
  · exact .low (by assumption)
  · rename_i hge
    split
    · exact .high (by assumption)
    · rename_i hle
      rw [if_neg (by simp), if_neg (by simp)]
      have hge := not_lt.1 hge
      have hle := not_lt.1 hle
      have hC0 : C e.centroids 0 = 1 / 2 := by rw [C, S_zero, hw1]; simp
      obtain ⟨j, a, b, d1, d2, e1⟩ := quantileLoop_spec (cs := e.centroids) e.cw
        (M e.centroids (e.centroids.length - 1)) (r * (e.cw : α)) 0 h0
        (by rw [hC0]; linarith) (by rw [hcl, ← hF.cw]; linarith)
      have hat : at' e.centroids 0 = c := by simp [at', hc]
      have hdr : e.centroids.drop (0 + 1) = cs := by simp [hc]
      rw [hat, hdr, hC0] at e1
      simp only [Nat.cast_one]
      rw [e1]
      exact .mid hge hle b d1 d2

theorem qval_between {cs : List (Cen α)} (hg : Good cs) {W : Nat} {r q : α}
    (h0 : 0 < cs.length) (h : QVal cs W r q) : M cs 0 ≤ q ∧ q ≤ M cs (cs.length - 1) := by
  cases h with
  | low _ => exact ⟨le_refl _, hg.sorted _ _ (by omega) (by omega)⟩
  | high _ => exact ⟨hg.sorted _ _ (by omega) (by omega), le_refl _⟩
  | @mid j _ _ hj h1 h2 =>
    have hb := quantileStep_between (weight := r * (W : α)) (wsf := C cs j) (c := at' cs j)
      (c' := at' cs (j + 1)) (hg.sorted j (j + 1) (by omega) hj) (hg.pos j (by omega))
      (hg.pos (j + 1) hj) h1 (by rw [C_next hj] at h2; exact h2)
    have h3 := hg.sorted 0 j (by omega) (by omega)
    have h4 := hg.sorted (j + 1) (cs.length - 1) (by omega) (by omega)
    exact ⟨le_trans h3 hb.1, le_trans hb.2 h4⟩

theorem quantile_spec (ln : α → α) {d : Digest α} {xs : List α} (h : Inv d xs) (hne : xs ≠ [])
    {r : α} (h0 : 0 ≤ r) (h1 : r ≤ 1) :
    ∃ e q, compress ln d = .ok e ∧ quantile ln d (.fin r) = .ok (e, .fin q) ∧ Flat e xs ∧
      ((∃ x, xs = [x] ∧ q = x) ∨ QVal e.centroids xs.length r q) := by
  obtain ⟨e, he, hi, hb, _⟩ := compress_inv ln h
  have hF := flat_of hi hb
  have hcne := flat_ne hF hne
  refine ⟨e, ?_⟩
  have hno : ¬ ((Fl.fin r).lt (.fin 0) = true ∨ (Fl.fin 1).lt (.fin r) = true) := by
    simp [Fl.lt, h0, h1]
  unfold quantile
  rw [if_neg (fun h0 => hne ((inv_empty_iff h).1 h0)), if_neg hno, he]
  simp only [Outcome.ok_bind]
  have hm := (M_first hF hcne).1
  have hx := (M_last hF hcne).1
  cases hc : e.centroids with
  | nil => exact absurd hc hcne
  | cons c cs =>
    cases cs with
    | nil =>
      refine ⟨c.mean, trivial, rfl, hF, Or.inl ?_⟩
      obtain ⟨x, hxs⟩ := inv_single hi (by rw [hc, hb]; rfl)
      have := (flat_first hF (by rw [hc]; rfl : e.centroids.head? = some c)).2.2.1
      rw [hxs] at this
      exact ⟨x, hxs, by simpa using this⟩
    | cons c' cs =>
      have hq := quantileMany_spec hF hc r
      rw [hm, hx]
      refine ⟨_, trivial, rfl, hF, Or.inr ?_⟩
      rw [← hF.cw, ← hc]
      exact hq

end Verif.TDigest
