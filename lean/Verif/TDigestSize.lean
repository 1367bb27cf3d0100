import Mathlib.Analysis.SpecialFunctions.Log.Basic
import Mathlib.Analysis.Complex.ExponentialBounds
import Verif.TDigestExact

/-!
# The number of centroids of a t-digest

Two adjacent centroids (other than the first two and the last two) could not be merged into one, so
together they cover a certain amount of the logit scale `log (q / (1 - q))`; the whole scale between
`1/n` and `1 - 1/n` has length `2 log (n - 1)`.
-/

namespace Verif.TDigest

set_option linter.unusedSectionVars false

section generic
variable {α : Type} [Field α] [LinearOrder α] [IsStrictOrderedRing α]

/-- The first centroid of the output is at least as heavy as the current one. -/
theorem loop_head_weight (ok : α → α → Bool) (n i) (cur : Cen α) (wsf) (l) :
    cur.weight ≤ Wt (mergeLoop ok n i cur wsf l) 0 := by
  induction l generalizing i cur wsf with
  | nil => simp [mergeLoop, Wt]
  | cons b bs ih =>
    rw [mergeLoop]
    split
    · have := ih (i + 1) (cur.add b) wsf
      simp only [add_weight] at this; omega
    · simp [Wt]

theorem S_cons (c : Cen α) (l : List (Cen α)) (j : Nat) : S (c :: l) (j + 1) = c.weight + S l j := by
  simp [S]

/-- Every adjacent pair of the output, except the first and the last, was refused by the size
    limit. -/
theorem loop_refused (ok : α → α → Bool) (n i) (cur : Cen α) (wsf) (l) (hn : n = i + l.length)
    (j : Nat) (h1 : i = 1 → 1 ≤ j) (h2 : j + 2 < (mergeLoop ok n i cur wsf l).length) (hi : 1 ≤ i) :
    ∃ bw, bw ≤ Wt (mergeLoop ok n i cur wsf l) (j + 1) ∧
      ok (wsf + (S (mergeLoop ok n i cur wsf l) j : α))
        ((Wt (mergeLoop ok n i cur wsf l) j : α) + (bw : α)) = false := by
  induction l generalizing i cur wsf j with
  | nil => simp [mergeLoop] at h2
  | cons b bs ih =>
    simp only [List.length_cons] at hn
    rw [mergeLoop] at h2 ⊢
    split at h2
    · rename_i hc
      rw [if_pos hc]
      exact ih (i + 1) (cur.add b) wsf (by omega) j (by omega) h2 (by omega)
    · rename_i hc
      rw [if_neg hc]
      cases j with
      | zero =>
        have hi1 : i ≠ 1 := by intro h; have := h1 h; omega
        have hbs : bs ≠ [] := by
          rintro rfl
          simp [mergeLoop] at h2
        have hlast : i ≠ n - 1 := by
          have := List.length_pos_iff.2 hbs; omega
        refine ⟨b.weight, ?_, ?_⟩
        · have := loop_head_weight ok n (i + 1) b (wsf + (cur.weight : α)) bs
          simpa [Wt] using this
        · rw [S_zero]
          simp only [Nat.cast_zero, add_zero]
          by_contra hne
          exact hc ⟨hi1, hlast, by simpa [Wt] using hne⟩
      | succ j =>
        simp only [List.length_cons] at h2
        obtain ⟨bw, hb1, hb2⟩ := ih (i + 1) b (wsf + (cur.weight : α)) (by omega) j (by omega)
          (by omega) (by omega)
        refine ⟨bw, by simpa [Wt] using hb1, ?_⟩
        rw [S_cons]
        push_cast
        rw [← add_assoc]
        simpa [Wt] using hb2

end generic

/-! ### The logit scale -/

/-- `log (q / (1 - q))`. -/
noncomputable def logit (q : ℝ) : ℝ := Real.log q - Real.log (1 - q)

theorem logit_mono {a b : ℝ} (ha : 0 < a) (hab : a ≤ b) (hb : b < 1) : logit a ≤ logit b := by
  unfold logit
  have h1 := Real.log_le_log ha hab
  have h2 := Real.log_le_log (show 0 < 1 - b by linarith) (show 1 - b ≤ 1 - a by linarith)
  linarith

/-- A step that the size limit refuses covers at least `1/(N+1)` of the logit scale. -/
theorem logit_step {a b N : ℝ} (ha : 0 < a) (hab : a < b) (hb : b < 1) (hN : 0 < N)
    (h : min (a * (1 - a)) (b * (1 - b)) < N * (b - a)) : 1 / (N + 1) ≤ logit b - logit a := by
  have h1a : 0 < 1 - a := by linarith
  have h1b : 0 < 1 - b := by linarith
  have hb0 : 0 < b := by linarith
  have hkey : b * (1 - a) ≤ (N + 1) * (b - a) := by
    rcases min_lt_iff.1 h with h | h
    · have e : b * (1 - a) = a * (1 - a) + (b - a) * (1 - a) := by ring
      have : (b - a) * (1 - a) ≤ (b - a) * 1 := mul_le_mul_of_nonneg_left (by linarith) (by linarith)
      linarith
    · have e : b * (1 - a) = b * (1 - b) + (b - a) * b := by ring
      have : (b - a) * b ≤ (b - a) * 1 := mul_le_mul_of_nonneg_left (by linarith) (by linarith)
      linarith
  have e : logit b - logit a = - Real.log (a * (1 - b) / (b * (1 - a))) := by
    unfold logit
    rw [Real.log_div (by positivity) (by positivity), Real.log_mul (by positivity) (by positivity),
      Real.log_mul (by positivity) (by positivity)]
    ring
  have hlog := Real.log_le_sub_one_of_pos (show 0 < a * (1 - b) / (b * (1 - a)) by positivity)
  rw [e]
  have : 1 / (N + 1) ≤ 1 - a * (1 - b) / (b * (1 - a)) := by
    rw [show 1 - a * (1 - b) / (b * (1 - a)) = (b - a) / (b * (1 - a)) by field_simp; ring,
      div_le_div_iff₀ (by linarith) (by positivity)]
    linarith
  linarith

/-! ### Counting the centroids -/

/-- The normalizer `2k/z` of the scale function for total weight `W`. -/
noncomputable def normN (k W : Nat) : ℝ := sfNormalizer Real.log (2 * (k : ℝ)) (W : ℝ)

theorem refused_step {k W : Nat} (hN : 0 < normN k W) {s p : ℝ} (hs : 0 < s) (hp : 0 < p)
    (hsp : s + p < (W : ℝ)) (h : addThis Real.log k W s p = false) :
    1 / (normN k W + 1) ≤ logit ((s + p) / (W : ℝ)) - logit (s / (W : ℝ)) := by
  have hW : (0 : ℝ) < (W : ℝ) := by linarith
  unfold addThis at h
  simp only [decide_eq_false_iff_not, not_le] at h
  change (W : ℝ) * min (sfMax (s / W) (normN k W)) (sfMax ((s + p) / W) (normN k W)) < p at h
  have ha : 0 < s / (W : ℝ) := by positivity
  have hab : s / (W : ℝ) < (s + p) / (W : ℝ) := by
    rw [div_lt_div_iff_of_pos_right hW]; linarith
  have hb : (s + p) / (W : ℝ) < 1 := by rw [div_lt_one hW]; exact hsp
  refine logit_step ha hab hb hN ?_
  have hdiff : (s + p) / (W : ℝ) - s / (W : ℝ) = p / (W : ℝ) := by ring
  rw [hdiff]
  unfold sfMax at h
  rw [min_div_div_right hN.le, mul_div_assoc', div_lt_iff₀ hN] at h
  rw [mul_div_assoc', lt_div_iff₀ hW]
  linarith

/-- What the size limit guarantees of a list of centroids (in the direction of the merge). -/
theorem count_bound {k W : Nat} (hN : 0 < normN k W) {o : List (Cen ℝ)} (hpos : ∀ c ∈ o, 0 < c.weight)
    (hw : wsum o = W) (hlen : 2 ≤ o.length)
    (href : ∀ j, 1 ≤ j → j + 2 < o.length → ∃ bw, bw ≤ Wt o (j + 1) ∧
      addThis Real.log k W (S o j : ℝ) ((Wt o j : ℝ) + (bw : ℝ)) = false) :
    (o.length : ℝ) ≤ 4 * (normN k W + 1) * Real.log W + 3 := by
  have hWt : ∀ i, i < o.length → 0 < Wt o i := by
    intro i hi
    have := hpos o[i] (List.getElem_mem hi)
    simpa [Wt, hi] using this
  have hS1 : 1 ≤ S o 1 := by
    have h1 : S o 1 = S o 0 + Wt o 0 := S_succ (by omega)
    have := hWt 0 (by omega); omega
  have hSlast : ∀ i, i < o.length → S o i + 1 ≤ W := by
    intro i hi
    have h1 := S_succ (cs := o) hi
    have h2 := hWt i hi
    have h3 := S_mono o (show i + 1 ≤ o.length by omega)
    rw [S_length, hw] at h3
    omega
  have hW1 : 2 ≤ W := by have := hSlast 1 (by omega); omega
  have hWr : (0 : ℝ) < (W : ℝ) := by exact_mod_cast (by omega : 0 < W)
  -- every second centroid
  have hstep : ∀ t, 1 + 2 * t < o.length →
      (t : ℝ) * (1 / (normN k W + 1)) ≤ logit ((S o (1 + 2 * t) : ℝ) / W) - logit ((S o 1 : ℝ) / W) := by
    intro t
    induction t with
    | zero => intro _; simp
    | succ t ih =>
      intro ht
      have h1 := ih (by omega)
      obtain ⟨bw, hb1, hb2⟩ := href (1 + 2 * t) (by omega) (by omega)
      have hsj : 1 ≤ S o (1 + 2 * t) := le_trans hS1 (S_mono _ (by omega))
      have hwj := hWt (1 + 2 * t) (by omega)
      have e1 := S_succ (cs := o) (i := 1 + 2 * t) (by omega)
      have e2 := S_succ (cs := o) (i := 1 + 2 * t + 1) (by omega)
      have hl := hSlast (1 + 2 * (t + 1)) ht
      rw [show 1 + 2 * (t + 1) = 1 + 2 * t + 1 + 1 by omega] at hl ⊢
      have hle : S o (1 + 2 * t) + (Wt o (1 + 2 * t) + bw) ≤ S o (1 + 2 * t + 1 + 1) := by omega
      have hler : (S o (1 + 2 * t) : ℝ) + ((Wt o (1 + 2 * t) : ℝ) + (bw : ℝ))
          ≤ (S o (1 + 2 * t + 1 + 1) : ℝ) := by exact_mod_cast hle
      have hlr : (S o (1 + 2 * t + 1 + 1) : ℝ) + 1 ≤ (W : ℝ) := by exact_mod_cast hl
      have hsr : (1 : ℝ) ≤ (S o (1 + 2 * t) : ℝ) := by exact_mod_cast hsj
      have hwr : (1 : ℝ) ≤ (Wt o (1 + 2 * t) : ℝ) := by exact_mod_cast hwj
      have hbr : (0 : ℝ) ≤ (bw : ℝ) := Nat.cast_nonneg _
      have h2 := refused_step hN (show (0 : ℝ) < (S o (1 + 2 * t) : ℝ) by linarith)
        (show (0 : ℝ) < (Wt o (1 + 2 * t) : ℝ) + (bw : ℝ) by linarith) (by linarith) hb2
      have h3 : logit (((S o (1 + 2 * t) : ℝ) + ((Wt o (1 + 2 * t) : ℝ) + (bw : ℝ))) / W)
          ≤ logit ((S o (1 + 2 * t + 1 + 1) : ℝ) / W) := by
        refine logit_mono (by positivity) ?_ ?_
        · rw [div_le_div_iff_of_pos_right hWr]; exact hler
        · rw [div_lt_one hWr]; linarith
      push_cast
      linarith
  obtain ⟨t, ht⟩ : ∃ t, t = (o.length - 2) / 2 := ⟨_, rfl⟩
  have hs := hstep t (by omega)
  have hlast := hSlast (1 + 2 * t) (by omega)
  have hsj : 1 ≤ S o (1 + 2 * t) := le_trans hS1 (S_mono _ (by omega))
  -- the ends of the scale
  have hWm : (0 : ℝ) < (W : ℝ) - 1 := by
    have : (2 : ℝ) ≤ (W : ℝ) := by exact_mod_cast hW1
    linarith
  have hup : logit ((S o (1 + 2 * t) : ℝ) / W) ≤ Real.log W := by
    have hlr : (S o (1 + 2 * t) : ℝ) + 1 ≤ (W : ℝ) := by exact_mod_cast hlast
    have hsr : (1 : ℝ) ≤ (S o (1 + 2 * t) : ℝ) := by exact_mod_cast hsj
    have h1 : logit ((S o (1 + 2 * t) : ℝ) / W) ≤ logit (((W : ℝ) - 1) / W) := by
      refine logit_mono (by positivity) ?_ ?_
      · rw [div_le_div_iff_of_pos_right hWr]; linarith
      · rw [div_lt_one hWr]; linarith
    refine h1.trans ?_
    unfold logit
    rw [show 1 - ((W : ℝ) - 1) / W = 1 / W by field_simp; ring, Real.log_div hWm.ne' hWr.ne',
      Real.log_div one_ne_zero hWr.ne', Real.log_one]
    have := Real.log_le_log hWm (show (W : ℝ) - 1 ≤ W by linarith)
    linarith
  have hlo : - Real.log W ≤ logit ((S o 1 : ℝ) / W) := by
    have hS1r : (1 : ℝ) ≤ (S o 1 : ℝ) := by exact_mod_cast hS1
    have hl1 : (S o 1 : ℝ) + 1 ≤ (W : ℝ) := by exact_mod_cast hSlast 1 (by omega)
    have h1 : logit (1 / (W : ℝ)) ≤ logit ((S o 1 : ℝ) / W) := by
      refine logit_mono (by positivity) ?_ ?_
      · rw [div_le_div_iff_of_pos_right hWr]; exact hS1r
      · rw [div_lt_one hWr]; linarith
    refine le_trans ?_ h1
    unfold logit
    rw [show 1 - 1 / (W : ℝ) = ((W : ℝ) - 1) / W by field_simp, Real.log_div hWm.ne' hWr.ne',
      Real.log_div one_ne_zero hWr.ne', Real.log_one]
    have := Real.log_le_log hWm (show (W : ℝ) - 1 ≤ W by linarith)
    linarith
  have hN1 : 0 < normN k W + 1 := by linarith
  have hfin : (t : ℝ) ≤ 2 * (normN k W + 1) * Real.log W := by
    have : (t : ℝ) * (1 / (normN k W + 1)) ≤ 2 * Real.log W := by linarith
    rw [mul_one_div, div_le_iff₀ hN1] at this
    linarith
  have hlen' : o.length ≤ 2 * t + 3 := by omega
  have : (o.length : ℝ) ≤ 2 * (t : ℝ) + 3 := by exact_mod_cast hlen'
  linarith

/-- The bound for the list of centroids computed by a merge. -/
theorem mergeCens_count {k W : Nat} {rev : Bool} {L : List (Cen ℝ)} (hpos : ∀ c ∈ L, 0 < c.weight)
    (hw : wsum L = W) (hN : 0 < normN k W)
    (hlen : 2 ≤ (mergeCens Real.log k rev W L).length) :
    ((mergeCens Real.log k rev W L).length : ℝ) ≤ 4 * (normN k W + 1) * Real.log W + 3 := by
  unfold mergeCens at hlen ⊢
  obtain ⟨s, hs⟩ : ∃ s, s = (if rev = true then (sortCens L).reverse else sortCens L) := ⟨_, rfl⟩
  dsimp only at hlen ⊢
  rw [← hs] at hlen ⊢
  have hperm : s.Perm L := by
    rw [hs]
    split
    · exact (List.reverse_perm _).trans (sort_perm L)
    · exact sort_perm L
  cases s with
  | nil => simp at hlen
  | cons b bs =>
    dsimp only at hlen ⊢
    have hb : 0 < b.weight := hpos b (hperm.mem_iff.1 (by simp))
    have hbs : ∀ c ∈ bs, 0 < c.weight := fun c h => hpos c (hperm.mem_iff.1 (by simp [h]))
    have hlen2 : (if rev = true then (mergeLoop (addThis Real.log k W) (b :: bs).length 1 b 0 bs).reverse
        else mergeLoop (addThis Real.log k W) (b :: bs).length 1 b 0 bs).length
        = (mergeLoop (addThis Real.log k W) (b :: bs).length 1 b 0 bs).length := by
      split <;> simp
    rw [hlen2] at hlen ⊢
    refine count_bound hN (loop_pos _ _ _ _ _ _ hb hbs) ?_ hlen ?_
    · rw [loop_wsum, ← hw, ← wsum_perm hperm]; simp
    · intro j h1 h2
      obtain ⟨bw, hb1, hb2⟩ := loop_refused (addThis Real.log k W) (b :: bs).length 1 b 0 bs
        (by simp; omega) j (fun _ => h1) h2 (le_refl _)
      exact ⟨bw, hb1, by simpa using hb2⟩

/-- Arithmetic: `4 (N+1) log W ≤ 4k + 4 log W` for every `k` a `uint16` can hold, and
    `≤ 2k + 4 log W` for `k ≤ 200`. -/
theorem bound_simplify {k W : Nat} (hk : 1 ≤ k) (hW : 2 * k ≤ W) {B : ℝ} (hB : 1 ≤ B)
    (h6 : Real.log (2 * (k : ℝ)) ≤ 6 * B) :
    0 < normN k W ∧ 4 * (normN k W + 1) * Real.log W ≤ 2 * (k : ℝ) * B + 4 * Real.log W := by
  have hkr : (1 : ℝ) ≤ (k : ℝ) := by exact_mod_cast hk
  have hWr : 2 * (k : ℝ) ≤ (W : ℝ) := by exact_mod_cast hW
  have h2k : (0 : ℝ) < 2 * (k : ℝ) := by linarith
  have hW0 : (0 : ℝ) < (W : ℝ) := by linarith
  have hlog : Real.log ((W : ℝ) / (2 * (k : ℝ))) = Real.log W - Real.log (2 * (k : ℝ)) :=
    Real.log_div hW0.ne' h2k.ne'
  have hge : 0 ≤ Real.log W - Real.log (2 * (k : ℝ)) := by
    have := Real.log_le_log h2k hWr; linarith
  have hz : 0 < 4 * (Real.log W - Real.log (2 * (k : ℝ))) + 24 := by linarith
  have e : normN k W = 2 * (k : ℝ) / (4 * (Real.log W - Real.log (2 * (k : ℝ))) + 24) := by
    unfold normN sfNormalizer sfZ; rw [hlog]
  rw [e]
  refine ⟨by positivity, ?_⟩
  have : 2 * (k : ℝ) / (4 * (Real.log W - Real.log (2 * (k : ℝ))) + 24) * (4 * Real.log W)
      ≤ 2 * (k : ℝ) * B := by
    rw [div_mul_eq_mul_div, div_le_iff₀ hz, mul_assoc (2 * (k : ℝ)) B]
    refine mul_le_mul_of_nonneg_left ?_ h2k.le
    nlinarith
  linarith

/-- The bound on the number of centroids. -/
def Fits (d : Digest ℝ) : Prop :=
  ∀ B : ℝ, 1 ≤ B → Real.log (2 * (d.k : ℝ)) ≤ 6 * B →
    (d.centroids.length : ℝ) ≤ 2 * (d.k : ℝ) * B + 4 * Real.log d.cw + 3

theorem length_le_wsum {o : List (Cen ℝ)} (hpos : ∀ c ∈ o, 0 < c.weight) : o.length ≤ wsum o := by
  induction o with
  | nil => simp
  | cons c o ih =>
    have h1 := hpos c (by simp)
    have h2 := ih fun c h => hpos c (by simp [h])
    simp only [List.length_cons, wsum, List.map_cons, List.sum_cons] at h2 ⊢
    omega

theorem log_nat_nonneg (n : Nat) : 0 ≤ Real.log (n : ℝ) := Real.log_natCast_nonneg n

theorem merge_fits {d d' : Digest ℝ} {xs : List ℝ} (h : Inv d xs) (B : List (Cen ℝ)) {zs : List ℝ}
    (hB : Sums B zs) (hI : ∃ ws, Inv d' ws)
    (hm : merge Real.log d (singles d.buffer ++ B) (d.buffer.length + zs.length) = .ok d') :
    Fits d' := by
  obtain ⟨ys, hp, hS, hw⟩ := h.split
  obtain ⟨ws, hI⟩ := hI
  obtain ⟨us, hp', hS', hw'⟩ := hI.split
  obtain ⟨L, hL⟩ : ∃ L, L = singles d.buffer ++ B ++ d.centroids := ⟨_, rfl⟩
  have hSL : Sums L (d.buffer ++ zs ++ ys) := hL ▸
    sums_append (sums_append (sums_singles _) hB) hS
  have hk10 := h.k
  have hsh : d'.k = d.k ∧ d'.cw = wsum L ∧
      d'.centroids = mergeCens Real.log d.k d.rev (wsum L) L := by
    have hW : d.cw + (d.buffer.length + zs.length) = wsum L := by
      rw [hSL.w, hw]; simp only [List.length_append]; omega
    unfold merge at hm
    rw [← hL, hW] at hm
    unfold mergeCens
    dsimp only at hm ⊢
    cases hs : (if d.rev = true then (sortCens L).reverse else sortCens L) with
    | nil => rw [hs] at hm; simp at hm
    | cons b bs =>
      rw [hs] at hm
      dsimp only at hm ⊢
      split at hm
      · simp only [Outcome.ok.injEq] at hm; rw [← hm]; exact ⟨rfl, rfl, rfl⟩
      · simp at hm
  obtain ⟨ek, ew, ec⟩ := hsh
  intro C hC h6
  rw [ek] at h6 ⊢
  have hkr : (10 : ℝ) ≤ (d.k : ℝ) := by exact_mod_cast hk10
  have hl0 := log_nat_nonneg d'.cw
  have hkC : 2 * (d.k : ℝ) ≤ 2 * (d.k : ℝ) * C := by nlinarith
  by_cases hW : 2 * d.k ≤ wsum L
  · obtain ⟨hN, hb⟩ := bound_simplify (by omega) hW hC h6
    by_cases h2 : 2 ≤ (mergeCens Real.log d.k d.rev (wsum L) L).length
    · have := mergeCens_count hSL.pos rfl hN h2
      rw [ec, ew]
      linarith
    · have h1 : d'.centroids.length ≤ 1 := by rw [ec]; omega
      have h1' : (d'.centroids.length : ℝ) ≤ 1 := by exact_mod_cast h1
      linarith
  · have h1 : d'.centroids.length ≤ 2 * d.k := by
      have := length_le_wsum hS'.pos
      rw [hS'.w, ← hw', ew] at this
      omega
    have h1' : (d'.centroids.length : ℝ) ≤ 2 * (d.k : ℝ) := by exact_mod_cast h1
    linarith

theorem compress_fits {d d' : Digest ℝ} {xs : List ℝ} (h : Inv d xs) (hf : Fits d)
    (hm : compress Real.log d = .ok d') : Fits d' := by
  obtain ⟨e, he, hI, -⟩ := compress_inv Real.log h
  rw [hm] at he; cases he
  unfold compress at hm
  split at hm
  · cases hm; exact hf
  · exact merge_fits h [] (zs := []) sums_nil ⟨_, hI⟩ (by simpa using hm)

theorem built_fits {d : Digest ℝ} {xs : List ℝ} (h : Built Real.log d xs) : Fits d := by
  induction h with
  | new h =>
    unfold newDouble at h
    split at h
    · simp at h
    · cases h
      intro B hB h6
      simp
      positivity
  | @update d xs d' x hb h ih =>
    have hI := built_inv hb
    unfold update at h
    rw [Outcome.bind_eq_ok] at h
    obtain ⟨e, he, h⟩ := h
    have : Fits e := by
      split at he
      · exact compress_fits hI ih he
      · cases he; exact ih
    simp only [Outcome.ok.injEq] at h
    rw [← h]
    exact this
  | @merge d o xs zs d' hd ho h ih1 ih2 =>
    have hI := built_inv hd
    have hJ := built_inv ho
    have hB := built_inv (Built.merge hd ho h)
    unfold mergeWith at h
    split at h
    · simp at h
    · obtain ⟨ys, hp, hS, hw⟩ := hJ.split
      rw [inv_total hJ, List.append_assoc] at h
      refine merge_fits hI (singles o.buffer ++ o.centroids) (zs := zs) ?_ ⟨_, hB⟩ h
      exact sums_perm (sums_append (sums_singles o.buffer) hS) (List.Perm.refl _)
        (List.perm_append_comm.trans hp)
  | compress hb h ih => exact compress_fits (built_inv hb) ih h

theorem log_small : Real.log 400 ≤ 6 := by
  rw [Real.log_le_iff_le_exp (by norm_num)]
  have h := Real.exp_one_gt_d9
  have h6 : Real.exp 6 = Real.exp 1 ^ 6 := by rw [← Real.exp_nat_mul]; norm_num
  rw [h6]
  calc (400 : ℝ) ≤ 2.7182818283 ^ 6 := by norm_num
    _ ≤ Real.exp 1 ^ 6 := by gcongr

theorem log_large : Real.log 131072 ≤ 12 := by
  rw [Real.log_le_iff_le_exp (by norm_num)]
  have h := Real.exp_one_gt_d9
  have h6 : Real.exp 12 = Real.exp 1 ^ 12 := by rw [← Real.exp_nat_mul]; norm_num
  rw [h6]
  calc (131072 : ℝ) ≤ 2.7182818283 ^ 12 := by norm_num
    _ ≤ Real.exp 1 ^ 12 := by gcongr

theorem built_count {d : Digest ℝ} {xs : List ℝ} (h : Built Real.log d xs) :
    (d.k ≤ 200 → (d.centroids.length : ℝ) ≤ 2 * d.k + 4 * Real.log xs.length + 3) ∧
    (d.k < 2 ^ 16 → (d.centroids.length : ℝ) ≤ 4 * d.k + 4 * Real.log xs.length + 3) := by
  have hI := built_inv h
  have hf := built_fits h
  obtain ⟨ys, hp, hS, hw⟩ := hI.split
  have hle : Real.log d.cw ≤ Real.log xs.length := by
    have h1 : d.cw ≤ xs.length := by
      rw [hw, ← hp.length_eq, List.length_append]; omega
    rcases Nat.eq_zero_or_pos d.cw with h0 | h0
    · rw [h0]; simpa using log_nat_nonneg xs.length
    · exact Real.log_le_log (by exact_mod_cast h0) (by exact_mod_cast h1)
  have hk := hI.k
  have hk0 : (0 : ℝ) < 2 * (d.k : ℝ) := by
    have : (10 : ℝ) ≤ (d.k : ℝ) := by exact_mod_cast hk
    linarith
  constructor
  · intro h2
    have h2' : (d.k : ℝ) ≤ 200 := by exact_mod_cast h2
    have := hf 1 le_rfl (by
      have := Real.log_le_log hk0 (show 2 * (d.k : ℝ) ≤ 400 by linarith)
      have := log_small
      linarith)
    linarith
  · intro h2
    have h2' : (d.k : ℝ) ≤ 65536 := by
      have : d.k ≤ 65536 := by omega
      exact_mod_cast this
    have := hf 2 (by norm_num) (by
      have := Real.log_le_log hk0 (show 2 * (d.k : ℝ) ≤ 131072 by linarith)
      have := log_large
      linarith)
    linarith

end Verif.TDigest
