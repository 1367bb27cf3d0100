import Verif.TDigestInv

/-!
# `Rank` of a t-digest: range and monotonicity
-/

namespace Verif.TDigest

set_option linter.unusedSectionVars false

variable {α : Type} [Field α] [LinearOrder α] [IsStrictOrderedRing α]

/-- Binary search on a predicate that is false up to some index and true from there on. -/
theorem search_spec (f : Nat → Outcome Bool) (p : Nat → Bool) (i j : Nat) (hij : i ≤ j)
    (hf : ∀ h, i ≤ h → h < j → f h = .ok (p h))
    (hp : ∀ h h', i ≤ h → h ≤ h' → h' < j → p h = true → p h' = true) :
    ∃ r, search f i j = .ok r ∧ i ≤ r ∧ r ≤ j ∧ (∀ h, i ≤ h → h < r → p h = false) ∧
      (∀ h, r ≤ h → h < j → p h = true) := by
  induction hn : j - i using Nat.strong_induction_on generalizing i j with
  | _ n ih =>
    rw [search]
    split
    · rename_i hlt
      have h1 : i ≤ (i + j) / 2 := by omega
      have h2 : (i + j) / 2 < j := by omega
      rw [hf _ h1 h2, Outcome.ok_bind]
      cases hb : p ((i + j) / 2) with
      | true =>
        obtain ⟨r, e, a, b, c, d⟩ := ih ((i + j) / 2 - i) (by omega) i ((i + j) / 2) h1
          (fun h x y => hf h x (by omega)) (fun h h' x y z => hp h h' x y (by omega)) rfl
        refine ⟨r, by simpa using e, a, by omega, c, fun h x y => ?_⟩
        by_cases hh : h < (i + j) / 2
        · exact d h x hh
        · exact hp _ h h1 (by omega) y hb
      | false =>
        obtain ⟨r, e, a, b, c, d⟩ := ih (j - ((i + j) / 2 + 1)) (by omega) ((i + j) / 2 + 1) j
          (by omega) (fun h x y => hf h (by omega) y)
          (fun h h' x y z => hp h h' (by omega) y z) rfl
        refine ⟨r, by simpa using e, by omega, b, fun h x y => ?_, d⟩
        by_cases hh : h < (i + j) / 2 + 1
        · by_contra hc
          have := hp h ((i + j) / 2) x (by omega) h2 (by simpa using hc)
          rw [hb] at this; simp at this
        · exact c h (by omega) y
    · exact ⟨i, rfl, le_refl _, hij, fun h x y => by omega, fun h x y => by omega⟩

/-- Mean at an index. -/
def M (cs : List (Cen α)) (i : Nat) : α := (cs.getD i ⟨0, 0⟩).mean
/-- Weight at an index. -/
def Wt (cs : List (Cen α)) (i : Nat) : Nat := (cs.getD i ⟨0, 0⟩).weight
/-- Weight before an index. -/
def S (cs : List (Cen α)) (i : Nat) : Nat := wsum (cs.take i)
/-- Weight up to the middle of the centroid at an index. -/
def C (cs : List (Cen α)) (i : Nat) : α := (S cs i : α) + (Wt cs i : α) / 2

theorem meanAt_ok {cs : List (Cen α)} {i : Nat} (h : i < cs.length) :
    meanAt cs i = .ok (M cs i) := by
  simp [meanAt, M, h]

theorem weightAt_ok {cs : List (Cen α)} {i : Nat} (h : i < cs.length) :
    weightAt cs i = .ok (Wt cs i : α) := by
  simp [weightAt, Wt, h]

theorem S_succ {cs : List (Cen α)} {i : Nat} (h : i < cs.length) :
    S cs (i + 1) = S cs i + Wt cs i := by
  unfold S
  rw [List.take_add_one, wsum_append]
  simp [Wt, h]

theorem S_zero (cs : List (Cen α)) : S cs 0 = 0 := by simp [S]

theorem S_length (cs : List (Cen α)) : S cs cs.length = wsum cs := by simp [S]

theorem sumWeights_go (cs : List (Cen α)) (n i : Nat) (acc : α) (h : i + n ≤ cs.length) :
    (List.range' i n).foldlM (fun acc t => weightAt cs t >>= fun w => .ok (acc + w)) acc
      = .ok (acc + ((S cs (i + n) : α) - (S cs i : α))) := by
  induction n generalizing i acc with
  | zero => simp
  | succ n ih =>
    rw [List.range'_succ, List.foldlM_cons, weightAt_ok (by omega)]
    simp only [Outcome.ok_bind]
    rw [ih _ _ (by omega), S_succ (show i < cs.length by omega), show i + 1 + n = i + (n + 1) by omega]
    push_cast
    congr 1
    ring

theorem sumWeights_ok (cs : List (Cen α)) {i j : Nat} (hij : i ≤ j) (h : j ≤ cs.length) :
    sumWeights cs i j = .ok ((S cs j : α) - (S cs i : α)) := by
  rw [sumWeights, sumWeights_go _ _ _ _ (by omega), show i + (j - i) = j by omega, zero_add]

/-- The means of the centroids do not decrease, the weights are positive. -/
structure Good (cs : List (Cen α)) : Prop where
  sorted : ∀ i j, i ≤ j → j < cs.length → M cs i ≤ M cs j
  pos : ∀ i, i < cs.length → 0 < Wt cs i

theorem good_of {cs : List (Cen α)} (hs : cs.Pairwise fun a b => a.mean ≤ b.mean)
    (hp : ∀ c ∈ cs, 0 < c.weight) : Good cs := by
  constructor
  · intro i j hij hj
    rcases Nat.lt_or_ge i j with h | h
    · have := List.pairwise_iff_getElem.1 hs i j (by omega) hj h
      simpa [M, hj, show i < cs.length by omega] using this
    · have : i = j := by omega
      subst this; exact le_refl _
  · intro i hi
    have := hp cs[i] (List.getElem_mem hi)
    simpa [Wt, hi] using this

theorem C_lt {cs : List (Cen α)} (hg : Good cs) {i : Nat} (h : i + 1 < cs.length) :
    C cs i < C cs (i + 1) := by
  have h1 : (0 : α) < Wt cs i := by exact_mod_cast hg.pos i (by omega)
  have h2 : (0 : α) < Wt cs (i + 1) := by exact_mod_cast hg.pos (i + 1) h
  rw [C, C, S_succ (by omega)]
  push_cast
  linarith

theorem C_mono {cs : List (Cen α)} (hg : Good cs) {i j : Nat} (hij : i ≤ j)
    (h : j < cs.length) : C cs i ≤ C cs j := by
  induction j with
  | zero => have : i = 0 := by omega
            subst this; exact le_refl _
  | succ j ih =>
    rcases Nat.lt_or_ge i (j + 1) with h' | h'
    · exact le_trans (ih (by omega) (by omega)) (C_lt hg h).le
    · have : i = j + 1 := by omega
      subst this; exact le_refl _

theorem C_pos {cs : List (Cen α)} (hg : Good cs) {i : Nat} (h : i < cs.length) : 0 < C cs i := by
  have h1 : (0 : α) < Wt cs i := by exact_mod_cast hg.pos i h
  have h2 : (0 : α) ≤ S cs i := Nat.cast_nonneg _
  rw [C]; linarith

theorem S_mono (cs : List (Cen α)) {i j : Nat} (hij : i ≤ j) : S cs i ≤ S cs j := by
  have : cs.take j = cs.take i ++ (cs.take j).drop i := by
    rw [show cs.take i = (cs.take j).take i by rw [List.take_take, min_eq_left hij]]
    exact (List.take_append_drop _ _).symm
  rw [S, S, this, wsum_append]; omega

theorem C_lt_total {cs : List (Cen α)} (hg : Good cs) {i : Nat} (h : i < cs.length) :
    C cs i < (wsum cs : α) := by
  have h1 : (0 : α) < Wt cs i := by exact_mod_cast hg.pos i h
  have h2 : S cs i + Wt cs i ≤ wsum cs := by
    rw [← S_succ h, ← S_length]; exact S_mono _ (by omega)
  have h3 : (S cs i : α) + (Wt cs i : α) ≤ (wsum cs : α) := by exact_mod_cast h2
  rw [C]; linarith

/-- Where a value lies among the means, and the weight `rankInner` gives it. -/
inductive Pos (cs : List (Cen α)) (v : α) : α → Prop where
  | hit {a b} : a ≤ b → b < cs.length → (∀ i, i < a → M cs i < v) →
      (∀ i, a ≤ i → i ≤ b → M cs i = v) → (∀ i, b < i → i < cs.length → v < M cs i) →
      Pos cs v ((C cs a + C cs b) / 2)
  | gap {a} : a + 1 < cs.length → (∀ i, i ≤ a → M cs i < v) →
      (∀ i, a < i → i < cs.length → v < M cs i) →
      Pos cs v (C cs a + (C cs (a + 1) - C cs a) * (v - M cs a) / (M cs (a + 1) - M cs a))

theorem rankInner_spec {cs : List (Cen α)} (hg : Good cs) (W : Nat) {v : α}
    (h0 : 0 < cs.length) (h1 : M cs 0 ≤ v) (h2 : v ≤ M cs (cs.length - 1)) :
    ∃ r, rankInner cs W v = .ok (r / (W : α)) ∧ Pos cs v r := by
  obtain ⟨lo, e1, -, b1, c1, d1⟩ := search_spec
    (fun i => meanAt cs i >>= fun m => .ok (decide (v ≤ m))) (fun i => decide (v ≤ M cs i))
    0 cs.length (Nat.zero_le _) (fun h _ hh => by simp [meanAt_ok hh])
    (fun h h' _ hh hl hpv => by
      simp only [decide_eq_true_eq] at hpv ⊢; exact le_trans hpv (hg.sorted h h' hh hl))
  obtain ⟨up, e2, -, b2, c2, d2⟩ := search_spec
    (fun i => meanAt cs i >>= fun m => .ok (decide (v < m))) (fun i => decide (v < M cs i))
    0 cs.length (Nat.zero_le _) (fun h _ hh => by simp [meanAt_ok hh])
    (fun h h' _ hh hl hpv => by
      simp only [decide_eq_true_eq] at hpv ⊢; exact lt_of_lt_of_le hpv (hg.sorted h h' hh hl))
  simp only [decide_eq_true_eq, decide_eq_false_iff_not, not_le, not_lt] at c1 d1 c2 d2
  have hlo : lo < cs.length := by
    by_contra hc
    exact absurd (c1 (cs.length - 1) (Nat.zero_le _) (by omega)) (not_lt.2 h2)
  have hup : 0 < up := by
    by_contra hc
    exact absurd (d2 0 (by omega) h0) (not_lt.2 h1)
  have hle : lo ≤ up := by
    by_contra hc
    exact absurd (d2 up (le_refl _) (by omega)) (not_lt.2 (c1 up (Nat.zero_le _) (by omega)).le)
  unfold rankInner
  rw [e1]
  simp only [Outcome.ok_bind]
  rw [if_neg (by omega), e2]
  simp only [Outcome.ok_bind]
  rw [if_neg (by omega), meanAt_ok hlo]
  simp only [Outcome.ok_bind]
  rcases Nat.lt_or_ge lo up with hlt | hge
  · -- the value is one of the means
    have hM : ∀ i, lo ≤ i → i ≤ up - 1 → M cs i = v := fun i x y =>
      le_antisymm (c2 i (Nat.zero_le _) (by omega)) (d1 i x (by omega))
    have hml := hM lo (le_refl _) (by omega)
    have hmu := hM (up - 1) (by omega) (le_refl _)
    have e3 : (if up = cs.length then Outcome.ok (up - 1) else meanAt cs (up - 1) >>= fun m =>
        .ok (if ¬ m < v then up - 1 else up)) = .ok (up - 1) := by
      split
      · rfl
      · rw [meanAt_ok (by omega), hmu]; simp
    have e4 : (if v < M cs lo ∧ 0 < lo then lo - 1 else lo) = lo := by
      rw [if_neg]; rw [hml]; simp
    rw [e3, e4]
    simp only [Outcome.ok_bind]
    rw [sumWeights_ok _ (Nat.zero_le _) (by omega), weightAt_ok hlo,
      sumWeights_ok _ (show lo ≤ up - 1 by omega) (by omega),
      weightAt_ok (show up - 1 < cs.length by omega), meanAt_ok hlo,
      meanAt_ok (show up - 1 < cs.length by omega)]
    simp only [Outcome.ok_bind]
    rw [hml, hmu, if_neg (by simp)]
    refine ⟨_, ?_, Pos.hit (show lo ≤ up - 1 by omega) (by omega)
      (fun i h => c1 i (Nat.zero_le _) h) hM (fun i h h' => d2 i (by omega) h')⟩
    congr 1
    rw [C, C, S_zero]
    push_cast
    ring
  · -- the value lies strictly between two means
    have hE : up = lo := by omega
    subst hE
    have hlt := d2 up (le_refl _) hlo
    have hprev := c1 (up - 1) (Nat.zero_le _) (by omega)
    have e3 : (if up = cs.length then Outcome.ok (up - 1) else meanAt cs (up - 1) >>= fun m =>
        .ok (if ¬ m < v then up - 1 else up)) = .ok up := by
      rw [if_neg (by omega), meanAt_ok (by omega)]; simp [hprev]
    have e4 : (if v < M cs up ∧ 0 < up then up - 1 else up) = up - 1 := if_pos ⟨hlt, hup⟩
    rw [e3, e4]
    simp only [Outcome.ok_bind]
    rw [sumWeights_ok _ (Nat.zero_le _) (by omega), weightAt_ok (show up - 1 < cs.length by omega),
      sumWeights_ok _ (show up - 1 ≤ up by omega) (by omega),
      weightAt_ok hlo, meanAt_ok (show up - 1 < cs.length by omega), meanAt_ok hlo]
    simp only [Outcome.ok_bind]
    rw [if_pos (by linarith)]
    obtain ⟨a, rfl⟩ : ∃ a, up = a + 1 := ⟨up - 1, by omega⟩
    simp only [Nat.add_sub_cancel] at *
    refine ⟨_, ?_, Pos.gap hlo (fun i h => c1 i (Nat.zero_le _) (by omega))
      (fun i h h' => d2 i (by omega) h')⟩
    congr 1
    rw [C, C, S_zero]
    push_cast
    ring

theorem gap_bounds {cs : List (Cen α)} (hg : Good cs) {v : α} {a : Nat} (h : a + 1 < cs.length)
    (h1 : M cs a < v) (h2 : v < M cs (a + 1)) :
    C cs a ≤ C cs a + (C cs (a + 1) - C cs a) * (v - M cs a) / (M cs (a + 1) - M cs a) ∧
    C cs a + (C cs (a + 1) - C cs a) * (v - M cs a) / (M cs (a + 1) - M cs a) ≤ C cs (a + 1) := by
  have hC := C_lt hg h
  have hd : 0 < M cs (a + 1) - M cs a := by linarith
  constructor
  · have : 0 ≤ (C cs (a + 1) - C cs a) * (v - M cs a) / (M cs (a + 1) - M cs a) :=
      div_nonneg (mul_nonneg (by linarith) (by linarith)) hd.le
    linarith
  · have : (C cs (a + 1) - C cs a) * (v - M cs a) / (M cs (a + 1) - M cs a)
        ≤ C cs (a + 1) - C cs a := by
      rw [div_le_iff₀ hd]
      exact mul_le_mul_of_nonneg_left (by linarith) (by linarith)
    linarith

theorem pos_range {cs : List (Cen α)} (hg : Good cs) {v r : α} (h : Pos cs v r) :
    0 < r ∧ r < (wsum cs : α) := by
  cases h with
  | hit hab hb _ _ _ =>
    have h1 := C_pos hg (show _ < cs.length from lt_of_le_of_lt hab hb)
    have h2 := C_pos hg hb
    have h3 := C_lt_total hg (show _ < cs.length from lt_of_le_of_lt hab hb)
    have h4 := C_lt_total hg hb
    constructor <;> linarith
  | @gap a ha h1 h2 =>
    obtain ⟨g1, g2⟩ := gap_bounds hg ha (h1 a (le_refl _)) (h2 (a + 1) (by omega) ha)
    exact ⟨lt_of_lt_of_le (C_pos hg (by omega)) g1, lt_of_le_of_lt g2 (C_lt_total hg ha)⟩

theorem pos_mono {cs : List (Cen α)} (hg : Good cs) {v v' r r' : α} (hv : v ≤ v')
    (h : Pos cs v r) (h' : Pos cs v' r') : r ≤ r' := by
  rcases eq_or_lt_of_le hv with rfl | hv
  · -- same value: same place
    cases h with
    | @hit a b hab hb l1 m1 g1 =>
      cases h' with
      | @hit a' b' hab' hb' l2 m2 g2 =>
        have ha : a = a' := by
          rcases Nat.lt_trichotomy a a' with h | h | h
          · exact absurd (m1 a (le_refl _) hab) (ne_of_lt (l2 a h))
          · exact h
          · exact absurd (m2 a' (le_refl _) hab') (ne_of_lt (l1 a' h))
        have hb : b = b' := by
          rcases Nat.lt_trichotomy b b' with h | h | h
          · exact absurd (m2 b' hab' (le_refl _)) (ne_of_gt (g1 b' h hb'))
          · exact h
          · exact absurd (m1 b hab (le_refl _)) (ne_of_gt (g2 b h hb))
        subst ha hb; exact le_refl _
      | @gap a' ha' l2 g2 =>
        exfalso
        have := m1 a (le_refl _) hab
        rcases Nat.lt_or_ge a' a with h | h
        · exact absurd this (ne_of_gt (g2 a h (lt_of_le_of_lt hab hb)))
        · exact absurd this (ne_of_lt (l2 a h))
    | @gap a ha l1 g1 =>
      cases h' with
      | @hit a' b' hab' hb' l2 m2 g2 =>
        exfalso
        have := m2 a' (le_refl _) hab'
        rcases Nat.lt_or_ge a a' with h | h
        · exact absurd this (ne_of_gt (g1 a' h (lt_of_le_of_lt hab' hb')))
        · exact absurd this (ne_of_lt (l1 a' h))
      | @gap a' ha' l2 g2 =>
        have ha : a = a' := by
          rcases Nat.lt_trichotomy a a' with h | h | h
          · exact absurd (g1 a' h (by omega)) (not_lt.2 (l2 a' (le_refl _)).le)
          · exact h
          · exact absurd (g2 a h (by omega)) (not_lt.2 (l1 a (le_refl _)).le)
        subst ha; exact le_refl _
  · cases h with
    | @hit a b hab hb l1 m1 g1 =>
      have hlow : (C cs a + C cs b) / 2 ≤ C cs b := by
        have := C_mono hg hab hb; linarith
      have hmb := m1 b hab (le_refl _)
      cases h' with
      | @hit a' b' hab' hb' l2 m2 g2 =>
        have hbb : b < a' := by
          by_contra hc
          have h3 := m2 a' (le_refl _) hab'
          have h4 := hg.sorted a' b (by omega) hb
          rw [h3, hmb] at h4
          exact absurd hv (not_lt.2 h4)
        have h5 := C_mono hg hbb.le (lt_of_le_of_lt hab' hb')
        have h6 := C_mono hg hab' hb'
        linarith
      | @gap a' ha' l2 g2 =>
        have hbb : b ≤ a' := by
          by_contra hc
          have := g2 b (by omega) hb
          rw [hmb] at this
          exact absurd hv (not_lt.2 this.le)
        have h5 := C_mono hg hbb (by omega)
        have h6 := (gap_bounds hg ha' (l2 a' (le_refl _)) (g2 (a' + 1) (by omega) ha')).1
        linarith
    | @gap a ha l1 g1 =>
      have hup := (gap_bounds hg ha (l1 a (le_refl _)) (g1 (a + 1) (by omega) ha)).2
      cases h' with
      | @hit a' b' hab' hb' l2 m2 g2 =>
        have haa : a < a' := by
          by_contra hc
          have h3 := m2 a' (le_refl _) hab'
          have h4 := l1 a' (by omega)
          rw [h3] at h4
          exact absurd hv (not_lt.2 h4.le)
        have h5 := C_mono hg (show a + 1 ≤ a' from haa) (lt_of_le_of_lt hab' hb')
        have h6 := C_mono hg hab' hb'
        linarith
      | @gap a' ha' l2 g2 =>
        have haa : a ≤ a' := by
          by_contra hc
          exact absurd (g2 a (by omega) (by omega)) (not_lt.2 (le_trans (l1 a (le_refl _)).le hv.le))
        rcases Nat.lt_or_ge a a' with h | h
        · have h5 := C_mono hg (show a + 1 ≤ a' from h) (by omega)
          have h6 := (gap_bounds hg ha' (l2 a' (le_refl _)) (g2 (a' + 1) (by omega) ha')).1
          linarith
        · have : a = a' := by omega
          subst this
          have hC := C_lt hg ha
          have h1 := l1 a (le_refl _)
          have h2 := g1 (a + 1) (by omega) ha
          have hd : 0 < M cs (a + 1) - M cs a := by linarith
          have : (C cs (a + 1) - C cs a) * (v - M cs a) / (M cs (a + 1) - M cs a)
              ≤ (C cs (a + 1) - C cs a) * (v' - M cs a) / (M cs (a + 1) - M cs a) := by
            rw [div_le_div_iff_of_pos_right hd]
            exact mul_le_mul_of_nonneg_left (by linarith) (by linarith)
          linarith

end Verif.TDigest
