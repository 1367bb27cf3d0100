import Verif.KllProps
import Mathlib.Analysis.SpecialFunctions.Pow.Real

/-!
# The rank error a KLL sketch announces

`GetNormalizedRankError` of kll/items_sketch.go over the reals (rounding is not modelled), and what
the calls do to the field it is computed from.
-/

namespace Verif.Kll

open Verif

variable {α : Type}

/-- kll/utils.go:118-123 with the constants of l.31-34 -/
noncomputable def normalizedRankError (k : Nat) (pmf : Bool) : ℝ :=
  if pmf then 2.446 / (k : ℝ) ^ (0.9433 : ℝ) else 2.296 / (k : ℝ) ^ (0.9723 : ℝ)

/-- kll/items_sketch.go:408-410 -/
noncomputable def getNormalizedRankError (s : Sketch α) (pmf : Bool) : ℝ :=
  normalizedRankError s.minK pmf

/-! ## The formula -/

theorem nre_anti {k k' : Nat} (h0 : 0 < k) (h : k < k') (pmf : Bool) :
    normalizedRankError k' pmf < normalizedRankError k pmf := by
  have h0' : (0 : ℝ) < k := by exact_mod_cast h0
  have h' : (k : ℝ) < k' := by exact_mod_cast h
  unfold normalizedRankError
  cases pmf
  · simp only [Bool.false_eq_true, if_false]
    exact div_lt_div_of_pos_left (by norm_num) (Real.rpow_pos_of_pos h0' _)
      (Real.rpow_lt_rpow h0'.le h' (by norm_num))
  · simp only [if_true]
    exact div_lt_div_of_pos_left (by norm_num) (Real.rpow_pos_of_pos h0' _)
      (Real.rpow_lt_rpow h0'.le h' (by norm_num))

theorem nre_anti_le {k k' : Nat} (h0 : 0 < k) (h : k ≤ k') (pmf : Bool) :
    normalizedRankError k' pmf ≤ normalizedRankError k pmf := by
  rcases Nat.lt_or_eq_of_le h with h | h
  · exact (nre_anti h0 h pmf).le
  · rw [h]

theorem nre_min {k k' : Nat} (h0 : 0 < k) (h0' : 0 < k') (pmf : Bool) :
    normalizedRankError (min k k') pmf =
      max (normalizedRankError k pmf) (normalizedRankError k' pmf) := by
  rcases Nat.le_total k k' with h | h
  · rw [Nat.min_eq_left h, max_eq_left (nre_anti_le h0 h pmf)]
  · rw [Nat.min_eq_right h, max_eq_right (nre_anti_le h0' h pmf)]

theorem nre_pos {k : Nat} (h0 : 0 < k) (pmf : Bool) : 0 < normalizedRankError k pmf := by
  have h0' : (0 : ℝ) < k := by exact_mod_cast h0
  have h1 := Real.rpow_pos_of_pos h0' (0.9433 : ℝ)
  have h2 := Real.rpow_pos_of_pos h0' (0.9723 : ℝ)
  unfold normalizedRankError
  cases pmf
  · simp only [Bool.false_eq_true, if_false]; positivity
  · simp only [if_true]; positivity

theorem four_le_rpow {k : Nat} (h : 8 ≤ k) {e : ℝ} (he : 2 / 3 ≤ e) : (4 : ℝ) ≤ (k : ℝ) ^ e := by
  have h8 : (8 : ℝ) ≤ k := by exact_mod_cast h
  have e1 : (4 : ℝ) = 8 ^ (2 / 3 : ℝ) := by
    rw [show (8 : ℝ) = 2 ^ (3 : ℝ) by norm_num, ← Real.rpow_mul (by norm_num)]
    norm_num
  rw [e1]
  exact le_trans (Real.rpow_le_rpow (by norm_num) h8 (by norm_num))
    (Real.rpow_le_rpow_of_exponent_le (by linarith) he)

theorem nre_lt {k : Nat} (h : 8 ≤ k) (pmf : Bool) : normalizedRankError k pmf < 5 / 8 := by
  unfold normalizedRankError
  cases pmf
  · simp only [Bool.false_eq_true, if_false]
    have := four_le_rpow h (e := 0.9723) (by norm_num)
    rw [div_lt_iff₀ (by linarith)]
    linarith
  · simp only [if_true]
    have := four_le_rpow h (e := 0.9433) (by norm_num)
    rw [div_lt_iff₀ (by linarith)]
    linarith

theorem nre_pmf {k : Nat} (h0 : 0 < k) :
    normalizedRankError k false < normalizedRankError k true := by
  have h1 : (1 : ℝ) ≤ k := by exact_mod_cast h0
  have hp := Real.rpow_pos_of_pos (show (0 : ℝ) < k by linarith) (0.9433 : ℝ)
  have hle : (k : ℝ) ^ (0.9433 : ℝ) ≤ (k : ℝ) ^ (0.9723 : ℝ) :=
    Real.rpow_le_rpow_of_exponent_le h1 (by norm_num)
  unfold normalizedRankError
  simp only [Bool.false_eq_true, if_false, if_true]
  calc (2.296 : ℝ) / (k : ℝ) ^ (0.9723 : ℝ) ≤ 2.296 / (k : ℝ) ^ (0.9433 : ℝ) :=
        div_le_div_of_nonneg_left (by norm_num) hp hle
    _ < 2.446 / (k : ℝ) ^ (0.9433 : ℝ) := by
        exact div_lt_div_of_pos_right (by norm_num) hp

/-! ## The calls -/

section calls
variable {env : Env α} {K : Prop} {κ : Nat}

theorem aMerge_minK (hs : ∀ l, (env.sort l).Perm l) {S T : List α} {a b : Abs α}
    (hi : Inv env K S a) (hb : Inv env K T b) :
    Rand.All (fun c => c.k = a.k ∧
      c.minK = if b.n ≠ 0 ∧ 1 < b.Ls.length then min a.minK b.minK else a.minK)
      (aMerge env a b) := by
  have hinv := aMerge_inv hs hi hb
  refine Rand.All.mono (Rand.All.and (hinv.mono fun c h => h.2.2.1) ?_) fun c h => h
  unfold aMerge at hinv ⊢
  by_cases h0 : b.n = 0
  · rw [if_pos h0]
    show a.minK = _
    rw [if_neg (fun h => h.1 h0)]
  · rw [if_neg h0] at hinv ⊢
    have h1 := hinv.of_bind
    refine Rand.All.bind (h1.and (fold_inv hs (b.Ls.headD []) hi)) ?_
    rintro t ⟨h2, _, _, _, _, h6⟩
    by_cases hl : 1 < b.Ls.length
    · refine Rand.All.bind (h2.of_bind.mono fun _ _ => trivial) ?_
      intro t' _
      show (if 1 < b.Ls.length then min a.minK b.minK else t'.minK) = _
      rw [if_pos hl, if_pos ⟨h0, hl⟩]
    · unfold aUpper
      rw [if_neg hl]
      show (if 1 < b.Ls.length then min a.minK b.minK else t.minK) = _
      rw [if_neg hl, if_neg (fun h => hl h.2), h6]

theorem Link.merge_minK {s o : Sketch α} {S T : List α} (hs : ∀ l, (env.sort l).Perm l)
    (h : Link env K κ s S) (h' : Link env K κ o T) (hn : S.length + T.length < 2 ^ 60) :
    Rand.All (fun s' => s'.k = s.k ∧
      s'.minK = if isEmpty o = false ∧ isEstimationMode o = true then min s.minK o.minK
        else s.minK) (Kll.merge env s o) := by
  obtain ⟨a, hr, hi, _⟩ := h
  obtain ⟨b, hr', hi', _⟩ := h'
  have hsim := merge_sim hs hr hi hr' hi' (by rw [← hi.core.len, ← hi'.core.len]; exact hn)
  refine (hsim.all (aMerge_minK hs hi hi')).mono ?_
  rintro s' ⟨c, hc, h1, h2⟩
  refine ⟨by rw [hc.k, h1, hr.k], ?_⟩
  rw [hc.minK, h2, hr.minK, hr'.minK]
  simp [isEmpty, isEstimationMode, hr'.n, hr'.numLevels]

theorem Link.update_minK {s : Sketch α} {S : List α} (hs : ∀ l, (env.sort l).Perm l)
    (h : Link env K κ s S) (hn : S.length + 1 < 2 ^ 60) (x : Option α) :
    Rand.All (fun s' => s'.k = s.k ∧ s'.minK = s.minK) (Kll.update env s x) := by
  obtain ⟨a, hr, hi, _⟩ := h
  cases x with
  | none => exact ⟨rfl, rfl⟩
  | some x =>
    have hsim := updateSome_sim hs hr hi.shape hi.core (by rw [← hi.core.len]; omega) x
    refine (hsim.all (aUpdate_inv hs hi x)).mono ?_
    rintro s' ⟨b, hb, _, _, h3, _, h5⟩
    exact ⟨by rw [hb.k, h3, hr.k], by rw [hb.minK, h5, hr.minK]⟩

theorem Link.minK_le {s : Sketch α} {S : List α} (h : Link env K κ s S) : s.minK ≤ s.k := by
  obtain ⟨a, hr, hi, _⟩ := h
  rw [hr.minK, hr.k]
  exact hi.kappa

theorem Link.le_minK {s : Sketch α} {S : List α} (h : Link env K κ s S) : κ ≤ s.minK := by
  obtain ⟨a, hr, hi, hk⟩ := h
  rw [hr.minK]
  exact hk

theorem Link.len {s : Sketch α} {S : List α} (h : Link env K κ s S) : s.n = S.length := by
  obtain ⟨a, hr, hi, hk⟩ := h
  rw [hr.n, hi.core.len]

/-- One level holds at most `k` items. -/
theorem Link.estimating {s : Sketch α} {S : List α} (h : Link env K κ s S)
    (hn : s.k < S.length) : isEstimationMode s = true := by
  obtain ⟨a, hr, hi, _⟩ := h
  by_contra hc
  have h1 : a.Ls.length = 1 := by
    have h2 := List.length_pos_of_ne_nil hi.core.ne
    have h3 : ¬ 1 < s.numLevels := by simpa [isEstimationMode] using hc
    rw [hr.numLevels] at h3
    omega
  obtain ⟨l, hl⟩ : ∃ l, a.Ls = [l] := List.length_eq_one_iff.1 h1
  have hw := hi.core.weight
  have hle := hi.shape.bound
  have hlen := hi.core.len
  rw [hl] at hw hle
  rw [hr.k] at hn
  simp [wt, rk] at hw
  simp at hle
  omega

/-- An empty sketch has one level. -/
theorem Link.nonempty {s : Sketch α} {S : List α} (h : Link env K κ s S)
    (he : isEstimationMode s = true) : isEmpty s = false := by
  obtain ⟨a, hr, hi, _⟩ := h
  have h1 : 1 < a.Ls.length := by
    rw [← hr.numLevels]
    simpa [isEstimationMode] using he
  have h2 : a.n ≠ 0 := by
    rcases hi.core.top with h | h
    · omega
    · have := Nat.one_le_two_pow (n := a.Ls.length - 1)
      omega
  simp [isEmpty, hr.n, h2]

end calls

/-! ## Programs -/

/-- The `k` each sketch was created with -/
def createdStep (ks : List Nat) : Op α → List Nat
  | .new k _ => ks ++ [k]
  | _ => ks

def created (ops : List (Op α)) : List Nat := ops.foldl createdStep []

theorem ks_eight {ops : List (Op α)} (hv : Valid ops) : ∀ op ∈ ops, Ks False 8 op := by
  intro o ho
  cases o with
  | new k m =>
    obtain ⟨pre, post, he⟩ := List.append_of_mem ho
    have := hv pre _ post he
    exact ⟨this.1, fun h => h.elim⟩
  | _ => exact trivial

def KOk (st : List (Sketch α)) (ks : List Nat) : Prop := st.map (·.k) = ks

theorem KOk.set {st : List (Sketch α)} {ks : List Nat} (h : KOk st ks) {i : Nat} {s s' : Sketch α}
    (hi : st[i]? = some s) (hk : s'.k = s.k) : KOk (st.set i s') ks := by
  unfold KOk at h ⊢
  rw [List.map_set, h, hk, ← h]
  apply List.ext_getElem?
  intro j
  by_cases hj : i = j
  · subst hj
    have hlt : i < st.length := by
      by_contra hc
      rw [List.getElem?_eq_none (by omega)] at hi
      cases hi
    rw [List.getElem?_set_self (by simpa using hlt), List.getElem?_map, hi]
    rfl
  · rw [List.getElem?_set_ne hj]

theorem run_created {env : Env α} (hs : ∀ l, (env.sort l).Perm l) {κ : Nat} (h0 : 0 < κ)
    (ops : List (Op α)) (hv : Valid ops) (hk : ∀ op ∈ ops, Ks False κ op) :
    Rand.All (fun st => Store env False κ st (streams ops) ∧ KOk st (created ops))
      (run env ops) := by
  induction ops using List.reverseRecOn with
  | nil => exact ⟨⟨rfl, by simp⟩, rfl⟩
  | append_singleton ops op ih =>
    have hl := run_link hs h0 (ops ++ [op]) hv hk
    refine hl.and ?_
    rw [run_snoc]
    refine Rand.All.bind (ih hv.snoc.1 fun o ho => hk o (by simp [ho])) ?_
    rintro st ⟨hst, hko⟩
    have hc : created (ops ++ [op]) = createdStep (created ops) op := by simp [created]
    rw [hc]
    have ha := hv.snoc.2
    cases op with
    | new k m =>
      obtain ⟨h8, h1, h2, h3⟩ := ha
      rw [step_new env st h8 h1]
      show List.map _ _ = _
      rw [List.map_append, show st.map (·.k) = created ops from hko]
      rfl
    | update i x =>
      obtain ⟨s, hs', e, hl⟩ := hst.get ha.1
      rw [step_update env e]
      refine Rand.All.bind (hl.update_minK hs ha.2 x) ?_
      intro s' h'
      exact hko.set hs' h'.1
    | merge i j =>
      obtain ⟨h1, h2, h3, h4⟩ := ha
      obtain ⟨s, hs', e, hl⟩ := hst.get h1
      obtain ⟨o, _, e', hl'⟩ := hst.get h2
      rw [step_merge env e e']
      refine Rand.All.bind (hl.merge_minK hs hl' h4) ?_
      intro s' h'
      exact hko.set hs' h'.1
    | reset i =>
      obtain ⟨s, hs', e, hl⟩ := hst.get ha
      rw [step_reset env e]
      exact hko.set hs' rfl

end Verif.Kll
