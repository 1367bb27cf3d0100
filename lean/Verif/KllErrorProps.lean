import Verif.KllError
import Verif.KllSerdeProps

/-!
# Properties of the rank error a KLL sketch announces (C122)

`run env ops`, `Valid ops` and `streams ops` as in `Verif.KllProps`; `created ops` lists the `k` the
sketches were created with.
-/

namespace Verif.Kll

open Verif
open Verif.Items

variable {α : Type}

/-- C122: in every program, whatever the coin shows, both announced errors lie strictly between 0
and 1 (even below 5/8), the one for `GetPMF` is the larger one, neither is below what the `k` of the
sketch gives, and neither exceeds what the smallest `k` of the program gives. -/
theorem C122_range (env : Env α) (hs : ∀ l, (env.sort l).Perm l) (ops : List (Op α))
    (hv : Valid ops) {κ : Nat} (h0 : 0 < κ) (hk : ∀ k m, Op.new k m ∈ ops → κ ≤ k) :
    Rand.All (fun st => st.map (·.k) = created ops ∧ ∀ (i : Nat) (s : Sketch α), st[i]? = some s →
        getNormalizedRankError s false < getNormalizedRankError s true ∧
        ∀ pmf, 0 < getNormalizedRankError s pmf ∧ getNormalizedRankError s pmf < 5 / 8 ∧
          normalizedRankError s.k pmf ≤ getNormalizedRankError s pmf ∧
          getNormalizedRankError s pmf ≤ normalizedRankError κ pmf) (run env ops) := by
  have h1 := run_created hs (by omega) ops hv (ks_eight hv)
  have h2 := run_created hs h0 ops hv (by
    intro o ho
    cases o with
    | new k m => exact ⟨hk k m ho, fun h => h.elim⟩
    | _ => exact trivial)
  refine (h1.and h2).mono ?_
  rintro st ⟨⟨ha, hc⟩, hb, _⟩
  refine ⟨hc, fun i s hi => ?_⟩
  have l8 := (ha.link i s hi).le_minK
  have lk := (hb.link i s hi).le_minK
  have lm := (ha.link i s hi).minK_le
  exact ⟨nre_pmf (by omega), fun pmf => ⟨nre_pos (by omega) pmf, nre_lt l8 pmf,
    nre_anti_le (by omega) lm pmf, nre_anti_le h0 lk pmf⟩⟩

/-- C122: a larger `k` gives a strictly smaller error. -/
theorem C122_decreasing {k k' : Nat} (h0 : 0 < k) (h : k < k') (pmf : Bool) :
    normalizedRankError k' pmf < normalizedRankError k pmf := nre_anti h0 h pmf

/-- C122: after a merge the error is the larger one of the two if the merged sketch is in estimation
mode; a sketch that is exact (in particular an empty one) does not change it. -/
theorem C122_merge (env : Env α) (hs : ∀ l, (env.sort l).Perm l) (ops : List (Op α))
    (hv : Valid ops) :
    Rand.All (fun st => ∀ (i j : Nat) (s o : Sketch α), st[i]? = some s → st[j]? = some o →
        s.n + o.n < 2 ^ 60 →
        Rand.All (fun s' => s'.k = s.k ∧ ∀ pmf, getNormalizedRankError s' pmf =
          if isEstimationMode o = true
          then max (getNormalizedRankError s pmf) (getNormalizedRankError o pmf)
          else getNormalizedRankError s pmf) (merge env s o)) (run env ops) := by
  refine (run_link hs (by omega) ops hv (ks_eight hv)).mono fun st hst => ?_
  intro i j s o hi hj hn
  have ls := hst.link i s hi
  have lo := hst.link j o hj
  refine (ls.merge_minK hs lo (by rw [← ls.len, ← lo.len]; exact hn)).mono ?_
  rintro s' ⟨h1, h2⟩
  refine ⟨h1, fun pmf => ?_⟩
  have p1 := ls.le_minK
  have p2 := lo.le_minK
  unfold getNormalizedRankError
  rw [h2]
  by_cases hc : isEstimationMode o = true
  · rw [if_pos hc, if_pos ⟨lo.nonempty hc, hc⟩, nre_min (by omega) (by omega)]
  · rw [if_neg hc, if_neg (fun h => hc h.2)]

/-- C122: an image of a sketch of numbers of `w` bytes that is read back announces the same error if
there are at least two items; with fewer items it announces that of a new sketch. -/
theorem C122_round_trip (w : Nat) (env : Env Nat) (hs : ∀ l, (env.sort l).Perm l)
    (ho : IsOrd env.lt) (ops : List (Op Nat)) (hv : Valid ops) :
    Rand.All (fun st => ∀ (i : Nat) (s : Sketch Nat), st[i]? = some s →
        s.k ≤ 32767 → (s.m = 2 ∨ s.m = 4 ∨ s.m = 6 ∨ s.m = 8) →
        ((streams ops).getD i []).length < 2 ^ 58 →
        (∀ x ∈ (streams ops).getD i [], x < 256 ^ w) →
        ∃ bytes t, toSlice (fixed w) s = .ok bytes ∧ fromSlice (fixed w) env bytes = .ok t ∧
          ∀ pmf, getNormalizedRankError t pmf =
            if 2 ≤ ((streams ops).getD i []).length then getNormalizedRankError s pmf
            else normalizedRankError s.k pmf)
      (run env ops) := by
  refine ((C79_numbers_partial w env hs ho ops hv).and
    (run_link hs (by omega) ops hv (ks_eight hv))).mono ?_
  rintro st ⟨h, hst⟩ i s hi hk hm hn hP
  obtain ⟨bytes, t, h1, _, h2, h3, _⟩ := h i s hi hk hm hn hP
  refine ⟨bytes, t, h1, h2, fun pmf => ?_⟩
  rw [← (hst.link i s hi).len]
  unfold getNormalizedRankError
  rw [h3.minK]
  by_cases hc : s.n ≤ 1
  · rw [if_pos hc, if_neg (by omega)]
  · rw [if_neg hc, if_pos (by omega)]

/-- C122: updates do not change the error. -/
theorem C122_update (env : Env α) (hs : ∀ l, (env.sort l).Perm l) (ops : List (Op α))
    (hv : Valid ops) (x : Option α) :
    Rand.All (fun st => ∀ (i : Nat) (s : Sketch α), st[i]? = some s → s.n + 1 < 2 ^ 60 →
        Rand.All (fun s' => s'.k = s.k ∧ ∀ pmf,
          getNormalizedRankError s' pmf = getNormalizedRankError s pmf) (update env s x))
      (run env ops) := by
  refine (run_link hs (by omega) ops hv (ks_eight hv)).mono fun st hst => ?_
  intro i s hi hn
  have ls := hst.link i s hi
  refine (ls.update_minK hs (by rw [← ls.len]; exact hn) x).mono ?_
  rintro s' ⟨h1, h2⟩
  exact ⟨h1, fun pmf => by unfold getNormalizedRankError; rw [h2]⟩

/-- C122: a sketch that holds more than `k` items is in estimation mode. -/
theorem C122_estimating (env : Env α) (hs : ∀ l, (env.sort l).Perm l) (ops : List (Op α))
    (hv : Valid ops) :
    Rand.All (fun st => ∀ (i : Nat) (s : Sketch α), st[i]? = some s →
      s.k < ((streams ops).getD i []).length → isEstimationMode s = true) (run env ops) :=
  (run_link hs (by omega) ops hv (ks_eight hv)).mono fun _ hst i s hi hn =>
    (hst.link i s hi).estimating hn

/-- C122, partial: `Reset` restores the error of a new sketch of the same `k` when all sketches of the
program have the same `k` (then no call ever changes the error).  In general `Reset` leaves the error
as it was, see `C122_reset_refuted`. -/
theorem C122_reset_partial (env : Env α) (hs : ∀ l, (env.sort l).Perm l) (ops : List (Op α))
    (hv : Valid ops) {κ : Nat} (h0 : 0 < κ) (hk : ∀ k m, Op.new k m ∈ ops → κ = k) :
    Rand.All (fun st => ∀ (i : Nat) (s : Sketch α), st[i]? = some s → s.k = κ → ∀ pmf,
        getNormalizedRankError (reset env s) pmf = normalizedRankError κ pmf) (run env ops) := by
  refine (C122_range env hs ops hv h0 fun k m h => (hk k m h).le).mono ?_
  rintro st ⟨_, h⟩ i s hi hsk pmf
  have h1 := (h i s hi).2 pmf
  rw [hsk] at h1
  exact le_antisymm h1.2.2.2 h1.2.2.1

/-- The program of the counterexample: sketch 0 with `k = 200`, sketch 1 with `k = 8` and nine items,
the second is merged into the first, the first is reset. -/
def resetProg : List (Op Nat) :=
  [.new 200 8, .new 8 8, .update 1 (some 1), .update 1 (some 2), .update 1 (some 3),
    .update 1 (some 4), .update 1 (some 5), .update 1 (some 6), .update 1 (some 7),
    .update 1 (some 8), .update 1 (some 9)]

theorem valid_cons_check (ops : List (Op α)) (ss : List (List α)) :
    (∀ pre op post, ops = pre ++ op :: post → Allowed (pre.foldl streamStep ss) op) ↔
      match ops with
      | [] => True
      | o :: os => Allowed ss o ∧ ∀ pre op post, os = pre ++ op :: post →
          Allowed (pre.foldl streamStep (streamStep ss o)) op := by
  cases ops with
  | nil => simp
  | cons o os =>
    constructor
    · intro h
      exact ⟨h [] o os rfl, fun pre op post he => h (o :: pre) op post (by rw [he]; rfl)⟩
    · rintro ⟨h1, h2⟩ pre op post he
      cases pre with
      | nil => cases he; exact h1
      | cons p pre =>
        simp only [List.cons_append, List.cons.injEq] at he
        obtain ⟨rfl, he⟩ := he
        exact h2 pre op post he

theorem resetProg_valid : Valid (resetProg ++ [.merge 0 1, .reset 0]) := by
  show ∀ pre op post, _ = pre ++ op :: post → Allowed (pre.foldl streamStep []) op
  unfold resetProg
  simp only [List.cons_append, List.nil_append]
  repeat (rw [valid_cons_check]; refine ⟨by simp [Allowed, streamStep], ?_⟩)
  rw [valid_cons_check]
  trivial

/-- C122: `Reset` does not restore the error of a new sketch: after this program sketch 0 is empty
and was created with `k = 200`, but announces the error of `k = 8`. -/
theorem C122_reset_refuted :
    Valid (resetProg ++ [.merge 0 1, .reset 0]) ∧
    Rand.All (fun st => ∃ s, st[0]? = some s ∧ s.n = 0 ∧ s.k = 200 ∧ ∀ pmf,
        getNormalizedRankError s pmf = normalizedRankError 8 pmf ∧
        normalizedRankError 200 pmf < getNormalizedRankError s pmf)
      (run natEnv (resetProg ++ [.merge 0 1, .reset 0])) := by
  refine ⟨resetProg_valid, ?_⟩
  have hs := natEnv_sorts.perm
  have hv := resetProg_valid
  have e : resetProg ++ [.merge 0 1, .reset 0] = (resetProg ++ [.merge 0 1]) ++ [.reset 0] := by simp
  rw [e] at hv ⊢
  have hv1 := hv.snoc.1
  have hv0 := hv1.snoc.1
  rw [run_snoc, run_snoc, Rand.bind_assoc]
  refine Rand.All.bind (run_created hs (by omega) _ hv0 (ks_eight hv0)) ?_
  rintro st ⟨hst, hko⟩
  have hstr : streams resetProg = [[], [1, 2, 3, 4, 5, 6, 7, 8, 9]] := rfl
  have hcr : st.map (·.k) = [200, 8] := hko
  rw [hstr] at hst
  obtain ⟨s, g0, e0, ls⟩ := hst.get (i := 0) (by simp)
  obtain ⟨o, g1, e1, lo⟩ := hst.get (i := 1) (by simp)
  have k0 : s.k = 200 := by
    have := congrArg (fun l => l[0]?) hcr
    simpa [g0] using this
  have k1 : o.k = 8 := by
    have := congrArg (fun l => l[1]?) hcr
    simpa [g1] using this
  have hest := lo.estimating (by rw [k1]; simp)
  have hon : o.n = 9 := lo.len
  have m1 : o.minK = 8 := by
    have := lo.le_minK
    have := lo.minK_le
    omega
  have m0 := ls.le_minK
  rw [step_merge natEnv e0 e1, Rand.bind_assoc]
  refine Rand.All.bind (ls.merge_minK hs lo (by simp)) ?_
  rintro s' ⟨h1, h2⟩
  rw [if_pos ⟨by simp [isEmpty, hon], hest⟩, m1] at h2
  rw [Rand.ret_bind]
  have hlen : 0 < st.length := by rw [hst.len]; simp
  have er : rd (st.set 0 s') 0 = .ok s' := by
    unfold rd
    rw [List.getElem?_set_self hlen]
    rfl
  rw [step_reset natEnv er]
  refine ⟨reset natEnv s', by simp [hlen], rfl, by rw [← k0, ← h1]; rfl, fun pmf => ?_⟩
  have h3 : (reset natEnv s').minK = 8 := by
    show s'.minK = 8
    omega
  unfold getNormalizedRankError
  rw [h3]
  exact ⟨rfl, nre_anti (by omega) (by omega) pmf⟩

/-- The hypotheses are met by the program of the counterexample. -/
example : Valid (resetProg ++ [.merge 0 1, .reset 0]) ∧
    ∀ k m, Op.new k m ∈ resetProg ++ [.merge 0 1, .reset 0] → 8 ≤ k := by
  refine ⟨resetProg_valid, fun k m h => ?_⟩
  simp [resetProg] at h
  omega

end Verif.Kll
