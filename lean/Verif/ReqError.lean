import Verif.ReqFair

/-!
# Expectation of the errors of a REQ sketch
-/

namespace Verif.Req

open Verif Verif.View

variable {α : Type} [LinearOrder α]

/-- A quantity of sketch `i`. -/
def onSketch {β : Type} [Zero β] (i : Nat) (f : Sketch α → β) (st : List (Sketch α)) : β :=
  match st[i]? with
  | some s => f s
  | none => 0

theorem errAt_cons (p : α → Bool) (q : Pick) (e : Event α) (log : List (Event α)) :
    errAt p q (e :: log) = (if q.hits e.level e.before.state then e.err p else 0) + errAt p q log := by
  unfold errAt
  rw [List.filter_cons]
  by_cases h : q.hits e.level e.before.state
  · rw [if_pos (by simpa using h), if_pos h, List.map_cons, List.sum_cons]
  · rw [if_neg (by simpa using h), if_neg h, zero_add]

/-- The errors of a level. -/
def errLevel (p : α → Bool) (h : Nat) (log : List (Event α)) : Int :=
  ((log.filter fun e => e.level = h).map (Event.err p)).sum

theorem errLevel_cons (p : α → Bool) (h : Nat) (e : Event α) (log : List (Event α)) :
    errLevel p h (e :: log) = (if e.level = h then e.err p else 0) + errLevel p h log := by
  unfold errLevel
  rw [List.filter_cons]
  by_cases he : e.level = h
  · rw [if_pos (by simpa using he), if_pos he, List.map_cons, List.sum_cons]
  · rw [if_neg (by simpa using he), if_neg he, zero_add]

theorem errAt_sum (p : α → Bool) (h : Nat) (J : Nat) (log : List (Event α))
    (hJ : ∀ e ∈ log, e.before.state < 2 * J) :
    ∑ j ∈ Finset.range J, errAt p ⟨h, j⟩ log = errLevel p h log := by
  induction log with
  | nil =>
    apply Finset.sum_eq_zero
    intro j _
    rfl
  | cons e log ih =>
    rw [errLevel_cons, ← ih fun e he => hJ e (List.mem_cons_of_mem _ he)]
    rw [Finset.sum_congr rfl fun j _ => errAt_cons p ⟨h, j⟩ e log, Finset.sum_add_distrib]
    congr 1
    by_cases hl : e.level = h
    · rw [if_pos hl]
      rw [Finset.sum_congr rfl fun j _ => show (if Pick.hits ⟨h, j⟩ e.level e.before.state then e.err p
        else 0) = if e.before.state / 2 = j then e.err p else 0 from if_congr
          ⟨fun h => h.2, fun h => ⟨hl, h⟩⟩ rfl rfl]
      rw [Finset.sum_ite_eq, if_pos]
      have := hJ e List.mem_cons_self
      rw [Finset.mem_range]
      omega
    · rw [if_neg hl]
      apply Finset.sum_eq_zero
      intro j _
      exact if_neg fun h => hl h.1

theorem errLevel_sum (p : α → Bool) (L : Nat) (log : List (Event α)) (hL : ∀ e ∈ log, e.level < L) :
    ∑ h ∈ Finset.range L, errLevel p h log = (log.map (Event.err p)).sum := by
  induction log with
  | nil =>
    apply Finset.sum_eq_zero
    intro j _
    rfl
  | cons e log ih =>
    rw [List.map_cons, List.sum_cons, ← ih fun e he => hL e (List.mem_cons_of_mem _ he)]
    rw [Finset.sum_congr rfl fun h _ => errLevel_cons p h e log, Finset.sum_add_distrib]
    congr 1
    rw [Finset.sum_ite_eq, if_pos (Finset.mem_range.2 (hL e List.mem_cons_self))]

theorem StRel.on {p : α → Bool} {q : Pick} {st su : List (Sketch α)} (h : StRel p q st su) (i : Nat) :
    (st[i]? = none ∧ su[i]? = none) ∨ ∃ s t, st[i]? = some s ∧ su[i]? = some t ∧ Rel p q s t := by
  have hl : st.length = su.length := List.Forall₂.length_eq h
  rcases Nat.lt_or_ge i st.length with hi | hi
  · have h1 := List.getElem?_eq_getElem hi
    have h2 := List.getElem?_eq_getElem (show i < su.length by omega)
    exact Or.inr ⟨_, _, h1, h2, h.get h1 h2⟩
  · exact Or.inl ⟨List.getElem?_eq_none hi, List.getElem?_eq_none (by omega)⟩

theorem stream_lt {zero : α} (ops : List (Op α)) (hv : Valid zero ops) (i : Nat) :
    ((hist zero ops).getD i noHist).stream.length < 2 ^ 47 := by
  induction ops using List.reverseRecOn generalizing i with
  | nil => show 0 < _; norm_num
  | append_singleton ops op ih =>
    have hv' : Valid zero ops := fun pre o post e => hv pre o (post ++ [op]) (by rw [e]; simp)
    have ih := ih hv'
    have ha : Allowed (hist zero ops) op := hv ops op [] rfl
    have e : hist zero (ops ++ [op]) = histStep zero (hist zero ops) op := by
      unfold hist
      rw [List.foldl_append]
      rfl
    rw [e]
    have hset : ∀ (j : Nat) (g : Hist α), g.stream.length < 2 ^ 47 →
        (((hist zero ops).set j g).getD i noHist).stream.length < 2 ^ 47 := by
      intro j g hg
      rcases Nat.lt_or_ge j (hist zero ops).length with hj | hj
      · rw [getD_set _ _ _ _ _ hj]
        split
        · exact hg
        · exact ih i
      · rw [List.set_eq_of_length_le hj]
        exact ih i
    cases op with
    | new k hra =>
      simp only [histStep]
      rcases Nat.lt_trichotomy i (hist zero ops).length with hi | hi | hi
      · rw [List.getD_eq_getElem?_getD, List.getElem?_append_left hi, ← List.getD_eq_getElem?_getD]
        exact ih i
      · rw [List.getD_eq_getElem?_getD, hi, List.getElem?_concat_length]
        show 0 < _
        norm_num
      · rw [List.getD_eq_getElem?_getD, List.getElem?_eq_none (by simp; omega)]
        show 0 < _
        norm_num
    | update j x =>
      cases x with
      | none => exact ih i
      | some x =>
        apply hset
        rw [List.length_append, List.length_singleton]
        exact ha.2
    | merge j l =>
      simp only [histStep]
      split
      · exact ih i
      · apply hset
        rw [List.length_append]
        exact ha.2.2.2
    | reset j =>
      apply hset
      show 0 < _
      norm_num
    | query j => exact ih i

section
variable {env : Env α} (he : EnvOk env) (p : α → Bool) (ops : List (Op α))
  (hv : Valid env.zero ops) (hops : ∀ op ∈ ops, op.simple) (i : Nat)
include he hv hops

/-- The error made with one coin has expectation 0. -/
theorem errAt_zero (q : Pick) :
    Rand.HasE (onSketch i fun s => (errAt p q s.log : ℚ)) (run env ops) 0 := by
  refine (run_mirror he p q ops hv hops).zero ?_
  intro st su hr
  unfold onSketch
  rcases hr.on i with ⟨h1, h2⟩ | ⟨s, t, h1, h2, h3⟩
  · rw [h1, h2]
    simp
  · rw [h1, h2]
    simp only
    rw [h3.err]
    push_cast
    rfl

/-- The errors made with two coins are uncorrelated. -/
theorem errAt_mul (q r : Pick) (hqr : q ≠ r) :
    Rand.HasE (onSketch i fun s => (errAt p q s.log * errAt p r s.log : ℚ)) (run env ops) 0 := by
  have key : ∀ q r : Pick, r.h ≤ q.h → r ≠ q →
      Rand.HasE (onSketch i fun s => (errAt p q s.log * errAt p r s.log : ℚ)) (run env ops) 0 := by
    intro q r h1 h2
    refine (run_mirror he p q ops hv hops).zero ?_
    intro st su hr
    unfold onSketch
    rcases hr.on i with ⟨h3, h4⟩ | ⟨s, t, h3, h4, h5⟩
    · rw [h3, h4]
      simp
    · rw [h3, h4]
      simp only
      rw [h5.err, h5.same r h1 h2]
      push_cast
      ring
  rcases le_total r.h q.h with h | h
  · exact key q r h hqr.symm
  · have := key r q h hqr
    simpa only [mul_comm] using this

omit p in
theorem run_events : Rand.All (fun st => ∀ (j : Nat) (s : Sketch α), st[j]? = some s →
    ∀ e ∈ s.log, e.level < s.compactors.length ∧ e.before.state < 2 ^ 47) (run env ops) := by
  refine (run_mirror he (fun _ => true) ⟨0, 0⟩ ops hv hops).left ?_
  intro st su hr j s hs
  rcases hr.on j with ⟨h1, h2⟩ | ⟨s', t, h1, h2, h3⟩
  · rw [h1] at hs
    cases hs
  · rw [h1] at hs
    cases hs
    exact h3.ev

end

end Verif.Req
