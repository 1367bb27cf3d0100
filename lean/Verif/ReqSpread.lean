import Verif.ReqFlowRun
import Verif.RandEx

/-!
# The spread of the error of a REQ sketch
-/

namespace Verif.Req

open Verif Verif.View

variable {α : Type} [LinearOrder α]

/-! ## What holds in every run -/

/-- The error of one compaction, for properties of the items on one side. -/
theorem err_sided {p : α → Bool} {hra : Bool} (hp : Sided hra p) {e : Event α}
    (he : e.items.length % 2 = 0) : |e.err p| ≤ 2 ^ e.level := by
  cases hra with
  | false => exact err_le (by simpa [Sided] using hp) he
  | true =>
    have hp : ∀ a b, a ≤ b → p a = true → p b = true := by simpa [Sided] using hp
    have h1 := err_le (p := fun a => !p a) (e := e) (fun a b hab hb => by
      cases ha : p a with
      | false => rfl
      | true => simp [hp a b hab ha] at hb) he
    have hc : ∀ l : List α, l.countP p + l.countP (fun a => !p a) = l.length := by
      intro l
      rw [List.length_eq_countP_add_countP p]
      congr 1
      apply List.countP_congr
      intro a _
      simp
    have h2 : e.err p = -e.err fun a => !p a := by
      have h3 := hc (half e.after.coin e.items)
      have h4 := hc e.items
      have h5 := half_length e.after.coin e.items
      unfold Event.err
      rw [← mul_neg]
      congr 1
      omega
    rw [h2, abs_neg]
    exact h1

/-- Compactions with one coin that touched items with the property. -/
def impHit (p : α → Bool) (q : Pick) (log : List (Event α)) : Nat :=
  log.countP fun e => decide (q.hits e.level e.before.state ∧ 0 < e.items.countP p)

theorem impHit_cons (p : α → Bool) (q : Pick) (e : Event α) (log : List (Event α)) :
    impHit p q (e :: log) = impHit p q log +
      if q.hits e.level e.before.state ∧ 0 < e.items.countP p then 1 else 0 := by
  unfold impHit
  rw [List.countP_cons]
  simp

theorem errAt_le {p : α → Bool} {hra : Bool} (hp : Sided hra p) (q : Pick) {log : List (Event α)}
    (he : ∀ e ∈ log, e.items.length % 2 = 0) : |errAt p q log| ≤ 2 ^ q.h * impHit p q log := by
  induction log with
  | nil => simp [errAt, impHit]
  | cons e log ih =>
    have ih := ih fun e h => he e (List.mem_cons_of_mem _ h)
    rw [errAt_cons, impHit_cons]
    by_cases hq : q.hits e.level e.before.state
    · rw [if_pos hq]
      by_cases hz : 0 < e.items.countP p
      · rw [if_pos ⟨hq, hz⟩]
        have h1 := err_sided hp (he e List.mem_cons_self)
        rw [hq.1] at h1
        push_cast
        calc |e.err p + errAt p q log| ≤ |e.err p| + |errAt p q log| := abs_add_le _ _
          _ ≤ 2 ^ q.h + 2 ^ q.h * impHit p q log := add_le_add h1 ih
          _ = _ := by ring
      · rw [if_neg fun h => hz h.2, err_zero (by omega), zero_add]
        exact ih
    · rw [if_neg hq, if_neg fun h => hq h.1, zero_add]
      exact ih

theorem impHit_two (p : α → Bool) (q : Pick) (log : List (Event α)) :
    impHit p q log ≤ statesAt log q.h (2 * q.j) + statesAt log q.h (2 * q.j + 1) := by
  induction log with
  | nil => simp [impHit]
  | cons e log ih =>
    rw [impHit_cons, statesAt_cons, statesAt_cons]
    by_cases hq : q.hits e.level e.before.state
    · have h1 := hq.1
      have h2 := hq.2
      have : e.before.state = 2 * q.j ∨ e.before.state = 2 * q.j + 1 := by omega
      have h3 : (if q.hits e.level e.before.state ∧ 0 < e.items.countP p then 1 else 0) ≤ 1 := by
        split <;> omega
      rcases this with h | h
      · rw [if_pos (c := e.level = q.h ∧ e.before.state = 2 * q.j) ⟨h1, h⟩]
        omega
      · rw [if_pos (c := e.level = q.h ∧ e.before.state = 2 * q.j + 1) ⟨h1, h⟩]
        omega
    · rw [if_neg fun h => hq h.1]
      omega

theorem impHit_sum (p : α → Bool) (h J : Nat) (log : List (Event α))
    (hJ : ∀ e ∈ log, e.before.state < 2 * J) :
    ∑ j ∈ Finset.range J, impHit p ⟨h, j⟩ log = impAt p log h := by
  induction log with
  | nil => simp [impHit, impAt]
  | cons e log ih =>
    rw [impAt_cons, ← ih fun e he => hJ e (List.mem_cons_of_mem _ he)]
    rw [Finset.sum_congr rfl fun j _ => impHit_cons p ⟨h, j⟩ e log, Finset.sum_add_distrib]
    congr 1
    by_cases hl : e.level = h ∧ 0 < e.items.countP p
    · rw [if_pos hl]
      rw [Finset.sum_congr rfl fun j _ => show (if Pick.hits ⟨h, j⟩ e.level e.before.state ∧
        0 < e.items.countP p then 1 else 0) = if e.before.state / 2 = j then 1 else 0 from if_congr
          ⟨fun h => h.1.2, fun h => ⟨⟨hl.1, h⟩, hl.2⟩⟩ rfl rfl]
      rw [Finset.sum_ite_eq, if_pos]
      have := hJ e List.mem_cons_self
      rw [Finset.mem_range]
      omega
    · rw [if_neg hl]
      apply Finset.sum_eq_zero
      intro j _
      exact if_neg fun h => hl ⟨h.1.1, h.2⟩

/-- The squares of the errors of a level. -/
theorem errAt_squares {p : α → Bool} {hra : Bool} (hp : Sided hra p) (h J : Nat)
    {log : List (Event α)} (he : ∀ e ∈ log, e.items.length % 2 = 0)
    (hJ : ∀ e ∈ log, e.before.state < 2 * J) (ho : ∀ h x, statesAt log h x ≤ 1) :
    ∑ j ∈ Finset.range J, (errAt p ⟨h, j⟩ log) ^ 2 ≤ 2 * 4 ^ h * (impAt p log h : Int) := by
  rw [← impHit_sum p h J log hJ]
  push_cast
  rw [Finset.mul_sum]
  apply Finset.sum_le_sum
  intro j _
  have h1 := errAt_le hp ⟨h, j⟩ he
  have h2 : impHit p ⟨h, j⟩ log ≤ 2 := by
    have := impHit_two p ⟨h, j⟩ log
    have a := ho h (2 * j)
    have b := ho h (2 * j + 1)
    simp only at this
    omega
  simp only at h1
  rw [← sq_abs]
  have h3 : |errAt p ⟨h, j⟩ log| ^ 2 ≤ (2 ^ h * (impHit p ⟨h, j⟩ log : Int)) ^ 2 :=
    pow_le_pow_left₀ (abs_nonneg _) h1 2
  have h4 : ((impHit p ⟨h, j⟩ log : Int)) ^ 2 ≤ 2 * (impHit p ⟨h, j⟩ log : Int) := by
    have : (impHit p ⟨h, j⟩ log : Int) ≤ 2 := by exact_mod_cast h2
    nlinarith [Int.natCast_nonneg (impHit p ⟨h, j⟩ log)]
  calc _ ≤ _ := h3
    _ = 4 ^ h * ((impHit p ⟨h, j⟩ log : Int)) ^ 2 := by
      rw [mul_pow, ← pow_mul, mul_comm h 2, pow_mul]; norm_num
    _ ≤ 4 ^ h * (2 * (impHit p ⟨h, j⟩ log : Int)) := mul_le_mul_of_nonneg_left h4 (by positivity)
    _ = _ := by ring

/-- What comes to a level. -/
theorem insAt_succ (p : α → Bool) (S : List α) (log : List (Event α)) (h : Nat) :
    (2 : Int) ^ (h + 1) * insAt p S log (h + 1) = errLevel p h log + 2 ^ h * delAt p log h := by
  induction log with
  | nil => simp [insAt, errLevel, delAt]
  | cons e log ih =>
    rw [insAt_cons, errLevel_cons, delAt_cons]
    by_cases he : e.level = h
    · rw [if_pos (by omega), if_pos he, if_pos he]
      unfold Event.err
      rw [he]
      push_cast
      rw [mul_add, ih]
      ring
    · rw [if_neg (by omega), if_neg he, if_neg he]
      push_cast
      rw [mul_add, ih]
      ring

/-- A level of a sketch in numbers. -/
structure Nums (k a I D m : Nat) : Prop where
  bal : a + D = I
  rest : 0 < m → 3 * k ≤ a
  few : k * m ≤ 18 * I

theorem Flow.nums {K : Nat} {p : α → Bool} {s : Sketch α} {S : List α} (hc : Core K s S)
    (hf : Flow p s S) (h : Nat) :
    ∃ a, Nums s.k a (insAt p S s.log h) (delAt p s.log h) (impAt p s.log h) := by
  cases hh : s.compactors[h]? with
  | some c =>
    have hl := hf.lv h c hh
    exact ⟨_, hl.plain.bal, hl.plain.rest, hl.few fun hk => size_ge (hc.inv.lv h c hh).wf hk⟩
  | none =>
    have hlen := List.getElem?_eq_none_iff.1 hh
    have hno : ∀ e ∈ s.log, e.level ≠ h := by
      intro e he
      have := hf.ev e he
      omega
    rw [delAt_none p _ _ hno, impAt_none p _ _ hno]
    exact ⟨_, rfl, fun h => absurd h (by omega), by omega⟩

/-- The weight that came to level `h`. -/
def came (p : α → Bool) (S : List α) (h : Nat) (log : List (Event α)) : ℚ := 2 ^ h * insAt p S log h

/-- The weight that left level `h` -/
def gone (p : α → Bool) (h : Nat) (log : List (Event α)) : ℚ := 2 ^ h * delAt p log h

/-- The weight that came, times that of one item, if the level was ever compacted on the side of the
property. -/
def load (p : α → Bool) (S : List α) (h : Nat) (log : List (Event α)) : ℚ :=
  if 0 < impAt p log h then 2 ^ h * came p S h log else 0

theorem came_succ (p : α → Bool) (S : List α) (h : Nat) (log : List (Event α)) :
    came p S (h + 1) log = gone p h log + errLevel p h log := by
  have := insAt_succ p S log h
  unfold came gone
  have h2 : ((2 : Int) ^ (h + 1) * insAt p S log (h + 1) : ℚ) =
      ((errLevel p h log + 2 ^ h * delAt p log h : Int) : ℚ) := by exact_mod_cast this
  push_cast at h2 ⊢
  linarith

theorem Nums.gone {p : α → Bool} {S : List α} {log : List (Event α)} {k a h : Nat}
    (hn : Nums k a (insAt p S log h) (delAt p log h) (impAt p log h)) :
    (gone p h log) ^ 2 ≤ (came p S h log) ^ 2 - 3 * k * load p S h log := by
  unfold load came Req.gone
  have h1 := hn.bal
  have hq : (a : ℚ) + delAt p log h = insAt p S log h := by exact_mod_cast h1
  have h2 : (0 : ℚ) ≤ a := by positivity
  have h3 : (0 : ℚ) ≤ delAt p log h := by positivity
  have h5 : (0 : ℚ) ≤ (2 : ℚ) ^ h := by positivity
  by_cases hm : 0 < impAt p log h
  · rw [if_pos hm]
    have h4 : 3 * (k : ℚ) ≤ a := by exact_mod_cast hn.rest hm
    rw [mul_pow, mul_pow]
    have : (delAt p log h : ℚ) ^ 2 ≤ (insAt p S log h : ℚ) ^ 2 - 3 * k * insAt p S log h := by
      rw [← hq]
      nlinarith
    have := mul_le_mul_of_nonneg_left this (show (0 : ℚ) ≤ (2 ^ h) ^ 2 by positivity)
    nlinarith
  · rw [if_neg hm, mul_zero, sub_zero]
    apply pow_le_pow_left₀ (by positivity)
    apply mul_le_mul_of_nonneg_left _ h5
    linarith

theorem Nums.imp {p : α → Bool} {S : List α} {log : List (Event α)} {k a h : Nat}
    (hn : Nums k a (insAt p S log h) (delAt p log h) (impAt p log h)) :
    (k : ℚ) * (2 * 4 ^ h * impAt p log h) ≤ 36 * load p S h log := by
  unfold load came
  by_cases hm : 0 < impAt p log h
  · rw [if_pos hm]
    have h1 : (k : ℚ) * impAt p log h ≤ 18 * insAt p S log h := by exact_mod_cast hn.few
    have h2 := mul_le_mul_of_nonneg_left h1 (show (0 : ℚ) ≤ 2 * 4 ^ h by positivity)
    have h3 : (2 : ℚ) ^ h * 2 ^ h = 4 ^ h := by rw [← mul_pow]; norm_num
    nlinarith
  · rw [if_neg hm, show impAt p log h = 0 by omega]
    simp

/-! ## Paired runs -/

theorem pair_same {p : α → Bool} {q : Pick} {s t : Sketch α} {S : List α} {J : Nat} (hr : Rel p q s t)
    (hs : Flow p s S) (ht : Flow p t S) (hJs : ∀ e ∈ s.log, e.before.state < 2 * J)
    (hJt : ∀ e ∈ t.log, e.before.state < 2 * J) (h : Nat) (hq : h ≤ q.h) :
    insAt p S t.log h = insAt p S s.log h ∧ delAt p t.log h = delAt p s.log h := by
  have hdel : ∀ h, h ≤ q.h → insAt p S t.log h = insAt p S s.log h →
      delAt p t.log h = delAt p s.log h := by
    intro h hq hi
    cases hh : s.compactors[h]? with
    | some c =>
      have hlt := (List.getElem?_eq_some_iff.1 hh).1
      have hht : t.compactors[h]? = some (t.compactors[h]'(by rw [hr.lv.length]; exact hlt)) :=
        List.getElem?_eq_getElem _
      have hlr := hr.lv.get hh hht
      rw [zero_add] at hlr
      have h1 := (hs.lv h c hh).plain.bal
      have h2 := (ht.lv h _ hht).plain.bal
      rw [(hlr.items hq).countP_eq] at h2
      omega
    | none =>
      have hlen := List.getElem?_eq_none_iff.1 hh
      rw [delAt_none p s.log h fun e he => by have := hs.ev e he; omega,
        delAt_none p t.log h fun e he => by have := ht.ev e he; rw [hr.lv.length] at this; omega]
  induction h with
  | zero => exact ⟨rfl, hdel 0 hq rfl⟩
  | succ h ih =>
    obtain ⟨h1, h2⟩ := ih (by omega)
    have he : errLevel p h t.log = errLevel p h s.log := by
      rw [← errAt_sum p h J t.log hJt, ← errAt_sum p h J s.log hJs]
      refine Finset.sum_congr rfl fun j _ => hr.same _ (by simp only; omega) ?_
      intro hc
      have := congrArg Pick.h hc
      simp only at this
      omega
    have h3 := insAt_succ p S t.log h
    have h4 := insAt_succ p S s.log h
    rw [he, h2, ← h4] at h3
    have h5 : (insAt p S t.log (h + 1) : Int) = insAt p S s.log (h + 1) :=
      mul_left_cancel₀ (by positivity) h3
    have h6 : insAt p S t.log (h + 1) = insAt p S s.log (h + 1) := by exact_mod_cast h5
    exact ⟨h6, hdel (h + 1) hq h6⟩

/-! ## Expectations -/

section
variable {env : Env α} (he : EnvOk env) (p : α → Bool) (ops : List (Op α))
  (hv : Valid env.zero ops) (hops : ∀ op ∈ ops, op.simple) (i : Nat)
  (hi : i < (hist env.zero ops).length) (hp : Sided ((hist env.zero ops).getD i noHist).hra p)

/-- What is known of sketch `i` after every run. -/
structure After (p : α → Bool) (i : Nat) (env : Env α) (h : Hist α) (J : Nat) (st : List (Sketch α)) :
    Prop where
  ex : ∃ s, st[i]? = some s ∧ Good env 0 s h ∧ Flow p s h.stream ∧
    ∀ e ∈ s.log, e.before.state < 2 * J ∧ e.level < 47

include he hv hops hi hp

theorem run_after : Rand.All (After p i env ((hist env.zero ops).getD i noHist) (2 ^ 46)) (run env ops) := by
  have hks : ∀ op ∈ ops, Ks 0 op := by
    intro op _
    cases op <;> simp [Ks]
  refine (((run_good he ops hv hks).and (run_flow he ops hv hops)).and
    (run_events he ops hv hops)).mono ?_
  rintro st ⟨⟨h1, h2⟩, h3⟩
  obtain ⟨s, g1, -, g3⟩ := h1.get hi
  refine ⟨s, g1, g3, h2 i s g1 p (by rw [g3.hra]; exact hp), fun e h => ⟨?_, ?_⟩⟩
  · have := (h3 i s g1 e h).2
    omega
  · have hlen : s.compactors.length ≤ 47 := g3.core.inv.len_le (by
      rw [g3.core.len]
      exact stream_lt ops hv i)
    exact lt_of_lt_of_le (h3 i s g1 e h).1 hlen

omit hi hp in
theorem run_total : Rand.Total (run env ops) :=
  fun f => (run_mirror he (fun _ => true) ⟨0, 0⟩ ops hv hops).has f

/-- The error with a coin of level `h` is uncorrelated with what leaves the level. -/
theorem gone_mul (h j : Nat) :
    Rand.HasE (onSketch i fun s => gone p h s.log * (errAt p ⟨h, j⟩ s.log : ℚ)) (run env ops) 0 := by
  have hm := run_mirror he p ⟨h, j⟩ ops hv hops
  have ha := run_after he p ops hv hops i hi hp
  have hm' := hm.bind (f := Rand.ret) (g := Rand.ret)
    (S := fun a b => StRel p ⟨h, j⟩ a b ∧ After p i env ((hist env.zero ops).getD i noHist) (2 ^ 46) a ∧
      After p i env ((hist env.zero ops).getD i noHist) (2 ^ 46) b) ha ha
    fun a b h1 h2 h3 => ⟨h1, h2, h3⟩
  rw [Rand.bind_ret] at hm'
  refine hm'.zero ?_
  rintro st su ⟨hr, ⟨s, a1, a2, a3, a4⟩, ⟨t, b1, b2, b3, b4⟩⟩
  have hst := hr.get a1 b1
  unfold onSketch
  rw [a1, b1]
  simp only
  have := (pair_same hst a3 b3 (fun e h => (a4 e h).1) (fun e h => (b4 e h).1) h (le_refl _)).2
  unfold gone
  rw [hst.err, this]
  push_cast
  ring

open Rand in
/-- The mean square of the error of a level. -/
theorem level_square (h : Nat) :
    ((hist env.zero ops).getD i noHist).k *
      ex (run_total he ops hv hops) (onSketch i fun s => (errLevel p h s.log : ℚ) ^ 2) ≤
    36 * ex (run_total he ops hv hops)
      (onSketch i fun s => load p ((hist env.zero ops).getD i noHist).stream h s.log) := by
  have ha := run_after he p ops hv hops i hi hp
  have hall : All (fun _ => True) (run env ops) := ha.mono fun _ _ => trivial
  obtain ⟨J, hJ⟩ : ∃ J, J = 2 ^ 46 := ⟨_, rfl⟩
  rw [← hJ] at ha
  have h1 : ex (run_total he ops hv hops) (onSketch i fun s => (errLevel p h s.log : ℚ) ^ 2) =
      ex (run_total he ops hv hops)
        (fun st => (∑ j ∈ Finset.range J, onSketch i (fun s => (errAt p ⟨h, j⟩ s.log : ℚ)) st) ^ 2) := by
    apply ex_congr
    refine ha.mono ?_
    rintro st ⟨s, a1, a2, a3, a4⟩
    unfold onSketch
    rw [a1]
    simp only
    rw [← errAt_sum p h J s.log fun e h => (a4 e h).1]
    push_cast
    rfl
  have h2 := ex_sq_sum (run_total he ops hv hops) hall (Finset.range J)
    (fun j => onSketch i fun s => (errAt p ⟨h, j⟩ s.log : ℚ)) (by
      intro j _ l _ hjl
      rw [ex_congr (g := onSketch i fun s => (errAt p ⟨h, j⟩ s.log * errAt p ⟨h, l⟩ s.log : ℚ))]
      · refine ex_eq _ (errAt_mul he p ops hv hops i ⟨h, j⟩ ⟨h, l⟩ ?_)
        intro hc
        exact hjl (congrArg Pick.j hc)
      · refine hall.mono fun st _ => ?_
        unfold onSketch
        cases st[i]? <;> simp)
  rw [h1, h2, ← ex_sum _ hall, ← ex_mul, ← ex_mul]
  apply ex_mono
  refine ha.mono ?_
  rintro st ⟨s, a1, a2, a3, a4⟩
  unfold onSketch
  rw [a1]
  simp only
  obtain ⟨a, hn⟩ := a3.nums a2.core h
  rw [a2.k] at hn
  have h3 := errAt_squares a3.side h J a2.core.lk.ev (fun e h => (a4 e h).1) a3.once
  have h4 : ∑ j ∈ Finset.range J, (errAt p ⟨h, j⟩ s.log : ℚ) ^ 2 ≤ 2 * 4 ^ h * (impAt p s.log h : ℚ) := by
    exact_mod_cast h3
  refine le_trans (mul_le_mul_of_nonneg_left h4 (by positivity)) ?_
  exact hn.imp

open Rand in
/-- What comes to the next level. -/
theorem came_square (h : Nat) :
    ex (run_total he ops hv hops)
      (onSketch i fun s => came p ((hist env.zero ops).getD i noHist).stream (h + 1) s.log ^ 2) ≤
    ex (run_total he ops hv hops)
      (onSketch i fun s => came p ((hist env.zero ops).getD i noHist).stream h s.log ^ 2) -
    3 * ((hist env.zero ops).getD i noHist).k * ex (run_total he ops hv hops)
      (onSketch i fun s => load p ((hist env.zero ops).getD i noHist).stream h s.log) +
    ex (run_total he ops hv hops) (onSketch i fun s => (errLevel p h s.log : ℚ) ^ 2) := by
  have ha := run_after he p ops hv hops i hi hp
  have hall : All (fun _ => True) (run env ops) := ha.mono fun _ _ => trivial
  obtain ⟨J, hJ⟩ : ∃ J, J = 2 ^ 46 := ⟨_, rfl⟩
  rw [← hJ] at ha
  have h0 : ex (run_total he ops hv hops)
      (fun st => ∑ j ∈ Finset.range J, onSketch i (fun s => gone p h s.log * (errAt p ⟨h, j⟩ s.log : ℚ)) st) =
      0 := by
    rw [ex_sum _ hall]
    apply Finset.sum_eq_zero
    intro j _
    exact ex_eq _ (gone_mul he p ops hv hops i hi hp h j)
  have key : ex (run_total he ops hv hops)
      (onSketch i fun s => came p ((hist env.zero ops).getD i noHist).stream (h + 1) s.log ^ 2) ≤
      ex (run_total he ops hv hops) (fun st =>
        ((onSketch i (fun s => came p ((hist env.zero ops).getD i noHist).stream h s.log ^ 2) st +
        (-(3 * ((hist env.zero ops).getD i noHist).k)) *
          (onSketch i (fun s => load p ((hist env.zero ops).getD i noHist).stream h s.log)) st) +
        onSketch i (fun s => (errLevel p h s.log : ℚ) ^ 2) st) +
        2 * ∑ j ∈ Finset.range J, onSketch i (fun s => gone p h s.log * (errAt p ⟨h, j⟩ s.log : ℚ)) st) := by
    apply ex_mono
    refine ha.mono ?_
    rintro st ⟨s, a1, a2, a3, a4⟩
    obtain ⟨a, hn⟩ := a3.nums a2.core h
    rw [a2.k] at hn
    have h1 := hn.gone
    have h2 : ∑ j ∈ Finset.range J, gone p h s.log * (errAt p ⟨h, j⟩ s.log : ℚ) =
        gone p h s.log * errLevel p h s.log := by
      rw [← Finset.mul_sum, ← errAt_sum p h J s.log fun e h => (a4 e h).1]
      push_cast
      rfl
    unfold onSketch
    rw [a1]
    simp only
    rw [h2, came_succ]
    nlinarith
  rw [ex_add, ex_add, ex_add, ex_mul, ex_mul, h0] at key
  linarith

open Rand in
/-- The mean square of the whole error. -/
theorem error_square (hk : 4 ≤ ((hist env.zero ops).getD i noHist).k) :
    ex (run_total he ops hv hops) (onSketch i fun s => ((s.log.map (Event.err p)).sum : ℤ) ^ 2) ≤
      12 / ((((hist env.zero ops).getD i noHist).k : ℚ) ^ 2 - 12) *
        (((hist env.zero ops).getD i noHist).stream.countP p : ℚ) ^ 2 := by
  have ha := run_after he p ops hv hops i hi hp
  have hall : All (fun _ => True) (run env ops) := ha.mono fun _ _ => trivial
  obtain ⟨L, hL⟩ : ∃ L, L = 47 := ⟨_, rfl⟩
  obtain ⟨J, hJ⟩ : ∃ J, J = 2 ^ 46 := ⟨_, rfl⟩
  rw [← hJ] at ha
  have h1 := level_square he p ops hv hops i hi hp
  have h2 := came_square he p ops hv hops i hi hp
  have horth : ∀ h l : Nat, h ≠ l → ex (run_total he ops hv hops) (fun st =>
      onSketch i (fun s => (errLevel p h s.log : ℚ)) st * onSketch i (fun s => (errLevel p l s.log : ℚ)) st) = 0 := by
    intro h l hhl
    rw [ex_congr (g := fun st => ∑ z ∈ Finset.range J ×ˢ Finset.range J,
      onSketch i (fun s => (errAt p ⟨h, z.1⟩ s.log * errAt p ⟨l, z.2⟩ s.log : ℚ)) st)]
    · rw [ex_sum _ hall]
      apply Finset.sum_eq_zero
      intro z _
      refine ex_eq _ (errAt_mul he p ops hv hops i _ _ ?_)
      intro hc
      exact hhl (congrArg Pick.h hc)
    · refine ha.mono ?_
      rintro st ⟨s, a1, a2, a3, a4⟩
      unfold onSketch
      rw [a1]
      simp only
      rw [Finset.sum_product, ← errAt_sum p h J s.log fun e h => (a4 e h).1,
        ← errAt_sum p l J s.log fun e h => (a4 e h).1]
      push_cast
      rw [Finset.sum_mul_sum]
  have hsum : ex (run_total he ops hv hops) (onSketch i fun s => ((s.log.map (Event.err p)).sum : ℤ) ^ 2) =
      ∑ h ∈ Finset.range L, ex (run_total he ops hv hops)
        (onSketch i fun s => (errLevel p h s.log : ℚ) ^ 2) := by
    have h3 := ex_sq_sum (run_total he ops hv hops) hall (Finset.range L)
      (fun h => onSketch i fun s => (errLevel p h s.log : ℚ)) fun h _ l _ hl => horth h l hl
    rw [ex_congr (g := fun st => (∑ h ∈ Finset.range L, onSketch i (fun s => (errLevel p h s.log : ℚ)) st) ^ 2),
      h3]
    · refine Finset.sum_congr rfl fun h _ => ex_congr _ (hall.mono fun st _ => ?_)
      unfold onSketch
      cases st[i]? <;> simp
    · refine ha.mono ?_
      rintro st ⟨s, a1, a2, a3, a4⟩
      unfold onSketch
      rw [a1]
      simp only
      rw [← errLevel_sum p L s.log fun e h => hL ▸ (a4 e h).2]
      push_cast
      rfl
  rw [hsum]
  generalize hE : (fun h => ex (run_total he ops hv hops)
    (onSketch i fun s => (errLevel p h s.log : ℚ) ^ 2)) = E at *
  generalize hC : (fun h => ex (run_total he ops hv hops)
    (onSketch i fun s => came p ((hist env.zero ops).getD i noHist).stream h s.log ^ 2)) = C at *
  generalize hG : (fun h => ex (run_total he ops hv hops)
    (onSketch i fun s => load p ((hist env.zero ops).getD i noHist).stream h s.log)) = G at *
  have hE' : ∀ h, ex (run_total he ops hv hops)
    (onSketch i fun s => (errLevel p h s.log : ℚ) ^ 2) = E h := fun h => congrFun hE h
  have hC' : ∀ h, ex (run_total he ops hv hops)
    (onSketch i fun s => came p ((hist env.zero ops).getD i noHist).stream h s.log ^ 2) = C h :=
    fun h => congrFun hC h
  have hG' : ∀ h, ex (run_total he ops hv hops)
    (onSketch i fun s => load p ((hist env.zero ops).getD i noHist).stream h s.log) = G h :=
    fun h => congrFun hG h
  simp only [hE', hG', hC'] at h1 h2 ⊢
  have hC0 : C 0 = (((hist env.zero ops).getD i noHist).stream.countP p : ℚ) ^ 2 := by
    rw [← hC' 0]
    refine ex_eq _ (HasE.constI (ha.mono ?_))
    rintro st ⟨s, a1, a2, a3, a4⟩
    unfold onSketch
    rw [a1]
    simp [came, insAt]
  have hCp : ∀ h, 0 ≤ C h := by
    intro h
    rw [← hC' h, ← ex_const (run_total he ops hv hops) hall 0]
    refine ex_mono _ (hall.mono fun st _ => ?_)
    unfold onSketch
    cases st[i]? <;> simp
    positivity
  rw [← hC0]
  generalize ((hist env.zero ops).getD i noHist).k = k at *
  have hkq : (4 : ℚ) ≤ k := by exact_mod_cast hk
  have hden : (0 : ℚ) < (k : ℚ) ^ 2 - 12 := by nlinarith
  have hind : ∀ L, ((k : ℚ) ^ 2 - 12) * ∑ h ∈ Finset.range L, E h + 12 * C L ≤ 12 * C 0 := by
    intro L
    induction L with
    | zero => simp
    | succ L ih =>
      rw [Finset.sum_range_succ]
      have a := h1 L
      have b := h2 L
      nlinarith
  have h5 := hind L
  have h6 := hCp L
  rw [div_mul_eq_mul_div, le_div_iff₀ hden]
  linarith

end

end Verif.Req
