import Verif.ReqFlow

/-!
# The flow of items in programs without merges
-/

namespace Verif.Req

open Verif Verif.View

variable {α : Type} [LinearOrder α]

theorem Flow.noview {p : α → Bool} {s : Sketch α} {S : List α} (h : Flow p s S)
    (v : Option (NumericView α)) : Flow p { s with view := v } S :=
  ⟨h.side, h.ev, h.once, h.past, h.lv⟩

theorem Flow.alike {p : α → Bool} {s s' : Sketch α} {S : List α} (h : Flow p s S) 
    (hk : s'.k = s.k) (hh : s'.hra = s.hra) (hl : s'.log = s.log)
    (hc : List.Forall₂ Alike s.compactors s'.compactors) : Flow p s' S := by
  have hget : ∀ (i : Nat) (d : Compactor α), s'.compactors[i]? = some d →
      ∃ c, s.compactors[i]? = some c ∧ Alike c d := by
    intro i d hd
    obtain ⟨hi, rfl⟩ := List.getElem?_eq_some_iff.1 hd
    have hi' : i < s.compactors.length := by rw [hc.length_eq]; exact hi
    exact ⟨s.compactors[i], List.getElem?_eq_getElem hi', hc.get hi' hi⟩
  refine ⟨by rw [hh]; exact h.side, ?_, by rw [hl]; exact h.once, ?_, ?_⟩
  · rw [hl, ← hc.length_eq]
    exact h.ev
  · intro i d hd
    obtain ⟨c, h1, h2⟩ := hget i d hd
    rw [hl, h2.state]
    exact h.past i c h1
  · intro i d hd
    obtain ⟨c, h1, h2⟩ := hget i d hd
    have hs : d.numSections = c.numSections ∧ d.sectionSize = c.sectionSize := by
      have := h2.secs
      simp only [secsOf, Prod.mk.injEq] at this
      exact ⟨this.1, this.2.2⟩
    rw [hl, hk, h2.state, hs.1, hs.2, h2.items.countP_eq]
    exact h.lv i c h1

theorem Flow.fresh (env : Env α) {p : α → Bool} {s : Sketch α} (hc : s.compactors = [])
    (hl : s.log = []) (hp : Sided s.hra p) : Flow p (grow env s) [] := by
  have hlog : (grow env s).log = [] := hl
  refine ⟨hp, by rw [hlog]; simp, by rw [hlog]; intro h x; simp [statesAt], ?_, ?_⟩
  · rw [hlog]; simp
  · intro i c hi
    have hcs : (grow env s).compactors = [newCompactor env s.compactors.length s.hra s.k] := by
      unfold grow
      simp [hc]
    rw [hcs] at hi
    cases i with
    | zero =>
      rw [List.getElem?_cons_zero, Option.some.injEq] at hi
      rw [← hi, hlog, new_act]
      exact Lev.fresh s.k s.k
    | succ i => simp at hi

theorem Flow.push (env : Env α) {K : Nat} {p : α → Bool} {s : Sketch α} {S : List α} (hs : Core K s S)
    (hf : Flow p s S) (x : α) :
    ∃ s', updateItems env s x = .ok s' ∧ Core K s' (S ++ [x]) ∧ Flow p s' (S ++ [x]) := by
  obtain ⟨c, B, c', hc, g1, g2, g3, g4, g5, h1, h2⟩ := updateItems_ok env hs x
  refine ⟨_, h1, h2, ?_⟩
  have hx : (updateExtremes s x).k = s.k ∧ (updateExtremes s x).hra = s.hra ∧
      (updateExtremes s x).log = s.log := by
    unfold updateExtremes; split <;> exact ⟨rfl, rfl, rfl⟩
  have hss : c'.numSections = c.numSections ∧ c'.sectionSize = c.sectionSize := by
    have := g5
    simp only [secsOf, Prod.mk.injEq] at this
    exact ⟨this.1, this.2.2⟩
  refine ⟨?_, ?_, ?_, ?_, ?_⟩
  · show Sided (updateExtremes s x).hra p
    rw [hx.2.1]; exact hf.side
  · intro e he
    have he : e ∈ (updateExtremes s x).log := he
    rw [hx.2.2] at he
    have := hf.ev e he
    rw [hc] at this
    exact this
  · show ∀ h y, statesAt (updateExtremes s x).log h y ≤ 1
    rw [hx.2.2]; exact hf.once
  · have := hf.past
    rw [hc] at this
    refine lv_head (P := fun i c => ∀ e ∈ (updateExtremes s x).log, e.level = i → e.before.state < c.state)
      (c := c) (B := B) ?_ ?_
    · rw [hx.2.2]; exact this
    · rw [hx.2.2, g3]; exact this 0 c rfl
  · have h0 := hf.lv
    rw [hc] at h0
    refine lv_head (P := fun i c => Lev (updateExtremes s x).k c.numSections c.sectionSize c.state
      ((act c).countP p) (insAt p (S ++ [x]) (updateExtremes s x).log i)
      (delAt p (updateExtremes s x).log i) (impAt p (updateExtremes s x).log i))
      (c := c') (B := B) ?_ ?_
    · rw [hx.2.2, hx.1]
      intro i d hd
      cases i with
      | zero =>
        rw [List.getElem?_cons_zero, Option.some.injEq] at hd
        rw [← hd, g3, hss.1, hss.2, g1.countP_eq, List.countP_cons]
        have := (h0 0 c rfl).insert (if p x = true then 1 else 0)
        simpa [insAt, List.countP_append, List.countP_cons] using this
      | succ i =>
        have := h0 (i + 1) d hd
        simpa [insAt] using this
    · rw [hx.2.2, hx.1, g3, hss.1, hss.2, g1.countP_eq, List.countP_cons]
      have := (h0 0 c rfl).insert (if p x = true then 1 else 0)
      simpa [insAt, List.countP_append, List.countP_cons] using this

theorem Flow.sortZero {K : Nat} {p : α → Bool} {s : Sketch α} {S : List α} (hs : Core K s S)
    (hf : Flow p s S) : ∃ s', Req.sortZero s = .ok s' ∧ Core K s' S ∧ Flow p s' S := by
  obtain ⟨c, B, I, hc, h1, h2, h3⟩ := sortZero_ok hs
  refine ⟨_, h1, h3, hf.alike rfl rfl rfl ?_⟩
  rw [hc]
  refine List.Forall₂.cons ⟨rfl, rfl, rfl, rfl, ?_⟩
    (List.forall₂_same.2 fun _ _ => ⟨rfl, rfl, rfl, rfl, List.Perm.refl _⟩)
  rw [h2]
  exact srt_perm _

theorem update_flow {env : Env α} (he : EnvOk env) {K : Nat} {p : α → Bool} {s : Sketch α}
    {S : List α} (hs : Core K s S) (hn : S.length + 1 < 2 ^ 47) (hf : Flow p s S) (x : α) :
    Rand.All (fun s' => Flow p s' (S ++ [x])) (update env s (some x)) := by
  obtain ⟨s', h1, h2, h3⟩ := hf.push env hs x
  simp only [update]
  rw [h1, Rand.ofOutcome_ok, Rand.ret_bind]
  by_cases hfull : s'.maxNomSize ≤ s'.numRetained
  · rw [if_pos hfull]
    obtain ⟨s'', g1, g2, g3⟩ := h3.sortZero h2
    rw [g1, Rand.ofOutcome_ok, Rand.ret_bind]
    have hl : s''.n < 2 ^ 47 := by
      rw [g2.len, List.length_append, List.length_singleton]; exact hn
    refine (compress_all (Q := fun s => Flow p s (S ++ [x])) he (Flow.closed he p _)
      (fun s h => h.noview none) g2.inv hl g3).bind ?_
    intro a ha
    exact ha.2.1.noview none
  · rw [if_neg hfull]
    exact h3.noview none

/-- The flow of all sketches. -/
def FlowSt (st : List (Sketch α)) (hs : List (Hist α)) : Prop :=
  ∀ (i : Nat) (s : Sketch α), st[i]? = some s → ∀ p, Sided s.hra p →
    Flow p s (hs.getD i noHist).stream

theorem FlowSt.set {st : List (Sketch α)} {hs : List (Hist α)} (h : FlowSt st hs)
    (hl : st.length = hs.length) {i : Nat} (hi : i < hs.length) {s : Sketch α} {g : Hist α}
    (hg : ∀ p, Sided s.hra p → Flow p s g.stream) : FlowSt (st.set i s) (hs.set i g) := by
  intro j t hj
  rw [getD_set hs i j g noHist hi]
  by_cases hji : j = i
  · subst hji
    rw [if_pos rfl]
    rw [List.getElem?_set_self (by rw [hl]; exact hi)] at hj
    cases hj
    exact hg
  · rw [if_neg hji]
    rw [List.getElem?_set_ne (Ne.symm hji)] at hj
    exact h j t hj

theorem FlowSt.set_same {st : List (Sketch α)} {hs : List (Hist α)} (h : FlowSt st hs)
    (hl : st.length = hs.length) {i : Nat} (hi : i < hs.length) {s : Sketch α}
    (hg : ∀ p, Sided s.hra p → Flow p s (hs.getD i noHist).stream) :
    FlowSt (st.set i s) hs := by
  have := h.set hl hi hg
  rwa [show hs.set i (hs.getD i noHist) = hs by
    rw [List.getD_eq_getElem?_getD, List.getElem?_eq_getElem hi, Option.getD_some,
      List.set_getElem_self]] at this

theorem all_forall {ι β : Type} {P : ι → β → Prop} {t : Rand β} (h : ∀ i, Rand.All (P i) t)
    (h0 : Rand.All (fun _ => True) t) : Rand.All (fun b => ∀ i, P i b) t := by
  induction t with
  | ret a => exact fun i => h i
  | err e => exact h0
  | panic => exact h0
  | intn n k ih => exact ⟨h0.1, fun i hi => ih i (fun j => (h j).2 i hi) (h0.2 i hi)⟩
  | unif nz k ih => exact fun u h1 h2 h3 => ih u (fun j => h j u h1 h2 h3) (h0 u h1 h2 h3)

theorem step_flow {env : Env α} (he : EnvOk env) {K : Nat} {st : List (Sketch α)} {hs : List (Hist α)}
    (h : Store env K st hs) (hf : FlowSt st hs) {op : Op α} (ha : Allowed hs op) (hk : Ks K op)
    (hop : op.simple) :
    Rand.All (fun st' => FlowSt st' (histStep env.zero hs op)) (step env st op) := by
  cases op with
  | new k hra =>
    obtain ⟨s, h1, h2⟩ := new_good (env := env) (K := K) hra ha.1 ha.2.1 ha.2.2 hk
    simp only [step, histStep]
    rw [h1, Rand.ofOutcome_ok, Rand.ret_bind]
    unfold newSketch at h1
    rw [if_neg (by have := ha.1; have := ha.2; omega), Outcome.ok.injEq] at h1
    intro i t ht
    rcases Nat.lt_or_ge i st.length with hi | hi
    · rw [List.getElem?_append_left hi] at ht
      rw [List.getD_eq_getElem?_getD, List.getElem?_append_left (by rw [← h.len]; exact hi),
        ← List.getD_eq_getElem?_getD]
      exact hf i t ht
    · rw [List.getElem?_append_right hi] at ht
      have hl := (List.getElem?_eq_some_iff.1 ht).1
      simp only [List.length_singleton] at hl
      have hi0 : i - st.length = 0 := by omega
      rw [hi0, List.getElem?_cons_zero, Option.some.injEq] at ht
      rw [← ht, List.getD_eq_getElem?_getD, List.getElem?_append_right (by rw [← h.len]; exact hi),
        ← h.len, hi0]
      intro p hp
      rw [← h1] at hp ⊢
      exact Flow.fresh env rfl rfl hp
  | update i x =>
    obtain ⟨s, g, h1, h2⟩ := h.get ha.1
    simp only [step]
    rw [h1, Rand.ofOutcome_ok, Rand.ret_bind]
    cases x with
    | none =>
      simp only [update, histStep, Rand.ret_bind]
      exact hf.set_same h.len ha.1 (hf i s g)
    | some x =>
      have hgood := update_good he h2 ha.2 x
      have : Rand.All (fun s' => ∀ p, Sided s'.hra p →
          Flow p s' ((hs.getD i noHist).stream ++ [x])) (update env s (some x)) := by
        apply all_forall _ (hgood.mono fun _ _ => trivial)
        intro p
        by_cases hc : Sided s.hra p
        · exact (update_flow he h2.core ha.2 (hf i s g p hc) x).mono fun _ h _ => h
        · refine hgood.mono ?_
          intro s' hs' h4
          rw [hs'.hra, ← h2.hra] at h4
          exact absurd h4 hc
      refine this.bind ?_
      intro s' hs'
      exact hf.set h.len ha.1 (g := ⟨_, _, _, _, _⟩) hs'
  | merge i j => exact hop.elim
  | reset i =>
    obtain ⟨s, g, h1, h2⟩ := h.get ha
    simp only [step, histStep]
    rw [h1, Rand.ofOutcome_ok, Rand.ret_bind]
    refine hf.set h.len ha ?_
    intro p hp
    exact Flow.fresh env rfl rfl hp
  | query i =>
    obtain ⟨s, g, h1, h2⟩ := h.get ha
    obtain ⟨s', h3, h4⟩ := query_good h2
    simp only [step, histStep]
    rw [h1, Rand.ofOutcome_ok, Rand.ret_bind, h3, Rand.ofOutcome_ok, Rand.ret_bind]
    refine hf.set_same h.len ha ?_
    intro p hp
    obtain ⟨a1, a2, a3, a4, a5⟩ := query_alike h2 h3
    rw [a3] at hp
    exact (hf i s g p hp).alike a2 a3 a4 a5

theorem run_flow {env : Env α} (he : EnvOk env) (ops : List (Op α)) (hv : Valid env.zero ops)
    (hops : ∀ op ∈ ops, op.simple) :
    Rand.All (fun st => FlowSt st (hist env.zero ops)) (run env ops) := by
  have hks : ∀ ops : List (Op α), ∀ op ∈ ops, Ks 0 op := by
    intro ops op _
    cases op <;> simp [Ks]
  induction ops using List.reverseRecOn with
  | nil => intro i s hs; simp at hs
  | append_singleton ops op ih =>
    have hv' : Valid env.zero ops := fun pre o post e => hv pre o (post ++ [op]) (by rw [e]; simp)
    have hg := run_good he ops hv' (hks ops)
    have ih' := ih hv' fun o ho => hops o (List.mem_append_left _ ho)
    have ha : Allowed (hist env.zero ops) op := hv ops op [] rfl
    unfold run hist at *
    rw [List.foldlM_append, List.foldl_append]
    refine (hg.and ih').bind ?_
    rintro st ⟨h1, h2⟩
    simp only [List.foldlM_cons, List.foldlM_nil, List.foldl_cons, List.foldl_nil]
    exact (step_flow he h1 h2 ha (hks [op] op (by simp)) (hops op (by simp))).bind fun _ h => h

end Verif.Req
