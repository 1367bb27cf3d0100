import Verif.ReqRun

/-!
# Properties of the REQ sketch (C37, C38, C49, C50)

The theorems quantify over every program: any number of sketches, created, updated, merged, reset and
queried in any order (`Op`, `run` of `ReqRun.lean`), and over every outcome of the coins (`Rand.All`).
`streamOf zero ops i` is what was presented to sketch `i`, directly or through merges, since its last
reset.  `wsum p items` is the weight of the items with property `p`.
-/

namespace Verif.Req

open Verif Verif.View Verif.Inequality

variable {α : Type} [LinearOrder α]

set_option linter.unusedSectionVars false

/-- The items presented to sketch `i`. -/
def streamOf (zero : α) (ops : List (Op α)) (i : Nat) : List α := ((hist zero ops).getD i noHist).stream

/-- No sketch that is as new as on its creation has a sketch with items merged into it. -/
def Clean (zero : α) (ops : List (Op α)) : Prop :=
  ∀ pre i j post, ops = pre ++ .merge i j :: post →
    ((hist zero pre).getD i noHist).fresh = false ∨ streamOf zero pre j = []

theorem ks_zero (ops : List (Op α)) : ∀ op ∈ ops, Ks 0 op := by
  intro op _
  cases op <;> simp [Ks]

theorem getD_append_single {β : Type} (l : List β) (v d : β) (j : Nat) :
    (l ++ [v]).getD j d = if j = l.length then v else l.getD j d := by
  rw [List.getD_eq_getElem?_getD, List.getD_eq_getElem?_getD]
  rcases Nat.lt_trichotomy j l.length with h | h | h
  · rw [if_neg (by omega), List.getElem?_append_left h]
  · rw [if_pos h, h]; simp
  · rw [if_neg (by omega), List.getElem?_eq_none (by simp; omega), List.getElem?_eq_none (by omega)]

/-- In a clean program the reported extremes are those of the stream. -/
theorem clean_ext {zero : α} (ops : List (Op α)) (hv : Valid zero ops) (hc : Clean zero ops) (i : Nat) :
    ((hist zero ops).getD i noHist).ext = ((hist zero ops).getD i noHist).stream := by
  induction ops using List.reverseRecOn generalizing i with
  | nil => rfl
  | append_singleton ops op ih =>
    have hv' : Valid zero ops := fun pre o post e => hv pre o (post ++ [op]) (by rw [e]; simp)
    have hc' : Clean zero ops := fun pre a b post e => hc pre a b (post ++ [op]) (by rw [e]; simp)
    have ih := ih hv' hc'
    have ha := hv ops op [] rfl
    have hsn : hist zero (ops ++ [op]) = histStep zero (hist zero ops) op := by
      unfold hist; rw [List.foldl_append]; rfl
    rw [hsn]
    cases op with
    | new k hra =>
      simp only [histStep]
      rw [getD_append_single]
      split
      · rfl
      · exact ih i
    | update j x =>
      cases x with
      | none => exact ih i
      | some x =>
        simp only [histStep]
        rw [getD_set _ _ _ _ _ ha.1]
        split
        · simp only
          rw [ih j]
        · exact ih i
    | merge j l =>
      simp only [histStep]
      split
      · exact ih i
      · rename_i hne
        rw [getD_set _ _ _ _ _ ha.1]
        split
        · simp only
          rw [ih j, ih l, (hc ops j l [] rfl).resolve_right hne]
          simp
        · exact ih i
    | reset j =>
      simp only [histStep]
      rw [getD_set _ _ _ _ _ ha]
      split
      · rfl
      · exact ih i
    | query j => exact ih i

/-! ## C37 -/

/-- C37: for every sketch of every program, `N` is the number of items presented, `All` succeeds and
gives as many items as `NumRetained` says, each one presented and of weight a power of two, and the
weights add up to `N`. -/
theorem C37_weight (env : Env α) (he : EnvOk env) (ops : List (Op α)) (hv : Valid env.zero ops) :
    Rand.All (fun st => ∀ (i : Nat) (s : Sketch α), st[i]? = some s →
      s.n = (streamOf env.zero ops i).length ∧
      ∃ items, all s = .ok items ∧ (items.map Prod.snd).sum = s.n ∧
        s.numRetained = items.length ∧
        ∀ z ∈ items, z.1 ∈ streamOf env.zero ops i ∧ ∃ h : Nat, z.2 = 2 ^ h)
      (run env ops) := by
  refine (run_good he ops hv (ks_zero ops)).mono fun st hst => ?_
  intro i s hi
  have hg := hst.good i s hi
  refine ⟨hg.core.len, _, all_ok hg.core, ?_, ?_, ?_⟩
  · have h1 := wItems_wsum (fun _ => true) 1 (levels s)
    have h2 : Kll.rk (fun _ => true) (levels s) = s.n := hg.core.inv.wt
    rw [h2, one_mul, wsum_all fun _ _ => rfl] at h1
    exact h1
  · rw [wItems_length, hg.core.inv.ret]
    congr 1
    exact sumCount_flatten fun c hc => mem_of_get (P := CWf s.k) (fun i c h => (hg.core.inv.lv i c h).wf) c hc
  · intro z hz
    obtain ⟨⟨l, hl, hx⟩, -⟩ := wItems_mem hz
    refine ⟨hg.core.lk.mem l hl _ hx, ?_⟩
    have key : ∀ (Ls : List (List α)) (a : Nat), ∀ z ∈ wItems (2 ^ a) Ls, ∃ h : Nat, z.2 = 2 ^ h := by
      intro Ls
      induction Ls with
      | nil => intro a z hz; simp [wItems] at hz
      | cons l ls ih =>
        intro a z hz
        rw [wItems, List.mem_append, List.mem_map] at hz
        rcases hz with ⟨x, -, rfl⟩ | hz
        · exact ⟨a, rfl⟩
        · exact ih (a + 1) z (by rw [pow_succ, mul_comm]; exact hz)
    exact key (levels s) 0 z (by simpa using hz)

/-- **C37.** A merge of sketches with different accuracy modes is refused, the merge of an empty sketch
changes nothing. -/
theorem C37_merge_refused (env : Env α) (s other : Sketch α) :
    (other.n = 0 → merge env s other = Rand.ret s) ∧
    (other.n ≠ 0 → s.hra ≠ other.hra → merge env s other = Rand.err "hra") := by
  unfold merge
  exact ⟨fun h => if_pos h, fun h h' => by rw [if_neg h, if_pos h']⟩

theorem sumCap_le {K : Nat} {cs : List (Compactor α)} (h : ∀ c ∈ cs, CWf K c) :
    sumCap cs ≤ 33 * K * cs.length := by
  induction cs with
  | nil => simp [sumCap]
  | cons c cs ih =>
    rw [sumCap_cons, List.length_cons]
    have h1 := (h c List.mem_cons_self).cap_le
    have h2 := ih fun d hd => h d (List.mem_cons_of_mem _ hd)
    rw [Nat.mul_succ]
    omega

/-- C37: the number of retained items is less than `33·k` per level, there are at most
`log₂ n + 1` levels, and a second level once `33·k` items were presented. -/
theorem C37_size (env : Env α) (he : EnvOk env) (ops : List (Op α)) (hv : Valid env.zero ops) :
    Rand.All (fun st => ∀ (i : Nat) (s : Sketch α), st[i]? = some s →
      s.numRetained < 33 * s.k * s.compactors.length ∧
      (s.n = 0 → s.compactors.length = 1) ∧ (s.n ≠ 0 → 2 ^ (s.compactors.length - 1) ≤ s.n) ∧
      (33 * s.k ≤ s.n → 1 < s.compactors.length)) (run env ops) := by
  refine (run_good he ops hv (ks_zero ops)).mono fun st hst => ?_
  intro i s hi
  have hg := hst.good i s hi
  have hinv := hg.core.inv
  have hpos := List.length_pos_of_ne_nil hinv.ne
  have h1 : s.numRetained < 33 * s.k * s.compactors.length := by
    have h2 := sumCap_le (K := s.k) (cs := s.compactors)
      fun c hc => mem_of_get (P := CWf s.k) (fun i c h => (hinv.lv i c h).wf) c hc
    have h3 := hg.small
    rw [hinv.nom] at h3
    refine lt_of_lt_of_le h3 ?_
    exact_mod_cast h2
  refine ⟨h1, hinv.empty, fun h0 => hinv.two_pow (by omega), ?_⟩
  · intro hn
    by_contra hl
    have hl1 : s.compactors.length = 1 := by omega
    obtain ⟨c, hc⟩ := List.length_eq_one_iff.1 hl1
    have hw := hinv.wt
    have hr := hinv.ret
    have hwf := (hinv.lv 0 c (by rw [hc]; rfl)).wf
    unfold levels at hw
    rw [hc] at hw hr
    simp only [List.map_cons, List.map_nil, Kll.wt, Kll.rk, List.countP_true, hwf.act_length] at hw
    simp only [sumCount, List.map_cons, List.map_nil, List.sum_cons, List.sum_nil] at hr
    rw [hl1, Nat.cast_one, mul_one, hr] at h1
    have h5 : c.count + 0 < 33 * s.k := by exact_mod_cast h1
    omega

/-! ## C38 -/

/-- C38: in a clean program `MinItem` and `MaxItem` are the smallest and the largest item presented;
an empty sketch refuses. -/
theorem C38_extremes (env : Env α) (he : EnvOk env) (ops : List (Op α)) (hv : Valid env.zero ops)
    (hc : Clean env.zero ops) :
    Rand.All (fun st => ∀ (i : Nat) (s : Sketch α), st[i]? = some s →
      (streamOf env.zero ops i = [] → minItem s = .err "empty" ∧ maxItem s = .err "empty") ∧
      (streamOf env.zero ops i ≠ [] → ∃ mn mx, minItem s = .ok (some mn) ∧ maxItem s = .ok (some mx) ∧
        (mn ∈ streamOf env.zero ops i ∧ ∀ x ∈ streamOf env.zero ops i, mn ≤ x) ∧
        (mx ∈ streamOf env.zero ops i ∧ ∀ x ∈ streamOf env.zero ops i, x ≤ mx)))
      (run env ops) := by
  refine (run_good he ops hv (ks_zero ops)).mono fun st hst => ?_
  intro i s hi
  have hg := hst.good i s hi
  refine ⟨?_, ?_⟩
  · intro hS
    have hn : s.n = 0 := by rw [hg.core.len]; exact List.length_eq_zero_iff.2 hS
    exact ⟨if_pos hn, if_pos hn⟩
  · intro hS
    obtain ⟨-, mn, mx, a1, a2, a3, a4⟩ := hg.ext.used hS
    rw [clean_ext ops hv hc i] at a3 a4
    have hn : s.n ≠ 0 := by
      rw [hg.core.len]
      have := List.length_pos_of_ne_nil hS
      unfold streamOf at this
      omega
    refine ⟨mn, mx, ?_, ?_, a3, a4⟩
    · unfold minItem; rw [if_neg hn, a1]
    · unfold maxItem; rw [if_neg hn, a2]

/-- C38, where the claim fails: a program that fills a sketch and merges it into a new one. -/
def intoNew (k : Nat) (hra : Bool) (xs : List α) : List (Op α) :=
  [.new k hra, .new k hra] ++ xs.map (fun x => .update 1 (some x)) ++ [.merge 0 1]

theorem intoNew_hist (zero : α) (k : Nat) (hra : Bool) (xs : List α) :
    hist zero ([.new k hra, .new k hra] ++ xs.map (fun x => .update 1 (some x))) =
      [⟨k, hra, [], [], true⟩, ⟨k, hra, xs, xs, decide (xs = [])⟩] := by
  induction xs using List.reverseRecOn with
  | nil => rfl
  | append_singleton xs x ih =>
    rw [List.map_append, ← List.append_assoc]
    unfold hist at *
    rw [List.foldl_append, ih]
    simp [histStep]

theorem Valid.nil {zero : α} : Valid zero ([] : List (Op α)) := by
  intro pre op post h
  simp at h

theorem Valid.of_snoc {zero : α} {ops : List (Op α)} {op : Op α} (h : Valid zero ops)
    (ha : Allowed (hist zero ops) op) : Valid zero (ops ++ [op]) := by
  intro pre o post he
  rcases List.eq_nil_or_concat post with rfl | ⟨post', o', rfl⟩
  · obtain ⟨rfl, h2⟩ := List.append_inj' he rfl
    cases h2
    exact ha
  · rw [List.concat_eq_append, show pre ++ o :: (post' ++ [o']) = (pre ++ o :: post') ++ [o'] by simp]
      at he
    exact h pre o post' (List.append_inj' he rfl).1

theorem intoNew_valid {k : Nat} (h4 : 4 ≤ k) (hk : k ≤ 1024) (he : k % 2 = 0) (hra : Bool) (zero : α)
    (xs : List α) (hn : xs.length < 2 ^ 47) : Valid zero (intoNew k hra xs) := by
  have h1 : Valid zero ([.new k hra, .new k hra] ++ xs.map (fun x => Op.update 1 (some x))) := by
    induction xs using List.reverseRecOn with
    | nil => exact (Valid.nil.of_snoc (op := .new k hra) ⟨h4, hk, he⟩).of_snoc ⟨h4, hk, he⟩
    | append_singleton xs x ih =>
      rw [List.length_append, List.length_singleton] at hn
      rw [List.map_append, ← List.append_assoc]
      refine (ih (by omega)).of_snoc ?_
      rw [intoNew_hist]
      exact ⟨by simp, by simpa using hn⟩
  refine h1.of_snoc ?_
  rw [intoNew_hist]
  refine ⟨by simp, by simp, ?_, ?_⟩
  · right; rfl
  · simpa using hn

/-- C38 fails for a sketch merged into a new one: if all items are positive, `MinItem` is 0, which
was never presented; if all are negative, `MaxItem` is 0. -/
theorem C38_phantom_zero (env : Env α) (he : EnvOk env) {k : Nat} (h4 : 4 ≤ k) (hk : k ≤ 1024)
    (hev : k % 2 = 0) (hra : Bool) (xs : List α) (hn : xs.length < 2 ^ 47) (hne : xs ≠ []) :
    streamOf env.zero (intoNew k hra xs) 0 = xs ∧
    ((∀ x ∈ xs, env.zero < x) → Rand.All (fun st => ∃ s, st[0]? = some s ∧
      minItem s = .ok (some env.zero)) (run env (intoNew k hra xs))) ∧
    ((∀ x ∈ xs, x < env.zero) → Rand.All (fun st => ∃ s, st[0]? = some s ∧
      maxItem s = .ok (some env.zero)) (run env (intoNew k hra xs))) := by
  have hh : hist env.zero (intoNew k hra xs) =
      [⟨k, hra, xs, env.zero :: xs, false⟩, ⟨k, hra, xs, xs, decide (xs = [])⟩] := by
    unfold intoNew hist
    rw [List.foldl_append]
    have := intoNew_hist env.zero k hra xs
    unfold hist at this
    rw [this]
    simp [histStep, hne]
  have hrun := run_good he (intoNew k hra xs) (intoNew_valid h4 hk hev hra env.zero xs hn)
    (ks_zero _)
  rw [hh] at hrun
  have key : Rand.All (fun st : List (Sketch α) => ∃ s mn mx, st[0]? = some s ∧
      minItem s = .ok (some mn) ∧ maxItem s = .ok (some mx) ∧
      (mn ∈ env.zero :: xs ∧ ∀ x ∈ env.zero :: xs, mn ≤ x) ∧
      (mx ∈ env.zero :: xs ∧ ∀ x ∈ env.zero :: xs, x ≤ mx)) (run env (intoNew k hra xs)) := by
    refine hrun.mono fun st hst => ?_
    obtain ⟨s, h1, -, hg⟩ := hst.get (i := 0) (by simp)
    obtain ⟨-, mn, mx, a1, a2, a3, a4⟩ := hg.ext.used hne
    have hn : s.n ≠ 0 := by
      rw [hg.core.len]
      have := List.length_pos_of_ne_nil hne
      simp only [List.getD_cons_zero]
      omega
    refine ⟨s, mn, mx, h1, ?_, ?_, a3, a4⟩
    · unfold minItem; rw [if_neg hn, a1]
    · unfold maxItem; rw [if_neg hn, a2]
  refine ⟨by unfold streamOf; rw [hh]; rfl, fun hpos => key.mono ?_, fun hpos => key.mono ?_⟩
  · rintro st ⟨s, mn, mx, h1, h2, -, h3, -⟩
    refine ⟨s, h1, ?_⟩
    rw [h2]
    rcases List.mem_cons.1 h3.1 with h | h
    · rw [h]
    · exact absurd (h3.2 env.zero List.mem_cons_self) (not_le.2 (hpos mn h))
  · rintro st ⟨s, mn, mx, h1, -, h2, -, h3⟩
    refine ⟨s, h1, ?_⟩
    rw [h2]
    rcases List.mem_cons.1 h3.1 with h | h
    · rw [h]
    · exact absurd (h3.2 env.zero List.mem_cons_self) (not_le.2 (hpos mx h))

/-! ## C49 -/

/-- A second query finds the view. -/
theorem refresh_again {env : Env α} {s s' : Sketch α} {v : NumericView α}
    (h : refreshSortedView env s = .ok (v, s')) : refreshSortedView env s' = .ok (v, s') := by
  have hv : s'.view = some v := by
    unfold refreshSortedView at h
    split at h
    · rename_i v' hv'
      cases h
      exact hv'
    · split at h
      · simp at h
      · obtain ⟨_, _, h⟩ := Outcome.bind_eq_ok.1 h
        obtain ⟨_, _, h⟩ := Outcome.bind_eq_ok.1 h
        obtain ⟨_, _, h⟩ := Outcome.bind_eq_ok.1 h
        obtain ⟨_, _, h⟩ := Outcome.bind_eq_ok.1 h
        obtain ⟨_, _, h⟩ := Outcome.bind_eq_ok.1 h
        cases h
        rfl
  unfold refreshSortedView
  rw [hv]

/-- What a query sees: the weighted items `Z'` are the retained items `items` with the extremes. -/
theorem ask_ok {env : Env α} {K : Nat} {s : Sketch α} {h : Hist α} (hg : Good env K s h)
    (hS : h.stream ≠ []) {mn mx : α} (hmn : s.minItem = some mn) (hmx : s.maxItem = some mx) :
    ∃ v Z' s', v.n = s.n ∧ Shows v Z' ∧
      (∀ q incl, wsum (below incl q) Z' = shown incl q mn mx s.n (Kll.rk (below incl q) (levels s))) ∧
      (∀ x, (∃ z ∈ Z', z.1 = x) ↔ x = mn ∨ x = mx ∨ ∃ l ∈ levels s, x ∈ l) ∧
      Good env K s' h ∧
      ∀ {β : Type} (f : NumericView α → Outcome β), ask env s f = (f v >>= fun x => .ok (x, s')) ∧
        ask env s' f = (f v >>= fun x => .ok (x, s')) := by
  obtain ⟨v, s', hr, hg', hvo, e1, e2, hperm, hn⟩ := refresh_good hg hS
  obtain ⟨Z, mn', mx', hZs, hZp, b1, b2, hv⟩ := hvo
  rw [e1, hmn, Option.some.injEq] at b1
  rw [e2, hmx, Option.some.injEq] at b2
  subst b1 b2
  obtain ⟨-, mn', mx', a1, a2, a3, a4⟩ := hg.ext.used hS
  rw [hmn, Option.some.injEq] at a1
  rw [hmx, Option.some.injEq] at a2
  subst a1 a2
  have hbt := hg'.between a3.2 a4.2
  have hZm : ∀ z ∈ Z, (∃ l ∈ levels s', z.1 ∈ l) ∧ 1 ≤ z.2 := by
    intro z hz
    obtain ⟨h1, h2⟩ := wItems_mem (hZp.mem_iff.1 hz)
    exact ⟨h1, h2 (by omega)⟩
  have hmZ : ∀ l ∈ levels s', ∀ x ∈ l, ∃ z ∈ Z, z.1 = x := by
    intro l hl x hx
    obtain ⟨z, hz, hzx⟩ := mem_wItems (w := 1) hl hx
    exact ⟨z, hZp.mem_iff.2 hz, hzx⟩
  have hws : ∀ p, wsum p Z = Kll.rk p (levels s) := by
    intro p
    rw [wsum_perm p hZp, wItems_wsum, one_mul, rk_perm hperm]
  have hZne : Z ≠ [] := by
    obtain ⟨l, hl, x, hx⟩ := hg'.core.item hS
    obtain ⟨z, hz, -⟩ := hmZ l hl x hx
    exact List.ne_nil_of_mem hz
  obtain ⟨v', Z', c1, c2, c3, c4, c5, c6, c7, c8, c9⟩ := newNumericView_ok (n := s'.n) hZs
    (fun z hz => (hZm z hz).2) hZne
    (fun z hz => by
      obtain ⟨⟨l, hl, hx⟩, -⟩ := hZm z hz
      exact (hbt l hl _ hx).1)
    (fun z hz => by
      obtain ⟨⟨l, hl, hx⟩, -⟩ := hZm z hz
      exact (hbt l hl _ hx).2)
    (by
      rw [hws, hn]
      have h2 : Kll.rk (fun _ => true) (levels s) = s.n := hg.core.inv.wt
      rw [h2])
    (by
      intro hn1
      obtain ⟨l, hl, x, hx, hxm⟩ := hg'.single a3 a4 hn1
      obtain ⟨z, hz, rfl⟩ := hmZ l hl x hx
      exact ⟨z, hz, hxm⟩)
  rw [hv] at c1
  cases c1
  refine ⟨v, Z', s', c2.trans hn, c3, ?_, ?_, hg', ?_⟩
  · intro q incl
    rw [c8, hws, hn]
  · intro x
    rw [c6]
    refine or_congr Iff.rfl (or_congr Iff.rfl ⟨?_, ?_⟩)
    · rintro ⟨z, hz, rfl⟩
      obtain ⟨l, hl, hx⟩ := wItems_mem ((hZp.trans (wItems_perm hperm)).mem_iff.1 hz) |>.1
      exact ⟨l, hl, hx⟩
    · rintro ⟨l, hl, hx⟩
      obtain ⟨z, hz, hzx⟩ := mem_wItems (w := 1) hl hx
      exact ⟨z, (hZp.trans (wItems_perm hperm)).mem_iff.2 hz, hzx⟩
  · intro β f
    have hn0 : s.n ≠ 0 := by
      rw [hg.core.len]
      have := List.length_pos_of_ne_nil hS
      omega
    unfold ask
    rw [if_neg hn0, if_neg (by rw [hn]; exact hn0), hr, refresh_again hr, Outcome.ok_bind]
    exact ⟨rfl, rfl⟩

/-- The rank of `q` in the stream: the fraction of the items below (at or below) `q`. -/
def trueRank (S : List α) (q : α) (incl : Bool) : ℚ :=
  (S.countP (below incl q) : ℚ) / S.length

theorem rk_compl (p : α → Bool) (Ls : List (List α)) :
    Kll.rk p Ls + Kll.rk (fun y => !p y) Ls = Kll.rk (fun _ => true) Ls := by
  induction Ls with
  | nil => rfl
  | cons l ls ih =>
    have h := List.length_eq_countP_add_countP p (l := l)
    simp only [Kll.rk, List.countP_true]
    have e : l.countP (fun y => !p y) = l.countP (fun a => decide ¬p a = true) := by
      congr 1; funext y; cases p y <;> rfl
    rw [e]
    omega

/-- C49: the rank of `q` is exact if at most `3·κ` items of the stream lie on the accurate side of
`q`: above it for a sketch with high rank accuracy, below it otherwise.  `κ` is a lower bound of the
`k` of the sketches of the program. -/
theorem C49_exact_ranks (env : Env α) (he : EnvOk env) (ops : List (Op α)) (hv : Valid env.zero ops)
    (hc : Clean env.zero ops) {κ : Nat} (hk : ∀ k hra, Op.new k hra ∈ ops → κ ≤ k) :
    Rand.All (fun st => ∀ (i : Nat) (s : Sketch α), st[i]? = some s →
      let S := streamOf env.zero ops i
      S ≠ [] → ∀ q incl,
        (if s.hra then S.countP (fun y => !below incl q y) else S.countP (below incl q)) ≤ 3 * κ →
        ∃ s', rank env s q incl = .ok (trueRank S q incl, s'))
      (run env ops) := by
  refine (run_good (K := κ) he ops hv (by
    intro op ho
    cases op with
    | new k hra => exact hk k hra ho
    | _ => exact trivial)).mono fun st hst => ?_
  intro i s hi S hS q incl hq
  have hg := hst.good i s hi
  obtain ⟨-, mn, mx, a1, a2, a3, a4⟩ := hg.ext.used hS
  obtain ⟨v, Z', s', h1, h2, h3, -, -, h4⟩ := ask_ok hg hS a1 a2
  refine ⟨s', ?_⟩
  rw [clean_ext ops hv hc i] at a3 a4
  unfold rank
  rw [(h4 _).1, h2.rank, Outcome.ok_bind]
  have hlen : s.n = S.length := hg.core.len
  unfold trueRank
  rw [h1, hlen]
  have hwt : Kll.rk (fun _ => true) (levels s) = s.n := hg.core.inv.wt
  have hrk : Kll.rk (below incl q) (levels s) = S.countP (below incl q) := by
    cases hh : s.hra with
    | false =>
      rw [hh, if_neg (by simp)] at hq
      refine hg.core.lk.exact (p := below incl q) ?_ hq
      unfold Sided
      rw [hh]
      simp only [Bool.false_eq_true, if_false]
      intro a b hab hb
      exact below_mono hab hb
    | true =>
      rw [hh, if_pos rfl] at hq
      have hx : Kll.rk (fun y => !below incl q y) (levels s) = S.countP fun y => !below incl q y :=
        hg.core.lk.exact (p := fun y => !below incl q y) (by
        unfold Sided
        rw [hh]
        simp only [if_true]
        intro a b hab ha
        rw [Bool.not_eq_true'] at ha ⊢
        by_contra hcb
        rw [Bool.not_eq_false] at hcb
        rw [below_mono hab hcb] at ha
        simp at ha) hq
      have e1 := rk_compl (below incl q) (levels s)
      have e2 : S.countP (below incl q) + S.countP (fun y => !below incl q y) = S.length := by
        have := rk_compl (below incl q) [S]
        simpa [Kll.rk] using this
      rw [hwt, hlen, hx] at e1
      omega
  congr 2
  rw [h3, hrk]
  unfold shown
  have hpos : 0 < S.length := List.length_pos_of_ne_nil hS
  split
  · rename_i h0
    have h0' : S.countP (below incl q) = 0 := by exact_mod_cast h0
    rw [List.countP_eq_zero] at h0'
    rw [if_neg (h0' mn a3.1), List.countP_eq_zero.2 h0']
    simp
  · split
    · rename_i h0 hall
      have hall' : S.countP (below incl q) = S.length := by
        rw [hlen] at hall
        exact_mod_cast hall
      rw [List.countP_eq_length] at hall'
      rw [if_pos (hall' mx a4.1), List.countP_eq_length.2 hall', hlen]
      push_cast
      rfl
    · push_cast
      rfl

/-- C49: the largest item (high rank accuracy) or the smallest one (otherwise) is always retained. -/
theorem C49_extreme_retained (env : Env α) (he : EnvOk env) (ops : List (Op α))
    (hv : Valid env.zero ops) :
    Rand.All (fun st => ∀ (i : Nat) (s : Sketch α), st[i]? = some s →
      ∀ m ∈ streamOf env.zero ops i,
        (∀ x ∈ streamOf env.zero ops i, if s.hra then x ≤ m else m ≤ x) →
        ∃ items, all s = .ok items ∧ ∃ z ∈ items, z.1 = m)
      (run env ops) := by
  refine (run_good he ops hv (ks_zero ops)).mono fun st hst => ?_
  intro i s hi m hm hb
  have hg := hst.good i s hi
  obtain ⟨l, hl, hx⟩ := hg.core.lk.peak m hm hb
  exact ⟨_, all_ok hg.core, mem_wItems hl hx⟩

/-! ## C36 for the queries of the sketch -/

/-- C36: the queries of a sketch that is not empty.  They see the retained items with the extremes,
`Z'`; a weight of the retained items that is neither 0 nor `n` is reported unchanged.  A repeated
query gives the same answer and changes nothing. -/
theorem C36_req_queries (env : Env α) (he : EnvOk env) (ops : List (Op α)) (hv : Valid env.zero ops) :
    Rand.All (fun st => ∀ (i : Nat) (s : Sketch α), st[i]? = some s → s.n ≠ 0 →
      ∃ items mn mx Z' s', all s = .ok items ∧ minItem s = .ok (some mn) ∧ maxItem s = .ok (some mx) ∧
        (∀ x, (∃ z ∈ Z', z.1 = x) ↔ x = mn ∨ x = mx ∨ ∃ z ∈ items, z.1 = x) ∧
        wsum (fun _ => true) Z' = s.n ∧
        (∀ q incl, 0 < wsum (below incl q) items → wsum (below incl q) items < s.n →
          wsum (below incl q) Z' = wsum (below incl q) items) ∧
        (∀ q incl, wsum (below incl q) items = 0 →
          wsum (below incl q) Z' = if below incl q mn then 1 else 0) ∧
        (∀ q incl, wsum (below incl q) items = s.n →
          wsum (below incl q) Z' = if below incl q mx then (s.n : Int) else s.n - 1) ∧
        (∀ q incl, rank env s q incl = .ok ((wsum (below incl q) Z' : ℚ) / s.n, s') ∧
          rank env s' q incl = .ok ((wsum (below incl q) Z' : ℚ) / s.n, s')) ∧
        (∀ r : ℚ, 0 ≤ r → r ≤ 1 → ∀ incl, ∃ x, quantile env s r incl = .ok (x, s') ∧
          quantile env s' r incl = .ok (x, s') ∧
          IsQuantile Z' (computeNaturalRank r s.n incl) incl x) ∧
        (∀ r : ℚ, r < 0 ∨ 1 < r → ∀ incl, quantile env s r incl = .err "rank") ∧
        (∀ sp : List α, sp.Pairwise (· < ·) → ∀ incl,
          cdf env s sp incl = .ok (sp.map (fun q => (wsum (below incl q) Z' : ℚ) / s.n) ++ [1], s') ∧
          pmf env s sp incl =
            .ok ((intervals incl none sp).map (fun p => (wsum p Z' : ℚ) / s.n), s')))
      (run env ops) := by
  refine (run_good he ops hv (ks_zero ops)).mono fun st hst => ?_
  intro i s hi hn
  have hg := hst.good i s hi
  have hS : ((hist env.zero ops).getD i noHist).stream ≠ [] := by
    intro hc
    rw [hg.core.len, hc] at hn
    exact hn rfl
  obtain ⟨-, mn, mx, a1, a2, a3, a4⟩ := hg.ext.used hS
  obtain ⟨v, Z', s', h1, h2, h3, h5, -, h4⟩ := ask_ok hg hS a1 a2
  have hws : ∀ p, wsum p (wItems 1 (levels s)) = Kll.rk p (levels s) := by
    intro p
    rw [wItems_wsum, one_mul]
  have hpos : (0 : Int) < s.n := by omega
  refine ⟨_, mn, mx, Z', s', all_ok hg.core, ?_, ?_, ?_, ?_, ?_, ?_, ?_, ?_, ?_, ?_, ?_⟩
  · unfold minItem; rw [if_neg hn, a1]
  · unfold maxItem; rw [if_neg hn, a2]
  · intro x
    rw [h5]
    refine or_congr Iff.rfl (or_congr Iff.rfl ⟨?_, ?_⟩)
    · rintro ⟨l, hl, hx⟩
      exact mem_wItems hl hx
    · rintro ⟨z, hz, rfl⟩
      exact (wItems_mem hz).1
  · rw [h2.total, h1]
  · intro q incl b1 b2
    rw [hws] at b1 b2 ⊢
    rw [h3, shown, if_neg (by omega), if_neg (by omega)]
  · intro q incl b1
    rw [hws] at b1
    rw [h3, shown, if_pos b1]
  · intro q incl b1
    rw [hws] at b1
    rw [h3, shown, if_neg (by omega), if_pos b1]
  · intro q incl
    unfold rank
    rw [(h4 _).1, (h4 _).2, h2.rank, Outcome.ok_bind, h1]
    exact ⟨rfl, rfl⟩
  · intro r r0 r1 incl
    obtain ⟨x, hx, hq⟩ := h2.quantile r0 r1 incl
    rw [h1] at hq
    refine ⟨x, ?_, ?_, hq⟩
    · unfold quantile; rw [(h4 _).1, hx]; rfl
    · unfold quantile; rw [(h4 _).2, hx]; rfl
  · intro r hr incl
    unfold quantile
    rw [(h4 _).1]
    unfold NumericView.quantile validateNormalizedRankBounds
    rw [if_neg h2.pos, if_pos hr]
    rfl
  · intro sp hsp incl
    unfold cdf pmf
    rw [(h4 _).1, (h4 _).1, h2.cdf hsp incl, h2.pmf hsp incl, h1]
    exact ⟨rfl, rfl⟩

/-! ## C50: rank bounds -/

/-- C50: `RankLowerBound(r) ≤ r ≤ RankUpperBound(r)`, the intervals grow with the number of standard
deviations, and they collapse to `r` as long as at most `3·k` items were presented. -/
theorem C50_rank_bounds {relRSE : ℚ} (h0 : 0 ≤ relRSE) (s : Sketch α) {r : ℚ} (hr0 : 0 ≤ r)
    (hr1 : r ≤ 1) {m m' : Int} (hm : 0 ≤ m) (hmm : m ≤ m') :
    sketchRankLB relRSE s r m ≤ r ∧ r ≤ sketchRankUB relRSE s r m ∧
    sketchRankLB relRSE s r m' ≤ sketchRankLB relRSE s r m ∧
    sketchRankUB relRSE s r m ≤ sketchRankUB relRSE s r m' ∧
    (s.n ≤ 3 * s.k → sketchRankLB relRSE s r m = r ∧ sketchRankUB relRSE s r m = r) := by
  have hm0 : (0 : ℚ) ≤ m := by exact_mod_cast hm
  have hmq : (m : ℚ) ≤ m' := by exact_mod_cast hmm
  have hrel : 0 ≤ relRSE / s.k * (if s.hra then 1 - r else r) := by
    split <;> apply mul_nonneg (by positivity) <;> linarith
  have hfix : (0 : ℚ) ≤ 84 / 1000 / s.k := by positivity
  unfold sketchRankLB sketchRankUB rankLowerBound rankUpperBound
  by_cases hx : isExactRank s.k s.compactors.length r s.hra s.n = true
  · simp only [hx, if_true]
    exact ⟨le_refl _, le_refl _, le_refl _, le_refl _, fun _ => ⟨trivial, trivial⟩⟩
  · simp only [hx, if_false, Bool.false_eq_true]
    generalize relRSE / s.k * (if s.hra then 1 - r else r) = a at *
    generalize (84 / 1000 : ℚ) / s.k = b at *
    have e1 := mul_nonneg hm0 hrel
    have e2 := mul_nonneg hm0 hfix
    have e3 := mul_le_mul_of_nonneg_right hmq hrel
    have e4 := mul_le_mul_of_nonneg_right hmq hfix
    refine ⟨max_le (by linarith) (by linarith), le_min (by linarith) (by linarith),
      max_le_max (by linarith) (by linarith), min_le_min (by linarith) (by linarith), ?_⟩
    intro hle
    refine absurd ?_ hx
    unfold isExactRank
    rw [if_pos (Or.inr (by omega))]

/-- The bounds used by `QuantileLowerBound(0)` and `QuantileUpperBound(1)` leave `[0, 1]`. -/
theorem bounds_leave {relRSE : ℚ} (h0 : 0 < relRSE) {s : Sketch α} (hk : 4 ≤ s.k)
    (hl : 1 < s.compactors.length) (hn : 3 * s.k < s.n) {m : Int} (hm : 1 ≤ m) :
    (s.hra = true → sketchRankLB relRSE s 0 m < 0) ∧
    (s.hra = false → 1 < sketchRankUB relRSE s 1 m) := by
  have hk0 : (0 : ℚ) < s.k := by
    have : 0 < s.k := by omega
    exact_mod_cast this
  have hn0 : (0 : ℚ) < s.n := by
    have : 0 < s.n := by omega
    exact_mod_cast this
  have hm0 : (0 : ℚ) < m := by
    have : (0 : Int) < m := by omega
    exact_mod_cast this
  have ht : ((s.k * 3 : Nat) : ℚ) / s.n < 1 := by
    rw [div_lt_iff₀ hn0, one_mul]
    have : s.k * 3 < s.n := by omega
    exact_mod_cast this
  have hr : 0 < relRSE / s.k := by positivity
  have hf : (0 : ℚ) < 84 / 1000 / s.k := by positivity
  have e1 := mul_pos hm0 hr
  have e2 := mul_pos hm0 hf
  refine ⟨?_, ?_⟩
  · intro hh
    have hx : isExactRank s.k s.compactors.length 0 s.hra s.n = false := by
      unfold isExactRank
      rw [if_neg (by omega), hh]
      simp only [if_true, decide_eq_false_iff_not, not_le]
      linarith
    unfold sketchRankLB rankLowerBound
    rw [hx, hh]
    simp only [Bool.false_eq_true, if_false, if_true]
    apply max_lt <;> linarith
  · intro hh
    have hx : isExactRank s.k s.compactors.length 1 s.hra s.n = false := by
      unfold isExactRank
      rw [if_neg (by omega), hh]
      simp only [Bool.false_eq_true, if_false, decide_eq_false_iff_not, not_le]
      exact ht
    unfold sketchRankUB rankUpperBound
    rw [hx, hh]
    simp only [Bool.false_eq_true, if_false]
    apply lt_min <;> linarith

theorem isQuantile_mono {Z : List (α × Int)} {N N' : Int} (h : N ≤ N') {incl : Bool} {x y : α}
    (hx : IsQuantile Z N incl x) (hy : IsQuantile Z N' incl y) : x ≤ y := by
  have hr : ∀ c, reach incl N' c → reach incl N c := by
    intro c hc
    unfold reach at *
    split at hc
    · rename_i hi; rw [if_pos hi]; omega
    · rename_i hi; rw [if_neg hi]; omega
  obtain ⟨⟨zx, hzx, rfl⟩, hx⟩ := hx
  obtain ⟨⟨zy, hzy, rfl⟩, hy⟩ := hy
  rcases hy with ⟨h3, h4⟩ | ⟨h3, h4⟩
  · rcases hx with ⟨h1, h2⟩ | ⟨h1, h2⟩
    · exact h2 _ hzy (hr _ h3)
    · exact absurd (hr _ h3) (h1 _ hzy)
  · exact h4 _ hzx

/-- C50: as long as the rank bounds lie in `[0, 1]`, `QuantileLowerBound` and `QuantileUpperBound`
enclose `Quantile`. -/
theorem C50_quantile_bounds (env : Env α) (he : EnvOk env) (ops : List (Op α))
    (hv : Valid env.zero ops) {relRSE : ℚ} (h0 : 0 ≤ relRSE) :
    Rand.All (fun st => ∀ (i : Nat) (s : Sketch α), st[i]? = some s → s.n ≠ 0 →
      ∀ r : ℚ, 0 ≤ r → r ≤ 1 → ∀ m : Int, 0 ≤ m →
        0 ≤ sketchRankLB relRSE s r m → sketchRankUB relRSE s r m ≤ 1 →
        ∃ a x b s', quantileLowerBound relRSE env s r m = .ok (a, s') ∧
          quantile env s r true = .ok (x, s') ∧
          quantileUpperBound relRSE env s r m = .ok (b, s') ∧ a ≤ x ∧ x ≤ b)
      (run env ops) := by
  refine (C36_req_queries env he ops hv).mono fun st hst => ?_
  intro i s hi hn r r0 r1 m hm hl hu
  obtain ⟨items, mn, mx, Z', s', -, -, -, -, -, -, -, -, -, hq, -⟩ := hst i s hi hn
  obtain ⟨b1, b2, -⟩ := C50_rank_bounds h0 s r0 r1 hm (le_refl m)
  obtain ⟨a, ha, -, qa⟩ := hq _ hl (le_trans b1 r1) true
  obtain ⟨x, hx, -, qx⟩ := hq r r0 r1 true
  obtain ⟨b, hb, -, qb⟩ := hq _ (le_trans r0 b2) hu true
  exact ⟨a, x, b, s', ha, hx, hb, isQuantile_mono (naturalRank_mono b1 _ _) qa qx,
    isQuantile_mono (naturalRank_mono b2 _ _) qx qb⟩

/-- C50 fails at the ends of the rank scale: once a sketch with high rank accuracy is in estimation
mode (more than one level) and has more than `3·k` items, which is the case from `33·k` items on,
`QuantileLowerBound(0)` is an error; without high rank accuracy `QuantileUpperBound(1)` is. -/
theorem C50_quantile_bound_errors (env : Env α) (he : EnvOk env) (ops : List (Op α))
    (hv : Valid env.zero ops) {relRSE : ℚ} (h0 : 0 < relRSE) :
    Rand.All (fun st => ∀ (i : Nat) (s : Sketch α), st[i]? = some s →
      (1 < s.compactors.length ∧ 3 * s.k < s.n) ∨ 33 * s.k ≤ s.n → ∀ m : Int, 1 ≤ m →
        (s.hra = true → quantileLowerBound relRSE env s 0 m = .err "rank") ∧
        (s.hra = false → quantileUpperBound relRSE env s 1 m = .err "rank"))
      (run env ops) := by
  refine (((C36_req_queries env he ops hv).and (run_good he ops hv (ks_zero ops))).and
    (C37_size env he ops hv)).mono ?_
  rintro st ⟨⟨hst, hgood⟩, hsz⟩ i s hi hcase m hm
  have hk4 := (hgood.good i s hi).core.inv.k4
  obtain ⟨hl, hn⟩ : 1 < s.compactors.length ∧ 3 * s.k < s.n := by
    rcases hcase with h | h
    · exact h
    · exact ⟨(hsz i s hi).2.2.2 h, by omega⟩
  obtain ⟨items, mn, mx, Z', s', -, -, -, -, -, -, -, -, -, -, hq, -⟩ := hst i s hi (by omega)
  obtain ⟨b1, b2⟩ := bounds_leave h0 (hgood.good i s hi).core.inv.k4 hl hn hm
  exact ⟨fun hh => hq _ (Or.inl (b1 hh)) true, fun hh => hq _ (Or.inr (b2 hh)) true⟩

/-! ## The hypotheses can be met -/

/-- An environment: `x / √2` by the fraction 1414/2000. -/
def sampleEnv : Env ℤ := ⟨0, fun x => x * (1414 / 2000)⟩

theorem sampleEnv_ok : EnvOk sampleEnv := by
  intro x hx
  unfold sampleEnv
  simp only
  refine ⟨by positivity, ?_⟩
  rw [show 2 * (x * (1414 / 2000)) ^ 2 - x ^ 2 = -(151 / 500000) * x ^ 2 by ring, abs_mul,
    abs_of_nonneg (sq_nonneg x)]
  norm_num
  nlinarith [sq_nonneg x]

/-- A stream into one sketch. -/
def streamProg (k : Nat) (hra : Bool) (xs : List α) : List (Op α) :=
  .new k hra :: xs.map fun x => .update 0 (some x)

theorem streamProg_hist (zero : α) (k : Nat) (hra : Bool) (xs : List α) :
    hist zero (streamProg k hra xs) = [⟨k, hra, xs, xs, decide (xs = [])⟩] := by
  induction xs using List.reverseRecOn with
  | nil => rfl
  | append_singleton xs x ih =>
    rw [show streamProg k hra (xs ++ [x]) = streamProg k hra xs ++ [.update 0 (some x)] by
      simp [streamProg]]
    unfold hist at *
    rw [List.foldl_append, ih]
    simp [histStep]

theorem streamProg_valid {k : Nat} (h4 : 4 ≤ k) (hk : k ≤ 1024) (he : k % 2 = 0) (hra : Bool)
    (zero : α) (xs : List α) (hn : xs.length < 2 ^ 47) : Valid zero (streamProg k hra xs) := by
  induction xs using List.reverseRecOn with
  | nil => exact Valid.nil.of_snoc (op := .new k hra) ⟨h4, hk, he⟩
  | append_singleton xs x ih =>
    rw [List.length_append, List.length_singleton] at hn
    rw [show streamProg k hra (xs ++ [x]) = streamProg k hra xs ++ [.update 0 (some x)] by
      simp [streamProg]]
    refine (ih (by omega)).of_snoc ?_
    rw [streamProg_hist]
    exact ⟨by simp, by simpa using hn⟩

theorem Clean.of_snoc {zero : α} {ops : List (Op α)} {op : Op α} (h : Clean zero ops)
    (ha : ∀ i j, op = .merge i j → ((hist zero ops).getD i noHist).fresh = false ∨
      streamOf zero ops j = []) : Clean zero (ops ++ [op]) := by
  intro pre i j post he
  rcases List.eq_nil_or_concat post with rfl | ⟨post', o', rfl⟩
  · obtain ⟨rfl, h2⟩ := List.append_inj' he rfl
    cases h2
    exact ha i j rfl
  · rw [List.concat_eq_append,
      show pre ++ Op.merge i j :: (post' ++ [o']) = (pre ++ Op.merge i j :: post') ++ [o'] by simp] at he
    exact h pre i j post' (List.append_inj' he rfl).1

theorem streamProg_clean (k : Nat) (hra : Bool) (zero : α) (xs : List α) :
    Clean zero (streamProg k hra xs) := by
  intro pre i j post he
  have : Op.merge i j ∈ streamProg k hra xs := by rw [he]; simp
  simp [streamProg] at this

/-- Two streams merged, queries in between. -/
def twoStreams (xs ys : List α) : List (Op α) :=
  streamProg 12 true xs ++ [.new 8 true] ++ ys.map (fun y => .update 1 (some y)) ++
    [.query 0] ++ [.merge 0 1] ++ [.reset 1]

theorem twoStreams_ok (zero : α) (X ys : List α) (hXne : X ≠ []) (hn : X.length + ys.length < 2 ^ 46) :
    Valid zero (twoStreams X ys) ∧ Clean zero (twoStreams X ys) ∧
      streamOf zero (twoStreams X ys) 0 = X ++ ys ∧
      ∀ k hra, Op.new k hra ∈ twoStreams X ys → 8 ≤ k := by
  have h1 : ∀ ys : List α, hist zero (streamProg 12 true X ++ [.new 8 true] ++
      ys.map (fun y => .update 1 (some y))) =
      [⟨12, true, X, X, false⟩, ⟨8, true, ys, ys, decide (ys = [])⟩] := by
    intro ys
    induction ys using List.reverseRecOn with
    | nil =>
      have := streamProg_hist zero 12 true X
      unfold hist at *
      rw [List.map_nil, List.append_nil, List.foldl_append, this]
      simp [histStep, hXne]
    | append_singleton ys y ih =>
      rw [List.map_append, ← List.append_assoc]
      unfold hist at *
      rw [List.foldl_append, ih]
      simp [histStep]
  have v1 : Valid zero (streamProg 12 true X ++ [.new 8 true] ++
      ys.map (fun y => Op.update 1 (some y))) ∧ Clean zero (streamProg 12 true X ++ [.new 8 true] ++
      ys.map (fun y => Op.update 1 (some y))) := by
    induction ys using List.reverseRecOn with
    | nil =>
      rw [List.map_nil, List.append_nil]
      refine ⟨(streamProg_valid (by omega) (by omega) rfl true zero X (by omega)).of_snoc
        ⟨by omega, by omega, rfl⟩, (streamProg_clean 12 true zero X).of_snoc ?_⟩
      intro i j h; simp at h
    | append_singleton ys y ih =>
      rw [List.length_append, List.length_singleton] at hn
      have ih := ih (by omega)
      rw [List.map_append, ← List.append_assoc]
      refine ⟨ih.1.of_snoc ?_, ih.2.of_snoc ?_⟩
      · rw [h1]
        exact ⟨by simp, by simp; omega⟩
      · intro i j h; simp at h
  have h2 : hist zero (streamProg 12 true X ++ [.new 8 true] ++
      ys.map (fun y => .update 1 (some y)) ++ [.query 0]) =
      [⟨12, true, X, X, false⟩, ⟨8, true, ys, ys, decide (ys = [])⟩] := by
    unfold hist at *
    rw [List.foldl_append, h1]
    rfl
  have v2 := v1.1.of_snoc (op := .query 0) (by rw [h1]; simp [Allowed])
  have c2 := v1.2.of_snoc (op := .query 0) (by intro i j h; simp at h)
  have v3 := v2.of_snoc (op := .merge 0 1) (by
    rw [h2]
    exact ⟨by simp, by simp, Or.inr rfl, by simp; omega⟩)
  have c3 := c2.of_snoc (op := .merge 0 1) (by
    intro i j h
    cases h
    left
    rw [h2]
    rfl)
  have hl : ∃ a b, hist zero (streamProg 12 true X ++ [.new 8 true] ++
      ys.map (fun y => .update 1 (some y)) ++ [.query 0] ++ [.merge 0 1]) = [a, b] ∧
      a.stream = X ++ ys := by
    unfold hist at *
    rw [List.foldl_append, h2]
    simp only [List.foldl_cons, List.foldl_nil, histStep]
    by_cases hy : ys = []
    · exact ⟨_, _, if_pos hy, by simp [hy]⟩
    · exact ⟨_, _, if_neg hy, rfl⟩
  obtain ⟨a, b, hab, ha⟩ := hl
  refine ⟨v3.of_snoc (op := .reset 1) (by rw [hab]; simp [Allowed]),
    c3.of_snoc (op := .reset 1) (by intro i j h; simp at h), ?_, ?_⟩
  · unfold streamOf twoStreams
    unfold hist at *
    rw [List.foldl_append, hab]
    simpa [histStep] using ha
  · intro k hra h
    simp [twoStreams, streamProg] at h
    omega

example (xs ys : List ℤ) (hx : xs ≠ []) (hn : xs.length + ys.length < 2 ^ 46) :=
  C37_weight sampleEnv sampleEnv_ok _ (twoStreams_ok sampleEnv.zero xs ys hx hn).1

example (xs ys : List ℤ) (hx : xs ≠ []) (hn : xs.length + ys.length < 2 ^ 46) :=
  C37_size sampleEnv sampleEnv_ok _ (twoStreams_ok sampleEnv.zero xs ys hx hn).1

example (xs ys : List ℤ) (hx : xs ≠ []) (hn : xs.length + ys.length < 2 ^ 46) :=
  C38_extremes sampleEnv sampleEnv_ok _ (twoStreams_ok sampleEnv.zero xs ys hx hn).1
    (twoStreams_ok sampleEnv.zero xs ys hx hn).2.1

example := C38_phantom_zero sampleEnv sampleEnv_ok (k := 12) (by omega) (by omega) rfl true [5, 3, 7]
  (by simp) (by simp)

example (xs ys : List ℤ) (hx : xs ≠ []) (hn : xs.length + ys.length < 2 ^ 46) :=
  C49_exact_ranks sampleEnv sampleEnv_ok _ (twoStreams_ok sampleEnv.zero xs ys hx hn).1
    (twoStreams_ok sampleEnv.zero xs ys hx hn).2.1 (κ := 8) (twoStreams_ok sampleEnv.zero xs ys hx hn).2.2.2

example (xs : List ℤ) (hn : xs.length < 2 ^ 47) :=
  C49_extreme_retained sampleEnv sampleEnv_ok _
    (streamProg_valid (k := 4) (by omega) (by omega) rfl false sampleEnv.zero xs hn)

example (xs ys : List ℤ) (hx : xs ≠ []) (hn : xs.length + ys.length < 2 ^ 46) :=
  C36_req_queries sampleEnv sampleEnv_ok _ (twoStreams_ok sampleEnv.zero xs ys hx hn).1

example (xs ys : List ℤ) (hx : xs ≠ []) (hn : xs.length + ys.length < 2 ^ 46) :=
  C50_quantile_bounds sampleEnv sampleEnv_ok _ (twoStreams_ok sampleEnv.zero xs ys hx hn).1 (relRSE := 13 / 100)
    (by norm_num)

example (xs : List ℤ) (hn : xs.length < 2 ^ 47) :=
  C50_quantile_bound_errors sampleEnv sampleEnv_ok _
    (streamProg_valid (k := 4) (by omega) (by omega) rfl true sampleEnv.zero xs hn) (relRSE := 13 / 100)
    (by norm_num)

end Verif.Req
