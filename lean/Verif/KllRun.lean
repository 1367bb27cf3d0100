import Verif.KllMerge

/-!
# Programs over several KLL sketches

The callers considered in the properties: any sequence of creations, updates, merges and resets over
any number of sketches.
-/

namespace Verif.Kll

open Verif

variable {α : Type}

/-- One call; sketches are numbered in the order of their creation. -/
inductive Op (α : Type) where
  /-- `NewKllItemsSketch(k, m, ..)` -/
  | new (k m : Nat)
  /-- `sketch i .Update(x)`, `none` is a nil item -/
  | update (i : Nat) (x : Option α)
  /-- `sketch i .Merge(sketch j)` -/
  | merge (i j : Nat)
  /-- `sketch i .Reset()` -/
  | reset (i : Nat)

def pair (st : List (Sketch α)) (i j : Nat) : Outcome (Sketch α × Sketch α) := do
  let s ← rd st i
  let o ← rd st j
  .ok (s, o)

/-- Run one call on the store of sketches. -/
def step (env : Env α) (st : List (Sketch α)) : Op α → Rand (List (Sketch α))
  | .new k m => Rand.ofOutcome (newSketch env k m) >>= fun s => Rand.ret (st ++ [s])
  | .update i x => Rand.ofOutcome (rd st i) >>= fun s =>
      update env s x >>= fun s' => Rand.ret (st.set i s')
  | .merge i j => Rand.ofOutcome (pair st i j) >>= fun q =>
      merge env q.1 q.2 >>= fun s' => Rand.ret (st.set i s')
  | .reset i => Rand.ofOutcome (rd st i) >>= fun s => Rand.ret (st.set i (reset env s))

def run (env : Env α) (ops : List (Op α)) : Rand (List (Sketch α)) := ops.foldlM (step env) []

/-! ## Specification: the streams, and which calls are allowed -/

/-- The stream of items each sketch stands for. -/
def streamStep (ss : List (List α)) : Op α → List (List α)
  | .new _ _ => ss ++ [[]]
  | .update i x => ss.set i (ss.getD i [] ++ x.toList)
  | .merge i j => ss.set i (ss.getD i [] ++ ss.getD j [])
  | .reset i => ss.set i []

def streams (ops : List (Op α)) : List (List α) := ops.foldl streamStep []

/-- Parameters in range, only existing sketches are used, no sketch is merged into itself, and no
stream reaches `2^60` items. -/
def Allowed (ss : List (List α)) : Op α → Prop
  | .new k m => 8 ≤ k ∧ k ≤ 65535 ∧ 2 ≤ m ∧ m ≤ k
  | .update i _ => i < ss.length ∧ (ss.getD i []).length + 1 < 2 ^ 60
  | .merge i j => i < ss.length ∧ j < ss.length ∧ i ≠ j ∧
      (ss.getD i []).length + (ss.getD j []).length < 2 ^ 60
  | .reset i => i < ss.length

def Valid (ops : List (Op α)) : Prop :=
  ∀ pre op post, ops = pre ++ op :: post → Allowed (streams pre) op

/-- Items of level `h` -/
def levelItems (s : Sketch α) (h : Nat) : List α :=
  (s.items.take (s.levels.getD (h + 1) 0)).drop (s.levels.getD h 0)

/-- Weight of the retained items that satisfy `p`: an item of level `h` counts `2^h`. -/
def weightOf (p : α → Bool) (s : Sketch α) : Nat :=
  ((List.range s.numLevels).map fun h => 2 ^ h * (levelItems s h).countP p).sum

/-- Sketches whose random choices are independent of those of all others: a sketch that has been
merged into another one is not, until it is reset. -/
def liveStep (lv : List Bool) : Op α → List Bool
  | .new _ _ => lv ++ [true]
  | .update _ _ => lv
  | .merge i j => (lv.set i (lv.getD i false && lv.getD j false)).set j false
  | .reset i => lv.set i true

def live (ops : List (Op α)) : List Bool := ops.foldl liveStep []

/-! ## Reading the representation -/

theorem Rep.levelItems {s : Sketch α} {a : Abs α} (hr : Rep s a) {h : Nat} (hh : h < a.Ls.length) :
    levelItems s h = a.Ls.getD h [] := by
  obtain ⟨G, hG, hit⟩ := hr.items
  obtain ⟨Q, T, e, hQ⟩ := level_split G a.Ls hh
  unfold Kll.levelItems
  rw [hr.levels, List.getD_eq_getElem?_getD, offs_get _ _ (by omega), List.getD_eq_getElem?_getD,
    offs_get _ _ (by omega), hit, e]
  simp only [Option.getD_some]
  have hsz : size (a.Ls.take (h + 1)) = size (a.Ls.take h) + (a.Ls.getD h []).length := by
    rw [List.take_add_one, List.getElem?_eq_getElem hh, List.getD_eq_getElem?_getD,
      List.getElem?_eq_getElem hh, size_append]
    simp
  rw [hsz]
  have h1 : a.free + (size (a.Ls.take h) + (a.Ls.getD h []).length) =
      (Q ++ a.Ls.getD h []).length := by
    rw [List.length_append, hQ, hG]; omega
  have h2 : a.free + size (a.Ls.take h) = Q.length := by rw [hQ, hG]
  rw [h1, h2, List.take_left' rfl, List.drop_left' rfl]

theorem sum_levels (p : α → Bool) (Ls : List (List α)) :
    ((List.range Ls.length).map fun h => 2 ^ h * (Ls.getD h []).countP p).sum = rk p Ls := by
  induction Ls with
  | nil => rfl
  | cons l ls ih =>
    rw [List.length_cons, List.range_succ_eq_map]
    simp only [List.map_cons, List.map_map, List.sum_cons, rk]
    rw [← ih, ← List.sum_map_mul_left]
    simp [Function.comp_def, Nat.pow_succ', Nat.mul_assoc]

theorem Rep.weightOf {s : Sketch α} {a : Abs α} (hr : Rep s a) (p : α → Bool) :
    weightOf p s = rk p a.Ls := by
  unfold Kll.weightOf
  rw [hr.numLevels, ← sum_levels]
  congr 1
  apply List.map_congr_left
  intro h hh
  rw [hr.levelItems (List.mem_range.1 hh)]

/-! ## One sketch -/

/-- Assumptions of the quantitative part: `K`: all `k` at most 32767; all `k` at least `κ` -/
def Link (env : Env α) (K : Prop) (κ : Nat) (s : Sketch α) (S : List α) : Prop :=
  ∃ a, Rep s a ∧ Inv env K S a ∧ κ ≤ a.minK

def emptyAbs (env : Env α) (k m minK : Nat) : Abs α :=
  ⟨k, m, minK, false, 0, k, [[]], env.zero, env.zero, false, []⟩

theorem emptyAbs_inv (env : Env α) {K : Prop} {k m minK : Nat} (hk : k ≤ 65535)
    (hm : 2 ≤ m) (hmk : m ≤ k) (hminK : minK ≤ k) (h0 : 0 < minK) (hK : K → k ≤ 32767) :
    Inv env K [] (emptyAbs env k m minK) := by
  refine ⟨⟨hk, hm, hmk, ?_, ?_, ?_⟩, ⟨by simp [emptyAbs], rfl, rfl, Or.inl rfl, by simp [emptyAbs],
    fun _ => rfl⟩, ?_, ?_, hminK, fun _ => rfl, ?_, by simp [emptyAbs]⟩
  · have := tot_le hmk 1
    show tot k m 1 ≤ k + size [([] : List α)]
    omega
  · show k + size [([] : List α)] ≤ k * 1
    simp
  · intro hk
    have hk : k ≤ 32767 := hk
    show k + size [([] : List α)] = tot k m 1
    have e : k * 2 % 65536 = k * 2 := Nat.mod_eq_of_lt (by omega)
    have e2 : icapA k 0 = k := by
      unfold icapA
      rw [e]
      simp only [pow_zero, Nat.mul_one, Nat.div_one]
      rw [if_pos (by omega)]
      omega
    simp [tot, cap, icap, e2]
    omega
  · intro _ _
    refine ⟨by simp [emptyAbs], ?_, ?_⟩
    · intro h
      simp [emptyAbs] at h
    · intro p _
      simp [emptyAbs, rk]
  · intro _
    refine ⟨by simp [emptyAbs], by simp, by simp, by simp, by simp⟩
  · intro hk
    refine ⟨hK hk, h0, ?_, Or.inl rfl⟩
    simp [emptyAbs, Phi, phiU, phi]

theorem new_ok (env : Env α) {k m : Nat} (h8 : 8 ≤ k) (hk : k ≤ 65535) :
    newSketch env k m =
      .ok ⟨k, m, k, 1, false, 0, [k, k], List.replicate k env.zero, env.zero, env.zero, false, []⟩ := by
  unfold newSketch
  rw [if_neg (by omega)]

theorem empty_rep (env : Env α) (k m minK : Nat) :
    Rep ⟨k, m, minK, 1, false, 0, [k, k], List.replicate k env.zero, env.zero, env.zero, false, []⟩
      (emptyAbs env k m minK) :=
  { k := rfl
    m := rfl
    minK := rfl
    zs := rfl
    n := rfl
    numLevels := rfl
    levels := rfl
    items := ⟨List.replicate k env.zero, by simp [emptyAbs], by simp [emptyAbs]⟩
    minItem := rfl
    maxItem := rfl
    hasMinMax := rfl
    log := rfl }

section one
variable {env : Env α} {K : Prop} {κ : Nat}

theorem Link.minK_pos {s : Sketch α} {S : List α} (h : Link env K κ s S) (h0 : 0 < κ) :
    0 < s.minK := by
  obtain ⟨a, hr, hi, hk⟩ := h
  rw [hr.minK]; omega

theorem Link.reset {s : Sketch α} {S : List α} (h : Link env K κ s S) (h0 : 0 < κ) :
    Link env K κ (reset env s) [] := by
  obtain ⟨a, hr, hi, hk⟩ := h
  refine ⟨emptyAbs env a.k a.m a.minK, ?_, emptyAbs_inv env hi.shape.k hi.shape.m2 hi.shape.mle
    hi.kappa (by omega) (fun h => (hi.pot h).1), hk⟩
  unfold Kll.reset
  rw [hr.k, hr.m, hr.minK]
  exact empty_rep env _ _ _

theorem Link.update {s : Sketch α} {S : List α} (hs : ∀ l, (env.sort l).Perm l)
    (h : Link env K κ s S) (hn : S.length + 1 < 2 ^ 60) (x : Option α) :
    Rand.All (fun s' => Link env K κ s' (S ++ x.toList)) (update env s x) := by
  obtain ⟨a, hr, hi, hk⟩ := h
  cases x with
  | none => exact ⟨a, hr, by simpa using hi, hk⟩
  | some x =>
    have hsim := updateSome_sim hs hr hi.shape hi.core (by rw [← hi.core.len]; omega) x
    refine (hsim.all (aUpdate_inv hs hi x)).mono ?_
    rintro s' ⟨b, hb, h1, _, _, _, h5⟩
    exact ⟨b, hb, h1, by rw [h5]; exact hk⟩

theorem Link.merge {s o : Sketch α} {S T : List α} (hs : ∀ l, (env.sort l).Perm l)
    (h : Link env K κ s S) (h' : Link env K κ o T) (hn : S.length + T.length < 2 ^ 60) :
    Rand.All (fun s' => Link env K κ s' (S ++ T)) (merge env s o) := by
  obtain ⟨a, hr, hi, hk⟩ := h
  obtain ⟨b, hr', hi', hk'⟩ := h'
  have hsim := merge_sim hs hr hi hr' hi' (by rw [← hi.core.len, ← hi'.core.len]; exact hn)
  refine (hsim.all (aMerge_inv hs hi hi')).mono ?_
  rintro s' ⟨b, hb, h1, _, _, h5⟩
  exact ⟨b, hb, h1, by omega⟩

theorem Link.update_E {s : Sketch α} {S : List α} (hs : ∀ l, (env.sort l).Perm l)
    (h : Link env K κ s S) (hn : S.length + 1 < 2 ^ 60) (x : Option α) (p : α → Bool) :
    Rand.HasE (fun s' => (weightOf p s' : ℚ)) (Kll.update env s x)
      (weightOf p s + x.toList.countP p) := by
  obtain ⟨a, hr, hi, hk⟩ := h
  cases x with
  | none =>
    show _ = _
    simp
  | some x =>
    have hsim := updateSome_sim hs hr hi.shape hi.core (by rw [← hi.core.len]; omega) x
    have := hsim.hasE (f := fun s' => (weightOf p s' : ℚ)) (aUpdate_E hs hi x p)
      (fun s' b hb => by rw [hb.weightOf]; rfl)
    have e : rkQ p a.Ls + (if p x then 1 else 0) =
        (weightOf p s : ℚ) + ((some x).toList.countP p : ℚ) := by
      rw [hr.weightOf]
      simp only [rkQ, Option.toList_some, List.countP_singleton]
      split <;> simp
    rw [e] at this
    exact this

theorem Link.merge_E {s o : Sketch α} {S T : List α} (hs : ∀ l, (env.sort l).Perm l)
    (h : Link env K κ s S) (h' : Link env K κ o T) (hn : S.length + T.length < 2 ^ 60)
    (p : α → Bool) :
    Rand.HasE (fun s' => (weightOf p s' : ℚ)) (Kll.merge env s o) (weightOf p s + weightOf p o) := by
  obtain ⟨a, hr, hi, hk⟩ := h
  obtain ⟨b, hr', hi', hk'⟩ := h'
  have hsim := merge_sim hs hr hi hr' hi' (by rw [← hi.core.len, ← hi'.core.len]; exact hn)
  have := hsim.hasE (f := fun s' => (weightOf p s' : ℚ)) (aMerge_E hs hi hi' p)
    (fun s' b hb => by rw [hb.weightOf]; rfl)
  rw [hr.weightOf, hr'.weightOf]
  exact this

theorem Link.update_sq {s : Sketch α} {S : List α} (ho : IsOrd env.lt) (hso : Sorts env)
    (h : Link env K κ s S) (hn : S.length + 1 < 2 ^ 60) (x : Option α) {p : α → Bool}
    (hp : Down env.lt p) :
    Rand.ELe (fun s' => ((weightOf p s' : ℚ) - (S ++ x.toList).countP p) ^ 2 - q4 s'.log)
      (Kll.update env s x) (((weightOf p s : ℚ) - S.countP p) ^ 2 - q4 s.log) := by
  obtain ⟨a, hr, hi, hk⟩ := h
  cases x with
  | none =>
    show _ ≤ _
    simp
  | some x =>
    have hsim := updateSome_sim hso.perm hr hi.shape hi.core (by rw [← hi.core.len]; omega) x
    have := hsim.eLe (f := fun s' => ((weightOf p s' : ℚ) - (S ++ (some x).toList).countP p) ^ 2 -
      q4 s'.log) (aUpdate_sq ho hso hi x hp (S.countP p))
      (fun s' b hb => by
        rw [hb.weightOf, hb.log, List.countP_append]
        apply le_of_eq
        simp only [rkQ, Option.toList_some, List.countP_singleton]
        split <;> simp)
    rw [hr.weightOf, hr.log]
    exact this

theorem Link.merge_sq {s o : Sketch α} {S T : List α} (hord : IsOrd env.lt) (hso : Sorts env)
    (h : Link env K κ s S) (h' : Link env K κ o T) (hn : S.length + T.length < 2 ^ 60)
    {p : α → Bool} (hp : Down env.lt p) :
    Rand.ELe (fun s' => ((weightOf p s' : ℚ) - (S ++ T).countP p) ^ 2 - q4 s'.log)
      (Kll.merge env s o) (((weightOf p s : ℚ) + weightOf p o - (S ++ T).countP p) ^ 2 -
        (q4 s.log + q4 o.log)) := by
  obtain ⟨a, hr, hi, hk⟩ := h
  obtain ⟨b, hr', hi', hk'⟩ := h'
  have hsim := merge_sim hso.perm hr hi hr' hi' (by rw [← hi.core.len, ← hi'.core.len]; exact hn)
  have := hsim.eLe (f := fun s' => ((weightOf p s' : ℚ) - (S ++ T).countP p) ^ 2 - q4 s'.log)
    (aMerge_sq hord hso hi hi' hp ((S ++ T).countP p : ℚ))
    (fun s' b hb => by rw [hb.weightOf, hb.log]; exact le_refl _)
  rw [hr.weightOf, hr'.weightOf, hr.log, hr'.log]
  exact this

end one

/-! ## The store -/

structure Store (env : Env α) (K : Prop) (κ : Nat) (st : List (Sketch α)) (ss : List (List α)) :
    Prop where
  len : st.length = ss.length
  link : ∀ i s, st[i]? = some s → Link env K κ s (ss.getD i [])

theorem Store.get {env : Env α} {K : Prop} {κ : Nat} {st : List (Sketch α)} {ss : List (List α)}
    (h : Store env K κ st ss) {i : Nat} (hi : i < ss.length) :
    ∃ s, st[i]? = some s ∧ rd st i = .ok s ∧ Link env K κ s (ss.getD i []) := by
  have hi' : i < st.length := by rw [h.len]; exact hi
  have e : st[i]? = some st[i] := List.getElem?_eq_getElem hi'
  refine ⟨st[i], e, ?_, h.link i _ e⟩
  unfold rd
  rw [e]; rfl

theorem getD_set {β : Type} (l : List β) (i j : Nat) (v d : β) (hi : i < l.length) :
    (l.set i v).getD j d = if j = i then v else l.getD j d := by
  by_cases h : j = i
  · subst h
    rw [if_pos rfl]
    simp [List.getD_eq_getElem?_getD, hi]
  · rw [if_neg h]
    simp [List.getD_eq_getElem?_getD, Ne.symm h]

theorem Store.set {env : Env α} {K : Prop} {κ : Nat} {st : List (Sketch α)} {ss : List (List α)}
    (h : Store env K κ st ss) {i : Nat} (hi : i < ss.length) {s : Sketch α} {S : List α}
    (hl : Link env K κ s S) : Store env K κ (st.set i s) (ss.set i S) := by
  refine ⟨by simp [h.len], fun j t hj => ?_⟩
  rw [getD_set ss i j S [] hi]
  by_cases hji : j = i
  · subst hji
    rw [if_pos rfl]
    rw [List.getElem?_set_self (by rw [h.len]; exact hi)] at hj
    cases hj
    exact hl
  · rw [if_neg hji]
    rw [List.getElem?_set_ne (Ne.symm hji)] at hj
    exact h.link j t hj

/-- Range of the parameter `k` in a program -/
def Ks (K : Prop) (κ : Nat) : Op α → Prop
  | .new k _ => κ ≤ k ∧ (K → k ≤ 32767)
  | _ => True

theorem step_new (env : Env α) (st : List (Sketch α)) {k m : Nat} (h8 : 8 ≤ k) (hk : k ≤ 65535) :
    step env st (.new k m) = Rand.ret (st ++ [⟨k, m, k, 1, false, 0, [k, k],
      List.replicate k env.zero, env.zero, env.zero, false, []⟩]) := by
  simp only [step]
  rw [new_ok env h8 hk, Rand.ofOutcome_ok, Rand.ret_bind]

theorem step_update (env : Env α) {st : List (Sketch α)} {i : Nat} {s : Sketch α} {x : Option α}
    (e : rd st i = .ok s) :
    step env st (.update i x) = update env s x >>= fun s' => Rand.ret (st.set i s') := by
  simp only [step]
  rw [e, Rand.ofOutcome_ok, Rand.ret_bind]

theorem step_merge (env : Env α) {st : List (Sketch α)} {i j : Nat} {s o : Sketch α}
    (e : rd st i = .ok s) (e' : rd st j = .ok o) :
    step env st (.merge i j) = merge env s o >>= fun s' => Rand.ret (st.set i s') := by
  simp only [step, pair]
  rw [e, Outcome.ok_bind, e', Outcome.ok_bind, Rand.ofOutcome_ok, Rand.ret_bind]

theorem step_reset (env : Env α) {st : List (Sketch α)} {i : Nat} {s : Sketch α}
    (e : rd st i = .ok s) : step env st (.reset i) = Rand.ret (st.set i (reset env s)) := by
  simp only [step]
  rw [e, Rand.ofOutcome_ok, Rand.ret_bind]

theorem step_link {env : Env α} (hs : ∀ l, (env.sort l).Perm l) {K : Prop} {κ : Nat} (h0 : 0 < κ)
    {st : List (Sketch α)} {ss : List (List α)} (h : Store env K κ st ss) (op : Op α)
    (ha : Allowed ss op) (hk : Ks K κ op) :
    Rand.All (fun st' => Store env K κ st' (streamStep ss op)) (step env st op) := by
  cases op with
  | new k m =>
    obtain ⟨h8, h1, h2, h3⟩ := ha
    rw [step_new env st h8 h1]
    refine ⟨by simp [streamStep, h.len], fun j t hj => ?_⟩
    simp only [streamStep]
    by_cases hjs : j < st.length
    · rw [List.getElem?_append_left hjs] at hj
      rw [List.getD_eq_getElem?_getD, List.getElem?_append_left (by rw [← h.len]; exact hjs),
        ← List.getD_eq_getElem?_getD]
      exact h.link j t hj
    · rw [List.getElem?_append_right (by omega)] at hj
      have hj0 : j - st.length = 0 := by
        by_contra hne
        rw [List.getElem?_eq_none (by simp; omega)] at hj
        cases hj
      rw [hj0] at hj
      have ht : _ = t := Option.some.inj hj
      rw [List.getD_eq_getElem?_getD, List.getElem?_append_right (by rw [← h.len]; omega)]
      rw [← h.len, hj0, ← ht]
      exact ⟨emptyAbs env k m k, empty_rep env k m k,
        emptyAbs_inv env h1 h2 h3 (Nat.le_refl _) (by omega) hk.2, hk.1⟩
  | update i x =>
    obtain ⟨h1, h2⟩ := ha
    obtain ⟨s, _, e, hl⟩ := h.get h1
    rw [step_update env e]
    refine Rand.All.bind (hl.update hs h2 x) ?_
    intro s' hs'
    exact h.set h1 hs'
  | merge i j =>
    obtain ⟨h1, h2, h3, h4⟩ := ha
    obtain ⟨s, _, e, hl⟩ := h.get h1
    obtain ⟨o, _, e', hl'⟩ := h.get h2
    rw [step_merge env e e']
    refine Rand.All.bind (hl.merge hs hl' h4) ?_
    intro s' hs'
    exact h.set h1 hs'
  | reset i =>
    obtain ⟨s, _, e, hl⟩ := h.get ha
    rw [step_reset env e]
    exact h.set ha (hl.reset h0)

theorem Valid.snoc {ops : List (Op α)} {op : Op α} (h : Valid (ops ++ [op])) :
    Valid ops ∧ Allowed (streams ops) op := by
  refine ⟨fun pre o post he => h pre o (post ++ [op]) (by rw [he]; simp), h ops op [] rfl⟩

theorem streams_snoc (ops : List (Op α)) (op : Op α) :
    streams (ops ++ [op]) = streamStep (streams ops) op := by
  simp [streams]

theorem run_snoc (env : Env α) (ops : List (Op α)) (op : Op α) :
    run env (ops ++ [op]) = run env ops >>= fun st => step env st op := by
  unfold run
  rw [List.foldlM_append]
  congr 1
  funext st
  rw [List.foldlM_cons]
  show step env st op >>= Rand.ret = _
  rw [Rand.bind_ret]

theorem run_link {env : Env α} (hs : ∀ l, (env.sort l).Perm l) {K : Prop} {κ : Nat} (h0 : 0 < κ)
    (ops : List (Op α)) (hv : Valid ops) (hk : ∀ op ∈ ops, Ks K κ op) :
    Rand.All (fun st => Store env K κ st (streams ops)) (run env ops) := by
  induction ops using List.reverseRecOn with
  | nil => exact ⟨rfl, by simp⟩
  | append_singleton ops op ih =>
    rw [run_snoc, streams_snoc]
    refine Rand.All.bind (ih hv.snoc.1 fun o ho => hk o (by simp [ho])) ?_
    intro st hst
    exact step_link hs h0 hst op hv.snoc.2 (hk op (by simp))

/-! ## Expectations over a program -/

/-- Weight of `p` in sketch `i` -/
def wAt (p : α → Bool) (st : List (Sketch α)) (i : Nat) : ℚ :=
  (st[i]?.map fun s => (weightOf p s : ℚ)).getD 0

/-- Error of the weight of `p` in sketch `i` -/
def eAt (p : α → Bool) (ss : List (List α)) (i : Nat) (st : List (Sketch α)) : ℚ :=
  wAt p st i - (ss.getD i []).countP p

def qAt (st : List (Sketch α)) (i : Nat) : ℚ := (st[i]?.map fun s => (q4 s.log : ℚ)).getD 0

theorem wAt_some {p : α → Bool} {st : List (Sketch α)} {i : Nat} {s : Sketch α} (h : st[i]? = some s) :
    wAt p st i = weightOf p s := by
  unfold wAt; rw [h]; rfl

theorem qAt_some {st : List (Sketch α)} {i : Nat} {s : Sketch α} (h : st[i]? = some s) :
    qAt st i = q4 s.log := by
  unfold qAt; rw [h]; rfl

/-- What the other theorems need to know about one call: it changes at most sketch `t`. -/
theorem eAt_other {p : α → Bool} {ss : List (List α)} {st : List (Sketch α)} {t i : Nat} (hti : i ≠ t)
    (ht : t < ss.length) (s : Sketch α) (S : List α) :
    eAt p (ss.set t S) i (st.set t s) = eAt p ss i st ∧ qAt (st.set t s) i = qAt st i := by
  unfold eAt wAt qAt
  rw [getD_set ss t i S [] ht, if_neg hti, List.getElem?_set_ne (Ne.symm hti)]
  exact ⟨rfl, rfl⟩

theorem eAt_self {p : α → Bool} {ss : List (List α)} {st : List (Sketch α)} {t : Nat}
    (ht : t < ss.length) (ht' : t < st.length) (s : Sketch α) (S : List α) :
    eAt p (ss.set t S) t (st.set t s) = (weightOf p s : ℚ) - S.countP p ∧
      qAt (st.set t s) t = q4 s.log := by
  unfold eAt wAt qAt
  rw [getD_set ss t t S [] ht, if_pos rfl, List.getElem?_set_self ht']
  exact ⟨rfl, rfl⟩

/-- The conditional expectation of the error of sketch `i` after a call. -/
def meanAfter (p : α → Bool) (ss : List (List α)) (op : Op α) (i : Nat) (st : List (Sketch α)) : ℚ :=
  match op with
  | .new _ _ => eAt p ss i st
  | .update _ _ => eAt p ss i st
  | .merge a b => if i = a then eAt p ss a st + eAt p ss b st else eAt p ss i st
  | .reset a => if i = a then 0 else eAt p ss i st

theorem ret_new_eAt {p : α → Bool} {ss : List (List α)} {st : List (Sketch α)}
    (hlen : st.length = ss.length) (s : Sketch α) (hw : weightOf p s = 0) (hq : q4 s.log = 0)
    (i : Nat) : eAt p (ss ++ [[]]) i (st ++ [s]) = eAt p ss i st ∧ qAt (st ++ [s]) i = qAt st i := by
  unfold eAt wAt qAt
  by_cases h : i < st.length
  · rw [List.getElem?_append_left h, List.getD_eq_getElem?_getD,
      List.getElem?_append_left (by omega), ← List.getD_eq_getElem?_getD]
    exact ⟨rfl, rfl⟩
  · have e1 : st[i]? = none := List.getElem?_eq_none (by omega)
    have e2 : ss[i]? = none := List.getElem?_eq_none (by omega)
    rw [e1, List.getElem?_append_right (by omega), List.getD_eq_getElem?_getD,
      List.getElem?_append_right (by omega), List.getD_eq_getElem?_getD, e2, ← hlen]
    by_cases h0 : i - st.length = 0
    · rw [h0]
      simp [hw, hq]
    · rw [List.getElem?_eq_none (by simp; omega), List.getElem?_eq_none (by simp; omega)]
      simp

section prob
variable {env : Env α} {K : Prop} {κ : Nat}

theorem new_weight (env : Env α) (k m : Nat) (p : α → Bool) :
    weightOf p ⟨k, m, k, 1, false, 0, [k, k], List.replicate k env.zero, env.zero, env.zero, false, []⟩
      = 0 := by
  rw [(empty_rep env k m k).weightOf]
  simp [emptyAbs, rk]

theorem reset_weight (env : Env α) (s : Sketch α) (p : α → Bool) : weightOf p (reset env s) = 0 := by
  have := (empty_rep env s.k s.m s.minK).weightOf p
  refine Eq.trans this ?_
  simp [emptyAbs, rk]

/-- The error of one sketch times a constant that depends on the state before. -/
theorem step_mean (hs : ∀ l, (env.sort l).Perm l) {st : List (Sketch α)} {ss : List (List α)}
    (h : Store env K κ st ss) (op : Op α) (ha : Allowed ss op) (p : α → Bool) (i : Nat) :
    Rand.HasE (eAt p (streamStep ss op) i) (step env st op) (meanAfter p ss op i st) := by
  cases op with
  | new k m =>
    obtain ⟨h8, h1, h2, h3⟩ := ha
    rw [step_new env st h8 h1]
    exact (ret_new_eAt h.len _ (new_weight env k m p) rfl i).1.symm
  | update t x =>
    obtain ⟨h1, h2⟩ := ha
    obtain ⟨s, e0, e, hl⟩ := h.get h1
    rw [step_update env e]
    simp only [meanAfter, streamStep]
    by_cases hit : i = t
    · subst hit
      have hE := (hl.update_E hs h2 x p).affine 1 (-((ss.getD i [] ++ x.toList).countP p : ℚ))
      have e2 : (1 : ℚ) * (weightOf p s + x.toList.countP p) +
          -((ss.getD i [] ++ x.toList).countP p : ℚ) = eAt p ss i st := by
        unfold eAt
        rw [wAt_some e0, List.countP_append]
        push_cast
        ring
      rw [e2] at hE
      refine Rand.HasE.bind hE ((hl.update hs h2 x).mono ?_)
      intro s' _
      show _ = _
      rw [(eAt_self h1 (by rw [h.len]; exact h1) s' _).1]
      ring
    · refine Rand.HasE.bind (h := fun _ => eAt p ss i st)
        (Rand.HasE.constI ((hl.update hs h2 x).mono fun _ _ => rfl)) ((hl.update hs h2 x).mono ?_)
      intro s' _
      show _ = _
      rw [(eAt_other hit h1 s' _).1]
  | merge t j =>
    obtain ⟨h1, h2, h3, h4⟩ := ha
    obtain ⟨s, e0, e, hl⟩ := h.get h1
    obtain ⟨o, e0', e', hl'⟩ := h.get h2
    rw [step_merge env e e']
    simp only [meanAfter, streamStep]
    by_cases hit : i = t
    · subst hit
      rw [if_pos rfl]
      have hE := (hl.merge_E hs hl' h4 p).affine 1 (-((ss.getD i [] ++ ss.getD j []).countP p : ℚ))
      have e2 : (1 : ℚ) * (weightOf p s + weightOf p o) +
          -((ss.getD i [] ++ ss.getD j []).countP p : ℚ) = eAt p ss i st + eAt p ss j st := by
        unfold eAt
        rw [wAt_some e0, wAt_some e0', List.countP_append]
        push_cast
        ring
      rw [e2] at hE
      refine Rand.HasE.bind hE ((hl.merge hs hl' h4).mono ?_)
      intro s' _
      show _ = _
      rw [(eAt_self h1 (by rw [h.len]; exact h1) s' _).1]
      ring
    · rw [if_neg hit]
      refine Rand.HasE.bind (h := fun _ => eAt p ss i st)
        (Rand.HasE.constI ((hl.merge hs hl' h4).mono fun _ _ => rfl))
        ((hl.merge hs hl' h4).mono ?_)
      intro s' _
      show _ = _
      rw [(eAt_other hit h1 s' _).1]
  | reset t =>
    have h1 : t < ss.length := ha
    obtain ⟨s, e0, e, hl⟩ := h.get h1
    rw [step_reset env e]
    simp only [meanAfter, streamStep]
    show _ = _
    by_cases hit : i = t
    · subst hit
      rw [if_pos rfl, (eAt_self h1 (by rw [h.len]; exact h1) _ _).1, reset_weight]
      simp
    · rw [if_neg hit, (eAt_other hit h1 _ _).1]

/-- On average the error is zero. -/
theorem run_mean (hs : ∀ l, (env.sort l).Perm l) (ops : List (Op α)) (hv : Valid ops)
    (p : α → Bool) (i : Nat) : Rand.HasE (eAt p (streams ops) i) (run env ops) 0 := by
  induction ops using List.reverseRecOn generalizing i with
  | nil =>
    show _ = _
    simp [eAt, wAt, streams]
  | append_singleton ops op ih =>
    rw [run_snoc, streams_snoc]
    have hl := run_link (K := False) (κ := 1) hs (by omega) ops hv.snoc.1 (by
      intro o ho
      cases o with
      | new k m =>
        obtain ⟨pre, post, he⟩ := List.append_of_mem ho
        have := hv.snoc.1 pre _ post he
        exact ⟨by have := this.1; omega, fun h => h.elim⟩
      | _ => exact trivial)
    have hm : Rand.HasE (meanAfter p (streams ops) op i) (run env ops) 0 := by
      cases op with
      | new k m => exact ih hv.snoc.1 i
      | update t x => exact ih hv.snoc.1 i
      | merge t j =>
        show Rand.HasE (fun st => if i = t then eAt p (streams ops) t st + eAt p (streams ops) j st
          else eAt p (streams ops) i st) _ _
        by_cases hit : i = t
        · simp only [if_pos hit]
          have := (ih hv.snoc.1 t).add (ih hv.snoc.1 j)
          rwa [add_zero] at this
        · simp only [if_neg hit]
          exact ih hv.snoc.1 i
      | reset t =>
        show Rand.HasE (fun st => if i = t then 0 else eAt p (streams ops) i st) _ _
        by_cases hit : i = t
        · simp only [if_pos hit]
          exact Rand.HasE.constI (hl.mono fun _ _ => rfl)
        · simp only [if_neg hit]
          exact ih hv.snoc.1 i
    exact Rand.HasE.bind hm (hl.mono fun st hst => step_mean hs hst op hv.snoc.2 p i)

/-- Product of the errors of two sketches: at most one of them changes in a call. -/
theorem step_cross (hs : ∀ l, (env.sort l).Perm l) {st : List (Sketch α)} {ss : List (List α)}
    (h : Store env K κ st ss) (op : Op α) (ha : Allowed ss op) (p : α → Bool) {i j : Nat}
    (hij : i ≠ j) :
    Rand.HasE (fun st' => eAt p (streamStep ss op) i st' * eAt p (streamStep ss op) j st')
      (step env st op) (meanAfter p ss op i st * meanAfter p ss op j st) := by
  -- one of the two is not touched
  have key : (∀ k, Rand.All (fun st' => eAt p (streamStep ss op) k st' = meanAfter p ss op k st)
      (step env st op)) ∨ ∃ t, ∀ k, k ≠ t →
      Rand.All (fun st' => eAt p (streamStep ss op) k st' = meanAfter p ss op k st)
      (step env st op) := by
    cases op with
    | new k m =>
      left
      obtain ⟨h8, h1, h2, h3⟩ := ha
      intro i
      rw [step_new env st h8 h1]
      exact (ret_new_eAt h.len _ (new_weight env k m p) rfl i).1
    | update t x =>
      right
      refine ⟨t, fun k hk => ?_⟩
      obtain ⟨h1, h2⟩ := ha
      obtain ⟨s, e0, e, hl⟩ := h.get h1
      rw [step_update env e]
      refine Rand.All.bind (hl.update hs h2 x) ?_
      intro s' _
      exact (eAt_other hk h1 s' _).1
    | merge t b =>
      right
      refine ⟨t, fun k hk => ?_⟩
      obtain ⟨h1, h2, h3, h4⟩ := ha
      obtain ⟨s, e0, e, hl⟩ := h.get h1
      obtain ⟨o, e0', e', hl'⟩ := h.get h2
      rw [step_merge env e e']
      simp only [meanAfter, if_neg hk]
      refine Rand.All.bind (hl.merge hs hl' h4) ?_
      intro s' _
      exact (eAt_other hk h1 s' _).1
    | reset t =>
      right
      refine ⟨t, fun k hk => ?_⟩
      have h1 : t < ss.length := ha
      obtain ⟨s, e0, e, hl⟩ := h.get h1
      rw [step_reset env e]
      simp only [meanAfter, if_neg hk]
      exact (eAt_other hk h1 _ _).1
  have hi := step_mean hs h op ha p i
  have hj := step_mean hs h op ha p j
  have one : ∀ {a b : Nat} (_ : Rand.HasE (eAt p (streamStep ss op) a) (step env st op)
      (meanAfter p ss op a st)) (_ : Rand.All (fun st' => eAt p (streamStep ss op) b st' =
      meanAfter p ss op b st) (step env st op)),
      Rand.HasE (fun st' => eAt p (streamStep ss op) a st' * eAt p (streamStep ss op) b st')
        (step env st op) (meanAfter p ss op a st * meanAfter p ss op b st) := by
    intro a b h1 h2
    have h3 := h1.affine (meanAfter p ss op b st) 0
    rw [add_zero, mul_comm] at h3
    exact h3.congr (h2.mono fun st' e => by rw [e]; ring)
  rcases key with hk | ⟨t, hk⟩
  · exact one hi (hk j)
  · by_cases hjt : j = t
    · have := one hj (hk i (by rw [← hjt]; exact hij))
      rw [mul_comm] at this
      exact this.congr (Rand.All.mono (hk i (by rw [← hjt]; exact hij)) fun _ _ => mul_comm _ _)
    · exact one hi (hk j hjt)

/-- Bound of the second moment after a call, minus the sum of `4^h` over the compactions -/
def sqAfter (p : α → Bool) (ss : List (List α)) (op : Op α) (i : Nat) (st : List (Sketch α)) : ℚ :=
  match op with
  | .new _ _ => eAt p ss i st ^ 2 - qAt st i
  | .update _ _ => eAt p ss i st ^ 2 - qAt st i
  | .merge a b => if i = a then (eAt p ss a st + eAt p ss b st) ^ 2 - (qAt st a + qAt st b)
      else eAt p ss i st ^ 2 - qAt st i
  | .reset a => if i = a then 0 else eAt p ss i st ^ 2 - qAt st i

theorem step_sq (ho : IsOrd env.lt) (hso : Sorts env) {st : List (Sketch α)} {ss : List (List α)}
    (h : Store env K κ st ss) (op : Op α) (ha : Allowed ss op) {p : α → Bool} (hp : Down env.lt p)
    (i : Nat) :
    Rand.ELe (fun st' => eAt p (streamStep ss op) i st' ^ 2 - qAt st' i) (step env st op)
      (sqAfter p ss op i st) := by
  have hs := hso.perm
  cases op with
  | new k m =>
    obtain ⟨h8, h1, h2, h3⟩ := ha
    rw [step_new env st h8 h1]
    obtain ⟨e1, e2⟩ := ret_new_eAt h.len _ (new_weight env k m p) rfl i
    show eAt p _ i _ ^ 2 - qAt _ i ≤ _
    simp only [sqAfter, streamStep]
    rw [e1, e2]
  | update t x =>
    obtain ⟨h1, h2⟩ := ha
    obtain ⟨s, e0, e, hl⟩ := h.get h1
    rw [step_update env e]
    simp only [sqAfter, streamStep]
    by_cases hit : i = t
    · subst hit
      have hE := hl.update_sq ho hso h2 x hp
      rw [show ((weightOf p s : ℚ) - (ss.getD i []).countP p) = eAt p ss i st by
        unfold eAt; rw [wAt_some e0], ← qAt_some e0] at hE
      refine Rand.ELe.bind hE ((hl.update hs h2 x).mono ?_)
      intro s' _
      show eAt p _ i _ ^ 2 - qAt _ i ≤ _
      obtain ⟨e1, e2⟩ := eAt_self (p := p) h1 (by rw [h.len]; exact h1) s' (ss.getD i [] ++ x.toList)
      rw [e1, e2]
    · refine Rand.ELe.bind (h := fun _ => eAt p ss i st ^ 2 - qAt st i)
        (Rand.ELe.const ((hl.update hs h2 x).mono fun _ _ => le_refl _))
        ((hl.update hs h2 x).mono ?_)
      intro s' _
      show eAt p _ i _ ^ 2 - qAt _ i ≤ _
      obtain ⟨e1, e2⟩ := eAt_other (p := p) (st := st) hit h1 s' (ss.getD t [] ++ x.toList)
      rw [e1, e2]
  | merge t j =>
    obtain ⟨h1, h2, h3, h4⟩ := ha
    obtain ⟨s, e0, e, hl⟩ := h.get h1
    obtain ⟨o, e0', e', hl'⟩ := h.get h2
    rw [step_merge env e e']
    simp only [sqAfter, streamStep]
    by_cases hit : i = t
    · subst hit
      rw [if_pos rfl]
      have hE := hl.merge_sq ho hso hl' h4 hp
      have e2 : ((weightOf p s : ℚ) + weightOf p o - (ss.getD i [] ++ ss.getD j []).countP p) =
          eAt p ss i st + eAt p ss j st := by
        unfold eAt
        rw [wAt_some e0, wAt_some e0', List.countP_append]
        push_cast
        ring
      rw [e2, ← qAt_some e0, ← qAt_some e0'] at hE
      refine Rand.ELe.bind hE ((hl.merge hs hl' h4).mono ?_)
      intro s' _
      show eAt p _ i _ ^ 2 - qAt _ i ≤ _
      obtain ⟨e1, e2⟩ := eAt_self (p := p) h1 (by rw [h.len]; exact h1) s'
        (ss.getD i [] ++ ss.getD j [])
      rw [e1, e2]
    · rw [if_neg hit]
      refine Rand.ELe.bind (h := fun _ => eAt p ss i st ^ 2 - qAt st i)
        (Rand.ELe.const ((hl.merge hs hl' h4).mono fun _ _ => le_refl _))
        ((hl.merge hs hl' h4).mono ?_)
      intro s' _
      show eAt p _ i _ ^ 2 - qAt _ i ≤ _
      obtain ⟨e1, e2⟩ := eAt_other (p := p) (st := st) hit h1 s' (ss.getD t [] ++ ss.getD j [])
      rw [e1, e2]
  | reset t =>
    have h1 : t < ss.length := ha
    obtain ⟨s, e0, e, hl⟩ := h.get h1
    rw [step_reset env e]
    simp only [sqAfter, streamStep]
    show eAt p _ i _ ^ 2 - qAt _ i ≤ _
    by_cases hit : i = t
    · subst hit
      obtain ⟨e1, e2⟩ := eAt_self (p := p) h1 (by rw [h.len]; exact h1) (reset env s) []
      rw [if_pos rfl, e1, e2, reset_weight]
      simp
    · obtain ⟨e1, e2⟩ := eAt_other (p := p) (st := st) hit h1 (reset env s) []
      rw [if_neg hit, e1, e2]

theorem live_snoc (ops : List (Op α)) (op : Op α) :
    live (ops ++ [op]) = liveStep (live ops) op := by
  simp [live]

theorem live_length (ops : List (Op α)) : (live ops).length = (streams ops).length := by
  induction ops using List.reverseRecOn with
  | nil => rfl
  | append_singleton ops op ih =>
    rw [live_snoc, streams_snoc]
    cases op <;> simp [liveStep, streamStep, ih]

theorem run_sq (ho : IsOrd env.lt) (hso : Sorts env) (ops : List (Op α)) (hv : Valid ops)
    {p : α → Bool} (hp : Down env.lt p) :
    (∀ i, (live ops).getD i false = true →
      Rand.ELe (fun st => eAt p (streams ops) i st ^ 2 - qAt st i) (run env ops) 0) ∧
    (∀ i j, i ≠ j → (live ops).getD i false = true → (live ops).getD j false = true →
      Rand.HasE (fun st => eAt p (streams ops) i st * eAt p (streams ops) j st) (run env ops) 0) := by
  have hs := hso.perm
  induction ops using List.reverseRecOn with
  | nil =>
    refine ⟨fun i h => ?_, fun i j _ h => ?_⟩
    · simp [live] at h
    · simp [live] at h
  | append_singleton ops op ih =>
    have hl := run_link (K := False) (κ := 1) hs (by omega) ops hv.snoc.1 (by
      intro o ho
      cases o with
      | new k m =>
        obtain ⟨pre, post, he⟩ := List.append_of_mem ho
        have := hv.snoc.1 pre _ post he
        exact ⟨by have := this.1; omega, fun h => h.elim⟩
      | _ => exact trivial)
    obtain ⟨ih1, ih2⟩ := ih hv.snoc.1
    have ha := hv.snoc.2
    have hll := live_length ops
    rw [run_snoc, streams_snoc, live_snoc]
    -- fresh sketches
    have hnew : ∀ i (st : List (Sketch α)), Store env False 1 st (streams ops) →
        (streams ops).length ≤ i → eAt p (streams ops) i st = 0 ∧ qAt st i = 0 := by
      intro i st hst hi
      unfold eAt wAt qAt
      have := hst.len
      rw [List.getElem?_eq_none (by omega), List.getD_eq_getElem?_getD,
        List.getElem?_eq_none (by omega)]
      simp
    have live_new : ∀ i, ((live ops) ++ [true]).getD i false = true →
        (live ops).getD i false = true ∨ (streams ops).length ≤ i := by
      intro i h
      by_cases hi : i < (live ops).length
      · left
        rw [List.getD_eq_getElem?_getD, List.getElem?_append_left hi] at h
        rw [List.getD_eq_getElem?_getD]
        exact h
      · right; omega
    refine ⟨fun i hi => ?_, fun i j hij hi hj => ?_⟩
    · refine Rand.ELe.bind (h := sqAfter p (streams ops) op i) ?_
        (hl.mono fun st hst => step_sq ho hso hst op ha hp i)
      cases op with
      | new k m =>
        show Rand.ELe (fun st => eAt p (streams ops) i st ^ 2 - qAt st i) _ _
        rcases live_new i hi with h | h
        · exact ih1 i h
        · refine Rand.ELe.const (hl.mono fun st hst => ?_)
          obtain ⟨e1, e2⟩ := hnew i st hst h
          rw [e1, e2]; simp
      | update t x => exact ih1 i hi
      | merge t j =>
        obtain ⟨h1, h2, h3, h4⟩ := ha
        simp only [liveStep] at hi
        rw [getD_set _ j i false false (by simp [hll]; exact h2)] at hi
        have hij : i ≠ j := by
          rintro rfl
          simp at hi
        rw [if_neg hij, getD_set _ t i _ false (by rw [hll]; exact h1)] at hi
        show Rand.ELe (fun st => if i = t then (eAt p (streams ops) t st + eAt p (streams ops) j st) ^ 2 -
          (qAt st t + qAt st j) else eAt p (streams ops) i st ^ 2 - qAt st i) _ _
        by_cases hit : i = t
        · rw [if_pos hit, Bool.and_eq_true] at hi
          simp only [if_pos hit]
          have e1 := ih1 t hi.1
          have e2 := ih1 j hi.2
          have e3 := (ih2 t j h3 hi.1 hi.2).affine 2 0
          have e4 := (e1.add e2).add e3.eLe
          refine (e4.of_le (hl.mono fun st _ => le_of_eq (by ring))).mono (le_of_eq (by ring))
        · rw [if_neg hit] at hi
          simp only [if_neg hit]
          exact ih1 i hi
      | reset t =>
        show Rand.ELe (fun st => if i = t then 0 else eAt p (streams ops) i st ^ 2 - qAt st i) _ _
        simp only [liveStep] at hi
        have h1 : t < (streams ops).length := ha
        rw [getD_set _ t i _ false (by rw [hll]; exact h1)] at hi
        by_cases hit : i = t
        · simp only [if_pos hit]
          exact Rand.ELe.const (hl.mono fun _ _ => le_refl _)
        · rw [if_neg hit] at hi
          simp only [if_neg hit]
          exact ih1 i hi
    · refine Rand.HasE.bind
        (h := fun st => meanAfter p (streams ops) op i st * meanAfter p (streams ops) op j st) ?_
        (hl.mono fun st hst => step_cross hs hst op ha p hij)
      cases op with
      | new k m =>
        simp only [meanAfter]
        rcases live_new i hi with h | h
        · rcases live_new j hj with h' | h'
          · exact ih2 i j hij h h'
          · refine Rand.HasE.constI (hl.mono fun st hst => ?_)
            rw [(hnew j st hst h').1]; simp
        · refine Rand.HasE.constI (hl.mono fun st hst => ?_)
          rw [(hnew i st hst h).1]; simp
      | update t x => exact ih2 i j hij hi hj
      | merge t b =>
        obtain ⟨h1, h2, h3, h4⟩ := ha
        simp only [liveStep] at hi hj
        rw [getD_set _ b _ false false (by simp [hll]; exact h2)] at hi hj
        have hib : i ≠ b := by
          rintro rfl
          simp at hi
        have hjb : j ≠ b := by
          rintro rfl
          simp at hj
        rw [if_neg hib, getD_set _ t i _ false (by rw [hll]; exact h1)] at hi
        rw [if_neg hjb, getD_set _ t j _ false (by rw [hll]; exact h1)] at hj
        simp only [meanAfter]
        by_cases hit : i = t
        · have hjt : j ≠ t := by rw [← hit]; exact hij.symm
          rw [if_pos hit, Bool.and_eq_true] at hi
          rw [if_neg hjt] at hj
          simp only [if_pos hit, if_neg hjt]
          have e1 := ih2 t j (Ne.symm hjt) hi.1 hj
          have e2 := ih2 b j (Ne.symm hjb) hi.2 hj
          have := e1.add e2
          rw [add_zero] at this
          exact this.congr (hl.mono fun st _ => by ring)
        · rw [if_neg hit] at hi
          by_cases hjt : j = t
          · rw [if_pos hjt, Bool.and_eq_true] at hj
            simp only [if_pos hjt, if_neg hit]
            have e1 := ih2 i t hit hi hj.1
            have e2 := ih2 i b hib hi hj.2
            have := e1.add e2
            rw [add_zero] at this
            exact this.congr (hl.mono fun st _ => by ring)
          · rw [if_neg hjt] at hj
            simp only [if_neg hjt, if_neg hit]
            exact ih2 i j hij hi hj
      | reset t =>
        simp only [liveStep] at hi hj
        have h1 : t < (streams ops).length := ha
        rw [getD_set _ t _ _ false (by rw [hll]; exact h1)] at hi hj
        simp only [meanAfter]
        by_cases hit : i = t
        · simp only [if_pos hit, zero_mul]
          exact Rand.HasE.constI (hl.mono fun _ _ => rfl)
        · by_cases hjt : j = t
          · simp only [if_pos hjt, mul_zero]
            exact Rand.HasE.constI (hl.mono fun _ _ => rfl)
          · rw [if_neg hit] at hi
            rw [if_neg hjt] at hj
            simp only [if_neg hjt, if_neg hit]
            exact ih2 i j hij hi hj

end prob

end Verif.Kll
