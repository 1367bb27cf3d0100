import Verif.TupleNumbersProps
import Verif.TupleUnionProps
import Verif.TupleInterProps
import Verif.TupleANotBProps

/-!
# C106: set operations on sketches of number arrays

`tuple/arrayofnumbers_union.go`, `tuple/arrayofnumbers_intersection.go`, `tuple/arrayofnumbers_a_not_b.go`.
Apart from the number of values per summary these are line for line the operations of `tuple/union.go`,
`tuple/intersection.go` and `tuple/a_not_b.go`, whose model (`TupleModel.lean`) is used here.
-/

namespace Verif.Tuple

open Probe HashTable
open Theta (maxTheta)

variable {M : Type} [Add M] [Zero M]

/-! ## Model -/

/-- a sketch through the interface `ArrayOfNumbersSketch`, arrayofnumbers_sketch.go l.28-33 -/
structure AnView where
  view : View Nat
  num : Nat

/-- `ArrayOfNumbersCompactSketch` arrayofnumbers_compact_sketch.go -/
structure AnCompact where
  sketch : Compact Nat
  num : Nat

/-- `ArrayOfNumbersSketchUnion` arrayofnumbers_union.go l.30-36 -/
structure AnUnion where
  u : Union Nat
  num : Nat

/-- `NewArrayOfNumbersSketchUnion` l.39-85 -/
def newAnUnion (app : List M → List M → List M) (num lgK rf startTheta : Nat) : Outcome AnUnion := do
  let u ← newUnion (numbers num app) lgK rf startTheta
  pure ⟨u, num⟩

/-- `Update` l.88-136. The flag tells whether the sketch was refused ("numValuesInSummary does not
match"), in which case nothing has been written. -/
def AnUnion.update (app : List M → List M → List M) (a : AnUnion) (h : List (List M)) (seedHash : Option Nat)
    (v : AnView) : Outcome (AnUnion × List (List M) × Bool) :=
  if v.view.isEmpty then .ok (a, h, false)
  else if a.num ≠ v.num then .ok (a, h, true)
  else do
    let (u, h) ← a.u.update (numbers a.num app) h seedHash v.view
    pure (⟨u, a.num⟩, h, false)

/-- `Result` l.139-185 -/
def AnUnion.result (app : List M → List M → List M) (a : AnUnion) (seedHash : Option Nat) (ordered : Bool) :
    Outcome AnCompact := do
  let c ← a.u.result (numbers a.num app) seedHash ordered
  pure ⟨c, a.num⟩

/-- `Reset` l.194-197 -/
def AnUnion.reset (app : List M → List M → List M) (a : AnUnion) (h : List (List M)) : AnUnion × List (List M) :=
  (⟨(a.u.reset (numbers a.num app) h).1, a.num⟩, (a.u.reset (numbers a.num app) h).2)

/-- `ArrayOfNumbersSketchIntersection` arrayofnumbers_intersection.go l.29-35 -/
structure AnInter where
  s : Inter Nat
  num : Nat

/-- `NewArrayOfNumbersSketchIntersection` l.39-67 -/
def newAnInter (app : List M → List M → List M) (num : Nat) : AnInter := ⟨newInter (numbers num app), num⟩

/-- `Update` l.70-191. The flag as for the union. -/
def AnInter.update (app : List M → List M → List M) (a : AnInter) (h : List (List M)) (seedHash : Option Nat)
    (v : AnView) : Outcome (AnInter × List (List M) × Bool) :=
  if a.s.table.isEmpty then .ok (a, h, false)
  else if a.num ≠ v.num then .ok (a, h, true)
  else do
    let (s, h) ← a.s.update (numbers a.num app) h seedHash v.view
    pure (⟨s, a.num⟩, h, false)

/-- `Result` l.194-228 -/
def AnInter.result (app : List M → List M → List M) (a : AnInter) (h : List (List M)) (seedHash : Option Nat)
    (ordered : Bool) : Outcome (AnCompact × List (List M)) := do
  let (c, h) ← a.s.result (numbers a.num app) h seedHash ordered
  pure (⟨c, a.num⟩, h)

/-- `ArrayOfNumbersSketchANotB` arrayofnumbers_a_not_b.go l.29-105; the number of values of `b` is not
looked at. -/
def anANotB (app : List M → List M → List M) (a b : AnView) (h : List (List M)) (seedHash : Option Nat)
    (ordered : Bool) : Outcome (AnCompact × List (List M)) := do
  let (c, h) ← aNotB (numbers a.num app) a.view b.view.keys h seedHash ordered
  pure (⟨c, a.num⟩, h)

/-! ## Histories -/

inductive AnOp where
  | update (v : AnView)
  | reset

/-- one call on a union, with the flag -/
def anuStep (app : List M → List M → List M) (sh : Option Nat) (a : AnUnion) (h : List (List M)) :
    AnOp → Outcome (AnUnion × List (List M) × Bool)
  | .update v => a.update app h sh v
  | .reset => .ok ((a.reset app h).1, (a.reset app h).2, false)

def anuRun (app : List M → List M → List M) (sh : Option Nat) :
    AnUnion → List (List M) → List AnOp → Outcome (AnUnion × List (List M) × List Bool)
  | a, h, [] => .ok (a, h, [])
  | a, h, op :: ops => do
    let (a, h, f) ← anuStep app sh a h op
    let (a, h, fs) ← anuRun app sh a h ops
    pure (a, h, f :: fs)

def aniRun (app : List M → List M → List M) (sh : Option Nat) :
    AnInter → List (List M) → List AnView → Outcome (AnInter × List (List M) × List Bool)
  | a, h, [] => .ok (a, h, [])
  | a, h, v :: vs => do
    let (a, h, f) ← a.update app h sh v
    let (a, h, fs) ← aniRun app sh a h vs
    pure (a, h, f :: fs)

/-- Spec: a union for `n` values refuses the non-empty sketches with another number of values. -/
def AnOp.refused (n : Nat) : AnOp → Bool
  | .update v => !v.view.isEmpty && decide (v.num ≠ n)
  | .reset => false

/-- Spec: the history without what was refused -/
def kept (n : Nat) : List AnOp → List (UOp Nat)
  | [] => []
  | .update v :: ops => if AnOp.refused n (.update v) then kept n ops else .update v.view :: kept n ops
  | .reset :: ops => .reset :: kept n ops

theorem anuRun_eq (app : List M → List M → List M) (sh : Option Nat) (n : Nat) : ∀ (ops : List AnOp) (u : Union Nat)
    (h : List (List M)) (u' : Union Nat) (h' : List (List M)),
    urun (numbers n app) sh u h (kept n ops) = .ok (u', h') →
    anuRun app sh ⟨u, n⟩ h ops = .ok (⟨u', n⟩, h', ops.map (AnOp.refused n)) := by
  intro ops
  induction ops with
  | nil =>
    intro u h u' h' e
    simp only [kept, urun, Outcome.ok.injEq, Prod.mk.injEq] at e
    simp [anuRun, e.1, e.2]
  | cons op ops ih =>
    intro u h u' h' e
    cases op with
    | reset =>
      simp only [kept, urun, ustep, Outcome.ok_bind] at e
      have := ih _ _ _ _ e
      simp only [anuRun, anuStep, AnUnion.reset, Outcome.ok_bind, this, Outcome.pure_eq, List.map_cons, AnOp.refused]
    | update v =>
      by_cases he : v.view.isEmpty = true
      · have hr : AnOp.refused n (.update v) = false := by simp [AnOp.refused, he]
        simp only [kept, hr, Bool.false_eq_true, if_false, urun, ustep, Union.update, he, if_true, Outcome.ok_bind] at e
        have := ih _ _ _ _ e
        simp [anuRun, anuStep, AnUnion.update, he, this, hr]
      · by_cases hn : v.num = n
        · have hr : AnOp.refused n (.update v) = false := by simp [AnOp.refused, hn]
          simp only [kept, hr, Bool.false_eq_true, if_false, urun, ustep] at e
          obtain ⟨⟨u1, h1⟩, e1, e2⟩ := Outcome.bind_eq_ok.1 e
          have := ih _ _ _ _ e2
          simp only [anuRun, anuStep, AnUnion.update, if_neg he, if_neg (show ¬ n ≠ v.num by simp [hn]), e1,
            Outcome.ok_bind, Outcome.pure_eq, this, List.map_cons, hr]
        · have hr : AnOp.refused n (.update v) = true := by simp [AnOp.refused, hn, he]
          simp only [kept, hr, if_true] at e
          have := ih _ _ _ _ e
          simp only [anuRun, anuStep, AnUnion.update, if_neg he, if_pos (show n ≠ v.num from fun x => hn x.symm),
            Outcome.ok_bind, Outcome.pure_eq, this, List.map_cons, hr]

omit [Add M] [Zero M] in
theorem mergeAll_len {app : List M → List M → List M} {n : Nat}
    (happ : ∀ a b : List M, a.length = n → b.length = n → (app a b).length = n) {l : List (List M)}
    (hl : ∀ x ∈ l, x.length = n) {y : List M} (hy : mergeAll app l = some y) : y.length = n := by
  have : ∀ (l : List (List M)) (a : List M), a.length = n → (∀ x ∈ l, x.length = n) → (l.foldl app a).length = n := by
    intro l
    induction l with
    | nil => intro a ha _; exact ha
    | cons b l ih =>
      intro a ha hl
      exact ih _ (happ _ _ ha (hl b (by simp))) (fun x hx => hl x (by simp [hx]))
  cases l with
  | nil => cases hy
  | cons a l =>
    simp only [mergeAll, Option.some.injEq] at hy
    rw [← hy]
    exact this l a (hl a (by simp)) (fun x hx => hl x (by simp [hx]))

omit [Zero M] in
/-- Spec: merging arrays by adding them up adds up every position. -/
theorem mergeAll_addVec {n : Nat} {l : List (List M)} (hl : ∀ x ∈ l, x.length = n) {y : List M}
    (hy : mergeAll addVec l = some y) (i : Nat) : y[i]? = mergeAll (· + ·) (l.filterMap (·[i]?)) := by
  cases l with
  | nil => cases hy
  | cons a l =>
    simp only [mergeAll, Option.some.injEq] at hy
    have := (fold_addVec n l a (hl a (by simp)) (fun v hv => (hl v (by simp [hv])).ge)).2 i
    rw [← hy, this]
    by_cases hi : i < n
    · have ha := hl a (by simp)
      have hai : a[i]? = some a[i] := List.getElem?_eq_getElem (by omega)
      rw [List.filterMap_cons, hai]
      rfl
    · have hz : ∀ x ∈ a :: l, x[i]? = none := by
        intro x hx
        have := hl x hx
        exact List.getElem?_eq_none (by omega)
      rw [hz a (by simp)]
      have : (a :: l).filterMap (·[i]?) = [] := by
        rw [List.filterMap_eq_nil_iff]; exact hz
      rw [this]; rfl

/-- Inputs hand over arrays of `n` values. -/
def Sized (n : Nat) (h0 : List (List M)) (vs : List (View Nat)) : Prop :=
  ∀ v ∈ vs, ∀ e ∈ v.all, (h0[e.2]?.getD (List.replicate n 0)).length = n

omit [Add M] in
theorem contribs_len {n : Nat} {h0 : List (List M)} {vs : List (View Nat)} (hs : Sized n h0 vs) (k : Nat) :
    ∀ x ∈ contribs (fun s => h0[s]?.getD (List.replicate n 0)) k vs, x.length = n := by
  intro x hx
  simp only [contribs, List.mem_flatMap, List.mem_map, List.mem_filter] at hx
  obtain ⟨v, hv, e, ⟨he, -⟩, rfl⟩ := hx
  exact hs v hv e he

/-! ## properties -/

/-- **C106, union.** For every history of updates and resets, sketches with another number of values
among them: exactly the non-empty sketches with another number of values are refused, and they leave no
trace. The result has the hashes, theta and emptiness of the union of the others, the number of values
of the union, and for every hash the merge of their arrays in order; arrays have that many values
when the policy keeps the length. Arrays in use elsewhere are not touched. -/
theorem C106_union (app : List M → List M → List M) (n lgK rf start sh : Nat) (hstart : start ≤ maxTheta)
    (u0 : AnUnion) (hnew : newAnUnion app n lgK rf start = .ok u0) (h0 : List (List M)) (F : List Nat)
    (ops : List AnOp) (hdist : (handed (kept n ops) ++ F).Nodup)
    (hlive : ∀ x ∈ handed (kept n ops) ++ F, x < h0.length)
    (hops : ∀ v, UOp.update v ∈ kept n ops → Valid v ∧ (v.isEmpty = false → v.seedHash = sh)) (ordered : Bool) :
    ∃ u h c, anuRun app (some sh) u0 h0 ops = .ok (u, h, ops.map (AnOp.refused n)) ∧
      u.result app (some sh) ordered = .ok c ∧ c.num = n ∧
      UnionHashes lgK start sh ordered (inputs [] (kept n ops)) c.sketch ∧
      (∀ e ∈ c.sketch.entries, h[e.2]? = mergeAll app
        (contribs (fun s => h0[s]?.getD (List.replicate n 0)) e.1 (inputs [] (kept n ops)))) ∧
      ((∀ a b : List M, a.length = n → b.length = n → (app a b).length = n) →
        Sized n h0 (inputs [] (kept n ops)) → ∀ e ∈ c.sketch.entries, ∀ y, h[e.2]? = some y → y.length = n) ∧
      ∀ x ∈ F, h[x]? = h0[x]? := by
  obtain ⟨u1, hu1, hu⟩ := Outcome.bind_eq_ok.1 hnew
  rw [Outcome.pure_eq, Outcome.ok.injEq] at hu
  subst hu
  obtain ⟨u, h, c, a, b, d, f, -, k⟩ := C55_union_pointers (List.replicate n (0 : M)) (List.replicate n 0) addVec app
    lgK rf start sh hstart u1 hu1 h0 F (kept n ops) hdist hlive hops ordered
  refine ⟨⟨u, n⟩, h, ⟨c, n⟩, anuRun_eq app (some sh) n ops _ _ _ _ a, ?_, rfl, d, f, ?_, k⟩
  · show (do let c ← u.result (numbers n app) (some sh) ordered; pure (⟨c, n⟩ : AnCompact)) = _
    have b' : u.result (numbers n app) (some sh) ordered = .ok c := b
    rw [b']
    rfl
  · intro happ hs e he y hy
    rw [f e he] at hy
    exact mergeAll_len happ (contribs_len hs e.1) hy

/-- **C106, union with addition.** Uniting with the policy that adds arrays: position `i` of the array of
a hash is the sum of the values that the inputs hold for this hash at position `i`. -/
theorem C106_union_sums (n lgK rf start sh : Nat) (hstart : start ≤ maxTheta)
    (u0 : AnUnion) (hnew : newAnUnion (addVec : List M → _ → _) n lgK rf start = .ok u0) (h0 : List (List M))
    (ops : List AnOp) (hdist : (handed (kept n ops)).Nodup)
    (hlive : ∀ x ∈ handed (kept n ops), x < h0.length)
    (hops : ∀ v, UOp.update v ∈ kept n ops → Valid v ∧ (v.isEmpty = false → v.seedHash = sh))
    (hs : Sized n h0 (inputs [] (kept n ops))) (ordered : Bool) :
    ∃ u h c, anuRun addVec (some sh) u0 h0 ops = .ok (u, h, ops.map (AnOp.refused n)) ∧
      u.result (addVec : List M → _ → _) (some sh) ordered = .ok c ∧
      ∀ e ∈ c.sketch.entries, ∃ y, h[e.2]? = some y ∧ y.length = n ∧ ∀ i : Nat, y[i]? = mergeAll (· + ·)
        ((contribs (fun s => h0[s]?.getD (List.replicate n 0)) e.1 (inputs [] (kept n ops))).filterMap (·[i]?)) := by
  obtain ⟨u, h, c, a, b, -, d, f, g, -⟩ := C106_union addVec n lgK rf start sh hstart u0 hnew h0 [] ops
    (by simpa using hdist) (by simpa using hlive) hops ordered
  refine ⟨u, h, c, a, b, fun e he => ?_⟩
  have hk : ∃ s, (e.1, s) ∈ c.sketch.entries := ⟨e.2, he⟩
  obtain ⟨-, v, hv, -, s, hs'⟩ := (d.mem e.1).1 hk
  have hne : contribs (fun s => h0[s]?.getD (List.replicate n 0)) e.1 (inputs [] (kept n ops)) ≠ [] := by
    intro hz
    have : h0[s]?.getD (List.replicate n 0) ∈
        contribs (fun s => h0[s]?.getD (List.replicate n 0)) e.1 (inputs [] (kept n ops)) := by
      simp only [contribs, List.mem_flatMap, List.mem_map, List.mem_filter]
      exact ⟨v, hv, (e.1, s), ⟨hs', by simp⟩, rfl⟩
    rw [hz] at this
    simp at this
  have hl := contribs_len hs e.1
  have hm := f e he
  generalize contribs (fun s => h0[s]?.getD (List.replicate n 0)) e.1 (inputs [] (kept n ops)) = l at hne hl hm
  obtain ⟨a, l, rfl⟩ := List.exists_cons_of_ne_nil hne
  refine ⟨_, hm, ?_, mergeAll_addVec hl rfl⟩
  exact mergeAll_len (app := addVec) (fun a b ha hb => by simp [addVec, ha, hb]) hl rfl

/-- **C106, intersection.** Sketches with another number of values leave no trace in an intersection
(they are refused unless it is already empty); the result has the hashes of the intersection of the
others, the number of values of the intersection, and for every hash the merge of their arrays. -/
theorem C106_intersection (app : List M → List M → List M) (n sh : Nat) (vs : List AnView) (h0 : List (List M))
    (F : List Nat) (ws : List (View Nat)) (hws : ws = (vs.filter fun v => decide (v.num = n)).map AnView.view)
    (hne : ws ≠ []) (hvs : ∀ v ∈ ws, Input sh v) (hdist : (ws.flatMap (fun v => v.all.map Prod.snd) ++ F).Nodup)
    (hlive : ∀ x ∈ ws.flatMap (fun v => v.all.map Prod.snd) ++ F, x < h0.length) (ordered : Bool) :
    ∃ s h fs c h', aniRun app (some sh) (newAnInter app n) h0 vs = .ok (s, h, fs) ∧
      (∀ p ∈ vs.zip fs, p.2 = true → p.1.num ≠ n) ∧
      s.result app h (some sh) ordered = .ok (c, h') ∧ c.num = n ∧ InterHashes sh ordered ws c.sketch ∧
      (∀ e ∈ c.sketch.entries, h'[e.2]? = mergeAll app
        (contribs (fun s => h0[s]?.getD (List.replicate n 0)) e.1 ws)) ∧
      ∀ x ∈ F, h'[x]? = h0[x]? := by
  obtain ⟨s, h, c, h', a, b, d, f, -, k⟩ := C56_intersection_pointers (List.replicate n (0 : M)) (List.replicate n 0)
    addVec app sh ws hne hvs h0 F hdist hlive ordered
  have hrun : ∀ (vs : List AnView) (s : Inter Nat) (h : List (List M)) (s' : Inter Nat) (h' : List (List M)),
      irun (numbers n app) (some sh) s h ((vs.filter fun v => decide (v.num = n)).map AnView.view) = .ok (s', h') →
      ∃ fs, aniRun app (some sh) ⟨s, n⟩ h vs = .ok (⟨s', n⟩, h', fs) ∧ ∀ p ∈ vs.zip fs, p.2 = true → p.1.num ≠ n := by
    intro vs
    induction vs with
    | nil =>
      intro s h s' h' e
      simp only [List.filter_nil, List.map_nil, irun, Outcome.ok.injEq, Prod.mk.injEq] at e
      exact ⟨[], by simp [aniRun, e.1, e.2], by simp⟩
    | cons v vs ih =>
      intro s h s' h' e
      by_cases hn : v.num = n
      · rw [List.filter_cons_of_pos (by simp [hn]), List.map_cons, irun] at e
        obtain ⟨⟨s1, h1⟩, e1, e2⟩ := Outcome.bind_eq_ok.1 e
        obtain ⟨fs, r1, r2⟩ := ih s1 h1 s' h' e2
        refine ⟨false :: fs, ?_, ?_⟩
        · by_cases he : s.table.isEmpty = true
          · rw [Inter.update, if_pos he, Outcome.ok.injEq, Prod.mk.injEq] at e1
            obtain ⟨rfl, rfl⟩ := e1
            simp only [aniRun, AnInter.update, if_pos he, Outcome.ok_bind, r1, Outcome.pure_eq]
          · simp only [aniRun, AnInter.update, if_neg he, if_neg (show ¬ n ≠ v.num by simp [hn]), e1, Outcome.ok_bind,
              r1, Outcome.pure_eq]
        · intro p hp
          rw [List.zip_cons_cons, List.mem_cons] at hp
          rcases hp with rfl | hp
          · simp
          · exact r2 p hp
      · rw [List.filter_cons_of_neg (by simp [hn])] at e
        obtain ⟨fs, r1, r2⟩ := ih s h s' h' e
        by_cases he : s.table.isEmpty = true
        · refine ⟨false :: fs, ?_, ?_⟩
          · simp only [aniRun, AnInter.update, if_pos he, Outcome.ok_bind, r1, Outcome.pure_eq]
          · intro p hp
            rw [List.zip_cons_cons, List.mem_cons] at hp
            rcases hp with rfl | hp
            · simp
            · exact r2 p hp
        · refine ⟨true :: fs, ?_, ?_⟩
          · simp only [aniRun, AnInter.update, if_neg he, if_pos (show n ≠ v.num from fun x => hn x.symm),
              Outcome.ok_bind, r1, Outcome.pure_eq]
          · intro p hp
            rw [List.zip_cons_cons, List.mem_cons] at hp
            rcases hp with rfl | hp
            · exact fun _ => hn
            · exact r2 p hp
  subst hws
  obtain ⟨fs, r1, r2⟩ := hrun vs _ _ _ _ a
  refine ⟨⟨s, n⟩, h, fs, ⟨c, n⟩, h', r1, r2, ?_, rfl, d, f, k⟩
  have b' : s.result (numbers n app) h (some sh) ordered = .ok (c, h') := b
  simp only [AnInter.result, b', Outcome.ok_bind, Outcome.pure_eq]

/-- **C106, difference.** The difference has the hashes of A below both thetas that are not in B, with
copies of the arrays of A, and the number of values of A, whatever B holds. -/
theorem C106_a_not_b (app : List M → List M → List M) (sh : Nat) (a b : AnView) (ha : Input sh a.view)
    (hb : Input sh b.view) (hbt : b.view.isEmpty = true → b.view.theta = maxTheta) (h0 : List (List M)) (F : List Nat)
    (hdist : (a.view.all.map Prod.snd ++ F).Nodup) (hlive : ∀ x ∈ a.view.all.map Prod.snd ++ F, x < h0.length)
    (ordered : Bool) :
    ∃ c h, anANotB app a b h0 (some sh) ordered = .ok (c, h) ∧ c.num = a.num ∧
      DiffHashes sh ordered a.view b.view.keys c.sketch ∧
      (∀ p ∈ contents h c.sketch.entries, p ∈ contents h0 a.view.all) ∧
      (c.sketch.entries.map Prod.snd ++ (a.view.all.map Prod.snd ++ F)).Nodup ∧
      ∀ x ∈ a.view.all.map Prod.snd ++ F, h[x]? = h0[x]? := by
  obtain ⟨c, h, e, r⟩ := C57_a_not_b_pointers (List.replicate a.num (0 : M)) (List.replicate a.num 0) addVec app sh
    a.view b.view.keys ha hb hbt h0 F hdist hlive ordered
  refine ⟨⟨c, a.num⟩, h, ?_, rfl, r⟩
  have e' : aNotB (numbers a.num app) a.view b.view.keys h0 (some sh) ordered = .ok (c, h) := e
  simp only [anANotB, e', Outcome.ok_bind, Outcome.pure_eq]

/-! ## The hypotheses are met -/

/-- two sketches with two values, one with three that is refused -/
example : ∃ u0 : AnUnion, newAnUnion (addVec : List Int → _ → _) 2 5 1 maxTheta = .ok u0 ∧
    (anuRun addVec (some 7) u0 [[1, 2], [10, 20], [5, 5, 5]]
      [.update ⟨one 0, 2⟩, .update ⟨one 2, 3⟩, .update ⟨one 1, 2⟩]).bind (fun r =>
        (r.1.result (addVec : List Int → _ → _) (some 7) false).bind fun c =>
          .ok (contents r.2.1 c.sketch.entries, r.2.2)) = .ok ([(9, some [11, 22])], [false, true, false]) :=
  ⟨_, rfl, by decide +kernel⟩

example : Sized 2 ([[1, 2], [10, 20]] : List (List Int)) [one 0, one 1] := by
  intro v hv e he
  simp only [List.mem_cons, List.not_mem_nil, or_false] at hv
  rcases hv with rfl | rfl <;> · simp only [one, List.mem_singleton] at he; subst he; decide

end Verif.Tuple
