import Verif.TupleUpdateProps

/-!
# C61: array-of-numbers update sketch

`tuple/arrayofnumbers_update_sketch.go`, `arrayofnumbers_sketch.go`: the same table and the same update
procedure as the generic sketch (l.250-383), with summaries behind pointers that hold `n` numbers.  The
number type is any type with an addition and a zero (no law of addition is used, so machine integers
and floating point numbers are included).
-/

namespace Verif.Tuple

open Probe HashTable
open Theta (Status maxTheta)

variable {M : Type} [Add M] [Zero M]

/-- `ArrayOfNumbersSummary.Update` arrayofnumbers_sketch.go l.69-73 for a slice that is long enough -/
def addVec (s v : List M) : List M := s.zipWith (· + ·) v

/-- `newArrayOfNumbersSummary` l.41-46, `Reset` l.56-58, `Clone` l.61-66; `app` is the user's policy -/
def numbers (n : Nat) (app : List M → List M → List M) : Kind (List (List M)) Nat (List M) :=
  pointers (List.replicate n 0) (List.replicate n 0) addVec app

/-- `UpdateInt64` arrayofnumbers_update_sketch.go l.255-275 (and the other key types): indexing past the
end of a too short slice panics, when it comes to updating a summary. -/
def anUpdate (n : Nat) (app : List M → List M → List M) (t : Tbl Nat) (h : List (List M)) (h1 : Nat)
    (v : List M) : Outcome (Tbl Nat × List (List M) × Status) := do
  let (t', h', st) ← update (numbers n app) t h h1 v
  if v.length < n ∧ (st = .inserted ∨ st = .duplicate) then .panic else pure (t', h', st)

def anStep {ι : Type} (n : Nat) (app : List M → List M → List M) (hash : ι → Nat) (t : Tbl Nat)
    (h : List (List M)) : Op ι (List M) → Outcome (Tbl Nat × List (List M))
  | .update x v => do let (t, h, _) ← anUpdate n app t h (hash x) v; pure (t, h)
  | op => step (numbers n app) hash t h op

def anRun {ι : Type} (n : Nat) (app : List M → List M → List M) (hash : ι → Nat) :
    Tbl Nat → List (List M) → List (Op ι (List M)) → Outcome (Tbl Nat × List (List M))
  | t, h, [] => .ok (t, h)
  | t, h, op :: ops => do let (t, h) ← anStep n app hash t h op; anRun n app hash t h ops

/-- every slice given to an update has at least `n` values -/
def longEnough {ι : Type} (n : Nat) : Op ι (List M) → Prop
  | .update _ v => n ≤ v.length
  | _ => True

/-- Spec: left-to-right sum. -/
def total (l : List M) : M := l.foldl (· + ·) 0

theorem anRun_eq {ι : Type} (n : Nat) (app : List M → List M → List M) (hash : ι → Nat) :
    ∀ (ops : List (Op ι (List M))) (t : Tbl Nat) (h : List (List M)),
    (∀ op ∈ ops, longEnough n op) →
    anRun n app hash t h ops = run (numbers n app) hash t h ops := by
  intro ops
  induction ops with
  | nil => intro t h _; rfl
  | cons op ops ih =>
    intro t h hl
    have h1 : anStep n app hash t h op = step (numbers n app) hash t h op := by
      cases op with
      | update x v =>
        have hv : n ≤ v.length := hl (.update x v) (by simp)
        simp only [anStep, anUpdate, step]
        cases update (numbers n app) t h (hash x) v with
        | ok r => simp [show ¬ v.length < n by omega]
        | err m => rfl
        | panic => rfl
      | updateEmptyString => rfl
      | trim => rfl
      | reset => rfl
    simp only [anRun, run, h1]
    exact Outcome.bind_congr fun r => ih r.1 r.2 (fun op ho => hl op (by simp [ho]))

omit [Zero M] in
theorem fold_addVec (n : Nat) : ∀ (vs : List (List M)) (s : List M), s.length = n →
    (∀ v ∈ vs, n ≤ v.length) →
    (vs.foldl addVec s).length = n ∧
    ∀ i : Nat, (vs.foldl addVec s)[i]? = (s[i]?).map (fun a => (vs.filterMap (·[i]?)).foldl (· + ·) a) := by
  intro vs
  induction vs with
  | nil => intro s hs _; exact ⟨hs, by intro i; simp⟩
  | cons v vs ih =>
    intro s hs hv
    have h1 := hv v (by simp)
    have h2 : (addVec s v).length = n := by simp [addVec]; omega
    obtain ⟨a, b⟩ := ih (addVec s v) h2 (fun w hw => hv w (by simp [hw]))
    refine ⟨a, ?_⟩
    intro i
    rw [List.foldl_cons, b i]
    by_cases hi : i < n
    · have hvi : v[i]? = some v[i] := List.getElem?_eq_getElem (by omega)
      have hsi : s[i]? = some s[i] := List.getElem?_eq_getElem (by omega)
      simp [addVec, List.getElem?_zipWith, hvi, hsi]
    · have hsi : s[i]? = none := List.getElem?_eq_none (by omega)
      have h3 : (addVec s v)[i]? = none := List.getElem?_eq_none (by omega)
      rw [hsi, h3]; rfl

theorem mem_presented {ι V : Type} : ∀ (ops : List (Op ι V)) (acc : List (ι × V)) (x : ι × V),
    x ∈ presented acc ops → x ∈ acc ∨ Op.update x.1 x.2 ∈ ops := by
  intro ops
  induction ops with
  | nil => intro acc x h; exact Or.inl h
  | cons op ops ih =>
    intro acc x h
    cases op with
    | update y v =>
      rcases ih _ x h with h1 | h1
      · rcases List.mem_append.mp h1 with h2 | h2
        · exact Or.inl h2
        · simp at h2; subst h2; exact Or.inr (by simp)
      · exact Or.inr (by simp [h1])
    | updateEmptyString => rcases ih _ x h with h1 | h1 <;> simp [h1]
    | trim => rcases ih _ x h with h1 | h1 <;> simp [h1]
    | reset => rcases ih _ x h with h1 | h1 <;> [simp at h1; simp [h1]]

/-- C61: for every history whose slices have at least `n` values, nothing panics and the summary of
every retained hash holds `n` numbers: number `i` is the sum of the `i`-th values presented for that
hash since the last reset (further values of a slice are ignored). -/
theorem C61_sums {ι : Type} (n : Nat) (app : List M → List M → List M) (hash : ι → Nat)
    (lgK rf start : Nat) (t0 : Tbl Nat) (hnew : newTable (numbers n app) lgK rf start = .ok t0)
    (h0 : List (List M)) (ops : List (Op ι (List M))) (hl : ∀ op ∈ ops, longEnough n op) :
    ∃ t h, anRun n app hash t0 h0 ops = .ok (t, h) ∧
      (∀ k, (∃ s, (k, s) ∈ all t) ↔
        (∃ x ∈ presented [] ops, hash x.1 / 2 = k) ∧ k ≠ 0 ∧ k < theta64 t) ∧
      ∀ e ∈ all t, ∃ s, h[e.2]? = some s ∧ s.length = n ∧
        ∀ i, i < n → s[i]? =
          some (total ((valuesFor hash e.1 (presented [] ops)).filterMap (·[i]?))) := by
  obtain ⟨t, h, e, h1, -, -, -, h2, -⟩ := C53_summaries_pointers (List.replicate n (0 : M))
    (List.replicate n 0) addVec app hash lgK rf start t0 hnew h0 [] List.nodup_nil (by simp) ops
  refine ⟨t, h, by rw [anRun_eq n app hash ops t0 h0 hl]; exact e, h1, ?_⟩
  intro a ha
  have hlen : ∀ v ∈ valuesFor hash a.1 (presented [] ops), n ≤ v.length := by
    intro v hv
    obtain ⟨x, hx, rfl⟩ := List.mem_map.mp hv
    have hx' := (List.mem_filter.mp hx).1
    rcases mem_presented ops [] x hx' with h3 | h3
    · cases h3
    · exact hl _ h3
  obtain ⟨b1, b2⟩ := fold_addVec n _ (List.replicate n (0 : M)) (by simp) hlen
  refine ⟨_, h2 a ha, b1, ?_⟩
  intro i hi
  rw [b2 i, List.getElem?_replicate, if_pos hi]
  rfl

/-- C61: a slice that is too short makes the program panic as soon as its key is not screened out. -/
theorem C61_short_slice_panics (n : Nat) (app : List M → List M → List M) (t : Tbl Nat)
    (h : List (List M)) (h1 : Nat) (v : List M) (hv : v.length < n) {t' : Tbl Nat}
    {h' : List (List M)} {st : Status} (hu : update (numbers n app) t h h1 v = .ok (t', h', st))
    (hst : st = .inserted ∨ st = .duplicate) : anUpdate n app t h h1 v = .panic := by
  simp [anUpdate, hu, hv, hst]

/-! ## The hypotheses are met -/

example : ∃ t0 : Tbl Nat, newTable (numbers (M := Int) 2 (fun a _ => a)) 5 0 maxTheta = .ok t0 :=
  ⟨_, rfl⟩

/-- two values for one key, with a superfluous number -/
example : ∃ t0 : Tbl Nat, newTable (numbers (M := Int) 2 (fun a _ => a)) 5 0 maxTheta = .ok t0 ∧
    (do let (t, h) ← anRun 2 (fun a _ => a) (fun x : Nat => 2 * x + 2) t0 []
          [.update 4 [1, 2], .update 4 [10, 20, 30]]
        pure ((all t).map fun e => (e.1, h[e.2]?)) : Outcome _) = .ok [(5, some [11, 22])] := by
  refine ⟨_, rfl, ?_⟩
  decide +kernel

example : ∃ t0 : Tbl Nat, newTable (numbers (M := Int) 2 (fun a _ => a)) 5 0 maxTheta = .ok t0 ∧
    anRun 2 (fun a _ => a) (fun x : Nat => 2 * x + 2) t0 [] [.update 4 [1]] = .panic := by
  refine ⟨_, rfl, ?_⟩
  decide +kernel

end Verif.Tuple
