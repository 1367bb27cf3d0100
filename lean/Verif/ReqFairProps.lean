import Verif.ReqError
import Verif.ReqProps

/-!
# The REQ sketch is unbiased (C51)

`weightIn p i st` is what the caller computes from `All()` of sketch `i`: the weight of the retained
items with property `p`.  For `p = (· < q)` or `(· ≤ q)` this is the estimated number of items below
`q`, the rank times `N()`.
-/

namespace Verif.Req

open Verif Verif.View

variable {α : Type} [LinearOrder α]

/-- The weight of the items with property `p` among those that `All()` yields. -/
def weightIn (p : α → Bool) : Nat → List (Sketch α) → ℚ := fun i => onSketch i fun s =>
  match all s with
  | .ok items => ((wsum p items : Int) : ℚ)
  | _ => 0

theorem weightIn_eq {env : Env α} {K : Nat} {s : Sketch α} {h : Hist α} (hg : Good env K s h)
    {st : List (Sketch α)} {i : Nat} (hi : st[i]? = some s) (p : α → Bool) :
    weightIn p i st = h.stream.countP p + ((s.log.map (Event.err p)).sum : Int) := by
  unfold weightIn onSketch
  rw [hi]
  simp only
  rw [all_ok hg.core]
  simp only
  rw [wItems_wsum, one_mul, hg.core.lk.dec p]
  push_cast
  rfl

/-- **C51.** In a program without merges the expectation of the weight of the retained items with
any property is the number of such items presented to the sketch. -/
theorem C51_unbiased (env : Env α) (he : EnvOk env) (ops : List (Op α)) (hv : Valid env.zero ops)
    (hops : ∀ op ∈ ops, op.simple) (i : Nat) (p : α → Bool) :
    Rand.HasE (weightIn p i) (run env ops) ((streamOf env.zero ops i).countP p) := by
  have hall := run_good he ops hv (ks_zero ops)
  obtain ⟨L, hL⟩ : ∃ L, L = 47 := ⟨_, rfl⟩
  obtain ⟨J, hJ⟩ : ∃ J, J = 2 ^ 46 := ⟨_, rfl⟩
  have h1 := Rand.HasE.finsum (Finset.range L ×ˢ Finset.range J)
    (t := run env ops) (x := fun _ => 0)
    (fun z _ => errAt_zero he p ops hv hops i ⟨z.1, z.2⟩) (hall.mono fun _ _ => trivial)
  rw [Finset.sum_const_zero] at h1
  have h2 := h1.affine 1 ((streamOf env.zero ops i).countP p)
  rw [mul_zero, zero_add] at h2
  refine h2.congr ((hall.and (run_events he ops hv hops)).mono ?_)
  rintro st ⟨hst, hev⟩
  rw [one_mul]
  cases hi : st[i]? with
  | none =>
    have hl : (hist env.zero ops).length ≤ i := by
      rw [← hst.len]
      exact List.getElem?_eq_none_iff.1 hi
    unfold weightIn onSketch streamOf
    rw [hi, List.getD_eq_getElem?_getD, List.getElem?_eq_none hl]
    simp [noHist]
  | some s =>
    have hg := hst.good i s hi
    rw [weightIn_eq hg hi p]
    have hlen : s.compactors.length ≤ 47 := hg.core.inv.len_le (by
      rw [hg.core.len]
      exact stream_lt ops hv i)
    have hs : ∀ z : Nat × Nat, onSketch i (fun s => (errAt p ⟨z.1, z.2⟩ s.log : ℚ)) st =
        ((errAt p ⟨z.1, z.2⟩ s.log : Int) : ℚ) := by
      intro z
      unfold onSketch
      rw [hi]
    rw [Finset.sum_congr rfl fun z _ => hs z, Finset.sum_product, ← errLevel_sum p L s.log
      fun e h => lt_of_lt_of_le (hev i s hi e h).1 (hL ▸ hlen), add_comm]
    push_cast
    congr 1
    refine Finset.sum_congr rfl fun h _ => ?_
    have := errAt_sum p h J s.log fun e h => by
      have := (hev i s hi e h).2
      omega
    rw [← this]
    push_cast
    rfl

theorem streamProg_simple (k : Nat) (hra : Bool) (xs : List α) :
    ∀ op ∈ streamProg k hra xs, op.simple := by
  intro op h
  rcases List.mem_cons.1 h with rfl | h
  · trivial
  · obtain ⟨x, -, rfl⟩ := List.mem_map.1 h
    trivial

example (xs : List ℤ) (hn : xs.length < 2 ^ 47) (q : ℤ) :
    Rand.HasE (weightIn (below true q) 0) (run sampleEnv (streamProg 12 true xs))
      (xs.countP (below true q)) := by
  have := C51_unbiased sampleEnv sampleEnv_ok _
    (streamProg_valid (k := 12) (by omega) (by omega) rfl true sampleEnv.zero xs hn)
    (streamProg_simple _ _ _) 0 (below true q)
  unfold streamOf at this
  rw [streamProg_hist] at this
  exact this

/-! ## With merges there is a bias -/

/-- Every outcome passes the test; `fuel` bounds the number of coins. -/
def passes {β : Type} (f : β → Bool) : Nat → Rand β → Bool
  | _, .ret a => f a
  | n + 1, .intn m k => decide (0 < m) && (List.range m).all fun i => passes f n (k i)
  | _, _ => false

theorem passes_all {β : Type} {f : β → Bool} (n : Nat) (t : Rand β) (h : passes f n t = true) :
    Rand.All (fun a => f a = true) t := by
  induction t generalizing n with
  | ret a =>
    cases n <;> exact h
  | err e => cases n <;> simp [passes] at h
  | panic => cases n <;> simp [passes] at h
  | intn m k ih =>
    cases n with
    | zero => simp [passes] at h
    | succ n =>
      simp only [passes, Bool.and_eq_true, decide_eq_true_eq, List.all_eq_true, List.mem_range] at h
      exact ⟨h.1, fun i hi => ih i n (h.2 i hi)⟩
  | unif nz k ih => cases n <;> simp [passes] at h

instance (hs : List (Hist ℤ)) (op : Op ℤ) : Decidable (Allowed hs op) := by
  cases op <;> unfold Allowed <;> infer_instance

/-- The conditions on the calls, one after the other. -/
def validFrom (zero : ℤ) : List (Hist ℤ) → List (Op ℤ) → Bool
  | _, [] => true
  | hs, op :: ops => decide (Allowed hs op) && validFrom zero (histStep zero hs op) ops

theorem validFrom_ok {zero : ℤ} (ops : List (Op ℤ)) (h : validFrom zero [] ops = true) :
    Valid zero ops := by
  have key : ∀ (ops : List (Op ℤ)) (hs : List (Hist ℤ)), validFrom zero hs ops = true →
      ∀ pre op post, ops = pre ++ op :: post → Allowed (pre.foldl (histStep zero) hs) op := by
    intro ops
    induction ops with
    | nil => intro hs _ pre op post e; simp at e
    | cons o ops ih =>
      intro hs h pre op post e
      rw [validFrom, Bool.and_eq_true, decide_eq_true_eq] at h
      cases pre with
      | nil =>
        rw [List.nil_append, List.cons.injEq] at e
        rw [← e.1]
        exact h.1
      | cons a pre =>
        rw [List.cons_append, List.cons.injEq] at e
        rw [List.foldl_cons, ← e.1]
        exact ih _ h.2 pre op post e.2
  exact key ops [] h

/-- 24 items go to a sketch, which is merged into a new one; the new one then gets 26 items. -/
def biasProg : List (Op ℤ) :=
  streamProg 4 false ((List.range 24).map fun i => (i : ℤ)) ++ [.new 4 false, .merge 1 0] ++
    List.replicate 26 (.update 1 (some 50))

/-- **Finding (C51).** Merging makes the next choice of a half deterministic: the state of the source
says that a coin was flipped, but the coin itself is not taken over.  After this program the estimate
of the number of items up to 16 is 16 whatever the coins, while 17 such items were presented. -/
theorem C51_merge_bias :
    Valid sampleEnv.zero biasProg ∧ (streamOf sampleEnv.zero biasProg 1).countP (below true 16) = 17 ∧
    Rand.HasE (weightIn (below true 16) 1) (run sampleEnv biasProg) 16 := by
  refine ⟨validFrom_ok _ (by decide +kernel), by decide +kernel, ?_⟩
  have h : passes (fun st => decide (weightIn (below true 16) 1 st = 16)) 20 (run sampleEnv biasProg)
      = true := by decide +kernel
  exact Rand.HasE.constI ((passes_all _ _ h).mono fun st hst => of_decide_eq_true hst)

end Verif.Req
