import Verif.ReqSpread
import Verif.ReqFairProps

/-!
# The relative error of the REQ sketch (C52)
-/

namespace Verif.Req

open Verif Verif.View

variable {α : Type} [LinearOrder α]

/-- The parameter `k` and the mode with which sketch `i` was made. -/
def MadeWith (zero : α) (ops : List (Op α)) (i k : Nat) (hra : Bool) : Prop :=
  ∃ h, (hist zero ops)[i]? = some h ∧ h.k = k ∧ h.hra = hra

section
variable {env : Env α} (he : EnvOk env) {ops : List (Op α)} (hv : Valid env.zero ops)
  (hops : ∀ op ∈ ops, op.simple) {i k : Nat} {hra : Bool} (hm : MadeWith env.zero ops i k hra)
  {p : α → Bool} (hp : Sided hra p)
include he hv hops hm hp

open Rand in
theorem spread : ex (run_total he ops hv hops)
    (fun st => (weightIn p i st - (streamOf env.zero ops i).countP p) ^ 2) ≤
      12 / ((k : ℚ) ^ 2 - 12) * ((streamOf env.zero ops i).countP p : ℚ) ^ 2 := by
  obtain ⟨h, h1, h2, h3⟩ := hm
  have hi := (List.getElem?_eq_some_iff.1 h1).1
  have hD : (hist env.zero ops).getD i noHist = h := by
    rw [List.getD_eq_getElem?_getD, h1]
    rfl
  have hp' : Sided ((hist env.zero ops).getD i noHist).hra p := by rw [hD, h3]; exact hp
  have ha := run_after he p ops hv hops i hi hp'
  have hk : 4 ≤ ((hist env.zero ops).getD i noHist).k := by
    obtain ⟨a, hex⟩ : ∃ st, After p i env ((hist env.zero ops).getD i noHist) (2 ^ 46) st := by
      have key : ∀ t : Rand (List (Sketch α)), All (After p i env
          ((hist env.zero ops).getD i noHist) (2 ^ 46)) t → ∃ st, After p i env
          ((hist env.zero ops).getD i noHist) (2 ^ 46) st := by
        intro t
        induction t with
        | ret a => exact fun h => ⟨a, h⟩
        | err e => exact fun h => h.elim
        | panic => exact fun h => h.elim
        | intn n f ih => exact fun h => ih 0 (h.2 0 h.1)
        | unif nz f ih => exact fun h => ih (1 / 2) (h (1 / 2) (by norm_num) (by norm_num) (by norm_num))
      exact key _ ha
    obtain ⟨s, a1, a2, a3, a4⟩ := hex
    rw [← a2.k]
    exact a2.core.inv.k4
  have h4 := error_square he p ops hv hops i hi hp' hk
  rw [ex_congr (g := fun st => (weightIn p i st - (streamOf env.zero ops i).countP p) ^ 2)] at h4
  · rw [show ((hist env.zero ops).getD i noHist).k = k by rw [hD, h2]] at h4
    exact h4
  · refine ha.mono ?_
    rintro st ⟨s, a1, a2, a3, a4⟩
    rw [weightIn_eq a2 a1 p]
    unfold onSketch streamOf
    rw [a1]
    simp

/-- **C52.** Without merges the mean square error of the estimated number of items below a value
(above it with high rank accuracy) is a fixed part of the square of that number, whatever the length
of the stream: the relative standard error is at most `√(12 / (k² - 12))`. -/
theorem C52_relative_error : ∃ v, Rand.HasE
    (fun st => (weightIn p i st - (streamOf env.zero ops i).countP p) ^ 2) (run env ops) v ∧
      v ≤ 12 / ((k : ℚ) ^ 2 - 12) * ((streamOf env.zero ops i).countP p : ℚ) ^ 2 :=
  ⟨_, Rand.ex_has (run_total he ops hv hops) _, spread he hv hops hm hp⟩

/-- **C52.** The probability of a relative error of `ε` or more. -/
theorem C52_tail {ε : ℚ} (h0 : 0 < ε) (hR : 0 < (streamOf env.zero ops i).countP p) :
    ∃ x, Rand.HasProb (fun st => ε * (streamOf env.zero ops i).countP p ≤
      |weightIn p i st - (streamOf env.zero ops i).countP p|) (run env ops) x ∧
      x ≤ 12 / (((k : ℚ) ^ 2 - 12) * ε ^ 2) := by
  have hRq : (0 : ℚ) < (streamOf env.zero ops i).countP p := by exact_mod_cast hR
  have hall : Rand.All (fun _ => True) (run env ops) :=
    (run_good he ops hv (ks_zero ops)).mono fun _ _ => trivial
  obtain ⟨x, hx, hle⟩ := Rand.chebyshev (run_total he ops hv hops)
    (fun st => weightIn p i st - (streamOf env.zero ops i).countP p)
    (d := ε * (streamOf env.zero ops i).countP p) (by positivity) (spread he hv hops hm hp) hall
  refine ⟨x, hx, le_trans hle (le_of_eq ?_)⟩
  rw [mul_pow, mul_div_mul_right _ _ (by positivity), div_div]

end

/-- The items not below a value, and those below it. -/
theorem sided_below (incl : Bool) (q : α) :
    Sided false (below incl q) ∧ Sided true fun y => !below incl q y := by
  unfold Sided below
  cases incl
  · simp only [Bool.false_eq_true, if_false, if_true, decide_eq_true_eq, Bool.not_eq_true',
      decide_eq_false_iff_not, not_lt]
    exact ⟨fun a b h1 h2 => lt_of_le_of_lt h1 h2, fun a b h1 h2 => le_trans h2 h1⟩
  · simp only [Bool.false_eq_true, if_false, if_true, decide_eq_true_eq, Bool.not_eq_true',
      decide_eq_false_iff_not, not_le]
    exact ⟨fun a b h1 h2 => le_trans h1 h2, fun a b h1 h2 => lt_of_lt_of_le h2 h1⟩

/-- With the default parameters and any stream: the number of items above `q` is off by half or more
in less than 37 of 100 runs. -/
example (xs : List ℤ) (hn : xs.length < 2 ^ 47) (q : ℤ) (hq : 0 < xs.countP fun y => !below true q y) :
    ∃ x, Rand.HasProb (fun st => 1 / 2 * (xs.countP fun y => !below true q y : ℚ) ≤
      |weightIn (fun y => !below true q y) 0 st - (xs.countP fun y => !below true q y)|)
      (run sampleEnv (streamProg 12 true xs)) x ∧ x ≤ 12 / ((12 ^ 2 - 12) * (1 / 2) ^ 2) := by
  have hs : streamOf sampleEnv.zero (streamProg 12 true xs) 0 = xs := by
    unfold streamOf
    rw [streamProg_hist]
    rfl
  have hm : MadeWith sampleEnv.zero (streamProg 12 true xs) 0 12 true := by
    unfold MadeWith
    rw [streamProg_hist]
    exact ⟨_, rfl, rfl, rfl⟩
  have := C52_tail sampleEnv_ok
    (streamProg_valid (k := 12) (by omega) (by omega) rfl true sampleEnv.zero xs hn)
    (streamProg_simple _ _ _) hm (sided_below true q).2 (ε := 1 / 2) (by norm_num) (by rw [hs]; exact hq)
  rw [hs] at this
  exact_mod_cast this

example (xs : List ℤ) (hn : xs.length < 2 ^ 47) (q : ℤ) :
    ∃ v, Rand.HasE (fun st => (weightIn (below false q) 0 st - xs.countP (below false q)) ^ 2)
      (run sampleEnv (streamProg 100 false xs)) v ∧
      v ≤ 12 / (100 ^ 2 - 12) * (xs.countP (below false q) : ℚ) ^ 2 := by
  have hs : streamOf sampleEnv.zero (streamProg 100 false xs) 0 = xs := by
    unfold streamOf
    rw [streamProg_hist]
    rfl
  have hm : MadeWith sampleEnv.zero (streamProg 100 false xs) 0 100 false := by
    unfold MadeWith
    rw [streamProg_hist]
    exact ⟨_, rfl, rfl, rfl⟩
  have := C52_relative_error sampleEnv_ok
    (streamProg_valid (k := 100) (by omega) (by omega) rfl false sampleEnv.zero xs hn)
    (streamProg_simple _ _ _) hm (sided_below false q).1
  rw [hs] at this
  exact_mod_cast this

end Verif.Req
