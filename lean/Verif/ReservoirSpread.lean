import Verif.ReservoirUnion

/-!
# Second moments of the reservoir (lemmas of C116)

`pairs p s` estimates the number of ordered pairs of presented items that both match the predicate:
the matching pairs of the sample, scaled by `n(n-1) / (d(d-1))` with `d` the size of the sample.
An update adds, on average, the pairs the new item makes.
-/

namespace Verif.Reservoir

open Rand

variable {T : Type}

/-- Summing over the replaced slot: with `m` matching items of `d`, `m` choices remove a match. -/
theorem sum_set_fun (d : List T) (p : T → Bool) (x : T) (f : ℚ → ℚ) :
    ∑ j ∈ Finset.range d.length, f ((d.set j x).countP p : ℚ)
      = d.countP p * f (d.countP p - 1 + ind (p x))
        + (d.length - d.countP p) * f (d.countP p + ind (p x)) := by
  induction d generalizing f with
  | nil => simp
  | cons y d ih =>
    rw [List.length_cons, Finset.sum_range_succ']
    have h1 : ∀ j, (((y :: d).set (j + 1) x).countP p : ℚ) = ((d.set j x).countP p : ℚ) + ind (p y) := by
      intro j
      rw [List.set_cons_succ, List.countP_cons]
      unfold ind
      split <;> simp
    have h2 : (((y :: d).set 0 x).countP p : ℚ) = d.countP p + ind (p x) := by
      rw [List.set_cons_zero, List.countP_cons]
      unfold ind
      split <;> simp
    have h3 : ((y :: d).countP p : ℚ) = d.countP p + ind (p y) := by
      rw [List.countP_cons]
      unfold ind
      split <;> simp
    rw [Finset.sum_congr rfl (fun j _ => by rw [h1 j]), ih (fun t => f (t + ind (p y))), h2, h3]
    push_cast
    have hy : ind (p y) = 1 ∨ ind (p y) = 0 := by unfold ind; split <;> simp
    rcases hy with hy | hy <;> rw [hy]
    · have e1 : (d.countP p : ℚ) - 1 + ind (p x) + 1 = d.countP p + ind (p x) := by ring
      have e2 : (d.countP p : ℚ) + 1 - 1 + ind (p x) = d.countP p + ind (p x) := by ring
      have e3 : (d.countP p : ℚ) + 1 + ind (p x) = d.countP p + ind (p x) + 1 := by ring
      rw [e1, e2, e3]
      ring
    · simp only [add_zero]
      ring

/-- The estimated number of ordered matching pairs. -/
def pairs (p : T → Bool) (s : Sk T) : ℚ :=
  s.n * (s.n - 1) * (s.data.countP p * (s.data.countP p - 1) / (s.data.length * (s.data.length - 1)))

/-- As long as the sample is the whole stream, the pairs are counted exactly. -/
theorem pairs_exact {E : Env T} {s : Sk T} (hs : Inv E s) (p : T → Bool) (hn : s.n ≤ s.k) :
    pairs p s = s.data.countP p * (s.data.countP p - 1) := by
  have hlen : s.data.length = s.n := by rw [hs.len]; omega
  have hc : s.data.countP p ≤ s.data.length := List.countP_le_length
  unfold pairs
  rw [hlen] at hc ⊢
  by_cases h : s.n ≤ 1
  · have h1 : s.data.countP p = 0 ∨ s.data.countP p = 1 := by omega
    rcases h1 with h1 | h1 <;> rw [h1] <;> simp
  · have h0 : (s.n : ℚ) ≠ 0 := by exact_mod_cast (by omega : s.n ≠ 0)
    have h1 : (s.n : ℚ) - 1 ≠ 0 := by
      have : (1 : ℚ) < s.n := by exact_mod_cast (by omega : 1 < s.n)
      exact ne_of_gt (by linarith)
    field_simp

/-- The pairs an update adds on average. -/
theorem update_pairs {E : Env T} (hE : E.Ok) {s : Sk T} (hs : Inv E s) (hm : s.n < maxItemsSeen)
    {x : T} (hx : E.isNil x = false) (p : T → Bool) :
    HasE (pairs p) (update E s x) (pairs p s + 2 * ind (p x) * est p s) := by
  have hall := update_all hE hs hm hx
  have hi2 : ind (p x) = 1 ∨ ind (p x) = 0 := by unfold ind; split <;> simp
  by_cases hn : s.n < s.k
  · obtain ⟨c, hc, he⟩ := update_fill hE hs hn hm hx
    rw [he] at hall ⊢
    have hs' := hall.1
    have hlen : s.data.length = s.n := by rw [hs.len]; omega
    show _ = _
    rw [pairs_exact hs p (by omega), pairs_exact hs' p (by dsimp only; omega), est_exact hs (by omega)]
    dsimp only
    rw [List.countP_append]
    have h1 : (([x] : List T).countP p : ℚ) = ind (p x) := by
      unfold ind
      rw [List.countP_cons, List.countP_nil]
      split <;> simp
    push_cast
    rw [h1]
    rcases hi2 with h | h <;> rw [h] <;> ring
  · have hlen : s.data.length = s.k := by rw [hs.len]; omega
    rw [update_full hs hn hm hx] at hall ⊢
    refine ⟨by omega, fun j => if j < s.k then
        (fun t : ℚ => (s.n + 1 : ℚ) * s.n / (s.k * (s.k - 1)) * (t * (t - 1)))
          ((s.data.set j x).countP p : ℚ)
        else (s.n + 1 : ℚ) * s.n / (s.k * (s.k - 1)) * (s.data.countP p * (s.data.countP p - 1)),
        fun j hj => ?_, ?_⟩
    · by_cases hjk : j < s.k
      · simp only [if_pos hjk]
        show _ = _
        unfold pairs
        dsimp only
        rw [List.length_set, hlen]
        push_cast
        ring
      · simp only [if_neg hjk]
        show _ = _
        unfold pairs
        dsimp only
        rw [hlen]
        push_cast
        ring
    · have h2 := hs.two
      have hk0 : (s.k : ℚ) ≠ 0 := by exact_mod_cast (by omega : s.k ≠ 0)
      have hk1 : (s.k : ℚ) - 1 ≠ 0 := by
        have : (1 : ℚ) < s.k := by exact_mod_cast (by omega : 1 < s.k)
        exact ne_of_gt (by linarith)
      have hn0 : ((s.n : ℚ) + 1) ≠ 0 := by positivity
      rw [sum_range_ite (by omega)]
      have hsum := sum_set_fun s.data p x
        (fun t : ℚ => (s.n + 1 : ℚ) * s.n / (s.k * (s.k - 1)) * (t * (t - 1)))
      rw [hlen] at hsum
      rw [hsum, Finset.sum_const, Nat.card_Ico, nsmul_eq_mul, est_eq hs]
      unfold pairs
      rw [hlen, Nat.cast_sub (by omega)]
      push_cast
      rcases hi2 with h | h <;> rw [h] <;> field_simp <;> ring

/-- The pairs a stream adds on average. -/
theorem updates_pairs {E : Env T} (hE : E.Ok) (items : List T) {s : Sk T} (hs : Inv E s)
    (hm : s.n + items.length ≤ maxItemsSeen) (p : T → Bool) :
    HasE (pairs p) (updates E s items)
      (pairs p s + 2 * (live E items).countP p * est p s
        + (live E items).countP p * ((live E items).countP p - 1)) := by
  induction items generalizing s with
  | nil =>
    simp only [live, List.filter_nil, List.countP_nil, Nat.cast_zero, add_zero, mul_zero, zero_mul]
    exact rfl
  | cons x items ih =>
    rw [List.length_cons] at hm
    unfold updates
    rw [List.foldlM_cons]
    cases hx : E.isNil x with
    | true =>
      rw [update_nil (by omega) hx, ret_bind, live_cons_nil hx]
      exact ih hs (by omega)
    | false =>
      rw [live_cons_live hx]
      have h1 := ((update_pairs hE hs (by omega) hx p).add
        ((update_E hE hs (by omega) hx p).affine (2 * (live E items).countP p)
          ((live E items).countP p * ((live E items).countP p - 1))))
      have hi2 : ind (p x) = 1 ∨ ind (p x) = 0 := by unfold ind; split <;> simp
      have h3 : ((x :: live E items).countP p : ℚ) = (live E items).countP p + ind (p x) := by
        rw [List.countP_cons]
        unfold ind
        split <;> simp
      have he : pairs p s + 2 * ((x :: live E items).countP p : ℚ) * est p s
          + (x :: live E items).countP p * ((x :: live E items).countP p - 1)
          = pairs p s + 2 * ind (p x) * est p s
            + (2 * (live E items).countP p * (est p s + ind (p x))
              + (live E items).countP p * ((live E items).countP p - 1)) := by
        rw [h3]
        rcases hi2 with h | h <;> rw [h] <;> ring
      rw [he]
      refine h1.bind ((update_all hE hs (by omega) hx).mono fun s' h => ?_)
      have := ih h.1 (by omega)
      rwa [add_assoc] at this

end Verif.Reservoir
