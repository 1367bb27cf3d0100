import Verif.ReservoirSpread
import Verif.ReservoirProps

/-!
# C116: reservoir estimates have the spread of sampling without replacement
-/

namespace Verif.Reservoir

open Rand

variable {T : Type}

/-- C116: for a stream of `n > k` (non-nil) items of which `c` match the predicate, repeated or not,
the mean square of the error of `EstimateSubsetSum` is `c (n - c) (n - k) / (k (n - 1))`: the
variance of drawing `k` of the `n` items without replacement. -/
theorem C116_spread (E : Env T) (hE : E.Ok) {k : Nat} (hk : 2 ≤ k) (rf : Nat) (stream : List T)
    (hm : stream.length ≤ 2 ^ 48 - 1) (p : T → Bool) {n c : Nat}
    (hn : n = (stream.filter fun x => !E.isNil x).length)
    (hc : c = (stream.filter fun x => !E.isNil x).countP p) (hkn : k < n) :
    HasE (fun s => ((estimateSubsetSum s p).1 - c) ^ 2) (sample E k rf stream)
      ((c : ℚ) * (n - c) * (n - k) / (k * (n - 1))) := by
  have hi := Inv.new (E := E) rf hk
  have hm' : (0 : Nat) + stream.length ≤ maxItemsSeen := by simpa [maxItemsSeen] using hm
  rw [sample_eq E hk]
  have h1 := updates_pairs hE stream hi hm' p
  have h2 := updates_E hE stream hi hm' p
  rw [est_exact hi (Nat.zero_le _)] at h1 h2
  rw [pairs_exact hi p (Nat.zero_le _)] at h1
  simp only [List.countP_nil, Nat.cast_zero, zero_mul, mul_zero, zero_add] at h1 h2
  have hc' : (live E stream).countP p = c := hc.symm
  rw [hc'] at h1 h2
  have hk0 : (k : ℚ) ≠ 0 := by exact_mod_cast (by omega : k ≠ 0)
  have hk1 : (k : ℚ) - 1 ≠ 0 := by
    have : (1 : ℚ) < k := by exact_mod_cast (by omega : 1 < k)
    exact ne_of_gt (by linarith)
  have hn0 : (n : ℚ) ≠ 0 := by exact_mod_cast (by omega : n ≠ 0)
  have hn1 : (n : ℚ) - 1 ≠ 0 := by
    have : (1 : ℚ) < n := by exact_mod_cast (by omega : 1 < n)
    exact ne_of_gt (by linarith)
  have h3 := (h1.affine ((n : ℚ) * (k - 1) / (k * (n - 1))) ((c : ℚ) ^ 2)).add
    (h2.affine ((n : ℚ) / k - 2 * c) 0)
  have he : (n : ℚ) * (k - 1) / (k * (n - 1)) * (c * (c - 1)) + (c : ℚ) ^ 2
      + (((n : ℚ) / k - 2 * c) * c + 0) = (c : ℚ) * (n - c) * (n - k) / (k * (n - 1)) := by
    field_simp
    ring
  rw [he] at h3
  refine h3.congr ((updates_all hE stream hi hm').mono fun s h => ?_)
  obtain ⟨i, hk', _, ns, _, _⟩ := h
  have hns : s.n = n := by rw [ns, hn]; simp [live]
  have hlen : s.data.length = k := by rw [i.len, hk', hns]; dsimp only; omega
  have hes : (estimateSubsetSum s p).1 = est p s := rfl
  rw [hes]
  unfold pairs
  rw [est_eq i, hns, hlen]
  field_simp
  ring

/-- C116: as long as the stream fits there is no error at all. -/
theorem C116_exact (E : Env T) (hE : E.Ok) {k : Nat} (hk : 2 ≤ k) (rf : Nat) (stream : List T)
    (hm : stream.length ≤ 2 ^ 48 - 1) (p : T → Bool)
    (hkn : (stream.filter fun x => !E.isNil x).length ≤ k) :
    All (fun s => (estimateSubsetSum s p).1 = ((stream.filter fun x => !E.isNil x).countP p : ℚ))
      (sample E k rf stream) := by
  rw [sample_eq E hk]
  refine (updates_all hE stream (Inv.new rf hk) (by simpa [maxItemsSeen] using hm)).mono
    fun s h => ?_
  obtain ⟨i, hk', _, n, f, _⟩ := h
  have hl : (live E stream).length ≤ k := hkn
  have hes : (estimateSubsetSum s p).1 = est p s := rfl
  dsimp only at n hk' f
  rw [hes, est_exact i (by omega), f (by omega)]
  rfl

theorem spread_le {n k c : Nat} (hk : 2 ≤ k) (hkn : k < n) (_hc : c ≤ n) :
    (c : ℚ) * (n - c) * (n - k) / (k * (n - 1)) ≤ (n : ℚ) ^ 2 / (4 * k) := by
  have h1 : (1 : ℚ) < n := by exact_mod_cast (by omega : 1 < n)
  have h2 : (0 : ℚ) < k := by exact_mod_cast (by omega : 0 < k)
  have h3 : (k : ℚ) < n := by exact_mod_cast hkn
  have h4 : (2 : ℚ) ≤ k := by exact_mod_cast hk
  rw [div_le_div_iff₀ (by apply mul_pos h2; linarith) (by linarith)]
  have h5 : (c : ℚ) * (n - c) * 4 ≤ n ^ 2 := by nlinarith [sq_nonneg ((n : ℚ) - 2 * c)]
  have h6 : (c : ℚ) * (n - c) * 4 * (n - k) ≤ n ^ 2 * (n - k) :=
    mul_le_mul_of_nonneg_right h5 (by linarith)
  have h7 : (n : ℚ) ^ 2 * (n - k) ≤ n ^ 2 * (n - 1) :=
    mul_le_mul_of_nonneg_left (by linarith) (sq_nonneg _)
  nlinarith [mul_le_mul_of_nonneg_right (h6.trans h7) h2.le]

/-- C116: whatever the stream and the predicate, the mean square of the error is at most
`n² / (4k)`. -/
theorem C116_bound (E : Env T) (hE : E.Ok) {k : Nat} (hk : 2 ≤ k) (rf : Nat) (stream : List T)
    (hm : stream.length ≤ 2 ^ 48 - 1) (p : T → Bool) :
    ∃ v, HasE (fun s => ((estimateSubsetSum s p).1
        - ((stream.filter fun x => !E.isNil x).countP p : ℚ)) ^ 2) (sample E k rf stream) v ∧
      v ≤ ((stream.filter fun x => !E.isNil x).length : ℚ) ^ 2 / (4 * k) := by
  by_cases hkn : k < (stream.filter fun x => !E.isNil x).length
  · exact ⟨_, C116_spread E hE hk rf stream hm p rfl rfl hkn,
      spread_le hk hkn List.countP_le_length⟩
  · refine ⟨0, HasE.constI ((C116_exact E hE hk rf stream hm p (by omega)).mono fun s h => ?_),
      by positivity⟩
    rw [h]
    ring

/-! ## The hypotheses can be met -/

/-- Two of the three items match, two are kept: the estimate is 3 or 3/2. -/
example : HasE (fun s => ((estimateSubsetSum s (fun x => decide (x = 6))).1 - 2) ^ 2)
    (sample natEnv 2 3 [5, 6, 6]) (1 / 2) := by
  have := C116_spread natEnv natEnv_ok (k := 2) (by decide) 3 [5, 6, 6] (by decide)
    (fun x => decide (x = 6)) (n := 3) (c := 2) (by decide) (by decide) (by decide)
  norm_num at this ⊢
  exact this

example := C116_exact natEnv natEnv_ok (k := 4) (by decide) 3 [5, 6, 6] (by decide)
  (fun x => decide (x = 6)) (by decide)

example := C116_bound natEnv natEnv_ok (k := 2) (by decide) 3 [5, 6, 6] (by decide)
  (fun x => decide (x = 6))

end Verif.Reservoir
