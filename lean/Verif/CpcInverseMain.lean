import Verif.CpcInverseRows

/-!
# The ICON estimate inverts the expected number of cells: all counts
-/

namespace Verif.Cpc

open PolyCert

/-- the number of cells, in units of `k`, that is not exceeded -/
noncomputable def occU (v : ℝ) : ℝ := occ v + v / 2 ^ 63

theorem occU_mono {v w : ℝ} (h : v ≤ w) : occU v ≤ occU w := by
  unfold occU
  have := occ_mono h
  have : v / 2 ^ 63 ≤ w / 2 ^ 63 := by gcongr
  linarith

theorem occU_le (v : ℝ) : occU v ≤ v := occ_le v

/-! ## The tolerance -/

theorem tol_bounds {lgK : Nat} (h4 : 4 ≤ lgK) : 1 / 64 ≤ tol lgK ∧ tol lgK ≤ 1 / 16 := by
  unfold tol
  have : min lgK 6 = 4 ∨ min lgK 6 = 5 ∨ min lgK 6 = 6 := by omega
  rcases this with h | h | h <;> rw [h] <;> norm_num

theorem one_div_le_tol (lgK : Nat) : (1 : ℝ) / 2 ^ lgK ≤ tol lgK := by
  unfold tol
  exact one_div_le_one_div_of_le (by positivity) (pow_le_pow_right₀ (by norm_num) (by omega))

theorem tol_corr {lgK : Nat} (h4 : 4 ≤ lgK) : (1 - tol lgK) * binCorr lgK ≤ 127 / 128 := by
  have hk : (2 : ℝ) ^ min lgK 6 ≤ 2 ^ lgK := pow_le_pow_right₀ (by norm_num) (by omega)
  unfold tol binCorr
  have hc : min lgK 6 = 4 ∨ min lgK 6 = 5 ∨ min lgK 6 = 6 := by omega
  generalize (2 : ℝ) ^ lgK = k at hk ⊢
  rw [← mul_div_assoc]
  rcases hc with h | h | h <;> rw [h] at hk ⊢ <;> norm_num at hk ⊢ <;>
    rw [div_le_iff₀ (by linarith)] <;> linarith

/-! ## Small counts -/

theorem occ_small {t r : ℝ} (h1 : 1 / 64 ≤ t) (h2 : t ≤ 1 / 16) (h0 : 0 ≤ r) (h3 : r ≤ 3 * t) :
    r ≤ occ ((1 + t) * r) := by
  refine le_trans ?_ (le_occ (by positivity))
  have e : (1 + t) * r - ((1 + t) * r) ^ 2 / 6 - (1 + t) * r / 2 ^ 63 - r =
      r * (t - (1 + t) ^ 2 * r / 6 - (1 + t) / 2 ^ 63) := by ring
  rw [← sub_nonneg, e]
  apply mul_nonneg h0
  have a1 : (1 + t) ^ 2 ≤ 5 / 4 := by nlinarith
  have a2 : (1 + t) ^ 2 * r ≤ 5 / 4 * (3 * t) := mul_le_mul a1 h3 h0 (by norm_num)
  have a3 : (1 + t) / 2 ^ 63 ≤ 1 / 1000 := by
    rw [div_le_iff₀ (by norm_num)]
    norm_num
    linarith
  linarith

/-! ## The polynomials -/

theorem iconF26_le {s t : ℝ} (h0 : 0 ≤ s) (hst : s ≤ t) (ht : t ≤ 5.75) : iconF 26 s ≤ iconF 26 t := by
  rcases hst.eq_or_lt with h | h
  · rw [h]
  · exact (iconF_lt (by norm_num) (by norm_num) h0 h ht).le

theorem upTest_ok {p q : Nat × Nat × Nat} (h : upTest p q = true) :
    (q.1 : ℝ) / 2 ^ 20 ≤ 81 / 80 * iconF 26 (p.2.1 / 2 ^ 16) := by
  have h1 := of_decide_eq_true h
  have h2 : ((((40 * q.1 * (10 ^ 23 * 66774757 * 2 ^ 371) : Nat) : Int)) : ℝ) ≤
      ((81 * evalI iconRef p.2.1 : Int) : ℝ) := by exact_mod_cast h1
  have h3 := iconF_ref p.2.1
  rw [Int.cast_mul, Int.cast_natCast, Nat.cast_mul, Nat.cast_mul, Nat.cast_mul, Nat.cast_mul,
    Nat.cast_pow, Nat.cast_pow] at h2
  have e : (2 : ℝ) ^ 391 = 2 ^ 371 * 2 ^ 20 := by rw [← pow_add]
  rw [e] at h3
  have hp : (0 : ℝ) < 2 ^ 371 := by positivity
  simp only [Nat.cast_ofNat, Int.cast_ofNat] at h2
  generalize (2 : ℝ) ^ 371 = z at h2 h3 hp
  have hz : 0 < 10 ^ 23 * 66774757 * z := by positivity
  rw [← mul_le_mul_iff_of_pos_right (a := 10 ^ 23 * 66774757 * z * 2 ^ 20 * 80) (by positivity)]
  have e1 : (q.1 : ℝ) / 2 ^ 20 * (10 ^ 23 * 66774757 * z * 2 ^ 20 * 80) =
      2 * (40 * q.1 * (10 ^ 23 * 66774757 * z)) := by ring
  have e2 : 81 / 80 * iconF 26 (p.2.1 / 2 ^ 16) * (10 ^ 23 * 66774757 * z * 2 ^ 20 * 80) =
      81 * (iconF 26 (p.2.1 / 2 ^ 16) * (10 ^ 23 * 66774757 * (z * 2 ^ 20))) := by ring
  rw [e1, e2]
  rw [h3]
  linarith

theorem loTest_ok {p q : Nat × Nat × Nat} (h : loTest p q = true) :
    135 / 136 * iconF 26 (q.2.2 / 2 ^ 16) ≤ (p.1 : ℝ) / 2 ^ 20 := by
  have h1 := of_decide_eq_true h
  have h2 : ((135 * evalI iconRef q.2.2 : Int) : ℝ) ≤
      ((((68 * p.1 * (10 ^ 23 * 66774757 * 2 ^ 371) : Nat) : Int)) : ℝ) := by exact_mod_cast h1
  have h3 := iconF_ref q.2.2
  rw [Int.cast_mul, Int.cast_natCast, Nat.cast_mul, Nat.cast_mul, Nat.cast_mul, Nat.cast_mul,
    Nat.cast_pow, Nat.cast_pow] at h2
  have e : (2 : ℝ) ^ 391 = 2 ^ 371 * 2 ^ 20 := by rw [← pow_add]
  rw [e] at h3
  have hp : (0 : ℝ) < 2 ^ 371 := by positivity
  simp only [Nat.cast_ofNat, Int.cast_ofNat] at h2
  generalize (2 : ℝ) ^ 371 = z at h2 h3 hp
  have hz : 0 < 10 ^ 23 * 66774757 * z := by positivity
  rw [← mul_le_mul_iff_of_pos_right (a := 10 ^ 23 * 66774757 * z * 2 ^ 20 * 136) (by positivity)]
  have e1 : (p.1 : ℝ) / 2 ^ 20 * (10 ^ 23 * 66774757 * z * 2 ^ 20 * 136) =
      2 * (68 * p.1 * (10 ^ 23 * 66774757 * z)) := by ring
  have e2 : 135 / 136 * iconF 26 (q.2.2 / 2 ^ 16) * (10 ^ 23 * 66774757 * z * 2 ^ 20 * 136) =
      135 * (iconF 26 (q.2.2 / 2 ^ 16) * (10 ^ 23 * 66774757 * (z * 2 ^ 20))) := by ring
  rw [e1, e2]
  rw [h3]
  linarith

theorem poly_up {r : ℝ} (h1 : 1 / 24 ≤ r) (h2 : r ≤ 5.7) : r ≤ occ (81 / 80 * iconF 26 r) := by
  obtain ⟨p, l, e, ha, _, hb, _, _⟩ := icGrid_ends
  have hu := rows_up
  have hg := icGrid_ok
  rw [e] at hu hg hb
  have ha' : (p.2.1 : ℝ) ≤ 2730 := by exact_mod_cast ha
  have hb' : (373556 : ℝ) ≤ (lastOf (p :: l)).2.1 := by exact_mod_cast hb
  obtain ⟨x, hx, y, hy, ht, hxr, hry⟩ := check2_search (fun q => (q.2.1 : ℝ) / 2 ^ 16) l p hu
    (r := r) (by rw [div_le_iff₀ (by norm_num)]; norm_num; linarith)
    (by rw [lt_div_iff₀ (by norm_num)]; norm_num at h2 ⊢; linarith)
  have hf := (fxOK_sound (by norm_num) (List.all_eq_true.mp hg y hy)).1
  have hv := upTest_ok ht
  have hm : iconF 26 (x.2.1 / 2 ^ 16) ≤ iconF 26 r :=
    iconF26_le (div_nonneg (Nat.cast_nonneg _) (by norm_num)) hxr (by norm_num at h2 ⊢; linarith)
  have ho : occ ((y.1 : ℝ) / 2 ^ 20) ≤ occ (81 / 80 * iconF 26 r) := occ_mono (by linarith)
  refine le_trans ?_ ho
  refine le_trans ?_ hf
  refine hry.le.trans (le_of_eq ?_)
  norm_num

theorem poly_lo {r : ℝ} (h1 : 1 / 24 ≤ r) (h2 : r ≤ 5.7) : occU (135 / 136 * iconF 26 r) ≤ r := by
  obtain ⟨p, l, e, _, ha, _, hb, hc⟩ := icGrid_ends
  have hu := rows_lo
  have hg := icGrid_ok
  rw [e] at hu hg hb
  have ha' : (p.2.2 : ℝ) ≤ 2730 := by exact_mod_cast ha
  have hb' : (373556 : ℝ) ≤ (lastOf (p :: l)).2.2 := by exact_mod_cast hb
  obtain ⟨x, hx, y, hy, ht, hxr, hry⟩ := check2_search (fun q => (q.2.2 : ℝ) / 2 ^ 16) l p hu
    (r := r) (by rw [div_le_iff₀ (by norm_num)]; norm_num; linarith)
    (by rw [lt_div_iff₀ (by norm_num)]; norm_num at h2 ⊢; linarith)
  have hf := (fxOK_sound (by norm_num) (List.all_eq_true.mp hg x hx)).2
  have hv := loTest_ok ht
  have hy' : (y.2.2 : ℝ) ≤ 376832 := by
    exact_mod_cast of_decide_eq_true (List.all_eq_true.mp hc y hy)
  have hm : iconF 26 r ≤ iconF 26 (y.2.2 / 2 ^ 16) :=
    iconF26_le (by linarith) hry.le (by rw [div_le_iff₀ (by norm_num)]; refine hy'.trans ?_; norm_num)
  have ho : occU (135 / 136 * iconF 26 r) ≤ occU ((x.1 : ℝ) / 2 ^ 20) := occU_mono (by linarith)
  refine ho.trans ?_
  unfold occU
  norm_num at hf hxr ⊢
  linarith

/-! ## The exponential formula -/

theorem root_le {X C a : Nat} (h : X ^ 512 ≤ 2 ^ a * C ^ 512) :
    (X : ℝ) ≤ (2 : ℝ) ^ ((a : ℝ) / 512) * C := by
  have hz : ((2 : ℝ) ^ ((a : ℝ) / 512)) ^ 512 = 2 ^ a := by
    rw [← Real.rpow_natCast, ← Real.rpow_mul (by norm_num)]
    rw [show (a : ℝ) / 512 * ((512 : Nat) : ℝ) = a by push_cast; ring, Real.rpow_natCast]
  have hp : (0 : ℝ) < (2 : ℝ) ^ ((a : ℝ) / 512) := Real.rpow_pos_of_pos (by norm_num) _
  have h1 : (X : ℝ) ^ 512 ≤ 2 ^ a * (C : ℝ) ^ 512 := by exact_mod_cast h
  rw [← hz, ← mul_pow] at h1
  exact (pow_le_pow_iff_left₀ (by positivity) (by positivity) (by norm_num)).mp h1

theorem le_root {X C a : Nat} (h : 2 ^ a * C ^ 512 ≤ X ^ 512) :
    (2 : ℝ) ^ ((a : ℝ) / 512) * C ≤ (X : ℝ) := by
  have hz : ((2 : ℝ) ^ ((a : ℝ) / 512)) ^ 512 = 2 ^ a := by
    rw [← Real.rpow_natCast, ← Real.rpow_mul (by norm_num)]
    rw [show (a : ℝ) / 512 * ((512 : Nat) : ℝ) = a by push_cast; ring, Real.rpow_natCast]
  have hp : (0 : ℝ) < (2 : ℝ) ^ ((a : ℝ) / 512) := Real.rpow_pos_of_pos (by norm_num) _
  have h1 : 2 ^ a * (C : ℝ) ^ 512 ≤ (X : ℝ) ^ 512 := by exact_mod_cast h
  rw [← hz, ← mul_pow] at h1
  exact (pow_le_pow_iff_left₀ (by positivity) (by positivity) (by norm_num)).mp h1

theorem upTestE_ok {p q : Nat × Nat × Nat} (h : upTestE p q = true) :
    (q.1 : ℝ) / 2 ^ 20 ≤ 65 / 64 * (0.7940236163830469 * (2 : ℝ) ^ ((p.2.1 : ℝ) / 512)) := by
  have h1 := root_le (of_decide_eq_true h)
  generalize (2 : ℝ) ^ ((p.2.1 : ℝ) / 512) = z at h1 ⊢
  push_cast at h1
  norm_num at h1 ⊢
  linarith

theorem loTestE_ok {p q : Nat × Nat × Nat} (h : loTestE p q = true) :
    127 / 128 * (0.7940236163830469 * (2 : ℝ) ^ ((q.2.2 : ℝ) / 512)) ≤ (p.1 : ℝ) / 2 ^ 20 := by
  have h1 := le_root (of_decide_eq_true h)
  generalize (2 : ℝ) ^ ((q.2.2 : ℝ) / 512) = z at h1 ⊢
  push_cast at h1
  norm_num at h1 ⊢
  linarith

/-- the whole number of doublings -/
theorem split_doublings {r : ℝ} (h1 : 5.6 ≤ r) (h2 : r ≤ 40) :
    ∃ (m : Nat) (s : ℝ), m ≤ 34 ∧ r = m + s ∧ 5.6 ≤ s ∧ s < 6.6 := by
  have a := Nat.floor_le (a := r - 5.6) (by linarith)
  have b := Nat.lt_floor_add_one (r - 5.6)
  refine ⟨⌊r - 5.6⌋₊, r - ⌊r - 5.6⌋₊, ?_, by ring, by linarith, by norm_num at *; linarith⟩
  have : (⌊r - 5.6⌋₊ : ℝ) < 35 := by
    have : (5.6 : ℝ) > 5 := by norm_num
    linarith
  have : ⌊r - 5.6⌋₊ < 35 := by exact_mod_cast this
  omega

theorem pow_split (m : Nat) (s : ℝ) : (2 : ℝ) ^ ((m : ℝ) + s) = 2 ^ m * 2 ^ s := by
  rw [Real.rpow_add (by norm_num), Real.rpow_natCast]

/-- what the doublings lose -/
theorem reserve {v : ℝ} {m : Nat} (h1 : 30 ≤ v) (h2 : v ≤ 90) (hm : m ≤ 34) :
    2 * Real.exp (-v) * (1 - 1 / 2 ^ m) ≤ 1 / 2 ^ 22 ∧ 2 ^ m * v / 2 ^ 63 ≤ 1 / 2 ^ 22 := by
  constructor
  · have e1 : Real.exp (-v) ≤ 1 / 2 ^ 30 := by
      rw [Real.exp_neg, ← one_div]
      apply one_div_le_one_div_of_le (by positivity)
      calc (2 : ℝ) ^ 30 ≤ Real.exp 1 ^ 30 := by
            apply pow_le_pow_left₀ (by norm_num)
            have := Real.add_one_le_exp (1 : ℝ)
            linarith
        _ = Real.exp 30 := by rw [← Real.exp_nat_mul]; norm_num
        _ ≤ Real.exp v := Real.exp_le_exp.mpr h1
    have e2 : (0 : ℝ) ≤ 1 / 2 ^ m := by positivity
    have e3 : (1 : ℝ) / 2 ^ m ≤ 1 := by
      rw [div_le_one (by positivity)]
      exact one_le_pow₀ (by norm_num)
    have e4 := Real.exp_pos (-v)
    have e5 : 2 * Real.exp (-v) * (1 - 1 / 2 ^ m) ≤ 2 * Real.exp (-v) * 1 :=
      mul_le_mul_of_nonneg_left (by linarith) (by positivity)
    norm_num at *
    linarith
  · have : (2 : ℝ) ^ m ≤ 2 ^ 34 := pow_le_pow_right₀ (by norm_num) hm
    have : (2 : ℝ) ^ m * v ≤ 2 ^ 34 * 90 := mul_le_mul this h2 (by linarith) (by positivity)
    rw [div_le_iff₀ (by positivity)]
    norm_num at *
    linarith

theorem exp_up {r : ℝ} (h1 : 5.6 ≤ r) (h2 : r ≤ 40) :
    r ≤ occ (65 / 64 * (0.7940236163830469 * (2 : ℝ) ^ r)) := by
  obtain ⟨m, s, hm, e, hs1, hs2⟩ := split_doublings h1 h2
  obtain ⟨p, l, e', ha, _, hb, _, hc⟩ := icGridE_ends
  have hu := exps_up
  have hg := icGridE_ok
  rw [e'] at hu hg hb
  have ha' : (p.2.1 : ℝ) ≤ 2867 := by exact_mod_cast ha
  have hb' : (3380 : ℝ) ≤ (lastOf (p :: l)).2.1 := by exact_mod_cast hb
  obtain ⟨x, hx, y, hy, ht, hxr, hry⟩ := check2_search (fun q => (q.2.1 : ℝ) / 512) l p hu
    (r := s) (by rw [div_le_iff₀ (by norm_num)]; norm_num at hs1 ⊢; linarith)
    (by rw [lt_div_iff₀ (by norm_num)]; norm_num at hs2 ⊢; linarith)
  have hf := (fxOK_sound (by norm_num) (List.all_eq_true.mp hg y hy)).1
  have hv := upTestE_ok ht
  have hy' := List.all_eq_true.mp hc y hy
  rw [Bool.and_eq_true] at hy'
  have b1 : (2 ^ 20 * 30 : ℝ) ≤ y.1 := by exact_mod_cast of_decide_eq_true hy'.1
  have b2 : (y.1 : ℝ) ≤ 2 ^ 20 * 90 := by exact_mod_cast of_decide_eq_true hy'.2
  have v1 : (30 : ℝ) ≤ y.1 / 2 ^ 20 := by rw [le_div_iff₀ (by positivity)]; linarith
  have v2 : (y.1 : ℝ) / 2 ^ 20 ≤ 90 := by rw [div_le_iff₀ (by positivity)]; linarith
  have hd := le_occ_double (v := (y.1 : ℝ) / 2 ^ 20) (by linarith) m
  obtain ⟨r1, r2⟩ := reserve v1 v2 hm
  have hmono : (2 : ℝ) ^ ((x.2.1 : ℝ) / 512) ≤ 2 ^ s := Real.rpow_le_rpow_of_exponent_le (by norm_num) hxr
  have ho : occ (2 ^ m * ((y.1 : ℝ) / 2 ^ 20)) ≤ occ (65 / 64 * (0.7940236163830469 * (2 : ℝ) ^ r)) := by
    apply occ_mono
    rw [e, pow_split]
    have : (y.1 : ℝ) / 2 ^ 20 ≤ 65 / 64 * (0.7940236163830469 * (2 : ℝ) ^ s) := by
      refine hv.trans ?_
      gcongr
    calc (2 : ℝ) ^ m * ((y.1 : ℝ) / 2 ^ 20) ≤ 2 ^ m * (65 / 64 * (0.7940236163830469 * (2 : ℝ) ^ s)) :=
          mul_le_mul_of_nonneg_left this (by positivity)
      _ = _ := by ring
  refine le_trans ?_ ho
  refine le_trans ?_ hd
  rw [e]
  have hf' : (y.2.1 : ℝ) / 512 + 1 / 2 ^ 20 ≤ occ (y.1 / 2 ^ 20) := by
    refine le_trans (le_of_eq ?_) hf
    norm_num
  have : (1 : ℝ) / 2 ^ 22 + 1 / 2 ^ 22 ≤ 1 / 2 ^ 20 := by norm_num
  linarith

theorem exp_lo {r : ℝ} (h1 : 5.6 ≤ r) (h2 : r ≤ 40) :
    occU (127 / 128 * (0.7940236163830469 * (2 : ℝ) ^ r)) ≤ r := by
  obtain ⟨m, s, hm, e, hs1, hs2⟩ := split_doublings h1 h2
  obtain ⟨p, l, e', _, ha, _, hb, hc⟩ := icGridE_ends
  have hu := exps_lo
  have hg := icGridE_ok
  rw [e'] at hu hg hb
  have ha' : (p.2.2 : ℝ) ≤ 2867 := by exact_mod_cast ha
  have hb' : (3380 : ℝ) ≤ (lastOf (p :: l)).2.2 := by exact_mod_cast hb
  obtain ⟨x, hx, y, hy, ht, hxr, hry⟩ := check2_search (fun q => (q.2.2 : ℝ) / 512) l p hu
    (r := s) (by rw [div_le_iff₀ (by norm_num)]; norm_num at hs1 ⊢; linarith)
    (by rw [lt_div_iff₀ (by norm_num)]; norm_num at hs2 ⊢; linarith)
  have hf := (fxOK_sound (by norm_num) (List.all_eq_true.mp hg x hx)).2
  have hv := loTestE_ok ht
  have hx' := List.all_eq_true.mp hc x hx
  rw [Bool.and_eq_true] at hx'
  have b1 : (2 ^ 20 * 30 : ℝ) ≤ x.1 := by exact_mod_cast of_decide_eq_true hx'.1
  have b2 : (x.1 : ℝ) ≤ 2 ^ 20 * 90 := by exact_mod_cast of_decide_eq_true hx'.2
  have v1 : (30 : ℝ) ≤ x.1 / 2 ^ 20 := by rw [le_div_iff₀ (by positivity)]; linarith
  have v2 : (x.1 : ℝ) / 2 ^ 20 ≤ 90 := by rw [div_le_iff₀ (by positivity)]; linarith
  have hd := occ_double_le (v := (x.1 : ℝ) / 2 ^ 20) (by linarith) m
  obtain ⟨_, r2⟩ := reserve v1 v2 hm
  have hmono : (2 : ℝ) ^ s ≤ (2 : ℝ) ^ ((y.2.2 : ℝ) / 512) :=
    Real.rpow_le_rpow_of_exponent_le (by norm_num) hry.le
  have ho : occU (127 / 128 * (0.7940236163830469 * (2 : ℝ) ^ r)) ≤ occU (2 ^ m * ((x.1 : ℝ) / 2 ^ 20)) := by
    apply occU_mono
    rw [e, pow_split]
    have : 127 / 128 * (0.7940236163830469 * (2 : ℝ) ^ s) ≤ (x.1 : ℝ) / 2 ^ 20 := by
      refine le_trans ?_ hv
      gcongr
    calc 127 / 128 * (0.7940236163830469 * ((2 : ℝ) ^ m * 2 ^ s)) =
          2 ^ m * (127 / 128 * (0.7940236163830469 * (2 : ℝ) ^ s)) := by ring
      _ ≤ _ := mul_le_mul_of_nonneg_left this (by positivity)
  refine ho.trans ?_
  unfold occU
  rw [e]
  have hf' : occ (x.1 / 2 ^ 20) + 1 / 2 ^ 20 ≤ (x.2.2 : ℝ) / 512 := by
    have h0 : (0 : ℝ) ≤ (x.1 : ℝ) / 2 ^ 20 / 2 ^ 63 := by positivity
    have h3 : (((2 ^ 108 : Nat) : ℝ)) / 2 ^ 128 = 1 / 2 ^ 20 := by norm_num
    rw [h3] at hf
    push_cast at hf
    linarith
  have : (1 : ℝ) / 2 ^ 22 ≤ 1 / 2 ^ 20 := by norm_num
  linarith

/-! ## All counts -/

theorem iconR_up {lgK : Nat} (h4 : 4 ≤ lgK) (h26 : lgK ≤ 26) {r : ℝ} (h0 : 0 ≤ r) (h40 : r ≤ 40) :
    r ≤ occ ((1 + tol lgK) * iconR lgK r) := by
  obtain ⟨t1, t2⟩ := tol_bounds h4
  by_cases hs : r ≤ 1 / 24
  · refine (occ_small t1 t2 h0 (by linarith)).trans (occ_mono ?_)
    exact mul_le_mul_of_nonneg_left (iconR_ge lgK r) (by linarith)
  have hT : 5.6 ≤ iconThreshold lgK ∧ iconThreshold lgK ≤ 5.7 := by
    unfold iconThreshold
    split <;> norm_num
  by_cases hx : r > iconThreshold lgK
  · refine (exp_up (by linarith) h40).trans (occ_mono ?_)
    unfold iconR
    rw [if_pos hx]
    apply mul_le_mul_of_nonneg_right (by linarith)
    exact mul_nonneg (by norm_num) (Real.rpow_pos_of_pos (by norm_num) _).le
  · refine (poly_up (by linarith) (by linarith)).trans (occ_mono ?_)
    refine (rowA_ok h4 h26 h0 (by linarith)).trans ?_
    unfold iconR
    rw [if_neg hx]
    exact mul_le_mul_of_nonneg_left (le_max_right _ _) (by linarith)

theorem iconR_lo {lgK : Nat} (h4 : 4 ≤ lgK) (h26 : lgK ≤ 26) {r : ℝ} (h0 : 0 ≤ r) (h40 : r ≤ 40) :
    occU ((1 - tol lgK) * binCorr lgK * iconR lgK r) ≤ r := by
  obtain ⟨t1, t2⟩ := tol_bounds h4
  have hl := tol_corr h4
  have hT : 5.6 ≤ iconThreshold lgK ∧ iconThreshold lgK ≤ 5.7 := by
    unfold iconThreshold
    split <;> norm_num
  unfold iconR
  by_cases hx : r > iconThreshold lgK
  · rw [if_pos hx]
    refine (occU_mono ?_).trans (exp_lo (r := r) (by linarith) h40)
    apply mul_le_mul_of_nonneg_right hl
    exact mul_nonneg (by norm_num) (Real.rpow_pos_of_pos (by norm_num) _).le
  · rw [if_neg hx]
    rcases max_choice r (iconF lgK r) with h | h <;> rw [h]
    · refine (occU_le _).trans ?_
      have := mul_le_mul_of_nonneg_right hl h0
      linarith
    · have hB := rowB_ok h4 h26 h0 (by linarith)
      by_cases hs : r ≤ 1 / 24
      · exact (occU_le _).trans (hB.trans (small_ok h0 hs))
      · exact (occU_mono hB).trans (poly_lo (by linarith) (by linarith))

end Verif.Cpc
