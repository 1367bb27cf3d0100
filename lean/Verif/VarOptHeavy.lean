import Verif.VarOptSpread

/-!
# Heavy items stay (lemmas of C117)
-/

namespace Verif.VarOpt

open Rand

variable {T : Type}

/-- The pairs heavier than `tau`. -/
def above (tau : ℚ) (l : List (T × ℚ)) : List (T × ℚ) := l.filter fun q => decide (tau < q.2)

theorem above_append (tau : ℚ) (l l' : List (T × ℚ)) :
    above tau (l ++ l') = above tau l ++ above tau l' :=
  List.filter_append _ _

theorem above_perm (tau : ℚ) {l l' : List (T × ℚ)} (h : l.Perm l') :
    (above tau l).Perm (above tau l') := h.filter _

theorem above_nil {tau : ℚ} {l : List (T × ℚ)} (h : ∀ q ∈ l, q.2 ≤ tau) : above tau l = [] := by
  unfold above
  rw [List.filter_eq_nil_iff]
  intro q hq
  have := h q hq
  simpa using this

theorem above_above {tau tau' : ℚ} (h : tau ≤ tau') (l : List (T × ℚ)) :
    above tau' (above tau l) = above tau' l := by
  unfold above
  rw [List.filter_filter]
  refine List.filter_congr fun q _ => ?_
  by_cases hq : tau' < q.2
  · have : tau < q.2 := lt_of_le_of_lt h hq
    simp [hq, this]
  · simp [hq]

/-- The part of the stream above the threshold is in the H region, with its weights. -/
def Cov (s : Sk T) (src : List (T × ℚ)) : Prop :=
  (s.r = 0 ∧ s.samples = src) ∨
  (s.r ≠ 0 ∧ (above (s.totalWeightR / s.r) (pairs s.hSlots)).Perm (above (s.totalWeightR / s.r) src))

theorem countP_lt_two {tau : ℚ} {l : List (T × ℚ)} (h : ∀ q ∈ l, tau ≤ q.2) :
    l.countP (fun q => decide (q.2 < tau)) = 0 := by
  rw [List.countP_eq_zero]
  intro q hq
  have := h q hq
  simpa using this

/-- The threshold does not decrease. -/
theorem Step.mono {l Hs Cs : List (T × ℚ)} {q : T × ℚ} {tau tau' : ℚ}
    (st : Step (l ++ [q]) Hs Cs tau') (h : ∀ q ∈ l, tau ≤ q.2) : tau ≤ tau' := by
  by_contra hlt
  rw [not_le] at hlt
  have h1 : (Hs ++ Cs).countP (fun q => decide (q.2 < tau)) ≤ 1 := by
    rw [st.perm.countP_eq, List.countP_append, countP_lt_two h, zero_add, List.countP_singleton]
    split <;> omega
  have h2 : Cs.countP (fun q => decide (q.2 < tau)) = Cs.length := by
    rw [List.countP_eq_length]
    intro c hc
    have := (st.light c hc).2
    have : c.2 < tau := lt_of_le_of_lt this hlt
    simpa using this
  rw [List.countP_append, h2] at h1
  have := st.two
  omega

theorem Out.cov {l Hs Cs src : List (T × ℚ)} {q : T × ℚ} {tau : ℚ} {s : Sk T}
    (st : Step (l ++ [q]) Hs Cs tau) (o : Out Hs Cs tau s)
    (h : (above tau l).Perm (above tau src)) : Cov s (src ++ [q]) := by
  refine Or.inr ⟨o.r, ?_⟩
  rw [o.thr, o.heavy]
  have h1 := above_perm tau st.perm
  rw [above_append, above_append, above_nil fun c hc => (st.light c hc).2, List.append_nil] at h1
  rw [above_append]
  exact h1.trans (h.append_right _)

theorem EstI.tau_le {s : Sk T} {src : List (T × ℚ)} {e : (T → Bool) → ℚ} (h : EstI s src e) :
    ∀ q ∈ s.samples, s.totalWeightR / s.r ≤ q.2 := by
  obtain ⟨H, g, R, rest, rw', c⟩ := h
  intro q hq
  rw [c.samples_eq] at hq
  rcases List.mem_append.1 hq with hq | hq
  · obtain ⟨y, hy, rfl⟩ := List.mem_map.1 hq
    exact c.hge y hy
  · obtain ⟨y, hy, rfl⟩ := List.mem_map.1 hq
    exact le_refl _

theorem update_cov {s : Sk T} {src src' : List (T × ℚ)} {e : (T → Bool) → ℚ} (h : Inv s src' e)
    (hc : Cov s src) {x : Slot T} (hx : 0 < x.weight) :
    All (fun s' => Cov s' (src ++ [(x.item, x.weight)])) (update s x) := by
  rcases h with w | h
  · have hsam : s.samples = src := by
      rcases hc with h | h
      · exact h.2
      · exact absurd w.r0 h.1
    by_cases hk : s.h + 1 > s.k
    · obtain ⟨Hs, Cs, tau, st, ho, _⟩ := update_full_step w hk hx
      refine ho.mono fun s' o => o.cov st ?_
      rw [hsam]
    · obtain ⟨s', h1, h2, h3⟩ := update_room w hk hx
      rw [h1]
      refine Or.inl ⟨h2, ?_⟩
      rw [h3, hsam]
  · obtain ⟨Hs, Cs, tau, st, ho, _⟩ := update_est_step h hx
    have hle := st.mono h.tau_le
    refine ho.mono fun s' o => o.cov st ?_
    rcases hc with h' | h'
    · exact absurd h'.1 h.r_ne
    · have h1 := above_perm tau h'.2
      rw [above_above hle, above_above hle] at h1
      refine List.Perm.trans ?_ h1
      obtain ⟨H, g, R, rest, rw', c⟩ := h
      rw [c.samples_eq, above_append, c.hSlots_eq, above_nil (l := R.map _), List.append_nil]
      intro q hq
      obtain ⟨y, hy, rfl⟩ := List.mem_map.1 hq
      exact hle

theorem insertAll_cov (mark : Bool) : ∀ (l : List (T × ℚ)) {g : Sk T} {src src' : List (T × ℚ)}
    {e : (T → Bool) → ℚ}, Inv g src' e → Cov g src → (∀ q ∈ l, 0 < q.2) →
    All (fun g' => Cov g' (src ++ l)) (insertAll mark g l) := by
  intro l
  induction l with
  | nil =>
    intro g src src' e _ hc _
    rw [List.append_nil]
    exact hc
  | cons q l ih =>
    intro g src src' e h hc hpos
    have hq := hpos q (by simp)
    have hl : ∀ q' ∈ l, 0 < q'.2 := fun q' h' => hpos q' (by simp [h'])
    have heq : insertAll mark g (q :: l) = (update g (mkSlot mark q) >>= fun g' => insertAll mark g' l) := by
      unfold insertAll
      rw [List.foldlM_cons]
      rfl
    rw [heq]
    refine ((update_all h (x := mkSlot mark q) hq).and (update_cov h hc (x := mkSlot mark q) hq)).bind
      fun g' hg' => ?_
    obtain ⟨e', hi, _⟩ := hg'.1.inv
    refine (ih hi hg'.2 hl).mono fun g'' h'' => ?_
    rw [List.append_assoc] at h''
    exact h''

/-! ## The threshold is determined by the weights -/

/-- The threshold equation: the weights cut at `tau` add up to `k` times `tau`. -/
def IsTau (k : Nat) (l : List (T × ℚ)) (tau : ℚ) : Prop :=
  0 < tau ∧ (l.map fun q => min q.2 tau).sum = k * tau

theorem min_sum_le {a b : ℚ} (ha : 0 < a) (hab : a < b) : ∀ {l : List (T × ℚ)}, (∀ q ∈ l, 0 < q.2) →
    (l.map fun q => min q.2 b).sum * a ≤ (l.map fun q => min q.2 a).sum * b ∧
    ((l.map fun q => min q.2 b).sum * a = (l.map fun q => min q.2 a).sum * b → ∀ q ∈ l, b ≤ q.2) := by
  intro l
  induction l with
  | nil => intro _; simp
  | cons q l ih =>
    intro h
    have h1 := h q (by simp)
    obtain ⟨i1, i2⟩ := ih fun q' h' => h q' (by simp [h'])
    have hq : min q.2 b * a ≤ min q.2 a * b ∧ (q.2 < b → min q.2 b * a < min q.2 a * b) := by
      rcases le_total q.2 a with ha' | ha'
      · rw [min_eq_left ha', min_eq_left (by linarith)]
        constructor
        · nlinarith
        · intro _; nlinarith
      · rw [min_eq_right ha']
        rcases le_total q.2 b with hb' | hb'
        · rw [min_eq_left hb']
          constructor
          · nlinarith
          · intro h3; nlinarith
        · rw [min_eq_right hb']
          constructor
          · nlinarith
          · intro h3; linarith
    simp only [List.map_cons, List.sum_cons, add_mul]
    refine ⟨by linarith [hq.1], fun heq q' hq' => ?_⟩
    rcases List.mem_cons.1 hq' with rfl | hq'
    · by_contra hc
      have := hq.2 (not_le.1 hc)
      linarith
    · refine i2 ?_ q' hq'
      linarith [hq.1]

theorem IsTau.unique {k : Nat} {l : List (T × ℚ)} (hpos : ∀ q ∈ l, 0 < q.2) (hk : k < l.length)
    {a b : ℚ} (ha : IsTau k l a) (hb : IsTau k l b) : a = b := by
  have key : ∀ {a b : ℚ}, IsTau k l a → IsTau k l b → ¬ a < b := by
    intro a b ha hb hab
    obtain ⟨h1, h2⟩ := min_sum_le ha.1 hab hpos
    rw [ha.2, hb.2] at h2
    have h3 := h2 (by ring)
    have h4 : (l.map fun q => min q.2 b).sum = l.length * b := by
      have h5 : (l.map fun q => min q.2 b) = l.map fun _ => b :=
        List.map_congr_left fun q hq => min_eq_right (h3 q hq)
      rw [h5]
      simp
    rw [hb.2] at h4
    have h6 : (k : ℚ) = l.length := mul_right_cancel₀ (ne_of_gt hb.1) h4
    have h7 : k = l.length := by exact_mod_cast h6
    omega
  rcases lt_trichotomy a b with h | h | h
  · exact absurd h (key ha hb)
  · exact h
  · exact absurd h (key hb ha)

/-- A sum over a list of terms that vanish below the threshold. -/
theorem sum_above {tau : ℚ} {f : T × ℚ → ℚ} : ∀ {l : List (T × ℚ)}, (∀ q ∈ l, q.2 ≤ tau → f q = 0) →
    (l.map f).sum = ((above tau l).map f).sum := by
  intro l
  induction l with
  | nil => intro _; rfl
  | cons q l ih =>
    intro h
    have h1 := ih fun q' h' => h q' (by simp [h'])
    unfold above at h1 ⊢
    rw [List.filter_cons, List.map_cons, List.sum_cons, h1]
    by_cases hq : tau < q.2
    · simp [hq]
    · simp [hq, h q (by simp) (not_lt.1 hq)]

/-- What is known about a sketch in estimation mode that represents `src`. -/
theorem Cov.tau {s : Sk T} {src src' : List (T × ℚ)} {e : (T → Bool) → ℚ} (h : EstI s src' e)
    (hc : Cov s src) (htot : e (fun _ => true) = psumOf (fun _ => true) src) :
    IsTau s.k src (s.totalWeightR / s.r) := by
  rcases hc with h' | ⟨_, hc⟩
  · exact absurd h'.1 h.r_ne
  obtain ⟨H, g, R, rest, rw', c⟩ := h
  have htp : 0 < s.totalWeightR / s.r := div_pos c.tot (by exact_mod_cast c.r1)
  refine ⟨htp, ?_⟩
  set tau := s.totalWeightR / s.r with htau
  rw [c.hSlots_eq] at hc
  have hmin : ∀ l : List (T × ℚ), (l.map fun q => min q.2 tau).sum
      = psumOf (fun _ => true) l - (l.map fun q => q.2 - min q.2 tau).sum := by
    intro l
    induction l with
    | nil => simp [psumOf]
    | cons q l ih =>
      rw [psumOf_cons, List.map_cons, List.sum_cons, List.map_cons, List.sum_cons, ih, if_pos rfl]
      ring
  have h0 : ∀ q : T × ℚ, q.2 ≤ tau → q.2 - min q.2 tau = 0 := by
    intro q hq
    rw [min_eq_left hq, sub_self]
  have h1 : (src.map fun q => q.2 - min q.2 tau).sum = ((pairs H).map fun q => q.2 - min q.2 tau).sum := by
    rw [sum_above (tau := tau) (l := src) fun q _ => h0 q,
      sum_above (tau := tau) (l := pairs H) fun q _ => h0 q]
    exact ((hc.map _).sum_eq).symm
  have h2 := hmin (pairs H)
  have h3 : ((pairs H).map fun q => min q.2 tau).sum = s.h * tau := by
    have h5 : ((pairs H).map fun q => min q.2 tau) = (pairs H).map fun _ => tau := by
      refine List.map_congr_left fun q hq => ?_
      obtain ⟨y, hy, rfl⟩ := List.mem_map.1 hq
      exact min_eq_right (c.hge y hy)
    rw [h5, List.map_const', List.sum_replicate, nsmul_eq_mul]
    simp [pairs, c.hlen]
  rw [hmin, h1, ← htot, c.est, cnt_true, c.rlen]
  rw [psumOf_pairs, h3] at h2
  have h4 : (s.k : ℚ) = s.h + s.r := by exact_mod_cast c.full.symm
  rw [h4]
  linarith

end Verif.VarOpt
