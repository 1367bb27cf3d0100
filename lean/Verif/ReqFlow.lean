import Verif.ReqSched

/-!
# Flow of the items of interest through the levels of a REQ sketch
-/

namespace Verif.Req

open Verif Verif.View

variable {α : Type} [LinearOrder α]

/-! ## Sections -/

theorem nearestEven_four {y : ℚ} (h : 3 ≤ y) : 4 ≤ nearestEven y := by
  unfold nearestEven
  have h1 : goRound (3 / 2) ≤ goRound (y / 2) := goRound_mono (by linarith)
  have h2 : goRound (3 / 2) = 2 := by
    unfold goRound
    rw [if_pos (by norm_num), Int.floor_eq_iff]
    norm_num
  omega

theorem size_low {k : Nat} {c : Compactor α} (h : CWf k c) :
    (k : ℚ) ^ 2 * (95 / 100) * 3 ≤ c.sectionSizeFlt ^ 2 * c.numSections := by
  have h1 : (95 / 100 : ℚ) ≤ (999 / 1000) ^ c.numSections :=
    le_trans (by norm_num) (pow_le_pow_of_le_one (by norm_num) (by norm_num) h.secs_range.2)
  have h2 := mul_le_mul_of_nonneg_left h1 (show (0 : ℚ) ≤ 3 * (k : ℚ) ^ 2 by positivity)
  have h3 := h.low
  linarith

theorem size_ge {k : Nat} {c : Compactor α} (h : CWf k c) (hk : 16 ≤ k) :
    k ≤ 8 * (c.sectionSize - 1) := by
  have h4 := h.size
  rcases Nat.lt_or_ge k 25 with hk' | hk'
  · omega
  · have h1 := size_low h
    have h2 := (nearestEven_near c.sectionSizeFlt).1
    rw [← h.size_flt] at h2
    have hns : (c.numSections : ℚ) ≤ 48 := by exact_mod_cast h.secs_range.2
    have hf := h.flt_pos
    have h3 : (k : ℚ) ^ 2 * (95 / 100) * 3 ≤ c.sectionSizeFlt ^ 2 * 48 :=
      le_trans h1 (mul_le_mul_of_nonneg_left hns (by positivity))
    have hkq : (25 : ℚ) ≤ k := by exact_mod_cast hk'
    have h5 : 24 / 100 * (k : ℚ) ≤ c.sectionSizeFlt := by
      by_contra hc
      have hc' := not_le.1 hc
      have : c.sectionSizeFlt ^ 2 < (24 / 100 * (k : ℚ)) ^ 2 :=
        pow_lt_pow_left₀ hc' hf.le (by norm_num)
      nlinarith
    push_cast at h2
    have h6 : (k : ℚ) ≤ 8 * (c.sectionSize - 1) := by linarith
    have h7 : (k : ℚ) + 8 ≤ 8 * c.sectionSize := by linarith
    have h8 : k + 8 ≤ 8 * c.sectionSize := by exact_mod_cast h7
    omega

/-- The division into sections after a compaction. -/
theorem secs_next {env : Env α} (he : EnvOk env) {k : Nat} {c c' : Compactor α} (h : CWf k c)
    (h' : CWf k c') (hk : 16 ≤ k) (hst : c.state + 1 < 2 ^ 47) (hu : c.state < 2 ^ (c.numSections - 1))
    (hc : secsOf c' = nextSecs env (secsOf c) (c.state + 1)) :
    (c'.numSections = c.numSections ∧ c'.sectionSize = c.sectionSize ∧
      c.state + 1 < 2 ^ (c.numSections - 1)) ∨
    (c'.numSections = 2 * c.numSections ∧ c'.sectionSize ≤ c.sectionSize ∧ c.numSections < 48 ∧
      c.state + 1 < 2 ^ (2 * c.numSections - 1)) := by
  have hr := h.secs_range
  have hshl : shl1 ((c.numSections + 255) % 256) = ((2 ^ (c.numSections - 1) : Nat) : Int) := by
    rw [show (c.numSections + 255) % 256 = c.numSections - 1 by omega]
    unfold shl1
    rw [if_pos (by omega)]
    push_cast
    rfl
  have e1 : (secsOf c').1 = c'.numSections := rfl
  have e2 : (secsOf c').2.2 = c'.sectionSize := rfl
  by_cases hlt : c.state + 1 < 2 ^ (c.numSections - 1)
  · left
    have : nextSecs env (secsOf c) (c.state + 1) = secsOf c := by
      unfold nextSecs
      apply if_neg
      intro hcon
      have hcon := hcon.1
      simp only [secsOf] at hcon
      rw [hshl] at hcon
      have : 2 ^ (c.numSections - 1) ≤ c.state + 1 := by exact_mod_cast hcon
      omega
    rw [this] at hc
    rw [← e1, ← e2, hc]
    exact ⟨rfl, rfl, hlt⟩
  · right
    have h48 : c.numSections < 48 := by
      by_contra hcon
      have : c.numSections = 48 := by omega
      rw [this] at hlt
      norm_num at hlt
      omega
    have h24 : c.numSections ≤ 24 := by
      obtain ⟨e, he, hs⟩ := h.secs
      have : e = 0 ∨ e = 1 ∨ e = 2 ∨ e = 3 ∨ e = 4 := by omega
      rcases this with rfl | rfl | rfl | rfl | rfl <;> omega
    have hf := h.flt_pos
    have h1 := size_low h
    have hns : (c.numSections : ℚ) ≤ 24 := by exact_mod_cast h24
    have h3 : (k : ℚ) ^ 2 * (95 / 100) * 3 ≤ c.sectionSizeFlt ^ 2 * 24 :=
      le_trans h1 (mul_le_mul_of_nonneg_left hns (by positivity))
    have hkq : (16 : ℚ) ≤ k := by exact_mod_cast hk
    have hk2 : (256 : ℚ) ≤ (k : ℚ) ^ 2 := by nlinarith
    have h5 : 54 / 10 ≤ c.sectionSizeFlt := by
      by_contra hcon
      have hc' := not_le.1 hcon
      have : c.sectionSizeFlt ^ 2 < (54 / 10) ^ 2 := pow_lt_pow_left₀ hc' hf.le (by norm_num)
      nlinarith
    have hsz : 4 < c.sectionSize := by
      have h2 := (nearestEven_near c.sectionSizeFlt).1
      rw [← h.size_flt] at h2
      push_cast at h2
      have : (4 : ℚ) < c.sectionSize := by linarith
      exact_mod_cast this
    have hne : 4 ≤ nearestEven (env.divSqrt2 c.sectionSizeFlt) := by
      apply nearestEven_four
      obtain ⟨g0, g1⟩ := he _ hf
      have g2 := (abs_le.1 g1).1
      by_contra hcon
      have hc' := not_le.1 hcon
      have : (env.divSqrt2 c.sectionSizeFlt) ^ 2 < 3 ^ 2 := pow_lt_pow_left₀ hc' g0.le (by norm_num)
      nlinarith
    have : nextSecs env (secsOf c) (c.state + 1) = ((c.numSections * 2) % 256,
        env.divSqrt2 c.sectionSizeFlt, (nearestEven (env.divSqrt2 c.sectionSizeFlt)).toNat) := by
      unfold nextSecs
      rw [if_pos, if_pos (show 4 ≤ nearestEven (env.divSqrt2 (secsOf c).2.1) from hne)]
      · rfl
      · simp only [secsOf]
        rw [hshl]
        refine ⟨?_, hsz⟩
        have : 2 ^ (c.numSections - 1) ≤ c.state + 1 := by omega
        exact_mod_cast this
    rw [this] at hc
    rw [← e1, ← e2, hc]
    refine ⟨by simp only; omega, ?_, h48, ?_⟩
    · simp only
      have g1 : nearestEven (env.divSqrt2 c.sectionSizeFlt) ≤ nearestEven c.sectionSizeFlt := by
        unfold nearestEven
        have := goRound_mono (x := env.divSqrt2 c.sectionSizeFlt / 2) (y := c.sectionSizeFlt / 2)
          (by linarith [divSqrt2_le he hf])
        omega
      rw [← h.size_flt] at g1
      omega
    · have h6 : c.state + 1 ≤ 2 ^ (c.numSections - 1) := by omega
      exact lt_of_le_of_lt h6 (Nat.pow_lt_pow_right (by norm_num) (by omega))

/-! ## Counts from the log -/

/-- Items with the property that came to level `h`. -/
def insAt (p : α → Bool) (S : List α) (log : List (Event α)) : Nat → Nat
  | 0 => S.countP p
  | h + 1 => ((log.filter fun e => e.level = h).map fun e => (half e.after.coin e.items).countP p).sum

/-- Items with the property that left level `h`. -/
def delAt (p : α → Bool) (log : List (Event α)) (h : Nat) : Nat :=
  ((log.filter fun e => e.level = h).map fun e => e.items.countP p).sum

/-- Compactions of level `h` that touched items with the property. -/
def impAt (p : α → Bool) (log : List (Event α)) (h : Nat) : Nat :=
  log.countP fun e => decide (e.level = h ∧ 0 < e.items.countP p)

theorem insAt_cons (p : α → Bool) (S : List α) (e : Event α) (log : List (Event α)) (h : Nat) :
    insAt p S (e :: log) h = insAt p S log h +
      if e.level + 1 = h then (half e.after.coin e.items).countP p else 0 := by
  cases h with
  | zero => simp [insAt]
  | succ h =>
    simp only [insAt]
    rw [List.filter_cons]
    by_cases he : e.level = h
    · rw [if_pos (by simpa using he), if_pos (by omega), List.map_cons, List.sum_cons]
      omega
    · rw [if_neg (by simpa using he), if_neg (by omega)]
      omega

theorem delAt_cons (p : α → Bool) (e : Event α) (log : List (Event α)) (h : Nat) :
    delAt p (e :: log) h = delAt p log h + if e.level = h then e.items.countP p else 0 := by
  unfold delAt
  rw [List.filter_cons]
  by_cases he : e.level = h
  · rw [if_pos (by simpa using he), if_pos he, List.map_cons, List.sum_cons]
    omega
  · rw [if_neg (by simpa using he), if_neg he]
    omega

theorem impAt_cons (p : α → Bool) (e : Event α) (log : List (Event α)) (h : Nat) :
    impAt p (e :: log) h = impAt p log h + if e.level = h ∧ 0 < e.items.countP p then 1 else 0 := by
  unfold impAt
  rw [List.countP_cons]
  simp

theorem insAt_none (p : α → Bool) (S : List α) (log : List (Event α)) (h : Nat)
    (hl : ∀ e ∈ log, e.level ≠ h) : insAt p S log (h + 1) = 0 := by
  simp only [insAt]
  rw [List.filter_eq_nil_iff.2 fun e he => by simpa using hl e he]
  rfl

theorem delAt_none (p : α → Bool) (log : List (Event α)) (h : Nat) (hl : ∀ e ∈ log, e.level ≠ h) :
    delAt p log h = 0 := by
  unfold delAt
  rw [List.filter_eq_nil_iff.2 fun e he => by simpa using hl e he]
  rfl

theorem impAt_none (p : α → Bool) (log : List (Event α)) (h : Nat) (hl : ∀ e ∈ log, e.level ≠ h) :
    impAt p log h = 0 := by
  unfold impAt
  rw [List.countP_eq_zero]
  intro e he
  simp [hl e he]

/-- Compactions of level `h` in state `x`. -/
def statesAt (log : List (Event α)) (h x : Nat) : Nat :=
  log.countP fun e => decide (e.level = h ∧ e.before.state = x)

theorem statesAt_cons (e : Event α) (log : List (Event α)) (h x : Nat) :
    statesAt (e :: log) h x = statesAt log h x +
      if e.level = h ∧ e.before.state = x then 1 else 0 := by
  unfold statesAt
  rw [List.countP_cons]
  simp

/-- A level apart from its schedule: `a` items with the property in it, `I` came, `D` left, `m`
compactions touched some. -/
structure Plain (k a I D m : Nat) : Prop where
  bal : a + D = I
  le : m ≤ D
  rest : 0 < m → 3 * k ≤ a

theorem Plain.insert {k a I D m : Nat} (h : Plain k a I D m) (d : Nat) :
    Plain k (a + d) (I + d) D m :=
  ⟨by have := h.bal; omega, h.le, fun hm => by have := h.rest hm; omega⟩

theorem Plain.step {k a I D m kp x a' : Nat} (h : Plain k a I D m) (h3 : 3 * k ≤ kp)
    (hx : (x = 0 ∧ a ≤ kp ∧ a' = a) ∨ (0 < x ∧ a = kp + x ∧ a' = kp)) :
    Plain k a' I (D + x) (m + if 0 < x then 1 else 0) := by
  have h1 := h.bal
  have h2 := h.le
  rcases hx with ⟨hx, ha, he⟩ | ⟨hx, ha, he⟩
  · subst hx he
    simpa using h
  · rw [if_pos hx]
    exact ⟨by omega, by omega, fun _ => by omega⟩

/-- A level; for large `k` with its schedule. -/
structure Lev (k ns ss st a I D m : Nat) : Prop where
  plain : Plain k a I D m
  sched : 16 ≤ k → Sched k ns ss st a I D m

theorem Lev.fresh (k ss : Nat) : Lev k 3 ss 0 0 0 0 0 :=
  ⟨⟨rfl, le_refl 0, fun h => absurd h (by omega)⟩, fun _ => Sched.fresh k ss⟩

theorem Lev.insert {k ns ss st a I D m : Nat} (h : Lev k ns ss st a I D m) (d : Nat) :
    Lev k ns ss st (a + d) (I + d) D m :=
  ⟨h.plain.insert d, fun hk => (h.sched hk).insert d⟩

/-- Few compactions touch items with the property. -/
theorem Lev.few {k ns ss st a I D m : Nat} (h : Lev k ns ss st a I D m)
    (hk : 16 ≤ k → k ≤ 8 * (ss - 1)) : k * m ≤ 18 * I := by
  rcases Nat.lt_or_ge k 16 with h1 | h1
  · have h2 := h.plain.bal
    have h3 := h.plain.le
    exact Nat.mul_le_mul (by omega) (by omega)
  · exact (h.sched h1).few (hk h1)

/-- The schedule of every level, and what it needs. -/
structure Flow (p : α → Bool) (s : Sketch α) (S : List α) : Prop where
  side : Sided s.hra p
  ev : ∀ e ∈ s.log, e.level + 1 < s.compactors.length
  once : ∀ h x, statesAt s.log h x ≤ 1
  past : ∀ (i : Nat) (c : Compactor α), s.compactors[i]? = some c →
    ∀ e ∈ s.log, e.level = i → e.before.state < c.state
  lv : ∀ (i : Nat) (c : Compactor α), s.compactors[i]? = some c →
    Lev s.k c.numSections c.sectionSize c.state ((act c).countP p) (insAt p S s.log i)
      (delAt p s.log i) (impAt p s.log i)

/-- The items with the property in a compaction. -/
theorem Before.touch {env : Env α} {s : Sketch α} {A C : List (Compactor α)} {c nx : Compactor α}
    {X Kp : List α} (hb : Before env s A c nx C X Kp) {p : α → Bool} (hp : Sided s.hra p) :
    (X.countP p = 0 ∧ (act c).countP p ≤ Kp.length ∧ Kp.countP p = (act c).countP p) ∨
    (0 < X.countP p ∧ (act c).countP p = Kp.length + X.countP p ∧ Kp.countP p = Kp.length) := by
  have hcount := hb.countP p
  rcases Nat.eq_zero_or_pos (X.countP p) with h0 | h0
  · left
    have : Kp.countP p ≤ Kp.length := List.countP_le_length
    omega
  · right
    obtain ⟨a, haX, hap⟩ := List.countP_pos_iff.1 h0
    have hsorted := srt_sorted (act c)
    rw [hb.split] at hsorted
    have hall : Kp.countP p = Kp.length := by
      rw [List.countP_eq_length]
      intro b hb'
      unfold Sided at hp
      cases hh : s.hra with
      | true =>
        rw [hh] at hp hsorted
        simp only [if_true] at hp hsorted
        exact hp a b ((List.pairwise_append.1 hsorted).2.2 a haX b hb') hap
      | false =>
        rw [hh] at hp hsorted
        simp only [Bool.false_eq_true, if_false] at hp hsorted
        exact hp b a ((List.pairwise_append.1 hsorted).2.2 b hb' a haX) hap
    exact ⟨h0, by omega, hall⟩

theorem Flow.closed {env : Env α} (he : EnvOk env) (p : α → Bool) (S : List α) :
    StepClosed env (fun s => Flow p s S) := by
  intro s s' A c nx C X Kp coin c' nx' hs hn hf hb hL
  have hcc := hL.comp
  obtain ⟨B, hB⟩ : ∃ B, s.compactors = A ++ c :: B := by
    rcases hb.cs with h | ⟨h, -, -⟩ <;> exact ⟨_, h⟩
  have hgc : s.compactors[A.length]? = some c := by rw [hB]; simp
  have hcok := hs.lv _ _ hgc
  have hit := event_items hs hb hL
  have hlen : s'.compactors.length = A.length + C.length + 2 := by rw [hL.cs]; simp; omega
  have hmono : s.compactors.length ≤ s'.compactors.length := by
    rw [hL.cs]
    rcases hb.cs with h1 | ⟨h1, -, -⟩ <;> rw [h1] <;> simp
  have hstate : c.state + 1 < 2 ^ 47 := by
    have h1 := hcok.state
    have h2 := nEvents_le s.log A.length
    have h3 := hs.spent
    have h4 : c.count ≤ sumCount s.compactors := by
      rw [hB, sumCount_append, sumCount_cons]; omega
    have h5 := hb.full
    have h6 := hcok.wf.base
    have h7 := hs.k4
    have h8 : nomCapacity c = 2 * (c.numSections * c.sectionSize) := by unfold nomCapacity; ring
    omega
  have hrest : ∀ (i : Nat) (x : Compactor α), s.compactors[i]? = some x → i ≠ A.length →
      i ≠ A.length + 1 → Lev s.k x.numSections x.sectionSize x.state ((act x).countP p)
        (insAt p S s'.log i) (delAt p s'.log i) (impAt p s'.log i) := by
    intro i x hx h1 h2
    have := hf.lv i x hx
    rw [hL.log, insAt_cons, delAt_cons, impAt_cons, if_neg (by simp only; omega),
      if_neg (by simp only; omega), if_neg (by simp only; omega)]
    exact this
  have hgA : ∀ (i : Nat) (x : Compactor α), A[i]? = some x → s.compactors[i]? = some x ∧ i < A.length := by
    intro i x hx
    have hi := (List.getElem?_eq_some_iff.1 hx).1
    exact ⟨by rw [hB, List.getElem?_append_left hi]; exact hx, hi⟩
  have hgC : ∀ (i : Nat) (x : Compactor α), C[i]? = some x →
      s.compactors[A.length + 2 + i]? = some x := by
    intro i x hx
    rcases hb.cs with h | ⟨-, h, -⟩
    · rw [h, List.getElem?_append_right (by omega), show A.length + 2 + i - A.length = i + 1 + 1 by omega,
        List.getElem?_cons_succ, List.getElem?_cons_succ]
      exact hx
    · rw [h] at hx
      simp at hx
  have hnxs : (s.compactors[A.length + 1]? = some nx) ∨
      ((∀ e ∈ s.log, e.level ≠ A.length ∧ e.level ≠ A.length + 1) ∧ nx = newCompactor env (A.length + 1) s.hra s.k) := by
    rcases hb.cs with h | ⟨h, -, h2⟩
    · left
      rw [h, List.getElem?_append_right (by omega), show A.length + 1 - A.length = 0 + 1 by omega]
      rfl
    · right
      refine ⟨fun e he => ?_, h2⟩
      have := hf.ev e he
      rw [h] at this
      simp only [List.length_append, List.length_singleton] at this
      omega
  refine ⟨by rw [hL.hra]; exact hf.side, ?_, ?_, ?_, ?_⟩
  · intro e hemem
    rw [hL.log] at hemem
    rcases List.mem_cons.1 hemem with rfl | hemem
    · simp only; omega
    · exact lt_of_lt_of_le (hf.ev e hemem) hmono
  · intro h x
    rw [hL.log, statesAt_cons]
    have h1 := hf.once h x
    by_cases hh : A.length = h ∧ c.state = x
    · rw [if_pos hh]
      have : statesAt s.log h x = 0 := by
        unfold statesAt
        rw [List.countP_eq_zero]
        intro e hemem
        simp only [decide_eq_true_eq, not_and]
        intro h2 h3
        have := hf.past A.length c hgc e hemem (by omega)
        omega
      omega
    · rw [if_neg hh]
      omega
  · rw [hL.cs]
    have key := lv_replace (P := fun i x => i ≠ A.length ∧ i ≠ A.length + 1 ∧ s.compactors[i]? = some x)
      (Q := fun i x => ∀ e ∈ s'.log, e.level = i → e.before.state < x.state) (A := A) (C := C)
      (c := c) (nx := nx) (c' := c') (nx' := nx')
      (fun i x hx => ⟨by have := (hgA i x hx).2; omega, by have := (hgA i x hx).2; omega, (hgA i x hx).1⟩)
      (fun i x hx => ⟨by omega, by omega, hgC i x hx⟩) ?_ ?_ ?_
    · exact key
    · rintro i x ⟨h1, h2, h3⟩ e hemem hle
      rw [hL.log] at hemem
      rcases List.mem_cons.1 hemem with rfl | hemem
      · exact absurd hle.symm h1
      · exact hf.past i x h3 e hemem hle
    · intro e hemem hle
      rw [hL.log] at hemem
      rw [hcc.state]
      rcases List.mem_cons.1 hemem with rfl | hemem
      · exact Nat.lt_succ_self _
      · have := hf.past A.length c hgc e hemem hle
        omega
    · intro e hemem hle
      rw [hL.log] at hemem
      rw [hcc.staten]
      rcases List.mem_cons.1 hemem with rfl | hemem
      · simp at hle
      · rcases hnxs with h | ⟨h, -⟩
        · exact hf.past (A.length + 1) nx h e hemem hle
        · exact absurd hle (h e hemem).2
  · rw [hL.cs]
    have key := lv_replace (P := fun i x => i ≠ A.length ∧ i ≠ A.length + 1 ∧ s.compactors[i]? = some x)
      (Q := fun i x => Lev s'.k x.numSections x.sectionSize x.state ((act x).countP p)
        (insAt p S s'.log i) (delAt p s'.log i) (impAt p s'.log i)) (A := A) (C := C)
      (c := c) (nx := nx) (c' := c') (nx' := nx')
      (fun i x hx => ⟨by have := (hgA i x hx).2; omega, by have := (hgA i x hx).2; omega, (hgA i x hx).1⟩)
      (fun i x hx => ⟨by omega, by omega, hgC i x hx⟩) ?_ ?_ ?_
    · exact key
    · rintro i x ⟨h1, h2, h3⟩
      rw [hL.k]
      exact hrest i x h3 h1 h2
    · rw [hL.k, hL.log, insAt_cons, delAt_cons, impAt_cons, if_neg (by simp), if_pos rfl, Nat.add_zero,
        hit, hcc.state, hcc.act]
      have hlev := hf.lv A.length c hgc
      have hk := hb.kept
      have hx : (X.countP p = 0 ∧ (act c).countP p ≤ Kp.length ∧ Kp.countP p = (act c).countP p) ∨
          (0 < X.countP p ∧ (act c).countP p = Kp.length + X.countP p ∧ Kp.countP p = Kp.length) :=
        hb.touch hf.side
      have hpl := hlev.plain.step hb.kept_ge hx
      refine ⟨by simpa using hpl, fun h16 => ?_⟩
      have hsch := hlev.sched h16
      have hsec := secs_next he hcok.wf hcc.wf h16 hstate hsch.unsat hcc.secs
      have hstep := hsch.step (by have := hcok.wf.size; omega) hb.kept_ge hk.1 hk.2 hx hsec
      simpa using hstep
    · have hsn : nx'.numSections = nx.numSections ∧ nx'.sectionSize = nx.sectionSize := by
        have := hcc.secsn
        simp only [secsOf, Prod.mk.injEq] at this
        exact ⟨this.1, this.2.2⟩
      rw [hL.k, hL.log, insAt_cons, delAt_cons, impAt_cons, if_pos rfl, if_neg (by simp),
        if_neg (by simp), Nat.add_zero, Nat.add_zero, hit, hcc.staten, hcc.actn, hsn.1, hsn.2,
        (srt_perm _).countP_eq, List.countP_append, hcc.coin]
      rcases hnxs with h | ⟨h, h2⟩
      · exact (hf.lv (A.length + 1) nx h).insert _
      · rw [insAt_none p S s.log A.length fun e he => (h e he).1,
          delAt_none p s.log (A.length + 1) fun e he => (h e he).2,
          impAt_none p s.log (A.length + 1) fun e he => (h e he).2, h2, new_act]
        exact (Lev.fresh s.k s.k).insert _

end Verif.Req
