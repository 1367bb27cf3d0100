import Verif.FreqPurge

/-!
# Invariant of the frequency sketches

`Content L off g f W` relates the stored pairs `L` and the offset to the true weights `f` and the
total weight `W`.  `g` is the number of counters that each purge provably decreases by its full
amount.
-/

set_option linter.unusedSectionVars false

namespace Verif.Freq

variable {κ : Type} [DecidableEq κ] {c : Cfg κ}

def total (L : List (κ × Int)) : Int := (L.map Prod.snd).sum

structure Content (L : List (κ × Int)) (off : Int) (g : Nat) (f : κ → Int) (W : Int) : Prop where
  pos : ∀ e ∈ L, 0 < e.2
  lb : ∀ e ∈ L, e.2 ≤ f e.1
  ub : ∀ e ∈ L, f e.1 ≤ e.2 + off
  miss : ∀ k, (∀ v, (k, v) ∉ L) → f k ≤ off
  nonneg : ∀ k, 0 ≤ f k
  off0 : 0 ≤ off
  budget : total L + g * off ≤ W

theorem total_perm {L L' : List (κ × Int)} (h : L.Perm L') : total L = total L' :=
  (h.map Prod.snd).sum_eq

theorem total_cons (e : κ × Int) (L : List (κ × Int)) : total (e :: L) = e.2 + total L := by
  simp [total]

theorem total_nonneg {L : List (κ × Int)} (h : ∀ e ∈ L, 0 < e.2) : 0 ≤ total L := by
  induction L with
  | nil => simp [total]
  | cons e L ih =>
    rw [total_cons]
    have := h e (List.mem_cons_self ..)
    have := ih (fun e he => h e (List.mem_cons_of_mem _ he))
    omega

theorem le_total {L : List (κ × Int)} (h : ∀ e ∈ L, 0 < e.2) {e : κ × Int} (he : e ∈ L) :
    e.2 ≤ total L := by
  induction L with
  | nil => cases he
  | cons a L ih =>
    rw [total_cons]
    have hp := h a (List.mem_cons_self ..)
    have hL : ∀ e ∈ L, 0 < e.2 := fun e he => h e (List.mem_cons_of_mem _ he)
    rcases List.mem_cons.mp he with rfl | h'
    · have := total_nonneg hL; omega
    · have := ih hL h'; omega

theorem Content.of_perm {L L' : List (κ × Int)} {off W : Int} {g : Nat} {f : κ → Int}
    (h : Content L off g f W) (p : L'.Perm L) : Content L' off g f W where
  pos := fun e he => h.pos e (p.mem_iff.mp he)
  lb := fun e he => h.lb e (p.mem_iff.mp he)
  ub := fun e he => h.ub e (p.mem_iff.mp he)
  miss := fun k hk => h.miss k (fun v hv => hk v (p.mem_iff.mpr hv))
  nonneg := h.nonneg
  off0 := h.off0
  budget := by rw [total_perm p]; exact h.budget

theorem Content.weaken {L : List (κ × Int)} {off W : Int} {g g' : Nat} {f : κ → Int}
    (h : Content L off g f W) (hg : g' ≤ g) : Content L off g' f W where
  pos := h.pos
  lb := h.lb
  ub := h.ub
  miss := h.miss
  nonneg := h.nonneg
  off0 := h.off0
  budget := by
    have := h.budget
    have h2 : (g' : Int) * off ≤ g * off :=
      mul_le_mul_of_nonneg_right (by exact_mod_cast hg) h.off0
    omega

theorem Content.goff_nonneg {L : List (κ × Int)} {off W : Int} {g : Nat} {f : κ → Int}
    (h : Content L off g f W) : 0 ≤ (g : Int) * off := mul_nonneg (by omega) h.off0

theorem Content.off_le_goff {L : List (κ × Int)} {off W : Int} {g : Nat} {f : κ → Int}
    (h : Content L off g f W) (hg : 1 ≤ g) : off ≤ (g : Int) * off := by
  have := h.off0
  nlinarith [(by exact_mod_cast hg : (1 : Int) ≤ g)]

theorem Content.total_le {L : List (κ × Int)} {off W : Int} {g : Nat} {f : κ → Int}
    (h : Content L off g f W) : total L ≤ W := by
  have := h.goff_nonneg
  have := h.budget
  omega

/-- the true weights after an update -/
def bump (f : κ → Int) (k : κ) (a : Int) : κ → Int := fun x => f x + if x = k then a else 0

theorem Content.insert {L : List (κ × Int)} {off W : Int} {g : Nat} {f : κ → Int}
    (h : Content L off g f W) {k : κ} {a : Int} (ha : 0 < a) (hk : ∀ v, (k, v) ∉ L) :
    Content ((k, a) :: L) off g (bump f k a) (W + a) where
  pos := by
    intro e he
    rcases List.mem_cons.mp he with rfl | he
    · exact ha
    · exact h.pos e he
  lb := by
    intro e he
    rcases List.mem_cons.mp he with rfl | he
    · have := h.nonneg k
      simp only [bump, if_true]; omega
    · have hne : e.1 ≠ k := fun hh => hk e.2 (hh ▸ he)
      simp only [bump, if_neg hne]
      have := h.lb e he; omega
  ub := by
    intro e he
    rcases List.mem_cons.mp he with rfl | he
    · have := h.miss k hk
      simp only [bump, if_true]; omega
    · have hne : e.1 ≠ k := fun hh => hk e.2 (hh ▸ he)
      simp only [bump, if_neg hne]
      have := h.ub e he; omega
  miss := by
    intro x hx
    have hne : x ≠ k := fun hh => hx a (hh ▸ List.mem_cons_self ..)
    simp only [bump, if_neg hne]
    have := h.miss x (fun v hv => hx v (List.mem_cons_of_mem _ hv))
    omega
  nonneg := by
    intro x
    have := h.nonneg x
    simp only [bump]; split <;> omega
  off0 := h.off0
  budget := by
    rw [total_cons]
    have := h.budget
    show a + total L + _ ≤ _
    omega

theorem Content.adjust {L : List (κ × Int)} {off W : Int} {g : Nat} {f : κ → Int} {k : κ} {v a : Int}
    (h : Content ((k, v) :: L) off g f W) (ha : 0 < a)
    (hnd : (((k, v) :: L).map Prod.fst).Nodup) :
    Content ((k, v + a) :: L) off g (bump f k a) (W + a) := by
  have hk : ∀ e ∈ L, e.1 ≠ k := by
    intro e he hh
    rw [List.map_cons, List.nodup_cons] at hnd
    exact hnd.1 (List.mem_map.mpr ⟨e, he, hh⟩)
  have h0 := h.pos (k, v) (List.mem_cons_self ..)
  refine ⟨?_, ?_, ?_, ?_, ?_, h.off0, ?_⟩
  · intro e he
    rcases List.mem_cons.mp he with rfl | he
    · show 0 < v + a
      simp only at h0; omega
    · exact h.pos e (List.mem_cons_of_mem _ he)
  · intro e he
    rcases List.mem_cons.mp he with rfl | he
    · have := h.lb (k, v) (List.mem_cons_self ..)
      simp only [bump, if_true] at this ⊢; omega
    · simp only [bump, if_neg (hk e he)]
      have := h.lb e (List.mem_cons_of_mem _ he); omega
  · intro e he
    rcases List.mem_cons.mp he with rfl | he
    · have := h.ub (k, v) (List.mem_cons_self ..)
      simp only [bump, if_true] at this ⊢; omega
    · simp only [bump, if_neg (hk e he)]
      have := h.ub e (List.mem_cons_of_mem _ he); omega
  · intro x hx
    have hne : x ≠ k := fun hh => hx (v + a) (hh ▸ List.mem_cons_self ..)
    simp only [bump, if_neg hne]
    have := h.miss x (fun w hw => by
      rcases List.mem_cons.mp hw with hw | hw
      · exact hne (Prod.mk.inj hw).1
      · exact hx w (List.mem_cons_of_mem _ hw))
    omega
  · intro x
    have := h.nonneg x
    simp only [bump]; split <;> omega
  · have := h.budget
    rw [total_cons] at this ⊢
    show v + a + total L + _ ≤ _
    simp only at this
    omega

theorem purge_total (v : Int) (L : List (κ × Int)) (h : ∀ e ∈ L, 0 < e.2) :
    total ((L.map (fun e => (e.1, e.2 - v))).filter (fun e => decide (0 < e.2))) +
      v * (L.countP (fun e => decide (v ≤ e.2)) : Nat) ≤ total L := by
  induction L with
  | nil => simp [total]
  | cons e L ih =>
    have hL : ∀ e ∈ L, 0 < e.2 := fun e he => h e (List.mem_cons_of_mem _ he)
    have := ih hL
    have he := h e (List.mem_cons_self ..)
    rw [List.map_cons, List.filter_cons, List.countP_cons, total_cons]
    by_cases h1 : v ≤ e.2
    · by_cases h2 : 0 < e.2 - v
      · rw [if_pos (by simpa using h2), if_pos (by simpa using h1), total_cons]
        push_cast
        rw [mul_add]
        omega
      · rw [if_neg (by simpa using h2), if_pos (by simpa using h1)]
        push_cast
        rw [mul_add]
        omega
    · rw [if_neg (by simp only [decide_eq_true_eq]; omega), if_neg (by simpa using h1)]
      rw [Nat.add_zero]
      omega

theorem Content.purge {L : List (κ × Int)} {off W : Int} {g : Nat} {f : κ → Int}
    (h : Content L off g f W) {v : Int} (hv : 0 < v)
    (hg : g ≤ L.countP (fun e => decide (v ≤ e.2))) :
    Content ((L.map (fun e => (e.1, e.2 - v))).filter (fun e => decide (0 < e.2))) (off + v) g f W := by
  have hmem : ∀ e, e ∈ (L.map (fun e => (e.1, e.2 - v))).filter (fun e => decide (0 < e.2)) ↔
      (e.1, e.2 + v) ∈ L ∧ 0 < e.2 := by
    intro e
    rw [List.mem_filter, List.mem_map]
    constructor
    · rintro ⟨⟨a, ha, rfl⟩, h2⟩
      refine ⟨?_, by simpa using h2⟩
      simpa using ha
    · rintro ⟨h1, h2⟩
      exact ⟨⟨_, h1, by simp⟩, by simpa using h2⟩
  have := h.off0
  refine ⟨?_, ?_, ?_, ?_, h.nonneg, by omega, ?_⟩
  · intro e he; exact ((hmem e).mp he).2
  · intro e he
    have := h.lb _ ((hmem e).mp he).1
    simp only at this; omega
  · intro e he
    have := h.ub _ ((hmem e).mp he).1
    simp only at this; omega
  · intro k hk
    by_cases hin : ∃ w, (k, w) ∈ L
    · obtain ⟨w, hw⟩ := hin
      have h1 := h.ub _ hw
      have h2 : ¬ 0 < w - v := by
        intro hh
        exact hk (w - v) ((hmem (k, w - v)).mpr ⟨by simpa using hw, hh⟩)
      simp only at h1; omega
    · have := h.miss k (fun w hw => hin ⟨w, hw⟩)
      omega
  · have h1 := purge_total v L h.pos
    have h2 := h.budget
    have h3 : (g : Int) * v ≤ v * (L.countP (fun e => decide (v ≤ e.2)) : Nat) := by
      rw [mul_comm v]
      exact mul_le_mul_of_nonneg_right (by exact_mod_cast hg) (by omega)
    rw [mul_add]
    omega

/-- number of counters that survive a purge -/
theorem purge_length (v : Int) (L : List (κ × Int)) :
    ((L.map (fun e => (e.1, e.2 - v))).filter (fun e => decide (0 < e.2))).length +
      L.countP (fun e => decide (e.2 ≤ v)) = L.length := by
  induction L with
  | nil => rfl
  | cons e L ih =>
    rw [List.map_cons, List.filter_cons, List.countP_cons]
    by_cases h : e.2 ≤ v
    · rw [if_neg (by simp only [decide_eq_true_eq]; omega), if_pos (by simpa using h), List.length_cons]
      omega
    · rw [if_pos (by simp only [decide_eq_true_eq]; omega), if_neg (by simpa using h), List.length_cons, List.length_cons]
      omega

/-! ## the sketch invariant -/

structure SInv (c : Cfg κ) (s : Sketch κ) (g : Nat) (f : κ → Int) (W : Int) : Prop where
  wf : WF c s.map
  lg3 : 3 ≤ s.map.lg
  lgM : s.map.lg ≤ s.lgMax
  cap : s.curCap = capOf (2 ^ s.map.lg)
  num : s.map.num ≤ s.curCap
  con : Content (items s.map.slots) s.offset g f W
  wt : s.weight = W
  wlt : W < 2 ^ 63
  ss1 : 1 ≤ s.sampleSize
  ss2 : s.sampleSize ≤ capOf (2 ^ s.lgMax)
  g1 : 1 ≤ g
  g2 : g ≤ s.sampleSize - s.sampleSize / 2

theorem SInv.num_lt {s : Sketch κ} {g : Nat} {f : κ → Int} {W : Int} (h : SInv c s g f W) :
    s.map.num + 1 < 2 ^ s.map.lg := by
  have := capOf_lt h.lg3
  have := h.num
  rw [h.cap] at this
  omega

theorem SInv.val_lt {s : Sketch κ} {g : Nat} {f : κ → Int} {W : Int} (h : SInv c s g f W)
    {e : κ × Int} (he : e ∈ items s.map.slots) : 0 < e.2 ∧ e.2 + s.offset < 2 ^ 63 := by
  have h1 := le_total h.con.pos he
  have h2 := h.con.off_le_goff h.g1
  have h3 := h.con.budget
  have := h.wlt
  exact ⟨h.con.pos e he, by omega⟩

/-- what `get` returns in a valid sketch -/
theorem SInv.get {s : Sketch κ} {g : Nat} {f : κ → Int} {W : Int} (h : SInv c s g f W) (k : κ) :
    (∃ v, (k, v) ∈ items s.map.slots ∧ get c s.map.slots k = .ok v) ∨
    ((∀ v, (k, v) ∉ items s.map.slots) ∧ get c s.map.slots k = .ok 0) := by
  have hg := get_spec h.wf.inv (by rw [← h.wf.num, h.wf.inv.len]; have := h.num_lt; omega) k
  by_cases hin : ∃ v, (k, v) ∈ items s.map.slots
  · obtain ⟨v, hv⟩ := hin
    exact Or.inl ⟨v, hv, hg.1 v hv⟩
  · have hno : ∀ v, (k, v) ∉ items s.map.slots := fun v hv => hin ⟨v, hv⟩
    exact Or.inr ⟨hno, hg.2 hno⟩

theorem update_spec (hok : c.Ok) (z : κ) {s : Sketch κ} {g : Nat} {f : κ → Int} {W : Int}
    (hf : ∀ lg, lg ≤ s.lgMax → Fits c lg) (h : SInv c s g f W) (k : κ) (a : Int) (ha : 0 < a)
    (hW : W + a < 2 ^ 63) :
    (s.update c z k a = .err "drift >= driftLimit" ∧ ∃ d, d < 2 ^ s.lgMax ∧ c.over d = true) ∨
    (∃ s', s.update c z k a = .ok s' ∧ SInv c s' g (bump f k a) (W + a) ∧ s'.lgMax = s.lgMax ∧
      s'.sampleSize = s.sampleSize) := by
  have hnlt := h.num_lt
  have hcapn := h.num
  rw [h.cap] at hcapn
  have hWnn : 0 ≤ W := by
    have := total_nonneg h.con.pos
    have := h.con.total_le
    omega
  unfold Sketch.update
  rw [if_neg (by omega), if_neg (by omega)]
  rcases adjustOrPut_spec hok h.wf (hf _ h.lgM) hnlt hcapn k a with
    ⟨i, h1, h2, h3⟩ | ⟨m, h1, h2, h3, h4⟩
  · left
    rw [h3]
    refine ⟨rfl, i + 1, lt_of_lt_of_le h1 (Nat.pow_le_pow_right (by norm_num) h.lgM), h2⟩
  · rw [h1]
    simp only [Outcome.ok_bind]
    have hwt : wrap 8 (s.weight + a) = W + a := by
      rw [h.wt, wrap_of_inRange (inRange8 (by omega) (by omega))]
    -- the content after the adjustment
    have hcon : Content (items m.slots) s.offset g (bump f k a) (W + a) ∧ m.num ≤ s.map.num + 1 := by
      rcases h4 with ⟨v, l, p1, p2, hn⟩ | ⟨hno, p, hn⟩
      · have hc0 := h.con.of_perm p1.symm
        have hnd : (((k, v) :: l).map Prod.fst).Nodup :=
          (p1.map Prod.fst).nodup_iff.mp h.wf.inv.keys_nodup
        have hc1 := hc0.adjust ha hnd
        have hv0 := hc0.pos (k, v) (List.mem_cons_self ..)
        have hvle := le_total hc0.pos (List.mem_cons_self ..)
        have := hc0.total_le
        rw [wrap_of_inRange (inRange8 (by simp only at hv0; omega) (by simp only at hvle; omega))] at p2
        exact ⟨hc1.of_perm p2, by omega⟩
      · exact ⟨(h.con.insert ha hno).of_perm p, by omega⟩
    obtain ⟨hcon, hnum⟩ := hcon
    by_cases hover : m.num > s.curCap
    · rw [if_pos hover]
      rw [h.cap] at hover
      by_cases hlg : m.lg < s.lgMax
      · rw [if_pos hlg]
        rcases resize_spec hok z h2 (hf _ (by omega)) (by rw [h3]; exact h.lg3)
          (by rw [h3]; omega) with ⟨d, d1, d2, d3⟩ | ⟨m', r1, r2, r3, r4⟩
        · left
          rw [d3]
          exact ⟨rfl, d, lt_of_lt_of_le d1 (Nat.pow_le_pow_right (by norm_num) (by omega)), d2⟩
        · right
          rw [r1]
          have hn' : m'.num = m.num := by rw [r2.num, h2.num, r4.length_eq]
          refine ⟨_, rfl, ⟨r2, ?_, ?_, rfl, ?_, hcon.of_perm r4, hwt, hW, h.ss1, h.ss2, h.g1, h.g2⟩,
            rfl, rfl⟩
          · show 3 ≤ m'.lg
            have := h.lg3; omega
          · show m'.lg ≤ s.lgMax
            omega
          · show m'.num ≤ capOf (2 ^ m'.lg)
            rw [hn', r3, h3]
            have := capOf_succ h.lg3
            omega
      · rw [if_neg hlg]
        have hlgeq : m.lg = s.lgMax := by have := h.lgM; omega
        have hlgm : s.map.lg = s.lgMax := by omega
        right
        have hss2 := h.ss2
        rw [hlgm] at hover
        obtain ⟨m', v, q1, q2, q3, q4, q5, q6, q7, q8⟩ := purge_spec hok h2 (hf _ (by omega))
          s.sampleSize h.ss1 (by omega) (by rw [h3]; omega)
          (by
            intro e he
            have := le_total hcon.pos he
            have := hcon.total_le
            exact ⟨hcon.pos e he, by omega⟩)
        have hmin : min s.sampleSize m.num = s.sampleSize := by omega
        rw [hmin] at q7 q8
        have hc2 := (hcon.purge q4 (le_trans h.g2 q8)).of_perm q6
        have hlen := purge_length v (items m.slots)
        rw [← q6.length_eq, ← q2.num, ← h2.num] at hlen
        have hcap0 : m'.num ≤ capOf (2 ^ s.lgMax) := by
          rw [hlgm] at hcapn
          omega
        rw [q1]
        simp only [Outcome.ok_bind]
        rw [if_neg (by omega)]
        have hoff : wrap 8 (s.offset + v) = s.offset + v := by
          have h5 := hc2.off_le_goff h.g1
          have h6 := total_nonneg hc2.pos
          have h7 := hc2.budget
          have := h.con.off0
          rw [wrap_of_inRange (inRange8 (by omega) (by omega))]
        refine ⟨_, rfl, ⟨q2, ?_, ?_, ?_, ?_, ?_, hwt, hW, h.ss1, h.ss2, h.g1, h.g2⟩, rfl, rfl⟩
        · show 3 ≤ m'.lg
          have := h.lg3; omega
        · show m'.lg ≤ s.lgMax
          omega
        · show s.curCap = capOf (2 ^ m'.lg)
          rw [h.cap, q3, h3]
        · show m'.num ≤ s.curCap
          rw [h.cap, hlgm]; exact hcap0
        · show Content (items m'.slots) (wrap 8 (s.offset + v)) g _ _
          rw [hoff]; exact hc2
    · rw [if_neg hover]
      right
      refine ⟨_, rfl, ⟨h2, ?_, ?_, ?_, ?_, hcon, hwt, hW, h.ss1, h.ss2, h.g1, h.g2⟩, rfl, rfl⟩
      · show 3 ≤ m.lg
        have := h.lg3; omega
      · show m.lg ≤ s.lgMax
        have := h.lgM; omega
      · show s.curCap = capOf (2 ^ m.lg)
        rw [h.cap, h3]
      · show m.num ≤ s.curCap
        omega

/-! ## merging -/

/-- total weight of an item in a list of weighted items -/
def tally (L : List (κ × Int)) (x : κ) : Int := total (L.filter (fun e => decide (e.1 = x)))

theorem updateAll_spec (hok : c.Ok) (z : κ) (lgMax ss : Nat)
    (hf : ∀ lg, lg ≤ lgMax → Fits c lg) : ∀ (L : List (κ × Int)) (s : Sketch κ) (g : Nat)
    (f : κ → Int) (W : Int), s.lgMax = lgMax → s.sampleSize = ss → SInv c s g f W →
    (∀ e ∈ L, 0 < e.2) → W + total L < 2 ^ 63 →
    (updateAll c z L s = .err "drift >= driftLimit" ∧ ∃ d, d < 2 ^ lgMax ∧ c.over d = true) ∨
    (∃ s', updateAll c z L s = .ok s' ∧ SInv c s' g (fun x => f x + tally L x) (W + total L) ∧
      s'.lgMax = lgMax ∧ s'.sampleSize = ss) := by
  intro L
  induction L with
  | nil =>
    intro s g f W h1 h2 h3 _ _
    refine Or.inr ⟨s, rfl, ?_, h1, h2⟩
    simpa [tally, total] using h3
  | cons e L ih =>
    intro s g f W h1 h2 h3 h4 h5
    obtain ⟨k, a⟩ := e
    have hL : ∀ e ∈ L, 0 < e.2 := fun e he => h4 e (List.mem_cons_of_mem _ he)
    have ha := h4 (k, a) (List.mem_cons_self ..)
    have hLn := total_nonneg hL
    rw [total_cons] at h5
    simp only at h5 ha
    rw [updateAll]
    rcases update_spec hok z (s := s) (by rw [h1]; exact hf) h3 k a ha (by omega) with
      ⟨u1, u2⟩ | ⟨s', u1, u2, u3, u4⟩
    · left
      rw [u1, ← h1]
      exact ⟨rfl, u2⟩
    · rw [u1]
      simp only [Outcome.ok_bind]
      rcases ih s' g _ _ (by rw [u3, h1]) (by rw [u4, h2]) u2 hL (by omega) with
        w | ⟨s'', w1, w2, w3, w4⟩
      · exact Or.inl w
      · refine Or.inr ⟨s'', w1, ?_, w3, w4⟩
        have hfe : (fun x => bump f k a x + tally L x) = (fun x => f x + tally ((k, a) :: L) x) := by
          funext x
          unfold bump tally
          rw [List.filter_cons]
          by_cases hx : x = k
          · subst hx
            simp only [if_true, decide_true, total_cons]
            omega
          · rw [if_neg hx, if_neg (by simpa using fun h => hx h.symm)]
            omega
        rw [hfe] at w2
        rw [total_cons]
        have : W + a + total L = W + ((k, a).2 + total L) := by simp only; omega
        rw [← this]; exact w2

theorem tally_perm {L L' : List (κ × Int)} (p : L.Perm L') (x : κ) : tally L x = tally L' x :=
  total_perm (p.filter _)

theorem tally_mem {L : List (κ × Int)} (hnd : (L.map Prod.fst).Nodup) {k : κ} {v : Int}
    (h : (k, v) ∈ L) : tally L k = v := by
  induction L with
  | nil => cases h
  | cons e L ih =>
    rw [List.map_cons, List.nodup_cons] at hnd
    unfold tally
    rw [List.filter_cons]
    rcases List.mem_cons.mp h with rfl | h'
    · have : L.filter (fun e => decide (e.1 = k)) = [] := by
        rw [List.filter_eq_nil_iff]
        intro e he hh
        exact hnd.1 (List.mem_map.mpr ⟨e, he, by simpa using hh⟩)
      simp [this, total]
    · have hne : e.1 ≠ k := fun hh => hnd.1 (List.mem_map.mpr ⟨_, h', hh.symm⟩)
      rw [if_neg (by simpa using hne)]
      exact ih hnd.2 h'

theorem tally_not_mem {L : List (κ × Int)} {k : κ} (h : ∀ v, (k, v) ∉ L) : tally L k = 0 := by
  unfold tally
  have : L.filter (fun e => decide (e.1 = k)) = [] := by
    rw [List.filter_eq_nil_iff]
    intro e he hh
    have : e.1 = k := by simpa using hh
    exact h e.2 (this ▸ he)
  simp [this, total]

theorem merge_spec (hok : c.Ok) (z : κ) {s o : Sketch κ} {g g' : Nat} {f f' : κ → Int} {W W' : Int}
    (hf : ∀ lg, lg ≤ s.lgMax → Fits c lg) (h : SInv c s g f W) (h' : SInv c o g' f' W')
    (hW : W + W' < 2 ^ 63) (stride : Nat) (hs : stride % 2 = 1)
    (hne : o.map.num ≠ 0 ∨ W' = 0) :
    (s.merge c z o stride = .err "drift >= driftLimit" ∧ ∃ d, d < 2 ^ s.lgMax ∧ c.over d = true) ∨
    (∃ s', s.merge c z o stride = .ok s' ∧
      SInv c s' (min g g') (fun x => f x + f' x) (W + W') ∧ s'.lgMax = s.lgMax ∧
      s'.sampleSize = s.sampleSize) := by
  have hc' := h'.con
  have hgo' := hc'.goff_nonneg
  have hog' := hc'.off_le_goff h'.g1
  have hb' := hc'.budget
  have ht' := total_nonneg hc'.pos
  have ho' := hc'.off0
  unfold Sketch.merge
  by_cases he : o.isEmpty = true
  · have h0 : o.map.num = 0 := by simpa [Sketch.isEmpty] using he
    have hW0 : W' = 0 := hne.resolve_left (fun hh => hh h0)
    have hit : items o.map.slots = [] := List.eq_nil_of_length_eq_zero (by rw [← h'.wf.num, h0])
    have hoff : o.offset = 0 := by omega
    have hf0 : ∀ x, f' x = 0 := by
      intro x
      have h1 := hc'.miss x (by rw [hit]; simp)
      have h2 := hc'.nonneg x
      omega
    rw [if_pos he]
    refine Or.inr ⟨s, rfl, ?_, rfl, rfl⟩
    have hfe : (fun x => f x + f' x) = f := by funext x; rw [hf0]; omega
    rw [hfe, hW0, Int.add_zero]
    have hgg := h.g1
    have hgg' := h'.g1
    have hgg2 := h.g2
    exact ⟨h.wf, h.lg3, h.lgM, h.cap, h.num, h.con.weaken (by omega), h.wt, h.wlt, h.ss1, h.ss2,
      by omega, by omega⟩
  · rw [if_neg he]
    obtain ⟨L, hL, hp⟩ := iterate_spec h'.wf stride hs
    rw [hL]
    simp only [Outcome.ok_bind]
    have hpos : ∀ e ∈ L, 0 < e.2 := fun e he => hc'.pos e (hp.mem_iff.mp he)
    have htot := total_perm hp
    rcases updateAll_spec hok z s.lgMax s.sampleSize hf L s g f W rfl rfl h hpos (by omega) with
      ⟨u1, u2⟩ | ⟨s', u1, u2, u3, u4⟩
    · left
      rw [u1]
      exact ⟨rfl, u2⟩
    · right
      rw [u1]
      simp only [Outcome.ok_bind]
      have hcs := u2.con
      have hogs := hcs.off_le_goff h.g1
      have hbs := hcs.budget
      have hts := total_nonneg hcs.pos
      have hos := hcs.off0
      have hW0 : 0 ≤ W := by have := h.con.total_le; have := total_nonneg h.con.pos; omega
      have hoffw : wrap 8 (s'.offset + o.offset) = s'.offset + o.offset := by
        rw [wrap_of_inRange (inRange8 (by omega) (by omega))]
      have hwtw : wrap 8 (s.weight + o.weight) = W + W' := by
        rw [h.wt, h'.wt, wrap_of_inRange (inRange8 (by omega) (by omega))]
      have hta : ∀ x, tally L x ≤ f' x ∧ f' x ≤ tally L x + o.offset := by
        intro x
        rw [tally_perm hp]
        by_cases hin : ∃ v, (x, v) ∈ items o.map.slots
        · obtain ⟨v, hv⟩ := hin
          rw [tally_mem h'.wf.inv.keys_nodup hv]
          exact ⟨hc'.lb _ hv, hc'.ub _ hv⟩
        · have hno : ∀ v, (x, v) ∉ items o.map.slots := fun v hv => hin ⟨v, hv⟩
          rw [tally_not_mem hno]
          have := hc'.miss x hno
          have := hc'.nonneg x
          constructor <;> omega
      have hgg := h.g1
      have hgg' := h'.g1
      have hgg2 := h.g2
      refine ⟨_, rfl, ⟨u2.wf, u2.lg3, u2.lgM, u2.cap, u2.num, ?_, hwtw, hW, u2.ss1, u2.ss2,
        by omega, ?_⟩, u3, u4⟩
      · show Content (items s'.map.slots) (wrap 8 (s'.offset + o.offset)) (min g g') _ _
        rw [hoffw]
        refine ⟨hcs.pos, ?_, ?_, ?_, ?_, by omega, ?_⟩
        · intro e he
          have := hcs.lb e he
          have := hta e.1
          omega
        · intro e he
          have := hcs.ub e he
          have := hta e.1
          omega
        · intro k hk
          have := hcs.miss k hk
          have := hta k
          omega
        · intro k
          have := h.con.nonneg k
          have := hc'.nonneg k
          omega
        · have e1 : ((min g g' : Nat) : Int) * s'.offset ≤ g * s'.offset :=
            mul_le_mul_of_nonneg_right (by omega) hos
          have e2 : ((min g g' : Nat) : Int) * o.offset ≤ g' * o.offset :=
            mul_le_mul_of_nonneg_right (by omega) ho'
          rw [mul_add]
          omega
      · show min g g' ≤ s'.sampleSize - s'.sampleSize / 2
        have := u2.g2
        omega

/-! ## fresh and reset sketches -/

theorem fresh_inv (z : κ) (lgMax lg cap ss : Nat) (h3 : 3 ≤ lg) (hM : lg ≤ lgMax)
    (hcap : cap = capOf (2 ^ lg)) (h1 : 1 ≤ ss) (h2 : ss ≤ capOf (2 ^ lgMax)) :
    SInv c ⟨lgMax, cap, 0, 0, ss, newMap z lg⟩ (ss - ss / 2) (fun _ => 0) 0 := by
  have hem : items (newMap z lg).slots = [] := items_replicate _ _
  refine ⟨newMap_wf z lg, h3, hM, hcap, Nat.zero_le _, ?_, rfl, by norm_num, h1, h2, by omega, le_refl _⟩
  show Content (items (newMap z lg).slots) 0 _ _ _
  rw [hem]
  exact ⟨by simp, by simp, by simp, by simp, by simp, le_refl _, by simp [total]⟩

theorem capOf_mono {a b : Nat} (h : a ≤ b) : capOf (2 ^ a) ≤ capOf (2 ^ b) := by
  have := Nat.pow_le_pow_right (n := 2) (by norm_num) h
  unfold capOf
  omega

theorem capOf_pos {a : Nat} (h : 1 ≤ a) : 1 ≤ capOf (2 ^ a) := by
  have := Nat.pow_le_pow_right (n := 2) (by norm_num) h
  unfold capOf
  omega

end Verif.Freq
