import Verif.ReqLink

/-!
# Update, merge and reset of a REQ sketch
-/

namespace Verif.Req

open Verif Verif.View

variable {α : Type} [LinearOrder α]

theorem or_le_add (a b : Nat) : a ||| b ≤ a + b := by
  induction a using Nat.strongRecOn generalizing b with
  | _ a ih =>
    rcases Nat.eq_zero_or_pos a with rfl | ha
    · simp
    · have h := ih (a / 2) (by omega) (b / 2)
      have h1 : (a ||| b) / 2 = a / 2 ||| b / 2 := Nat.or_div_two
      have h2 : (a ||| b) % 2 = 1 ↔ a % 2 = 1 ∨ b % 2 = 1 := Nat.or_mod_two_eq_one
      omega

/-! ## Levels side by side -/

/-- Level by level the items of both. -/
def zipLv : List (List α) → List (List α) → List (List α)
  | [], B => B
  | a :: A, [] => a :: A
  | a :: A, b :: B => (a ++ b) :: zipLv A B

theorem zipLv_nil (A : List (List α)) : zipLv A [] = A := by cases A <;> rfl

theorem zipLv_get (A B : List (List α)) (i : Nat) :
    (zipLv A B)[i]? = if i < A.length ∨ i < B.length then some (A.getD i [] ++ B.getD i []) else none := by
  induction A generalizing B i with
  | nil =>
    simp only [zipLv, List.length_nil, Nat.not_lt_zero, false_or, List.getD_nil, List.nil_append]
    by_cases h : i < B.length
    · rw [if_pos h, List.getElem?_eq_getElem h, List.getD_eq_getElem?_getD,
        List.getElem?_eq_getElem h]; rfl
    · rw [if_neg h, List.getElem?_eq_none (by omega)]
  | cons a A ih =>
    cases B with
    | nil =>
      simp only [zipLv, List.length_nil, Nat.not_lt_zero, or_false, List.getD_nil, List.append_nil]
      by_cases h : i < (a :: A).length
      · rw [if_pos h, List.getElem?_eq_getElem h, List.getD_eq_getElem?_getD,
          List.getElem?_eq_getElem h]; rfl
      · rw [if_neg h, List.getElem?_eq_none (by omega)]
    | cons b B =>
      cases i with
      | zero => simp [zipLv]
      | succ i =>
        simp only [zipLv, List.getElem?_cons_succ, ih, List.length_cons, List.getD_cons_succ,
          Nat.add_lt_add_iff_right]

theorem zipLv_length (A B : List (List α)) : (zipLv A B).length = max A.length B.length := by
  induction A generalizing B with
  | nil => simp [zipLv]
  | cons a A ih =>
    cases B with
    | nil => simp [zipLv]
    | cons b B => simp [zipLv, ih]

theorem zipLv_rk (p : α → Bool) (A B : List (List α)) :
    Kll.rk p (zipLv A B) = Kll.rk p A + Kll.rk p B := by
  induction A generalizing B with
  | nil => simp [zipLv, Kll.rk]
  | cons a A ih =>
    cases B with
    | nil => simp [zipLv, Kll.rk]
    | cons b B => simp only [zipLv, Kll.rk, ih, List.countP_append]; ring

theorem zipLv_flatten (A B : List (List α)) :
    (zipLv A B).flatten.length = A.flatten.length + B.flatten.length := by
  induction A generalizing B with
  | nil => simp [zipLv]
  | cons a A ih =>
    cases B with
    | nil => simp [zipLv]
    | cons b B =>
      simp only [zipLv, List.flatten_cons, List.length_append, ih]; omega

theorem zipLv_mem {A B : List (List α)} {l : List α} (hl : l ∈ zipLv A B) {x : α} (hx : x ∈ l) :
    (∃ l ∈ A, x ∈ l) ∨ ∃ l ∈ B, x ∈ l := by
  induction A generalizing B with
  | nil => exact Or.inr ⟨l, hl, hx⟩
  | cons a A ih =>
    cases B with
    | nil => exact Or.inl ⟨l, hl, hx⟩
    | cons b B =>
      simp only [zipLv] at hl
      rcases List.mem_cons.1 hl with rfl | hl
      · rcases List.mem_append.1 hx with hx | hx
        · exact Or.inl ⟨a, List.mem_cons_self, hx⟩
        · exact Or.inr ⟨b, List.mem_cons_self, hx⟩
      · rcases ih hl with ⟨m, hm, h⟩ | ⟨m, hm, h⟩
        · exact Or.inl ⟨m, List.mem_cons_of_mem _ hm, h⟩
        · exact Or.inr ⟨m, List.mem_cons_of_mem _ hm, h⟩

theorem mem_zipLv {A B : List (List α)} {x : α} (h : (∃ l ∈ A, x ∈ l) ∨ ∃ l ∈ B, x ∈ l) :
    ∃ l ∈ zipLv A B, x ∈ l := by
  induction A generalizing B with
  | nil => simpa [zipLv] using h
  | cons a A ih =>
    cases B with
    | nil => simpa [zipLv] using h
    | cons b B =>
      simp only [zipLv]
      rcases h with ⟨l, hl, hx⟩ | ⟨l, hl, hx⟩
      · rcases List.mem_cons.1 hl with rfl | hl
        · exact ⟨_, List.mem_cons_self, List.mem_append_left _ hx⟩
        · obtain ⟨m, hm, h⟩ := ih (B := B) (Or.inl ⟨l, hl, hx⟩)
          exact ⟨m, List.mem_cons_of_mem _ hm, h⟩
      · rcases List.mem_cons.1 hl with rfl | hl
        · exact ⟨_, List.mem_cons_self, List.mem_append_right _ hx⟩
        · obtain ⟨m, hm, h⟩ := ih (B := B) (Or.inr ⟨l, hl, hx⟩)
          exact ⟨m, List.mem_cons_of_mem _ hm, h⟩

theorem zipLv_tail (A B : List (List α)) (h : A ≠ [] ∨ B ≠ []) :
    (zipLv A B).tail = zipLv A.tail B.tail := by
  cases A with
  | nil => simp [zipLv]
  | cons a A =>
    cases B with
    | nil => simp [zipLv, zipLv_nil]
    | cons b B => simp [zipLv]

theorem zipLv_count {p : α → Bool} {A B : List (List α)} (hA : ∀ l ∈ A, l.countP p = 0)
    (hB : ∀ l ∈ B, l.countP p = 0) : ∀ l ∈ zipLv A B, l.countP p = 0 := by
  intro l hl
  rw [List.countP_eq_zero]
  intro x hx
  rcases zipLv_mem hl hx with ⟨m, hm, h⟩ | ⟨m, hm, h⟩
  · exact List.countP_eq_zero.1 (hA m hm) x h
  · exact List.countP_eq_zero.1 (hB m hm) x h

theorem Lk.merge {K : Nat} {hra : Bool} {A B : List (List α)} {log1 log2 : List (Event α)}
    {S T : List α} (h : Lk K hra A log1 S) (h' : Lk K hra B log2 T) (hne : A ≠ []) :
    Lk K hra (zipLv A B) (log2 ++ log1) (S ++ T) := by
  refine ⟨?_, ?_, ?_, ?_, ?_⟩
  rotate_left 4
  · intro m hm hb
    apply mem_zipLv
    rcases List.mem_append.1 hm with hm | hm
    · exact Or.inl (h.peak m hm fun x hx => hb x (List.mem_append_left _ hx))
    · exact Or.inr (h'.peak m hm fun x hx => hb x (List.mem_append_right _ hx))
  · intro p
    rw [zipLv_rk, List.countP_append, List.map_append, List.sum_append]
    have h1 := h.dec p
    have h2 := h'.dec p
    push_cast
    linarith
  · intro l hl x hx
    rcases zipLv_mem hl hx with ⟨m, hm, hx⟩ | ⟨m, hm, hx⟩
    · exact List.mem_append_left _ (h.mem m hm x hx)
    · exact List.mem_append_right _ (h'.mem m hm x hx)
  · intro e he
    rcases List.mem_append.1 he with he | he
    · exact h'.ev e he
    · exact h.ev e he
  · intro p hp hk
    rw [List.countP_append] at hk
    obtain ⟨a1, a2⟩ := h.top p hp (by omega)
    obtain ⟨b1, b2⟩ := h'.top p hp (by omega)
    refine ⟨?_, ?_⟩
    · intro e he
      rcases List.mem_append.1 he with he | he
      · exact b1 e he
      · exact a1 e he
    · rw [zipLv_tail _ _ (Or.inl hne)]
      exact zipLv_count a2 b2

theorem Lk.snoc {K : Nat} {hra : Bool} {l : List α} {Ls : List (List α)} {log : List (Event α)}
    {S : List α} (h : Lk K hra (l :: Ls) log S) (x : α) : Lk K hra ((x :: l) :: Ls) log (S ++ [x]) := by
  refine ⟨?_, ?_, h.ev, ?_, ?_⟩
  rotate_left 3
  · intro m hm hb
    rcases List.mem_append.1 hm with hm | hm
    · obtain ⟨l', hl', h'⟩ := h.peak m hm fun y hy => hb y (List.mem_append_left _ hy)
      rcases List.mem_cons.1 hl' with rfl | hl'
      · exact ⟨_, List.mem_cons_self, List.mem_cons_of_mem _ h'⟩
      · exact ⟨l', List.mem_cons_of_mem _ hl', h'⟩
    · rw [List.mem_singleton] at hm
      exact ⟨_, List.mem_cons_self, by rw [hm]; exact List.mem_cons_self⟩
  · intro p
    have := h.dec p
    simp only [Kll.rk, List.countP_append, List.countP_cons, List.countP_nil] at this ⊢
    push_cast at this ⊢
    linarith
  · intro m hm y hy
    rcases List.mem_cons.1 hm with rfl | hm
    · rcases List.mem_cons.1 hy with rfl | hy
      · simp
      · exact List.mem_append_left _ (h.mem l List.mem_cons_self y hy)
    · exact List.mem_append_left _ (h.mem m (List.mem_cons_of_mem _ hm) y hy)
  · intro p hp hk
    rw [List.countP_append] at hk
    exact h.top p hp (by omega)

/-- `s` stands for the stream `S`. -/
structure Core (K : Nat) (s : Sketch α) (S : List α) : Prop where
  inv : SInv s
  kK : K ≤ s.k
  lk : Lk K s.hra (levels s) s.log S
  len : s.n = S.length

theorem Core.closed (env : Env α) (K : Nat) (S : List α) :
    StepClosed env (fun s => Core K s S) := by
  intro s s' A c nx C X Kp coin c' nx' hs hn hq hb hL
  refine ⟨hL.inv hs hb, by rw [hL.k]; exact hq.kK, ?_, hL.n.trans hq.len⟩
  rw [hL.hra]
  exact Lk.step hs hq.kK hb hL hq.lk

theorem Core.noview {K : Nat} {s : Sketch α} {S : List α} (h : Core K s S) (v : Option (NumericView α)) :
    Core K { s with view := v } S :=
  ⟨⟨h.inv.k4, h.inv.kle, h.inv.keven, h.inv.ne, h.inv.lv, h.inv.ret, h.inv.nom, h.inv.wt, h.inv.spent,
    h.inv.full, h.inv.empty⟩, h.kK, h.lk, h.len⟩

theorem Core.ext {K : Nat} {s : Sketch α} {S : List α} (h : Core K s S) (a b : Option α) :
    Core K { s with
      minItem := a
      maxItem := b } S :=
  ⟨⟨h.inv.k4, h.inv.kle, h.inv.keven, h.inv.ne, h.inv.lv, h.inv.ret, h.inv.nom, h.inv.wt, h.inv.spent,
    h.inv.full, h.inv.empty⟩, h.kK, h.lk, h.len⟩

/-! ## New sketches -/

theorem fresh_core (env : Env α) {K k : Nat} (hra : Bool) (h4 : 4 ≤ k) (hk : k ≤ 1024)
    (he : k % 2 = 0) (hK : K ≤ k) (a b : Option α) (v : Option (NumericView α)) (r m : Int) (hr : r = 0) :
    Core K (grow env ⟨0, [], r, m, a, b, v, k, hra, []⟩) [] := by
  subst hr
  have hlv : levels (grow env ⟨0, [], 0, m, a, b, v, k, hra, []⟩) = [[]] := by
    unfold levels grow
    simp [new_act]
  refine ⟨⟨h4, hk, he, by simp [grow], ?_, ?_, ?_, ?_, ?_, ?_, ?_⟩, hK, ?_, rfl⟩
  · intro i c hc
    simp only [grow, List.nil_append, List.length_nil] at hc
    cases i with
    | zero =>
      simp only [List.getElem?_cons_zero, Option.some.injEq] at hc
      subst hc
      exact ⟨newCompactor_wf env _ _ h4 hk he, rfl, rfl, fun _ => rfl, Nat.zero_le _⟩
    | succ i => simp at hc
  · simp [grow, sumCount, newCompactor]
  · show computeMaxNomSize _ = _
    rw [computeMaxNom_eq]
    rfl
  · rw [hlv]; rfl
  · simp [grow, sumCount, newCompactor]
  · intro h; simp [grow] at h
  · intro _; simp [grow]
  · rw [hlv]
    refine ⟨fun p => ?_, ?_, ?_, ?_, by simp⟩
    · simp [Kll.rk, grow]
    · simp
    · simp [grow]
    · intro p _ _
      simp [grow]

theorem grow_small (env : Env α) {k : Nat} (hra : Bool) (h4 : 4 ≤ k) (a b : Option α)
    (v : Option (NumericView α)) (m : Int) :
    (grow env ⟨0, [], 0, m, a, b, v, k, hra, []⟩).numRetained <
      (grow env ⟨0, [], 0, m, a, b, v, k, hra, []⟩).maxNomSize := by
  show (0 : Int) < computeMaxNomSize _
  rw [computeMaxNom_eq]
  simp [sumCap, newCompactor, nomCapacity]
  omega

/-! ## Update -/

theorem levels_cons {s : Sketch α} {c : Compactor α} {B : List (Compactor α)}
    (h : s.compactors = c :: B) : levels s = act c :: B.map act := by
  unfold levels; rw [h]; rfl

/-- Replacing the first compactor. -/
theorem lv_head {P : Nat → Compactor α → Prop} {c c' : Compactor α} {B : List (Compactor α)}
    (h : ∀ (i : Nat) (x : Compactor α), (c :: B)[i]? = some x → P i x) (h0 : P 0 c') :
    ∀ (i : Nat) (x : Compactor α), (c' :: B)[i]? = some x → P i x := by
  intro i x hx
  cases i with
  | zero =>
    simp only [List.getElem?_cons_zero, Option.some.injEq] at hx
    rw [← hx]; exact h0
  | succ i =>
    rw [List.getElem?_cons_succ] at hx
    exact h (i + 1) x (by rw [List.getElem?_cons_succ]; exact hx)

theorem sortZero_ok {K : Nat} {s : Sketch α} {S : List α} (h : Core K s S) :
    ∃ c B I, s.compactors = c :: B ∧ sortZero s = .ok { s with
        compactors := { c with
          items := I
          sorted := true } :: B } ∧
      act ({ c with
          items := I
          sorted := true } : Compactor α) = srt (act c) ∧
      Core K { s with
        compactors := { c with
          items := I
          sorted := true } :: B } S := by
  obtain ⟨c, B, hc⟩ : ∃ c B, s.compactors = c :: B := by
    cases hcs : s.compactors with
    | nil => exact absurd hcs h.inv.ne
    | cons c B => exact ⟨c, B, rfl⟩
  have hcok := h.inv.lv 0 c (by rw [hc]; rfl)
  obtain ⟨I, h1, h2, h3⟩ := sort_ok hcok.wf.cnt hcok.wf.srtd
  refine ⟨c, B, I, hc, ?_, h3, ?_⟩
  · unfold sortZero
    rw [hc, rd_ok (v := c) rfl, Outcome.ok_bind, h1, Outcome.ok_bind]
    rfl
  · have hw : CWf s.k ({ c with
          items := I
          sorted := true } : Compactor α) := by
      refine ⟨?_, fun _ => ?_, hcok.wf.secs, hcok.wf.size, hcok.wf.size_flt, hcok.wf.flt_pos,
        hcok.wf.flt_le, hcok.wf.base, hcok.wf.vol, hcok.wf.low⟩
      · have := hcok.wf.cnt
        simp only; omega
      · show (actOf c.hra I c.count).Pairwise _
        rw [h3]; exact srt_sorted _
    have hlv : levels s = act c :: B.map act := levels_cons hc
    have hi := h.inv
    have hperm : List.Forall₂ List.Perm (act ({ c with
          items := I
          sorted := true } : Compactor α) :: B.map act) (levels s) := by
      rw [hlv]
      refine List.Forall₂.cons ?_ (List.forall₂_same.2 fun _ _ => List.Perm.refl _)
      show (actOf c.hra I c.count).Perm _
      rw [h3]
      exact srt_perm _
    refine ⟨⟨hi.k4, hi.kle, hi.keven, by simp, ?_, ?_, ?_, ?_, ?_, ?_, ?_⟩, h.kK, ?_, h.len⟩
    · have := hi.lv
      rw [hc] at this
      exact lv_head this ⟨hw, hcok.hra, hcok.lg, fun h => rfl, hcok.state⟩
    · have := hi.ret
      rw [hc] at this
      simp only [sumCount_cons] at this ⊢
      exact this
    · have := hi.nom
      rw [hc] at this
      simp only [sumCap_cons] at this ⊢
      exact this
    · have := hi.wt
      rw [← this]
      exact rk_perm hperm _
    · have := hi.spent
      rw [hc] at this
      simp only [sumCount_cons] at this ⊢
      exact this
    · intro hn x hx
      have := hi.full hn
      rw [hc] at this
      rcases List.mem_cons.1 hx with rfl | hx
      · exact this c List.mem_cons_self
      · exact this x (List.mem_cons_of_mem _ hx)
    · intro hn
      have := hi.empty hn
      rw [hc] at this
      simpa using this
    · exact h.lk.perm hperm

theorem updateItems_ok (env : Env α) {K : Nat} {s : Sketch α} {S : List α} (h : Core K s S) (x : α) :
    ∃ c B c', s.compactors = c :: B ∧ (act c').Perm (x :: act c) ∧ c'.count = c.count + 1 ∧
      c'.state = c.state ∧ c'.coin = c.coin ∧ secsOf c' = secsOf c ∧
      updateItems env s x = .ok { updateExtremes s x with
        compactors := c' :: B
        numRetained := s.numRetained + 1
        n := s.n + 1 } ∧
      Core K { updateExtremes s x with
        compactors := c' :: B
        numRetained := s.numRetained + 1
        n := s.n + 1 } (S ++ [x]) := by
  obtain ⟨c, B, hc⟩ : ∃ c B, s.compactors = c :: B := by
    cases hcs : s.compactors with
    | nil => exact absurd hcs h.inv.ne
    | cons c B => exact ⟨c, B, rfl⟩
  have hcok := h.inv.lv 0 c (by rw [hc]; rfl)
  obtain ⟨I, h1, h2, h3⟩ := append_ok env hcok.wf.cnt x
  have hext : updateExtremes s x = { s with
      minItem := (updateExtremes s x).minItem
      maxItem := (updateExtremes s x).maxItem } := by
    unfold updateExtremes; split <;> rfl
  refine ⟨c, B, { c with
        items := I
        count := c.count + 1
        sorted := false }, hc, h3, rfl, rfl, rfl, rfl, ?_, ?_⟩
  · unfold updateItems
    simp only
    rw [hext]
    simp only
    rw [hc, rd_ok (v := c) rfl, Outcome.ok_bind, h1, Outcome.ok_bind]
    rfl
  · have hw : CWf s.k ({ c with
        items := I
        count := c.count + 1
        sorted := false } : Compactor α) :=
      ⟨h2, fun h => by simp at h, hcok.wf.secs, hcok.wf.size, hcok.wf.size_flt, hcok.wf.flt_pos,
        hcok.wf.flt_le, hcok.wf.base, hcok.wf.vol, hcok.wf.low⟩
    have hlv : levels s = act c :: B.map act := levels_cons hc
    have hi := h.inv
    have hlk := h.lk
    rw [hlv] at hlk
    have hperm : List.Forall₂ List.Perm (act ({ c with
        items := I
        count := c.count + 1
        sorted := false } : Compactor α) :: B.map act) ((x :: act c) :: B.map act) :=
      List.Forall₂.cons h3 (List.forall₂_same.2 fun _ _ => List.Perm.refl _)
    rw [hext]
    refine ⟨⟨hi.k4, hi.kle, hi.keven, by simp, ?_, ?_, ?_, ?_, ?_, ?_, ?_⟩, h.kK,
      (hlk.snoc x).perm hperm, by simp [h.len]⟩
    · have := hi.lv
      rw [hc] at this
      exact lv_head this ⟨hw, hcok.hra, hcok.lg, fun h => by omega, hcok.state⟩
    · have := hi.ret
      rw [hc] at this
      simp only [sumCount_cons] at this ⊢
      push_cast at this ⊢
      omega
    · have := hi.nom
      rw [hc] at this
      simp only [sumCap_cons] at this ⊢
      exact this
    · have := hi.wt
      rw [hlv] at this
      refine (rk_perm hperm _).trans ?_
      unfold Kll.wt at this
      simp only [Kll.rk, List.countP_true, List.length_cons] at this ⊢
      omega
    · have := hi.spent
      rw [hc] at this
      simp only [sumCount_cons] at this ⊢
      omega
    · intro _ y hy
      rcases List.mem_cons.1 hy with rfl | hy
      · simp
      · rcases Nat.eq_zero_or_pos s.n with h0 | h0
        · have := hi.empty h0
          rw [hc] at this
          simp only [List.length_cons, Nat.add_eq_right, List.length_eq_zero_iff] at this
          rw [this] at hy
          simp at hy
        · exact hi.full h0 y (by rw [hc]; exact List.mem_cons_of_mem _ hy)
    · intro h0
      simp at h0

/-- What an operation leaves alone. -/
structure Frame (s s' : Sketch α) : Prop where
  k : s'.k = s.k
  hra : s'.hra = s.hra

theorem update_core {env : Env α} (he : EnvOk env) {K : Nat} {s : Sketch α} {S : List α}
    (h : Core K s S) (hn : S.length + 1 < 2 ^ 47) (x : α) :
    Rand.All (fun s' => Core K s' (S ++ [x]) ∧ s'.k = s.k ∧ s'.hra = s.hra ∧ s'.view = none ∧
      s'.minItem = (updateExtremes s x).minItem ∧ s'.maxItem = (updateExtremes s x).maxItem ∧
      s'.numRetained < s'.maxNomSize) (update env s (some x)) := by
  obtain ⟨c, B, c', hc, -, -, -, -, -, h2, h3⟩ := updateItems_ok env h x
  have hext : (updateExtremes s x).k = s.k ∧ (updateExtremes s x).hra = s.hra := by
    unfold updateExtremes; split <;> exact ⟨rfl, rfl⟩
  simp only [update]
  rw [h2, Rand.ofOutcome_ok, Rand.ret_bind]
  simp only
  split
  · obtain ⟨c1, B1, I, hc1, h4, -, h5⟩ := sortZero_ok h3
    rw [h4, Rand.ofOutcome_ok, Rand.ret_bind]
    refine (compress_all he (Core.closed env K (S ++ [x])) (fun s hs => hs.noview none) h5.inv ?_
      h5).bind ?_
    · refine lt_of_eq_of_lt h5.len ?_
      rw [List.length_append, List.length_singleton]
      omega
    · rintro s' ⟨i1, i2, i3, i4, i5, i6, i7, i8, i9⟩
      refine ⟨i2.noview none, i4.trans hext.1, i5.trans hext.2, rfl, i6, i7, ?_⟩
      simp only
      rw [i1.ret, i1.nom]
      exact_mod_cast sum_lt_cap i1.ne i9
  · rename_i hlt
    exact ⟨h3.noview none, hext.1, hext.2, rfl, rfl, rfl, by simp only at hlt ⊢; omega⟩

/-! ## Merge -/

theorem growTo_ok (env : Env α) (d : Nat) (s : Sketch α) :
    ∃ G : List (Compactor α), ∃ m, growTo env d s = { s with
      compactors := s.compactors ++ G
      maxNomSize := m } ∧ G.length = d ∧
      ∀ (i : Nat) (c : Compactor α), G[i]? = some c →
        c = newCompactor env (s.compactors.length + i) s.hra s.k := by
  induction d generalizing s with
  | zero => exact ⟨[], s.maxNomSize, by simp [growTo], rfl, by simp⟩
  | succ d ih =>
    obtain ⟨G, m, h1, h2, h3⟩ := ih (grow env s)
    refine ⟨newCompactor env s.compactors.length s.hra s.k :: G, m, ?_, by simp [h2], ?_⟩
    · rw [growTo, h1]
      simp [grow]
    · intro i c hc
      cases i with
      | zero =>
        simp only [List.getElem?_cons_zero, Option.some.injEq] at hc
        rw [← hc]; rfl
      | succ i =>
        rw [List.getElem?_cons_succ] at hc
        rw [h3 i c hc]
        simp only [grow, List.length_append, List.length_singleton]
        congr 1
        omega

/-- The loop over the levels. -/
theorem mergeLoop_ok {env : Env α} (he : EnvOk env) {cs os : List (Compactor α)}
    (hlen : os.length ≤ cs.length) {K K' : Nat} {hra : Bool}
    (hcs : ∀ (i : Nat) (c : Compactor α), cs[i]? = some c → CWf K c ∧ c.hra = hra ∧ c.lgWeight = i)
    (hos : ∀ (i : Nat) (c : Compactor α), os[i]? = some c → CWf K' c ∧ c.hra = hra ∧ c.lgWeight = i)
    (hst : ∀ (i : Nat) (c o : Compactor α), cs[i]? = some c → os[i]? = some o →
      c.state ||| o.state < 2 ^ 47) :
    ∃ cs', (List.range os.length).foldlM (fun cs i => do
        let c ← rd cs i
        let o ← rd os i
        let c ← mergeCompactor env c o
        wr cs i c) cs = .ok cs' ∧ cs'.length = cs.length ∧
      (∀ (i : Nat) (c' : Compactor α), cs'[i]? = some c' → i < os.length →
        ∃ c o, cs[i]? = some c ∧ os[i]? = some o ∧ Merged K c o c') ∧
      ∀ (i : Nat), os.length ≤ i → cs'[i]? = cs[i]? := by
  have hH := range_fold (n := os.length) (f := fun cs i => do
        let c ← rd cs i
        let o ← rd os i
        let c ← mergeCompactor env c o
        wr cs i c)
    (fun r cs' => cs'.length = cs.length ∧
      (∀ (i : Nat) (c' : Compactor α), cs'[i]? = some c' → i < r →
        ∃ c o, cs[i]? = some c ∧ os[i]? = some o ∧ Merged K c o c') ∧
      ∀ (i : Nat), r ≤ i → cs'[i]? = cs[i]?) (s0 := cs) ⟨rfl, fun i c' _ h => by omega, fun _ _ => rfl⟩ ?_
  · exact hH
  · rintro r cs' hr ⟨h1, h2, h3⟩
    have hc : cs[r]? = some cs[r] := List.getElem?_eq_getElem (by omega)
    have ho : os[r]? = some os[r] := List.getElem?_eq_getElem hr
    obtain ⟨c'', h4, h5⟩ := mergeCompactor_ok he (hcs r _ hc).1 (hos r _ ho).1
      ((hcs r _ hc).2.2.trans (hos r _ ho).2.2.symm) ((hcs r _ hc).2.1.trans (hos r _ ho).2.1.symm)
      (hst r _ _ hc ho)
    refine ⟨cs'.set r c'', ?_, by simp [h1], ?_, ?_⟩
    · rw [rd_ok ((h3 r (le_refl _)).trans hc), Outcome.ok_bind, rd_ok ho, Outcome.ok_bind, h4,
        Outcome.ok_bind, wr_ok _ (by omega)]
    · intro i c' hc' hi
      rw [List.getElem?_set] at hc'
      by_cases hir : r = i
      · subst hir
        rw [if_pos rfl, if_pos (by omega)] at hc'
        simp only [Option.some.injEq] at hc'
        rw [← hc']
        exact ⟨_, _, hc, ho, h5⟩
      · rw [if_neg hir] at hc'
        exact h2 i c' hc' (by omega)
    · intro i hi
      rw [List.getElem?_set, if_neg (by omega)]
      exact h3 i (by omega)

theorem sumCount_flatten {K : Nat} {cs : List (Compactor α)} (h : ∀ c ∈ cs, CWf K c) :
    sumCount cs = (cs.map act).flatten.length := by
  induction cs with
  | nil => rfl
  | cons c cs ih =>
    rw [sumCount_cons, List.map_cons, List.flatten_cons, List.length_append,
      ih (fun x hx => h x (List.mem_cons_of_mem _ hx)), (h c List.mem_cons_self).act_length]

omit [LinearOrder α] in
theorem forall₂_flatten {A B : List (List α)} (h : List.Forall₂ List.Perm A B) :
    A.flatten.length = B.flatten.length := by
  induction h with
  | nil => rfl
  | cons h _ ih => simp only [List.flatten_cons, List.length_append, ih, h.length_eq]

omit [LinearOrder α] in
theorem nEvents_append (A B : List (Event α)) (i : Nat) :
    nEvents (A ++ B) i = nEvents A i + nEvents B i := by
  simp [nEvents]

omit [LinearOrder α] in
/-- Facts about all levels from facts about all indices. -/
theorem mem_of_get {cs : List (Compactor α)} {P : Compactor α → Prop}
    (h : ∀ (i : Nat) (c : Compactor α), cs[i]? = some c → P c) : ∀ c ∈ cs, P c := by
  intro c hc
  obtain ⟨i, hi⟩ := List.mem_iff_getElem?.1 hc
  exact h i c hi

/-- The levels after the merge, before compressing. -/
structure MergedCs (env : Env α) (s o : Sketch α) (cs' : List (Compactor α)) : Prop where
  len : cs'.length = max s.compactors.length o.compactors.length
  both : ∀ (i : Nat) (c' : Compactor α), cs'[i]? = some c' → i < o.compactors.length →
    ∃ c oc, (s.compactors[i]? = some c ∨
        (s.compactors.length ≤ i ∧ c = newCompactor env i s.hra s.k)) ∧
      o.compactors[i]? = some oc ∧ Merged s.k c oc c'
  rest : ∀ (i : Nat), o.compactors.length ≤ i → cs'[i]? = s.compactors[i]?

theorem mergeItems_ok {env : Env α} (he : EnvOk env) {K : Nat} {s o : Sketch α} {S T : List α}
    (h : Core K s S) (h' : Core K o T) (hT : T ≠ []) (hhra : s.hra = o.hra)
    (hn : S.length + T.length < 2 ^ 47) :
    ∃ cs', MergedCs env s o cs' ∧ mergeItems env s o = .ok { s with
        n := s.n + o.n
        minItem := mergeMin s.minItem o.minItem
        maxItem := mergeMax s.maxItem o.maxItem
        log := o.log ++ s.log
        compactors := cs'
        maxNomSize := computeMaxNomSize cs'
        numRetained := computeRetainedItems cs' } ∧
      Core K { s with
        n := s.n + o.n
        minItem := mergeMin s.minItem o.minItem
        maxItem := mergeMax s.maxItem o.maxItem
        log := o.log ++ s.log
        compactors := cs'
        maxNomSize := computeMaxNomSize cs'
        numRetained := computeRetainedItems cs' } (S ++ T) := by
  have hTl : 0 < T.length := List.length_pos_of_ne_nil hT
  have hs47 : s.n < 2 ^ 47 := by rw [h.len]; omega
  have ho47 : o.n < 2 ^ 47 := by rw [h'.len]; omega
  have hsl := h.inv.len_le hs47
  have hol := h'.inv.len_le ho47
  obtain ⟨G, m, hG, hGl, hGn⟩ := growTo_ok env (o.compactors.length - s.compactors.length)
    { s with
      n := s.n + o.n
      minItem := mergeMin s.minItem o.minItem
      maxItem := mergeMax s.maxItem o.maxItem
      log := o.log ++ s.log }
  simp only at hG hGn
  -- the levels of the target
  have hcsget : ∀ (i : Nat) (c : Compactor α), (s.compactors ++ G)[i]? = some c →
      s.compactors[i]? = some c ∨ (s.compactors.length ≤ i ∧ i < o.compactors.length ∧
        c = newCompactor env i s.hra s.k) := by
    intro i c hc
    rcases Nat.lt_or_ge i s.compactors.length with hi | hi
    · rw [List.getElem?_append_left hi] at hc
      exact Or.inl hc
    · rw [List.getElem?_append_right hi] at hc
      have h1 := hGn _ _ hc
      have h2 := (List.getElem?_eq_some_iff.1 hc).1
      rw [show s.compactors.length + (i - s.compactors.length) = i by omega] at h1
      exact Or.inr ⟨hi, by omega, h1⟩
  have hcsok : ∀ (i : Nat) (c : Compactor α), (s.compactors ++ G)[i]? = some c →
      LevelOk s.k s.hra s.log i c := by
    intro i c hc
    rcases hcsget i c hc with hc | ⟨_, h2, rfl⟩
    · exact h.inv.lv i c hc
    · refine ⟨newCompactor_wf env _ _ h.inv.k4 h.inv.kle h.inv.keven, rfl, ?_, fun _ => rfl,
        Nat.zero_le _⟩
      show i % 256 = i
      omega
  have hor : ∀ (i : Nat) (c oc : Compactor α), (s.compactors ++ G)[i]? = some c →
      o.compactors[i]? = some oc → c.state ||| oc.state ≤ nEvents (o.log ++ s.log) i := by
    intro i c oc hc hoc
    have h1 := (hcsok i c hc).state
    have h2 := (h'.inv.lv i oc hoc).state
    have h3 := or_le_add c.state oc.state
    rw [nEvents_append]
    omega
  obtain ⟨cs', h1, h2, h3, h4⟩ := mergeLoop_ok he (cs := s.compactors ++ G) (os := o.compactors)
    (K := s.k) (K' := o.k) (hra := s.hra) (by rw [List.length_append]; omega)
    (fun i c hc => ⟨(hcsok i c hc).wf, (hcsok i c hc).hra, (hcsok i c hc).lg⟩)
    (fun i c hc => ⟨(h'.inv.lv i c hc).wf, (h'.inv.lv i c hc).hra.trans hhra.symm,
      (h'.inv.lv i c hc).lg⟩) (by
      intro i c oc hc hoc
      have a1 := hor i c oc hc hoc
      have a2 := nEvents_le (o.log ++ s.log) i
      have a3 := h.inv.spent
      have a4 := h'.inv.spent
      have a5 := h.len
      have a6 := h'.len
      rw [List.length_append] at a2
      omega)
  have hlen' : cs'.length = max s.compactors.length o.compactors.length := by
    rw [h2, List.length_append, hGl]; omega
  have hboth : ∀ (i : Nat) (c' : Compactor α), cs'[i]? = some c' → i < o.compactors.length →
      ∃ c oc, (s.compactors[i]? = some c ∨
        (s.compactors.length ≤ i ∧ c = newCompactor env i s.hra s.k)) ∧
        o.compactors[i]? = some oc ∧ Merged s.k c oc c' := by
    intro i c' hc' hi
    obtain ⟨c, oc, hc, hoc, hm⟩ := h3 i c' hc' hi
    refine ⟨c, oc, ?_, hoc, hm⟩
    rcases hcsget i c hc with h | ⟨h5, -, h6⟩
    · exact Or.inl h
    · exact Or.inr ⟨h5, h6⟩
  have hrest : ∀ (i : Nat), o.compactors.length ≤ i → cs'[i]? = s.compactors[i]? := by
    intro i hi
    rw [h4 i hi]
    rcases Nat.lt_or_ge i s.compactors.length with h5 | h5
    · rw [List.getElem?_append_left h5]
    · rw [List.getElem?_eq_none h5, List.getElem?_eq_none]
      rw [List.length_append]; omega
  have hok : ∀ (i : Nat) (c' : Compactor α), cs'[i]? = some c' →
      LevelOk s.k s.hra (o.log ++ s.log) i c' := by
    intro i c' hc'
    rcases Nat.lt_or_ge i o.compactors.length with hi | hi
    · obtain ⟨c, oc, hc, hoc, hm⟩ := h3 i c' hc' hi
      have hcok := hcsok i c hc
      exact ⟨hm.wf, hm.hra.trans hcok.hra, hm.lgWeight.trans hcok.lg, fun _ => hm.sorted,
        by rw [hm.state]; exact hor i c oc hc hoc⟩
    · rw [hrest i hi] at hc'
      exact (h.inv.lv i c' hc').mono (by rw [nEvents_append]; omega)
  have hperm : List.Forall₂ List.Perm (cs'.map act) (zipLv (levels s) (levels o)) := by
    rw [List.forall₂_iff_get]
    have hl : (cs'.map act).length = (zipLv (levels s) (levels o)).length := by
      rw [zipLv_length, List.length_map, hlen']; simp [levels]
    refine ⟨hl, ?_⟩
    intro i hi1 hi2
    simp only [List.get_eq_getElem]
    have hi : i < cs'.length := by simpa using hi1
    have hz := zipLv_get (levels s) (levels o) i
    rw [List.getElem?_eq_getElem hi2, if_pos (by
      rw [zipLv_length] at hi2; omega)] at hz
    simp only [Option.some.injEq] at hz
    rw [hz, List.getElem_map]
    have hg := List.getElem?_eq_getElem hi
    rcases Nat.lt_or_ge i o.compactors.length with hio | hio
    · obtain ⟨c, oc, hc, hoc, hm⟩ := hboth i _ hg hio
      rw [hm.act]
      have e1 : (levels s).getD i [] = act c := by
        unfold levels
        rw [List.getD_eq_getElem?_getD, List.getElem?_map]
        rcases hc with hc | ⟨hc, rfl⟩
        · rw [hc]; rfl
        · rw [List.getElem?_eq_none hc, new_act]; rfl
      have e2 : (levels o).getD i [] = act oc := by
        unfold levels
        rw [List.getD_eq_getElem?_getD, List.getElem?_map, hoc]; rfl
      rw [e1, e2]
      exact srt_perm _
    · have hc := hrest i hio
      rw [hg] at hc
      have e1 : (levels s).getD i [] = act cs'[i] := by
        unfold levels
        rw [List.getD_eq_getElem?_getD, List.getElem?_map, ← hc]; rfl
      have e2 : (levels o).getD i [] = [] := by
        unfold levels
        rw [List.getD_eq_getElem?_getD, List.getElem?_map, List.getElem?_eq_none hio]; rfl
      rw [e1, e2, List.append_nil]
  have hlne : levels s ≠ [] := by
    unfold levels
    intro hc
    exact h.inv.ne (List.map_eq_nil_iff.1 hc)
  have hsum : sumCount cs' = sumCount s.compactors + sumCount o.compactors := by
    rw [sumCount_flatten (mem_of_get fun i c hc => (hok i c hc).wf), forall₂_flatten hperm,
      zipLv_flatten, sumCount_flatten (mem_of_get fun i c hc => (h.inv.lv i c hc).wf),
      sumCount_flatten (mem_of_get fun i c hc => (h'.inv.lv i c hc).wf)]
    rfl
  refine ⟨cs', ⟨hlen', hboth, hrest⟩, ?_, ?_⟩
  · unfold mergeItems
    simp only
    rw [hG]
    simp only
    rw [h1, Outcome.ok_bind]
  · have hi := h.inv
    refine ⟨⟨hi.k4, hi.kle, hi.keven, ?_, hok, computeRetained_eq cs', computeMaxNom_eq cs', ?_, ?_,
      ?_, ?_⟩, h.kK, ?_, ?_⟩
    · have := List.length_pos_of_ne_nil hi.ne
      exact List.ne_nil_of_length_pos (by simp only; omega)
    · have a1 : Kll.rk (fun _ => true) (levels s) = s.n := hi.wt
      have a2 : Kll.rk (fun _ => true) (levels o) = o.n := h'.inv.wt
      show Kll.rk (fun _ => true) (cs'.map act) = s.n + o.n
      rw [rk_perm hperm, zipLv_rk, a1, a2]
    · have a1 := hi.spent
      have a2 := h'.inv.spent
      simp only [List.length_append]
      omega
    · intro _ x hx
      obtain ⟨i, hx⟩ := List.mem_iff_getElem?.1 hx
      simp only at hx
      rcases Nat.lt_or_ge i o.compactors.length with hio | hio
      · obtain ⟨c, oc, -, hoc, hm⟩ := hboth i x hx hio
        have a1 := h'.inv.full (by rw [h'.len]; exact hTl) oc (List.mem_of_getElem? hoc)
        have a2 := (h'.inv.lv i oc hoc).wf.act_length
        have a3 := hm.wf.act_length
        rw [hm.act, List.length_insertionSort, List.length_append] at a3
        omega
      · rw [hrest i hio] at hx
        rcases Nat.eq_zero_or_pos s.n with h0 | h0
        · have a1 := hi.empty h0
          have a2 := (List.getElem?_eq_some_iff.1 hx).1
          have a3 := List.length_pos_of_ne_nil h'.inv.ne
          omega
        · exact hi.full h0 x (List.mem_of_getElem? hx)
    · intro h0
      simp only at h0
      have := h'.len
      omega
    · have hlk' := h'.lk
      rw [← hhra] at hlk'
      exact (h.lk.merge hlk' hlne).perm hperm
    · simp only [List.length_append]
      rw [h.len, h'.len]

theorem merge_core {env : Env α} (he : EnvOk env) {K : Nat} {s o : Sketch α} {S T : List α}
    (h : Core K s S) (h' : Core K o T) (hT : T ≠ []) (hhra : s.hra = o.hra)
    (hn : S.length + T.length < 2 ^ 47) :
    Rand.All (fun s' => Core K s' (S ++ T) ∧ s'.k = s.k ∧ s'.hra = s.hra ∧ s'.view = none ∧
      s'.minItem = mergeMin s.minItem o.minItem ∧ s'.maxItem = mergeMax s.maxItem o.maxItem ∧
      s'.numRetained < s'.maxNomSize) (merge env s o) := by
  obtain ⟨cs', -, h1, h2⟩ := mergeItems_ok he h h' hT hhra hn
  have ho : o.n ≠ 0 := by
    have := List.length_pos_of_ne_nil hT
    have := h'.len
    omega
  unfold merge
  rw [if_neg ho, if_neg (by simp [hhra]), h1, Rand.ofOutcome_ok, Rand.ret_bind]
  unfold compressIfFull
  split
  · refine (compress_all he (Core.closed env K (S ++ T)) (fun s hs => hs.noview none) h2.inv ?_
      h2).bind ?_
    · refine lt_of_eq_of_lt h2.len ?_
      rw [List.length_append]
      omega
    · rintro s' ⟨i1, i2, i3, i4, i5, i6, i7, i8, i9⟩
      have hlt : s'.numRetained < s'.maxNomSize := by
        rw [i1.ret, i1.nom]
        exact_mod_cast sum_lt_cap i1.ne i9
      unfold finishMerge
      rw [if_neg (by omega)]
      exact ⟨i2.noview none, i4, i5, rfl, i6, i7, hlt⟩
  · rename_i hlt
    rw [Rand.ret_bind]
    unfold finishMerge
    rw [if_neg hlt]
    exact ⟨h2.noview none, rfl, rfl, rfl, rfl, rfl, by simp only at hlt ⊢; omega⟩

end Verif.Req
