import Verif.ReqSketch

/-!
# What the levels of a REQ sketch say about its stream
-/

namespace Verif.Req

open Verif Verif.View

variable {α : Type} [LinearOrder α]

/-- The items that left a level in a compaction. -/
def Event.items (e : Event α) : List α :=
  if e.before.hra then (srt (act e.before)).take (e.before.count - e.after.count)
  else (srt (act e.before)).drop e.after.count

/-- What the compaction adds to the weight of the items with property `p`. -/
def Event.err (p : α → Bool) (e : Event α) : Int :=
  2 ^ e.level * (2 * ((half e.after.coin e.items).countP p : Int) - (e.items.countP p : Int))

/-- Properties that hold on one side: of the large items (HRA) or of the small ones (LRA). -/
def Sided (hra : Bool) (p : α → Bool) : Prop :=
  if hra then ∀ a b, a ≤ b → p a = true → p b = true else ∀ a b, a ≤ b → p b = true → p a = true

/-- No item of `S` is beyond `m` on the accurate side. -/
def Best (hra : Bool) (m : α) (S : List α) : Prop := ∀ x ∈ S, if hra then x ≤ m else m ≤ x

/-- The levels `Ls`, after the compactions `log`, of a sketch for the stream `S`. -/
structure Lk (K : Nat) (hra : Bool) (Ls : List (List α)) (log : List (Event α)) (S : List α) : Prop where
  dec : ∀ p, (Kll.rk p Ls : Int) = S.countP p + (log.map (Event.err p)).sum
  mem : ∀ l ∈ Ls, ∀ x ∈ l, x ∈ S
  ev : ∀ e ∈ log, e.items.length % 2 = 0
  top : ∀ p, Sided hra p → S.countP p ≤ 3 * K →
    (∀ e ∈ log, e.items.countP p = 0) ∧ ∀ l ∈ Ls.tail, l.countP p = 0
  peak : ∀ m ∈ S, Best hra m S → ∃ l ∈ Ls, m ∈ l

theorem err_zero {p : α → Bool} {e : Event α} (h : e.items.countP p = 0) : e.err p = 0 := by
  unfold Event.err
  have : (half e.after.coin e.items).countP p = 0 := by
    have := (half_sublist e.after.coin e.items).countP_le (p := p)
    omega
  rw [h, this]
  simp

/-- On the accurate side the weight is exact. -/
theorem Lk.exact {K : Nat} {hra : Bool} {Ls : List (List α)} {log : List (Event α)} {S : List α}
    (h : Lk K hra Ls log S) {p : α → Bool} (hp : Sided hra p) (hk : S.countP p ≤ 3 * K) :
    Kll.rk p Ls = S.countP p := by
  have h1 := h.dec p
  have h2 := (h.top p hp hk).1
  have h3 : (log.map (Event.err p)).sum = 0 := by
    apply List.sum_eq_zero
    intro x hx
    obtain ⟨e, he, rfl⟩ := List.mem_map.1 hx
    exact err_zero (h2 e he)
  rw [h3] at h1
  omega

/-- The error of one compaction. -/
theorem err_le {p : α → Bool} (hp : ∀ a b, a ≤ b → p b = true → p a = true) {e : Event α}
    (he : e.items.length % 2 = 0) : |e.err p| ≤ 2 ^ e.level := by
  have hs : e.items.Pairwise (· ≤ ·) := by
    unfold Event.items
    split
    · exact (srt_sorted _).sublist (List.take_sublist _ _)
    · exact (srt_sorted _).sublist (List.drop_sublist _ _)
  have h1 := Kll.halves_close (lt := fun a b => decide (a < b)) (p := p)
    (fun a b hab hb => hp a b (by simpa using hab) hb) (X := e.items)
    (hs.imp fun {a b} hab => by simpa using hab)
  have h2 := Kll.countP_evens_odds p he
  unfold Event.err
  rw [abs_mul, abs_of_nonneg (by positivity : (0 : Int) ≤ 2 ^ e.level)]
  have h3 : |2 * ((half e.after.coin e.items).countP p : Int) - (e.items.countP p : Int)| ≤ 1 := by
    unfold half
    rw [abs_le]
    split <;> constructor <;> omega
  calc (2 : Int) ^ e.level * _ ≤ 2 ^ e.level * 1 := mul_le_mul_of_nonneg_left h3 (by positivity)
    _ = _ := by ring

theorem rk_perm {Ls Ls' : List (List α)} (h : List.Forall₂ List.Perm Ls' Ls) (p : α → Bool) :
    Kll.rk p Ls' = Kll.rk p Ls := by
  induction h with
  | nil => rfl
  | cons h _ ih => simp only [Kll.rk, ih, h.countP_eq]

theorem Lk.perm {K : Nat} {hra : Bool} {Ls Ls' : List (List α)} {log : List (Event α)} {S : List α}
    (h : Lk K hra Ls log S) (hp : List.Forall₂ List.Perm Ls' Ls) : Lk K hra Ls' log S := by
  refine ⟨fun p => by rw [rk_perm hp]; exact h.dec p, ?_, h.ev, ?_, ?_⟩
  · have : ∀ {A B : List (List α)}, List.Forall₂ List.Perm A B → (∀ l ∈ B, ∀ x ∈ l, x ∈ S) →
        ∀ l ∈ A, ∀ x ∈ l, x ∈ S := by
      intro A B hAB
      induction hAB with
      | nil => intro _ l hl; simp at hl
      | cons h _ ih =>
        intro hB l hl x hx
        rcases List.mem_cons.1 hl with rfl | hl
        · exact hB _ List.mem_cons_self x (h.mem_iff.1 hx)
        · exact ih (fun l hl => hB l (List.mem_cons_of_mem _ hl)) l hl x hx
    exact this hp h.mem
  · intro p hs hk
    refine ⟨(h.top p hs hk).1, ?_⟩
    have h2 := (h.top p hs hk).2
    cases hp with
    | nil => intro l hl; simp at hl
    | cons _ ht =>
      simp only [List.tail_cons] at h2 ⊢
      have : ∀ {A B : List (List α)}, List.Forall₂ List.Perm A B → (∀ l ∈ B, l.countP p = 0) →
          ∀ l ∈ A, l.countP p = 0 := by
        intro A B hAB
        induction hAB with
        | nil => intro _ l hl; simp at hl
        | cons h _ ih =>
          intro hB l hl
          rcases List.mem_cons.1 hl with rfl | hl
          · rw [h.countP_eq]; exact hB _ List.mem_cons_self
          · exact ih (fun l hl => hB l (List.mem_cons_of_mem _ hl)) l hl
      exact this ht h2
  · intro m hm hb
    obtain ⟨l, hl, hml⟩ := h.peak m hm hb
    clear h hb
    induction hp with
    | nil => simp at hl
    | cons h _ ih =>
      rcases List.mem_cons.1 hl with rfl | hl
      · exact ⟨_, List.mem_cons_self, h.mem_iff.2 hml⟩
      · obtain ⟨l', hl', h2⟩ := ih hl
        exact ⟨l', List.mem_cons_of_mem _ hl', h2⟩

theorem event_items {env : Env α} {s s' : Sketch α} {A C : List (Compactor α)}
    {c nx c' nx' : Compactor α} {X Kp : List α} {coin : Bool} (hs : SInv s)
    (hb : Before env s A c nx C X Kp) (h : LStep env s s' A c nx C X Kp coin c' nx') :
    Event.items ⟨A.length, c, c'⟩ = X := by
  have hcin : ∃ B, s.compactors = A ++ c :: B := by
    rcases hb.cs with h | ⟨h, -, -⟩
    · exact ⟨_, h⟩
    · exact ⟨_, h⟩
  obtain ⟨B, hB⟩ := hcin
  have hcok : LevelOk s.k s.hra s.log A.length c := hs.lv _ _ (by rw [hB]; simp)
  have hc' : c'.count = Kp.length := by rw [← h.comp.wf.act_length, h.comp.act]
  have hc : c.count = X.length + Kp.length := by
    have := congrArg List.length hb.split
    rw [List.length_insertionSort, hcok.wf.act_length] at this
    split at this <;> rw [List.length_append] at this <;> omega
  unfold Event.items
  simp only
  rw [hb.split, hcok.hra, hc', hc]
  cases s.hra with
  | true =>
    simp only [if_true]
    rw [show X.length + Kp.length - Kp.length = X.length by omega, List.take_left']
    rfl
  | false =>
    simp only [Bool.false_eq_true, if_false]
    rw [List.drop_left']
    rfl

theorem Lk.step {env : Env α} {K : Nat} {s s' : Sketch α} {A C : List (Compactor α)}
    {c nx c' nx' : Compactor α} {X Kp : List α} {coin : Bool} {S : List α} (hs : SInv s)
    (hK : K ≤ s.k) (hb : Before env s A c nx C X Kp) (h : LStep env s s' A c nx C X Kp coin c' nx')
    (hl : Lk K s.hra (levels s) s.log S) : Lk K s.hra (levels s') s'.log S := by
  have hit := event_items hs hb h
  have hlv' : levels s' = A.map act ++ Kp :: srt (act nx ++ half coin X) :: C.map act := by
    unfold levels
    rw [h.cs, List.map_append, List.map_cons, List.map_cons, h.comp.act, h.comp.actn]
  have hcmem : act c ∈ levels s := by
    unfold levels
    rcases hb.cs with h1 | ⟨h1, -, -⟩ <;> rw [h1] <;> simp
  have hnmem : ∀ x ∈ act nx, act nx ∈ levels s := by
    intro x hx
    unfold levels
    rcases hb.cs with h1 | ⟨h1, -, h2⟩
    · rw [h1]; simp
    · rw [h2, new_act] at hx; simp at hx
  have hAmem : ∀ l ∈ A.map act, l ∈ levels s := by
    intro l hl
    unfold levels
    rcases hb.cs with h1 | ⟨h1, -, -⟩ <;> rw [h1, List.map_append] <;>
      exact List.mem_append_left _ hl
  have hCmem : ∀ l ∈ C.map act, l ∈ levels s := by
    intro l hl
    unfold levels
    rcases hb.cs with h1 | ⟨h1, h2, -⟩
    · rw [h1, List.map_append]
      exact List.mem_append_right _ (List.mem_cons_of_mem _ (List.mem_cons_of_mem _ hl))
    · rw [h2] at hl; simp at hl
  refine ⟨?_, ?_, ?_, ?_, ?_⟩
  rotate_left 4
  · intro m hm hbest
    rw [hlv']
    have hkeep : ∀ x, x ∈ act c → x = m → x ∈ Kp := by
      intro x hx hxm
      subst hxm
      rcases hb.mem.1 hx with hX | hK'
      · obtain ⟨y, hy⟩ : ∃ y, y ∈ Kp := by
          have := hb.kept_ge
          have := hs.k4
          exact List.exists_mem_of_length_pos (by omega)
        have hyS := hl.mem _ hcmem y (hb.mem.2 (Or.inr hy))
        have hbb := hbest y hyS
        have hsorted := srt_sorted (act c)
        rw [hb.split] at hsorted
        have hxy : x = y := by
          cases hh : s.hra with
          | true =>
            rw [hh] at hbb hsorted
            simp only [if_true] at hbb hsorted
            exact le_antisymm ((List.pairwise_append.1 hsorted).2.2 x hX y hy) hbb
          | false =>
            rw [hh] at hbb hsorted
            simp only [Bool.false_eq_true, if_false] at hbb hsorted
            exact le_antisymm hbb ((List.pairwise_append.1 hsorted).2.2 y hy x hX)
        rw [hxy]; exact hy
      · exact hK'
    obtain ⟨l, hl', hml⟩ := hl.peak m hm hbest
    have hcase : l ∈ A.map act ∨ l = act c ∨ (l = act nx) ∨ l ∈ C.map act := by
      unfold levels at hl'
      rcases hb.cs with h1 | ⟨h1, h2, -⟩
      · rw [h1] at hl'
        simpa [or_assoc] using hl'
      · rw [h1] at hl'
        have : l ∈ A.map act ∨ l = act c := by simpa using hl'
        rcases this with h | h
        · exact Or.inl h
        · exact Or.inr (Or.inl h)
    rcases hcase with h1 | rfl | rfl | h1
    · exact ⟨l, List.mem_append_left _ h1, hml⟩
    · exact ⟨Kp, by simp, hkeep m hml rfl⟩
    · exact ⟨srt (act nx ++ half coin X), by simp, (srt_perm _).mem_iff.2
        (List.mem_append_left _ hml)⟩
    · exact ⟨l, List.mem_append_right _ (List.mem_cons_of_mem _ (List.mem_cons_of_mem _ h1)), hml⟩
  · intro p
    have h1 := hl.dec p
    have h2 := LStep.rk hb h p
    rw [h.log, List.map_cons, List.sum_cons]
    have h3 : (Event.err p ⟨A.length, c, c'⟩ : Int) =
        2 ^ A.length * (2 * ((half coin X).countP p : Int) - (X.countP p : Int)) := by
      unfold Event.err
      rw [hit]
      simp only
      rw [h.comp.coin]
    rw [h3]
    have h4 : (Kll.rk p (levels s') : Int) + 2 ^ A.length * (X.countP p : Int) =
      Kll.rk p (levels s) + 2 ^ A.length * (2 * ((half coin X).countP p : Int)) := by
      exact_mod_cast h2
    rw [mul_sub]
    linarith
  · rw [hlv']
    intro l hlm x hx
    rcases List.mem_append.1 hlm with hlm | hlm
    · exact hl.mem l (hAmem l hlm) x hx
    · rcases List.mem_cons.1 hlm with rfl | hlm
      · exact hl.mem _ hcmem x (hb.mem.2 (Or.inr hx))
      · rcases List.mem_cons.1 hlm with rfl | hlm
        · rw [(srt_perm _).mem_iff, List.mem_append] at hx
          rcases hx with hx | hx
          · exact hl.mem _ (hnmem x hx) x hx
          · exact hl.mem _ hcmem x (hb.mem.2 (Or.inl ((half_sublist coin X).mem hx)))
        · exact hl.mem l (hCmem l hlm) x hx
  · rw [h.log]
    intro e he
    rcases List.mem_cons.1 he with rfl | he
    · rw [hit]; exact hb.even
    · exact hl.ev e he
  · intro p hp hk
    obtain ⟨t1, t2⟩ := hl.top p hp hk
    have hXp : X.countP p = 0 := by
      cases hA : A with
      | nil =>
        -- level 0: the items with the property are among those kept
        have hrk := hl.exact hp hk
        have hcl : (act c).countP p ≤ 3 * K := by
          have : Kll.rk p (levels s) = (act c).countP p + 2 * Kll.rk p (levels s).tail := by
            unfold levels
            rcases hb.cs with h1 | ⟨h1, -, -⟩ <;> rw [h1, hA] <;> rfl
          omega
        by_contra hne
        have hpos : 0 < X.countP p := by omega
        obtain ⟨a, haX, hap⟩ := List.countP_pos_iff.1 hpos
        have hsorted := srt_sorted (act c)
        rw [hb.split] at hsorted
        have hall : Kp.countP p = Kp.length := by
          rw [List.countP_eq_length]
          intro b hb'
          unfold Sided at hp
          cases hh : s.hra with
          | true =>
            rw [hh] at hp hsorted
            simp only [if_true] at hp hsorted
            exact hp a b ((List.pairwise_append.1 hsorted).2.2 a haX b hb') hap
          | false =>
            rw [hh] at hp hsorted
            simp only [Bool.false_eq_true, if_false] at hp hsorted
            exact hp b a ((List.pairwise_append.1 hsorted).2.2 b hb' a haX) hap
        have h1 := hb.countP p
        have h2 := hb.kept_ge
        omega
      | cons a A' =>
        have : act c ∈ (levels s).tail := by
          unfold levels
          rcases hb.cs with h1 | ⟨h1, -, -⟩ <;> rw [h1, hA] <;> simp
        have h0 := t2 _ this
        have h1 := hb.countP p
        omega
    have hhp : (half coin X).countP p = 0 := by
      have := (half_sublist coin X).countP_le (p := p)
      omega
    refine ⟨?_, ?_⟩
    · rw [h.log]
      intro e he
      rcases List.mem_cons.1 he with rfl | he
      · rw [hit]; exact hXp
      · exact t1 e he
    · rw [hlv']
      have hnx : (srt (act nx ++ half coin X)).countP p = 0 := by
        rw [(srt_perm _).countP_eq, List.countP_append, hhp, Nat.add_zero]
        rcases hb.cs with h1 | ⟨-, -, h1⟩
        · apply t2
          unfold levels
          rw [h1]
          cases A <;> simp
        · rw [h1, new_act]; rfl
      have hCt : ∀ l ∈ C.map act, l.countP p = 0 := by
        intro l hlm
        rcases hb.cs with h1 | ⟨-, h1, -⟩
        · apply t2
          unfold levels
          rw [h1]
          cases A with
          | nil => simpa using Or.inr (by simpa using hlm)
          | cons a A' =>
            simp only [List.cons_append, List.map_cons, List.tail_cons, List.map_append]
            exact List.mem_append_right _ (List.mem_cons_of_mem _ (List.mem_cons_of_mem _ hlm))
        · rw [h1] at hlm; simp at hlm
      cases hA : A with
      | nil =>
        intro l hlm
        simp only [List.map_nil, List.nil_append, List.tail_cons] at hlm
        rcases List.mem_cons.1 hlm with rfl | hlm
        · exact hnx
        · exact hCt l hlm
      | cons a A' =>
        intro l hlm
        simp only [List.map_cons, List.cons_append, List.tail_cons] at hlm
        rcases List.mem_append.1 hlm with hlm | hlm
        · apply t2
          unfold levels
          rcases hb.cs with h1 | ⟨h1, -, -⟩ <;> rw [h1, hA] <;>
            simp only [List.cons_append, List.map_cons, List.tail_cons, List.map_append] <;>
            exact List.mem_append_left _ hlm
        · rcases List.mem_cons.1 hlm with rfl | hlm
          · have := hb.countP p
            have h0 : (act c).countP p = 0 := by
              apply t2
              unfold levels
              rcases hb.cs with h1 | ⟨h1, -, -⟩ <;> rw [h1, hA] <;> simp
            omega
          · rcases List.mem_cons.1 hlm with rfl | hlm
            · exact hnx
            · exact hCt l hlm

end Verif.Req
