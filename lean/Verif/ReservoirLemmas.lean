import Verif.ReservoirModel
import Mathlib.Data.List.Perm.Subperm
import Mathlib.Tactic.Positivity
import Mathlib.Algebra.BigOperators.Intervals

/-! # Lemmas on the reservoir sketch -/

namespace Verif.Reservoir

open Rand

variable {T : Type}

/-- indicator -/
def ind (b : Bool) : ℚ := if b then 1 else 0

/-- What every sketch made by the API satisfies. -/
structure Inv (E : Env T) (s : Sk T) : Prop where
  two : 2 ≤ s.k
  len : s.data.length = min s.n s.k
  room : s.data.length ≤ s.cap
  pos : 0 < s.cap
  max : s.n ≤ maxItemsSeen
  live : ∀ x ∈ s.data, E.isNil x = false

theorem adjustedSize_pos {a b : Nat} (ha : 0 < a) (hb : 0 < b) : 0 < adjustedSize a b := by
  unfold adjustedSize; split <;> omega

theorem initialCap_pos {k rf : Nat} (hk : 2 ≤ k) : 0 < initialCap k rf :=
  adjustedSize_pos (by omega) (Nat.two_pow_pos _)

theorem new_ok {k rf : Nat} (hk : 2 ≤ k) :
    new k rf = .ok ({ k := k, n := 0, rf := rf, data := [], cap := initialCap k rf } : Sk T) := by
  unfold new
  rw [if_neg (by omega)]

theorem Inv.new {E : Env T} {k : Nat} (rf : Nat) (hk : 2 ≤ k) :
    Inv E { k := k, n := 0, rf := rf, data := [], cap := initialCap k rf } :=
  ⟨hk, by simp, by simp, initialCap_pos hk, Nat.zero_le _, by simp⟩

theorem grow_room {E : Env T} (hE : E.Ok) {s : Sk T} (hs : Inv E s) (hn : s.n < s.k)
    (hc : s.n ≥ s.cap) : s.n < (growReservoir E s).cap := by
  have hlen : s.data.length = s.n := by rw [hs.len]; omega
  have hcap : s.cap = s.n := by have := hs.room; omega
  have ha : 0 < adjustedSize s.k (s.cap * 2 ^ s.rf) :=
    adjustedSize_pos (by omega) (Nat.mul_pos hs.pos (Nat.two_pow_pos _))
  unfold growReservoir growSlice
  dsimp only
  rw [if_pos (by omega)]
  have := hE (s.data.length + adjustedSize s.k (s.cap * 2 ^ s.rf))
  omega

/-- What `Update` does to a live item before the reservoir is full. -/
theorem update_fill {E : Env T} (hE : E.Ok) {s : Sk T} (hs : Inv E s) (hn : s.n < s.k)
    (hm : s.n < maxItemsSeen) {x : T} (hx : E.isNil x = false) :
    ∃ c, s.n < c ∧ update E s x = .ret { s with data := s.data ++ [x], n := s.n + 1, cap := c } := by
  unfold update
  rw [if_neg (by omega), if_neg (by simp [hx]), if_pos hn]
  by_cases hc : s.n ≥ s.cap
  · have hg := grow_room hE hs hn hc
    refine ⟨(growReservoir E s).cap, hg, ?_⟩
    simp only [if_pos hc]
    rw [if_neg (by omega)]
    rfl
  · refine ⟨s.cap, by omega, ?_⟩
    simp only [if_neg hc]

/-- What `Update` does to a live item when the reservoir is full. -/
theorem update_full {E : Env T} {s : Sk T} (hs : Inv E s) (hn : ¬ s.n < s.k)
    (hm : s.n < maxItemsSeen) {x : T} (hx : E.isNil x = false) :
    update E s x = .intn (s.n + 1) fun j =>
      if j < s.k then .ret { s with data := s.data.set j x, n := s.n + 1 }
      else .ret { s with n := s.n + 1 } := by
  have hlen : s.data.length = s.k := by rw [hs.len]; omega
  unfold update
  rw [if_neg (by omega), if_neg (by simp [hx]), if_neg hn]
  unfold Rand.draw
  rw [if_neg (by omega), intn_bind]
  congr 1
  funext j
  rw [ret_bind, hlen]
  by_cases hj : j < s.k
  · rw [if_pos hj, if_pos hj, if_pos hj]
  · rw [if_neg hj, if_neg hj]

theorem update_nil {E : Env T} {s : Sk T} (hm : s.n < maxItemsSeen) {x : T}
    (hx : E.isNil x = true) : update E s x = .ret s := by
  unfold update
  rw [if_neg (by omega), if_pos hx]

theorem mem_set_of {α : Type} {l : List α} {j : Nat} {x a : α} (h : a ∈ l.set j x) :
    a ∈ l ∨ a = x := List.mem_or_eq_of_mem_set h

theorem set_subperm {α : Type} (l : List α) (j : Nat) (x : α) :
    List.Subperm (l.set j x) (x :: l) := by
  induction l generalizing j with
  | nil => simp
  | cons y l ih =>
    cases j with
    | zero =>
      rw [List.set_cons_zero]
      exact (List.subperm_cons x).2 (List.sublist_cons_self y l).subperm
    | succ j =>
      rw [List.set_cons_succ]
      exact ((List.subperm_cons y).2 (ih j)).trans (List.Perm.swap x y l).subperm

/-- Every run of `Update` on a live item. -/
theorem update_all {E : Env T} (hE : E.Ok) {s : Sk T} (hs : Inv E s) (hm : s.n < maxItemsSeen)
    {x : T} (hx : E.isNil x = false) :
    All (fun s' => Inv E s' ∧ s'.k = s.k ∧ s'.n = s.n + 1 ∧ s'.rf = s.rf ∧
      (s.n < s.k → s'.data = s.data ++ [x]) ∧ List.Subperm s'.data (x :: s.data)) (update E s x) := by
  by_cases hn : s.n < s.k
  · obtain ⟨c, hc, he⟩ := update_fill hE hs hn hm hx
    rw [he]
    have hlen : s.data.length = s.n := by rw [hs.len]; omega
    refine ⟨⟨hs.two, ?_, ?_, ?_, ?_, ?_⟩, rfl, rfl, rfl, fun _ => rfl, ?_⟩
    · simp [hlen]; omega
    · simp [hlen]; omega
    · dsimp only; omega
    · dsimp only; omega
    · intro y hy
      rcases List.mem_append.1 hy with h | h
      · exact hs.live y h
      · rw [List.mem_singleton.1 h]; exact hx
    · exact (List.perm_append_singleton x s.data).subperm
  · rw [update_full hs hn hm hx]
    refine ⟨by omega, fun j hj => ?_⟩
    have hlen : s.data.length = s.k := by rw [hs.len]; omega
    by_cases hjk : j < s.k
    · simp only [if_pos hjk]
      refine ⟨⟨hs.two, ?_, ?_, hs.pos, ?_, ?_⟩, rfl, rfl, rfl, fun h => absurd h hn, set_subperm _ _ _⟩
      · simp [hlen]; omega
      · simp; exact hs.room
      · dsimp only; omega
      · intro y hy
        rcases mem_set_of hy with h | h
        · exact hs.live y h
        · rw [h]; exact hx
    · simp only [if_neg hjk]
      refine ⟨⟨hs.two, ?_, hs.room, hs.pos, ?_, hs.live⟩, rfl, rfl, rfl, fun h => absurd h hn,
        (List.sublist_cons_self _ _).subperm⟩
      · simp [hlen]; omega
      · dsimp only; omega

/-! ## Estimates -/

/-- `Estimate` of `EstimateSubsetSum`. -/
def est (p : T → Bool) (s : Sk T) : ℚ := (estimateSubsetSum s p).1

theorem est_eq {E : Env T} {s : Sk T} (hs : Inv E s) (p : T → Bool) :
    est p s = s.n * (s.data.countP p / s.data.length) := by
  unfold est estimateSubsetSum
  by_cases h0 : s.n = 0
  · rw [if_pos h0, h0]; simp
  · rw [if_neg h0]
    dsimp only
    by_cases hk : s.n ≤ s.k
    · rw [if_pos hk]
      have hlen : s.data.length = s.n := by rw [hs.len]; omega
      have : (s.n : ℚ) ≠ 0 := by exact_mod_cast h0
      rw [hlen]
      field_simp
    · rw [if_neg hk]; rfl

theorem sum_set (d : List T) (p : T → Bool) (x : T) :
    ∑ j ∈ Finset.range d.length, ((d.set j x).countP p : ℚ)
      = d.length * d.countP p + d.length * ind (p x) - d.countP p := by
  induction d with
  | nil => simp
  | cons y d ih =>
    rw [List.length_cons, Finset.sum_range_succ']
    have h1 : ∀ j, (((y :: d).set (j + 1) x).countP p : ℚ) = ((d.set j x).countP p : ℚ) + ind (p y) := by
      intro j
      rw [List.set_cons_succ, List.countP_cons]
      unfold ind
      split <;> simp
    have h2 : (((y :: d).set 0 x).countP p : ℚ) = d.countP p + ind (p x) := by
      rw [List.set_cons_zero, List.countP_cons]
      unfold ind
      split <;> simp
    have h3 : ((y :: d).countP p : ℚ) = d.countP p + ind (p y) := by
      rw [List.countP_cons]
      unfold ind
      split <;> simp
    rw [Finset.sum_congr rfl (fun j _ => h1 j), Finset.sum_add_distrib, ih, Finset.sum_const,
      Finset.card_range, nsmul_eq_mul, h2, h3]
    push_cast
    ring

theorem sum_range_ite {n k : Nat} (hk : k ≤ n) (f g : Nat → ℚ) :
    ∑ j ∈ Finset.range n, (if j < k then f j else g j)
      = ∑ j ∈ Finset.range k, f j + ∑ j ∈ Finset.Ico k n, g j := by
  rw [← Finset.sum_range_add_sum_Ico _ hk]
  congr 1
  · exact Finset.sum_congr rfl fun j hj => if_pos (Finset.mem_range.1 hj)
  · exact Finset.sum_congr rfl fun j hj => if_neg (by have := (Finset.mem_Ico.1 hj).1; omega)

/-- On average `Update` adds one to the estimate of every subset that contains the item. -/
theorem update_E {E : Env T} (hE : E.Ok) {s : Sk T} (hs : Inv E s) (hm : s.n < maxItemsSeen)
    {x : T} (hx : E.isNil x = false) (p : T → Bool) :
    HasE (est p) (update E s x) (est p s + ind (p x)) := by
  have hall := update_all hE hs hm hx
  by_cases hn : s.n < s.k
  · obtain ⟨c, hc, he⟩ := update_fill hE hs hn hm hx
    rw [he] at hall ⊢
    have hs' := hall.1
    have hlen : s.data.length = s.n := by rw [hs.len]; omega
    show _ = _
    rw [est_eq hs, est_eq hs']
    dsimp only
    rw [List.length_append, hlen, List.countP_append]
    have h1 : (([x] : List T).countP p : ℚ) = ind (p x) := by
      unfold ind
      rw [List.countP_cons, List.countP_nil]
      split <;> simp
    push_cast
    rw [h1]
    have h2 : ((s.n : ℚ) + 1) ≠ 0 := by positivity
    have h3 : (s.n : ℚ) * (s.data.countP p / s.n) = s.data.countP p := by
      by_cases h0 : s.n = 0
      · have : s.data = [] := List.length_eq_zero_iff.1 (by omega)
        rw [this]; simp
      · have : (s.n : ℚ) ≠ 0 := by exact_mod_cast h0
        field_simp
    rw [h3]
    simp only [List.length_cons, List.length_nil]
    push_cast
    field_simp
  · have hlen : s.data.length = s.k := by rw [hs.len]; omega
    rw [update_full hs hn hm hx] at hall ⊢
    refine ⟨by omega, fun j => if j < s.k then
        (s.n + 1 : ℚ) / s.k * ((s.data.set j x).countP p : ℚ)
        else (s.n + 1 : ℚ) / s.k * (s.data.countP p : ℚ), fun j hj => ?_, ?_⟩
    · have hj' := hall.2 j hj
      by_cases hjk : j < s.k
      · simp only [if_pos hjk] at hj' ⊢
        show _ = _
        rw [est_eq hj'.1]
        dsimp only
        rw [List.length_set, hlen]
        push_cast
        ring
      · simp only [if_neg hjk] at hj' ⊢
        show _ = _
        rw [est_eq hj'.1]
        dsimp only
        rw [hlen]
        push_cast
        ring
    · have h2 := hs.two
      have hk0 : (s.k : ℚ) ≠ 0 := by exact_mod_cast (by omega : s.k ≠ 0)
      have hn0 : ((s.n : ℚ) + 1) ≠ 0 := by positivity
      rw [sum_range_ite (by omega), ← Finset.mul_sum, ← hlen, sum_set, Finset.sum_const,
        Nat.card_Ico, nsmul_eq_mul, est_eq hs, hlen]
      rw [Nat.cast_sub (by omega)]
      push_cast
      field_simp
      ring

/-! ## Streams -/

/-- The items that count. -/
def live (E : Env T) (l : List T) : List T := l.filter fun x => !E.isNil x

theorem live_cons_nil {E : Env T} {x : T} (hx : E.isNil x = true) (l : List T) :
    live E (x :: l) = live E l := by simp [live, hx]

theorem live_cons_live {E : Env T} {x : T} (hx : E.isNil x = false) (l : List T) :
    live E (x :: l) = x :: live E l := by simp [live, hx]

theorem live_of {E : Env T} {l : List T} (h : ∀ x ∈ l, E.isNil x = false) : live E l = l := by
  unfold live
  rw [List.filter_eq_self]
  intro x hx
  simp [h x hx]

/-- Every run of a sequence of updates. -/
theorem updates_all {E : Env T} (hE : E.Ok) (items : List T) {s : Sk T} (hs : Inv E s)
    (hm : s.n + items.length ≤ maxItemsSeen) :
    All (fun s' => Inv E s' ∧ s'.k = s.k ∧ s'.rf = s.rf ∧ s'.n = s.n + (live E items).length ∧
      (s.n + (live E items).length ≤ s.k → s'.data = s.data ++ live E items) ∧
      List.Subperm s'.data (s.data ++ live E items)) (updates E s items) := by
  induction items generalizing s with
  | nil =>
    exact ⟨hs, rfl, rfl, rfl, fun _ => by simp [live], by
      simp only [live, List.filter_nil, List.append_nil]; exact List.Subperm.refl _⟩
  | cons x items ih =>
    rw [List.length_cons] at hm
    unfold updates
    rw [List.foldlM_cons]
    cases hx : E.isNil x with
    | true =>
      rw [update_nil (by omega) hx, ret_bind, live_cons_nil hx]
      exact ih hs (by omega)
    | false =>
      rw [live_cons_live hx]
      refine (update_all hE hs (by omega) hx).bind fun s1 h1 => ?_
      obtain ⟨i1, k1, n1, r1, f1, p1⟩ := h1
      refine (ih i1 (by omega)).mono fun s2 h2 => ?_
      obtain ⟨i2, k2, r2, n2, f2, p2⟩ := h2
      refine ⟨i2, by omega, by omega, by rw [List.length_cons]; omega, fun hk => ?_, ?_⟩
      · rw [List.length_cons] at hk
        rw [f2 (by omega), f1 (by omega)]
        simp
      · refine p2.trans (((List.subperm_append_right _).2 p1).trans (List.Perm.subperm ?_))
        rw [List.cons_append]
        exact List.perm_middle.symm

/-- On average the estimate of a subset grows by the number of presented items in it. -/
theorem updates_E {E : Env T} (hE : E.Ok) (items : List T) {s : Sk T} (hs : Inv E s)
    (hm : s.n + items.length ≤ maxItemsSeen) (p : T → Bool) :
    HasE (est p) (updates E s items) (est p s + (live E items).countP p) := by
  induction items generalizing s with
  | nil => simp only [live, List.filter_nil, List.countP_nil, Nat.cast_zero, add_zero]; exact rfl
  | cons x items ih =>
    rw [List.length_cons] at hm
    unfold updates
    rw [List.foldlM_cons]
    cases hx : E.isNil x with
    | true =>
      rw [update_nil (by omega) hx, ret_bind, live_cons_nil hx]
      exact ih hs (by omega)
    | false =>
      rw [live_cons_live hx]
      have h1 := (update_E hE hs (by omega) hx p).affine 1 ((live E items).countP p)
      have he : 1 * (est p s + ind (p x)) + ((live E items).countP p : ℚ)
          = est p s + ((x :: live E items).countP p : Nat) := by
        rw [List.countP_cons]
        unfold ind
        split <;> push_cast <;> ring
      rw [he] at h1
      refine h1.bind ((update_all hE hs (by omega) hx).mono fun s' h => ?_)
      have := ih h.1 (by omega)
      rwa [one_mul]

end Verif.Reservoir
