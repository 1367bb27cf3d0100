import Verif.ReservoirSerdeModel
import Verif.ReservoirUnion
import Verif.ItemSerde

/-! # Reservoir sketch and union: lemmas about the images -/

namespace Verif.Reservoir

open Verif.Items Rand

variable {T : Type}

theorem byte_toLE {v : Nat} (h : v < 256) : [v] = toLE 1 v := by
  simp [toLE, Nat.mod_eq_of_lt h]

theorem head_fields : ∀ rf ≤ 3, ∀ p, p = 1 ∨ p = 2 →
    rf <<< 6 ||| p < 256 ∧ (rf <<< 6 ||| p) &&& 0x3F = p ∧ rfOf (rf <<< 6 ||| p) = rf := by
  intro rf h p hp
  have hr : rf = 0 ∨ rf = 1 ∨ rf = 2 ∨ rf = 3 := by omega
  rcases hr with rfl | rfl | rfl | rfl <;> rcases hp with rfl | rfl <;> decide

/-- the image of an empty sketch -/
def emptyImage (s : Sk T) : List Nat :=
  toLE 1 (s.rf <<< 6 ||| 1) ++ (toLE 1 2 ++ (toLE 1 11 ++ (toLE 1 4 ++ (toLE 4 s.k ++ []))))

/-- the image of a sketch with samples -/
def fullImage (sd : Serde T) (s : Sk T) : List Nat :=
  toLE 1 (s.rf <<< 6 ||| 2) ++ (toLE 1 2 ++ (toLE 1 11 ++ (toLE 1 0 ++ (toLE 4 s.k ++
    (toLE 8 s.n ++ (sd.many s.data ++ []))))))

theorem toSlice_empty (sd : Serde T) {s : Sk T} (hr : s.rf ≤ 3) (hn : s.n = 0) :
    toSlice sd s = .ok (emptyImage s) := by
  obtain ⟨h1, _, _⟩ := head_fields s.rf hr 1 (Or.inl rfl)
  unfold toSlice rfBits
  rw [if_pos hr, Outcome.ok_bind, if_pos hn, byte_toLE h1, byte_toLE (show 2 < 256 by omega),
    byte_toLE (show 11 < 256 by omega), byte_toLE (show 4 < 256 by omega),
    show List.replicate 8 0 = Buf [] 8 by simp [Buf]]
  iterate 4 rw [put_buf (by simp) (by simp), Outcome.ok_bind]
  rw [put_buf (by simp) (by simp)]
  simp [emptyImage]

theorem toSlice_full (sd : Serde T) {s : Sk T} (hr : s.rf ≤ 3) (hn : s.n ≠ 0) :
    toSlice sd s = .ok (fullImage sd s) := by
  obtain ⟨h1, _, _⟩ := head_fields s.rf hr 2 (Or.inr rfl)
  unfold toSlice rfBits
  rw [if_pos hr, Outcome.ok_bind, if_neg hn]
  dsimp only
  rw [byte_toLE h1, byte_toLE (show 2 < 256 by omega),
    byte_toLE (show 11 < 256 by omega), byte_toLE (show 0 < 256 by omega),
    show List.replicate (16 + (sd.many s.data).length) 0 = Buf [] (16 + (sd.many s.data).length) by
      simp [Buf]]
  rw [put_buf (by simp) (by simp; omega), Outcome.ok_bind]
  rw [put_buf (by simp) (by simp; omega), Outcome.ok_bind]
  rw [put_buf (by simp) (by simp; omega), Outcome.ok_bind]
  rw [put_buf (by simp) (by simp; omega), Outcome.ok_bind]
  rw [put_buf (by simp) (by simp; omega), Outcome.ok_bind]
  rw [put_buf (by simp) (by simp; omega), Outcome.ok_bind]
  rw [copy_buf (by simp) (by simp; omega)]
  simp only [toLE_length, List.nil_append, List.append_assoc]
  rw [show 16 + (sd.many s.data).length - 1 - 1 - 1 - 1 - 4 - 8 - (sd.many s.data).length = 0 by omega,
    buf_zero]
  simp [fullImage]

theorem fromSlice_empty (sd : Serde T) {s : Sk T} (h2 : 2 ≤ s.k) (hk : s.k < 2 ^ 32) (hr : s.rf ≤ 3) :
    fromSlice sd (emptyImage s) = .ok ⟨s.k, 0, s.rf, [], initialCap s.k s.rf⟩ := by
  obtain ⟨h1, e1, e2⟩ := head_fields s.rf hr 1 (Or.inl rfl)
  have g0 : getLE (emptyImage s) 0 1 = .ok (s.rf <<< 6 ||| 1) := by unfold emptyImage; readLE
  have g1 : getLE (emptyImage s) 1 1 = .ok 2 := by unfold emptyImage; readLE
  have g2 : getLE (emptyImage s) 2 1 = .ok 11 := by unfold emptyImage; readLE
  have g3 : getLE (emptyImage s) 3 1 = .ok 4 := by unfold emptyImage; readLE
  have g4 : getLE (emptyImage s) 4 4 = .ok s.k := by unfold emptyImage; readLE
  have hl : (emptyImage s).length = 8 := by simp [emptyImage]
  unfold fromSlice readSize
  simp only [hl, g0, g1, g2, g3, g4, Outcome.ok_bind, e1, e2]
  simp [new_ok h2, Sk.raw]

theorem toS_small {n : Nat} (h : n < 2 ^ 63) : toS 8 n = n := by
  unfold toS; rw [if_pos (by omega)]

theorem fromSlice_full {E : Env T} {sd : Serde T} {P : T → Prop} (hl : Lawful sd P) {s : Sk T}
    (hs : Inv E s) (hk : s.k < 2 ^ 32) (hr : s.rf ≤ 3) (hn : s.n ≠ 0) (hP : ∀ x ∈ s.data, P x) :
    fromSlice sd (fullImage sd s) = .ok ⟨s.k, s.n, s.rf, s.data, s.data.length⟩ := by
  obtain ⟨h1, e1, e2⟩ := head_fields s.rf hr 2 (Or.inr rfl)
  have hmax : s.n ≤ 281474976710655 := hs.max
  have h2 := hs.two
  have hlen := hs.len
  have g0 : getLE (fullImage sd s) 0 1 = .ok (s.rf <<< 6 ||| 2) := by unfold fullImage; readLE
  have g1 : getLE (fullImage sd s) 1 1 = .ok 2 := by unfold fullImage; readLE
  have g2 : getLE (fullImage sd s) 2 1 = .ok 11 := by unfold fullImage; readLE
  have g3 : getLE (fullImage sd s) 3 1 = .ok 0 := by unfold fullImage; readLE
  have g4 : getLE (fullImage sd s) 4 4 = .ok s.k := by unfold fullImage; readLE
  have g5 : getLE (fullImage sd s) 8 8 = .ok s.n := by unfold fullImage; readLE
  have hll : ¬ (fullImage sd s).length < 8 := by simp [fullImage]; omega
  have hd : sd.deser (fullImage sd s) 16 s.data.length = .ok s.data := by
    have := hl.deser s.data (toLE 1 (s.rf <<< 6 ||| 2) ++ (toLE 1 2 ++ (toLE 1 11 ++ (toLE 1 0 ++
      (toLE 4 s.k ++ toLE 8 s.n))))) [] hP
    simp only [List.append_assoc, List.length_append, toLE_length] at this
    exact this
  have hmin : (min (s.n : Int) (s.k : Int)).toNat = s.data.length := by rw [hlen]; omega
  unfold fromSlice readSize
  rw [if_neg hll]
  simp only [g0, g1, g2, g3, g4, g5, Outcome.ok_bind, e1, e2]
  simp only [ne_eq, OfNat.ofNat_ne_one, not_false_eq_true, not_true_eq_false, and_false, ite_false,
    Nat.zero_and, Outcome.ok_bind, toS_small (show s.n < 2 ^ 63 by omega), hmin, hd]
  unfold fromStates
  rw [if_neg (by omega), if_neg (by omega), if_neg (by omega)]

/-! ## Same random numbers, same course -/

/-- Two programs that draw the same numbers and return results in relation `R` (or the same error). -/
inductive Sim {α β : Type} (R : α → β → Prop) : Rand α → Rand β → Prop
  | ret {a b} : R a b → Sim R (.ret a) (.ret b)
  | err (e) : Sim R (.err e) (.err e)
  | panic : Sim R .panic .panic
  | intn (n k k') : (∀ i < n, Sim R (k i) (k' i)) → Sim R (.intn n k) (.intn n k')
  | unif (nz k k') : (∀ u, 0 ≤ u → u < 1 → (nz = true → u ≠ 0) → Sim R (k u) (k' u)) →
      Sim R (.unif nz k) (.unif nz k')

theorem Sim.bind {α β γ δ : Type} {R : α → β → Prop} {Q : γ → δ → Prop} {t : Rand α} {t' : Rand β}
    {f : α → Rand γ} {f' : β → Rand δ} (h : Sim R t t') (hf : ∀ a b, R a b → Sim Q (f a) (f' b)) :
    Sim Q (t >>= f) (t' >>= f') := by
  induction h with
  | ret h => exact hf _ _ h
  | err e => exact .err e
  | panic => exact .panic
  | intn n k k' _ ih => exact .intn n _ _ ih
  | unif nz k k' _ ih => exact .unif nz _ _ ih

/-- sketches that differ in the capacity of their slices only -/
structure Alike (E : Env T) (s t : Sk T) : Prop where
  inv : Inv E s
  inv' : Inv E t
  k : t.k = s.k
  n : t.n = s.n
  rf : t.rf = s.rf
  data : t.data = s.data

theorem update_sim {E : Env T} (hE : E.Ok) {s t : Sk T} (h : Alike E s t) (x : T) :
    Sim (Alike E) (update E s x) (update E t x) := by
  obtain ⟨hs, ht, hk, hn, hr, hd⟩ := h
  by_cases hm : s.n < maxItemsSeen
  · cases hx : E.isNil x with
    | true =>
      rw [update_nil hm hx, update_nil (by omega) hx]
      exact .ret ⟨hs, ht, hk, hn, hr, hd⟩
    | false =>
      have hall := update_all hE hs hm hx
      have hall' := update_all hE ht (by omega) hx
      by_cases hf : s.n < s.k
      · obtain ⟨c, _, e⟩ := update_fill hE hs hf hm hx
        obtain ⟨c', _, e'⟩ := update_fill hE ht (by omega) (by omega) hx
        rw [e] at hall ⊢
        rw [e'] at hall' ⊢
        exact .ret ⟨hall.1, hall'.1, hk, by simp [hn], hr, by simp [hd]⟩
      · rw [update_full hs hf hm hx] at hall ⊢
        rw [update_full ht (by omega) (by omega) hx] at hall' ⊢
        rw [hn]
        refine .intn _ _ _ fun j hj => ?_
        have a := hall.2 j hj
        have a' := hall'.2 j (by omega)
        rw [hk] at a' ⊢
        dsimp only at a a' ⊢
        rw [hn] at a'
        by_cases hjk : j < s.k
        · rw [if_pos hjk] at a a'
          rw [if_pos hjk, if_pos hjk]
          exact .ret ⟨a.1, a'.1, rfl, rfl, hr, by simp [hd]⟩
        · rw [if_neg hjk] at a a'
          rw [if_neg hjk, if_neg hjk]
          exact .ret ⟨a.1, a'.1, rfl, rfl, hr, hd⟩
  · have e : s.n = maxItemsSeen := by have := hs.max; omega
    unfold update
    rw [if_pos e, if_pos (by omega)]
    exact .err _

theorem updates_sim {E : Env T} (hE : E.Ok) (xs : List T) {s t : Sk T} (h : Alike E s t) :
    Sim (Alike E) (updates E s xs) (updates E t xs) := by
  induction xs generalizing s t with
  | nil => exact .ret h
  | cons x xs ih =>
    unfold updates
    rw [List.foldlM_cons, List.foldlM_cons]
    exact (update_sim hE h x).bind fun a b hab => ih hab

end Verif.Reservoir
