import Verif.ItemSerdeModel
import Verif.Loops

/-! # Item serializers: laws -/

namespace Verif.Items

open Verif

variable {α : Type}

/-- What the sketches need of a serializer, for items that satisfy `P`. -/
structure Lawful (sd : Serde α) (P : α → Prop) : Prop where
  nil : sd.many [] = []
  app : ∀ xs ys, sd.many (xs ++ ys) = sd.many xs ++ sd.many ys
  size : ∀ x, sd.sizeOf x = (sd.many [x]).length
  sizeMany : ∀ (xs : List α) (a c : List Nat), (∀ x ∈ xs, P x) →
    sd.sizeOfMany (a ++ (sd.many xs ++ c)) a.length xs.length = .ok (sd.many xs).length
  deser : ∀ (xs : List α) (a c : List Nat), (∀ x ∈ xs, P x) →
    sd.deser (a ++ (sd.many xs ++ c)) a.length xs.length = .ok xs

/-- length of a string that fits its length field -/
def ShortStr (x : List Nat) : Prop := x.length < 4294967296

theorem strMany_cons (x : List Nat) (xs : List (List Nat)) :
    strMany (x :: xs) = toLE 4 x.length ++ x ++ strMany xs := by simp [strMany]

theorem strSkip_ok (xs : List (List Nat)) (a c : List Nat) (h : ∀ x ∈ xs, ShortStr x) :
    strSkip (a ++ (strMany xs ++ c)) xs.length a.length = .ok (a.length + (strMany xs).length) := by
  induction xs generalizing a with
  | nil => rfl
  | cons x xs ih =>
    have hx : x.length < 256 ^ 4 := h x (by simp)
    have e : a ++ (strMany (x :: xs) ++ c) = a ++ (toLE 4 x.length ++ (x ++ (strMany xs ++ c))) := by
      rw [strMany_cons]; simp
    have e2 : a ++ (strMany (x :: xs) ++ c) = (a ++ (toLE 4 x.length ++ x)) ++ (strMany xs ++ c) := by
      rw [strMany_cons]; simp
    have hl : (a ++ (strMany (x :: xs) ++ c)).length =
        a.length + 4 + x.length + (strMany xs).length + c.length := by
      rw [e]; simp; omega
    rw [List.length_cons, strSkip, if_pos (by unfold checkBounds; rw [hl]; simp; omega)]
    rw [show getLE (a ++ (strMany (x :: xs) ++ c)) a.length 4 = .ok x.length by
      rw [e]; exact getLE_at rfl hx]
    rw [Outcome.ok_bind, if_neg (by omega)]
    have := ih (a ++ (toLE 4 x.length ++ x)) (fun y hy => h y (by simp [hy]))
    rw [← e2] at this
    rw [show a.length + 4 + x.length = (a ++ (toLE 4 x.length ++ x)).length by simp; omega, this,
      strMany_cons]
    simp; omega

theorem strDeser_ok (xs : List (List Nat)) (a c : List Nat) (h : ∀ x ∈ xs, ShortStr x) :
    strDeser (a ++ (strMany xs ++ c)) a.length xs.length = .ok xs := by
  induction xs generalizing a with
  | nil => rfl
  | cons x xs ih =>
    have hx : x.length < 256 ^ 4 := h x (by simp)
    have e : a ++ (strMany (x :: xs) ++ c) = a ++ (toLE 4 x.length ++ (x ++ (strMany xs ++ c))) := by
      rw [strMany_cons]; simp
    have e1 : a ++ (strMany (x :: xs) ++ c) = (a ++ toLE 4 x.length) ++ (x ++ (strMany xs ++ c)) := by
      rw [strMany_cons]; simp
    have e2 : a ++ (strMany (x :: xs) ++ c) = (a ++ (toLE 4 x.length ++ x)) ++ (strMany xs ++ c) := by
      rw [strMany_cons]; simp
    have hl : (a ++ (strMany (x :: xs) ++ c)).length =
        a.length + 4 + x.length + (strMany xs).length + c.length := by
      rw [e]; simp; omega
    rw [List.length_cons, strDeser, if_pos (by unfold checkBounds; rw [hl]; simp; omega)]
    rw [show getLE (a ++ (strMany (x :: xs) ++ c)) a.length 4 = .ok x.length by
      rw [e]; exact getLE_at rfl hx]
    rw [Outcome.ok_bind, if_pos (by unfold checkBounds; rw [hl]; simp; omega)]
    rw [show slice (a ++ (strMany (x :: xs) ++ c)) (a.length + 4) (a.length + 4 + x.length) = .ok x by
      rw [e1]; exact slice_here (by simp) rfl]
    have := ih (a ++ (toLE 4 x.length ++ x)) (fun y hy => h y (by simp [hy]))
    rw [← e2] at this
    rw [Outcome.ok_bind, show a.length + 4 + x.length = (a ++ (toLE 4 x.length ++ x)).length by
      simp; omega, this]
    rfl

theorem strings_lawful : Lawful strings ShortStr where
  nil := rfl
  app xs ys := by simp [strings, strMany]
  size x := by simp [strings, strSizeOf, strMany]; omega
  sizeMany xs a c h := by
    show strSizeOfMany _ _ _ = _
    unfold strSizeOfMany
    have := strSkip_ok xs a c h
    show strSkip (a ++ (strMany xs ++ c)) xs.length a.length >>= _ = _
    rw [this, Outcome.ok_bind]
    congr 1
    show a.length + (strMany xs).length - a.length = (strMany xs).length
    omega
  deser := strDeser_ok

theorem fixedDeser_ok (w : Nat) (xs : List Nat) (a c : List Nat) (h : ∀ x ∈ xs, x < 256 ^ w) :
    fixedDeser w (a ++ (xs.flatMap (toLE w) ++ c)) a.length xs.length = .ok xs := by
  induction xs generalizing a with
  | nil => rfl
  | cons x xs ih =>
    have e : a ++ ((x :: xs).flatMap (toLE w) ++ c) = a ++ (toLE w x ++ (xs.flatMap (toLE w) ++ c)) := by
      simp
    rw [List.length_cons, fixedDeser, e, getLE_at rfl (h x (by simp)), Outcome.ok_bind]
    have := ih (a ++ toLE w x) (fun y hy => h y (by simp [hy]))
    rw [show a ++ (toLE w x ++ (xs.flatMap (toLE w) ++ c)) =
      (a ++ toLE w x) ++ (xs.flatMap (toLE w) ++ c) by simp,
      show a.length + w = (a ++ toLE w x).length by simp, this]
    rfl

theorem flatMap_toLE_length (w : Nat) (xs : List Nat) :
    (xs.flatMap (toLE w)).length = xs.length * w := by
  induction xs with
  | nil => simp
  | cons x xs ih => simp [ih, Nat.succ_mul, Nat.add_comm]

theorem fixed_lawful (w : Nat) : Lawful (fixed w) (fun v => v < 256 ^ w) where
  nil := rfl
  app xs ys := by simp [fixed]
  size x := by simp [fixed]
  sizeMany xs a c h := by
    show Outcome.ok _ = _
    rw [show (fixed w).many xs = xs.flatMap (toLE w) from rfl, flatMap_toLE_length]
  deser := fixedDeser_ok w

theorem Lawful.cons {sd : Serde α} {P : α → Prop} (h : Lawful sd P) (x : α) (xs : List α) :
    sd.many (x :: xs) = sd.many [x] ++ sd.many xs := by
  rw [← h.app]; rfl

/-- the sizes of the items add up to the length of their serialized form -/
theorem Lawful.total {sd : Serde α} {P : α → Prop} (h : Lawful sd P) (xs : List α) :
    (xs.map sd.sizeOf).sum = (sd.many xs).length := by
  induction xs with
  | nil => simp [h.nil]
  | cons x xs ih => rw [h.cons, List.map_cons, List.sum_cons, ih, h.size]; simp

/-! ## No panics, exact inverse -/

theorem strSkip_safe (mem : List Nat) (n o : Nat) : strSkip mem n o ≠ .panic := by
  induction n generalizing o with
  | zero => simp [strSkip]
  | succ n ih =>
    rw [strSkip]
    split
    · rename_i h
      rw [getLE_ok (by simpa [checkBounds] using h), Outcome.ok_bind]
      split
      · simp
      · exact ih _
    · simp

theorem strSizeOfMany_safe (mem : List Nat) (o n : Nat) : strSizeOfMany mem o n ≠ .panic := by
  unfold strSizeOfMany
  have := strSkip_safe mem n o
  cases h : strSkip mem n o with
  | ok v => simp
  | err m => simp
  | panic => exact absurd h this

theorem strDeser_safe (mem : List Nat) (n o : Nat) : strDeser mem o n ≠ .panic := by
  induction n generalizing o with
  | zero => simp [strDeser]
  | succ n ih =>
    rw [strDeser]
    split
    · rename_i h
      rw [getLE_ok (by simpa [checkBounds] using h), Outcome.ok_bind]
      split
      · rename_i h2
        have h2 : o + 4 + getT mem o 4 ≤ mem.length := by simpa [checkBounds] using h2
        rw [slice, if_pos ⟨by omega, h2⟩, Outcome.ok_bind]
        have := ih (o + 4 + getT mem o 4)
        cases h3 : strDeser mem (o + 4 + getT mem o 4) n with
        | ok v => simp
        | err m => simp
        | panic => exact absurd h3 this
      · simp
    · simp

/-- the size function accepts exactly what the reader accepts -/
theorem strSkip_deser (mem : List Nat) (n o : Nat) :
    (∃ e, strSkip mem n o = .ok e) ↔ ∃ xs, strDeser mem o n = .ok xs := by
  induction n generalizing o with
  | zero => simp [strSkip, strDeser]
  | succ n ih =>
    rw [strSkip, strDeser]
    split
    · rename_i h
      rw [getLE_ok (by simpa [checkBounds] using h), Outcome.ok_bind, Outcome.ok_bind]
      by_cases h2 : o + 4 + getT mem o 4 ≤ mem.length
      · rw [if_neg (by omega), if_pos (by simpa [checkBounds] using h2), slice, if_pos ⟨by omega, h2⟩,
          Outcome.ok_bind, ih]
        cases h3 : strDeser mem (o + 4 + getT mem o 4) n with
        | ok v => simp
        | err e => simp
        | panic => simp
      · rw [if_pos (by omega), if_neg (by simpa [checkBounds] using h2)]
        simp
    · simp

/-- whatever is read is what is written there -/
theorem strDeser_inv {mem : List Nat} (hb : ∀ b ∈ mem, b < 256) {n o : Nat} {xs : List (List Nat)}
    (h : strDeser mem o n = .ok xs) :
    xs.length = n ∧ (mem.drop o).take (strMany xs).length = strMany xs := by
  induction n generalizing o xs with
  | zero =>
    simp only [strDeser, Outcome.ok.injEq] at h
    subst h
    simp [strMany]
  | succ n ih =>
    rw [strDeser] at h
    split at h
    · rename_i h1
      have h1 : o + 4 ≤ mem.length := by simpa [checkBounds] using h1
      rw [getLE_ok h1, Outcome.ok_bind] at h
      split at h
      · rename_i h2
        have h2 : o + 4 + getT mem o 4 ≤ mem.length := by simpa [checkBounds] using h2
        rw [slice, if_pos ⟨by omega, h2⟩, Outcome.ok_bind, Outcome.bind_eq_ok] at h
        obtain ⟨rest, hr, h⟩ := h
        simp only [Outcome.ok.injEq] at h
        obtain ⟨ih1, ih2⟩ := ih hr
        subst h
        set b := (mem.drop (o + 4)).take (o + 4 + getT mem o 4 - (o + 4)) with hbdef
        have hbl : b.length = getT mem o 4 := by
          rw [hbdef, List.length_take, List.length_drop]; omega
        refine ⟨by simp [ih1], ?_⟩
        have hm : (mem.drop o).take 4 = toLE 4 (getT mem o 4) := by
          have hl : ((mem.drop o).take 4).length = 4 := by
            rw [List.length_take, List.length_drop]; omega
          have := toLE_fromLE ((mem.drop o).take 4) (fun x hx =>
            hb x (List.mem_of_mem_drop (List.mem_of_mem_take hx)))
          rw [hl] at this
          exact this.symm
        have e : mem.drop o = toLE 4 (getT mem o 4) ++ (b ++ mem.drop (o + 4 + getT mem o 4)) := by
          rw [← hm]
          have : mem.drop (o + 4) = b ++ mem.drop (o + 4 + getT mem o 4) := by
            rw [hbdef, show o + 4 + getT mem o 4 - (o + 4) = getT mem o 4 by omega]
            rw [← List.drop_drop (i := getT mem o 4) (j := o + 4), List.take_append_drop]
          rw [← this, ← List.drop_drop (i := 4) (j := o), List.take_append_drop]
        rw [strMany_cons, hbl, e, ← List.append_assoc, List.take_append]
        simp only [List.length_append, toLE_length, hbl]
        rw [List.take_of_length_le (by simp [hbl])]
        congr 1
        rw [show 4 + getT mem o 4 + (strMany rest).length - (4 + getT mem o 4)
          = (strMany rest).length by omega, ih2]
      · simp at h
    · simp at h

theorem fixedDeser_panic (w : Nat) (mem : List Nat) (n o : Nat) (hn : 0 < n)
    (h : mem.length < o + n * w) : fixedDeser w mem o n = .panic := by
  induction n generalizing o with
  | zero => omega
  | succ n ih =>
    rw [fixedDeser]
    by_cases h1 : o + w ≤ mem.length
    · rw [getLE_ok h1, Outcome.ok_bind]
      rcases Nat.eq_zero_or_pos n with h0 | h0
      · subst h0; omega
      · rw [ih (o + w) h0 (by rw [Nat.succ_mul] at h; omega)]
        rfl
    · rw [getLE_panic h1]; rfl

end Verif.Items
