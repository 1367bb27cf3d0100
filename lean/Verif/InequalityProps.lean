import Verif.InequalityModel
import Mathlib.Tactic.Linarith
import Mathlib.Tactic.Common

/-!
# C35: Inequality search is correct
-/

namespace Verif.Inequality

variable {α : Type} [LinearOrder α]

/-- Spec: does `x` satisfy criterion `c` with respect to `v`? -/
def Sat (c : Crit) (v x : α) : Prop :=
  match c with
  | .LT => x < v
  | .LE => x ≤ v
  | .GE => v ≤ x
  | .GT => v < x
  | .other => False

/-- Spec: `r` is the extreme index in `[low, high]` that satisfies the criterion: the largest one
for `<`, `≤`, the smallest one for `≥`, `>`; `-1` if there is none. -/
def IsAnswer (arr : List α) (low high : Nat) (v : α) (c : Crit) (r : Int) : Prop :=
  (r = -1 ∧ ∀ i x, low ≤ i → i ≤ high → arr[i]? = some x → ¬ Sat c v x) ∨
  ∃ n : Nat, r = n ∧ low ≤ n ∧ n ≤ high ∧ (∃ x, arr[n]? = some x ∧ Sat c v x) ∧
    ∀ i x, low ≤ i → i ≤ high → arr[i]? = some x → Sat c v x →
      match c with
      | .LT | .LE => i ≤ n
      | .GE | .GT | .other => n ≤ i

/-- Sorted on the range, in getElem? form. -/
def SortedOn (arr : List α) (low high : Nat) : Prop :=
  ∀ i j x y, low ≤ i → i ≤ j → j ≤ high → arr[i]? = some x → arr[j]? = some y → x ≤ y

/-- Loop invariant: what is known left of the search window. -/
def PreL (c : Crit) (v x : α) : Prop :=
  match c with
  | .LT | .LE => Sat c v x
  | _ => ¬ Sat c v x

/-- Loop invariant: what is known right of the search window. -/
def PreR (c : Crit) (v x : α) : Prop :=
  match c with
  | .LT | .LE => ¬ Sat c v x
  | _ => Sat c v x

/-- Loop invariant: the boundary element, once moved, satisfies the criterion. -/
def PreB (arr : List α) (low high lo hi : Nat) (v : α) (c : Crit) : Prop :=
  match c with
  | .LT | .LE => lo = low ∨ ∃ x, arr[lo]? = some x ∧ Sat c v x
  | _ => hi = high ∨ ∃ x, arr[hi]? = some x ∧ Sat c v x

theorem resolve_spec (arr : List α) (low high lo hi : Nat) (v : α) (c : Crit) (hc : c ≠ .other)
    (hs : SortedOn arr low high) (hlen : high < arr.length)
    (h1 : low ≤ lo) (h2 : lo ≤ hi) (h3 : hi ≤ high) (h4 : hi - lo ≤ 1)
    (hL : ∀ i x, low ≤ i → i < lo → arr[i]? = some x →
      PreL c v x)
    (hR : ∀ i x, hi < i → i ≤ high → arr[i]? = some x →
      PreR c v x)
    (hB : PreB arr low high lo hi v c) :
    ∃ r, resolve arr lo hi v c = .ok r ∧ IsAnswer arr low high v c r := by
  obtain ⟨x, hx⟩ : ∃ x, arr[lo]? = some x := ⟨_, List.getElem?_eq_getElem (by omega)⟩
  obtain ⟨y, hy⟩ : ∃ y, arr[hi]? = some y := ⟨_, List.getElem?_eq_getElem (by omega)⟩
  have hxy : x ≤ y := hs lo hi x y h1 h2 h3 hx hy
  -- generic closing arguments
  have mkL : ∀ n : Nat, (c = .LT ∨ c = .LE) → lo ≤ n → n ≤ hi →
      (∃ z, arr[n]? = some z ∧ Sat c v z) →
      (∀ i z, n < i → i ≤ hi → arr[i]? = some z → ¬ Sat c v z) →
      IsAnswer arr low high v c n := by
    intro n hcc hn1 hn2 hz hno
    refine Or.inr ⟨n, rfl, by omega, by omega, hz, ?_⟩
    intro i z hi1 hi2 hiz hsat
    have : i ≤ n := by
      by_contra hcon
      by_cases hih : i ≤ hi
      · exact hno i z (by omega) hih hiz hsat
      · have := hR i z (by omega) hi2 hiz
        rcases hcc with rfl | rfl <;> exact this hsat
    rcases hcc with rfl | rfl <;> exact this
  have mkR : ∀ n : Nat, (c = .GE ∨ c = .GT) → lo ≤ n → n ≤ hi →
      (∃ z, arr[n]? = some z ∧ Sat c v z) →
      (∀ i z, lo ≤ i → i < n → arr[i]? = some z → ¬ Sat c v z) →
      IsAnswer arr low high v c n := by
    intro n hcc hn1 hn2 hz hno
    refine Or.inr ⟨n, rfl, by omega, by omega, hz, ?_⟩
    intro i z hi1 hi2 hiz hsat
    have : n ≤ i := by
      by_contra hcon
      by_cases hih : lo ≤ i
      · exact hno i z hih (by omega) hiz hsat
      · have := hL i z hi1 (by omega) hiz
        rcases hcc with rfl | rfl <;> exact this hsat
    rcases hcc with rfl | rfl <;> exact this
  have two : ∀ i, lo ≤ i → i ≤ hi → i = lo ∨ i = hi := by intro i; omega
  have hxe : ∀ z, arr[lo]? = some z → z = x := by intro z hz; rw [hx] at hz; simpa using hz.symm
  have hye : ∀ z, arr[hi]? = some z → z = y := by intro z hz; rw [hy] at hz; simpa using hz.symm
  have noneL : (c = .LT ∨ c = .LE) → ¬ Sat c v x → IsAnswer arr low high v c (-1) := by
    intro hcc hnx
    refine Or.inl ⟨rfl, ?_⟩
    intro i z hi1 hi2 hiz hsat
    have hll : lo = low := by
      rcases hcc with rfl | rfl
      · rcases hB with hB | ⟨w, hw1, hw2⟩
        · exact hB
        · rw [hxe w hw1] at hw2; exact absurd hw2 hnx
      · rcases hB with hB | ⟨w, hw1, hw2⟩
        · exact hB
        · rw [hxe w hw1] at hw2; exact absurd hw2 hnx
    have hle := hs lo i x z h1 (by omega) hi2 hx hiz
    rcases hcc with rfl | rfl
    · exact hnx (lt_of_le_of_lt hle hsat)
    · exact hnx (le_trans hle hsat)
  have noneR : (c = .GE ∨ c = .GT) → ¬ Sat c v y → IsAnswer arr low high v c (-1) := by
    intro hcc hnx
    refine Or.inl ⟨rfl, ?_⟩
    intro i z hi1 hi2 hiz hsat
    have hll : hi = high := by
      rcases hcc with rfl | rfl
      · rcases hB with hB | ⟨w, hw1, hw2⟩
        · exact hB
        · rw [hye w hw1] at hw2; exact absurd hw2 hnx
      · rcases hB with hB | ⟨w, hw1, hw2⟩
        · exact hB
        · rw [hye w hw1] at hw2; exact absurd hw2 hnx
    have hle := hs i hi z y hi1 (by omega) h3 hiz hy
    rcases hcc with rfl | rfl
    · exact hnx (le_trans hsat hle)
    · exact hnx (lt_of_lt_of_le hsat hle)
  cases c with
  | other => exact absurd rfl hc
  | LT =>
    by_cases he : lo = hi
    · subst he
      simp only [resolve, rd, hx, if_true, Outcome.ofOption_some, Outcome.ok_bind]
      split
      · rename_i hh
        have : x < v := lt_of_le_of_ne (not_lt.mp hh.1) (Ne.symm hh.2)
        exact ⟨_, rfl, mkL lo (Or.inl rfl) (le_refl _) (le_refl _) ⟨x, hx, this⟩
          (by intro i z; omega)⟩
      · rename_i hh
        refine ⟨_, rfl, noneL (Or.inl rfl) ?_⟩
        intro hlt
        exact hh ⟨not_lt.mpr (le_of_lt hlt), ne_of_gt hlt⟩
    · simp only [resolve, rd, hx, hy, if_neg he, Outcome.ofOption_some, Outcome.ok_bind]
      split
      · rename_i hh
        have : y < v := lt_of_le_of_ne (not_lt.mp hh.1) (Ne.symm hh.2)
        exact ⟨_, rfl, mkL hi (Or.inl rfl) h2 (le_refl _) ⟨y, hy, this⟩ (by intro i z; omega)⟩
      · rename_i hhy
        have hny : ¬ y < v := fun hlt => hhy ⟨not_lt.mpr (le_of_lt hlt), ne_of_gt hlt⟩
        split
        · rename_i hh
          have : x < v := lt_of_le_of_ne (not_lt.mp hh.1) (Ne.symm hh.2)
          refine ⟨_, rfl, mkL lo (Or.inl rfl) (le_refl _) h2 ⟨x, hx, this⟩ ?_⟩
          intro i z a1 a2 a3 a4
          have : i = hi := by omega
          subst this
          rw [hye z a3] at a4; exact hny a4
        · rename_i hh
          refine ⟨_, rfl, noneL (Or.inl rfl) ?_⟩
          intro hlt
          exact hh ⟨not_lt.mpr (le_of_lt hlt), ne_of_gt hlt⟩
  | LE =>
    by_cases he : lo = hi
    · subst he
      simp only [resolve, rd, hx, if_true, Outcome.ofOption_some, Outcome.ok_bind]
      split
      · rename_i hh
        exact ⟨_, rfl, mkL lo (Or.inr rfl) (le_refl _) (le_refl _) ⟨x, hx, not_lt.mp hh⟩
          (by intro i z; omega)⟩
      · rename_i hh
        refine ⟨_, rfl, noneL (Or.inr rfl) ?_⟩
        intro hlt; exact hh (not_lt.mpr hlt)
    · simp only [resolve, rd, hx, hy, if_neg he, Outcome.ofOption_some, Outcome.ok_bind]
      split
      · rename_i hh
        exact ⟨_, rfl, mkL hi (Or.inr rfl) h2 (le_refl _) ⟨y, hy, not_lt.mp hh⟩
          (by intro i z; omega)⟩
      · rename_i hhy
        split
        · rename_i hh
          refine ⟨_, rfl, mkL lo (Or.inr rfl) (le_refl _) h2 ⟨x, hx, not_lt.mp hh⟩ ?_⟩
          intro i z a1 a2 a3 a4
          have : i = hi := by omega
          subst this
          rw [hye z a3] at a4; exact hhy (not_lt.mpr a4)
        · rename_i hh
          refine ⟨_, rfl, noneL (Or.inr rfl) ?_⟩
          intro hlt; exact hh (not_lt.mpr hlt)
  | GE =>
    by_cases he : lo = hi
    · subst he
      have hxy' : x = y := hye x hx
      simp only [resolve, rd, hx, if_true, Outcome.ofOption_some, Outcome.ok_bind]
      split
      · rename_i hh
        exact ⟨_, rfl, mkR lo (Or.inl rfl) (le_refl _) (le_refl _) ⟨x, hx, le_iff_lt_or_eq.mpr hh⟩
          (by intro i z; omega)⟩
      · rename_i hh
        refine ⟨_, rfl, noneR (Or.inl rfl) ?_⟩
        intro hlt; exact hh (hxy' ▸ le_iff_lt_or_eq.mp hlt)
    · simp only [resolve, rd, hx, hy, if_neg he, Outcome.ofOption_some, Outcome.ok_bind]
      split
      · rename_i hh
        exact ⟨_, rfl, mkR lo (Or.inl rfl) (le_refl _) h2 ⟨x, hx, le_iff_lt_or_eq.mpr hh⟩
          (by intro i z; omega)⟩
      · rename_i hhy
        split
        · rename_i hh
          refine ⟨_, rfl, mkR hi (Or.inl rfl) h2 (le_refl _) ⟨y, hy, le_iff_lt_or_eq.mpr hh⟩ ?_⟩
          intro i z a1 a2 a3 a4
          have : i = lo := by omega
          subst this
          rw [hxe z a3] at a4; exact hhy (le_iff_lt_or_eq.mp a4)
        · rename_i hh
          refine ⟨_, rfl, noneR (Or.inl rfl) ?_⟩
          intro hlt; exact hh (le_iff_lt_or_eq.mp hlt)
  | GT =>
    by_cases he : lo = hi
    · subst he
      have hxy' : x = y := hye x hx
      simp only [resolve, rd, hx, if_true, Outcome.ofOption_some, Outcome.ok_bind]
      split
      · rename_i hh
        exact ⟨_, rfl, mkR lo (Or.inr rfl) (le_refl _) (le_refl _) ⟨x, hx, hh⟩
          (by intro i z; omega)⟩
      · rename_i hh
        refine ⟨_, rfl, noneR (Or.inr rfl) ?_⟩
        intro hlt; exact hh (hxy' ▸ hlt)
    · simp only [resolve, rd, hx, hy, if_neg he, Outcome.ofOption_some, Outcome.ok_bind]
      split
      · rename_i hh
        exact ⟨_, rfl, mkR lo (Or.inr rfl) (le_refl _) h2 ⟨x, hx, hh⟩ (by intro i z; omega)⟩
      · rename_i hhy
        split
        · rename_i hh
          refine ⟨_, rfl, mkR hi (Or.inr rfl) h2 (le_refl _) ⟨y, hy, hh⟩ ?_⟩
          intro i z a1 a2 a3 a4
          have : i = lo := by omega
          subst this
          rw [hxe z a3] at a4; exact hhy a4
        · rename_i hh
          exact ⟨_, rfl, noneR (Or.inr rfl) hh⟩

theorem findLoop_spec (arr : List α) (low high : Nat) (v : α) (c : Crit) (hc : c ≠ .other)
    (hs : SortedOn arr low high) (hlen : high < arr.length) :
    ∀ (fuel lo hi : Nat), low ≤ lo → lo ≤ hi → hi ≤ high → hi - lo < fuel →
      (∀ i x, low ≤ i → i < lo → arr[i]? = some x →
        PreL c v x) →
      (∀ i x, hi < i → i ≤ high → arr[i]? = some x →
        PreR c v x) →
      PreB arr low high lo hi v c →
      ∃ r, findLoop arr v c fuel lo hi = .ok r ∧ IsAnswer arr low high v c r := by
  intro fuel
  induction fuel with
  | zero => intro lo hi _ _ _ h; omega
  | succ fuel ih =>
    intro lo hi h1 h2 h3 hf hL hR hB
    rw [findLoop, if_pos h2]
    split
    · rename_i hle
      exact resolve_spec arr low high lo hi v c hc hs hlen h1 h2 h3 hle hL hR hB
    · rename_i hgt
      have hm1 : lo < lo + (hi - lo) / 2 := by omega
      have hm2 : lo + (hi - lo) / 2 + 1 ≤ hi := by omega
      generalize lo + (hi - lo) / 2 = mid at hm1 hm2
      obtain ⟨x, hx⟩ : ∃ x, arr[mid]? = some x := ⟨_, List.getElem?_eq_getElem (by omega)⟩
      obtain ⟨y, hy⟩ : ∃ y, arr[mid + 1]? = some y := ⟨_, List.getElem?_eq_getElem (by omega)⟩
      have below : ∀ i z, low ≤ i → i ≤ mid → arr[i]? = some z → z ≤ x :=
        fun i z a1 a2 a3 => hs i mid z x a1 a2 (by omega) a3 hx
      have above : ∀ i z, mid ≤ i → i ≤ high → arr[i]? = some z → x ≤ z :=
        fun i z a1 a2 a3 => hs mid i x z (by omega) a1 a2 hx a3
      have below' : ∀ i z, low ≤ i → i ≤ mid + 1 → arr[i]? = some z → z ≤ y :=
        fun i z a1 a2 a3 => hs i (mid + 1) z y a1 a2 (by omega) a3 hy
      have above' : ∀ i z, mid + 1 ≤ i → i ≤ high → arr[i]? = some z → y ≤ z :=
        fun i z a1 a2 a3 => hs (mid + 1) i y z (by omega) a1 a2 hy a3
      cases c with
      | other => exact absurd rfl hc
      | LT =>
        simp only [compare, rd, hx, Outcome.ofOption_some, Outcome.ok_bind]
        by_cases hvx : v < x ∨ x = v
        · have hvx' : v ≤ x := by rcases hvx with h | h; exact le_of_lt h; exact le_of_eq h.symm
          simp only [if_pos hvx, Outcome.pure_eq, Outcome.ok_bind, if_true]
          refine ih lo mid h1 (by omega) (by omega) (by omega) hL ?_ hB
          intro i z a1 a2 a3 a4
          exact absurd (lt_of_le_of_lt (le_trans hvx' (above i z (by omega) a2 a3)) a4) (lt_irrefl _)
        · have hxv : x < v := by
            rcases lt_trichotomy x v with h | h | h
            · exact h
            · exact absurd (Or.inr h) hvx
            · exact absurd (Or.inl h) hvx
          simp only [if_neg hvx, hy, Outcome.ofOption_some, Outcome.ok_bind]
          by_cases hyv : y < v
          · simp only [if_pos hyv, Outcome.pure_eq, Outcome.ok_bind]
            rw [if_neg (by decide)]; simp only [if_true]
            refine ih (mid + 1) hi (by omega) (by omega) h3 (by omega) ?_ hR (Or.inr ⟨y, hy, hyv⟩)
            intro i z a1 a2 a3
            exact lt_of_le_of_lt (below' i z a1 (by omega) a3) hyv
          · simp only [if_neg hyv, Outcome.pure_eq, Outcome.ok_bind]
            rw [if_neg (by decide : ¬ ((0 : Int) = -1)), if_neg (by decide : ¬ ((0 : Int) = 1))]
            refine ⟨_, rfl, Or.inr ⟨mid, rfl, by omega, by omega, ⟨x, hx, hxv⟩, ?_⟩⟩
            intro i z a1 a2 a3 a4
            show i ≤ mid
            by_contra hcon
            exact hyv (lt_of_le_of_lt (above' i z (by omega) a2 a3) a4)
      | GE =>
        simp only [compare, rd, hx, Outcome.ofOption_some, Outcome.ok_bind]
        by_cases hvx : v < x ∨ x = v
        · have hvx' : v ≤ x := by rcases hvx with h | h; exact le_of_lt h; exact le_of_eq h.symm
          simp only [if_pos hvx, Outcome.pure_eq, Outcome.ok_bind, if_true]
          refine ih lo mid h1 (by omega) (by omega) (by omega) hL ?_ (Or.inr ⟨x, hx, hvx'⟩)
          intro i z a1 a2 a3
          exact le_trans hvx' (above i z (by omega) a2 a3)
        · have hxv : x < v := by
            rcases lt_trichotomy x v with h | h | h
            · exact h
            · exact absurd (Or.inr h) hvx
            · exact absurd (Or.inl h) hvx
          simp only [if_neg hvx, hy, Outcome.ofOption_some, Outcome.ok_bind]
          by_cases hyv : y < v
          · simp only [if_pos hyv, Outcome.pure_eq, Outcome.ok_bind]
            rw [if_neg (by decide)]; simp only [if_true]
            refine ih (mid + 1) hi (by omega) (by omega) h3 (by omega) ?_ hR hB
            intro i z a1 a2 a3 a4
            exact absurd (lt_of_le_of_lt (le_trans a4 (below' i z a1 (by omega) a3)) hyv)
              (lt_irrefl _)
          · simp only [if_neg hyv, Outcome.pure_eq, Outcome.ok_bind]
            rw [if_neg (by decide : ¬ ((0 : Int) = -1)), if_neg (by decide : ¬ ((0 : Int) = 1))]
            refine ⟨_, rfl, Or.inr ⟨mid + 1, rfl, by omega, by omega, ⟨y, hy, not_lt.mp hyv⟩, ?_⟩⟩
            intro i z a1 a2 a3 a4
            show mid + 1 ≤ i
            by_contra hcon
            exact absurd (lt_of_le_of_lt (le_trans a4 (below i z a1 (by omega) a3)) hxv)
              (lt_irrefl _)
      | LE =>
        simp only [compare, rd, hx, Outcome.ofOption_some, Outcome.ok_bind]
        by_cases hvx : v < x
        · simp only [if_pos hvx, Outcome.pure_eq, Outcome.ok_bind, if_true]
          refine ih lo mid h1 (by omega) (by omega) (by omega) hL ?_ hB
          intro i z a1 a2 a3 a4
          exact absurd (lt_of_lt_of_le hvx (le_trans (above i z (by omega) a2 a3) a4)) (lt_irrefl _)
        · simp only [if_neg hvx, hy, Outcome.ofOption_some, Outcome.ok_bind]
          by_cases hyv : y < v ∨ y = v
          · have hyv' : y ≤ v := le_iff_lt_or_eq.mpr hyv
            simp only [if_pos hyv, Outcome.pure_eq, Outcome.ok_bind]
            rw [if_neg (by decide)]; simp only [if_true]
            refine ih (mid + 1) hi (by omega) (by omega) h3 (by omega) ?_ hR (Or.inr ⟨y, hy, hyv'⟩)
            intro i z a1 a2 a3
            exact le_trans (below' i z a1 (by omega) a3) hyv'
          · simp only [if_neg hyv, Outcome.pure_eq, Outcome.ok_bind]
            rw [if_neg (by decide : ¬ ((0 : Int) = -1)), if_neg (by decide : ¬ ((0 : Int) = 1))]
            refine ⟨_, rfl, Or.inr ⟨mid, rfl, by omega, by omega, ⟨x, hx, not_lt.mp hvx⟩, ?_⟩⟩
            intro i z a1 a2 a3 a4
            show i ≤ mid
            by_contra hcon
            exact hyv (le_iff_lt_or_eq.mp (le_trans (above' i z (by omega) a2 a3) a4))
      | GT =>
        simp only [compare, rd, hx, Outcome.ofOption_some, Outcome.ok_bind]
        by_cases hvx : v < x
        · simp only [if_pos hvx, Outcome.pure_eq, Outcome.ok_bind, if_true]
          refine ih lo mid h1 (by omega) (by omega) (by omega) hL ?_ (Or.inr ⟨x, hx, hvx⟩)
          intro i z a1 a2 a3
          exact lt_of_lt_of_le hvx (above i z (by omega) a2 a3)
        · simp only [if_neg hvx, hy, Outcome.ofOption_some, Outcome.ok_bind]
          by_cases hyv : y < v ∨ y = v
          · have hyv' : y ≤ v := le_iff_lt_or_eq.mpr hyv
            simp only [if_pos hyv, Outcome.pure_eq, Outcome.ok_bind]
            rw [if_neg (by decide)]; simp only [if_true]
            refine ih (mid + 1) hi (by omega) (by omega) h3 (by omega) ?_ hR hB
            intro i z a1 a2 a3 a4
            exact absurd (lt_of_lt_of_le a4 (le_trans (below' i z a1 (by omega) a3) hyv'))
              (lt_irrefl _)
          · have hvy : v < y := by
              rcases lt_trichotomy y v with h | h | h
              · exact absurd (Or.inl h) hyv
              · exact absurd (Or.inr h) hyv
              · exact h
            simp only [if_neg hyv, Outcome.pure_eq, Outcome.ok_bind]
            rw [if_neg (by decide : ¬ ((0 : Int) = -1)), if_neg (by decide : ¬ ((0 : Int) = 1))]
            refine ⟨_, rfl, Or.inr ⟨mid + 1, rfl, by omega, by omega, ⟨y, hy, hvy⟩, ?_⟩⟩
            intro i z a1 a2 a3 a4
            show mid + 1 ≤ i
            by_contra hcon
            exact hvx (lt_of_lt_of_le a4 (below i z a1 (by omega) a3))

/-- C35.  For every slice sorted on `[low, high]`, every value and each of the four criteria the
search terminates without panic or error and returns the extreme index satisfying the criterion,
or `-1` if there is none. -/
theorem C35_findWithInequality_correct (arr : List α) (low high : Nat) (v : α) (c : Crit)
    (hc : c ≠ .other) (hs : SortedOn arr low high) (h1 : low ≤ high) (hlen : high < arr.length) :
    ∃ r, findWithInequality arr low high v c = .ok r ∧ IsAnswer arr low high v c r := by
  rw [findWithInequality, if_neg (by omega)]
  refine findLoop_spec arr low high v c hc hs hlen (high - low + 1) low high (le_refl _) h1
    (le_refl _) (by omega) (by intro i x; omega) (by intro i x; omega) ?_
  cases c <;> first | exact absurd rfl hc | exact Or.inl rfl

/-- C35, whole slice: the form the sorted views use. -/
theorem C35_findWithInequality_sorted (arr : List α) (v : α) (c : Crit) (hc : c ≠ .other)
    (hs : arr.Pairwise (· ≤ ·)) (hne : arr ≠ []) :
    ∃ r, findWithInequality arr 0 (arr.length - 1) v c = .ok r ∧
      IsAnswer arr 0 (arr.length - 1) v c r := by
  have hpos : 0 < arr.length := List.length_pos_iff.mpr hne
  apply C35_findWithInequality_correct arr 0 (arr.length - 1) v c hc _ (by omega) (by omega)
  intro i j x y _ hij hj hx hy
  have hjl : j < arr.length := by omega
  have hil : i < arr.length := by omega
  rw [List.getElem?_eq_getElem hil] at hx
  rw [List.getElem?_eq_getElem hjl] at hy
  simp at hx hy
  subst hx; subst hy
  rcases Nat.lt_or_eq_of_le hij with h | h
  · exact List.pairwise_iff_getElem.mp hs i j hil hjl h
  · subst h; exact le_refl _

/-- Non-vacuity. -/
example : ([1, 3, 3, 5, 9] : List Nat).Pairwise (· ≤ ·) ∧
    findWithInequality ([1, 3, 3, 5, 9] : List Nat) 0 4 3 .LT = .ok 0 ∧
    findWithInequality ([1, 3, 3, 5, 9] : List Nat) 0 4 3 .LE = .ok 2 ∧
    findWithInequality ([1, 3, 3, 5, 9] : List Nat) 0 4 3 .GE = .ok 1 ∧
    findWithInequality ([1, 3, 3, 5, 9] : List Nat) 0 4 3 .GT = .ok 3 ∧
    findWithInequality ([1, 3, 3, 5, 9] : List Nat) 0 4 1 .LT = .ok (-1) := by
  decide +kernel

end Verif.Inequality
