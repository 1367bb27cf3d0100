import Verif.QuickSelectModel
import Mathlib.Data.List.Sort
import Mathlib.Data.List.Perm.Basic
import Mathlib.Tactic.Linarith

namespace Verif.QuickSelect

variable {α : Type}

/-- What Go requires of the comparison: a strict weak order. -/
structure StrictWeak (lt : α → α → Bool) : Prop where
  irrefl : ∀ a, lt a a = false
  trans : ∀ a b c, lt a b = true → lt b c = true → lt a c = true
  negtrans : ∀ a b c, lt a b = false → lt b c = false → lt a c = false

theorem StrictWeak.asymm {lt : α → α → Bool} (h : StrictWeak lt) {a b : α}
    (hab : lt a b = true) : lt b a = false := by
  by_contra hc
  have hc : lt b a = true := by simpa using hc
  have := h.trans a b a hab hc
  simp [h.irrefl] at this

theorem scanUp_spec (lt : α → α → Bool) (arr : List α) (v : α) (hi : Nat)
    (hlen : hi < arr.length) :
    ∀ (fuel i : Nat), i < hi → hi - i < fuel →
      ∃ i', scanUp lt arr v hi fuel i = some i' ∧ i ≤ i' ∧ i' ≤ hi ∧
        (∀ k x, i < k → k ≤ i' → arr[k]? = some x → lt x v = true) ∧
        (i' < hi → ∃ x, arr[i' + 1]? = some x ∧ lt x v = false) := by
  intro fuel
  induction fuel with
  | zero => intro i _ h; omega
  | succ fuel ih =>
    intro i hi1 hf
    have hb : i + 1 < arr.length := by omega
    rw [scanUp]
    rw [List.getElem?_eq_getElem hb]
    simp only
    split
    · rename_i hlt
      split
      · rename_i he
        refine ⟨i + 1, rfl, by omega, by omega, ?_, by omega⟩
        intro k x h1 h2 h3
        have : k = i + 1 := by omega
        subst this
        rw [List.getElem?_eq_getElem hb] at h3
        simp at h3; subst h3; exact hlt
      · rename_i he
        obtain ⟨i', h1, h2, h3, h4, h5⟩ := ih (i + 1) (by omega) (by omega)
        refine ⟨i', h1, by omega, h3, ?_, h5⟩
        intro k x hk1 hk2 hk3
        by_cases hk : k = i + 1
        · subst hk
          rw [List.getElem?_eq_getElem hb] at hk3
          simp at hk3; subst hk3; exact hlt
        · exact h4 k x (by omega) hk2 hk3
    · rename_i hlt
      refine ⟨i, rfl, le_refl _, by omega, by intro k x h1 h2; omega, ?_⟩
      intro _
      exact ⟨_, List.getElem?_eq_getElem hb, by simpa using hlt⟩

theorem scanDown_spec (lt : α → α → Bool) (hsw : StrictWeak lt) (arr : List α) (v : α) (lo : Nat)
    (hv : arr[lo]? = some v) :
    ∀ (fuel j : Nat), lo < j → j ≤ arr.length → j - lo ≤ fuel →
      ∃ j', scanDown lt arr v lo fuel j = some j' ∧ lo < j' ∧ j' ≤ j ∧
        (∀ k x, j' ≤ k → k < j → arr[k]? = some x → lt v x = true) ∧
        (∃ x, arr[j' - 1]? = some x ∧ lt v x = false) := by
  intro fuel
  induction fuel with
  | zero => intro j h1 h2 h; omega
  | succ fuel ih =>
    intro j h1 h2 hf
    obtain ⟨j, rfl⟩ : ∃ j0, j = j0 + 1 := ⟨j - 1, by omega⟩
    have hb : j < arr.length := by omega
    rw [scanDown, List.getElem?_eq_getElem hb]
    simp only
    split
    · rename_i hlt
      have hne : j ≠ lo := by
        intro he; subst he
        rw [List.getElem?_eq_getElem hb] at hv
        simp at hv; rw [hv, hsw.irrefl] at hlt; simp at hlt
      rw [if_neg hne]
      obtain ⟨j', e1, e2, e3, e4, e5⟩ := ih j (by omega) (by omega) (by omega)
      refine ⟨j', e1, e2, by omega, ?_, e5⟩
      intro k x hk1 hk2 hk3
      by_cases hk : k = j
      · subst hk
        rw [List.getElem?_eq_getElem hb] at hk3
        simp at hk3; subst hk3; exact hlt
      · exact e4 k x hk1 (by omega) hk3
    · rename_i hlt
      refine ⟨j + 1, rfl, h1, le_refl _, by intro k x h1 h2; omega, ?_⟩
      exact ⟨arr[j], by simp [hb], by simpa using hlt⟩

theorem swap_spec (arr : List α) (i j : Nat) (hi : i < arr.length) (hj : j < arr.length) :
    ∃ arr', swap arr i j = some arr' ∧ arr'.Perm arr ∧ arr'.length = arr.length ∧
      arr'[i]? = arr[j]? ∧ arr'[j]? = arr[i]? ∧
      (∀ k, k ≠ i → k ≠ j → arr'[k]? = arr[k]?) := by
  refine ⟨(arr.set i arr[j]).set j arr[i], ?_, ?_, by simp, ?_, ?_, ?_⟩
  · simp [swap, hi, hj]
  · exact List.set_set_perm hi hj
  · by_cases h : i = j
    · subst h; simp [hi]
    · rw [List.getElem?_set_ne (Ne.symm h), List.getElem?_set_self hi, List.getElem?_eq_getElem hj]
  · rw [List.getElem?_set_self (by simpa using hj), List.getElem?_eq_getElem hi]
  · intro k h1 h2
    rw [List.getElem?_set_ne (Ne.symm h2), List.getElem?_set_ne (Ne.symm h1)]

/-- `b` only rearranges `a` within the positions `[lo, hi]`. -/
structure LocalPerm (a b : List α) (lo hi : Nat) : Prop where
  perm : b.Perm a
  out : ∀ k, k < lo ∨ hi < k → b[k]? = a[k]?
  inn : ∀ k, lo ≤ k → k ≤ hi → ∃ k', lo ≤ k' ∧ k' ≤ hi ∧ b[k]? = a[k']?

theorem LocalPerm.refl (a : List α) (lo hi : Nat) : LocalPerm a a lo hi :=
  ⟨List.Perm.refl _, fun _ _ => rfl, fun k h1 h2 => ⟨k, h1, h2, rfl⟩⟩

theorem LocalPerm.trans {a b c : List α} {lo hi : Nat} (h1 : LocalPerm a b lo hi)
    (h2 : LocalPerm b c lo hi) : LocalPerm a c lo hi := by
  refine ⟨h2.perm.trans h1.perm, fun k hk => (h2.out k hk).trans (h1.out k hk), ?_⟩
  intro k hk1 hk2
  obtain ⟨k', a1, a2, a3⟩ := h2.inn k hk1 hk2
  obtain ⟨k'', b1, b2, b3⟩ := h1.inn k' a1 a2
  exact ⟨k'', b1, b2, a3.trans b3⟩

theorem LocalPerm.mono {a b : List α} {lo hi lo' hi' : Nat} (h : LocalPerm a b lo hi)
    (hl : lo' ≤ lo) (hh : hi ≤ hi') : LocalPerm a b lo' hi' := by
  refine ⟨h.perm, fun k hk => h.out k (by omega), ?_⟩
  intro k hk1 hk2
  by_cases hc : lo ≤ k ∧ k ≤ hi
  · obtain ⟨k', a1, a2, a3⟩ := h.inn k hc.1 hc.2
    exact ⟨k', by omega, by omega, a3⟩
  · exact ⟨k, hk1, hk2, h.out k (by omega)⟩

theorem swap_local (arr : List α) (i j lo hi : Nat) (hi' : hi < arr.length)
    (h1 : lo ≤ i) (h2 : i ≤ hi) (h3 : lo ≤ j) (h4 : j ≤ hi) :
    ∃ arr', swap arr i j = some arr' ∧ LocalPerm arr arr' lo hi ∧
      arr'[i]? = arr[j]? ∧ arr'[j]? = arr[i]? ∧
      (∀ k, k ≠ i → k ≠ j → arr'[k]? = arr[k]?) := by
  obtain ⟨arr', e, p, _, a, b, c⟩ := swap_spec arr i j (by omega) (by omega)
  refine ⟨arr', e, ⟨p, ?_, ?_⟩, a, b, c⟩
  · intro k hk; exact c k (by omega) (by omega)
  · intro k hk1 hk2
    by_cases hki : k = i
    · subst hki; exact ⟨j, h3, h4, a⟩
    · by_cases hkj : k = j
      · subst hkj; exact ⟨i, h1, h2, b⟩
      · exact ⟨k, hk1, hk2, c k hki hkj⟩

theorem partitionLoop_spec (lt : α → α → Bool) (hsw : StrictWeak lt) (v : α) (lo hi : Nat) :
    ∀ (fuel : Nat) (arr : List α) (i j : Nat), hi < arr.length → arr[lo]? = some v →
      lo ≤ i → i < hi → i < j → j ≤ hi + 1 → j - i < fuel →
      (∀ k x, lo < k → k ≤ i → arr[k]? = some x → lt v x = false) →
      (∀ k x, j ≤ k → k ≤ hi → arr[k]? = some x → lt x v = false) →
      ∃ arr' j', partitionLoop lt v lo hi fuel arr i j = some (arr', j') ∧
        LocalPerm arr arr' lo hi ∧ arr'[lo]? = some v ∧ lo ≤ j' ∧ j' ≤ hi ∧
        (∀ k x, lo < k → k ≤ j' → arr'[k]? = some x → lt v x = false) ∧
        (∀ k x, j' < k → k ≤ hi → arr'[k]? = some x → lt x v = false) := by
  intro fuel
  induction fuel with
  | zero => intro arr i j _ _ _ _ _ _ h; omega
  | succ fuel ih =>
    intro arr i j hlen hv hloi hihi hij hjhi hfuel hL hR
    obtain ⟨i', e1, u1, u2, u3, u4⟩ :=
      scanUp_spec lt arr v hi hlen (arr.length + 1) i hihi (by omega)
    obtain ⟨j', e2, d1, d2, d3, d4⟩ :=
      scanDown_spec lt hsw arr v lo hv (arr.length + 1) j (by omega) (by omega) (by omega)
    obtain ⟨j1, rfl⟩ : ∃ j1, j' = j1 + 1 := ⟨j' - 1, by omega⟩
    simp only [partitionLoop, e1, e2]
    have hL' : ∀ k x, lo < k → k ≤ i' → arr[k]? = some x → lt v x = false := by
      intro k x h1 h2 h3
      by_cases hk : k ≤ i
      · exact hL k x h1 hk h3
      · exact hsw.asymm (u3 k x (by omega) h2 h3)
    have hR' : ∀ k x, j1 + 1 ≤ k → k ≤ hi → arr[k]? = some x → lt x v = false := by
      intro k x h1 h2 h3
      by_cases hk : j ≤ k
      · exact hR k x hk h2 h3
      · exact hsw.asymm (d3 k x h1 (by omega) h3)
    split
    · rename_i hge
      refine ⟨arr, j1, rfl, LocalPerm.refl _ _ _, hv, by omega, by omega, ?_, ?_⟩
      · intro k x h1 h2 h3
        by_cases hk : k ≤ i'
        · exact hL' k x h1 hk h3
        · obtain ⟨y, hy1, hy2⟩ := d4
          have : k = j1 := by omega
          subst this
          simp at hy1; rw [hy1] at h3; simp at h3; subst h3; exact hy2
      · intro k x h1 h2 h3
        exact hR' k x (by omega) h2 h3
    · rename_i hge
      obtain ⟨arr', es, lp, s1, s2, s3⟩ :=
        swap_local arr (i' + 1) j1 lo hi hlen (by omega) (by omega) (by omega) (by omega)
      simp only [es]
      have hlen' : arr'.length = arr.length := lp.perm.length_eq
      obtain ⟨y, hy1, hy2⟩ := d4
      simp at hy1
      obtain ⟨z, hz1, hz2⟩ := u4 (by omega)
      obtain ⟨arr'', j'', f1, f2, f3, f4, f5, f6, f7⟩ :=
        ih arr' (i' + 1) j1 (by omega)
          (by rw [s3 lo (by omega) (by omega)]; exact hv)
          (by omega) (by omega) (by omega) (by omega) (by omega)
          (by
            intro k x h1 h2 h3
            by_cases hk : k = i' + 1
            · subst hk; rw [s1, hy1] at h3; simp at h3; subst h3; exact hy2
            · rw [s3 k hk (by omega)] at h3
              exact hL' k x h1 (by omega) h3)
          (by
            intro k x h1 h2 h3
            by_cases hk : k = j1
            · subst hk; rw [s2, hz1] at h3; simp at h3; subst h3; exact hz2
            · rw [s3 k (by omega) hk] at h3
              exact hR' k x (by omega) h2 h3)
      exact ⟨arr'', j'', f1, lp.trans f2, f3, f4, f5, f6, f7⟩

theorem partition_spec (lt : α → α → Bool) (hsw : StrictWeak lt) (arr : List α) (lo hi : Nat)
    (hlo : lo < hi) (hlen : hi < arr.length) :
    ∃ arr' j v, partition lt arr lo hi = some (arr', j) ∧ LocalPerm arr arr' lo hi ∧
      lo ≤ j ∧ j ≤ hi ∧ arr'[j]? = some v ∧
      (∀ k x, lo ≤ k → k ≤ j → arr'[k]? = some x → lt v x = false) ∧
      (∀ k x, j ≤ k → k ≤ hi → arr'[k]? = some x → lt x v = false) := by
  have hl : lo < arr.length := by omega
  obtain ⟨a1, j, e, lp, hv, h1, h2, h3, h4⟩ :=
    partitionLoop_spec lt hsw arr[lo] lo hi (arr.length + 1) arr lo (hi + 1) hlen
      (List.getElem?_eq_getElem hl) (le_refl _) hlo (by omega) (le_refl _) (by omega)
      (by intro k x; omega) (by intro k x; omega)
  have hlen1 : a1.length = arr.length := lp.perm.length_eq
  obtain ⟨a2, es, lp2, s1, s2, s3⟩ :=
    swap_local a1 lo j lo hi (by omega) (le_refl _) (by omega) h1 h2
  refine ⟨a2, j, arr[lo], ?_, lp.trans lp2, h1, h2, ?_, ?_, ?_⟩
  · simp [partition, List.getElem?_eq_getElem hl, e, es]
  · rw [s2]; exact hv
  · intro k x k1 k2 hk
    by_cases hkj : k = j
    · subst hkj; rw [s2, hv] at hk; simp at hk; subst hk; exact hsw.irrefl _
    · by_cases hkl : k = lo
      · subst hkl; rw [s1] at hk; exact h3 j x (by omega) (le_refl _) hk
      · rw [s3 k hkl hkj] at hk; exact h3 k x (by omega) k2 hk
  · intro k x k1 k2 hk
    by_cases hkj : k = j
    · subst hkj; rw [s2, hv] at hk; simp at hk; subst hk; exact hsw.irrefl _
    · rw [s3 k (by omega) hkj] at hk; exact h4 k x (by omega) k2 hk

theorem quickSelectLoop_spec (lt : α → α → Bool) (hsw : StrictWeak lt) (pivot lo0 hi0 : Nat) :
    ∀ (fuel : Nat) (arr : List α) (lo : Nat) (hi : Int), hi0 < arr.length →
      lo0 ≤ lo → hi ≤ hi0 → lo ≤ pivot → (pivot : Int) ≤ hi →
      hi - lo < fuel →
      (∀ k k' x y, lo0 ≤ k → k < lo → lo ≤ k' → k' ≤ hi0 → arr[k]? = some x → arr[k']? = some y →
        lt y x = false) →
      (∀ (k k' : Nat) x y, lo0 ≤ k → (k : Int) ≤ hi → hi < (k' : Int) → k' ≤ hi0 → arr[k]? = some x →
        arr[k']? = some y → lt y x = false) →
      ∃ arr' v, quickSelectLoop lt pivot fuel arr lo hi = some (arr', v) ∧
        LocalPerm arr arr' lo0 hi0 ∧ arr'[pivot]? = some v ∧
        (∀ k x, lo0 ≤ k → k ≤ pivot → arr'[k]? = some x → lt v x = false) ∧
        (∀ k x, pivot ≤ k → k ≤ hi0 → arr'[k]? = some x → lt x v = false) := by
  intro fuel
  induction fuel with
  | zero => intro arr lo hi _ _ _ _ _ h; simp at h; omega
  | succ fuel ih =>
    intro arr lo hi hlen hl0 hh0 hlp hph hf hA hB
    rw [quickSelectLoop]
    split
    · rename_i hgt
      obtain ⟨h, rfl⟩ : ∃ h : Nat, hi = h := ⟨hi.toNat, by omega⟩
      obtain ⟨a1, j, v, e, lp, j1, j2, hv, hL, hR⟩ :=
        partition_spec lt hsw arr lo h (by omega) (by omega)
      have hlen1 : a1.length = arr.length := lp.perm.length_eq
      have lp' : LocalPerm arr a1 lo0 hi0 := lp.mono hl0 (by omega)
      simp only [Int.toNat_natCast, e]
      -- cross-range facts carried over to `a1`
      have hA1 : ∀ k k' x y, lo0 ≤ k → k < lo → lo ≤ k' → k' ≤ hi0 → a1[k]? = some x →
          a1[k']? = some y → lt y x = false := by
        intro k k' x y c1 c2 c3 c4 c5 c6
        rw [lp.out k (by omega)] at c5
        by_cases hk : k' ≤ h
        · obtain ⟨k'', b1, b2, b3⟩ := lp.inn k' c3 hk
          rw [b3] at c6
          exact hA k k'' x y c1 c2 b1 (by omega) c5 c6
        · rw [lp.out k' (by omega)] at c6
          exact hA k k' x y c1 c2 c3 c4 c5 c6
      have hB1 : ∀ (k k' : Nat) x y, lo0 ≤ k → (k : Int) ≤ (h : Int) → (h : Int) < (k' : Int) →
          k' ≤ hi0 → a1[k]? = some x → a1[k']? = some y → lt y x = false := by
        intro k k' x y c1 c2 c3 c4 c5 c6
        rw [lp.out k' (by omega)] at c6
        by_cases hk : lo ≤ k
        · obtain ⟨k'', b1, b2, b3⟩ := lp.inn k hk (by omega)
          rw [b3] at c5
          exact hB k'' k' x y (by omega) (by omega) c3 c4 c5 c6
        · rw [lp.out k (by omega)] at c5
          exact hB k k' x y c1 c2 c3 c4 c5 c6
      split
      · rename_i hjp
        subst hjp
        refine ⟨a1, v, by simp [hv], lp', hv, ?_, ?_⟩
        · intro k x c1 c2 c3
          by_cases hk : lo ≤ k
          · exact hL k x hk c2 c3
          · exact hA1 k j x v c1 (by omega) j1 (by omega) c3 hv
        · intro k x c1 c2 c3
          by_cases hk : k ≤ h
          · exact hR k x c1 hk c3
          · exact hB1 j k v x (by omega) (by omega) (by omega) c2 hv c3
      · rename_i hjp
        -- facts about the split at `j`, over the whole range
        have hLall : ∀ k x, lo0 ≤ k → k ≤ j → a1[k]? = some x → lt v x = false := by
          intro k x c1 c2 c3
          by_cases hk : lo ≤ k
          · exact hL k x hk c2 c3
          · exact hA1 k j x v c1 (by omega) j1 (by omega) c3 hv
        have hRall : ∀ k x, j ≤ k → k ≤ hi0 → a1[k]? = some x → lt x v = false := by
          intro k x c1 c2 c3
          by_cases hk : k ≤ h
          · exact hR k x c1 hk c3
          · exact hB1 j k v x (by omega) (by omega) (by omega) c2 hv c3
        split
        · rename_i hgt2
          obtain ⟨a2, w, f1, f2, f3⟩ := ih a1 lo ((j : Int) - 1) (by omega) hl0 (by omega) hlp
            (by omega) (by omega)
            (fun k k' x y c1 c2 c3 c4 c5 c6 => hA1 k k' x y c1 c2 c3 c4 c5 c6)
            (by
              intro k k' x y c1 c2 c3 c4 c5 c6
              exact hsw.negtrans y v x (hRall k' y (by omega) c4 c6)
                (hLall k x c1 (by omega) c5))
          exact ⟨a2, w, f1, lp'.trans f2, f3⟩
        · rename_i hgt2
          obtain ⟨a2, w, f1, f2, f3⟩ := ih a1 (j + 1) h (by omega) (by omega) hh0 (by omega)
            hph (by omega)
            (by
              intro k k' x y c1 c2 c3 c4 c5 c6
              exact hsw.negtrans y v x (hRall k' y (by omega) c4 c6)
                (hLall k x c1 (by omega) c5))
            hB1
          exact ⟨a2, w, f1, lp'.trans f2, f3⟩
    · rename_i hgt
      have hp : pivot = lo := by omega
      have hhi : hi = pivot := by omega
      have hb : pivot < arr.length := by omega
      refine ⟨arr, arr[pivot], by simp [hb], LocalPerm.refl _ _ _, List.getElem?_eq_getElem hb,
        ?_, ?_⟩
      · intro k x c1 c2 c3
        by_cases hk : k = pivot
        · subst hk; rw [List.getElem?_eq_getElem hb] at c3; simp at c3; subst c3; exact hsw.irrefl _
        · exact hA k pivot x _ c1 (by omega) (by omega) (by omega) c3 (List.getElem?_eq_getElem hb)
      · intro k x c1 c2 c3
        by_cases hk : k = pivot
        · subst hk; rw [List.getElem?_eq_getElem hb] at c3; simp at c3; subst c3; exact hsw.irrefl _
        · exact hB pivot k _ x (by omega) (by omega) (by omega) c2 (List.getElem?_eq_getElem hb) c3

end Verif.QuickSelect
