import Verif.ReservoirLemmas
import Mathlib.Data.Nat.Choose.Basic

/-! # Every `k`-subset is equally likely -/

namespace Verif.Reservoir

open Rand

variable {T : Type} [DecidableEq T]

theorem toFinset_set {d : List T} (hd : d.Nodup) {x : T} (hx : x ∉ d) {j : Nat}
    (hj : j < d.length) : (d.set j x).toFinset = insert x (d.toFinset.erase d[j]) := by
  ext a
  simp only [List.mem_toFinset, Finset.mem_insert, Finset.mem_erase]
  constructor
  · intro h
    obtain ⟨i, hi, rfl⟩ := List.mem_iff_getElem.1 h
    rw [List.length_set] at hi
    rw [List.getElem_set]
    by_cases hij : j = i
    · rw [if_pos hij]; exact Or.inl rfl
    · rw [if_neg hij]
      refine Or.inr ⟨fun he => hij ((hd.getElem_inj_iff).1 he).symm, List.getElem_mem hi⟩
  · rintro (rfl | ⟨hne, ha⟩)
    · exact List.mem_set hj a
    · obtain ⟨i, hi, rfl⟩ := List.mem_iff_getElem.1 ha
      have hij : j ≠ i := fun he => hne (by subst he; rfl)
      refine List.mem_iff_getElem.2 ⟨i, by rwa [List.length_set], ?_⟩
      rw [List.getElem_set, if_neg hij]

theorem sum_set_toFinset {d : List T} (hd : d.Nodup) {x : T} (hx : x ∉ d) (G : Finset T → ℚ) :
    ∑ j ∈ Finset.range d.length, G (d.set j x).toFinset
      = ∑ y ∈ d.toFinset, G (insert x (d.toFinset.erase y)) := by
  refine Finset.sum_bij (fun j hj => d[j]'(Finset.mem_range.1 hj)) ?_ ?_ ?_ ?_
  · intro j hj
    exact List.mem_toFinset.2 (List.getElem_mem _)
  · intro i hi j hj he
    exact (hd.getElem_inj_iff).1 he
  · intro y hy
    obtain ⟨i, hi, rfl⟩ := List.mem_iff_getElem.1 (List.mem_toFinset.1 hy)
    exact ⟨i, Finset.mem_range.2 hi, rfl⟩
  · intro j hj
    rw [toFinset_set hd hx (Finset.mem_range.1 hj)]

/-- The probability of one sample after one more update, given the sample before. -/
theorem update_subset {E : Env T} {s : Sk T} (hs : Inv E s)
    (hn : ¬ s.n < s.k) (hm : s.n < maxItemsSeen) {x : T} (hx : E.isNil x = false) {l : List T}
    (hd : s.data.Nodup) (hdl : ∀ y ∈ s.data, y ∈ l) (hxl : x ∉ l) (S : Finset T) :
    HasE (fun s' : Sk T => if s'.data.toFinset = S then (1 : ℚ) else 0) (update E s x)
      (if x ∈ S then
        (1 / (s.n + 1 : ℚ)) * ∑ y ∈ l.toFinset \ S,
          (if s.data.toFinset = insert y (S.erase x) then (1 : ℚ) else 0)
      else ((s.n + 1 : ℚ) - s.k) / (s.n + 1) * (if s.data.toFinset = S then (1 : ℚ) else 0)) := by
  have hlen : s.data.length = s.k := by rw [hs.len]; omega
  have hxd : x ∉ s.data := fun h => hxl (hdl x h)
  have hn0 : ((s.n : ℚ) + 1) ≠ 0 := by positivity
  rw [update_full hs hn hm hx]
  refine ⟨by omega, fun j => if j < s.k then
      (if (s.data.set j x).toFinset = S then (1 : ℚ) else 0)
      else (if s.data.toFinset = S then (1 : ℚ) else 0), fun j hj => ?_, ?_⟩
  · by_cases hjk : j < s.k
    · simp only [if_pos hjk]; exact rfl
    · simp only [if_neg hjk]; exact rfl
  · rw [sum_range_ite (by omega), ← hlen, sum_set_toFinset hd hxd (fun F => if F = S then (1 : ℚ) else 0),
      Finset.sum_const, Nat.card_Ico, nsmul_eq_mul, hlen, Nat.cast_sub (by omega)]
    by_cases hxS : x ∈ S
    · rw [if_pos hxS]
      have h0 : s.data.toFinset ≠ S := fun h => hxd (List.mem_toFinset.1 (by rw [h]; exact hxS))
      rw [if_neg h0, mul_zero, add_zero]
      have hsum : ∑ y ∈ s.data.toFinset,
            (if insert x (s.data.toFinset.erase y) = S then (1 : ℚ) else 0)
          = ∑ y ∈ l.toFinset \ S,
            (if s.data.toFinset = insert y (S.erase x) then (1 : ℚ) else 0) := by
        have hL : ∑ y ∈ s.data.toFinset,
              (if insert x (s.data.toFinset.erase y) = S then (1 : ℚ) else 0)
            = ∑ y ∈ s.data.toFinset \ S,
              (if s.data.toFinset = insert y (S.erase x) then (1 : ℚ) else 0) := by
          symm
          rw [← Finset.sum_subset (s₁ := s.data.toFinset \ S) (s₂ := s.data.toFinset)
            Finset.sdiff_subset]
          · refine Finset.sum_congr rfl fun y hy => ?_
            rw [Finset.mem_sdiff] at hy
            have hyx : y ≠ x := fun h => hy.2 (h ▸ hxS)
            have : (insert x (s.data.toFinset.erase y) = S) ↔
                (s.data.toFinset = insert y (S.erase x)) := by
              constructor
              · intro h
                rw [← h, Finset.erase_insert (by simp [hxd]), Finset.insert_erase hy.1]
              · intro h
                rw [h, Finset.erase_insert (by simp [hy.2]), Finset.insert_erase hxS]
            by_cases hc : insert x (s.data.toFinset.erase y) = S
            · rw [if_pos hc, if_pos (this.1 hc)]
            · rw [if_neg hc, if_neg (fun h => hc (this.2 h))]
          · intro y hy hyn
            have hyS : y ∈ S := by
              by_contra h
              exact hyn (Finset.mem_sdiff.2 ⟨hy, h⟩)
            rw [if_neg]
            intro h
            rw [← h] at hyS
            rcases Finset.mem_insert.1 hyS with rfl | h'
            · exact hxd (List.mem_toFinset.1 hy)
            · exact (Finset.mem_erase.1 h').1 rfl
        rw [hL]
        refine Finset.sum_subset (fun y hy => ?_) (fun y hy hyn => ?_)
        · rw [Finset.mem_sdiff, List.mem_toFinset] at hy ⊢
          exact ⟨hdl y hy.1, hy.2⟩
        · rw [if_neg]
          intro h
          apply hyn
          rw [Finset.mem_sdiff] at hy ⊢
          refine ⟨by rw [h]; exact Finset.mem_insert_self _ _, hy.2⟩
      rw [hsum]
      push_cast
      ring
    · rw [if_neg hxS]
      rw [Finset.sum_eq_zero (fun y _ => if_neg (fun h => hxS (by rw [← h]; exact Finset.mem_insert_self _ _)))]
      push_cast
      ring

/-- Every `k`-subset of a stream of distinct items is the sample with the same probability. -/
theorem updates_uniform {E : Env T} (hE : E.Ok) {s : Sk T} (hs : Inv E s) (hs0 : s.n = 0)
    (l : List T) (hl : ∀ x ∈ l, E.isNil x = false) (hnd : l.Nodup)
    (hm : l.length ≤ maxItemsSeen) (hkl : s.k ≤ l.length) (S : Finset T) (hS : S ⊆ l.toFinset)
    (hSk : S.card = s.k) :
    HasE (fun s' : Sk T => if s'.data.toFinset = S then (1 : ℚ) else 0) (updates E s l)
      (1 / (l.length.choose s.k : ℚ)) := by
  induction l using List.reverseRecOn generalizing S with
  | nil => have := hs.two; simp at hkl; omega
  | append_singleton l x ih =>
    have hl1 : ∀ y ∈ l, E.isNil y = false := fun y hy => hl y (by simp [hy])
    have hx : E.isNil x = false := hl x (by simp)
    have hnd1 : l.Nodup := (List.nodup_append.1 hnd).1
    have hxl : x ∉ l := fun h => (List.nodup_append.1 hnd).2.2 x h x (by simp) rfl
    rw [List.length_append, List.length_singleton] at hm hkl
    have hd0 : s.data = [] := List.length_eq_zero_iff.1 (by rw [hs.len]; omega)
    have hallL := updates_all hE l hs (by omega)
    rw [live_of hl1, hd0, List.nil_append, hs0, zero_add] at hallL
    unfold updates
    rw [List.foldlM_append]
    simp only [List.foldlM_cons, List.foldlM_nil, Rand.pure_eq, Rand.bind_ret]
    rw [List.length_append, List.length_singleton]
    by_cases hlast : s.k = l.length + 1
    · -- the reservoir has just been filled
      rw [hlast, Nat.choose_self]
      rw [Nat.cast_one, div_one]
      have hSall : S = (l ++ [x]).toFinset := by
        refine Finset.eq_of_subset_of_card_le hS ?_
        rw [hSk, hlast, List.toFinset_card_of_nodup hnd]
        simp
      refine HasE.constI (All.bind hallL fun s1 h1 => ?_)
      obtain ⟨i1, k1, r1, n1, f1, p1⟩ := h1
      refine (update_all hE i1 (by omega) hx).mono fun s2 h2 => ?_
      rw [if_pos]
      rw [h2.2.2.2.2.1 (by omega), f1 (by omega), hSall]
    · have hkl' : s.k ≤ l.length := by omega
      have hchoose : ((l.length + 1).choose s.k : ℚ) * (l.length + 1 - s.k)
          = (l.length.choose s.k : ℚ) * (l.length + 1) := by
        have h2 := Nat.choose_mul_succ_eq l.length s.k
        have h3 : ((l.length.choose s.k * (l.length + 1) : Nat) : ℚ)
            = (((l.length + 1).choose s.k * (l.length + 1 - s.k) : Nat) : ℚ) := by
          exact_mod_cast h2
        rw [Nat.cast_mul, Nat.cast_mul, Nat.cast_sub (by omega)] at h3
        push_cast at h3
        linarith
      have hc0 : (l.length.choose s.k : ℚ) ≠ 0 := by
        exact_mod_cast (Nat.choose_pos hkl').ne'
      have hc1 : ((l.length + 1).choose s.k : ℚ) ≠ 0 := by
        exact_mod_cast (Nat.choose_pos (by omega)).ne'
      have hn1 : ((l.length : ℚ) + 1) ≠ 0 := by positivity
      have hall : All (fun s1 : Sk T => HasE
          (fun s' : Sk T => if s'.data.toFinset = S then (1 : ℚ) else 0) (update E s1 x)
          (if x ∈ S then
            (1 / (l.length + 1 : ℚ)) * ∑ y ∈ l.toFinset \ S,
              (if s1.data.toFinset = insert y (S.erase x) then (1 : ℚ) else 0)
          else ((l.length + 1 : ℚ) - s.k) / (l.length + 1) *
            (if s1.data.toFinset = S then (1 : ℚ) else 0))) (updates E s l) := by
        refine hallL.mono fun s1 h1 => ?_
        obtain ⟨i1, k1, r1, n1, f1, p1⟩ := h1
        have hd1 : s1.data.Nodup := by
          obtain ⟨l', hp, hsub⟩ := p1
          exact hp.nodup_iff.1 (hsub.nodup hnd1)
        have := update_subset i1 (by omega) (by omega) hx hd1 (fun y hy => p1.subset hy) hxl S
        rw [n1, k1] at this
        exact this
      by_cases hxS : x ∈ S
      · simp only [if_pos hxS] at hall
        have hE1 : HasE (fun s1 : Sk T => ∑ y ∈ l.toFinset \ S,
              (if s1.data.toFinset = insert y (S.erase x) then (1 : ℚ) else 0)) (updates E s l)
            (∑ y ∈ l.toFinset \ S, 1 / (l.length.choose s.k : ℚ)) := by
          refine HasE.finsum _ (fun y hy => ?_) (hallL.mono fun _ _ => trivial)
          rw [Finset.mem_sdiff] at hy
          refine ih hl1 hnd1 (by omega) hkl' _ ?_ ?_
          · intro z hz
            rcases Finset.mem_insert.1 hz with rfl | hz
            · exact hy.1
            · have := hS (Finset.mem_erase.1 hz).2
              rw [List.toFinset_append, Finset.mem_union] at this
              rcases this with h | h
              · exact h
              · exact absurd (by simpa using h) (Finset.mem_erase.1 hz).1
          · rw [Finset.card_insert_of_notMem (by simp [hy.2]), Finset.card_erase_of_mem hxS, hSk]
            have := hs.two
            omega
        have hcard : ((l.toFinset \ S).card : ℚ) = l.length + 1 - s.k := by
          have hsd : l.toFinset \ S = l.toFinset \ (S.erase x) := by
            ext z
            simp only [Finset.mem_sdiff, Finset.mem_erase, List.mem_toFinset]
            constructor
            · rintro ⟨h1, h2⟩; exact ⟨h1, fun h => h2 h.2⟩
            · rintro ⟨h1, h2⟩
              exact ⟨h1, fun h => h2 ⟨fun he => hxl (he ▸ h1), h⟩⟩
          have hsub : S.erase x ⊆ l.toFinset := by
            intro z hz
            have := hS (Finset.mem_erase.1 hz).2
            rw [List.toFinset_append, Finset.mem_union] at this
            rcases this with h | h
            · exact h
            · exact absurd (by simpa using h) (Finset.mem_erase.1 hz).1
          rw [hsd, Finset.card_sdiff_of_subset hsub, Finset.card_erase_of_mem hxS, hSk,
            List.toFinset_card_of_nodup hnd1]
          have := hs.two
          rw [Nat.cast_sub (by omega), Nat.cast_sub (by omega)]
          push_cast
          ring
        have h2 := hE1.affine (1 / (l.length + 1 : ℚ)) 0
        simp only [add_zero] at h2
        rw [Finset.sum_const, nsmul_eq_mul, hcard] at h2
        have hv : (1 / (l.length + 1 : ℚ)) * ((l.length + 1 - s.k) * (1 / (l.length.choose s.k : ℚ)))
            = 1 / ((l.length + 1).choose s.k : ℚ) := by
          field_simp
          linarith
        rw [hv] at h2
        exact h2.bind hall
      · simp only [if_neg hxS] at hall
        have hS1 : S ⊆ l.toFinset := by
          intro z hz
          have := hS hz
          rw [List.toFinset_append, Finset.mem_union] at this
          rcases this with h | h
          · exact h
          · exact absurd (by simpa using h) (fun he : z = x => hxS (he ▸ hz))
        have h2 := (ih hl1 hnd1 (by omega) hkl' S hS1 hSk).affine
          (((l.length + 1 : ℚ) - s.k) / (l.length + 1)) 0
        simp only [add_zero] at h2
        have hv : ((l.length + 1 : ℚ) - s.k) / (l.length + 1) * (1 / (l.length.choose s.k : ℚ))
            = 1 / ((l.length + 1).choose s.k : ℚ) := by
          field_simp
          linarith
        rw [hv] at h2
        exact h2.bind hall

end Verif.Reservoir
