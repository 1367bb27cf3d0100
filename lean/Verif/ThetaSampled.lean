import Verif.ThetaStop
import Verif.ThetaUnionProps
import Verif.ThetaInterProps
import Verif.ThetaANotBProps

/-!
# Sketches of random hashes: closure under the set operations

`Sampled S P`: the sketch `S h`, a function of the hashes `h` of the items, holds exactly the hashes
below its theta of the items of the set `P`, and its theta stops.
-/

namespace Verif.Theta

open Probe HashTable

variable {ι : Type} [DecidableEq ι]

structure Sampled (sh : Nat) (S : (ι → Nat) → View) (P : Finset ι) : Prop where
  input : ∀ h, Proper h → Input sh (S h)
  ret : ∀ h, Proper h → ∀ v, v ∈ (S h).all ↔ v < (S h).theta ∧ ∃ i ∈ P, h i = v
  low : ∀ h, Proper h → 32 < (S h).theta
  empty : ∀ h, Proper h → (S h).isEmpty = true → (S h).theta = maxTheta
  stops : ∀ h h', Proper h → Proper h' →
    (∀ i, h i ≠ h' i → h i < (S h).theta ∧ h' i < (S h).theta) →
    (S h').theta = (S h).theta ∧ (S h').isEmpty = (S h).isEmpty

/-- below a reduced theta at least `k` hashes are retained, and theta is the hash of an item -/
def Many (k : Nat) (S : (ι → Nat) → View) (P : Finset ι) : Prop :=
  ∀ h, Proper h → (S h).theta ≠ maxTheta → k ≤ (S h).all.length ∧ ∃ i ∈ P, h i = (S h).theta

omit [DecidableEq ι] in
theorem Sampled.stops_at {sh : Nat} {S : (ι → Nat) → View} {P : Finset ι} (s : Sampled sh S P)
    {h h' : ι → Nat} (hp : Proper h) (hp' : Proper h') {T : Nat}
    (hd : ∀ i, h i ≠ h' i → h i < T ∧ h' i < T) (hT : T ≤ (S h).theta) :
    (S h').theta = (S h).theta ∧ (S h').isEmpty = (S h).isEmpty :=
  s.stops h h' hp hp' (fun i hi => by have := hd i hi; omega)

theorem Sampled.all_card {sh : Nat} {S : (ι → Nat) → View} {P : Finset ι} (s : Sampled sh S P)
    {h : ι → Nat} (hp : Proper h) :
    (S h).all.length = (P.filter fun i => h i < (S h).theta).card := by
  rw [← card_vals hp.1, ← List.toFinset_card_of_nodup (s.input h hp).valid.nodup]
  congr 1
  ext v
  rw [List.mem_toFinset, s.ret h hp, Finset.mem_filter]
  unfold vals
  rw [Finset.mem_image]
  tauto

omit [DecidableEq ι] in
/-- some item of the set has a hash below `a`; unaffected by changes below `a` -/
theorem some_below {h h' : ι → Nat} {T a : Nat} (hd : ∀ i, h i ≠ h' i → h i < T ∧ h' i < T)
    (hT : T ≤ a) (P : Finset ι) : (∃ i ∈ P, h i < a) ↔ ∃ i ∈ P, h' i < a := by
  constructor
  · rintro ⟨i, hi, hl⟩
    refine ⟨i, hi, ?_⟩
    by_cases e : h i = h' i
    · omega
    · have := hd i e; omega
  · rintro ⟨i, hi, hl⟩
    refine ⟨i, hi, ?_⟩
    by_cases e : h i = h' i
    · omega
    · have := hd i e; omega

/-! ## update sketches -/

theorem sampled_sketch {low : ι → Nat} {lgK rf start sh : Nat} {t0 : Tbl}
    (hnew : newTable lgK rf start = .ok t0) (h32 : 32 < start) (hstart : start ≤ maxTheta)
    (ops : List (Op ι)) :
    ∃ S : (ι → Nat) → View, (∀ h, ∃ t, run (words low h) t0 ops = .ok t ∧ S h = viewOf t sh) ∧
      Sampled sh S (presented [] ops).toFinset ∧ (start = maxTheta → Many (2 ^ lgK) S (presented [] ops).toFinset) := by
  have hex : ∀ h : ι → Nat, ∃ t, run (words low h) t0 ops = .ok t ∧
      SInv (words low h) lgK start t (presented [] ops) :=
    fun h => run_inv ops t0 [] (new_sinv _ hnew)
  choose R hR hI using hex
  have hlg : lgK ≤ 26 ∧ 5 ≤ lgK := by
    unfold newTable at hnew
    split at hnew
    · cases hnew
    split at hnew
    · cases hnew
    omega
  have h32k : 32 ≤ 2 ^ lgK := by
    have : 2 ^ 5 ≤ 2 ^ lgK := Nat.pow_le_pow_right (by omega) hlg.2
    omega
  have hnew' : ∀ h : ι → Nat, SInv (words low h) lgK start t0 [] := fun h => new_sinv _ hnew
  have hth0 : ∀ h : ι → Nat, t0.theta = start := fun h => (hnew' h).fresh ((hnew' h).empty.mpr rfl)
  have hmany : ∀ h, Proper h → (R h).theta ≠ start → 2 ^ lgK ≤ (all (R h)).length ∧
      ∃ x ∈ presented [] ops, h x = (R h).theta := by
    intro h hp
    exact run_many hp ops t0 [] (R h) (hnew' h) (fun hc => absurd (hth0 h) hc) (hR h)
  have h64 : ∀ h, presented [] ops ≠ [] → theta64 (R h) = (R h).theta := by
    intro h hne
    have : ¬ (R h).isEmpty = true := fun hc => hne ((hI h).empty.mp hc)
    simp [theta64, this]
  have h64e : ∀ h, presented [] ops = [] → theta64 (R h) = maxTheta := by
    intro h he
    have : (R h).isEmpty = true := (hI h).empty.mpr he
    simp [theta64, this]
  have hcases : presented [] ops = [] ∨ presented [] ops ≠ [] := by
    by_cases h : presented [] ops = []
    · exact Or.inl h
    · exact Or.inr h
  refine ⟨fun h => viewOf (R h) sh, fun h => ⟨R h, hR h, rfl⟩, ?_, ?_⟩
  · constructor
    · intro h hp
      refine ⟨(hI h).valid hstart sh, rfl, ?_⟩
      show (R h).numEntries ≤ maxRetained
      have h1 := (hI h).tinv.cap
      have h2 := computeCapacity_le (hI h).tinv.lgCur
      have h3 := (hI h).tinv.lgNom
      have h4 : 2 ^ ((R h).lgNom + 1) ≤ 2 ^ 27 := Nat.pow_le_pow_right (by omega) (by omega)
      unfold maxRetained
      omega
    · intro h hp v
      show v ∈ all (R h) ↔ v < theta64 (R h) ∧ _
      rw [(hI h).ret v, hash63_words]
      rcases hcases with he | he
      · rw [he]; simp
      · rw [h64 h he]
        simp only [List.mem_map, List.mem_toFinset]
        constructor
        · rintro ⟨h1, h2, h3⟩; exact ⟨h3, h1⟩
        · rintro ⟨h1, i, hi, e⟩
          exact ⟨⟨i, hi, e⟩, by have := hp.2 i; omega, h1⟩
    · intro h hp
      show 32 < theta64 (R h)
      rcases hcases with he | he
      · rw [h64e h he]; omega
      · rw [h64 h he]
        by_cases hs : (R h).theta = start
        · omega
        · have h1 := (hmany h hp hs).1
          rw [card_all hp (hI h)] at h1
          -- that many distinct positive hashes lie below theta
          have h2 : ((presented [] ops).toFinset.filter fun i => h i < (R h).theta).card ≤
              (Finset.Ico 1 (R h).theta).card := by
            apply Finset.card_le_card_of_injOn h
            · intro i hi
              simp only [Finset.coe_filter, Set.mem_ofPred_eq] at hi
              simp only [Finset.coe_Ico, Set.mem_Ico]
              exact ⟨hp.2 i, hi.2⟩
            · exact hp.1.injOn
          rw [Nat.card_Ico] at h2
          omega
    · intro h hp he
      have : (R h).isEmpty = true := he
      show theta64 (R h) = maxTheta
      simp [theta64, this]
    · intro h h' hp hp' hd
      have hem : (R h').isEmpty = (R h).isEmpty := by
        rw [Bool.eq_iff_iff, (hI h).empty, (hI h').empty]
      refine ⟨?_, hem⟩
      show theta64 (R h') = theta64 (R h)
      rcases hcases with he | he
      · rw [h64e h he, h64e h' he]
      · have hd' : ∀ i, h i ≠ h' i → h i < theta64 (R h) ∧ h' i < theta64 (R h) := hd
        rw [h64 h he] at hd' ⊢
        rw [h64 h' he]
        exact run_same hp hp' hd' ops t0 t0 [] (R h) (R h') (hnew' h) (hnew' h') (fun _ => rfl)
          (hR h) (hR h') (le_refl _)
  · intro hs h hp hne
    have hne' : theta64 (R h) ≠ maxTheta := hne
    rcases hcases with he | he
    · exact absurd (h64e h he) hne'
    · rw [h64 h he] at hne'
      obtain ⟨m1, x, hx, m2⟩ := hmany h hp (by rw [hs]; exact hne')
      exact ⟨m1, x, List.mem_toFinset.mpr hx, m2.trans (h64 h he).symm⟩

/-! ## compact sketches -/

omit [DecidableEq ι] in
theorem sampled_compact {sh : Nat} {S : (ι → Nat) → View} {P : Finset ι} (s : Sampled sh S P)
    (o : Bool) : Sampled sh (fun h => (newCompact (S h) o).view) P := by
  have hperm : ∀ h, Proper h → ((newCompact (S h) o).view.all).Perm (S h).all :=
    fun h hp => newCompact_perm (s.input h hp).valid o
  refine ⟨fun h hp => ?_, fun h hp v => ?_, s.low, s.empty, s.stops⟩
  · refine ⟨newCompact_valid (s.input h hp).valid o, (s.input h hp).seed, ?_⟩
    show (newCompact (S h) o).entries.length ≤ _
    have h1 := (hperm h hp).length_eq
    have h2 := (s.input h hp).size
    rw [(s.input h hp).valid.num] at h2
    exact h1.le.trans h2
  · rw [(hperm h hp).mem_iff]
    exact s.ret h hp v

omit [DecidableEq ι] in
theorem many_compact {sh k : Nat} {S : (ι → Nat) → View} {P : Finset ι} (s : Sampled sh S P)
    (m : Many k S P) (o : Bool) : Many k (fun h => (newCompact (S h) o).view) P := by
  intro h hp hne
  have := (newCompact_perm (s.input h hp).valid o).length_eq
  exact ⟨(m h hp hne).1.trans this.ge, (m h hp hne).2⟩

/-! ## union -/

theorem sorted_cut {A : List Nat} (hs : A.Pairwise (· < ·)) {k : Nat} (hk : k < A.length) :
    (A.toFinset.filter (· < A.getD k 0)).card = k := by
  have hget : A.getD k 0 = A[k] := by simp [List.getD, hk]
  rw [hget]
  have : A.toFinset.filter (· < A[k]) = (A.take k).toFinset := by
    ext x
    rw [Finset.mem_filter, List.mem_toFinset, List.mem_toFinset, List.mem_take_iff_getElem,
      List.mem_iff_getElem]
    constructor
    · rintro ⟨⟨j, hj, rfl⟩, hlt⟩
      refine ⟨j, ?_, rfl⟩
      by_contra hc
      have hkj : k ≤ j := by omega
      rcases Nat.eq_or_lt_of_le hkj with e | e
      · subst e; omega
      · have := (List.pairwise_iff_getElem.mp hs) k j hk hj e
        omega
    · rintro ⟨j, hj, rfl⟩
      exact ⟨⟨j, by omega, rfl⟩, (List.pairwise_iff_getElem.mp hs) j k (by omega) hk (by omega)⟩
  rw [this, List.toFinset_card_of_nodup, List.length_take]
  · omega
  · exact (hs.imp (by intro a b h; omega : ∀ {a b : Nat}, a < b → a ≠ b)).sublist
      (List.take_sublist _ _)

theorem minTheta_bounds {start : Nat} {vs : List View} : minTheta start vs ≤ start ∧
    ∀ v ∈ vs, v.isEmpty = false → minTheta start vs ≤ v.theta := by
  unfold minTheta
  have gen : ∀ (l : List Nat) (a : Nat), l.foldl min a ≤ a ∧ ∀ x ∈ l, l.foldl min a ≤ x := by
    intro l
    induction l with
    | nil => intro a; simp
    | cons b l ih =>
      intro a
      obtain ⟨h1, h2⟩ := ih (min a b)
      rw [List.foldl_cons]
      refine ⟨h1.trans (min_le_left _ _), fun x hx => ?_⟩
      rcases List.mem_cons.mp hx with rfl | hx
      · exact h1.trans (min_le_right _ _)
      · exact h2 x hx
  refine ⟨(gen _ _).1, fun v hv he => (gen _ _).2 _ ?_⟩
  exact List.mem_map.mpr ⟨v, List.mem_filter.mpr ⟨hv, by simp [he]⟩, rfl⟩

theorem minTheta_cases {start : Nat} {vs : List View} : minTheta start vs = start ∨
    ∃ v ∈ vs, v.isEmpty = false ∧ minTheta start vs = v.theta := by
  unfold minTheta
  have gen : ∀ (l : List Nat) (a : Nat), l.foldl min a = a ∨ l.foldl min a ∈ l := by
    intro l
    induction l with
    | nil => intro a; simp
    | cons b l ih =>
      intro a
      rw [List.foldl_cons]
      rcases ih (min a b) with h | h
      · rw [h]
        rcases Nat.le_total a b with hab | hab
        · left; omega
        · right; rw [Nat.min_eq_right hab]; simp
      · right; simp [h]
  rcases gen ((vs.filter fun v => !v.isEmpty).map View.theta) start with h | h
  · exact Or.inl h
  · obtain ⟨v, hv, e⟩ := List.mem_map.mp h
    rw [List.mem_filter] at hv
    exact Or.inr ⟨v, hv.1, by simpa using hv.2, e.symm⟩

theorem minTheta_congr {start : Nat} {vs ws : List View}
    (h : List.Forall₂ (fun v w => v.theta = w.theta ∧ v.isEmpty = w.isEmpty) vs ws) :
    minTheta start vs = minTheta start ws := by
  unfold minTheta
  congr 1
  induction h with
  | nil => rfl
  | @cons v w l l' hvw _ ih =>
    simp only [List.filter_cons, hvw.2]
    cases w.isEmpty <;> simp [hvw.1, ih]

/-- `NewUnion`, one `Update` per input, `Result` -/
def unionOf (sh lgK rf start : Nat) (o : Bool) (vs : List View) : Outcome Compact := do
  let u ← newUnion lgK rf start
  let u ← urun (some sh) u (vs.map .update)
  u.result (some sh) o

theorem sampled_union {sh lgK rf : Nat} (o : Bool) {u0 : Union}
    (hnew : newUnion lgK rf maxTheta = .ok u0) {n : Nat} {S : Fin n → (ι → Nat) → View}
    {P : Fin n → Finset ι} (s : ∀ j, Sampled sh (S j) (P j)) :
    ∃ U : (ι → Nat) → View,
      (∀ h, Proper h → ∃ c, unionOf sh lgK rf maxTheta o ((List.finRange n).map (S · h)) = .ok c ∧
        U h = c.view) ∧
      Sampled sh U (Finset.univ.biUnion P) ∧
      ∀ k, k ≤ 2 ^ lgK → (∀ j, Many k (S j) (P j)) → Many k U (Finset.univ.biUnion P) := by
  have hlg : lgK ≤ 26 ∧ 5 ≤ lgK := by
    have i := unew_inv hnew
    exact ⟨by have := i.tinv.lgNom; rw [i.lgk] at this; exact this, i.ge5⟩
  have h32k : 32 ≤ 2 ^ lgK := by
    have : 2 ^ 5 ≤ 2 ^ lgK := Nat.pow_le_pow_right (by omega) hlg.2
    omega
  have hmem : ∀ h v, v ∈ (List.finRange n).map (S · h) ↔ ∃ j, S j h = v := by
    intro h v; simp
  have hvalid : ∀ h, Proper h → ∀ v ∈ (List.finRange n).map (S · h), Valid v ∧ v.seedHash = sh := by
    intro h hp v hv
    obtain ⟨j, rfl⟩ := (hmem h v).mp hv
    exact ⟨((s j).input h hp).valid, ((s j).input h hp).seed⟩
  have hex : ∀ h, ∃ c : Compact, Proper h →
      unionOf sh lgK rf maxTheta o ((List.finRange n).map (S · h)) = .ok c ∧
      c.theta = (unionSpec (2 ^ lgK) maxTheta ((List.finRange n).map (S · h))).1 ∧
      sortN c.entries = (unionSpec (2 ^ lgK) maxTheta ((List.finRange n).map (S · h))).2 ∧
      c.seedHash = sh ∧ (c.isEmpty = true ↔ ∀ j, (S j h).isEmpty = true) ∧ Valid c.view := by
    intro h
    by_cases hp : Proper h
    · obtain ⟨u, e, i⟩ := urun_inv (lgK := lgK) (start := maxTheta) (sh := sh)
        (((List.finRange n).map (S · h)).map .update) u0 [] (unew_inv hnew) (by
          intro v hv
          obtain ⟨w, hw, he⟩ := List.mem_map.mp hv
          cases he
          exact ⟨(hvalid h hp v hw).1, fun _ => (hvalid h hp v hw).2⟩)
      rw [inputs_updates, List.nil_append] at i
      obtain ⟨c, e1, e2, e3, e4, e5, e6, -⟩ := result_spec (sh := sh) i (le_refl _)
        (fun v hv => (hvalid h hp v hv).1) o
      refine ⟨c, fun _ => ⟨?_, e2, e3, e4, ?_, e6⟩⟩
      · unfold unionOf
        rw [hnew, Outcome.ok_bind, e, Outcome.ok_bind, e1]
      · rw [e5]
        constructor
        · intro hh j; exact hh _ ((hmem h _).mpr ⟨j, rfl⟩)
        · intro hh v hv
          obtain ⟨j, rfl⟩ := (hmem h v).mp hv
          exact hh j
    · exact ⟨⟨[], 0, 0, true, true⟩, fun hc => absurd hc hp⟩
  choose C hC using hex
  -- the hashes below the smallest theta
  have hA : ∀ h, Proper h → ∀ m, m = minTheta maxTheta ((List.finRange n).map (S · h)) → ∀ v,
      v ∈ unionHashes m ((List.finRange n).map (S · h)) ↔
        v ∈ (vals h (Finset.univ.biUnion P)).filter (· < m) := by
    intro h hp m hm v
    rw [mem_unionHashes, Finset.mem_filter]
    unfold vals
    rw [Finset.mem_image]
    constructor
    · rintro ⟨⟨w, hw, hem, hv⟩, hl⟩
      obtain ⟨j, rfl⟩ := (hmem h w).mp hw
      obtain ⟨_, i, hi, e⟩ := ((s j).ret h hp v).mp hv
      exact ⟨⟨i, Finset.mem_biUnion.mpr ⟨j, Finset.mem_univ _, hi⟩, e⟩, hl⟩
    · rintro ⟨⟨i, hi, e⟩, hl⟩
      obtain ⟨j, -, hi⟩ := Finset.mem_biUnion.mp hi
      have hth : m ≤ (S j h).theta := by
        cases hem : (S j h).isEmpty
        · rw [hm]; exact minTheta_bounds.2 _ ((hmem h _).mpr ⟨j, rfl⟩) hem
        · rw [(s j).empty h hp hem, hm]; exact minTheta_bounds.1
      have hv := ((s j).ret h hp v).mpr ⟨by omega, i, hi, e⟩
      refine ⟨⟨S j h, (hmem h _).mpr ⟨j, rfl⟩, ?_, hv⟩, hl⟩
      cases hem : (S j h).isEmpty
      · rfl
      · rw [((s j).input h hp).valid.empty hem] at hv
        simp at hv
  have hAset : ∀ h, Proper h → ∀ m, m = minTheta maxTheta ((List.finRange n).map (S · h)) →
      (unionHashes m ((List.finRange n).map (S · h))).toFinset =
        (vals h (Finset.univ.biUnion P)).filter (· < m) := by
    intro h hp m hm
    ext v
    rw [List.mem_toFinset, hA h hp m hm]
  have hcut : ∀ h, Proper h → IsCut (2 ^ lgK) (2 ^ lgK) (vals h (Finset.univ.biUnion P))
      (minTheta maxTheta ((List.finRange n).map (S · h))) (C h).theta := by
    intro h hp
    rw [(hC h hp).2.1]
    generalize hm : minTheta maxTheta ((List.finRange n).map (S · h)) = m
    have hset := hAset h hp m hm.symm
    have hlen : ((vals h (Finset.univ.biUnion P)).filter (· < m)).card =
        (unionHashes m ((List.finRange n).map (S · h))).length := by
      rw [← hset, List.toFinset_card_of_nodup (unionHashes_nodup _ _)]
    unfold IsCut unionSpec
    simp only [hm]
    rw [hlen]
    by_cases hle : (unionHashes m ((List.finRange n).map (S · h))).length ≤ 2 ^ lgK
    · rw [if_pos hle, if_pos hle]
    · rw [if_neg hle, if_neg hle]
      have hk : 2 ^ lgK < (unionHashes m ((List.finRange n).map (S · h))).length := by omega
      have hin : (unionHashes m ((List.finRange n).map (S · h))).getD (2 ^ lgK) 0 ∈
          (vals h (Finset.univ.biUnion P)).filter (· < m) := by
        rw [← hset, List.mem_toFinset]
        simp [List.getD, hk]
      obtain ⟨i1, i2⟩ := Finset.mem_filter.mp hin
      refine ⟨i1, i2, ?_⟩
      have := sorted_cut (unionHashes_strict m ((List.finRange n).map (S · h))) hk
      rw [hset, Finset.filter_filter] at this
      refine Eq.trans ?_ this
      dsimp only
      congr 1
      apply Finset.filter_congr
      intro x _
      constructor
      · intro hx; exact ⟨by omega, hx⟩
      · intro hx; exact hx.2
  have hret : ∀ h, Proper h → ∀ v, v ∈ (C h).entries ↔ v < (C h).theta ∧
      ∃ i ∈ Finset.univ.biUnion P, h i = v := by
    intro h hp v
    have h3 := (hC h hp).2.2.1
    rw [← mem_sortN, h3, (hC h hp).2.1]
    generalize hm : minTheta maxTheta ((List.finRange n).map (S · h)) = m
    unfold unionSpec
    simp only [hm]
    have hmemA : ∀ x, x ∈ unionHashes m ((List.finRange n).map (S · h)) ↔
        x < m ∧ ∃ i ∈ Finset.univ.biUnion P, h i = x := by
      intro x
      rw [hA h hp m hm.symm, Finset.mem_filter]
      unfold vals
      rw [Finset.mem_image, and_comm]
    by_cases hle : (unionHashes m ((List.finRange n).map (S · h))).length ≤ 2 ^ lgK
    · rw [if_pos hle]
      exact hmemA v
    · rw [if_neg hle]
      dsimp only
      have hk : 2 ^ lgK < (unionHashes m ((List.finRange n).map (S · h))).length := by omega
      have hst := unionHashes_strict m ((List.finRange n).map (S · h))
      generalize unionHashes m ((List.finRange n).map (S · h)) = A at *
      have hget : A.getD (2 ^ lgK) 0 = A[2 ^ lgK] := by simp [List.getD, hk]
      rw [hget]
      constructor
      · intro hv
        rw [List.mem_take_iff_getElem] at hv
        obtain ⟨j, hj, rfl⟩ := hv
        refine ⟨(List.pairwise_iff_getElem.mp hst) j _ (by omega) hk (by omega), ?_⟩
        exact ((hmemA _).mp (List.getElem_mem (by omega))).2
      · rintro ⟨hl, hi⟩
        have hlm : A[2 ^ lgK] < m := ((hmemA _).mp (List.getElem_mem hk)).1
        have hvA : v ∈ A := (hmemA v).mpr ⟨by omega, hi⟩
        obtain ⟨j, hj, rfl⟩ := List.mem_iff_getElem.mp hvA
        rw [List.mem_take_iff_getElem]
        refine ⟨j, ?_, rfl⟩
        by_contra hc
        have hkj : 2 ^ lgK ≤ j := by omega
        rcases Nat.eq_or_lt_of_le hkj with e | e
        · simp only [← e] at hl; omega
        · have := (List.pairwise_iff_getElem.mp hst) _ j hk hj e
          omega
  have hcard : ∀ h, Proper h → (C h).entries.length =
      ((Finset.univ.biUnion P).filter fun i => h i < (C h).theta).card := by
    intro h hp
    have hnd : (C h).entries.Nodup := (hC h hp).2.2.2.2.2.nodup
    rw [← card_vals hp.1, ← List.toFinset_card_of_nodup hnd]
    congr 1
    ext v
    rw [List.mem_toFinset, Finset.mem_filter]
    unfold vals
    rw [Finset.mem_image, and_comm]
    exact hret h hp v
  refine ⟨fun h => (C h).view, fun h hp => ⟨C h, (hC h hp).1, rfl⟩, ⟨?_, ?_, ?_, ?_, ?_⟩, ?_⟩
  · intro h hp
    refine ⟨(hC h hp).2.2.2.2.2, (hC h hp).2.2.2.1, ?_⟩
    show (C h).entries.length ≤ maxRetained
    rw [← sortN_length, (hC h hp).2.2.1]
    have : 2 ^ lgK ≤ 2 ^ 26 := Nat.pow_le_pow_right (by omega) hlg.1
    unfold unionSpec
    dsimp only
    split
    · rename_i hle
      dsimp only
      unfold maxRetained
      omega
    · dsimp only
      rw [List.length_take]
      unfold maxRetained
      omega
  · exact fun h hp => hret h hp
  · intro h hp
    show 32 < (C h).theta
    have hc := hcut h hp
    unfold IsCut at hc
    split at hc
    · rw [hc]
      rcases minTheta_cases (start := maxTheta) (vs := (List.finRange n).map (S · h)) with e | ⟨v, hv, _, e⟩
      · rw [e]; decide
      · rw [e]
        obtain ⟨j, rfl⟩ := (hmem h v).mp hv
        exact (s j).low h hp
    · have h1 := hc.2.2
      rw [card_vals hp.1] at h1
      have h2 : ((Finset.univ.biUnion P).filter fun i => h i < (C h).theta).card ≤
          (Finset.Ico 1 (C h).theta).card := by
        apply Finset.card_le_card_of_injOn h
        · intro i hi
          simp only [Finset.coe_filter, Set.mem_ofPred_eq] at hi
          simp only [Finset.coe_Ico, Set.mem_Ico]
          exact ⟨hp.2 i, hi.2⟩
        · exact hp.1.injOn
      rw [Nat.card_Ico] at h2
      omega
  · intro h hp he
    show (C h).theta = maxTheta
    have hall := (hC h hp).2.2.2.2.1.mp he
    have hm : minTheta maxTheta ((List.finRange n).map (S · h)) = maxTheta := by
      rcases minTheta_cases (start := maxTheta) (vs := (List.finRange n).map (S · h)) with e | ⟨v, hv, hf, e⟩
      · exact e
      · obtain ⟨j, rfl⟩ := (hmem h v).mp hv
        rw [hall j] at hf; cases hf
    have hc := hcut h hp
    unfold IsCut at hc
    rw [hm] at hc
    split at hc
    · exact hc
    · -- no hash below the maximum
      exfalso
      obtain ⟨h1, h2, -⟩ := hc
      unfold vals at h1
      rw [Finset.mem_image] at h1
      obtain ⟨i, hi, e⟩ := h1
      obtain ⟨j, -, hi⟩ := Finset.mem_biUnion.mp hi
      have := ((s j).ret h hp (C h).theta).mpr
        ⟨by rw [(s j).empty h hp (hall j)]; exact h2, i, hi, e⟩
      rw [((s j).input h hp).valid.empty (hall j)] at this
      simp at this
  · intro h h' hp hp' hd
    have hd' : ∀ i, h i ≠ h' i → h i < (C h).theta ∧ h' i < (C h).theta := hd
    have hle := (hcut h hp).le
    have hstop : ∀ j, (S j h').theta = (S j h).theta ∧ (S j h').isEmpty = (S j h).isEmpty := by
      intro j
      apply (s j).stops_at hp hp' hd'
      refine hle.trans ?_
      cases hem : (S j h).isEmpty
      · exact minTheta_bounds.2 _ ((hmem h _).mpr ⟨j, rfl⟩) hem
      · rw [(s j).empty h hp hem]; exact minTheta_bounds.1
    constructor
    · show (C h').theta = (C h).theta
      have hm : minTheta maxTheta ((List.finRange n).map (S · h')) =
          minTheta maxTheta ((List.finRange n).map (S · h)) := by
        apply minTheta_congr
        rw [List.forall₂_map_left_iff, List.forall₂_map_right_iff, List.forall₂_same]
        intro j _
        exact hstop j
      have c1 := hcut h hp
      have c2 := hcut h' hp'
      rw [hm] at c2
      exact IsCut.same hp.1 hp'.1 hd' c1 c2 (le_refl _)
    · show (C h').isEmpty = (C h).isEmpty
      rw [Bool.eq_iff_iff, (hC h hp).2.2.2.2.1, (hC h' hp').2.2.2.2.1]
      constructor
      · intro hh j; rw [← (hstop j).2]; exact hh j
      · intro hh j; rw [(hstop j).2]; exact hh j
  · intro k hk hm h hp hne
    show k ≤ (C h).entries.length ∧ ∃ i ∈ Finset.univ.biUnion P, h i = (C h).theta
    have hne' : (C h).theta ≠ maxTheta := hne
    rw [hcard h hp]
    have hc := hcut h hp
    unfold IsCut at hc
    split at hc
    · rcases minTheta_cases (start := maxTheta) (vs := (List.finRange n).map (S · h)) with e | ⟨v, hv, _, e⟩
      · rw [e] at hc; exact absurd hc hne'
      · obtain ⟨j, rfl⟩ := (hmem h v).mp hv
        have hth : (C h).theta = (S j h).theta := hc.trans e
        obtain ⟨this, i, hi, hie⟩ := hm j h hp (by rw [← hth]; exact hne')
        rw [(s j).all_card hp] at this
        refine ⟨this.trans (Finset.card_le_card ?_), i,
          Finset.mem_biUnion.mpr ⟨j, Finset.mem_univ _, hi⟩, by rw [hie, hth]⟩
        intro i hi
        rw [Finset.mem_filter] at hi ⊢
        exact ⟨Finset.mem_biUnion.mpr ⟨j, Finset.mem_univ _, hi.1⟩, by rw [hth]; exact hi.2⟩
    · have := hc.2.2
      rw [card_vals hp.1] at this
      have h1 := hc.1
      unfold vals at h1
      exact ⟨by omega, Finset.mem_image.mp h1⟩

/-! ## intersection -/

/-- the same for the abstract state of an intersection -/
structure ISampled (A : (ι → Nat) → ISpec) (P : Finset ι) : Prop where
  ret : ∀ h, Proper h → ∀ v, v ∈ (A h).hashes ↔ v < (A h).theta ∧ ∃ i ∈ P, h i = v
  low : ∀ h, Proper h → 32 < (A h).theta
  le : ∀ h, Proper h → (A h).theta ≤ maxTheta
  empty : ∀ h, Proper h → (A h).empty = true → (A h).theta = maxTheta ∧ (A h).hashes = []
  stops : ∀ h h', Proper h → Proper h' →
    (∀ i, h i ≠ h' i → h i < (A h).theta ∧ h' i < (A h).theta) →
    (A h').theta = (A h).theta ∧ (A h').empty = (A h).empty

omit [DecidableEq ι] in
theorem isampled_first {sh : Nat} {S : (ι → Nat) → View} {P : Finset ι} (s : Sampled sh S P) :
    ISampled (fun h => istep none (S h)) P := by
  have hth : ∀ h, Proper h → (istep none (S h)).theta = (S h).theta := by
    intro h hp
    unfold istep
    by_cases he : (S h).isEmpty = true
    · simp [he, s.empty h hp he]
    · simp [he]
  have hem : ∀ h, (istep none (S h)).empty = (S h).isEmpty := by
    intro h
    unfold istep
    by_cases he : (S h).isEmpty = true
    · simp [he]
    · simp [he]
  have hha : ∀ h, Proper h → (istep none (S h)).hashes = sortN (S h).all := by
    intro h hp
    unfold istep
    by_cases he : (S h).isEmpty = true
    · rw [if_pos he, (s.input h hp).valid.empty he]
      exact (sortN_eq_nil.mpr rfl).symm
    · simp [he]
  refine ⟨?_, ?_, ?_, ?_, ?_⟩
  · intro h hp v
    rw [hth h hp, hha h hp, mem_sortN]
    exact s.ret h hp v
  · intro h hp; rw [hth h hp]; exact s.low h hp
  · intro h hp; rw [hth h hp]; exact (s.input h hp).valid.theta
  · intro h hp he
    rw [hem] at he
    rw [hth h hp, hha h hp, (s.input h hp).valid.empty he]
    exact ⟨s.empty h hp he, sortN_eq_nil.mpr rfl⟩
  · intro h h' hp hp' hd
    rw [hth h hp] at hd
    rw [hth h hp, hth h' hp', hem, hem]
    exact s.stops h h' hp hp' hd

omit [DecidableEq ι] in
theorem nil_iff {l : List Nat} {h : ι → Nat} {P : Finset ι} {a : Nat}
    (hl : ∀ v, v ∈ l ↔ v < a ∧ ∃ i ∈ P, h i = v) : l = [] ↔ ¬ ∃ i ∈ P, h i < a := by
  rw [List.eq_nil_iff_forall_not_mem]
  constructor
  · rintro hn ⟨i, hi, hlt⟩
    exact hn (h i) ((hl _).mpr ⟨hlt, i, hi, rfl⟩)
  · intro hn v hv
    obtain ⟨h1, i, hi, rfl⟩ := (hl v).mp hv
    exact hn ⟨i, hi, h1⟩

theorem isampled_step {sh : Nat} {A : (ι → Nat) → ISpec} {S : (ι → Nat) → View} {P Q : Finset ι}
    (a : ISampled A P) (s : Sampled sh S Q) :
    ISampled (fun h => istep (some (A h)) (S h)) (P ∩ Q) := by
  -- the three cases
  have c1 : ∀ h, (A h).empty = true → istep (some (A h)) (S h) = A h := by
    intro h he; simp [istep, he]
  have c2 : ∀ h, (A h).empty = false → (S h).isEmpty = true →
      istep (some (A h)) (S h) = ⟨true, maxTheta, []⟩ := by
    intro h he hs; simp [istep, he, hs]
  have c3 : ∀ h, (A h).empty = false → (S h).isEmpty = false →
      istep (some (A h)) (S h) =
        ⟨decide ((A h).hashes.filter (fun x => decide (x < min (A h).theta (S h).theta) &&
            decide (x ∈ (S h).all)) = [] ∧ (A h).hashes ≠ [] ∧ (S h).all ≠ [] ∧
            min (A h).theta (S h).theta = maxTheta),
          min (A h).theta (S h).theta,
          (A h).hashes.filter (fun x => decide (x < min (A h).theta (S h).theta) &&
            decide (x ∈ (S h).all))⟩ := by
    intro h he hs; simp [istep, he, hs]
  have r3 : ∀ h, Proper h → ∀ v, v ∈ (A h).hashes.filter (fun x =>
      decide (x < min (A h).theta (S h).theta) && decide (x ∈ (S h).all)) ↔
      v < min (A h).theta (S h).theta ∧ ∃ i ∈ P ∩ Q, h i = v := by
    intro h hp v
    rw [List.mem_filter, Bool.and_eq_true, decide_eq_true_eq, decide_eq_true_eq, a.ret h hp,
      s.ret h hp]
    constructor
    · rintro ⟨⟨-, i, hi, ei⟩, hl, -, j, hj, ej⟩
      have : i = j := hp.1 (ei.trans ej.symm)
      subst this
      exact ⟨hl, i, Finset.mem_inter.mpr ⟨hi, hj⟩, ei⟩
    · rintro ⟨hl, i, hi, ei⟩
      obtain ⟨h1, h2⟩ := Finset.mem_inter.mp hi
      exact ⟨⟨by omega, i, h1, ei⟩, hl, by omega, i, h2, ei⟩
  have e1 : ∀ h, Proper h → (A h).empty = true → ¬ ∃ i ∈ P, h i < maxTheta := by
    intro h hp he
    obtain ⟨t, n⟩ := a.empty h hp he
    have := (nil_iff (a.ret h hp)).mp n
    rwa [t] at this
  have e2 : ∀ h, Proper h → (S h).isEmpty = true → ¬ ∃ i ∈ Q, h i < maxTheta := by
    intro h hp he
    have := (nil_iff (s.ret h hp)).mp ((s.input h hp).valid.empty he)
    rwa [s.empty h hp he] at this
  have cases3 : ∀ h, (A h).empty = true ∨ ((A h).empty = false ∧ (S h).isEmpty = true) ∨
      ((A h).empty = false ∧ (S h).isEmpty = false) := by
    intro h
    cases (A h).empty <;> cases (S h).isEmpty <;> simp
  refine ⟨?_, ?_, ?_, ?_, ?_⟩
  · intro h hp v
    rcases cases3 h with he | ⟨he, hs⟩ | ⟨he, hs⟩
    · rw [c1 h he, (a.empty h hp he).2, (a.empty h hp he).1]
      constructor
      · simp
      · rintro ⟨hl, i, hi, rfl⟩
        exact absurd ⟨i, (Finset.mem_inter.mp hi).1, hl⟩ (e1 h hp he)
    · rw [c2 h he hs]
      constructor
      · simp
      · rintro ⟨hl, i, hi, rfl⟩
        exact absurd ⟨i, (Finset.mem_inter.mp hi).2, hl⟩ (e2 h hp hs)
    · rw [c3 h he hs]
      exact r3 h hp v
  · intro h hp
    rcases cases3 h with he | ⟨he, hs⟩ | ⟨he, hs⟩
    · rw [c1 h he]; exact a.low h hp
    · rw [c2 h he hs]; decide
    · rw [c3 h he hs]; exact lt_min (a.low h hp) (s.low h hp)
  · intro h hp
    rcases cases3 h with he | ⟨he, hs⟩ | ⟨he, hs⟩
    · rw [c1 h he]; exact a.le h hp
    · rw [c2 h he hs]
    · rw [c3 h he hs]; exact (min_le_left _ _).trans (a.le h hp)
  · intro h hp hem
    rcases cases3 h with he | ⟨he, hs⟩ | ⟨he, hs⟩
    · rw [c1 h he]; exact a.empty h hp he
    · rw [c2 h he hs]; exact ⟨rfl, rfl⟩
    · rw [c3 h he hs] at hem ⊢
      rw [decide_eq_true_eq] at hem
      exact ⟨hem.2.2.2, hem.1⟩
  · intro h h' hp hp' hd
    rcases cases3 h with he | ⟨he, hs⟩ | ⟨he, hs⟩
    · rw [c1 h he] at hd ⊢
      obtain ⟨t, e⟩ := a.stops h h' hp hp' hd
      rw [he] at e
      rw [c1 h' e]
      exact ⟨t, by rw [e, he]⟩
    · rw [c2 h he hs] at hd ⊢
      have hs' := (s.stops_at hp hp' hd (by rw [s.empty h hp hs])).2
      rw [hs] at hs'
      cases he' : (A h').empty
      · rw [c2 h' he' hs']; exact ⟨rfl, rfl⟩
      · rw [c1 h' he']; exact ⟨(a.empty h' hp' he').1, he'⟩
    · rw [c3 h he hs] at hd ⊢
      dsimp only at hd ⊢
      obtain ⟨t1, t2⟩ := a.stops h h' hp hp' (fun i hi => by
        have := hd i hi
        have := min_le_left (A h).theta (S h).theta
        omega)
      obtain ⟨t3, t4⟩ := s.stops_at hp hp' hd (min_le_right _ _)
      rw [c3 h' (by rw [t2, he]) (by rw [t4, hs])]
      dsimp only
      have q3 := nil_iff (r3 h' hp')
      rw [t1, t3] at q3 ⊢
      refine ⟨rfl, ?_⟩
      rw [decide_eq_decide]
      have key : ∀ R : Finset ι, min (A h).theta (S h).theta = maxTheta →
          ((∃ i ∈ R, h i < maxTheta) ↔ ∃ i ∈ R, h' i < maxTheta) :=
        fun R hm => some_below hd (by rw [hm]) R
      have p1 := nil_iff (a.ret h hp)
      have p2 := nil_iff (s.ret h hp)
      have p3 := nil_iff (r3 h hp)
      have q1 := nil_iff (a.ret h' hp')
      have q2 := nil_iff (s.ret h' hp')
      rw [t1] at q1
      rw [t3] at q2
      by_cases hm : min (A h).theta (S h).theta = maxTheta
      · have ha := a.le h hp
        have hsl := (s.input h hp).valid.theta
        have h1 : (A h).theta = maxTheta := by omega
        have h2 : (S h).theta = maxTheta := by omega
        rw [h1] at p1 q1
        rw [h2] at p2 q2
        rw [hm] at p3 q3 ⊢
        rw [Ne, Ne, Ne, Ne, p1, p2, p3, q1, q2, q3, key P hm, key Q hm, key (P ∩ Q) hm]
      · constructor
        · intro hh; exact absurd hh.2.2.2 hm
        · intro hh; exact absurd hh.2.2.2 hm

theorem isampled_run {κ : Type} {sh : Nat} {S : κ → (ι → Nat) → View} {P : κ → Finset ι}
    (s : ∀ j, Sampled sh (S j) (P j)) : ∀ (js : List κ) (A : (ι → Nat) → ISpec) (Q : Finset ι),
    ISampled A Q → ∃ B : (ι → Nat) → ISpec,
      (∀ h, (js.map (S · h)).foldl (fun s v => some (istep s v)) (some (A h)) = some (B h)) ∧
      ISampled B (Q.filter fun i => ∀ j ∈ js, i ∈ P j) := by
  intro js
  induction js with
  | nil =>
    intro A Q a
    refine ⟨A, fun h => rfl, ?_⟩
    rwa [show (Q.filter fun i => ∀ j ∈ ([] : List κ), i ∈ P j) = Q by simp]
  | cons j js ih =>
    intro A Q a
    obtain ⟨B, hB, b⟩ := ih _ _ (isampled_step a (s j))
    refine ⟨B, fun h => ?_, ?_⟩
    · rw [List.map_cons, List.foldl_cons]
      exact hB h
    · have : (Q.filter fun i => ∀ k ∈ j :: js, i ∈ P k) =
          ((Q ∩ P j).filter fun i => ∀ k ∈ js, i ∈ P k) := by
        ext i
        simp only [Finset.mem_filter, Finset.mem_inter, List.mem_cons, forall_eq_or_imp]
        tauto
      rw [this]
      exact b

/-- `NewIntersection`, one `Update` per input, `Result` -/
def interOf (sh : Nat) (o : Bool) (vs : List View) : Outcome Compact := do
  let s ← irun (some sh) newInter vs
  s.result (some sh) o

theorem sampled_inter {sh : Nat} (o : Bool) {n : Nat} {S : Fin (n + 1) → (ι → Nat) → View}
    {P : Fin (n + 1) → Finset ι} (s : ∀ j, Sampled sh (S j) (P j)) :
    ∃ U : (ι → Nat) → View,
      (∀ h, Proper h → ∃ c, interOf sh o ((List.finRange (n + 1)).map (S · h)) = .ok c ∧
        U h = c.view) ∧
      Sampled sh U ((P 0).filter fun i => ∀ j, i ∈ P j) := by
  have hfr : List.finRange (n + 1) = 0 :: (List.finRange n).map Fin.succ := List.finRange_succ
  obtain ⟨B, hB, b⟩ := isampled_run s ((List.finRange n).map Fin.succ) _ _ (isampled_first (s 0))
  have hset : ((P 0).filter fun i => ∀ j ∈ (List.finRange n).map Fin.succ, i ∈ P j) =
      ((P 0).filter fun i => ∀ j, i ∈ P j) := by
    ext i
    simp only [Finset.mem_filter, List.mem_map, List.mem_finRange, true_and,
      forall_exists_index, forall_apply_eq_imp_iff]
    constructor
    · rintro ⟨h0, h1⟩
      refine ⟨h0, fun j => ?_⟩
      refine Fin.cases h0 h1 j
    · rintro ⟨h0, h1⟩
      exact ⟨h0, fun j => h1 _⟩
  replace b : ISampled B ((P 0).filter fun i => ∀ j, i ∈ P j) := by
    rw [← hset]; convert b
  have hex : ∀ h, ∃ c : Compact, Proper h →
      interOf sh o ((List.finRange (n + 1)).map (S · h)) = .ok c ∧ c.isEmpty = (B h).empty ∧
      c.theta = (B h).theta ∧ sortN c.entries = (B h).hashes ∧ Valid c.view ∧ c.seedHash = sh ∧
      c.entries.length ≤ maxRetained := by
    intro h
    by_cases hp : Proper h
    · obtain ⟨st, c, a, e1, e2, ha, hem, hth, hent, hval, hsh, -, hlen⟩ :=
        inter_refines (sh := sh) ((List.finRange (n + 1)).map (S · h)) (by rw [hfr]; simp)
        (by
          intro v hv
          obtain ⟨j, -, rfl⟩ := List.mem_map.mp hv
          exact (s j).input h hp) o
      have hab : a = B h := by
        have := hB h
        unfold ispec at ha
        rw [hfr, List.map_cons, List.foldl_cons] at ha
        rw [ha] at this
        exact Option.some.inj this
      subst hab
      refine ⟨c, fun _ => ⟨?_, hem, hth, hent, hval, hsh, hlen⟩⟩
      unfold interOf
      rw [e1, Outcome.ok_bind, e2]
    · exact ⟨⟨[], 0, 0, true, true⟩, fun hc => absurd hc hp⟩
  choose C hC using hex
  refine ⟨fun h => (C h).view, fun h hp => ⟨C h, (hC h hp).1, rfl⟩, ?_, ?_, ?_, ?_, ?_⟩
  · intro h hp
    exact ⟨(hC h hp).2.2.2.2.1, (hC h hp).2.2.2.2.2.1, (hC h hp).2.2.2.2.2.2⟩
  · intro h hp v
    show v ∈ (C h).entries ↔ v < (C h).theta ∧ _
    rw [← mem_sortN, (hC h hp).2.2.2.1, (hC h hp).2.2.1]
    exact b.ret h hp v
  · intro h hp
    show 32 < (C h).theta
    rw [(hC h hp).2.2.1]; exact b.low h hp
  · intro h hp he
    have he' : (C h).isEmpty = true := he
    show (C h).theta = maxTheta
    rw [(hC h hp).2.1] at he'
    rw [(hC h hp).2.2.1]; exact (b.empty h hp he').1
  · intro h h' hp hp' hd
    have hd' : ∀ i, h i ≠ h' i → h i < (C h).theta ∧ h' i < (C h).theta := hd
    show (C h').theta = (C h).theta ∧ (C h').isEmpty = (C h).isEmpty
    rw [(hC h hp).2.2.1] at hd' ⊢
    rw [(hC h' hp').2.2.1, (hC h hp).2.1, (hC h' hp').2.1]
    exact b.stops h h' hp hp' hd'

/-! ## difference -/

theorem sampled_diff {sh : Nat} (o : Bool) {S S' : (ι → Nat) → View} {P Q : Finset ι}
    (s : Sampled sh S P) (s' : Sampled sh S' Q) :
    ∃ U : (ι → Nat) → View,
      (∀ h, Proper h → ∃ c, aNotB (S h) (S' h) (some sh) o = .ok c ∧ U h = c.view) ∧
      Sampled sh U (P \ Q) := by
  have hex : ∀ h, ∃ c : Compact, Proper h → aNotB (S h) (S' h) (some sh) o = .ok c ∧
      Valid c.view ∧
      c.theta = (if (S h).isEmpty then (S h).theta else min (S h).theta (S' h).theta) ∧
      (∀ v, v ∈ c.entries ↔ v ∈ (S h).all ∧ v ∉ (S' h).all ∧ v < c.theta) ∧ c.seedHash = sh ∧
      (c.isEmpty = true ↔ (S h).isEmpty = true ∨ (c.entries = [] ∧ c.theta = maxTheta)) := by
    intro h
    by_cases hp : Proper h
    · obtain ⟨c, e1, e2, e3, e4, -, e5, -, e6⟩ := C10_a_not_b_result sh (S h) (S' h) (s.input h hp)
        (s'.input h hp) (s'.empty h hp) o
      exact ⟨c, fun _ => ⟨e1, e2, e3, e4, e5, e6⟩⟩
    · exact ⟨⟨[], 0, 0, true, true⟩, fun hc => absurd hc hp⟩
  choose C hC using hex
  have hret : ∀ h, Proper h → ∀ v, v ∈ (C h).entries ↔ v < (C h).theta ∧ ∃ i ∈ P \ Q, h i = v := by
    intro h hp v
    obtain ⟨-, -, e3, e4, -, -⟩ := hC h hp
    rw [e4, s.ret h hp]
    constructor
    · rintro ⟨⟨-, i, hi, rfl⟩, hn, hl⟩
      refine ⟨hl, i, Finset.mem_sdiff.mpr ⟨hi, fun hq => hn ?_⟩, rfl⟩
      rw [s'.ret h hp]
      refine ⟨?_, i, hq, rfl⟩
      rw [e3] at hl
      split at hl
      · rename_i he
        have hnil := (s.input h hp).valid.empty he
        have := (s.ret h hp (h i)).mpr ⟨hl, i, hi, rfl⟩
        rw [hnil] at this; simp at this
      · omega
    · rintro ⟨hl, i, hi, rfl⟩
      obtain ⟨h1, h2⟩ := Finset.mem_sdiff.mp hi
      refine ⟨⟨?_, i, h1, rfl⟩, ?_, hl⟩
      · rw [e3] at hl
        split at hl <;> omega
      · intro hq
        obtain ⟨-, j, hj, ej⟩ := (s'.ret h hp _).mp hq
        have := hp.1 ej
        subst this
        exact h2 hj
  refine ⟨fun h => (C h).view, fun h hp => ⟨C h, (hC h hp).1, rfl⟩, ?_, hret, ?_, ?_, ?_⟩
  · intro h hp
    obtain ⟨-, e2, e3, e4, e5, -⟩ := hC h hp
    refine ⟨e2, e5, ?_⟩
    show (C h).entries.length ≤ maxRetained
    have hnd : (C h).entries.Nodup := e2.nodup
    have := (List.subperm_of_subset hnd (fun v hv => ((e4 v).mp hv).1)).length_le
    have h2 := (s.input h hp).size
    rw [(s.input h hp).valid.num] at h2
    omega
  · intro h hp
    show 32 < (C h).theta
    rw [(hC h hp).2.2.1]
    have := s.low h hp
    have := s'.low h hp
    split
    · assumption
    · exact lt_min ‹_› ‹_›
  · intro h hp he
    obtain ⟨-, -, e3, -, -, e6⟩ := hC h hp
    show (C h).theta = maxTheta
    rcases e6.mp he with h1 | h1
    · rw [e3, if_pos h1]; exact s.empty h hp h1
    · exact h1.2
  · intro h h' hp hp' hd
    have hd' : ∀ i, h i ≠ h' i → h i < (C h).theta ∧ h' i < (C h).theta := hd
    show (C h').theta = (C h).theta ∧ (C h').isEmpty = (C h).isEmpty
    obtain ⟨-, -, e3, -, -, e6⟩ := hC h hp
    obtain ⟨-, -, f3, -, -, f6⟩ := hC h' hp'
    have hle : (C h).theta ≤ (S h).theta := by
      rw [e3]; split
      · exact le_refl _
      · exact min_le_left _ _
    obtain ⟨t1, t2⟩ := s.stops_at hp hp' hd' hle
    cases he : (S h).isEmpty
    · have hle' : (C h).theta ≤ (S' h).theta := by
        rw [e3, he]; exact min_le_right _ _
      obtain ⟨t3, t4⟩ := s'.stops_at hp hp' hd' hle'
      have hth : (C h').theta = (C h).theta := by rw [e3, f3, t1, t2, t3]
      refine ⟨hth, ?_⟩
      rw [Bool.eq_iff_iff, e6, f6, t2, he, hth, nil_iff (hret h hp), nil_iff (hret h' hp'), hth,
        some_below hd' (le_refl _) (P \ Q)]
    · rw [he] at t2
      have h1 : (C h).theta = (S h).theta := by rw [e3, he]; rfl
      have h2 : (C h').theta = (S h').theta := by rw [f3, t2]; rfl
      refine ⟨by rw [h1, h2, t1], ?_⟩
      rw [e6.mpr (Or.inl he), f6.mpr (Or.inl t2)]

end Verif.Theta
