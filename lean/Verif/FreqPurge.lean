import Verif.FreqDelete
import Verif.QuickSelectProps
import Mathlib.Algebra.Order.BigOperators.Group.List

/-!
# Purging, resizing and iterating the reverse-purge hash map
-/

set_option linter.unusedSectionVars false

namespace Verif.Freq

variable {κ : Type} [DecidableEq κ] {c : Cfg κ}

/-! ## sampling -/

theorem sampleLoop_eq : ∀ (t : List (Slot κ)) (limit : Nat), limit ≤ (active t).length →
    sampleLoop t limit = .ok (((active t).map Prod.snd).take limit) := by
  intro t
  induction t with
  | nil =>
    intro limit h
    have : limit = 0 := by simpa [active] using h
    subst this
    rfl
  | cons s t ih =>
    intro limit h
    cases limit with
    | zero => simp [sampleLoop]
    | succ limit =>
      rw [sampleLoop]
      by_cases hs : s.st > 0
      · rw [if_pos hs]
        have ha : active (s :: t) = (s.key, s.val) :: active t := by simp [active, hs]
        rw [ha] at h ⊢
        rw [ih limit (by simpa using h)]
        rfl
      · rw [if_neg hs]
        have ha : active (s :: t) = active t := by simp [active, hs]
        rw [ha] at h ⊢
        exact ih (limit + 1) h

theorem ltInt_strictWeak : QuickSelect.StrictWeak ltInt := by
  have h := QuickSelect.ltOf_strictWeak (α := Int)
  exact h

/-- the selected value has at least `limit/2 + 1` samples below or equal and `limit - limit/2`
samples above or equal -/
theorem median_spec (l : List Int) (hl : 0 < l.length) :
    ∃ l' v, QuickSelect.quickSelect ltInt l 0 ((l.length : Int) - 1) (l.length / 2) = some (l', v) ∧
      v ∈ l ∧ l.length / 2 + 1 ≤ l.countP (fun x => decide (x ≤ v)) ∧
      l.length - l.length / 2 ≤ l.countP (fun x => decide (v ≤ x)) := by
  have hp : l.length / 2 < l.length := by omega
  obtain ⟨arr, v, h1, h2, _, h4, h5, h6⟩ := QuickSelect.C05_quickSelect_splits ltInt
    ltInt_strictWeak l 0 (l.length - 1) (l.length / 2) (by omega) (by omega) (by omega)
  have hc : (((l.length - 1 : Nat) : Int)) = (l.length : Int) - 1 := by omega
  rw [hc] at h1
  have hlen := h2.length_eq
  refine ⟨arr, v, h1, h2.mem_iff.mp (List.mem_of_getElem? h4), ?_, ?_⟩
  · rw [← h2.countP_eq]
    have : ((arr.take (l.length / 2 + 1)).countP (fun x => decide (x ≤ v))) = l.length / 2 + 1 := by
      rw [List.countP_eq_length.mpr, List.length_take]
      · omega
      · intro x hx
        obtain ⟨i, hi⟩ := List.mem_iff_getElem?.mp hx
        rw [List.getElem?_take] at hi
        split at hi
        · have := h5 i x (by omega) (by omega) hi
          simp only [ltInt, decide_eq_false_iff_not] at this
          simpa using this
        · cases hi
    rw [← this]
    exact (List.take_sublist _ _).countP_le
  · rw [← h2.countP_eq]
    have : ((arr.drop (l.length / 2)).countP (fun x => decide (v ≤ x))) = l.length - l.length / 2 := by
      rw [List.countP_eq_length.mpr, List.length_drop]
      · omega
      · intro x hx
        obtain ⟨i, hi⟩ := List.mem_iff_getElem?.mp hx
        rw [List.getElem?_drop] at hi
        have hlt := lt_of_some hi
        have := h6 (l.length / 2 + i) x (by omega) (by omega) hi
        simp only [ltInt, decide_eq_false_iff_not] at this
        simpa using this
    rw [← this]
    exact (List.drop_sublist _ _).countP_le

/-! ## shifting all values -/

theorem adjustAll_get (t : List (Slot κ)) (a : Int) (p : Nat) :
    (adjustAll t a)[p]? = (t[p]?).map (fun s => { s with val := wrap 8 (s.val + a) }) := by
  simp [adjustAll]

theorem adjustAll_inv (hi : MapInv c lg t none) (a : Int) : MapInv c lg (adjustAll t a) none := by
  have hold : ∀ (p : Nat) (s : Slot κ), (adjustAll t a)[p]? = some s →
      ∃ r, t[p]? = some r ∧ r.st = s.st ∧ r.key = s.key := by
    intro p s hp
    rw [adjustAll_get] at hp
    cases hr : t[p]? with
    | none => rw [hr] at hp; simp at hp
    | some r =>
      rw [hr] at hp
      simp only [Option.map_some, Option.some.injEq] at hp
      subst hp
      exact ⟨r, rfl, rfl, rfl⟩
  refine ⟨by simp [adjustAll, hi.len], ?_, ?_⟩
  · intro p s hp hs
    obtain ⟨r, hr, h1, h2⟩ := hold p s hp
    obtain ⟨d, g1, g2, g3, g4, g5⟩ := hi.path p r hr (by rw [h1]; exact hs)
    rw [h1] at g1
    rw [h2] at g4 g5
    refine ⟨d, g1, g2, g3, g4, ?_⟩
    intro j hj
    rcases g5 j hj with hO | hO
    · obtain ⟨u, hu, hu0⟩ := hO
      exact Or.inl ⟨{ u with val := wrap 8 (u.val + a) }, by rw [adjustAll_get, hu]; rfl, hu0⟩
    · simp at hO
  · intro p q s u hp hs hq hu hk
    obtain ⟨r, hr, h1, h2⟩ := hold p s hp
    obtain ⟨r', hr', h1', h2'⟩ := hold q u hq
    exact hi.uniq p q r r' hr (by rw [h1]; exact hs) hr' (by rw [h1']; exact hu) (by rw [h2, h2', hk])

theorem adjustAll_items (t : List (Slot κ)) (a : Int) :
    items (adjustAll t a) = (items t).map (fun e => (e.1, wrap 8 (e.2 + a))) := by
  unfold items adjustAll
  induction t with
  | nil => rfl
  | cons s t ih =>
    rw [List.map_cons, List.filter_cons, List.filter_cons]
    by_cases h : s.st = 0
    · simp only [h, decide_true, Bool.not_true, Bool.false_eq_true, if_false]
      exact ih
    · simp only [h, decide_false, Bool.not_false, if_true, List.map_cons]
      rw [ih]

/-! ## purge -/

theorem inRange8 {x : Int} (h1 : -(2 ^ 63) ≤ x) (h2 : x < 2 ^ 63) : InRange 8 x := by
  constructor
  · norm_num; norm_num at h1; omega
  · norm_num; norm_num at h2; omega

/-- `purge`: subtract a sampled median from every counter and drop the counters that are not
positive any more. -/
theorem purge_spec (hok : c.Ok) {m : Map κ} (hw : WF c m) (hf : Fits c m.lg) (sampleSize : Nat)
    (hs : 1 ≤ sampleSize) (hn1 : 1 ≤ m.num) (hn : m.num < 2 ^ m.lg)
    (hv : ∀ e ∈ items m.slots, 0 < e.2 ∧ e.2 < 2 ^ 63) :
    ∃ m' v, purge c m sampleSize = .ok (m', v) ∧ WF c m' ∧ m'.lg = m.lg ∧ 0 < v ∧ v < 2 ^ 63 ∧
      (items m'.slots).Perm
        (((items m.slots).map (fun e => (e.1, e.2 - v))).filter (fun e => decide (0 < e.2))) ∧
      min sampleSize m.num / 2 + 1 ≤ (items m.slots).countP (fun e => decide (e.2 ≤ v)) ∧
      min sampleSize m.num - min sampleSize m.num / 2 ≤
        (items m.slots).countP (fun e => decide (v ≤ e.2)) := by
  have hi := hw.inv
  have hact := active_eq_items hi
  have hlim : min sampleSize m.num ≤ (active m.slots).length := by rw [hact, ← hw.num]; omega
  set samples := ((active m.slots).map Prod.snd).take (min sampleSize m.num) with hsam
  have hslen : samples.length = min sampleSize m.num := by
    rw [hsam, List.length_take, List.length_map]; omega
  obtain ⟨l', v, hq, hvm, hle, hge⟩ := median_spec samples (by omega)
  rw [hslen] at hq hle hge
  have hsub : samples.Sublist ((items m.slots).map Prod.snd) := by
    rw [hsam, hact]; exact List.take_sublist _ _
  obtain ⟨e0, he0, hev⟩ := List.mem_map.mp (hsub.subset hvm)
  have hvr := hv e0 he0
  rw [hev] at hvr
  have hneg : wrap 8 (-1 * v) = -v := by
    rw [wrap_of_inRange (inRange8 (by omega) (by omega))]; ring
  have hinv2 := adjustAll_inv hi (-v)
  have hit2 := adjustAll_items m.slots (-v)
  have hit3 : items (adjustAll m.slots (-v)) = (items m.slots).map (fun e => (e.1, e.2 - v)) := by
    rw [hit2]
    apply List.map_congr_left
    intro e he
    have := hv e he
    rw [wrap_of_inRange (inRange8 (by omega) (by omega))]
    rfl
  obtain ⟨t', hk, hk2, hk3⟩ := keepOnlyPositive_spec hok hf hinv2
    (by rw [hit3, List.length_map, ← hw.num]; exact hn)
  rw [hit3] at hk3
  refine ⟨{ m with slots := t', num := (items t').length }, v, ?_, ⟨hk2, rfl⟩, rfl, hvr.1, hvr.2,
    hk3, ?_, ?_⟩
  · unfold purge
    simp only
    rw [sampleLoop_eq _ _ hlim]
    simp only [Outcome.ok_bind]
    rw [← hsam, hslen, hq]
    simp only
    rw [hneg, hw.num]
    have hlen : (items m.slots).length = (items (adjustAll m.slots (-v))).length := by
      rw [hit3, List.length_map]
    rw [hlen, hk]
    rfl
  · refine le_trans hle (le_trans hsub.countP_le ?_)
    rw [List.countP_map]; exact le_refl _
  · refine le_trans hge (le_trans hsub.countP_le ?_)
    rw [List.countP_map]; exact le_refl _

/-! ## resize -/

theorem resizeLoop_spec (hok : c.Ok) {lg : Nat} (hf : Fits c lg) (hlg : 3 ≤ lg) :
    ∀ (ss : List (Slot κ)) (m : Map κ), WF c m → m.lg = lg → (∀ s ∈ ss, s.st ≠ 0 → s.st > 0) →
      ((items ss).map Prod.fst ++ (items m.slots).map Prod.fst).Nodup →
      m.num + (items ss).length ≤ capOf (2 ^ lg) →
      (∃ d, d < 2 ^ lg ∧ c.over d = true ∧ resizeLoop c ss m = .err "drift >= driftLimit") ∨
      (∃ m', resizeLoop c ss m = .ok m' ∧ WF c m' ∧ m'.lg = lg ∧
        (items m'.slots).Perm (items ss ++ items m.slots)) := by
  have hn4 : capOf (2 ^ lg) + 1 < 2 ^ lg := by
    obtain ⟨j, rfl⟩ : ∃ j, lg = j + 3 := ⟨lg - 3, by omega⟩
    have := Nat.two_pow_pos j
    unfold capOf; rw [pow_add]; omega
  intro ss
  induction ss with
  | nil =>
    intro m hw hlgm _ _ _
    exact Or.inr ⟨m, rfl, hw, hlgm, by simp [items]⟩
  | cons s ss ih =>
    intro m hw hlgm hst hnd hcap
    rw [resizeLoop]
    by_cases h0 : s.st = 0
    · have hit : items (s :: ss) = items ss := by simp [items, h0]
      rw [if_neg (by omega), hit]
      rw [hit] at hnd hcap
      exact ih m hw hlgm (fun s' hs' => hst s' (List.mem_cons_of_mem _ hs')) hnd hcap
    · have hit : items (s :: ss) = (s.key, s.val) :: items ss := by simp [items, h0]
      rw [if_pos (hst s (List.mem_cons_self ..) h0), hit]
      rw [hit] at hnd hcap
      rw [List.length_cons] at hcap
      rw [List.map_cons, List.cons_append, List.nodup_cons] at hnd
      have habs : ∀ v, (s.key, v) ∉ items m.slots := by
        intro v hv
        exact hnd.1 (List.mem_append_right _ (List.mem_map.mpr ⟨_, hv, rfl⟩))
      subst hlgm
      rcases adjustOrPut_spec hok hw hf (by omega) (by omega) s.key s.val with
        ⟨i, h1, h2, h3⟩ | ⟨m1, h1, h2, h3, h4⟩
      · left
        exact ⟨i + 1, h1, h2, by rw [h3]; rfl⟩
      · rw [h1]
        simp only [Outcome.ok_bind]
        rcases h4 with ⟨v, l, hp, _⟩ | ⟨_, hp, hnum⟩
        · exact absurd (hp.mem_iff.mpr (List.mem_cons_self ..)) (habs v)
        · have hnd1 : ((items ss).map Prod.fst ++ (items m1.slots).map Prod.fst).Nodup := by
            have hp' := hp.map Prod.fst
            rw [List.map_cons] at hp'
            have := (List.Perm.append_left ((items ss).map Prod.fst) hp').nodup_iff
            rw [this]
            have hmid : ((items ss).map Prod.fst ++ s.key :: (items m.slots).map Prod.fst).Perm
                (s.key :: ((items ss).map Prod.fst ++ (items m.slots).map Prod.fst)) :=
              List.perm_middle
            rw [hmid.nodup_iff, List.nodup_cons]
            exact hnd
          rcases ih m1 h2 h3 (fun s' hs' => hst s' (List.mem_cons_of_mem _ hs')) hnd1 (by omega) with
            hh | ⟨m2, g1, g2, g3, g4⟩
          · exact Or.inl hh
          · refine Or.inr ⟨m2, g1, g2, g3, g4.trans ?_⟩
            refine (List.Perm.append_left _ hp).trans ?_
            exact List.perm_middle

theorem capOf_lt {lg : Nat} (hlg : 3 ≤ lg) : capOf (2 ^ lg) + 1 < 2 ^ lg := by
  obtain ⟨j, rfl⟩ : ∃ j, lg = j + 3 := ⟨lg - 3, by omega⟩
  have := Nat.two_pow_pos j
  unfold capOf; rw [pow_add]; omega

theorem capOf_succ {lg : Nat} (hlg : 3 ≤ lg) : capOf (2 ^ lg) + 1 ≤ capOf (2 ^ (lg + 1)) := by
  obtain ⟨j, rfl⟩ : ∃ j, lg = j + 3 := ⟨lg - 3, by omega⟩
  have := Nat.two_pow_pos j
  unfold capOf; rw [show j + 3 + 1 = j + 4 from rfl, pow_add, pow_add]; omega

theorem resize_spec (hok : c.Ok) (z : κ) {m : Map κ} (hw : WF c m) (hf : Fits c (m.lg + 1))
    (hlg : 3 ≤ m.lg) (hnum : m.num ≤ capOf (2 ^ m.lg) + 1) :
    (∃ d, d < 2 ^ (m.lg + 1) ∧ c.over d = true ∧ resize c z m = .err "drift >= driftLimit") ∨
    (∃ m', resize c z m = .ok m' ∧ WF c m' ∧ m'.lg = m.lg + 1 ∧
      (items m'.slots).Perm (items m.slots)) := by
  have hem : items (newMap z (m.lg + 1)).slots = [] := items_replicate _ _
  rcases resizeLoop_spec hok hf (by omega) m.slots (newMap z (m.lg + 1)) (newMap_wf z _) rfl
    (by
      intro s hs h0
      obtain ⟨p, hp⟩ := List.mem_iff_getElem?.mp hs
      exact hw.inv.pos hp h0)
    (by rw [hem]; simpa using hw.inv.keys_nodup)
    (by
      have := capOf_succ hlg
      rw [← hw.num]
      show 0 + m.num ≤ _
      omega) with h | ⟨m', h1, h2, h3, h4⟩
  · exact Or.inl h
  · exact Or.inr ⟨m', h1, h2, h3, by rw [hem, List.append_nil] at h4; exact h4⟩

/-! ## iteration -/

theorem visit_perm (lg stride : Nat) (hs : stride % 2 = 1) :
    ((List.range (2 ^ lg)).map (fun k => (k * stride) % 2 ^ lg)).Perm (List.range (2 ^ lg)) := by
  have hn := Nat.two_pow_pos lg
  have hc : Nat.Coprime (2 ^ lg) stride := by
    apply Nat.Coprime.pow_left
    rw [Nat.coprime_two_left, Nat.odd_iff]; exact hs
  have hnd : ((List.range (2 ^ lg)).map (fun k => (k * stride) % 2 ^ lg)).Nodup := by
    apply List.Nodup.map_on _ List.nodup_range
    intro i hi j hj e
    have h3 : i ≡ j [MOD 2 ^ lg] := Nat.ModEq.cancel_right_of_coprime hc e
    exact Nat.ModEq.eq_of_lt_of_lt h3 (List.mem_range.mp hi) (List.mem_range.mp hj)
  have hsub : ((List.range (2 ^ lg)).map (fun k => (k * stride) % 2 ^ lg)) ⊆ List.range (2 ^ lg) := by
    intro x hx
    obtain ⟨i, _, rfl⟩ := List.mem_map.mp hx
    exact List.mem_range.mpr (Nat.mod_lt _ hn)
  exact (hnd.subperm hsub).perm_of_length_le (by simp)

/-- the slots in the order of the iterator -/
def visited (t : List (Slot κ)) (stride n : Nat) : List (Slot κ) :=
  (List.range n).filterMap (fun k => t[(k * stride) % n]?)

theorem filterMap_get (t : List (Slot κ)) :
    (List.range t.length).filterMap (fun i => t[i]?) = t := by
  have h : (List.range t.length).map (fun i => t[i]?) = t.map some := by
    apply List.ext_getElem?
    intro i
    by_cases hi : i < t.length
    · simp [hi]
    · simp [hi]
  have h2 : (List.range t.length).filterMap (fun i => t[i]?) =
      ((List.range t.length).map (fun i => t[i]?)).filterMap id := by
    rw [List.filterMap_map]; rfl
  rw [h2, h, List.filterMap_map]
  exact List.filterMap_some

theorem visited_perm {t : List (Slot κ)} {lg : Nat} (hl : t.length = 2 ^ lg) (stride : Nat)
    (hs : stride % 2 = 1) : (visited t stride (2 ^ lg)).Perm t := by
  have h1 := (visit_perm lg stride hs).filterMap (fun i => t[i]?)
  rw [List.filterMap_map, ← hl, filterMap_get, hl] at h1
  exact h1

theorem visited_get {t : List (Slot κ)} {lg : Nat} (hl : t.length = 2 ^ lg) (stride k : Nat)
    (hk : k < 2 ^ lg) : (visited t stride (2 ^ lg))[k]? = t[(k * stride) % 2 ^ lg]? := by
  have hall : (List.range (2 ^ lg)).map (fun k => t[(k * stride) % 2 ^ lg]?) =
      (visited t stride (2 ^ lg)).map some := by
    unfold visited
    have : ∀ l : List Nat, l.map (fun k => t[(k * stride) % 2 ^ lg]?) =
        (l.filterMap (fun k => t[(k * stride) % 2 ^ lg]?)).map some := by
      intro l
      induction l with
      | nil => rfl
      | cons a l ih =>
        have hlt : (a * stride) % 2 ^ lg < t.length := by
          rw [hl]; exact Nat.mod_lt _ (Nat.two_pow_pos lg)
        rw [List.map_cons, List.filterMap_cons, List.getElem?_eq_getElem hlt]
        simp [ih]
    exact this _
  have h2 := congrArg (fun l => l[k]?) hall
  simp only [List.getElem?_map, List.getElem?_range hk, Option.map_some] at h2
  have hlt : (k * stride) % 2 ^ lg < t.length := by
    rw [hl]; exact Nat.mod_lt _ (Nat.two_pow_pos lg)
  rw [List.getElem?_eq_getElem hlt] at h2 ⊢
  cases hv : (visited t stride (2 ^ lg))[k]? with
  | none => rw [hv] at h2; simp at h2
  | some x => rw [hv] at h2; simpa using h2.symm

theorem iterLoop_eq {t : List (Slot κ)} {lg : Nat} (hl : t.length = 2 ^ lg) (stride num : Nat) :
    ∀ (d k count fuel : Nat), k + d = 2 ^ lg → d < fuel →
      count + (active ((visited t stride (2 ^ lg)).drop k)).length = num →
      iterLoop t stride num fuel ((k * stride) % 2 ^ lg) count =
        .ok (active ((visited t stride (2 ^ lg)).drop k)) := by
  intro d
  have hvl : (visited t stride (2 ^ lg)).length ≤ 2 ^ lg := by
    unfold visited
    exact le_trans (List.length_filterMap_le _ _) (by simp)
  induction d with
  | zero =>
    intro k count fuel hk hf hc
    obtain ⟨fuel, rfl⟩ : ∃ f, fuel = f + 1 := ⟨fuel - 1, by omega⟩
    rw [List.drop_eq_nil_of_le (by omega)] at hc ⊢
    rw [iterLoop, if_neg (by simp only [active, List.filter_nil, List.map_nil, List.length_nil] at hc; omega)]
    rfl
  | succ d ih =>
    intro k count fuel hk hf hc
    obtain ⟨fuel, rfl⟩ : ∃ f, fuel = f + 1 := ⟨fuel - 1, by omega⟩
    rw [iterLoop]
    by_cases hcn : count < num
    · rw [if_pos hcn]
      have hlt : (k * stride) % 2 ^ lg < t.length := by
        rw [hl]; exact Nat.mod_lt _ (Nat.two_pow_pos lg)
      have hg := visited_get hl stride k (by omega)
      rw [List.getElem?_eq_getElem hlt] at hg ⊢
      set s := t[(k * stride) % 2 ^ lg] with hsdef
      have hkl : k < (visited t stride (2 ^ lg)).length := lt_of_some hg
      have hgs : (visited t stride (2 ^ lg))[k] = s := by
        rw [List.getElem?_eq_getElem hkl] at hg
        exact Option.some.inj hg
      rw [List.drop_eq_getElem_cons hkl, hgs] at hc ⊢
      have hnext : ((k * stride) % 2 ^ lg + stride) &&& (t.length - 1) = ((k + 1) * stride) % 2 ^ lg := by
        rw [hl, Nat.and_two_pow_sub_one_eq_mod, Nat.mod_add_mod]
        congr 1; ring
      rw [hnext]
      simp only
      by_cases hst : s.st > 0
      · have ha : active (s :: (visited t stride (2 ^ lg)).drop (k + 1)) =
            (s.key, s.val) :: active ((visited t stride (2 ^ lg)).drop (k + 1)) := by
          simp [active, hst]
        rw [if_pos hst, ha]
        rw [ha, List.length_cons] at hc
        rw [ih (k + 1) (count + 1) fuel (by omega) (by omega) (by omega)]
        rfl
      · have ha : active (s :: (visited t stride (2 ^ lg)).drop (k + 1)) =
            active ((visited t stride (2 ^ lg)).drop (k + 1)) := by
          simp [active, hst]
        rw [if_neg hst, ha]
        rw [ha] at hc
        exact ih (k + 1) count fuel (by omega) (by omega) hc
    · rw [if_neg hcn]
      have : active ((visited t stride (2 ^ lg)).drop k) = [] :=
        List.eq_nil_of_length_eq_zero (by omega)
      rw [this]

/-- the iterator yields every active pair exactly once -/
theorem iterate_spec {m : Map κ} (hw : WF c m) (stride : Nat) (hs : stride % 2 = 1) :
    ∃ l, iterate m stride = .ok l ∧ l.Perm (items m.slots) := by
  have hl := hw.inv.len
  have hp : (active (visited m.slots stride (2 ^ m.lg))).Perm (active m.slots) :=
    ((visited_perm hl stride hs).filter _).map _
  rw [active_eq_items hw.inv] at hp
  refine ⟨_, ?_, hp⟩
  have := iterLoop_eq hl stride m.num (2 ^ m.lg) 0 0 (m.slots.length + 1) (by omega) (by omega)
    (by rw [List.drop_zero, hp.length_eq, hw.num]; omega)
  rw [Nat.zero_mul, Nat.zero_mod, List.drop_zero] at this
  exact this

end Verif.Freq
