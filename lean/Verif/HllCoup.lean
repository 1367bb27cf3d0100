import Verif.HllStream

/-!
# Coupon list and coupon hash set
-/

namespace Verif.Hll

open Probe

variable {H : Type}

/-! ## The hash set -/

/-- the probing scheme of `findCoupon` -/
def coupScheme (lg : Nat) : Scheme Nat where
  emp := fun e => e == 0
  key := fun e => e
  size := 2 ^ lg
  start := fun k => k &&& (2 ^ lg - 1)
  next := fun k p => (p + (((k &&& (2 ^ 26 - 1)) >>> lg) ||| 1)) &&& (2 ^ lg - 1)

def coupStride (lg : Nat) (k : Nat) : Nat := ((k &&& (2 ^ 26 - 1)) >>> lg) ||| 1

theorem coupScheme_ok (lg : Nat) : (coupScheme lg).Ok lg (coupStride lg) where
  size_eq := rfl
  start_lt := fun k => by
    show k &&& (2 ^ lg - 1) < 2 ^ lg
    rw [and_mask]; exact Nat.mod_lt _ (Nat.two_pow_pos _)
  odd := fun k => or_one_odd _
  next_eq := fun k i _ => by
    show (i + (((k &&& (2 ^ 26 - 1)) >>> lg) ||| 1)) &&& (2 ^ lg - 1) = _
    rw [and_mask]; rfl

theorem findCoupon_eq {arr : List Nat} {lg c : Nat} (h : arr.length = 2 ^ lg) :
    findCoupon arr lg c =
      match (coupScheme lg).find arr c with
      | .full => .err "key not found and no empty slots"
      | .panic => .panic
      | .found i => .ok (.found i)
      | .empty i => .ok (.empty i) := by
  unfold findCoupon Scheme.find
  rw [h]
  rfl

/-- the coupon set `c` holds exactly the coupons `D` -/
structure SetInv (c : Coup) (D : List Nat) : Prop where
  h21 : c.lgK ≤ 21
  lg5 : 5 ≤ c.lg
  lgle : c.lg + 3 ≤ c.lgK
  cnt : c.count = D.length
  chain : Chain (coupScheme c.lg) (coupStride c.lg) c.arr
  load : 4 * c.count ≤ 3 * 2 ^ c.lg
  items : ((coupScheme c.lg).items c.arr).Perm D
  valid : ∀ e ∈ D, ValidCoupon e

theorem items_coup (lg : Nat) (arr : List Nat) :
    (coupScheme lg).items arr = arr.filter (fun e => decide (e ≠ 0)) := by
  unfold Scheme.items coupScheme
  apply List.filter_congr
  intro x _
  by_cases h : x = 0 <;> simp [h]

theorem SetInv.nodup {c : Coup} {D : List Nat} (h : SetInv c D) : D.Nodup := by
  have := h.chain.keys_nodup
  have h2 : ((coupScheme c.lg).items c.arr).map (coupScheme c.lg).key =
      (coupScheme c.lg).items c.arr := List.map_id _
  rw [h2] at this
  exact h.items.nodup_iff.mp this

theorem SetInv.perm {c : Coup} {D D' : List Nat} (h : SetInv c D) (hp : D.Perm D') : SetInv c D' :=
  { h with
    cnt := by rw [h.cnt, hp.length_eq]
    items := h.items.trans hp
    valid := fun e he => h.valid e (hp.mem_iff.mpr he) }

theorem newSet_inv {lgK : Nat} {typ : Typ} (h8 : 8 ≤ lgK) (h21 : lgK ≤ 21) :
    ∃ c, newSet lgK typ = .ok c ∧ SetInv c [] ∧ c.lgK = lgK ∧ c.typ = typ ∧ c.lg = 5 := by
  unfold newSet
  rw [if_neg (by omega)]
  refine ⟨_, rfl, ⟨h21, by simp, by simp only; omega, rfl, ?_, by simp, ?_, by simp⟩, rfl, rfl, rfl⟩
  · exact Chain.empty (s := coupScheme 5) rfl
  · simp only
    rw [items_replicate (by rfl)]

/-- A present coupon changes nothing. -/
theorem setUpdate_mem {F : Fl H} {c : Coup} {D : List Nat} (h : SetInv c D) {x : Nat} (hx : x ∈ D) :
    setUpdate F c x = .ok (.set c) := by
  obtain ⟨p, hp, he⟩ := mem_items.mp (h.items.mem_iff.mpr hx)
  have hf := h.chain.find_present (coupScheme_ok _) hp he
  have hf' : (coupScheme c.lg).find c.arr x = .found p := hf
  unfold setUpdate
  rw [findCoupon_eq h.chain.len, hf']
  rfl

/-- the set with one more coupon, before the growth decision -/
theorem setInsert {c : Coup} {D : List Nat} (h : SetInv c D) {x : Nat} (hx : x ∉ D)
    (hv : ValidCoupon x) :
    ∃ i, findCoupon c.arr c.lg x = .ok (.empty i) ∧
      Chain (coupScheme c.lg) (coupStride c.lg) (c.arr.set i x) ∧
      ((coupScheme c.lg).items (c.arr.set i x)).Perm (x :: D) := by
  have hpos := Nat.two_pow_pos c.lg
  have hload := h.load
  rw [h.cnt] at hload
  have habs : ∀ (p : Nat) (f : Nat), c.arr[p]? = some f → (coupScheme c.lg).emp f = false →
      (coupScheme c.lg).key f ≠ x := by
    intro p f hp hf hk
    apply hx
    have hfx : f = x := hk
    rw [← hfx]
    exact h.items.mem_iff.mp (mem_items.mpr ⟨p, hp, hf⟩)
  have hfree : ∃ (p : Nat) (f : Nat), c.arr[p]? = some f ∧ (coupScheme c.lg).emp f = true :=
    items_length_lt_of_free.mpr (by
      rw [h.chain.len, h.items.length_eq]
      show D.length < 2 ^ c.lg
      omega)
  obtain ⟨i, f, hi, hp, hf, _, hfind⟩ := Chain.find_absent h.chain.len (coupScheme_ok c.lg) x habs hfree
  have he : (coupScheme c.lg).emp x = false := by
    have : x ≠ 0 := by have := hv.1; omega
    simpa [coupScheme] using this
  refine ⟨(coupScheme c.lg).pos (coupStride c.lg) x i, ?_, ?_, ?_⟩
  · rw [findCoupon_eq h.chain.len, hfind]
  · exact h.chain.insert (coupScheme_ok _) he hfind
  · exact (items_set_empty hp hf he).trans (h.items.cons _)

theorem growSet_spec {lg : Nat} {arr : List Nat} {D : List Nat}
    (hc : Chain (coupScheme lg) (coupStride lg) arr)
    (hp : ((coupScheme lg).items arr).Perm D) (hlen : D.length < 2 ^ (lg + 1)) :
    ∃ arr', growSet arr (lg + 1) = .ok arr' ∧
      Chain (coupScheme (lg + 1)) (coupStride (lg + 1)) arr' ∧
      ((coupScheme (lg + 1)).items arr').Perm D := by
  have hempty : (coupScheme (lg + 1)).items (List.replicate (2 ^ (lg + 1)) 0) = [] :=
    items_replicate rfl _
  have hit : ∀ l, (coupScheme (lg + 1)).items l = (coupScheme lg).items l := fun _ => rfl
  have hkey : ∀ l : List Nat, l.map (coupScheme (lg + 1)).key = l.map (coupScheme lg).key :=
    fun _ => rfl
  -- the step is only used on tables of the right length, so state it with the length test
  let step : List Nat → Nat → Outcome (List Nat) := fun a e =>
    if (coupScheme (lg + 1)).emp e = true then .ok a
    else match (coupScheme (lg + 1)).find a e with
      | .empty i => .ok (a.set i e)
      | .full => .err "key not found and no empty slots"
      | .panic => .panic
      | .found _ => .err "growHashSet, found duplicate"
  have hstep : ∀ (l a : List Nat), a.length = 2 ^ (lg + 1) →
      l.foldlM (growSetStep (lg + 1)) a = l.foldlM step a := by
    intro l
    induction l with
    | nil => intro a _; rfl
    | cons e l ih =>
      intro a ha
      rw [List.foldlM_cons, List.foldlM_cons]
      have h1 : growSetStep (lg + 1) a e = step a e := by
        unfold growSetStep
        by_cases he : e = 0
        · subst he
          rfl
        · rw [if_pos he, findCoupon_eq ha]
          have : ¬ (coupScheme (lg + 1)).emp e = true := by simpa [coupScheme] using he
          simp only [step]
          rw [if_neg this]
          cases (coupScheme (lg + 1)).find a e <;> rfl
      rw [h1]
      cases h2 : step a e with
      | ok a' =>
        rw [Outcome.ok_bind, Outcome.ok_bind]
        apply ih
        simp only [step] at h2
        split at h2
        · simp only [Outcome.ok.injEq] at h2; rw [← h2]; exact ha
        · split at h2
          · simp only [Outcome.ok.injEq] at h2; rw [← h2, List.length_set]; exact ha
          · cases h2
          · cases h2
          · cases h2
      | err _ => rfl
      | panic => rfl
  obtain ⟨arr', h1, h2, h3⟩ := grow_generic (coupScheme_ok (lg + 1)) step
    (fun a e he => by simp only [step]; rw [if_pos he])
    (fun a e i he hf => by
      have hf' : (coupScheme (lg + 1)).find a e = .empty i := hf
      simp only [step]; rw [if_neg (by simp [he]), hf'])
    arr (List.replicate (2 ^ (lg + 1)) 0) (Chain.empty (s := coupScheme (lg + 1)) rfl)
    (by rw [hempty, List.map_nil, List.append_nil, hit, hkey]; exact hc.keys_nodup)
    (by
      rw [hempty, hit, hp.length_eq]
      exact hlen)
  refine ⟨arr', ?_, h2, ?_⟩
  · unfold growSet
    rw [hstep _ _ (by simp)]
    exact h1
  · rw [hempty, List.append_nil, hit] at h3
    exact h3.trans hp

/-- A new coupon: stays a set, or is promoted when the table of maximal size is three quarters
full. -/
theorem setUpdate_new {F : Fl H} {c : Coup} {D : List Nat} (h : SetInv c D) {x : Nat} (hx : x ∉ D)
    (hv : ValidCoupon x) :
    (4 * (D.length + 1) ≤ 3 * 2 ^ (c.lgK - 3) ∧
      ∃ c', setUpdate F c x = .ok (.set c') ∧ SetInv c' (x :: D) ∧ c'.lgK = c.lgK ∧ c'.typ = c.typ ∧
        (4 * (D.length + 1) ≤ 3 * 2 ^ c.lg → c'.lg = c.lg)) ∨
    (¬ 4 * (D.length + 1) ≤ 3 * 2 ^ (c.lgK - 3) ∧
      ∃ c', setUpdate F c x = (promoteToHll F c' >>= fun a => .ok (.hll a)) ∧
        (c'.arr.filter (fun e => decide (e ≠ 0))).Perm (x :: D) ∧ c'.lgK = c.lgK ∧ c'.typ = c.typ ∧
        c'.count = D.length + 1) := by
  obtain ⟨i, hf, hchain, hperm⟩ := setInsert h hx hv
  have hvalid : ∀ e ∈ x :: D, ValidCoupon e := by
    intro e he
    rcases List.mem_cons.mp he with rfl | he
    · exact hv
    · exact h.valid e he
  unfold setUpdate
  rw [hf, Outcome.ok_bind]
  simp only
  rw [h.cnt]
  have hpowle : 2 ^ c.lg ≤ 2 ^ (c.lgK - 3) :=
    Nat.pow_le_pow_right (by omega) (by have := h.lgle; omega)
  by_cases hfit : 4 * (D.length + 1) ≤ 3 * 2 ^ c.lg
  · left
    rw [if_pos hfit]
    exact ⟨by omega, _, rfl, ⟨h.h21, h.lg5, h.lgle, by simp, hchain, hfit, hperm, hvalid⟩,
      rfl, rfl, fun _ => rfl⟩
  · rw [if_neg hfit]
    by_cases hlast : c.lg + 3 = c.lgK
    · right
      rw [if_pos hlast]
      have hl : c.lg = c.lgK - 3 := by omega
      refine ⟨by rw [← hl]; exact hfit, _, rfl, ?_, rfl, rfl, rfl⟩
      rw [← items_coup c.lg]
      exact hperm
    · left
      rw [if_neg hlast]
      have hload := h.load
      rw [h.cnt] at hload
      have h32 : 32 ≤ 2 ^ c.lg := by
        rw [show 32 = 2 ^ 5 from rfl]; exact Nat.pow_le_pow_right (by omega) h.lg5
      obtain ⟨arr', g1, g2, g3⟩ := growSet_spec hchain hperm (by
        rw [List.length_cons, pow_succ]; omega)
      rw [g1, Outcome.ok_bind]
      have hpow : 2 ^ (c.lg + 1) ≤ 2 ^ (c.lgK - 3) :=
        Nat.pow_le_pow_right (by omega) (by have := h.lgle; omega)
      rw [pow_succ] at hpow
      refine ⟨by omega, _, rfl, ⟨h.h21, by have := h.lg5; simp only; omega, ?_, by simp, g2, ?_, g3,
        hvalid⟩, rfl, rfl, fun hc => absurd hc hfit⟩
      · have := h.lgle; simp only; omega
      · simp only; rw [pow_succ]; omega

/-! ## The list -/

/-- the coupon list `c` holds exactly the coupons `D`, in order -/
structure ListInv (c : Coup) (D : List Nat) : Prop where
  h4 : 4 ≤ c.lgK
  h21 : c.lgK ≤ 21
  lg3 : c.lg = 3
  cnt : c.count = D.length
  lt8 : D.length < 8
  arr : c.arr = D ++ List.replicate (8 - D.length) 0
  nodup : D.Nodup
  valid : ∀ e ∈ D, ValidCoupon e

theorem newList_inv {lgK : Nat} (typ : Typ) (h4 : 4 ≤ lgK) (h21 : lgK ≤ 21) :
    ListInv (newList lgK typ) [] :=
  ⟨h4, h21, rfl, rfl, by simp, by simp [newList], by simp, by simp⟩

theorem ListInv.length {c : Coup} {D : List Nat} (h : ListInv c D) : c.arr.length = 8 := by
  rw [h.arr, List.length_append, List.length_replicate]
  have := h.lt8
  omega

/-- what happens when a new coupon is stored in cell `i` -/
def listStore (F : Fl H) (c : Coup) : Outcome (Sk H) :=
  if c.count ≥ 2 ^ c.lg then
    if c.lgK < 8 then do
      let a ← promoteToHll F c
      .ok (.hll a)
    else do
      let s ← promoteToSet F c
      .ok (.set s)
  else .ok (.list c)

theorem listLoop_spec {F : Fl H} {c : Coup} {D : List Nat} (h : ListInv c D) (x : Nat) :
    ∀ (Q P : List Nat) (n : Nat), D = P ++ Q → n = 8 - P.length →
      listLoop F c x n P.length =
        if x ∈ Q then .ok (.list c)
        else listStore F { c with arr := c.arr.set D.length x, count := c.count + 1 } := by
  intro Q
  induction Q with
  | nil =>
    intro P n hD hn
    rw [List.append_nil] at hD
    subst hD
    have hlt := h.lt8
    obtain ⟨n', rfl⟩ : ∃ n', n = n' + 1 := ⟨n - 1, by omega⟩
    rw [listLoop]
    have hget : c.arr[D.length]? = some 0 := by
      rw [h.arr, List.getElem?_append_right (le_refl _), Nat.sub_self,
        List.getElem?_replicate, if_pos (by omega)]
    rw [hget, Outcome.ofOption_some, Outcome.ok_bind, if_pos rfl]
    exact (if_neg (by simp)).symm
  | cons q Q ih =>
    intro P n hD hn
    have hlt := h.lt8
    have hlen : D.length = P.length + (Q.length + 1) := by rw [hD]; simp
    obtain ⟨n', rfl⟩ : ∃ n', n = n' + 1 := ⟨n - 1, by omega⟩
    rw [listLoop]
    have hget : c.arr[P.length]? = some q := by
      rw [h.arr, hD, List.append_assoc, List.getElem?_append_right (le_refl _), Nat.sub_self]
      rfl
    have hq : q ≠ 0 := by
      have := (h.valid q (by rw [hD]; simp)).1
      omega
    rw [hget, Outcome.ofOption_some, Outcome.ok_bind, if_neg hq]
    by_cases hqx : q = x
    · rw [if_pos hqx, if_pos (by rw [hqx]; simp)]
    · rw [if_neg hqx]
      have := ih (P ++ [q]) n' (by rw [hD]; simp) (by rw [List.length_append]; simp; omega)
      rw [List.length_append, List.length_singleton] at this
      rw [this]
      have hiff : x ∈ q :: Q ↔ x ∈ Q := by
        rw [List.mem_cons]
        exact or_iff_right (fun e => hqx e.symm)
      simp only [hiff]

theorem listUpdate_eq {F : Fl H} {c : Coup} {D : List Nat} (h : ListInv c D) (x : Nat) :
    listUpdate F c x =
      if x ∈ D then .ok (.list c)
      else listStore F { c with arr := c.arr.set D.length x, count := c.count + 1 } := by
  unfold listUpdate
  have := listLoop_spec (F := F) h x D [] 8 rfl rfl
  rw [show 2 ^ c.lg = 8 by rw [h.lg3]; rfl]
  exact this

theorem list_arr_set {c : Coup} {D : List Nat} (h : ListInv c D) (x : Nat) :
    c.arr.set D.length x = (D ++ [x]) ++ List.replicate (8 - (D ++ [x]).length) 0 := by
  have hlt := h.lt8
  rw [h.arr, List.set_append_right _ _ (le_refl _), Nat.sub_self, List.append_assoc,
    List.length_append, List.length_singleton]
  congr 1
  obtain ⟨k, hk⟩ : ∃ k, 8 - D.length = k + 1 := ⟨7 - D.length, by omega⟩
  rw [hk, List.replicate_succ, List.set_cons_zero, show 8 - (D.length + 1) = k by omega]
  rfl

/-- `promoteListToSet`: the coupons of the full list go to a fresh set, which does not grow. -/
theorem promoteToSet_spec {F : Fl H} {c : Coup} {D : List Nat} (h8 : 8 ≤ c.lgK) (h21 : c.lgK ≤ 21)
    (hcnt : c.count = D.length) (hlen : D.length ≤ 8)
    (harr : c.arr = D ++ List.replicate (8 - D.length) 0) (hnd : D.Nodup)
    (hv : ∀ e ∈ D, ValidCoupon e) :
    ∃ s, promoteToSet F c = .ok s ∧ SetInv s D ∧ s.lgK = c.lgK ∧ s.typ = c.typ := by
  obtain ⟨s0, e0, h0, hk0, ht0, hl0⟩ := newSet_inv (typ := c.typ) h8 h21
  unfold promoteToSet
  rw [e0, Outcome.ok_bind]
  have htake : c.arr.take c.count = D := by rw [harr, hcnt, List.take_left]
  rw [htake]
  obtain ⟨s, h1, h2, h3, h4, _⟩ := list_fold (f := setUpdateKeep F) (l := D)
    (fun pre s => SetInv s pre ∧ s.lgK = c.lgK ∧ s.typ = c.typ ∧ s.lg = 5)
    (s0 := s0) ⟨h0, hk0, ht0, hl0⟩
    (by
      rintro pre x post s hD ⟨p1, p2, p3, p4⟩
      have hx : x ∉ pre := by
        intro hx
        rw [hD] at hnd
        exact (List.nodup_append.mp hnd).2.2 x hx x (by simp) rfl
      have hpre : pre.length + 1 ≤ 8 := by
        have : D.length = pre.length + (post.length + 1) := by rw [hD]; simp
        omega
      have hpow : 32 ≤ 2 ^ (s.lgK - 3) := by
        rw [show 32 = 2 ^ 5 from rfl]; exact Nat.pow_le_pow_right (by omega) (by omega)
      rcases setUpdate_new (F := F) p1 hx (hv x (by rw [hD]; simp)) with
        ⟨_, c', q1, q2, q3, q4, q5⟩ | ⟨hno, _⟩
      · refine ⟨c', ?_, q2.perm (List.perm_append_singleton _ _).symm, by rw [q3, p2],
          by rw [q4, p3], ?_⟩
        · unfold setUpdateKeep
          rw [q1]; rfl
        · rw [q5 (by rw [p4]; omega), p4]
      · omega)
  exact ⟨s, h1, h2, h3, h4⟩

theorem filter_list_arr (D : List Nat) (n : Nat) (hv : ∀ e ∈ D, ValidCoupon e) :
    (D ++ List.replicate n 0).filter (fun e => decide (e ≠ 0)) = D := by
  rw [List.filter_append]
  have h1 : D.filter (fun e => decide (e ≠ 0)) = D := by
    rw [List.filter_eq_self]
    intro a ha
    have := (hv a ha).1
    simp only [decide_eq_true_eq]; omega
  have h2 : (List.replicate n 0).filter (fun e => decide (e ≠ 0)) = [] := by simp
  rw [h1, h2, List.append_nil]

/-- A new coupon arrives at a list. -/
theorem listUpdate_new {F : Fl H} {c : Coup} {D : List Nat} (h : ListInv c D) {x : Nat} (hx : x ∉ D)
    (hv : ValidCoupon x) :
    (D.length + 1 < 8 ∧ ∃ c', listUpdate F c x = .ok (.list c') ∧ ListInv c' (D ++ [x]) ∧
      c'.lgK = c.lgK ∧ c'.typ = c.typ) ∨
    (D.length + 1 = 8 ∧ 8 ≤ c.lgK ∧ ∃ c', listUpdate F c x = .ok (.set c') ∧ SetInv c' (D ++ [x]) ∧
      c'.lgK = c.lgK ∧ c'.typ = c.typ) ∨
    (D.length + 1 = 8 ∧ c.lgK < 8 ∧
      ∃ c', listUpdate F c x = (promoteToHll F c' >>= fun a => .ok (.hll a)) ∧
        c'.arr.filter (fun e => decide (e ≠ 0)) = D ++ [x] ∧ c'.lgK = c.lgK ∧ c'.typ = c.typ ∧
        c'.count = D.length + 1) := by
  have hlt := h.lt8
  have hvalid : ∀ e ∈ D ++ [x], ValidCoupon e := by
    intro e he
    rcases List.mem_append.mp he with he | he
    · exact h.valid e he
    · rw [List.mem_singleton.mp he]; exact hv
  have hnd : (D ++ [x]).Nodup := by
    rw [List.nodup_append]
    refine ⟨h.nodup, by simp, ?_⟩
    intro a ha b hb hab
    rw [List.mem_singleton] at hb
    exact hx (by rw [← hb, ← hab]; exact ha)
  rw [listUpdate_eq h, if_neg hx, list_arr_set h x]
  unfold listStore
  simp only
  rw [h.lg3, h.cnt]
  by_cases h8 : D.length + 1 ≥ 2 ^ 3
  · rw [if_pos h8]
    by_cases hk : c.lgK < 8
    · right; right
      rw [if_pos hk]
      exact ⟨by omega, hk, _, rfl, filter_list_arr _ _ hvalid, rfl, rfl, rfl⟩
    · right; left
      rw [if_neg hk]
      obtain ⟨s, s1, s2, s3, s4⟩ := promoteToSet_spec (F := F) (D := D ++ [x])
        (c := ⟨c.lgK, c.typ, 3, D.length + 1,
          (D ++ [x]) ++ List.replicate (8 - (D ++ [x]).length) 0⟩)
        (by simp only; omega) h.h21 (by simp) (by simp; omega) rfl hnd hvalid
      rw [s1, Outcome.ok_bind]
      exact ⟨by omega, by omega, s, rfl, s2, s3, s4⟩
  · left
    rw [if_neg h8]
    exact ⟨by omega, _, rfl, ⟨h.h4, h.h21, rfl, by simp, by simp; omega, rfl, hnd, hvalid⟩, rfl, rfl⟩

end Verif.Hll
