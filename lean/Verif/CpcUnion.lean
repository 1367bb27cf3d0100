import Verif.CpcMean

/-!
# The CPC union
-/

namespace Verif.Cpc

open Outcome

/-! ## Counting the bits of a matrix -/

theorem sum_cells_nat (f : Nat → Nat) (K : Nat) :
    ∑ x ∈ Finset.range (64 * K), f x =
      ∑ r ∈ Finset.range K, ∑ c ∈ Finset.range 64, f (64 * r + c) := by
  induction K with
  | zero => simp
  | succ n ih => rw [Nat.mul_succ, Finset.sum_range_add, ih, Finset.sum_range_succ _ n]

theorem ones_eq (x : BitVec 64) :
    ones x = ∑ c ∈ Finset.range 64, if x.getLsbD c then 1 else 0 := by
  unfold ones
  rw [← Finset.card_filter]
  have : ((List.range 64).filter fun i => x.getLsbD i).toFinset =
      (Finset.range 64).filter fun i => x.getLsbD i = true := by
    ext i; simp
  rw [← this, List.toFinset_card_of_nodup (List.nodup_range.filter _)]

theorem foldl_add_nat {α : Type} (f : α → Nat) (l : List α) (s : Nat) :
    l.foldl (fun s a => s + f a) s = s + (l.map f).sum := by
  induction l generalizing s with
  | nil => simp
  | cons a l ih => simp only [List.foldl_cons, List.map_cons, List.sum_cons, ih]; omega

theorem sum_map_getElem_nat {α : Type} (f : α → Nat) (m : List α) :
    (m.map f).sum = ∑ r ∈ Finset.range m.length, (m[r]?.map f).getD 0 := by
  induction m with
  | nil => simp
  | cons a m ih =>
    rw [List.map_cons, List.sum_cons, List.length_cons, Finset.sum_range_succ', ih]
    simp [add_comm]

theorem countBits_eq {K : Nat} {m : List (BitVec 64)} {S : Finset Nat} (hm : IsMatrix K m S)
    (hv : ∀ x ∈ S, x < 64 * K) : countBits m = S.card := by
  unfold countBits
  rw [foldl_add_nat, Nat.zero_add, sum_map_getElem_nat, hm.1]
  have hS : S = (Finset.range (64 * K)).filter (· ∈ S) := by
    ext x
    rw [Finset.mem_filter, Finset.mem_range]
    exact ⟨fun h => ⟨hv x h, h⟩, fun h => h.2⟩
  conv_rhs => rw [hS]
  rw [Finset.card_filter, sum_cells_nat]
  apply Finset.sum_congr rfl
  intro r hr
  obtain ⟨row, hrow, hb⟩ := hm.get (Finset.mem_range.mp hr)
  rw [hrow]
  simp only [Option.map_some, Option.getD_some]
  rw [ones_eq]
  apply Finset.sum_congr rfl
  intro c hc
  rw [hm.bit hrow (Finset.mem_range.mp hc)]
  simp only [decide_eq_true_eq]

/-- A matrix determines its set. -/
theorem IsMatrix.unique {K : Nat} {m : List (BitVec 64)} {S T : Finset Nat} (h1 : IsMatrix K m S)
    (h2 : IsMatrix K m T) (hS : ∀ x ∈ S, x < 64 * K) (hT : ∀ x ∈ T, x < 64 * K) : S = T := by
  have key : ∀ x, x < 64 * K → (x ∈ S ↔ x ∈ T) := by
    intro x hx
    obtain ⟨row, hrow, _⟩ := h1.get (r := x / 64) (by omega)
    have e1 := h1.bit hrow (c := x % 64) (by omega)
    have e2 := h2.bit hrow (c := x % 64) (by omega)
    rw [show 64 * (x / 64) + x % 64 = x by omega] at e1 e2
    rw [e1] at e2
    exact decide_eq_decide.mp e2
  ext x
  exact ⟨fun h => (key x (hS x h)).mp h, fun h => (key x (hT x h)).mpr h⟩

theorem IsMatrix.ext {K : Nat} {m m' : List (BitVec 64)} {S : Finset Nat} (h1 : IsMatrix K m S)
    (h2 : IsMatrix K m' S) : m = m' := by
  apply List.ext_getElem (h1.1.trans h2.1.symm)
  intro i hi hi'
  apply BitVec.eq_of_getLsbD_eq
  intro c hc
  rw [h1.bit (List.getElem?_eq_getElem hi) hc, h2.bit (List.getElem?_eq_getElem hi') hc]

/-! ## Folding -/

/-- The coupons seen with fewer rows: the row is taken modulo `K`. -/
def fold (lgK : Nat) (S : Finset Nat) : Finset Nat := S.image (· % (64 * 2 ^ lgK))

theorem mem_fold {lgK x : Nat} {S : Finset Nat} :
    x ∈ fold lgK S ↔ ∃ y ∈ S, y % (64 * 2 ^ lgK) = x := by
  unfold fold; rw [Finset.mem_image]

theorem fold_valid (lgK : Nat) (S : Finset Nat) : ∀ x ∈ fold lgK S, x < 64 * 2 ^ lgK := by
  intro x hx
  obtain ⟨y, _, rfl⟩ := mem_fold.mp hx
  exact Nat.mod_lt _ (by have := Nat.two_pow_pos lgK; omega)

theorem fold_self {lgK : Nat} {S : Finset Nat} (h : ∀ x ∈ S, x < 64 * 2 ^ lgK) : fold lgK S = S := by
  ext x
  rw [mem_fold]
  constructor
  · rintro ⟨y, hy, rfl⟩
    rw [Nat.mod_eq_of_lt (h y hy)]; exact hy
  · intro hx; exact ⟨x, hx, Nat.mod_eq_of_lt (h x hx)⟩

theorem fold_fold {a b : Nat} (hab : b ≤ a) (S : Finset Nat) : fold b (fold a S) = fold b S := by
  have hd : 64 * 2 ^ b ∣ 64 * 2 ^ a := Nat.mul_dvd_mul_left _ (pow_dvd_pow 2 hab)
  ext x
  simp only [mem_fold]
  constructor
  · rintro ⟨y, ⟨z, hz, rfl⟩, rfl⟩
    exact ⟨z, hz, (Nat.mod_mod_of_dvd z hd).symm⟩
  · rintro ⟨z, hz, rfl⟩
    exact ⟨_, ⟨z, hz, rfl⟩, Nat.mod_mod_of_dvd z hd⟩

theorem fold_union (a : Nat) (S T : Finset Nat) : fold a (S ∪ T) = fold a S ∪ fold a T := by
  unfold fold; rw [Finset.image_union]

theorem fold_row {lgK x : Nat} : x % (64 * 2 ^ lgK) = 64 * (x / 64 % 2 ^ lgK) + x % 64 := by
  rw [Nat.mod_mul]; omega

/-- At most `2 ^ (a - b)` coupons are folded into one. -/
theorem card_fold {a b : Nat} (hab : b ≤ a) {S : Finset Nat} (h : ∀ x ∈ S, x < 64 * 2 ^ a) :
    S.card * 2 ^ b ≤ (fold b S).card * 2 ^ a := by
  have hp := Nat.two_pow_pos b
  have ha : 2 ^ a = 2 ^ (a - b) * 2 ^ b := by rw [← pow_add]; congr 1; omega
  have hle : S.card ≤ 2 ^ (a - b) * (fold b S).card := by
    unfold fold
    apply Finset.card_le_mul_card_image
    intro v _
    have hsub : (S.filter fun x => x % (64 * 2 ^ b) = v) ⊆
        (Finset.range (2 ^ (a - b))).image fun q => q * (64 * 2 ^ b) + v := by
      intro x hx
      rw [Finset.mem_filter] at hx
      rw [Finset.mem_image]
      refine ⟨x / (64 * 2 ^ b), ?_, ?_⟩
      · rw [Finset.mem_range]
        apply Nat.div_lt_of_lt_mul
        have := h x hx.1
        rw [ha] at this
        calc x < 64 * (2 ^ (a - b) * 2 ^ b) := this
          _ = 64 * 2 ^ b * 2 ^ (a - b) := by ring
      · have := Nat.div_add_mod x (64 * 2 ^ b)
        rw [hx.2] at this
        rw [Nat.mul_comm]; exact this
    exact (Finset.card_le_card hsub).trans (Finset.card_image_le.trans (by rw [Finset.card_range]))
  calc S.card * 2 ^ b ≤ 2 ^ (a - b) * (fold b S).card * 2 ^ b := Nat.mul_le_mul_right _ hle
    _ = (fold b S).card * 2 ^ a := by rw [ha]; ring

/-! ## Bits put into a matrix -/

theorem or_row {K r : Nat} {m : List (BitVec 64)} {D : Finset Nat} {d v : BitVec 64}
    (hm : IsMatrix K m D) (hd : m[r]? = some d) :
    IsMatrix K (m.set r (d ||| v)) (D ∪ patSet r v) := by
  have hlt : r < m.length := by
    by_contra hcon
    rw [List.getElem?_eq_none (by omega)] at hd; cases hd
  refine ⟨by rw [List.length_set]; exact hm.1, fun q row hq c hc => ?_⟩
  have hmem : 64 * q + c ∈ D ∪ patSet r v ↔ 64 * q + c ∈ D ∨ (q = r ∧ v.getLsbD c = true) := by
    rw [Finset.mem_union, mem_patSet, show (64 * q + c) / 64 = q by omega,
      show (64 * q + c) % 64 = c by omega]
  by_cases he : r = q
  · subst he
    rw [List.getElem?_set_self hlt] at hq
    simp only [Option.some.injEq] at hq
    rw [← hq, BitVec.getLsbD_or, hm.bit hd hc]
    simp only [hmem, true_and]
    by_cases h1 : 64 * r + c ∈ D <;> simp [h1]
  · rw [List.getElem?_set_ne he] at hq
    rw [hm.bit hq hc]
    have he' : ¬ q = r := fun h => he h.symm
    simp only [hmem, he', false_and, or_false]

/-- the coupons of the rows `src`, the first of which is row `i`, folded -/
def rowsSet (lgK : Nat) : List (BitVec 64) → Nat → Finset Nat
  | [], _ => ∅
  | row :: src, i => patSet (i % 2 ^ lgK) row ∪ rowsSet lgK src (i + 1)

theorem mem_rowsSet {lgK x : Nat} : ∀ (src : List (BitVec 64)) (i : Nat), x ∈ rowsSet lgK src i ↔
    ∃ j row, src[j]? = some row ∧ x / 64 = (i + j) % 2 ^ lgK ∧ row.getLsbD (x % 64) = true := by
  intro src
  induction src with
  | nil => intro i; simp [rowsSet]
  | cons a src ih =>
    intro i
    rw [rowsSet, Finset.mem_union, mem_patSet, ih]
    constructor
    · rintro (⟨h1, h2⟩ | ⟨j, row, h1, h2, h3⟩)
      · exact ⟨0, a, by simp, by rw [Nat.add_zero]; exact h1, h2⟩
      · exact ⟨j + 1, row, by simpa using h1, by rw [h2]; congr 1; omega, h3⟩
    · rintro ⟨j, row, h1, h2, h3⟩
      cases j with
      | zero =>
        left
        simp only [List.getElem?_cons_zero, Option.some.injEq] at h1
        subst h1
        exact ⟨h2, h3⟩
      | succ j => right; exact ⟨j, row, by simpa using h1, by rw [h2]; congr 1; omega, h3⟩

theorem orMatrix_spec {lgK : Nat} : ∀ (src : List (BitVec 64)) (i : Nat) (dest : List (BitVec 64))
    (D : Finset Nat), IsMatrix (2 ^ lgK) dest D →
    ∃ m, orMatrix dest lgK src i = .ok m ∧ IsMatrix (2 ^ lgK) m (D ∪ rowsSet lgK src i) := by
  intro src
  induction src with
  | nil => intro i dest D h; exact ⟨dest, rfl, by rw [rowsSet, Finset.union_empty]; exact h⟩
  | cons row src ih =>
    intro i dest D h
    have hlt : i % 2 ^ lgK < 2 ^ lgK := Nat.mod_lt _ (Nat.two_pow_pos lgK)
    obtain ⟨d, hd, _⟩ := h.get hlt
    unfold orMatrix
    rw [Nat.and_two_pow_sub_one_eq_mod, hd]
    obtain ⟨m, e, hm⟩ := ih (i + 1) _ _ (or_row (v := row) h hd)
    refine ⟨m, e, ?_⟩
    rw [rowsSet, ← Finset.union_assoc]
    exact hm

theorem rowsSet_eq {a b : Nat} {src : List (BitVec 64)} {T : Finset Nat}
    (h : IsMatrix (2 ^ a) src T) (hv : ∀ x ∈ T, x < 64 * 2 ^ a) : rowsSet b src 0 = fold b T := by
  ext x
  rw [mem_rowsSet, mem_fold]
  constructor
  · rintro ⟨j, row, h1, h2, h3⟩
    rw [h.bit h1 (by omega), decide_eq_true_eq] at h3
    refine ⟨_, h3, ?_⟩
    rw [fold_row, show (64 * j + x % 64) / 64 = j by omega,
      show (64 * j + x % 64) % 64 = x % 64 by omega]
    rw [Nat.zero_add] at h2
    omega
  · rintro ⟨y, hy, rfl⟩
    have hlt := hv y hy
    obtain ⟨row, hrow, _⟩ := h.get (r := y / 64) (by omega)
    refine ⟨y / 64, row, hrow, ?_, ?_⟩
    · rw [fold_row, Nat.zero_add]
      omega
    · rw [fold_row, show (64 * (y / 64 % 2 ^ b) + y % 64) % 64 = y % 64 by omega,
        h.bit hrow (by omega), show 64 * (y / 64) + y % 64 = y by omega]
      simpa using hy

theorem orWindowInto_eq {lgK : Nat} : ∀ (w : List (BitVec 8)) (i : Nat) (dest : List (BitVec 64)),
    orWindowInto dest lgK w i = orMatrix dest lgK (w.map (·.setWidth 64)) i := by
  intro w
  induction w with
  | nil => intro i dest; rfl
  | cons v w ih =>
    intro i dest
    rw [List.map_cons]
    unfold orWindowInto orMatrix
    cases dest[i &&& (2 ^ lgK - 1)]? with
    | none => rfl
    | some d => exact ih _ _

theorem window_matrix {K : Nat} {w : List (BitVec 8)} {S : Finset Nat} (h : IsWindow K 0 w S) :
    IsMatrix K (w.map (·.setWidth 64)) (S.filter (· % 64 < 8)) := by
  refine ⟨by rw [List.length_map]; exact h.1, fun r row hr c hc => ?_⟩
  rw [List.getElem?_map, Option.map_eq_some_iff] at hr
  obtain ⟨b, hb, rfl⟩ := hr
  rw [BitVec.getLsbD_setWidth]
  simp only [Finset.mem_filter, show (64 * r + c) % 64 = c by omega]
  by_cases h8 : c < 8
  · rw [h.2 r b hb c h8, Nat.zero_add]
    simp [hc, h8]
  · rw [BitVec.getLsbD_of_ge b c (by omega)]
    simp [h8]

theorem orTable_spec {lgK : Nat} : ∀ (l : List (Option Nat)) (m : List (BitVec 64)) (D : Finset Nat),
    IsMatrix (2 ^ lgK) m D →
    ∃ m', l.foldlM (orPair lgK) m = .ok m' ∧
      IsMatrix (2 ^ lgK) m' (D ∪ fold lgK (l.filterMap id).toFinset) := by
  intro l
  induction l with
  | nil => intro m D h; exact ⟨m, rfl, by simpa [fold] using h⟩
  | cons a l ih =>
    intro m D h
    rw [List.foldlM_cons]
    cases a with
    | none =>
      obtain ⟨m', e, h'⟩ := ih m D h
      exact ⟨m', e, by simpa using h'⟩
    | some x =>
      have hlt : x / 64 % 2 ^ lgK < 2 ^ lgK := Nat.mod_lt _ (Nat.two_pow_pos lgK)
      obtain ⟨d, hd, _⟩ := h.get hlt
      have hstep : orPair lgK m (some x) =
          .ok (m.set (x / 64 % 2 ^ lgK) (d ||| (1#64 <<< (x % 64)))) := by
        simp only [orPair, shr6, and63, Nat.and_two_pow_sub_one_eq_mod, hd]
      rw [hstep, ok_bind]
      obtain ⟨m', e, h'⟩ := ih _ _ (or_row (v := 1#64 <<< (x % 64)) h hd)
      refine ⟨m', e, ?_⟩
      have hp : patSet (x / 64 % 2 ^ lgK) (1#64 <<< (x % 64)) = {x % (64 * 2 ^ lgK)} := by
        ext y
        rw [mem_patSet, single_bit (by omega), Finset.mem_singleton, fold_row, decide_eq_true_eq]
        omega
      have hu : D ∪ fold lgK ((some x :: l).filterMap id).toFinset =
          D ∪ patSet (x / 64 % 2 ^ lgK) (1#64 <<< (x % 64)) ∪ fold lgK (l.filterMap id).toFinset := by
        rw [hp, Finset.union_assoc]
        congr 1
        simp only [List.filterMap_cons, id_eq, List.toFinset_cons]
        unfold fold
        rw [Finset.image_insert]
        rfl
      rw [hu]
      exact h'

theorem pt_items {t : PT} {vb : Nat} {T : Finset Nat} (h : PTInv t vb T) :
    (t.slots.filterMap id).toFinset = T := by
  ext x
  rw [List.mem_toFinset, List.mem_filterMap]
  simp only [id_eq, exists_eq_right]
  exact h.core.mem x

theorem orTable_pt {lgK : Nat} {m : List (BitVec 64)} {D T : Finset Nat} {t : PT} {vb : Nat}
    (h : IsMatrix (2 ^ lgK) m D) (ht : PTInv t vb T) :
    ∃ m', orTable m lgK t = .ok m' ∧ IsMatrix (2 ^ lgK) m' (D ∪ fold lgK T) := by
  unfold orTable
  rw [List.take_of_length_le (by rw [ht.core.len])]
  obtain ⟨m', e, h'⟩ := orTable_spec t.slots m D h
  rw [pt_items ht] at h'
  exact ⟨m', e, h'⟩

/-! ## Walking over a table -/

theorem step_sound {c c' : Sk} {S : Finset Nat} {x : Nat} (h : SkInv c S)
    (hx : x < 64 * 2 ^ c.lgK) (he : rowColUpdate c x = .ok c') :
    SkInv c' (insert x S) ∧ c'.lgK = c.lgK ∧ c'.seed = c.seed ∧ c'.merged = c.merged := by
  rw [rowColUpdate_eq h hx] at he
  by_cases hS : x ∈ S
  · rw [body_mem h hx hS] at he
    cases he
    rw [Finset.insert_eq_of_mem hS]
    exact ⟨h, rfl, rfl, rfl⟩
  · rcases body_new h hx hS with ⟨_, c'', e, hi, hst⟩ | ⟨_, hf⟩
    · rw [e] at he
      cases he
      exact ⟨hi, hst.lgK, hst.seed, hst.merged⟩
    · exact absurd he (hf c')

theorem step_total {c : Sk} {S : Finset Nat} {x : Nat} (h : SkInv c S)
    (hx : x < 64 * 2 ^ c.lgK) (hr : Room c.lgK (insert x S)) : ∃ c', rowColUpdate c x = .ok c' := by
  rw [rowColUpdate_eq h hx]
  by_cases hS : x ∈ S
  · exact ⟨c, body_mem h hx hS⟩
  · rcases body_new h hx hS with ⟨_, c'', e, _, _⟩ | ⟨hn, _⟩
    · exact ⟨c'', e⟩
    · exact absurd hr hn

/-- the coupons met by the walk, folded -/
def walkSet (slots : List (Option Nat)) (numSlots stride lgK : Nat) : Nat → Nat → Finset Nat
  | 0, _ => ∅
  | n + 1, j =>
    match slots[j % numSlots]? with
    | some (some rc) =>
      insert (rc % (64 * 2 ^ lgK)) (walkSet slots numSlots stride lgK n (j % numSlots + stride))
    | _ => walkSet slots numSlots stride lgK n (j % numSlots + stride)

theorem mem_walkSet {slots : List (Option Nat)} {N stride lgK x : Nat} :
    ∀ (n j : Nat), x ∈ walkSet slots N stride lgK n j ↔
      ∃ i, i < n ∧ ∃ rc, slots[(j + i * stride) % N]? = some (some rc) ∧ rc % (64 * 2 ^ lgK) = x := by
  intro n
  induction n with
  | zero => intro j; simp [walkSet]
  | succ n ih =>
    intro j
    have hshift : ∀ i, (j % N + stride + i * stride) % N = (j + (i + 1) * stride) % N := by
      intro i
      rw [show j % N + stride + i * stride = j % N + (i + 1) * stride by ring, Nat.mod_add_mod]
    have hrec : x ∈ walkSet slots N stride lgK n (j % N + stride) ↔
        ∃ i, i < n ∧ ∃ rc, slots[(j + (i + 1) * stride) % N]? = some (some rc) ∧
          rc % (64 * 2 ^ lgK) = x := by
      rw [ih]
      simp only [hshift]
    have hsplit : (∃ i, i < n + 1 ∧ ∃ rc, slots[(j + i * stride) % N]? = some (some rc) ∧
          rc % (64 * 2 ^ lgK) = x) ↔
        (∃ rc, slots[j % N]? = some (some rc) ∧ rc % (64 * 2 ^ lgK) = x) ∨
        ∃ i, i < n ∧ ∃ rc, slots[(j + (i + 1) * stride) % N]? = some (some rc) ∧
          rc % (64 * 2 ^ lgK) = x := by
      constructor
      · rintro ⟨i, hi, h⟩
        cases i with
        | zero => left; simpa using h
        | succ i => right; exact ⟨i, by omega, h⟩
      · rintro (h | ⟨i, hi, h⟩)
        · exact ⟨0, by omega, by simpa using h⟩
        · exact ⟨i + 1, by omega, h⟩
    rw [hsplit, ← hrec, walkSet]
    cases hs : slots[j % N]? with
    | none => simp
    | some o =>
      cases o with
      | none => simp
      | some rc =>
        simp only [Finset.mem_insert, Option.some.injEq, exists_eq_left']
        constructor
        · rintro (h | h)
          · exact Or.inl h.symm
          · exact Or.inr h
        · rintro (h | h)
          · exact Or.inl h.symm
          · exact Or.inr h

theorem mask_eq (lgK : Nat) : ((2 ^ lgK - 1) <<< 6) ||| 63 = 2 ^ (6 + lgK) - 1 := by
  rw [join6 (by omega), two6]
  have := Nat.two_pow_pos lgK
  omega

theorem walk_sound {slots : List (Option Nat)} {lg stride lgK : Nat} (hlen : slots.length = 2 ^ lg) :
    ∀ (n j : Nat) {c c' : Sk} {S : Finset Nat}, SkInv c S → c.lgK = lgK →
      walkLoop slots (2 ^ lg) stride (((2 ^ lgK - 1) <<< 6) ||| 63) n j c = .ok c' →
      SkInv c' (S ∪ walkSet slots (2 ^ lg) stride lgK n j) ∧ c'.lgK = c.lgK ∧ c'.seed = c.seed ∧
        c'.merged = c.merged := by
  intro n
  induction n with
  | zero =>
    intro j c c' S h hl he
    cases he
    rw [walkSet, Finset.union_empty]
    exact ⟨h, rfl, rfl, rfl⟩
  | succ n ih =>
    intro j c c' S h hl he
    rw [walkLoop, Nat.and_two_pow_sub_one_eq_mod] at he
    rw [walkSet]
    have hlt : j % 2 ^ lg < slots.length := by rw [hlen]; exact Nat.mod_lt _ (Nat.two_pow_pos lg)
    rw [List.getElem?_eq_getElem hlt] at he ⊢
    cases hs : slots[j % 2 ^ lg] with
    | none =>
      rw [hs] at he
      exact ih _ h hl he
    | some rc =>
      rw [hs] at he
      simp only [] at he ⊢
      rw [mask_eq, Nat.and_two_pow_sub_one_eq_mod, two6, ← two6, ← mask_eq] at he
      obtain ⟨c1, e1, e2⟩ := Outcome.bind_eq_ok.mp he
      rw [two6] at e1
      have hx : rc % (64 * 2 ^ lgK) < 64 * 2 ^ c.lgK := by
        rw [hl]; exact Nat.mod_lt _ (by have := Nat.two_pow_pos lgK; omega)
      obtain ⟨h1, l1, s1, m1⟩ := step_sound h hx e1
      obtain ⟨h2, l2, s2, m2⟩ := ih _ h1 (l1.trans hl) e2
      refine ⟨?_, l2.trans l1, s2.trans s1, m2.trans m1⟩
      rw [Finset.union_insert, ← Finset.insert_union]
      exact h2

theorem walk_total {slots : List (Option Nat)} {lg stride lgK : Nat} (hlen : slots.length = 2 ^ lg) :
    ∀ (n j : Nat) {c : Sk} {S : Finset Nat}, SkInv c S → c.lgK = lgK →
      (∀ T, T ⊆ S ∪ walkSet slots (2 ^ lg) stride lgK n j → Room lgK T) →
      ∃ c', walkLoop slots (2 ^ lg) stride (((2 ^ lgK - 1) <<< 6) ||| 63) n j c = .ok c' := by
  intro n
  induction n with
  | zero => intro j c S h hl _; exact ⟨c, rfl⟩
  | succ n ih =>
    intro j c S h hl hroom
    rw [walkLoop, Nat.and_two_pow_sub_one_eq_mod]
    rw [walkSet] at hroom
    have hlt : j % 2 ^ lg < slots.length := by rw [hlen]; exact Nat.mod_lt _ (Nat.two_pow_pos lg)
    rw [List.getElem?_eq_getElem hlt] at hroom ⊢
    cases hs : slots[j % 2 ^ lg] with
    | none =>
      rw [hs] at hroom
      exact ih _ h hl hroom
    | some rc =>
      rw [hs] at hroom
      simp only [] at hroom ⊢
      have hmask : rc &&& (((2 ^ lgK - 1) <<< 6) ||| 63) = rc % (64 * 2 ^ lgK) := by
        rw [mask_eq, Nat.and_two_pow_sub_one_eq_mod, two6]
      rw [hmask]
      have hx : rc % (64 * 2 ^ lgK) < 64 * 2 ^ c.lgK := by
        rw [hl]; exact Nat.mod_lt _ (by have := Nat.two_pow_pos lgK; omega)
      obtain ⟨c1, e1⟩ := step_total h hx (by
        rw [hl]
        apply hroom
        intro y hy
        rcases Finset.mem_insert.mp hy with rfl | hy
        · exact Finset.mem_union_right _ (Finset.mem_insert_self _ _)
        · exact Finset.mem_union_left _ hy)
      obtain ⟨h1, l1, _, _⟩ := step_sound h hx e1
      rw [e1, ok_bind]
      apply ih _ h1 (l1.trans hl)
      intro T hT
      apply hroom
      rwa [Finset.union_insert, ← Finset.insert_union]

theorem walkStride_odd (lg : Nat) : walkStride lg % 2 = 1 := by
  unfold walkStride
  simp only []
  split
  · rename_i h
    rw [Nat.shiftRight_eq_div_pow, Nat.shiftLeft_eq] at h
    omega
  · rename_i h
    rw [Nat.shiftRight_eq_div_pow, Nat.shiftLeft_eq] at h
    omega

theorem walkSet_all {t : PT} {vb lgK : Nat} {T : Finset Nat} (h : PTInv t vb T) :
    walkSet t.slots (2 ^ t.lg) (walkStride t.lg) lgK (2 ^ t.lg) 0 = fold lgK T := by
  have hok : Probe.Scheme.Ok (α := Nat) ⟨fun _ => true, id, 2 ^ t.lg, fun _ => 0,
      fun _ i => (i + walkStride t.lg) % 2 ^ t.lg⟩ t.lg (fun _ => walkStride t.lg) :=
    ⟨rfl, fun _ => Nat.two_pow_pos _, fun _ => walkStride_odd _, fun _ _ _ => rfl⟩
  ext x
  rw [mem_walkSet, mem_fold]
  constructor
  · rintro ⟨i, _, rc, hs, hx⟩
    exact ⟨rc, (h.core.mem rc).mp (List.mem_of_getElem? hs), hx⟩
  · rintro ⟨rc, hrc, hx⟩
    obtain ⟨p, hp⟩ := List.getElem?_of_mem ((h.core.mem rc).mpr hrc)
    have hlt : p < 2 ^ t.lg := by
      rw [← h.core.len]
      by_contra hcon
      rw [List.getElem?_eq_none (by omega)] at hp; cases hp
    obtain ⟨i, hi, he⟩ := hok.pos_surj 0 hlt
    refine ⟨i, hi, rc, ?_, hx⟩
    have he' : (0 + i * walkStride t.lg) % 2 ^ t.lg = p := he
    rw [he']; exact hp

/-- `walkTableUpdatingSketch` -/
theorem walkTable_sound {c c' : Sk} {S T : Finset Nat} {t : PT} {vb : Nat} (h : SkInv c S)
    (ht : PTInv t vb T) (he : walkTable c t = .ok c') :
    SkInv c' (S ∪ fold c.lgK T) ∧ c'.lgK = c.lgK ∧ c'.seed = c.seed ∧ c'.merged = c.merged := by
  have := walk_sound ht.core.len _ _ h rfl he
  rwa [walkSet_all ht] at this

theorem walkTable_total {c : Sk} {S T : Finset Nat} {t : PT} {vb : Nat} (h : SkInv c S)
    (ht : PTInv t vb T) (hr : ∀ V, V ⊆ S ∪ fold c.lgK T → Room c.lgK V) :
    ∃ c', walkTable c t = .ok c' := by
  apply walk_total ht.core.len _ _ h rfl
  rwa [walkSet_all ht]

/-! ## The state of a union -/

structure UnInv (u : Un) (S : Finset Nat) : Prop where
  lg4 : 4 ≤ u.lgK
  lg26 : u.lgK ≤ 26
  valid : ∀ x ∈ S, x < 64 * 2 ^ u.lgK
  mode : (∃ a, u.acc = some a ∧ u.matrix = none ∧ SkInv a S ∧ a.lgK = u.lgK ∧ a.seed = u.seed ∧
        32 * S.card < 3 * 2 ^ u.lgK) ∨
      (∃ m, u.acc = none ∧ u.matrix = some m ∧ IsMatrix (2 ^ u.lgK) m S ∧
        3 * 2 ^ u.lgK ≤ 32 * S.card)

theorem UnInv.new {lgK seed : Nat} (h4 : 4 ≤ lgK) (h26 : lgK ≤ 26) :
    ∃ u, newUn lgK seed = .ok u ∧ UnInv u ∅ ∧ u.lgK = lgK ∧ u.seed = seed := by
  obtain ⟨c, e, h, hl, _, hs, _⟩ := SkInv.new (seed := seed) h4 h26
  refine ⟨⟨seed, lgK, none, some c⟩, ?_, ⟨h4, h26, by simp, Or.inl ⟨c, rfl, rfl, h, hl, hs, ?_⟩⟩, rfl, rfl⟩
  · unfold newUn
    rw [e, ok_bind]
  · have := Nat.two_pow_pos lgK
    simp

theorem newUn_err {lgK seed : Nat} (h : lgK < 4 ∨ 26 < lgK) : newUn lgK seed = .err "LgK" := by
  unfold newUn
  rw [new_err h, err_bind]

theorem SkInv.sparse {c : Sk} {S : Finset Nat} (h : SkInv c S) (hne : 0 < S.card)
    (hf : 32 * S.card < 3 * 2 ^ c.lgK) : ∃ t, SparseM c S t := by
  rcases h.mode with hm | hm | ⟨w, t, hm⟩
  · rw [hm.set] at hne; simp at hne
  · exact hm
  · have := hm.many; omega

theorem SkInv.windowed {c : Sk} {S : Finset Nat} (h : SkInv c S)
    (hf : 3 * 2 ^ c.lgK ≤ 32 * S.card) : ∃ w t, WinM c S w t := by
  have := Nat.two_pow_pos c.lgK
  rcases h.mode with hm | ⟨t, hm⟩ | hm
  · rw [hm.set] at hf; simp at hf
  · have := hm.few; omega
  · exact hm

theorem UnInv.check {u : Un} {S : Finset Nat} (h : UnInv u S) : checkUn u = .ok () := by
  unfold checkUn
  rcases h.mode with ⟨a, ha, hm, hi, hl, _, hf⟩ | ⟨m, ha, hm, _⟩
  · rw [ha, hm]
    simp only []
    rw [if_neg, if_neg (by omega)]
    rintro ⟨h0, h1⟩
    obtain ⟨t, ht⟩ := hi.sparse (by rw [← hi.num]; exact h0) (by rw [hl]; exact hf)
    rw [ht.win, ht.pt] at h1
    simp at h1
  · rw [ha, hm]

theorem copySk_eq {c : Sk} {S : Finset Nat} (h : SkInv c S) (hne : 0 < S.card) :
    copySk c = .ok c := by
  unfold copySk
  obtain ⟨c0, e, _⟩ := SkInv.new (seed := c.seed) h.lg4 h.lg26
  rw [e, ok_bind]
  have hpt : ∃ t T, c.pt = some t ∧ PTInv t (6 + c.lgK) T := by
    rcases h.mode with hm | ⟨t, hm⟩ | ⟨w, t, hm⟩
    · rw [hm.set] at hne; simp at hne
    · exact ⟨t, _, hm.pt, hm.inv⟩
    · exact ⟨t, _, hm.pt, hm.inv⟩
  obtain ⟨t, T, ht, hi⟩ := hpt
  rw [ht]
  simp only []
  obtain ⟨t0, e0, _⟩ := PTInv.new (lg := t.lg) (vb := t.vb) hi.lg2 hi.lg26
    (by rw [hi.vbeq]; exact hi.core.lgvb)
  rw [e0]

/-! ### Reducing -/

theorem reduce_spec {u : Un} {S : Finset Nat} {L : Nat} (h : UnInv u S) (hL : L < u.lgK)
    (h4 : 4 ≤ L) :
    (∀ u', reduceUn u L = .ok u' → UnInv u' (fold L S) ∧ u'.lgK = L ∧ u'.seed = u.seed) ∧
    ((∀ V, V ⊆ fold L S → Room L V) → ∃ u', reduceUn u L = .ok u') := by
  have h26 := h.lg26
  unfold reduceUn
  rw [if_pos hL]
  rcases h.mode with ⟨a, ha, hm, hi, hl, hs, hf⟩ | ⟨m, ha, hm, hi, hf⟩
  · simp only [hm, ha]
    obtain ⟨n, en, hn, nl, nm, ns, _⟩ := SkInv.new (seed := a.seed) h4 (by omega : L ≤ 26)
    by_cases h0 : a.num = 0
    · have hS : S = ∅ := by rw [hi.num] at h0; exact Finset.card_eq_zero.mp h0
      rw [if_pos h0, en, ok_bind]
      refine ⟨fun u' he => ?_, fun _ => ⟨_, rfl⟩⟩
      cases he
      have hfS : fold L S = ∅ := by rw [hS]; rfl
      rw [hfS]
      refine ⟨⟨h4, by show L ≤ 26; omega, by simp, Or.inl ⟨n, rfl, rfl, hn, nl, ns.trans hs, ?_⟩⟩, rfl, rfl⟩
      have := Nat.two_pow_pos L
      simp
    · rw [if_neg h0, en, ok_bind]
      obtain ⟨t, ht⟩ := hi.sparse (by rw [← hi.num]; omega) (by rw [hl]; exact hf)
      simp only [ht.pt]
      have hv := fold_valid L S
      constructor
      · intro u' he
        obtain ⟨n', e', he⟩ := Outcome.bind_eq_ok.mp he
        obtain ⟨hn', l', s', _⟩ := walkTable_sound hn ht.inv e'
        rw [Finset.empty_union, nl] at hn'
        rw [nl] at l'
        have hpos : 0 < (fold L S).card := by
          apply Finset.card_pos.mpr
          exact (Finset.card_pos.mp ht.ne).image _
        by_cases hsp : flavor n'.lgK n'.num = .sparse
        · rw [if_pos hsp] at he
          cases he
          refine ⟨⟨h4, by show L ≤ 26; omega, hv, Or.inl ⟨n', rfl, rfl, hn', l', ?_, ?_⟩⟩, rfl, rfl⟩
          · rw [s', ns, hs]
          · rw [l', hn'.num] at hsp
            unfold flavor at hsp
            by_contra hcon
            rw [if_neg (by omega), if_neg (by omega)] at hsp
            split at hsp
            · cases hsp
            · split at hsp <;> cases hsp
        · rw [if_neg hsp] at he
          obtain ⟨m', em, hm'⟩ := bitMatrix_spec hn'
          rw [em, ok_bind] at he
          cases he
          rw [l'] at hm'
          refine ⟨⟨h4, by show L ≤ 26; omega, hv, Or.inr ⟨m', rfl, rfl, hm', ?_⟩⟩, rfl, rfl⟩
          by_contra hcon
          apply hsp
          unfold flavor
          rw [l', hn'.num, if_neg (by omega), if_pos (by simpa using hcon)]
      · intro hr
        obtain ⟨n', e'⟩ := walkTable_total hn ht.inv (by
          rw [Finset.empty_union, nl]; exact hr)
        obtain ⟨hn', l', s', _⟩ := walkTable_sound hn ht.inv e'
        rw [e', ok_bind]
        by_cases hsp : flavor n'.lgK n'.num = .sparse
        · rw [if_pos hsp]; exact ⟨_, rfl⟩
        · rw [if_neg hsp]
          obtain ⟨m', em, hm'⟩ := bitMatrix_spec hn'
          rw [em, ok_bind]
          exact ⟨_, rfl⟩
  · simp only [hm]
    rw [List.take_of_length_le (by rw [hi.1])]
    have hz : IsMatrix (2 ^ L) (List.replicate (2 ^ L) 0#64) ∅ :=
      (Rep.replicate _ _).congr (by intro r c _ _; simp)
    obtain ⟨m', em, hm'⟩ := orMatrix_spec (lgK := L) m 0 _ _ hz
    rw [Finset.empty_union, rowsSet_eq hi h.valid] at hm'
    rw [em, ok_bind]
    refine ⟨fun u' he => ?_, fun _ => ⟨_, rfl⟩⟩
    cases he
    refine ⟨⟨h4, by show L ≤ 26; omega, fold_valid L S, Or.inr ⟨m', ha, rfl, hm', ?_⟩⟩, rfl, rfl⟩
    have hc := card_fold (S := S) (a := u.lgK) (b := L) (by omega) h.valid
    have hp := Nat.two_pow_pos u.lgK
    have h1 : 3 * 2 ^ u.lgK * 2 ^ L ≤ 32 * S.card * 2 ^ L := Nat.mul_le_mul_right _ hf
    have h2 : 3 * 2 ^ L * 2 ^ u.lgK ≤ 32 * (fold L S).card * 2 ^ u.lgK := by nlinarith
    exact Nat.le_of_mul_le_mul_right h2 hp

theorem toMatrix_spec {u : Un} {S : Finset Nat} (h : UnInv u S) :
    ∃ m, toMatrix u = .ok { u with matrix := some m, acc := none } ∧ IsMatrix (2 ^ u.lgK) m S := by
  unfold toMatrix
  rcases h.mode with ⟨a, ha, hm, hi, hl, hs, hf⟩ | ⟨m, ha, hm, hi, hf⟩
  · simp only [ha]
    obtain ⟨m, em, hm'⟩ := bitMatrix_spec hi
    rw [em, ok_bind]
    rw [hl] at hm'
    exact ⟨m, rfl, hm'⟩
  · simp only [ha]
    refine ⟨m, ?_, hi⟩
    cases u
    simp only at ha hm
    rw [ha, hm]

theorem flavor_cases {lgK n : Nat} : (flavor lgK n = .empty ↔ n = 0) ∧
    (flavor lgK n = .sparse ↔ 0 < n ∧ 32 * n < 3 * 2 ^ lgK) ∧
    (flavor lgK n = .sliding ↔ 27 * 2 ^ lgK ≤ 8 * n) := by
  have hp := Nat.two_pow_pos lgK
  unfold flavor
  generalize 2 ^ lgK = K at *
  split
  · simp; omega
  · split
    · simp; omega
    · split
      · simp; omega
      · split
        · simp; omega
        · simp; omega

theorem orSource_spec {u : Un} {m : List (BitVec 64)} {S T : Finset Nat} {src : Sk}
    (hm : IsMatrix (2 ^ u.lgK) m S) (hs : SkInv src T) (hne : 0 < T.card) (hl : u.lgK ≤ src.lgK) :
    ∃ m', orSource u m src = .ok { u with matrix := some m' } ∧
      IsMatrix (2 ^ u.lgK) m' (S ∪ fold u.lgK T) := by
  have hfl := @flavor_cases src.lgK src.num
  rw [hs.num] at hfl
  have hp := Nat.two_pow_pos src.lgK
  have hwin : flavor src.lgK T.card = .hybrid ∨ flavor src.lgK T.card = .pinned →
      ∃ m', (if u.lgK > src.lgK then (.err "destLgK <= srcLgK" : Outcome Un) else
        match src.win with
        | none => .panic
        | some w => do
          let m ← orWindowInto m u.lgK (w.take (2 ^ src.lgK)) 0
          let t ← ptOf src
          let m ← orTable m u.lgK t
          .ok { u with matrix := some m }) = .ok { u with matrix := some m' } ∧
        IsMatrix (2 ^ u.lgK) m' (S ∪ fold u.lgK T) := by
    intro hf
    have h1 : ¬ (32 * T.card < 3 * 2 ^ src.lgK) := by
      intro hc
      have := hfl.2.1.mpr ⟨hne, hc⟩
      rw [this] at hf; simp at hf
    have h2 : ¬ (27 * 2 ^ src.lgK ≤ 8 * T.card) := by
      intro hc
      have := hfl.2.2.mpr hc
      rw [this] at hf; simp at hf
    obtain ⟨w, t, hw⟩ := hs.windowed (by omega)
    have hoff : src.off = 0 := by
      rcases hw.lo with h | h
      · exact h
      · by_contra hcon
        have : 27 * 2 ^ src.lgK ≤ (19 + 8 * src.off) * 2 ^ src.lgK :=
          Nat.mul_le_mul_right _ (by omega)
        omega
    rw [if_neg (by omega)]
    simp only [hw.win, ptOf, hw.pt, ok_bind]
    have hiw := hw.isWin
    have hpt := hw.inv
    rw [hoff] at hiw hpt
    rw [List.take_of_length_le (by rw [hiw.1]), orWindowInto_eq]
    obtain ⟨m1, e1, h1'⟩ := orMatrix_spec (lgK := u.lgK) (w.map (·.setWidth 64)) 0 m S hm
    rw [rowsSet_eq (window_matrix hiw)
      (fun x hx => hs.valid x (Finset.mem_filter.mp hx).1)] at h1'
    rw [e1, ok_bind]
    obtain ⟨m2, e2, h2'⟩ := orTable_pt h1' hpt
    rw [e2, ok_bind]
    refine ⟨m2, rfl, ?_⟩
    have hu : S ∪ fold u.lgK T = S ∪ fold u.lgK (T.filter (· % 64 < 8)) ∪
        fold u.lgK (surp (2 ^ src.lgK) 0 T) := by
      rw [Finset.union_assoc, ← fold_union]
      congr 2
      ext x
      rw [Finset.mem_union, Finset.mem_filter, mem_surp]
      constructor
      · intro hx
        have := hs.valid x hx
        by_cases h8 : x % 64 < 8
        · exact Or.inl ⟨hx, h8⟩
        · exact Or.inr ⟨this, Or.inr ⟨by omega, hx⟩⟩
      · rintro (h | ⟨_, h | h⟩)
        · exact h.1
        · omega
        · exact h.2
    rw [hu]; exact h2'
  unfold orSource
  rw [hs.num]
  cases hf : flavor src.lgK T.card with
  | empty => have := hfl.1.mp hf; omega
  | sparse =>
    obtain ⟨h1, h2⟩ := hfl.2.1.mp hf
    obtain ⟨t, ht⟩ := hs.sparse h1 h2
    simp only [ptOf, ht.pt, ok_bind]
    obtain ⟨m', e, h'⟩ := orTable_pt hm ht.inv
    rw [e, ok_bind]
    exact ⟨m', rfl, h'⟩
  | hybrid => exact hwin (Or.inl hf)
  | pinned => exact hwin (Or.inr hf)
  | sliding =>
    obtain ⟨sm, e, hsm⟩ := bitMatrix_spec hs
    simp only [e, ok_bind]
    rw [if_neg (by omega), List.take_of_length_le (by rw [hsm.1])]
    obtain ⟨m', e', h'⟩ := orMatrix_spec (lgK := u.lgK) sm 0 m S hm
    rw [rowsSet_eq hsm hs.valid] at h'
    rw [e', ok_bind]
    exact ⟨m', rfl, h'⟩

theorem accSource_spec {u : Un} {a src : Sk} {S T : Finset Nat} (h : UnInv u S)
    (hm : u.matrix = none) (hi : SkInv a S) (hal : a.lgK = u.lgK)
    (has : a.seed = u.seed) (hs : SkInv src T)
    (hne : 0 < T.card) (hT : 32 * T.card < 3 * 2 ^ src.lgK) (hseed : u.seed = src.seed) :
    (∀ u', accSource u a src = .ok u' →
      UnInv u' (S ∪ fold u.lgK T) ∧ u'.lgK = u.lgK ∧ u'.seed = u.seed) ∧
    ((∀ V, V ⊆ S ∪ fold u.lgK T → Room u.lgK V) → ∃ u', accSource u a src = .ok u') := by
  have h4 := hi.lg4
  obtain ⟨t, ht⟩ := hs.sparse hne hT
  have hv : ∀ x ∈ S ∪ fold u.lgK T, x < 64 * 2 ^ u.lgK := by
    intro x hx
    rcases Finset.mem_union.mp hx with hx | hx
    · exact h.valid x hx
    · exact fold_valid _ _ x hx
  unfold accSource
  rw [if_neg (by omega)]
  by_cases hc : flavor a.lgK a.num = .empty ∧ u.lgK = src.lgK
  · rw [if_pos hc, copySk_eq hs hne, ok_bind]
    have hS : S = ∅ := by
      have := flavor_cases.1.mp hc.1
      rw [hi.num] at this
      exact Finset.card_eq_zero.mp this
    refine ⟨fun u' he => ?_, fun _ => ⟨_, rfl⟩⟩
    cases he
    have hset : S ∪ fold u.lgK T = T := by
      rw [hS, Finset.empty_union, hc.2, fold_self hs.valid]
    rw [hset] at hv ⊢
    refine ⟨⟨h.lg4, h.lg26, hv, Or.inl ⟨src, rfl, hm, hs, hc.2.symm, hseed.symm, ?_⟩⟩, rfl, rfl⟩
    show 32 * T.card < 3 * 2 ^ u.lgK
    rw [hc.2]; exact hT
  · rw [if_neg hc]
    simp only [ptOf, ht.pt, ok_bind]
    have hfin : ∀ a', walkTable a t = .ok a' → ∃ u', (let u1 := { u with acc := some a' };
          if flavor a'.lgK a'.num ≠ .empty ∧ flavor a'.lgK a'.num ≠ .sparse then toMatrix u1
          else .ok u1) = .ok u' ∧
        UnInv u' (S ∪ fold u.lgK T) ∧ u'.lgK = u.lgK ∧ u'.seed = u.seed := by
      intro a' e'
      obtain ⟨ha', l', s', _⟩ := walkTable_sound hi ht.inv e'
      rw [hal] at ha'
      have hl' : a'.lgK = u.lgK := l'.trans hal
      have hpos : 0 < (S ∪ fold u.lgK T).card := by
        apply Finset.card_pos.mpr
        obtain ⟨x, hx⟩ := Finset.card_pos.mp hne
        exact ⟨_, Finset.mem_union_right _ (Finset.mem_image_of_mem _ hx)⟩
      have hfl := @flavor_cases a'.lgK a'.num
      rw [hl', ha'.num] at hfl
      simp only [hl', ha'.num]
      by_cases hsp : flavor u.lgK (S ∪ fold u.lgK T).card ≠ .empty ∧
          flavor u.lgK (S ∪ fold u.lgK T).card ≠ .sparse
      · rw [if_pos hsp]
        unfold toMatrix
        obtain ⟨m', em, hm'⟩ := bitMatrix_spec ha'
        simp only [em, ok_bind]
        rw [hl'] at hm'
        refine ⟨_, rfl, ⟨h.lg4, h.lg26, hv, Or.inr ⟨m', rfl, rfl, hm', ?_⟩⟩, rfl, rfl⟩
        by_contra hcon
        exact hsp.2 (hfl.2.1.mpr ⟨hpos, by simpa using hcon⟩)
      · rw [if_neg hsp]
        refine ⟨_, rfl, ⟨h.lg4, h.lg26, hv, Or.inl ⟨a', rfl, hm, ha', hl', s'.trans has, ?_⟩⟩, rfl, rfl⟩
        by_contra hcon
        apply hsp
        constructor
        · intro he; have := hfl.1.mp he; omega
        · intro he; exact hcon (hfl.2.1.mp he).2
    constructor
    · intro u' he
      obtain ⟨a', e', he⟩ := Outcome.bind_eq_ok.mp he
      obtain ⟨u1, e1, h1⟩ := hfin a' e'
      rw [e1] at he
      cases he
      exact h1
    · intro hr
      obtain ⟨a', e'⟩ := walkTable_total hi ht.inv (by rw [hal]; exact hr)
      rw [e', ok_bind]
      obtain ⟨u1, e1, _⟩ := hfin a' e'
      exact ⟨u1, e1⟩

/-! ### Update -/

theorem update_seed {u : Un} {src : Sk} (h : u.seed ≠ src.seed) :
    u.update src = .err "incompatible seeds" := by
  unfold Un.update
  rw [if_pos h]

theorem update_empty {u : Un} {src : Sk} (hs : SkInv src ∅) (h : u.seed = src.seed) :
    u.update src = .ok u := by
  unfold Un.update
  rw [if_neg (by simpa using h), if_pos (flavor_cases.1.mpr hs.num)]

/-- `Update`: what the union holds afterwards, and when it succeeds. -/
theorem update_spec {u : Un} {src : Sk} {S T : Finset Nat} (h : UnInv u S) (hs : SkInv src T)
    (hne : 0 < T.card) (hseed : u.seed = src.seed) :
    (∀ u', u.update src = .ok u' →
      UnInv u' (fold (min u.lgK src.lgK) S ∪ fold (min u.lgK src.lgK) T) ∧
        u'.lgK = min u.lgK src.lgK ∧ u'.seed = u.seed) ∧
    ((∀ V, V ⊆ fold (min u.lgK src.lgK) S ∪ fold (min u.lgK src.lgK) T →
        Room (min u.lgK src.lgK) V) → ∃ u', u.update src = .ok u') := by
  have hfl := @flavor_cases src.lgK src.num
  rw [hs.num] at hfl
  obtain ⟨L, hL⟩ : ∃ L, L = min u.lgK src.lgK := ⟨_, rfl⟩
  rw [← hL]
  -- after the reduction
  have hred : (∀ u1, reduceFor u src = .ok u1 →
        UnInv u1 (fold L S) ∧ u1.lgK = L ∧ u1.seed = u.seed) ∧
      ((∀ V, V ⊆ fold L S → Room L V) →
        ∃ u1, reduceFor u src = .ok u1) := by
    unfold reduceFor
    by_cases hlt : src.lgK < u.lgK
    · simp only [if_pos hlt]
      have he : L = src.lgK := by omega
      rw [he]
      exact reduce_spec h hlt hs.lg4
    · simp only [if_neg hlt]
      have he : L = u.lgK := by omega
      rw [he, fold_self h.valid]
      refine ⟨fun u1 e => ?_, fun _ => ⟨u, rfl⟩⟩
      cases e
      exact ⟨h, rfl, rfl⟩
  -- from a reduced union
  have hfin : ∀ u1, UnInv u1 (fold L S) → u1.lgK = L → u1.seed = u.seed →
      (∀ u', (prepareFor u1 src >>= fun u => addSource u src) = .ok u' → UnInv u' (fold L S ∪ fold L T) ∧ u'.lgK = L ∧ u'.seed = u.seed) ∧
      ((∀ V, V ⊆ fold L S ∪ fold L T → Room L V) → ∃ u', (prepareFor u1 src >>= fun u => addSource u src) = .ok u') := by
    unfold prepareFor addSource
    intro u1 h1 l1 s1
    have hv : ∀ x ∈ fold L S ∪ fold L T, x < 64 * 2 ^ L := by
      intro x hx
      rcases Finset.mem_union.mp hx with hx | hx
      · exact fold_valid _ _ x hx
      · exact fold_valid _ _ x hx
    have hlg : u1.lgK ≤ src.lgK := by omega
    simp only [hs.num]
    by_cases hsp : flavor src.lgK T.card = .sparse
    · simp only [hsp, ne_eq, not_true_eq_false, if_false, ok_bind, if_true]
      obtain ⟨_, hT⟩ := hfl.2.1.mp hsp
      rcases h1.mode with ⟨a, ha, hm, hi, hl, hss, hf⟩ | ⟨m, ha, hm, hi, hf⟩
      · simp only [hm, ha]
        have := accSource_spec h1 hm hi hl hss hs hne hT (s1.trans hseed)
        rw [l1, s1] at this
        exact this
      · simp only [hm]
        obtain ⟨m', e, hm'⟩ := orSource_spec hi hs hne hlg
        rw [l1] at hm'
        rw [e]
        refine ⟨fun u' he => ?_, fun _ => ⟨_, rfl⟩⟩
        cases he
        refine ⟨⟨h1.lg4, h1.lg26, by show ∀ x ∈ _, x < 64 * 2 ^ u1.lgK; rw [l1]; exact hv,
          Or.inr ⟨m', ha, rfl, by show IsMatrix (2 ^ u1.lgK) _ _; rw [l1]; exact hm', ?_⟩⟩, l1, s1⟩
        have := Finset.card_le_card (Finset.subset_union_left (s₁ := fold L S) (s₂ := fold L T))
        show 3 * 2 ^ u1.lgK ≤ _
        omega
    · simp only [hsp, ne_eq, not_false_eq_true, if_true, if_false]
      obtain ⟨m, em, hm⟩ := toMatrix_spec h1
      rw [em, ok_bind]
      simp only []
      obtain ⟨m', e, hm'⟩ := orSource_spec (u := { u1 with matrix := some m, acc := none }) hm hs
        hne hlg
      rw [e]
      refine ⟨fun u' he => ?_, fun _ => ⟨_, rfl⟩⟩
      cases he
      have hm'' : IsMatrix (2 ^ u1.lgK) m' (fold L S ∪ fold u1.lgK T) := hm'
      rw [l1] at hm''
      refine ⟨⟨h1.lg4, h1.lg26, by show ∀ x ∈ _, x < 64 * 2 ^ u1.lgK; rw [l1]; exact hv,
        Or.inr ⟨m', rfl, rfl, by show IsMatrix (2 ^ u1.lgK) _ _; rw [l1]; exact hm'', ?_⟩⟩, l1, s1⟩
      show 3 * 2 ^ u1.lgK ≤ _
      rw [l1]
      have hT : 3 * 2 ^ src.lgK ≤ 32 * T.card := by
        by_contra hcon
        exact hsp (hfl.2.1.mpr ⟨hne, by omega⟩)
      have hc := card_fold (S := T) (a := src.lgK) (b := L) (by omega) hs.valid
      have hp := Nat.two_pow_pos src.lgK
      have h1 : 3 * 2 ^ src.lgK * 2 ^ L ≤ 32 * T.card * 2 ^ L := Nat.mul_le_mul_right _ hT
      have h2 : 3 * 2 ^ L * 2 ^ src.lgK ≤ 32 * (fold L T).card * 2 ^ src.lgK := by nlinarith
      have h3 := Nat.le_of_mul_le_mul_right h2 hp
      have := Finset.card_le_card (Finset.subset_union_right (s₁ := fold L S) (s₂ := fold L T))
      omega
  have hnf : ¬ flavor src.lgK src.num = .empty := by
    rw [hs.num]
    intro he; have := hfl.1.mp he; omega
  have hupd : u.update src =
      (reduceFor u src >>= fun u1 => prepareFor u1 src >>= fun u => addSource u src) := by
    unfold Un.update
    rw [if_neg (by simpa using hseed), if_neg hnf, h.check, ok_bind]
  rw [hupd]
  constructor
  · intro u' he
    obtain ⟨u1, e1, e2⟩ := Outcome.bind_eq_ok.mp he
    obtain ⟨h1, l1, s1⟩ := hred.1 u1 e1
    exact (hfin u1 h1 l1 s1).1 u' e2
  · intro hr
    obtain ⟨u1, e1⟩ := hred.2 (fun V hV => hr V (hV.trans Finset.subset_union_left))
    obtain ⟨h1, l1, s1⟩ := hred.1 u1 e1
    rw [e1, ok_bind]
    exact (hfin u1 h1 l1 s1).2 hr

/-! ### Result -/

theorem correctOffset_bounds {lgK n : Nat} :
    8 * n < (27 + 8 * correctOffset lgK n) * 2 ^ lgK ∧
      (correctOffset lgK n = 0 ∨ (19 + 8 * correctOffset lgK n) * 2 ^ lgK ≤ 8 * n) := by
  have hp := Nat.two_pow_pos lgK
  unfold correctOffset
  rw [Nat.shiftRight_eq_div_pow, pow_add, show (2 : Nat) ^ 3 = 8 by norm_num]
  generalize 2 ^ lgK = K at *
  split
  · refine ⟨by omega, Or.inl rfl⟩
  · have hd := Nat.div_add_mod (8 * n - 19 * K) (K * 8)
    have hm := Nat.mod_lt (8 * n - 19 * K) (show 0 < K * 8 by omega)
    generalize (8 * n - 19 * K) / (K * 8) = q at *
    generalize (8 * n - 19 * K) % (K * 8) = r at *
    have e1 : K * 8 * q = 8 * q * K := by ring
    rw [e1] at hd
    constructor
    · rw [Nat.add_mul]; omega
    · right; rw [Nat.add_mul]; omega

/-- `GetResult` -/
theorem result_spec {u : Un} {S : Finset Nat} (h : UnInv u S)
    (hbig : 8 * S.card < 475 * 2 ^ u.lgK) :
    (Cap (6 + u.lgK) (surp (2 ^ u.lgK) (correctOffset u.lgK S.card) S).card →
      ∃ r, u.result = .ok r ∧ SkInv r S ∧ r.lgK = u.lgK ∧ r.seed = u.seed ∧ r.merged = true) ∧
    (∀ r, u.result = .ok r →
      SkInv r S ∧ r.lgK = u.lgK ∧ r.seed = u.seed ∧ r.merged = true) := by
  have hp := Nat.two_pow_pos u.lgK
  unfold Un.result
  rw [h.check, ok_bind]
  rcases h.mode with ⟨a, ha, hm, hi, hl, hs, hf⟩ | ⟨m, ha, hm, hi, hf⟩
  · simp only [ha]
    by_cases h0 : a.num = 0
    · have hS : S = ∅ := by rw [hi.num] at h0; exact Finset.card_eq_zero.mp h0
      obtain ⟨n, en, hn, nl, nm, ns, _⟩ := SkInv.new (seed := a.seed) h.lg4 h.lg26
      rw [if_pos h0, en, ok_bind, hS]
      have hinv : SkInv { n with merged := true } ∅ := by
        refine ⟨hn.lg4, hn.lg26, hn.num, hn.valid, ?_⟩
        rcases hn.mode with hm | ⟨t, hm⟩ | ⟨w, t, hm⟩
        · exact Or.inl ⟨hm.set, hm.win, hm.off, hm.fi⟩
        · have := hm.ne; simp at this
        · have h1 := hm.many; have h2 := Nat.two_pow_pos n.lgK; rw [Finset.card_empty] at h1; omega
      refine ⟨fun _ => ⟨_, rfl, hinv, nl, ns.trans hs, rfl⟩, fun r he => ?_⟩
      cases he
      exact ⟨hinv, nl, ns.trans hs, rfl⟩
    · have hpos : 0 < S.card := by rw [← hi.num]; omega
      have hsp : flavor a.lgK a.num = .sparse := by
        apply flavor_cases.2.1.mpr
        rw [hi.num, hl]; exact ⟨hpos, hf⟩
      rw [if_neg h0, if_neg (by simpa using hsp), copySk_eq hi hpos, ok_bind]
      have hinv : SkInv { a with merged := true } S := by
        obtain ⟨t, ht⟩ := hi.sparse hpos (by rw [hl]; exact hf)
        exact ⟨hi.lg4, hi.lg26, hi.num, hi.valid,
          Or.inr (Or.inl ⟨t, ht.ne, ht.few, ht.win, ht.off, ht.fi, ht.pt, ht.inv⟩)⟩
      refine ⟨fun _ => ⟨_, rfl, hinv, hl, hs, rfl⟩, fun r he => ?_⟩
      cases he
      exact ⟨hinv, hl, hs, rfl⟩
  · obtain ⟨n, en, hn, nl, nm, ns, _⟩ := SkInv.new (seed := u.seed) h.lg4 h.lg26
    have hcount : countBits m = S.card := countBits_eq hi h.valid
    obtain ⟨t0, et, ht0⟩ := PTInv.new (lg := max (u.lgK - 4) 2) (vb := 6 + u.lgK) (by omega)
      (by have := h.lg26; omega) (by omega)
    have hnf : ¬ (flavor u.lgK S.card = .empty ∨ flavor u.lgK S.card = .sparse) := by
      rintro (hc | hc)
      · have := flavor_cases.1.mp hc; omega
      · have := (flavor_cases.2.1.mp hc).2; omega
    have hoff : correctOffset u.lgK S.card ≤ 56 := by
      rcases (correctOffset_bounds (lgK := u.lgK) (n := S.card)).2 with h0 | h0
      · omega
      · by_contra hcon
        have : 475 * 2 ^ u.lgK ≤ (19 + 8 * correctOffset u.lgK S.card) * 2 ^ u.lgK :=
          Nat.mul_le_mul_right _ (by omega)
        omega
    simp only [ha, hm, en, ok_bind, hcount, if_neg hnf, et]
    rw [List.take_of_length_le (by rw [hi.1])]
    have hsurp := rowsSurp_eq hi (off := correctOffset u.lgK S.card) (by omega)
    rcases splitRows_spec (vb := 6 + u.lgK) (off := correctOffset u.lgK S.card) m 0 [] t0 0#64 ∅
        ht0.1 (by simp) (by rw [Nat.zero_add, hi.1, two6]) (by unfold Cap; simp) with
      ⟨hc, t', o', e, h', hor⟩ | ⟨hc, hf'⟩
    · rw [Finset.empty_union, hsurp] at hc h'
      rw [e, ok_bind]
      simp only [List.nil_append]
      have hb := correctOffset_bounds (lgK := u.lgK) (n := S.card)
      have hinv : SkInv { n with
          num := S.card, off := correctOffset u.lgK S.card,
          win := some (m.map (windowOf (correctOffset u.lgK S.card))), pt := some t',
          fiCol := min (ctz o') (correctOffset u.lgK S.card), merged := true } S := by
        refine ⟨hn.lg4, hn.lg26, rfl, ?_, Or.inr (Or.inr ⟨_, t', ?_, rfl, rfl, hoff, ?_, ?_, ?_, ?_, ?_, ?_⟩)⟩
        · show ∀ x ∈ S, x < 64 * 2 ^ n.lgK
          rw [nl]; exact h.valid
        · show 3 * 2 ^ n.lgK ≤ _
          rw [nl]; exact hf
        · show IsWindow (2 ^ n.lgK) _ _ _
          rw [nl]; exact isWindow_map hi hoff
        · show PTInv t' (6 + n.lgK) (surp (2 ^ n.lgK) _ S)
          rw [nl]; exact h'
        · show _ < _ * 2 ^ n.lgK
          rw [nl]; exact hb.1
        · show _ ∨ _ * 2 ^ n.lgK ≤ _
          rw [nl]; exact hb.2
        · show ∀ x, x < 64 * 2 ^ n.lgK → _
          rw [nl]
          apply fiCol_sound hi (by omega)
          intro col
          rw [hor col]; simp
        · exact Nat.min_le_right _ _
      refine ⟨fun _ => ⟨_, rfl, hinv, nl, ns, rfl⟩, fun r he => ?_⟩
      cases he
      exact ⟨hinv, nl, ns, rfl⟩
    · rw [Finset.empty_union, hsurp] at hc
      refine ⟨fun hcap => absurd hcap hc, fun r he => ?_⟩
      obtain ⟨x, hx, _⟩ := Outcome.bind_eq_ok.mp he
      exact absurd hx (hf' x)

theorem unBitMatrix_spec {u : Un} {S : Finset Nat} (h : UnInv u S) :
    ∃ m, u.bitMatrix = .ok m ∧ IsMatrix (2 ^ u.lgK) m S := by
  unfold Un.bitMatrix
  rw [h.check, ok_bind]
  rcases h.mode with ⟨a, ha, hm, hi, hl, hs, hf⟩ | ⟨m, ha, hm, hi, hf⟩
  · simp only [ha, hm]
    rw [← hl]
    exact bitMatrix_spec hi
  · simp only [hm]
    exact ⟨m, rfl, hi⟩

theorem unNum_spec {u : Un} {S : Finset Nat} (h : UnInv u S) : u.numCoupons = .ok S.card := by
  unfold Un.numCoupons
  rcases h.mode with ⟨a, ha, hm, hi, hl, hs, hf⟩ | ⟨m, ha, hm, hi, hf⟩
  · simp only [ha, hm, hi.num]
  · simp only [hm, countBits_eq hi h.valid]

end Verif.Cpc
