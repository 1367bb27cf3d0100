import Verif.ThetaModel
import Verif.HashTableInv
import Mathlib.Data.List.Dedup

/-!
# C01-C04, C06: theta update sketch and its compact form
-/

namespace Verif.Theta

open Probe HashTable

/-! ## histories and specification -/

/-- Public operations of the update sketch that change it. -/
inductive Op (ι : Type) where
  | update (x : ι)
  | updateEmptyString
  | trim
  | reset
  deriving DecidableEq

/-- one operation; `hash` is an arbitrary hash function to 64-bit words -/
def step {ι : Type} (hash : ι → Nat) (t : Tbl) : Op ι → Outcome Tbl
  | .update x => do let (t, _) ← update t (hash x); pure t
  | .updateEmptyString => do let (t, _) ← updateEmptyString t; pure t
  | .trim => t.trim elem
  | .reset => .ok (t.reset elem)

def run {ι : Type} (hash : ι → Nat) : Tbl → List (Op ι) → Outcome Tbl
  | t, [] => .ok t
  | t, op :: ops => do let t ← step hash t op; run hash t ops

/-- Spec: the items presented since the last reset, given those presented before. -/
def presented {ι : Type} : List ι → List (Op ι) → List ι
  | acc, [] => acc
  | acc, .update x :: ops => presented (acc ++ [x]) ops
  | acc, .updateEmptyString :: ops => presented acc ops
  | acc, .trim :: ops => presented acc ops
  | _, .reset :: ops => presented [] ops

/-- Spec: 63-bit hash of an item -/
def hash63 {ι : Type} (hash : ι → Nat) (x : ι) : Nat := hash x / 2

/-! ## invariant -/

theorem all_eq (t : Tbl) : all t = itemsOf elem t.entries := rfl

theorem nodup_all {t : Tbl} (h : TInv elem t) : (all t).Nodup := by
  have := h.chain.keys_nodup
  rw [show elem.key = id from rfl, List.map_id] at this
  exact this

/-- Invariant of a sketch after presenting the items `xs` since the last reset. -/
structure SInv {ι : Type} (hash : ι → Nat) (lgK start : Nat) (t : Tbl) (xs : List ι) : Prop where
  tinv : TInv elem t
  lgk : t.lgNom = lgK
  ge5 : 5 ≤ lgK
  st : t.startTheta = start
  le_start : t.theta ≤ start
  empty : t.isEmpty = true ↔ xs = []
  fresh : t.isEmpty = true → t.theta = start
  ret : ∀ h, h ∈ all t ↔ h ∈ xs.map (hash63 hash) ∧ h ≠ 0 ∧ h < t.theta

theorem mem_filter_lt {l : List Nat} {th h : Nat} :
    h ∈ l.filter (fun x => decide (elem.key x < th)) ↔ h ∈ l ∧ h < th := by
  rw [List.mem_filter, decide_eq_true_eq]; exact Iff.rfl

theorem tinv_isEmpty {t : Tbl} (b : Bool) (h : TInv elem t) : TInv elem { t with isEmpty := b } :=
  { chain := h.chain, lgNom := h.lgNom, lgCur := h.lgCur, lgPos := h.lgPos, grow := h.grow,
    num := h.num, cap := h.cap, below := h.below }

/-- Effect of one update. -/
theorem update_inv {ι : Type} {hash : ι → Nat} {lgK start : Nat} {t : Tbl} {xs : List ι}
    (h : SInv hash lgK start t xs) (x : ι) :
    ∃ t' st, update t (hash x) = .ok (t', st) ∧ SInv hash lgK start t' (xs ++ [x]) ∧
      t'.theta ≤ t.theta ∧ st ≠ .tableFull ∧
      (st = .inserted ↔ hash63 hash x ≠ 0 ∧ hash63 hash x < t.theta ∧
        hash63 hash x ∉ xs.map (hash63 hash)) ∧
      (t'.theta ≠ t.theta → 15 * 2 ^ (lgK + 1) / 16 < (all t).length + 1 ∧ st = .inserted) := by
  have hti := tinv_isEmpty false h.tinv
  have hsh : hash x >>> 1 = hash63 hash x := by simp [hash63, Nat.shiftRight_eq_div_pow]
  unfold update
  simp only [hsh]
  generalize hh : hash63 hash x = w
  have hne : (xs ++ [x]) ≠ [] := by simp
  -- states in which only the empty flag changes
  have keep : (¬ (w ≠ 0 ∧ w < t.theta) ∨ w ∈ xs.map (hash63 hash)) →
      SInv hash lgK start { t with isEmpty := false } (xs ++ [x]) := by
    intro hc
    refine { tinv := hti, lgk := h.lgk, ge5 := h.ge5, st := h.st, le_start := h.le_start,
             empty := by simp, fresh := by simp, ret := ?_ }
    intro a
    have h1 := h.ret a
    rw [show all { t with isEmpty := false } = all t from rfl, h1]
    simp only [List.map_append, List.map_cons, List.map_nil, List.mem_append, List.mem_singleton, hh]
    constructor
    · rintro ⟨m, h2⟩; exact ⟨Or.inl m, h2⟩
    · rintro ⟨m | m, h2⟩
      · exact ⟨m, h2⟩
      · subst m
        rcases hc with hc | hc
        · exact absurd h2 hc
        · exact ⟨hc, h2⟩
  by_cases hge : w ≥ t.theta
  · have hs : ({ t with isEmpty := false } : Tbl).screen w = .exceedsTheta := by
      simp [Table.screen, hge]
    rw [hs]
    exact ⟨_, _, rfl, keep (Or.inl (by omega)), le_refl _, by simp, by
      constructor
      · intro hcon; cases hcon
      · intro hcon; omega, fun hcon => absurd rfl hcon⟩
  · by_cases h0 : w = 0
    · have hs : ({ t with isEmpty := false } : Tbl).screen w = .zeroHash := by
        simp only [Table.screen]; rw [if_neg hge, if_pos h0]
      rw [hs]
      exact ⟨_, _, rfl, keep (Or.inl (by omega)), le_refl _, by simp, by
        constructor
        · intro hcon; cases hcon
        · intro hcon; omega, fun hcon => absurd rfl hcon⟩
    · have hs : ({ t with isEmpty := false } : Tbl).screen w = .pass := by
        simp only [Table.screen]; rw [if_neg hge, if_neg h0]
      rw [hs]
      simp only
      rcases hti.find_total w with ⟨p, hf, hp, habs⟩ | ⟨p, e, hf, hpe, hk, hmem⟩
      · rw [hf]
        obtain ⟨t', e1, i1, s1, em1, th1, p1, ch1⟩ := insert_inv hti (e := w) h0 (Nat.lt_of_not_le hge) hf
        simp only [e1, Outcome.ok_bind, Outcome.pure_eq]
        have hnot : w ∉ xs.map (hash63 hash) := by
          intro hm
          exact habs w ((h.ret w).mpr ⟨hm, h0, by omega⟩) rfl
        refine ⟨t', _, rfl, ?_, th1, by simp, ?_, ?_⟩
        · refine { tinv := i1, lgk := by rw [s1.lgNom]; exact h.lgk, ge5 := h.ge5,
                   st := by rw [s1.start]; exact h.st, le_start := le_trans th1 h.le_start,
                   empty := by simp [em1], fresh := by simp [em1], ret := ?_ }
          intro a
          rw [all_eq, p1.mem_iff, mem_filter_lt, List.mem_cons]
          simp only [List.map_append, List.map_cons, List.map_nil, List.mem_append,
            List.mem_singleton, hh]
          have h1 := h.ret a
          rw [all_eq] at h1
          constructor
          · rintro ⟨rfl | m, h2⟩
            · exact ⟨Or.inr rfl, h0, h2⟩
            · have := h1.mp m
              exact ⟨Or.inl this.1, this.2.1, h2⟩
          · rintro ⟨m | m, h2, h3⟩
            · exact ⟨Or.inr (h1.mpr ⟨m, h2, lt_of_lt_of_le h3 th1⟩), h3⟩
            · exact ⟨Or.inl m, h3⟩
        · constructor
          · intro _; exact ⟨h0, by omega, hnot⟩
          · intro _; rfl
        · intro hne'
          have := (ch1 hne').1
          simp only at this
          rw [h.lgk] at this
          exact ⟨this, rfl⟩
      · rw [hf]
        have hm : w ∈ xs.map (hash63 hash) := by
          have h1 := (h.ret e).mp hmem
          have h2 : e = w := hk
          rw [h2] at h1; exact h1.1
        exact ⟨_, _, rfl, keep (Or.inr hm), le_refl _, by simp, by
          constructor
          · intro hcon; cases hcon
          · intro hcon; exact absurd hm hcon.2.2, fun hcon => absurd rfl hcon⟩

theorem trim_sinv {ι : Type} {hash : ι → Nat} {lgK start : Nat} {t : Tbl} {xs : List ι}
    (h : SInv hash lgK start t xs) :
    ∃ t', t.trim elem = .ok t' ∧ SInv hash lgK start t' xs ∧ t'.theta ≤ t.theta ∧
      (all t').length = min (all t).length (2 ^ lgK) ∧
      (all t').Perm ((all t).filter (fun y => decide (y < t'.theta))) ∧
      (t'.theta ≠ t.theta → 2 ^ lgK < (all t).length ∧ t'.theta ∈ all t) := by
  obtain ⟨t', e1, i1, s1, em1, th1, n1, p1, ch1⟩ := trim_inv h.tinv
  refine ⟨t', e1, ?_, th1, by rw [h.lgk] at n1; exact n1, p1, ?_⟩
  · refine { tinv := i1, lgk := by rw [s1.lgNom]; exact h.lgk, ge5 := h.ge5,
             st := by rw [s1.start]; exact h.st, le_start := le_trans th1 h.le_start,
             empty := by rw [em1]; exact h.empty, fresh := ?_, ret := ?_ }
    · intro he
      rw [em1] at he
      by_contra hne
      have hall : all t = [] := by
        apply List.eq_nil_iff_forall_not_mem.mpr
        intro a ha
        have := (h.ret a).mp ha
        rw [h.empty.mp he] at this
        simp at this
      have hf := h.fresh he
      obtain ⟨hc, _⟩ := ch1 (by rw [hf]; exact hne)
      rw [← all_eq, hall] at hc
      simp at hc
    · intro a
      rw [all_eq, p1.mem_iff, mem_filter_lt, ← all_eq, h.ret a]
      constructor
      · rintro ⟨⟨h1, h2, _⟩, h3⟩; exact ⟨h1, h2, h3⟩
      · rintro ⟨h1, h2, h3⟩; exact ⟨⟨h1, h2, lt_of_lt_of_le h3 th1⟩, h3⟩
  · intro hne
    obtain ⟨hc, x, hx, hk⟩ := ch1 hne
    rw [h.lgk] at hc
    have hk' : x = t'.theta := hk
    exact ⟨hc, by rw [← hk']; exact hx⟩

theorem reset_sinv {ι : Type} {hash : ι → Nat} {lgK start : Nat} {t : Tbl} {xs : List ι}
    (h : SInv hash lgK start t xs) : SInv hash lgK start (t.reset elem) [] := by
  obtain ⟨i1, it1, s1, em1, th1⟩ := reset_inv h.tinv (by rw [h.lgk]; exact h.ge5)
  refine { tinv := i1, lgk := by rw [s1.lgNom]; exact h.lgk, ge5 := h.ge5,
           st := by rw [s1.start]; exact h.st, le_start := by rw [th1, h.st],
           empty := by simp [em1], fresh := fun _ => by rw [th1, h.st], ret := ?_ }
  intro a
  rw [all_eq, it1]; simp

theorem new_sinv {ι : Type} (hash : ι → Nat) {lgK rf start : Nat} {t : Tbl}
    (h : newTable lgK rf start = .ok t) : SInv hash lgK start t [] := by
  unfold newTable at h
  split at h
  · cases h
  split at h
  · cases h
  simp only [Outcome.ok.injEq] at h
  subst h
  rename_i h1 h2
  obtain ⟨i, it⟩ := new_inv (E := elem) (rf := rf) (th := start) (show 5 ≤ lgK by omega)
    (show lgK ≤ 26 by omega) true
  refine { tinv := i, lgk := rfl, ge5 := by omega, st := rfl, le_start := le_refl _,
           empty := by simp [Table.new], fresh := fun _ => rfl, ret := ?_ }
  intro a
  rw [all_eq, it]; simp

theorem run_inv {ι : Type} {hash : ι → Nat} {lgK start : Nat} : ∀ (ops : List (Op ι)) (t : Tbl)
    (xs : List ι), SInv hash lgK start t xs →
    ∃ t', run hash t ops = .ok t' ∧ SInv hash lgK start t' (presented xs ops) := by
  intro ops
  induction ops with
  | nil => intro t xs h; exact ⟨t, rfl, h⟩
  | cons op ops ih =>
    intro t xs h
    cases op with
    | update x =>
      obtain ⟨t1, st, e1, i1, -⟩ := update_inv h x
      obtain ⟨t2, e2, i2⟩ := ih t1 _ i1
      exact ⟨t2, by simp [run, step, e1, e2], i2⟩
    | updateEmptyString =>
      obtain ⟨t2, e2, i2⟩ := ih t _ h
      exact ⟨t2, by simp [run, step, updateEmptyString, e2], i2⟩
    | trim =>
      obtain ⟨t1, e1, i1, -⟩ := trim_sinv h
      obtain ⟨t2, e2, i2⟩ := ih t1 _ i1
      exact ⟨t2, by simp [run, step, e1, e2], i2⟩
    | reset =>
      obtain ⟨t2, e2, i2⟩ := ih _ _ (reset_sinv h)
      exact ⟨t2, by simp [run, step, e2], i2⟩

/-! ## properties -/

/-- C01.  For every history of updates, trims and resets of a sketch built with any parameters
accepted by the constructor, and every hash function: no operation panics, the retained values are
duplicate free, their number is what `NumRetained` reports, and a value is retained iff it is the
non-zero hash of an item presented since the last reset and lies below the reported theta. -/
theorem C01_retained_exactly_hashes_below_theta {ι : Type} (hash : ι → Nat) (lgK rf start : Nat)
    (hstart : start ≤ maxTheta) (t0 : Tbl) (hnew : newTable lgK rf start = .ok t0)
    (ops : List (Op ι)) :
    ∃ t, run hash t0 ops = .ok t ∧ (all t).Nodup ∧ numRetained t = (all t).length ∧
      theta64 t ≤ maxTheta ∧
      (t.isEmpty = true ↔ presented [] ops = []) ∧
      ∀ h, h ∈ all t ↔ (∃ x ∈ presented [] ops, hash x / 2 = h) ∧ h ≠ 0 ∧ h < theta64 t := by
  obtain ⟨t, e, i⟩ := run_inv ops t0 [] (new_sinv hash hnew)
  refine ⟨t, e, nodup_all i.tinv, i.tinv.num, ?_, i.empty, ?_⟩
  · unfold theta64
    split
    · exact le_refl _
    · exact le_trans i.le_start hstart
  · intro h
    rw [i.ret h]
    simp only [List.mem_map, hash63]
    by_cases he : t.isEmpty = true
    · have := i.empty.mp he
      simp [this]
    · simp [theta64, he]

/-- C02.  Exact mode: with sampling probability 1, for every stream (and any number of empty-string
updates) whose number of distinct hashes in range does not exceed 15/16 of the full table, theta stays
at its maximum, the sketch is not in estimation mode, and it retains exactly one entry per distinct
hash.  (The hash values 0 and 2^63 - 1 are never retained.)  Trims are allowed when at most
`2^lgK` distinct hashes were presented. -/
theorem C02_exact_until_capacity {ι : Type} (hash : ι → Nat)
    (lgK rf : Nat) (t0 : Tbl) (hnew : newTable lgK rf maxTheta = .ok t0) (ops : List (Op ι))
    (hnr : Op.reset ∉ ops)
    (hcnt : ((presented [] ops).map (fun x => hash x / 2)).dedup.length ≤ 15 * 2 ^ (lgK + 1) / 16)
    (htrim : Op.trim ∈ ops →
      ((presented [] ops).map (fun x => hash x / 2)).dedup.length ≤ 2 ^ lgK) :
    ∃ t, run hash t0 ops = .ok t ∧ theta64 t = maxTheta ∧ isEstimationMode t = false ∧
      (all t).Perm (((presented [] ops).map (fun x => hash x / 2)).dedup.filter
        (fun h => h != 0 && decide (h < maxTheta))) := by
  -- all prefixes stay below the capacity
  have hmono : ∀ (l : List (Op ι)) (xs : List ι), Op.reset ∉ l →
      ∀ x ∈ xs, x ∈ presented xs l := by
    intro l
    induction l with
    | nil => intro xs _ x hx; exact hx
    | cons op l ih =>
      intro xs hr x hx
      cases op with
      | update y => exact ih _ (fun hh => hr (by simp [hh])) x (by simp [hx])
      | updateEmptyString => exact ih _ (fun hh => hr (by simp [hh])) x hx
      | trim => exact ih _ (fun hh => hr (by simp [hh])) x hx
      | reset => simp at hr
  have key : ∀ (l : List (Op ι)) (t : Tbl) (xs : List ι), SInv hash lgK maxTheta t xs →
      t.theta = maxTheta → Op.reset ∉ l →
      ((presented xs l).map (fun x => hash x / 2)).dedup.length ≤ 15 * 2 ^ (lgK + 1) / 16 →
      (Op.trim ∈ l → ((presented xs l).map (fun x => hash x / 2)).dedup.length ≤ 2 ^ lgK) →
      ∃ t', run hash t l = .ok t' ∧ SInv hash lgK maxTheta t' (presented xs l) ∧
        t'.theta = maxTheta := by
    intro l
    induction l with
    | nil => intro t xs h hth _ _ _; exact ⟨t, rfl, h, hth⟩
    | cons op l ih =>
      intro t xs h hth hr hc ht
      have hr' : Op.reset ∉ l := fun hh => hr (by simp [hh])
      have ht' : Op.trim ∈ l → _ := fun hh => ht (by simp [hh])
      -- the number of retained entries is bounded by the number of distinct hashes
      have hlen : ∀ (ys : List ι), (∀ h', h' ∈ all t → h' ∈ ys.map (hash63 hash)) →
          (all t).length ≤ (ys.map (hash63 hash)).dedup.length := by
        intro ys hy
        have : (all t).Subperm ((ys.map (hash63 hash)).dedup) := by
          apply (nodup_all h.tinv).subperm
          intro a ha
          exact List.mem_dedup.mpr (hy a ha)
        exact this.length_le
      cases op with
      | update x =>
        obtain ⟨t1, st, e1, i1, -, -, hst, hch⟩ := update_inv h x
        have hth1 : t1.theta = maxTheta := by
          rw [← hth]
          by_contra hne
          obtain ⟨hcap, hins⟩ := hch hne
          obtain ⟨h0, hlt, hnot⟩ := hst.mp hins
          have hsub : (hash63 hash x :: all t).Subperm
              ((presented (xs ++ [x]) l).map (fun x => hash x / 2)).dedup := by
            apply List.Nodup.subperm
            · rw [List.nodup_cons]
              exact ⟨fun hm => hnot ((h.ret _).mp hm).1, nodup_all h.tinv⟩
            · intro a ha
              rw [List.mem_dedup, List.mem_map]
              rcases List.mem_cons.mp ha with rfl | ha
              · exact ⟨x, hmono l _ hr' x (by simp), rfl⟩
              · obtain ⟨y, hy, hya⟩ := List.mem_map.mp ((h.ret a).mp ha).1
                exact ⟨y, hmono l _ hr' y (by simp [hy]), hya⟩
          have := hsub.length_le
          rw [List.length_cons] at this
          simp only [presented] at hc
          omega
        obtain ⟨t2, e2, i2, th2⟩ := ih t1 _ i1 hth1 hr' hc ht'
        exact ⟨t2, by simp [run, step, e1, e2], i2, th2⟩
      | updateEmptyString =>
        obtain ⟨t2, e2, i2, th2⟩ := ih t _ h hth hr' hc ht'
        exact ⟨t2, by simp [run, step, updateEmptyString, e2], i2, th2⟩
      | trim =>
        obtain ⟨t1, e1, i1, -, -, -, hch⟩ := trim_sinv h
        have hth1 : t1.theta = maxTheta := by
          rw [← hth]
          by_contra hne
          obtain ⟨hcap, -⟩ := hch hne
          have hsub := hlen (presented xs l) (by
            intro a ha
            obtain ⟨y, hy, hya⟩ := List.mem_map.mp ((h.ret a).mp ha).1
            exact List.mem_map.mpr ⟨y, hmono l _ hr' y hy, hya⟩)
          have h2 := ht (by simp)
          simp only [presented] at h2
          have h3 : ((presented xs l).map (hash63 hash)).dedup.length ≤ 2 ^ lgK := h2
          omega
        obtain ⟨t2, e2, i2, th2⟩ := ih t1 _ i1 hth1 hr' hc ht'
        exact ⟨t2, by simp [run, step, e1, e2], i2, th2⟩
      | reset => simp at hr
  have h0 := new_sinv hash hnew
  have hth0 : t0.theta = maxTheta := by
    unfold newTable at hnew
    split at hnew
    · cases hnew
    split at hnew
    · cases hnew
    simp only [Outcome.ok.injEq] at hnew
    subst hnew; rfl
  obtain ⟨t, e, i, hth⟩ := key ops t0 [] h0 hth0 hnr hcnt htrim
  have h64 : theta64 t = maxTheta := by
    unfold theta64; split
    · rfl
    · exact hth
  refine ⟨t, e, h64, by simp [isEstimationMode, h64], ?_⟩
  apply (List.perm_ext_iff_of_nodup (nodup_all i.tinv) ((List.nodup_dedup _).filter _)).mpr
  intro a
  rw [i.ret a, hth]
  simp only [List.mem_filter, List.mem_dedup, Bool.and_eq_true, bne_iff_ne, decide_eq_true_eq]
  constructor
  · rintro ⟨h1, h2, h3⟩; exact ⟨h1, h2, h3⟩
  · rintro ⟨h1, h2, h3⟩; exact ⟨h1, h2, h3⟩

/-- C03.  In every reachable state: the slot search for any hash stops at a matching or a free slot
(it never reports a full table and never runs out of the table), an update never returns the
"no empty slots" error, at least one slot is free, and the table is filled to at most 15/16. -/
theorem C03_search_total_and_load_bounded {ι : Type} (hash : ι → Nat) (lgK rf start : Nat)
    (t0 : Tbl) (hnew : newTable lgK rf start = .ok t0) (ops : List (Op ι)) :
    ∃ t, run hash t0 ops = .ok t ∧
      (∀ k, ∃ i, i < t.entries.length ∧ (t.find elem k = .found i ∨ t.find elem k = .empty i)) ∧
      (∀ x, ∃ t' st, update t (hash x) = .ok (t', st) ∧ st ≠ .tableFull) ∧
      0 ∈ t.entries ∧ 16 * numRetained t ≤ 15 * t.entries.length := by
  obtain ⟨t, e, i⟩ := run_inv ops t0 [] (new_sinv hash hnew)
  refine ⟨t, e, ?_, ?_, ?_, ?_⟩
  · intro k
    rcases i.tinv.find_total k with ⟨p, hf, hp, _⟩ | ⟨p, x, hf, hp, _⟩
    · exact ⟨p, hp, Or.inr hf⟩
    · refine ⟨p, ?_, Or.inl hf⟩
      by_contra hcon
      rw [List.getElem?_eq_none (by omega)] at hp; cases hp
  · intro x
    obtain ⟨t1, st, e1, _, _, h, _⟩ := update_inv i x
    exact ⟨t1, st, e1, h⟩
  · have hlt : ((scheme elem t.lgCur).items t.entries).length < t.entries.length := by
      rw [items_scheme, ← i.tinv.num, i.tinv.chain.len]
      exact lt_of_le_of_lt i.tinv.cap (computeCapacity_lt _ _)
    obtain ⟨p, x, hp, hx⟩ := items_length_lt_of_free.mpr hlt
    have h0 : x = 0 := (emp_iff t.lgCur x).mp hx
    rw [h0] at hp
    exact List.mem_of_getElem? hp
  · have h1 := i.tinv.cap
    have h2 : t.entries.length = 2 ^ t.lgCur := i.tinv.chain.len
    rw [h2]
    have h3 : numRetained t = t.numEntries := rfl
    rw [h3]
    unfold computeCapacity at h1
    split at h1 <;> omega

/-- C04 (monotone).  No update and no trim ever increases theta, in any reachable state. -/
theorem C04_theta_never_increases {ι : Type} (hash : ι → Nat) (lgK rf start : Nat)
    (t0 : Tbl) (hnew : newTable lgK rf start = .ok t0) (hstart : start ≤ maxTheta)
    (ops : List (Op ι)) (op : Op ι) (hop : op ≠ .reset) :
    ∃ t t', run hash t0 ops = .ok t ∧ step hash t op = .ok t' ∧ theta64 t' ≤ theta64 t := by
  obtain ⟨t, e, i⟩ := run_inv ops t0 [] (new_sinv hash hnew)
  -- theta64 in terms of the field: an empty sketch reports the maximum
  have hmax : ∀ {xs} {s : Tbl}, SInv hash lgK start s xs → theta64 s ≤ maxTheta := by
    intro xs s hs
    unfold theta64; split
    · exact le_refl _
    · exact le_trans hs.le_start hstart
  have hcase : ∀ {xs xs'} {s s' : Tbl}, SInv hash lgK start s xs → SInv hash lgK start s' xs' →
      s'.theta ≤ s.theta → (s'.isEmpty = true → s.isEmpty = true) → theta64 s' ≤ theta64 s := by
    intro xs xs' s s' hs hs' hth hem
    by_cases h1 : s.isEmpty = true
    · have := hmax hs'
      have h2 : theta64 s = maxTheta := by simp [theta64, h1]
      rw [h2]; exact this
    · have h3 : ¬ s'.isEmpty = true := fun hh => h1 (hem hh)
      simp only [theta64, h1, h3, if_false, Bool.false_eq_true]; exact hth
  cases op with
  | update x =>
    obtain ⟨t1, st, e1, i1, hth, -⟩ := update_inv i x
    refine ⟨t, t1, e, by simp [step, e1], hcase i i1 hth ?_⟩
    intro hem
    have := i1.empty.mp hem
    simp at this
  | updateEmptyString => exact ⟨t, t, e, by simp [step, updateEmptyString], le_refl _⟩
  | trim =>
    obtain ⟨t1, e1, i1, hth, -⟩ := trim_sinv i
    refine ⟨t, t1, e, e1, hcase i i1 hth ?_⟩
    intro hem
    exact i.empty.mpr (i1.empty.mp hem)
  | reset => exact absurd rfl hop

/-- C04 (trim).  Trimming a reachable sketch with more than `k = 2^lgK` entries keeps exactly the `k`
smallest retained hashes and sets theta to the (k+1)-th smallest; with at most `k` entries it changes
nothing. -/
theorem C04_trim_keeps_k_smallest {ι : Type} (hash : ι → Nat) (lgK rf start : Nat)
    (t0 : Tbl) (hnew : newTable lgK rf start = .ok t0) (ops : List (Op ι)) :
    ∃ t t', run hash t0 ops = .ok t ∧ t.trim elem = .ok t' ∧
      (numRetained t > 2 ^ lgK → numRetained t' = 2 ^ lgK ∧
        sortN (all t') = (sortN (all t)).take (2 ^ lgK) ∧
        (sortN (all t))[2 ^ lgK]? = some (theta64 t')) ∧
      (numRetained t ≤ 2 ^ lgK → t' = t) := by
  obtain ⟨t, e, i⟩ := run_inv ops t0 [] (new_sinv hash hnew)
  obtain ⟨t1, e1, i1, hth, hn, hp, hch⟩ := trim_sinv i
  refine ⟨t, t1, e, e1, ?_, ?_⟩
  · intro hgt
    have hnum : numRetained t = (all t).length := i.tinv.num
    have hlen1 : (all t1).length = 2 ^ lgK := by rw [hn]; omega
    have hne : t1.theta ≠ t.theta := by
      intro heq
      have h1 : (all t).filter (fun y => decide (y < t1.theta)) = all t := by
        rw [List.filter_eq_self]
        intro a ha
        rw [heq]
        simpa using ((i.ret a).mp ha).2.2
      rw [h1] at hp
      have := hp.length_eq
      omega
    obtain ⟨-, hmem⟩ := hch hne
    have hnonempty : ¬ t1.isEmpty = true := by
      intro hem
      have hx := i1.empty.mp hem
      have := (i.ret t1.theta).mp hmem
      rw [hx] at this; simp at this
    have h64 : theta64 t1 = t1.theta := by simp [theta64, hnonempty]
    obtain ⟨s1, s2⟩ := sortN_below (nodup_all i.tinv) hmem hp
    rw [hlen1] at s1 s2
    exact ⟨by rw [← hlen1]; exact i1.tinv.num, s2, by rw [h64]; exact s1⟩
  · intro hle
    unfold Table.trim at e1
    rw [if_neg (by have := i.lgk; rw [this]; exact Nat.not_lt.mpr hle)] at e1
    simpa using e1.symm

/-- C06.  The compact form of any reachable sketch has the same theta, emptiness and retained hashes
(in the same order when not ordered); the ordered form is strictly ascending. -/
theorem C06_compact_preserves {ι : Type} (hash : ι → Nat) (lgK rf start seedHash : Nat)
    (t0 : Tbl) (hnew : newTable lgK rf start = .ok t0) (ops : List (Op ι)) (ordered : Bool) :
    ∃ t, run hash t0 ops = .ok t ∧
      let c := newCompact (viewOf t seedHash) ordered
      c.theta = theta64 t ∧ c.isEmpty = t.isEmpty ∧ c.entries.Perm (all t) ∧
      c.entries.length = numRetained t ∧ c.seedHash = seedHash ∧
      (c.isOrdered = true → c.entries.Pairwise (· < ·)) ∧ (ordered = true → c.isOrdered = true) ∧
      (ordered = false → c.entries = all t) := by
  obtain ⟨t, e, i⟩ := run_inv ops t0 [] (new_sinv hash hnew)
  refine ⟨t, e, ?_⟩
  have hemp : t.isEmpty = true → all t = [] := by
    intro hem
    apply List.eq_nil_iff_forall_not_mem.mpr
    intro a ha
    have := (i.ret a).mp ha
    rw [i.empty.mp hem] at this
    simp at this
  have hnum : numRetained t = (all t).length := i.tinv.num
  have hsmall : isOrdered t = true → (all t).Pairwise (· < ·) := by
    intro ho
    have h1 : (all t).length ≤ 1 := by
      rw [← hnum]; simpa [isOrdered, numRetained] using ho
    match hA : all t, h1 with
    | [], _ => exact List.Pairwise.nil
    | [a], _ => exact List.pairwise_singleton _ _
    | a :: b :: l, h1 => simp at h1
  have hent : (newCompact (viewOf t seedHash) ordered).entries =
      bif t.isEmpty then [] else bif (ordered && !isOrdered t) then sortN (all t) else all t := by
    cases hem : t.isEmpty <;> cases hio : isOrdered t <;> cases ordered <;>
      simp [newCompact, viewOf, hem, hio]
  have hord : (newCompact (viewOf t seedHash) ordered).isOrdered = (isOrdered t || ordered) := rfl
  have hperm : (newCompact (viewOf t seedHash) ordered).entries.Perm (all t) := by
    rw [hent]
    cases hem : t.isEmpty
    · cases (ordered && !isOrdered t)
      · exact List.Perm.refl _
      · exact sortN_perm _
    · rw [hemp hem]; exact List.Perm.refl _
  refine ⟨rfl, rfl, hperm, by rw [hperm.length_eq, hnum], rfl, ?_, ?_, ?_⟩
  · intro ho
    rw [hord] at ho
    rw [hent]
    cases hem : t.isEmpty
    · cases hio : isOrdered t
      · rw [hio] at ho
        simp only [Bool.false_or] at ho
        rw [ho]
        exact sortN_strict (nodup_all i.tinv)
      · cases ordered <;> exact hsmall hio
    · exact List.Pairwise.nil
  · intro ho; rw [hord, ho]; simp
  · intro ho
    rw [hent, ho]
    cases hem : t.isEmpty
    · rfl
    · rw [hemp hem]; rfl

/-! ## non-vacuity -/

/-- the constructor accepts parameters and operations compute -/
example : ∃ t0, newTable 5 3 maxTheta = .ok t0 := ⟨_, rfl⟩

example : ((newTable 5 1 maxTheta).bind (fun t => run (fun x : Nat => 2 * x) t
    [.update 7, .update 9, .update 7, .trim, .update 0])).bind (fun t => .ok (all t, t.numEntries))
    = .ok ([7, 9], 2) := by decide +kernel

end Verif.Theta
