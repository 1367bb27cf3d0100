import Verif.HllModel
import Verif.HllPack
import Verif.ProbeGrow

/-!
# The exception map of the 4-bit array refines an association list
-/

namespace Verif.Hll

open Probe

theorem and_mask (x n : Nat) : x &&& (2 ^ n - 1) = x % 2 ^ n := Nat.and_two_pow_sub_one_eq_mod x n

theorem pair_eq {s v : Nat} (hs : s < 2 ^ 26) : pair s v = v * 2 ^ 26 + s := by
  unfold pair
  rw [and_mask, Nat.mod_eq_of_lt hs, ← Nat.shiftLeft_add_eq_or_of_lt hs, Nat.shiftLeft_eq]

theorem pairVal_pair {s v : Nat} (hs : s < 2 ^ 26) : pairVal (pair s v) = v := by
  unfold pairVal
  rw [pair_eq hs, Nat.shiftRight_eq_div_pow]
  omega

theorem pairLow_pair {s v : Nat} (hs : s < 2 ^ 26) : pairLow (pair s v) = s := by
  unfold pairLow
  rw [pair_eq hs, and_mask]
  omega

theorem pair_mod {s v n : Nat} (hn : n ≤ 26) (hs : s < 2 ^ n) : pair s v % 2 ^ n = s := by
  have h26 : (2 : Nat) ^ n ≤ 2 ^ 26 := Nat.pow_le_pow_right (by omega) hn
  rw [pair_eq (by omega)]
  obtain ⟨k, hk⟩ := Nat.exists_eq_add_of_le hn
  rw [show (2 : Nat) ^ 26 = 2 ^ n * 2 ^ k by rw [← pow_add, ← hk], Nat.mul_left_comm,
    Nat.mul_add_mod, Nat.mod_eq_of_lt hs]

theorem pair_ne {s v : Nat} (hs : s < 2 ^ 26) (hv : 0 < v) : pair s v ≠ 0 := by
  rw [pair_eq hs]; omega

/-- the probing scheme of `findAuxHashMap` -/
def auxScheme (lgK lg : Nat) : Scheme Nat where
  emp := fun e => e == 0
  key := fun e => e &&& (2 ^ lgK - 1)
  size := 2 ^ lg
  start := fun k => k &&& (2 ^ lg - 1)
  next := fun k p => (p + ((k >>> lg) ||| 1)) &&& (2 ^ lg - 1)

def auxStride (lg : Nat) (k : Nat) : Nat := (k >>> lg) ||| 1

theorem or_one_odd (x : Nat) : (x ||| 1) % 2 = 1 := by
  have : (x ||| 1).testBit 0 = true := by simp
  simpa only [Nat.testBit_zero, decide_eq_true_eq] using this

theorem auxScheme_ok (lgK lg : Nat) : (auxScheme lgK lg).Ok lg (auxStride lg) where
  size_eq := rfl
  start_lt := fun k => by
    show k &&& (2 ^ lg - 1) < 2 ^ lg
    rw [and_mask]; exact Nat.mod_lt _ (Nat.two_pow_pos _)
  odd := fun k => or_one_odd _
  next_eq := fun k i _ => by
    show (i + ((k >>> lg) ||| 1)) &&& (2 ^ lg - 1) = _
    rw [and_mask]; rfl

theorem findAux_eq {arr : List Nat} {lg lgK slotNo : Nat} (h : lg < lgK) :
    findAux arr lg lgK slotNo =
      match (auxScheme lgK lg).find arr slotNo with
      | .full => .err "key not found and no empty slots"
      | .panic => .panic
      | .found i => .ok (.found i)
      | .empty i => .ok (.empty i) := by
  unfold findAux
  rw [if_neg (by omega)]
  rfl

/-- The map `m` of a sketch with `2^lgK` slots holds exactly the entries `L` (slot, value). -/
structure AuxInv (m : Aux) (lgK : Nat) (L : List (Nat × Nat)) : Prop where
  lgKeq : m.lgK = lgK
  lg2 : 2 ≤ m.lg
  lglt : m.lg < lgK
  lgK26 : lgK ≤ 26
  cnt : m.count = L.length
  chain : Chain (auxScheme lgK m.lg) (auxStride m.lg) m.arr
  load : 4 * m.count ≤ 3 * 2 ^ m.lg
  items : ((auxScheme lgK m.lg).items m.arr).Perm (L.map fun e => pair e.1 e.2)
  valid : ∀ e ∈ L, e.1 < 2 ^ lgK ∧ 0 < e.2

variable {m : Aux} {lgK : Nat} {L : List (Nat × Nat)}

theorem AuxInv.perm (h : AuxInv m lgK L) {L' : List (Nat × Nat)} (hp : L.Perm L') :
    AuxInv m lgK L' :=
  { h with
    cnt := by rw [h.cnt, hp.length_eq]
    items := h.items.trans (hp.map _)
    valid := fun e he => h.valid e (hp.mem_iff.mpr he) }

theorem AuxInv.lt26 (h : AuxInv m lgK L) {s : Nat} (hs : s < 2 ^ lgK) : s < 2 ^ 26 :=
  lt_of_lt_of_le hs (Nat.pow_le_pow_right (by omega) h.lgK26)

theorem AuxInv.keys (h : AuxInv m lgK L) : (L.map Prod.fst).Nodup := by
  have h1 := h.chain.keys_nodup
  have h2 := (h.items.map (auxScheme lgK m.lg).key).nodup_iff.mp h1
  rw [List.map_map] at h2
  have : L.map ((auxScheme lgK m.lg).key ∘ fun e => pair e.1 e.2) = L.map Prod.fst := by
    apply List.map_congr_left
    intro e he
    show pair e.1 e.2 &&& (2 ^ lgK - 1) = e.1
    rw [and_mask, pair_mod h.lgK26 (h.valid e he).1]
  rwa [this] at h2

theorem AuxInv.find_mem (h : AuxInv m lgK L) {s v : Nat} (hm : (s, v) ∈ L) :
    ∃ i, findAux m.arr m.lg m.lgK s = .ok (.found i) ∧ m.arr[i]? = some (pair s v) := by
  have hv := h.valid _ hm
  have h1 : pair s v ∈ (auxScheme lgK m.lg).items m.arr :=
    h.items.mem_iff.mpr (List.mem_map.mpr ⟨(s, v), hm, rfl⟩)
  obtain ⟨p, hp, he⟩ := mem_items.mp h1
  have hf := h.chain.find_present (auxScheme_ok _ _) hp he
  have hk : (auxScheme lgK m.lg).key (pair s v) = s := by
    show pair s v &&& (2 ^ lgK - 1) = s
    rw [and_mask, pair_mod h.lgK26 hv.1]
  rw [hk] at hf
  refine ⟨p, ?_, hp⟩
  rw [h.lgKeq, findAux_eq h.lglt, hf]

theorem AuxInv.mustFind (h : AuxInv m lgK L) {s v : Nat} (hm : (s, v) ∈ L) :
    m.mustFind s = .ok v := by
  obtain ⟨i, hf, hi⟩ := h.find_mem hm
  unfold Aux.mustFind
  rw [hf, Outcome.ok_bind]
  simp only
  rw [hi, Outcome.ofOption_some, Outcome.ok_bind, pairVal_pair (h.lt26 (h.valid _ hm).1)]

theorem AuxInv.mustReplace (h : AuxInv m lgK ((s, v) :: L)) {v' : Nat} (hv' : 0 < v') :
    ∃ m', m.mustReplace s v' = .ok m' ∧ AuxInv m' lgK ((s, v') :: L) := by
  obtain ⟨i, hf, hi⟩ := h.find_mem (List.mem_cons_self)
  have hs := (h.valid _ (List.mem_cons_self)).1
  have hv0 := (h.valid _ (List.mem_cons_self)).2
  unfold Aux.mustReplace
  rw [hf, Outcome.ok_bind]
  have e1 : (auxScheme lgK m.lg).emp (pair s v) = false := by
    simpa [auxScheme] using pair_ne (h.lt26 hs) hv0
  have e2 : (auxScheme lgK m.lg).emp (pair s v') = false := by
    simpa [auxScheme] using pair_ne (h.lt26 hs) hv'
  refine ⟨_, rfl, ⟨h.lgKeq, h.lg2, h.lglt, h.lgK26, h.cnt, ?_, h.load, ?_, ?_⟩⟩
  · apply h.chain.replace hi e1 e2
    show pair s v' &&& (2 ^ lgK - 1) = pair s v &&& (2 ^ lgK - 1)
    rw [and_mask, and_mask, pair_mod h.lgK26 hs, pair_mod h.lgK26 hs]
  · obtain ⟨l, p1, p2⟩ := items_set_occ (s := auxScheme lgK m.lg) hi e1 e2
    have := p1.symm.trans h.items
    rw [List.map_cons] at this
    exact p2.trans ((List.perm_cons _).mp this |>.cons _)
  · intro e he
    rcases List.mem_cons.mp he with rfl | he
    · exact ⟨hs, hv'⟩
    · exact h.valid e (List.mem_cons_of_mem _ he)

theorem newAux_inv {lg : Nat} (h2 : 2 ≤ lg) (hlt : lg < lgK) (h26 : lgK ≤ 26) :
    AuxInv (newAux lg lgK) lgK [] := by
  refine ⟨rfl, h2, hlt, h26, rfl, Chain.empty (by rfl), by simp [newAux], ?_, by simp⟩
  show (Scheme.items _ (List.replicate _ 0)).Perm _
  rw [items_replicate (by rfl)]
  simp

/-- `lgAuxArrInts` is below `lgK` for every legal `lgK`. -/
theorem lgAux_ok : ∀ n : Fin 22, 4 ≤ n.val →
    ∃ lg, lgAuxTable[n.val]? = some lg ∧ 2 ≤ lg ∧ lg < n.val := by
  decide +kernel

theorem getNewAux_spec (h4 : 4 ≤ lgK) (h21 : lgK ≤ 21) :
    ∃ m, getNewAux lgK = .ok m ∧ AuxInv m lgK [] := by
  obtain ⟨lg, e, h2, hlt⟩ := lgAux_ok ⟨lgK, by omega⟩ h4
  simp only at e hlt
  refine ⟨newAux lg lgK, ?_, newAux_inv h2 hlt (by omega)⟩
  unfold getNewAux
  rw [e]

/-- the map, or a fresh one -/
def AuxOpt (o : Option Aux) (lgK : Nat) (L : List (Nat × Nat)) : Prop :=
  match o with
  | none => L = []
  | some m => AuxInv m lgK L

theorem auxOrNew_spec {o : Option Aux} (h4 : 4 ≤ lgK) (h21 : lgK ≤ 21) (h : AuxOpt o lgK L) :
    ∃ m, auxOrNew lgK o = .ok m ∧ AuxInv m lgK L := by
  cases o with
  | none =>
    have hL : L = [] := h
    subst hL
    exact getNewAux_spec h4 h21
  | some m => exact ⟨m, rfl, h⟩

theorem AuxOpt.perm {o : Option Aux} (h : AuxOpt o lgK L) {L' : List (Nat × Nat)}
    (hp : L.Perm L') : AuxOpt o lgK L' := by
  cases o with
  | none =>
    have hL : L = [] := h
    subst hL
    exact hp.symm.eq_nil
  | some m => exact AuxInv.perm (m := m) h hp

/-- room for `n` exceptions: the table may not grow to `2^lgK` entries -/
def Room (lgK n : Nat) : Prop := 4 * n ≤ 3 * 2 ^ (lgK - 1)

instance (lgK n : Nat) : Decidable (Room lgK n) := by unfold Room; infer_instance

theorem Room.mono {a b : Nat} (h : Room lgK b) (hab : a ≤ b) : Room lgK a := by
  unfold Room at *; omega

/-- `mustAdd` of a new slot: succeeds iff there is room. -/
theorem AuxInv.mustAdd (h : AuxInv m lgK L) {s v : Nat} (hs : s < 2 ^ lgK) (hv : 0 < v)
    (hnew : s ∉ L.map Prod.fst) :
    (Room lgK (L.length + 1) ∧ ∃ m', m.mustAdd s v = .ok m' ∧ AuxInv m' lgK ((s, v) :: L)) ∨
    (¬ Room lgK (L.length + 1) ∧ ∃ e, m.mustAdd s v = .err e) := by
  have hlt26 := h.lt26 hs
  have hok := auxScheme_ok lgK m.lg
  have hitems : ((auxScheme lgK m.lg).items m.arr).length = L.length := by
    rw [h.items.length_eq, List.length_map]
  have hsz : (auxScheme lgK m.lg).size = 2 ^ m.lg := rfl
  have hpos := Nat.two_pow_pos m.lg
  have h4le : 4 ≤ 2 ^ m.lg := by
    rw [show 4 = 2 ^ 2 from rfl]; exact Nat.pow_le_pow_right (by omega) h.lg2
  have hload := h.load
  rw [h.cnt] at hload
  have habs : ∀ (p : Nat) (f : Nat), m.arr[p]? = some f → (auxScheme lgK m.lg).emp f = false →
      (auxScheme lgK m.lg).key f ≠ s := by
    intro p f hp hf hk
    have hm := h.items.mem_iff.mp (mem_items.mpr ⟨p, hp, hf⟩)
    obtain ⟨e, he, hef⟩ := List.mem_map.mp hm
    apply hnew
    rw [← hk]
    refine List.mem_map.mpr ⟨e, he, ?_⟩
    show e.1 = f &&& (2 ^ lgK - 1)
    rw [← hef, and_mask, pair_mod h.lgK26 (h.valid e he).1]
  have hfree : ∃ (p : Nat) (f : Nat), m.arr[p]? = some f ∧ (auxScheme lgK m.lg).emp f = true :=
    items_length_lt_of_free.mpr (by rw [h.chain.len, hitems, hsz]; omega)
  obtain ⟨i, f, hi, hp, hf, _, hfind⟩ := Chain.find_absent h.chain.len hok s habs hfree
  generalize hP : (auxScheme lgK m.lg).pos (auxStride m.lg) s i = P at hp hfind
  have he : (auxScheme lgK m.lg).emp (pair s v) = false := by
    simpa [auxScheme] using pair_ne hlt26 hv
  have hkey : (auxScheme lgK m.lg).key (pair s v) = s := by
    show pair s v &&& (2 ^ lgK - 1) = s
    rw [and_mask, pair_mod h.lgK26 hs]
  have hchain : Chain (auxScheme lgK m.lg) (auxStride m.lg) (m.arr.set P (pair s v)) :=
    h.chain.insert hok he (by rw [hkey]; exact hfind)
  have hperm : ((auxScheme lgK m.lg).items (m.arr.set P (pair s v))).Perm
      (((s, v) :: L).map fun e => pair e.1 e.2) := by
    rw [List.map_cons]
    exact (items_set_empty hp hf he).trans (h.items.cons _)
  have hvalid : ∀ e ∈ (s, v) :: L, e.1 < 2 ^ lgK ∧ 0 < e.2 := by
    intro e he
    rcases List.mem_cons.mp he with rfl | he
    · exact ⟨hs, hv⟩
    · exact h.valid e he
  unfold Aux.mustAdd
  rw [h.lgKeq, findAux_eq h.lglt, hfind]
  simp only [Outcome.ok_bind, List.length_set, h.chain.len, hsz, h.cnt]
  by_cases hfit : 4 * (L.length + 1) ≤ 3 * 2 ^ m.lg
  · left
    rw [if_pos hfit]
    refine ⟨?_, _, rfl, ⟨rfl, h.lg2, h.lglt, h.lgK26, by simp, hchain, hfit, hperm, hvalid⟩⟩
    have : 2 ^ m.lg ≤ 2 ^ (lgK - 1) := Nat.pow_le_pow_right (by omega) (by have := h.lglt; omega)
    unfold Room; omega
  · rw [if_neg hfit]
    unfold Aux.grow
    simp only
    by_cases hlast : m.lg + 1 < lgK
    · left
      have hok' := auxScheme_ok lgK (m.lg + 1)
      have hitems' : ∀ l, (auxScheme lgK (m.lg + 1)).items l = (auxScheme lgK m.lg).items l :=
        fun _ => rfl
      have hempty : (auxScheme lgK (m.lg + 1)).items (List.replicate (2 ^ (m.lg + 1)) 0) = [] :=
        items_replicate rfl _
      obtain ⟨arr', ha, hca, hpa⟩ := grow_generic hok' (growStep (m.lg + 1) lgK)
        (by
          intro arr e he
          unfold growStep
          have : e = 0 := by simpa [auxScheme] using he
          rw [if_neg (by simpa using this)])
        (by
          intro arr e i he hf
          unfold growStep
          have : e ≠ 0 := by simpa [auxScheme] using he
          rw [if_pos this, findAux_eq hlast]
          rw [show (auxScheme lgK (m.lg + 1)).key e = e &&& (2 ^ lgK - 1) from rfl] at hf
          rw [hf]
          rfl)
        (m.arr.set P (pair s v)) (List.replicate (2 ^ (m.lg + 1)) 0)
        (Chain.empty (s := auxScheme lgK (m.lg + 1)) rfl)
        (by rw [hempty, List.map_nil, List.append_nil]; exact hchain.keys_nodup)
        (by
          rw [hempty, hitems', hperm.length_eq]
          simp only [List.length_map, List.length_cons, List.length_nil]
          show _ < 2 ^ (m.lg + 1)
          rw [pow_succ]; omega)
      rw [ha, Outcome.ok_bind]
      have hroom : 4 * (L.length + 1) ≤ 3 * 2 ^ (m.lg + 1) := by rw [pow_succ]; omega
      refine ⟨?_, _, rfl, ⟨rfl, by have := h.lg2; simp only; omega, hlast, h.lgK26, by simp, hca,
        hroom, ?_, hvalid⟩⟩
      · have : 2 ^ (m.lg + 1) ≤ 2 ^ (lgK - 1) := Nat.pow_le_pow_right (by omega) (by omega)
        unfold Room; omega
      · rw [hempty, List.append_nil, hitems'] at hpa
        exact hpa.trans hperm
    · right
      have hlg : m.lg = lgK - 1 := by have := h.lglt; omega
      refine ⟨by unfold Room; rw [← hlg]; exact hfit, ?_⟩
      -- the first occupied entry makes `findAux` fail
      have hne : ∃ e ∈ m.arr.set P (pair s v), e ≠ 0 := by
        have : pair s v ∈ (auxScheme lgK m.lg).items (m.arr.set P (pair s v)) :=
          hperm.mem_iff.mpr (by simp)
        unfold Scheme.items at this
        exact ⟨pair s v, (List.mem_filter.mp this).1, pair_ne hlt26 hv⟩
      have hfail : ∀ (l : List Nat) (arr : List Nat), (∃ e ∈ l, e ≠ 0) →
          ∃ e, l.foldlM (growStep (m.lg + 1) lgK) arr = .err e := by
        intro l
        induction l with
        | nil => rintro arr ⟨e, he, _⟩; simp at he
        | cons a l ih =>
          rintro arr ⟨e, hmem, hne⟩
          rw [List.foldlM_cons]
          unfold growStep
          by_cases ha : a = 0
          · rw [if_neg (by simpa using ha), Outcome.ok_bind]
            rcases List.mem_cons.mp hmem with rfl | hmem
            · exact absurd ha hne
            · exact ih arr ⟨e, hmem, hne⟩
          · rw [if_pos ha]
            unfold findAux
            rw [if_pos (by omega)]
            exact ⟨_, rfl⟩
      obtain ⟨e, he⟩ := hfail _ (List.replicate (2 ^ (m.lg + 1)) 0) hne
      rw [he]
      exact ⟨e, rfl⟩

end Verif.Hll
