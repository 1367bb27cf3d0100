import Verif.TupleLaws
import Verif.ThetaValid

/-!
# C53, C54: tuple update sketch, compact sketch, filter
-/

namespace Verif.Tuple

open Probe HashTable
open Theta (Status maxTheta)

/-! ## histories and specification -/

/-- Public operations of the update sketch that change it. -/
inductive Op (ι V : Type) where
  | update (x : ι) (v : V)
  | updateEmptyString
  | trim
  | reset
  deriving DecidableEq

section
variable {H S V : Type} (K : Kind H S V)

/-- one operation (`Trim` update_sketch.go l.520-523, `Reset` l.525-528, `UpdateString("")` l.456-458) -/
def step {ι : Type} (hash : ι → Nat) (t : Tbl S) (h : H) : Op ι V → Outcome (Tbl S × H)
  | .update x v => do let (t, h, _) ← update K t h (hash x) v; pure (t, h)
  | .updateEmptyString => .ok (t, h)
  | .trim => do let t ← t.trim (elem K); pure (t, h)
  | .reset => .ok (reset K t h)

def run {ι : Type} (hash : ι → Nat) : Tbl S → H → List (Op ι V) → Outcome (Tbl S × H)
  | t, h, [] => .ok (t, h)
  | t, h, op :: ops => do let (t, h) ← step K hash t h op; run hash t h ops

end

/-- Spec: the pairs presented since the last reset. -/
def presented {ι V : Type} : List (ι × V) → List (Op ι V) → List (ι × V)
  | acc, [] => acc
  | acc, .update x v :: ops => presented (acc ++ [(x, v)]) ops
  | acc, .updateEmptyString :: ops => presented acc ops
  | acc, .trim :: ops => presented acc ops
  | _, .reset :: ops => presented [] ops

/-- Spec: the values presented together with an item whose hash is `k`, in order. -/
def valuesFor {ι V : Type} (hash : ι → Nat) (k : Nat) (xs : List (ι × V)) : List V :=
  (xs.filter (fun x => decide (hash x.1 / 2 = k))).map Prod.snd

/-- the history without the values -/
def Op.keys {ι V : Type} : Op ι V → Theta.Op ι
  | .update x _ => .update x
  | .updateEmptyString => .updateEmptyString
  | .trim => .trim
  | .reset => .reset

theorem presented_keys {ι V : Type} : ∀ (ops : List (Op ι V)) (acc : List (ι × V)),
    (presented acc ops).map Prod.fst = Theta.presented (acc.map Prod.fst) (ops.map Op.keys) := by
  intro ops
  induction ops with
  | nil => intro acc; rfl
  | cons op ops ih =>
    intro acc
    cases op with
    | update x v => simp [presented, Theta.presented, Op.keys, ih]
    | updateEmptyString => exact ih acc
    | trim => exact ih acc
    | reset => exact ih []

/-! ## invariant -/

section
variable {H S V σ : Type} {K : Kind H S V} {read : H → S → σ} {new : σ} {upd : σ → V → σ}
  {app : σ → σ → σ} {own : H → List S → Prop}

/-- Invariant of a sketch after presenting the pairs `xs` since the last reset; `F` are the summaries
in use elsewhere, `h0` the memory at the beginning. -/
structure TSInv {ι : Type} (K : Kind H S V) (read : H → S → σ) (new : σ) (upd : σ → V → σ)
    (own : H → List S → Prop) (hash : ι → Nat) (lgK start : Nat) (F : List S) (h0 : H)
    (t : Tbl S) (h : H) (xs : List (ι × V)) : Prop where
  keys : Theta.SInv hash lgK start (keysT K t) (xs.map Prod.fst)
  tinv : TInv (elem K) t
  own : own h ((all t).map Prod.snd ++ F)
  frame : ∀ x ∈ F, read h x = read h0 x
  sums : ∀ e ∈ all t, read h e.2 = (valuesFor hash e.1 xs).foldl upd new

theorem valuesFor_append_ne {ι V : Type} {hash : ι → Nat} {k : Nat} {x : ι} (hk : hash x / 2 ≠ k)
    (xs : List (ι × V)) (v : V) : valuesFor hash k (xs ++ [(x, v)]) = valuesFor hash k xs := by
  simp [valuesFor, List.filter_append, hk]

theorem valuesFor_append_eq {ι V : Type} {hash : ι → Nat} {k : Nat} {x : ι} (hk : hash x / 2 = k)
    (xs : List (ι × V)) (v : V) : valuesFor hash k (xs ++ [(x, v)]) = valuesFor hash k xs ++ [v] := by
  simp [valuesFor, List.filter_append, hk]

theorem valuesFor_nil {ι V : Type} {hash : ι → Nat} {k : Nat} {xs : List (ι × V)}
    (h : k ∉ (xs.map Prod.fst).map (Theta.hash63 hash)) : valuesFor hash k xs = [] := by
  simp only [valuesFor, List.map_eq_nil_iff, List.filter_eq_nil_iff, decide_eq_true_eq]
  intro x hx hk
  exact h (List.mem_map.mpr ⟨x.1, List.mem_map.mpr ⟨x, hx, rfl⟩, hk⟩)

theorem mem_keys {t : Tbl S} {e : Entry S} (he : e ∈ all t) : e.1 ∈ Theta.all (keysT K t) := by
  rw [← all_keys K]; exact List.mem_map.mpr ⟨e, he, rfl⟩

variable (L : Laws K read new upd app own)
include L

theorem update_tsinv {ι : Type} {hash : ι → Nat} {lgK start : Nat} {F : List S} {h0 : H} {t : Tbl S}
    {h : H} {xs : List (ι × V)} (i : TSInv K read new upd own hash lgK start F h0 t h xs) (x : ι)
    (v : V) :
    ∃ t' h' st, update K t h (hash x) v = .ok (t', h', st) ∧
      TSInv K read new upd own hash lgK start F h0 t' h' (xs ++ [(x, v)]) := by
  obtain ⟨k', st, hk1, hk2, -⟩ := Theta.update_inv i.keys x
  have hk3 := update_keys K t h (hash x) v
  rw [hk1] at hk3
  obtain ⟨⟨t', h', st'⟩, hup, hkey⟩ := Outcome.map_eq_ok.1 hk3
  simp only [Prod.mk.injEq] at hkey
  obtain ⟨hkey, rfl⟩ := hkey
  refine ⟨t', h', st', hup, ?_⟩
  have hkeys : Theta.SInv hash lgK start (keysT K t') ((xs ++ [(x, v)]).map Prod.fst) := by
    rw [hkey]; simpa using hk2
  have hti := i.tinv.withEmpty false
  have hsh : hash x >>> 1 = hash x / 2 := by simp [Nat.shiftRight_eq_div_pow]
  unfold update at hup
  simp only [hsh] at hup
  -- states in which only the empty flag changes
  have keep : ¬ (hash x / 2 ≠ 0 ∧ hash x / 2 < t.theta) → t' = { t with isEmpty := false } → h' = h →
      TSInv K read new upd own hash lgK start F h0 t' h' (xs ++ [(x, v)]) := by
    rintro hc rfl rfl
    refine { keys := hkeys, tinv := hti, own := i.own, frame := i.frame, sums := ?_ }
    intro e he
    have he' : e ∈ all t := he
    have h1 := (i.keys.ret e.1).mp (mem_keys he')
    rw [valuesFor_append_ne, i.sums e he']
    rintro heq
    rw [heq] at hc
    exact hc ⟨h1.2.1, h1.2.2⟩
  by_cases hge : hash x / 2 ≥ t.theta
  · have hs : ({ t with isEmpty := false } : Tbl S).screen (hash x / 2) = .exceedsTheta := by
      simp [Table.screen, hge]
    rw [hs] at hup
    simp only [Outcome.ok.injEq, Prod.mk.injEq] at hup
    exact keep (by omega) hup.1.symm hup.2.1.symm
  by_cases hz : hash x / 2 = 0
  · have hs : ({ t with isEmpty := false } : Tbl S).screen (hash x / 2) = .zeroHash := by
      simp only [Table.screen]; rw [if_neg hge, if_pos hz]
    rw [hs] at hup
    simp only [Outcome.ok.injEq, Prod.mk.injEq] at hup
    exact keep (by omega) hup.1.symm hup.2.1.symm
  have hs : ({ t with isEmpty := false } : Tbl S).screen (hash x / 2) = .pass := by
    simp only [Table.screen]; rw [if_neg hge, if_neg hz]
  rw [hs] at hup
  simp only at hup
  rcases hti.find_total (hash x / 2) with ⟨p, hf, hp, habs⟩ | ⟨p, e, hf, hpe, hek, hmem⟩
  · rw [hf] at hup
    simp only at hup
    obtain ⟨m1, m2, m3⟩ := L.make h _ i.own
    obtain ⟨u1, u2, u3⟩ := L.update _ _ _ v m1
    obtain ⟨t2, e1, i1, s1, em1, th1, p1, -⟩ := insert_inv hti
      (e := (hash x / 2, (K.update (K.make h).2 (K.make h).1 v).1)) hz (Nat.lt_of_not_le hge) hf
    simp only [e1, Outcome.ok_bind, Outcome.pure_eq, Outcome.ok.injEq, Prod.mk.injEq] at hup
    obtain ⟨rfl, rfl, -⟩ := hup
    have hsub : ∀ e ∈ all t2,
        e = (hash x / 2, (K.update (K.make h).2 (K.make h).1 v).1) ∨ e ∈ all t := by
      intro e he
      have := p1.mem_iff.mp he
      exact List.mem_cons.mp (List.mem_filter.mp this).1
    refine { keys := hkeys, tinv := i1, own := ?_, frame := ?_, sums := ?_ }
    · refine L.sub _ _ _ u1 ?_
      have h1 : ((all t2).map Prod.snd).Subperm
          ((K.update (K.make h).2 (K.make h).1 v).1 :: (all t).map Prod.snd) := by
        have := (p1.map Prod.snd).subperm.trans
          (List.filter_sublist (l := (hash x / 2, (K.update (K.make h).2 (K.make h).1 v).1) ::
              itemsOf (elem K) t.entries)
            (p := fun z => decide ((elem K).key z < t2.theta))|>.map Prod.snd).subperm
        exact this
      exact (List.subperm_append_right F).mpr h1
    · intro y hy
      rw [u3 y (by simp [hy]), m3 y (by simp [hy]), i.frame y hy]
    · intro e he
      rcases hsub e he with rfl | he'
      · rw [u2, m2, valuesFor_append_eq rfl, valuesFor_nil]
        · rfl
        · intro hm
          have := (i.keys.ret (hash x / 2)).mpr ⟨hm, hz, Nat.lt_of_not_le hge⟩
          rw [← all_keys K] at this
          obtain ⟨e, he, hek⟩ := List.mem_map.mp this
          exact habs e he hek
      · have hmem : e.2 ∈ (all t).map Prod.snd ++ F := by
          simp only [List.mem_append, List.mem_map]
          exact Or.inl ⟨e, he', rfl⟩
        rw [u3 _ hmem, m3 _ hmem, i.sums e he', valuesFor_append_ne]
        exact fun hh => habs e he' hh.symm
  · rw [hf] at hup
    have hpe' : t.entries[p]? = some e := hpe
    simp only [hpe', Outcome.ok.injEq, Prod.mk.injEq] at hup
    obtain ⟨rfl, rfl, -⟩ := hup
    have hek' : e.1 = hash x / 2 := hek
    have he0 : (elem K).key e ≠ 0 := by rw [hek]; exact hz
    obtain ⟨rest, p1, p2⟩ := itemsOf_set (E := elem K) hpe' he0 (e' := (e.1, (K.update h e.2 v).1)) rfl
    have hown : own h (e.2 :: (rest.map Prod.snd ++ F)) := by
      refine L.perm i.own ?_
      have := (p1.map Prod.snd).append_right F
      simp only [List.map_cons, List.cons_append] at this
      exact this.symm
    obtain ⟨u1, u2, u3⟩ := L.update h e.2 _ v hown
    refine { keys := hkeys, tinv := hti.set hpe' he0 rfl, own := ?_, frame := ?_, sums := ?_ }
    · refine L.perm u1 ?_
      have := (p2.map Prod.snd).append_right F
      simp only [List.map_cons, List.cons_append] at this
      exact this
    · intro y hy
      rw [u3 y (by simp [hy]), i.frame y hy]
    · intro f hfm
      have hnd := i.tinv.chain.keys_nodup
      rcases List.mem_cons.mp (p2.mem_iff.mp hfm) with rfl | hfr
      · simp only
        rw [u2, valuesFor_append_eq hek'.symm, List.foldl_append, ← i.sums e hmem]
        rfl
      · have hf' : f ∈ all t := p1.mem_iff.mpr (by simp [hfr])
        rw [u3 _ (by simp only [List.mem_append, List.mem_map]; exact Or.inl ⟨f, hfr, rfl⟩),
          i.sums f hf', valuesFor_append_ne]
        intro hh
        have hnd' := ((p1.map (elem K).key).nodup_iff).mp hnd
        rw [List.map_cons, List.nodup_cons] at hnd'
        apply hnd'.1
        exact List.mem_map.mpr ⟨f, hfr, by
          show f.1 = e.1
          rw [hek', hh]⟩

theorem trim_tsinv {ι : Type} {hash : ι → Nat} {lgK start : Nat} {F : List S} {h0 : H} {t : Tbl S}
    {h : H} {xs : List (ι × V)} (i : TSInv K read new upd own hash lgK start F h0 t h xs) :
    ∃ t', t.trim (elem K) = .ok t' ∧ TSInv K read new upd own hash lgK start F h0 t' h xs := by
  obtain ⟨k', hk1, hk2, -⟩ := Theta.trim_sinv i.keys
  obtain ⟨t', e1, i1, s1, em1, th1, n1, p1, -⟩ := trim_inv i.tinv
  have hk3 := trim_strip (elem K) t
  rw [hk1, e1] at hk3
  simp only [Outcome.map_ok, Outcome.ok.injEq] at hk3
  have hsub : ∀ e ∈ all t', e ∈ all t := by
    intro e he
    exact (List.mem_filter.mp (p1.mem_iff.mp he)).1
  refine ⟨t', e1, { keys := by rw [keysT, ← hk3]; exact hk2, tinv := i1, own := ?_,
                    frame := i.frame, sums := fun e he => i.sums e (hsub e he) }⟩
  refine L.sub _ _ _ i.own ?_
  apply (List.subperm_append_right F).mpr
  exact (p1.map Prod.snd).subperm.trans (List.filter_sublist.map Prod.snd).subperm

omit L in
theorem clearAll_zero : ∀ (es : List (Entry S)) (h : H),
    (∀ e ∈ (clearAll K es h).1, e.1 = 0) ∧ (clearAll K es h).1.length = es.length := by
  intro es h
  have h1 := clearAll_keys K es h
  constructor
  · intro e he
    have : e.1 ∈ (clearAll K es h).1.map Prod.fst := List.mem_map.mpr ⟨e, he, rfl⟩
    rw [h1] at this
    obtain ⟨_, _, h2⟩ := List.mem_map.mp this
    exact h2.symm
  · have := congrArg List.length h1
    simpa using this

omit L in
theorem reset_grow {t : Tbl S} {h : H} (hl : startingSubMultiple (t.lgNom + 1) 5 t.rf ≠ t.lgCur) :
    reset K t h = ({ t with
      entries := List.replicate (2 ^ startingSubMultiple (t.lgNom + 1) 5 t.rf) (elem K).zero
      lgCur := startingSubMultiple (t.lgNom + 1) 5 t.rf
      numEntries := 0
      theta := t.startTheta
      isEmpty := true }, h) := by
  unfold reset
  simp only [if_pos hl]

omit L in
theorem reset_same {t : Tbl S} {h : H} (hl : ¬ startingSubMultiple (t.lgNom + 1) 5 t.rf ≠ t.lgCur) :
    reset K t h = ({ t with
      entries := (clearAll K t.entries h).1
      lgCur := startingSubMultiple (t.lgNom + 1) 5 t.rf
      numEntries := 0
      theta := t.startTheta
      isEmpty := true }, (clearAll K t.entries h).2) := by
  unfold reset
  simp only [if_neg hl]

omit L in
theorem reset_lgCur (t : Tbl S) (h : H) :
    (reset K t h).1.lgCur = startingSubMultiple (t.lgNom + 1) 5 t.rf ∧
    (reset K t h).1.lgNom = t.lgNom ∧ (reset K t h).1.rf = t.rf ∧ (reset K t h).1.numEntries = 0 ∧
    (reset K t h).1.theta = t.startTheta := by
  by_cases hl : startingSubMultiple (t.lgNom + 1) 5 t.rf ≠ t.lgCur
  · rw [reset_grow hl]; exact ⟨rfl, rfl, rfl, rfl, rfl⟩
  · rw [reset_same hl]; exact ⟨rfl, rfl, rfl, rfl, rfl⟩

omit L in
theorem reset_table {t : Tbl S} {h : H} (ht : TInv (elem K) t) (h5 : 5 ≤ t.lgNom) :
    TInv (elem K) (reset K t h).1 ∧ all (reset K t h).1 = [] := by
  obtain ⟨a, b, c⟩ := startingSub_spec (rf := t.rf) h5 ht.lgNom
  have hz : ∀ e ∈ (reset K t h).1.entries, (elem K).key e = 0 := by
    intro e he
    by_cases hl : startingSubMultiple (t.lgNom + 1) 5 t.rf ≠ t.lgCur
    · rw [reset_grow hl] at he
      have := (List.mem_replicate.mp he).2
      rw [this]; rfl
    · rw [reset_same hl] at he
      exact (clearAll_zero t.entries h).1 e he
  obtain ⟨r1, r2, r3, r4, -⟩ := reset_lgCur (K := K) t h
  have hlen : (reset K t h).1.entries.length = 2 ^ startingSubMultiple (t.lgNom + 1) 5 t.rf := by
    by_cases hl : startingSubMultiple (t.lgNom + 1) 5 t.rf ≠ t.lgCur
    · rw [reset_grow hl]; simp
    · rw [reset_same hl]
      show (clearAll K t.entries h).1.length = _
      rw [(clearAll_zero t.entries h).2, not_not.mp hl]
      exact ht.chain.len
  have hall : all (reset K t h).1 = [] := by
    unfold all
    rw [List.filter_eq_nil_iff]
    intro e he
    have : e.1 = 0 := hz e he
    simp [this]
  have hit : itemsOf (elem K) (reset K t h).1.entries = [] := hall
  refine ⟨?_, hall⟩
  exact { chain := by rw [r1]; exact chain_clear hlen hz,
          lgNom := by rw [r2]; exact ht.lgNom, lgCur := by rw [r1, r2]; exact a,
          lgPos := by rw [r1]; omega, grow := by rw [r1, r2, r3]; exact c,
          num := by rw [hit, r4]; rfl,
          cap := by rw [r4]; exact Nat.zero_le _,
          below := by rw [hit]; simp }

theorem reset_own {t : Tbl S} {h : H} {F : List S} (ho : own h ((all t).map Prod.snd ++ F)) :
    own (reset K t h).2 F ∧ ∀ x ∈ F, read (reset K t h).2 x = read h x := by
  by_cases hl : startingSubMultiple (t.lgNom + 1) 5 t.rf ≠ t.lgCur
  · rw [reset_grow hl]
    exact ⟨L.sub _ _ _ ho (List.sublist_append_right _ _).subperm, fun _ _ => rfl⟩
  · rw [reset_same hl]
    exact L.clearAll t.entries h F ho

theorem reset_tsinv {ι : Type} {hash : ι → Nat} {lgK start : Nat} {F : List S} {h0 : H} {t : Tbl S}
    {h : H} {xs : List (ι × V)} (i : TSInv K read new upd own hash lgK start F h0 t h xs) :
    TSInv K read new upd own hash lgK start F h0 (reset K t h).1 (reset K t h).2 [] := by
  obtain ⟨i1, a1⟩ := reset_table (h := h) i.tinv (by
    have := i.keys.lgk
    rw [show t.lgNom = lgK from this]; exact i.keys.ge5)
  obtain ⟨o1, o2⟩ := reset_own L i.own
  refine { keys := ?_, tinv := i1, own := ?_, frame := ?_, sums := ?_ }
  · rw [keysT, show strip (elem K) (reset K t h).1 = _ from reset_keys K t h]
    exact Theta.reset_sinv i.keys
  · rw [a1]; exact o1
  · intro x hx; rw [o2 x hx, i.frame x hx]
  · rw [a1]; simp

omit L in
theorem newTable_empty {lgK rf start : Nat} {t0 : Tbl S} (hnew : newTable K lgK rf start = .ok t0) :
    TInv (elem K) t0 ∧ all t0 = [] ∧ Theta.newTable lgK rf start = .ok (keysT K t0) := by
  have hk := newTable_keys K lgK rf start
  rw [hnew] at hk
  refine ⟨?_, ?_, hk.symm⟩
  all_goals
    unfold newTable at hnew
    split at hnew
    · cases hnew
    split at hnew
    · cases hnew
    simp only [Outcome.ok.injEq] at hnew
    subst hnew
    rename_i h1 h2
    obtain ⟨i, it⟩ := new_inv (E := elem K) (rf := rf) (th := start) (show 5 ≤ lgK by omega)
      (show lgK ≤ 26 by omega) true
  · exact i
  · exact it

theorem run_tsinv {ι : Type} {hash : ι → Nat} {lgK start : Nat} {F : List S} {h0 : H} :
    ∀ (ops : List (Op ι V)) (t : Tbl S) (h : H) (xs : List (ι × V)),
    TSInv K read new upd own hash lgK start F h0 t h xs →
    ∃ t' h', run K hash t h ops = .ok (t', h') ∧
      TSInv K read new upd own hash lgK start F h0 t' h' (presented xs ops) := by
  intro ops
  induction ops with
  | nil => intro t h xs i; exact ⟨t, h, rfl, i⟩
  | cons op ops ih =>
    intro t h xs i
    cases op with
    | update x v =>
      obtain ⟨t1, h1, st, e1, i1⟩ := update_tsinv L i x v
      obtain ⟨t2, h2, e2, i2⟩ := ih t1 h1 _ i1
      exact ⟨t2, h2, by simp [run, step, e1, e2], i2⟩
    | updateEmptyString =>
      obtain ⟨t2, h2, e2, i2⟩ := ih t h _ i
      exact ⟨t2, h2, by simp [run, step, e2], i2⟩
    | trim =>
      obtain ⟨t1, e1, i1⟩ := trim_tsinv L i
      obtain ⟨t2, h2, e2, i2⟩ := ih t1 h _ i1
      exact ⟨t2, h2, by simp [run, step, e1, e2], i2⟩
    | reset =>
      obtain ⟨t2, h2, e2, i2⟩ := ih _ _ _ (reset_tsinv L i)
      exact ⟨t2, h2, by simp [run, step, e2], i2⟩

omit L in
theorem new_tsinv {ι : Type} (hash : ι → Nat) {lgK rf start : Nat} {F : List S} {h0 : H}
    {t0 : Tbl S} (hnew : newTable K lgK rf start = .ok t0) (ho : own h0 F) :
    TSInv K read new upd own hash lgK start F h0 t0 h0 ([] : List (ι × V)) := by
  obtain ⟨a, b, c⟩ := newTable_empty hnew
  exact { keys := Theta.new_sinv hash c, tinv := a, own := by rw [b]; exact ho,
          frame := fun _ _ => rfl, sums := by rw [b]; simp }

end

/-! ## properties -/

/-- the hashes after any operation are those of the theta sketch -/
theorem step_keys {H S V ι : Type} (K : Kind H S V) (hash : ι → Nat) (t : Tbl S) (h : H)
    (op : Op ι V) :
    (step K hash t h op).map (fun r => keysT K r.1) = Theta.step hash (keysT K t) op.keys := by
  cases op with
  | update x v =>
    simp only [step, Op.keys, Theta.step, ← update_keys K t h (hash x) v, Outcome.bind_map,
      Outcome.map_bind]
    rfl
  | updateEmptyString => rfl
  | trim =>
    simp only [step, Op.keys, Theta.step, keysT, trim_strip, Outcome.map_bind]
    cases t.trim (elem K) <;> rfl
  | reset => exact congrArg Outcome.ok (reset_keys K t h)

/-- C53 (hashes).  Whatever the summaries are and do: after every history the tuple sketch holds
exactly the hashes, theta, emptiness and table layout of the theta sketch that was given the same
items, and it panics exactly when that one does. -/
theorem C53_same_hashes_as_theta {H S V ι : Type} (K : Kind H S V) (hash : ι → Nat) :
    ∀ (ops : List (Op ι V)) (t : Tbl S) (h : H),
    (run K hash t h ops).map (fun r => keysT K r.1) =
      Theta.run hash (keysT K t) (ops.map Op.keys) := by
  intro ops
  induction ops with
  | nil => intro t h; rfl
  | cons op ops ih =>
    intro t h
    simp only [run, List.map_cons, Theta.run, ← step_keys K hash t h op, Outcome.bind_map,
      Outcome.map_bind]
    exact Outcome.bind_congr (fun r => ih r.1 r.2)

section
variable {H S V σ : Type} {K : Kind H S V} {read : H → S → σ} {new : σ} {upd : σ → V → σ}
  {app : σ → σ → σ} {own : H → List S → Prop}

theorem TSInv.hashes {ι : Type} {hash : ι → Nat} {lgK start : Nat} {F : List S} {h0 : H}
    {t : Tbl S} {h : H} {xs : List (ι × V)}
    (i : TSInv K read new upd own hash lgK start F h0 t h xs) (k : Nat) :
    (∃ s, (k, s) ∈ all t) ↔ (∃ x ∈ xs, hash x.1 / 2 = k) ∧ k ≠ 0 ∧ k < theta64 t := by
  have h1 : (∃ s, (k, s) ∈ all t) ↔ k ∈ Theta.all (keysT K t) := by
    rw [← all_keys K, List.mem_map]
    constructor
    · rintro ⟨s, hs⟩; exact ⟨_, hs, rfl⟩
    · rintro ⟨⟨a, s⟩, hs, rfl⟩; exact ⟨s, hs⟩
  have h2 := i.keys.ret k
  rw [h1, h2]
  have h3 : k ∈ (xs.map Prod.fst).map (Theta.hash63 hash) ↔ ∃ x ∈ xs, hash x.1 / 2 = k := by
    simp [Theta.hash63]
  rw [h3]
  by_cases he : t.isEmpty = true
  · have hx := i.keys.empty.mp he
    have : xs = [] := List.map_eq_nil_iff.mp hx
    simp [this]
  · simp only [theta64, he, if_false, Bool.false_eq_true]
    exact Iff.rfl

theorem TSInv.nodup {ι : Type} {hash : ι → Nat} {lgK start : Nat} {F : List S} {h0 : H}
    {t : Tbl S} {h : H} {xs : List (ι × V)}
    (i : TSInv K read new upd own hash lgK start F h0 t h xs) : ((all t).map Prod.fst).Nodup :=
  i.tinv.chain.keys_nodup

theorem TSInv.isEmpty_iff {ι : Type} {hash : ι → Nat} {lgK start : Nat} {F : List S} {h0 : H}
    {t : Tbl S} {h : H} {xs : List (ι × V)}
    (i : TSInv K read new upd own hash lgK start F h0 t h xs) : t.isEmpty = true ↔ xs = [] := by
  have := i.keys.empty
  rw [List.map_eq_nil_iff] at this
  exact this

end

/-- C53 (summaries behind pointers).  For every hash function, every update function and every
history of a sketch created with parameters the constructor accepts, in a program that uses the
objects `F` elsewhere: nothing panics; a hash is retained iff it is the non-zero hash of an item
presented since the last reset and lies below theta, at most once; the summary of a retained hash
holds the result of updating a new summary with exactly the values presented for that hash since the
last reset, in their order; no two retained hashes share a summary object; the objects in use
elsewhere are not touched. -/
theorem C53_summaries_pointers {σ V ι : Type} (new zero : σ) (upd : σ → V → σ) (app : σ → σ → σ)
    (hash : ι → Nat) (lgK rf start : Nat) (t0 : Tbl Nat)
    (hnew : newTable (pointers new zero upd app) lgK rf start = .ok t0) (h0 : List σ) (F : List Nat)
    (hF : F.Nodup) (hlive : ∀ x ∈ F, x < h0.length) (ops : List (Op ι V)) :
    ∃ t h, run (pointers new zero upd app) hash t0 h0 ops = .ok (t, h) ∧
      (∀ k, (∃ s, (k, s) ∈ all t) ↔
        (∃ x ∈ presented [] ops, hash x.1 / 2 = k) ∧ k ≠ 0 ∧ k < theta64 t) ∧
      ((all t).map Prod.fst).Nodup ∧ t.numEntries = (all t).length ∧
      (t.isEmpty = true ↔ presented [] ops = []) ∧
      (∀ e ∈ all t, h[e.2]? = some ((valuesFor hash e.1 (presented [] ops)).foldl upd new)) ∧
      ((all t).map Prod.snd ++ F).Nodup ∧ ∀ x ∈ F, h[x]? = h0[x]? := by
  obtain ⟨t, h, e, i⟩ := run_tsinv (pointers_laws new zero upd app) ops t0 h0 []
    (new_tsinv hash hnew ⟨hF, hlive⟩)
  have hget : ∀ x ∈ (all t).map Prod.snd ++ F, h[x]? = some (content zero h x) := by
    intro x hx
    have := i.own.2 x hx
    simp [content, this]
  refine ⟨t, h, e, i.hashes, i.nodup, i.tinv.num, i.isEmpty_iff, ?_, i.own.1, ?_⟩
  · intro a ha
    rw [hget _ (by simp only [List.mem_append, List.mem_map]; exact Or.inl ⟨a, ha, rfl⟩),
      i.sums a ha]
  · intro x hx
    rw [hget x (by simp [hx]), i.frame x hx]
    have := hlive x hx
    simp [content, this]

/-- C53 (summaries stored by value). -/
theorem C53_summaries_values {σ V ι : Type} (new : σ) (upd : σ → V → σ) (app : σ → σ → σ)
    (hash : ι → Nat) (lgK rf start : Nat) (t0 : Tbl σ)
    (hnew : newTable (values new upd app) lgK rf start = .ok t0) (ops : List (Op ι V)) :
    ∃ t, run (values new upd app) hash t0 () ops = .ok (t, ()) ∧
      (∀ k, (∃ s, (k, s) ∈ all t) ↔
        (∃ x ∈ presented [] ops, hash x.1 / 2 = k) ∧ k ≠ 0 ∧ k < theta64 t) ∧
      ((all t).map Prod.fst).Nodup ∧ t.numEntries = (all t).length ∧
      (t.isEmpty = true ↔ presented [] ops = []) ∧
      ∀ e ∈ all t, e.2 = (valuesFor hash e.1 (presented [] ops)).foldl upd new := by
  obtain ⟨t, h, e, i⟩ := run_tsinv (F := []) (h0 := ()) (values_laws new upd app) ops t0 () []
    (new_tsinv hash hnew trivial)
  exact ⟨t, e, i.hashes, i.nodup, i.tinv.num, i.isEmpty_iff, i.sums⟩

/-! ## compact sketch and filter -/

/-- Well-formed sketch seen through the interface. -/
abbrev Valid {S : Type} (v : View S) : Prop := Theta.Valid v.keys

theorem TSInv.valid {H S V σ ι : Type} {K : Kind H S V} {read : H → S → σ} {new : σ}
    {upd : σ → V → σ} {own : H → List S → Prop} {hash : ι → Nat} {lgK start : Nat} {F : List S}
    {h0 : H} {t : Tbl S} {h : H} {xs : List (ι × V)}
    (i : TSInv K read new upd own hash lgK start F h0 t h xs) (hs : start ≤ maxTheta) (sh : Nat) :
    Valid (viewOf t sh) := by
  unfold Valid
  rw [viewOf_keys K]
  exact i.keys.valid hs sh

/-- contents of a list of entries in the memory `h` -/
def contents {σ : Type} (h : List σ) (es : List (Entry Nat)) : List (Nat × Option σ) :=
  es.map (fun e => (e.1, h[e.2]?))

theorem contents_perm {σ : Type} (h : List σ) {a b : List (Entry Nat)} (hp : a.Perm b) :
    (contents h a).Perm (contents h b) := hp.map _

/-- cloning with pointers, in terms of the memory -/
theorem clone_contents {σ V : Type} (new zero : σ) (upd : σ → V → σ) (app : σ → σ → σ)
    (es : List (Entry Nat)) (h : List σ) (F : List Nat) (hF : Distinct h F)
    (hes : ∀ e ∈ es, e.2 ∈ F) :
    let r := cloneAll (pointers new zero upd app) es h
    Distinct r.2 (r.1.map Prod.snd ++ F) ∧ contents r.2 r.1 = contents h es ∧
      ∀ x ∈ F, r.2[x]? = h[x]? := by
  intro r
  obtain ⟨o1, o2, o3⟩ := (pointers_laws new zero upd app).cloneAll es h F hF hes
  have hget : ∀ x ∈ r.1.map Prod.snd ++ F, r.2[x]? = some (content zero r.2 x) := by
    intro x hx
    have h1 : x < r.2.length := o1.2 x hx
    simp only [content, List.getElem?_eq_getElem h1, Option.getD_some]
  have hgetF : ∀ x ∈ F, h[x]? = some (content zero h x) := by
    intro x hx
    have := hF.2 x hx
    simp [content, this]
  refine ⟨o1, ?_, ?_⟩
  · unfold contents
    have e1 : r.1.map (fun e => (e.1, r.2[e.2]?)) =
        (r.1.map (fun e => (e.1, content zero r.2 e.2))).map (fun p => (p.1, some p.2)) := by
      rw [List.map_map]
      apply List.map_congr_left
      intro e he
      simp only [Function.comp_apply]
      rw [hget e.2 (List.mem_append_left _ (List.mem_map.mpr ⟨e, he, rfl⟩))]
    rw [e1, o2, List.map_map]
    apply List.map_congr_left
    intro e he
    simp only [Function.comp_apply]
    rw [hgetF e.2 (hes e he)]
  · intro x hx
    rw [hget x (List.mem_append_right _ hx), o3 x hx, hgetF x hx]

/-- C54 (compact form).  For every history, the compact form has the sketch's theta, emptiness and
seed hash and exactly its hashes with summaries of the same content; ordered forms ascend.  The
summaries are fresh objects: neither taking the compact form nor any later history of the sketch
changes the content of the compact form, of the sketch at that time, or of objects in use elsewhere. -/
theorem C54_compact_is_independent_snapshot {σ V ι : Type} (new zero : σ) (upd : σ → V → σ)
    (app : σ → σ → σ) (hash : ι → Nat) (lgK rf start sh : Nat) (hstart : start ≤ maxTheta)
    (t0 : Tbl Nat) (hnew : newTable (pointers new zero upd app) lgK rf start = .ok t0) (h0 : List σ)
    (ops later : List (Op ι V)) (ordered : Bool) :
    ∃ t h, run (pointers new zero upd app) hash t0 h0 ops = .ok (t, h) ∧
      let r := newCompact (pointers new zero upd app) (viewOf t sh) h ordered
      r.1.theta = theta64 t ∧ r.1.isEmpty = t.isEmpty ∧ r.1.seedHash = sh ∧
      (contents r.2 r.1.entries).Perm ((all t).map (fun e =>
        (e.1, some ((valuesFor hash e.1 (presented [] ops)).foldl upd new)))) ∧
      (ordered = false → contents r.2 r.1.entries = contents h (all t)) ∧
      (r.1.isOrdered = true → (r.1.entries.map Prod.fst).Pairwise (· < ·)) ∧
      (ordered = true → r.1.isOrdered = true) ∧
      (∀ e ∈ all t, r.2[e.2]? = h[e.2]?) ∧
      ∃ t' h', run (pointers new zero upd app) hash t r.2 later = .ok (t', h') ∧
        contents h' r.1.entries = contents r.2 r.1.entries := by
  have L := pointers_laws new zero upd app
  obtain ⟨t, h, e, i⟩ := run_tsinv (F := []) L ops t0 h0 []
    (new_tsinv hash hnew ⟨List.nodup_nil, by simp⟩)
  have hv := i.valid hstart sh
  refine ⟨t, h, e, ?_⟩
  intro r
  have hown : Distinct h ((all t).map Prod.snd) := by simpa using i.own
  obtain ⟨c1, c2, c3⟩ := clone_contents new zero upd app (all t) h _ hown
    (fun e he => List.mem_map.mpr ⟨e, he, rfl⟩)
  have hkeys := newCompact_keys (pointers new zero upd app) (v := viewOf t sh)
    (fun hem => by
      have := hv.empty hem
      exact List.map_eq_nil_iff.mp this) h ordered
  have hval := Theta.newCompact_valid hv ordered
  rw [← hkeys] at hval
  have hsum : contents h (all t) = (all t).map (fun e =>
      (e.1, some ((valuesFor hash e.1 (presented [] ops)).foldl upd new))) := by
    apply List.map_congr_left
    intro a ha
    rw [← i.sums a ha]
    have := hown.2 a.2 (List.mem_map.mpr ⟨a, ha, rfl⟩)
    simp [content, this]
  have hperm : r.1.entries.Perm (cloneAll (pointers new zero upd app) (all t) h).1 := by
    show (if _ then _ else _ : List (Entry Nat)).Perm _
    split
    · exact sortE_perm _
    · exact List.Perm.refl _
  have hr2 : r.2 = (cloneAll (pointers new zero upd app) (all t) h).2 := rfl
  refine ⟨rfl, rfl, rfl, ?_, ?_, hval.ordered, ?_, ?_, ?_⟩
  · rw [← hsum, ← c2]
    exact contents_perm _ hperm
  · intro ho
    have : r.1.entries = (cloneAll (pointers new zero upd app) (all t) h).1 := by
      show (if _ then _ else _ : List (Entry Nat)) = _
      rw [ho]; rfl
    rw [this, hr2]; exact c2
  · intro ho
    show ((viewOf t sh).isOrdered || ordered) = true
    rw [ho]; simp
  · intro a ha
    exact c3 a.2 (List.mem_map.mpr ⟨a, ha, rfl⟩)
  · have i2 : TSInv (pointers new zero upd app) (content zero) new upd Distinct hash lgK start
        (r.1.entries.map Prod.snd) r.2 t r.2 (presented [] ops) := by
      refine { keys := i.keys, tinv := i.tinv, own := ?_, frame := fun _ _ => rfl, sums := ?_ }
      · refine L.perm c1 ?_
        exact (List.perm_append_comm).trans ((hperm.map Prod.snd).append_right _)
      · intro a ha
        rw [← i.sums a ha]
        unfold content
        rw [hr2, c3 a.2 (List.mem_map.mpr ⟨a, ha, rfl⟩)]
    obtain ⟨t', h', e', i'⟩ := run_tsinv L later t r.2 _ i2
    refine ⟨t', h', e', ?_⟩
    apply List.map_congr_left
    intro a ha
    have hm : a.2 ∈ r.1.entries.map Prod.snd := List.mem_map.mpr ⟨a, ha, rfl⟩
    have h1 := i'.frame a.2 hm
    have h2 := i'.own.2 a.2 (List.mem_append_right _ hm)
    have h3 := i2.own.2 a.2 (List.mem_append_right _ hm)
    simp only [content, List.getElem?_eq_getElem h2, List.getElem?_eq_getElem h3,
      Option.getD_some] at h1
    rw [List.getElem?_eq_getElem h2, List.getElem?_eq_getElem h3, h1]

/-- C54 (filter).  For every well-formed sketch whose summaries are live distinct objects and every
predicate: the filtered sketch consists of exactly the entries whose summary satisfies the predicate,
in the same order, with summaries of the same content in fresh objects; theta and seed hash are kept;
it is empty iff the source is not in estimation mode and nothing satisfies the predicate; the source
and the other objects in use are unchanged. -/
theorem C54_filter {σ V : Type} (new zero : σ) (upd : σ → V → σ) (app : σ → σ → σ) (v : View Nat)
    (hv : Valid v) (h : List σ) (F : List Nat) (hF : F.Nodup) (hlive : ∀ x ∈ F, x < h.length)
    (hin : ∀ e ∈ v.all, e.2 ∈ F) (p : Option σ → Bool) :
    let r := filter (pointers new zero upd app) v h (fun m s => p m[s]?)
    contents r.2 r.1.entries = (contents h v.all).filter (fun c => p c.2) ∧
      r.1.theta = v.theta ∧ r.1.seedHash = v.seedHash ∧
      (r.1.isEmpty = true ↔ ¬ (v.theta < maxTheta ∧ v.isEmpty = false) ∧ ∀ e ∈ v.all, p h[e.2]? = false) ∧
      (r.1.isOrdered = true → (r.1.entries.map Prod.fst).Pairwise (· < ·)) ∧
      (v.isOrdered = true → r.1.isOrdered = true) ∧
      (r.1.entries.map Prod.snd ++ F).Nodup ∧ ∀ x ∈ F, r.2[x]? = h[x]? := by
  intro r
  obtain ⟨c1, c2, c3⟩ := clone_contents new zero upd app (v.all.filter (fun e => p h[e.2]?)) h F
    ⟨hF, hlive⟩ (fun e he => hin e (List.mem_filter.mp he).1)
  have hent : r.1.entries = (cloneAll (pointers new zero upd app)
    (v.all.filter (fun e => p h[e.2]?)) h).1 := rfl
  have hkeys : r.1.entries.map Prod.fst = (v.all.filter (fun e => p h[e.2]?)).map Prod.fst := by
    rw [hent, cloneAll_keys]
  have hlen : r.1.entries.length = (v.all.filter (fun e => p h[e.2]?)).length := by
    rw [hent, cloneAll_length]
  refine ⟨?_, rfl, rfl, ?_, ?_, ?_, c1.1, c3⟩
  · have : contents r.2 r.1.entries = contents h (v.all.filter (fun e => p h[e.2]?)) := c2
    rw [this]
    unfold contents
    rw [List.filter_map]
    rfl
  · have : r.1.isEmpty = (!v.isEstimation && decide (r.1.entries.length = 0)) := rfl
    rw [this, hlen]
    simp only [View.isEstimation, Bool.and_eq_true, Bool.not_eq_true', Bool.and_eq_false_iff,
      decide_eq_false_iff_not, Bool.not_eq_false', decide_eq_true_eq, List.length_eq_zero_iff,
      List.filter_eq_nil_iff, not_and]
    constructor
    · rintro ⟨h1, h2⟩
      refine ⟨fun h3 => ?_, fun e he => by simpa using h2 e he⟩
      rcases h1 with h1 | h1
      · exact absurd h3 h1
      · simpa using h1
    · rintro ⟨h1, h2⟩
      refine ⟨?_, fun e he => by simpa using h2 e he⟩
      by_cases h3 : v.theta < maxTheta
      · right; simpa using h1 h3
      · exact Or.inl h3
  · intro ho
    rw [hkeys]
    have ho' : (if r.1.entries.length ≤ 1 then true else v.isOrdered) = true := ho
    by_cases h1 : r.1.entries.length ≤ 1
    · have h2 : ((v.all.filter (fun e => p h[e.2]?)).map Prod.fst).length ≤ 1 := by
        rw [List.length_map, ← hlen]; exact h1
      generalize (v.all.filter (fun e => p h[e.2]?)).map Prod.fst = l at h2 ⊢
      match l, h2 with
      | [], _ => exact List.Pairwise.nil
      | [a], _ => exact List.pairwise_singleton _ _
    · rw [if_neg h1] at ho'
      have := hv.ordered ho'
      exact List.Pairwise.sublist (List.filter_sublist.map Prod.fst) this
  · intro ho
    show (if _ then true else v.isOrdered) = true
    split
    · rfl
    · exact ho

/-- C54, negative part: `NewCompactSketchFromThetaSketch` hands the caller's single summary object to
every entry, so updating the summary of one hash changes the summary of the others. -/
theorem C54_from_theta_shares_one_summary :
    let c := compactFromTheta (⟨false, true, maxTheta, 7, 2, [3, 5]⟩ : Theta.View) 0 true
    let K := pointers (V := Nat) 10 0 (· + ·) (· + ·)
    c.entries = [(3, 0), (5, 0)] ∧
      ((K.update [10] 0 1).2[0]? = some 11) := by
  decide

/-! ## non-vacuity -/

example : ∃ t0, newTable (pointers (V := Nat) 0 0 (· + ·) (· + ·)) 5 3 maxTheta = .ok t0 := ⟨_, rfl⟩

/-- three updates of two items: the second value of item 7 is added to the first -/
example : ((newTable (pointers (V := Nat) 0 0 (· + ·) (· + ·)) 5 1 maxTheta).bind (fun t =>
    run (pointers 0 0 (· + ·) (· + ·)) (fun x : Nat => 2 * x) t [42]
      [.update 7 100, .update 9 1, .update 7 5, .trim])).bind (fun r => .ok (all r.1, r.2))
    = .ok ([(7, 1), (9, 2)], [42, 105, 1]) := by decide +kernel

/-- filtering keeps the even summaries -/
example : filter (pointers (V := Nat) 0 0 (· + ·) (· + ·))
    (⟨false, false, maxTheta, 7, 2, [(9, 1), (3, 0)]⟩ : View Nat) [5, 8] (fun m s => m[s]? == some 8)
    = (⟨[(9, 2)], maxTheta, 7, false, true⟩, [5, 8, 8]) := by decide

end Verif.Tuple
