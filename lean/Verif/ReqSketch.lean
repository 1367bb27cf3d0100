import Verif.ReqCompactor

/-!
# Invariant of the REQ sketch
-/

namespace Verif.Req

open Verif Verif.View

variable {α : Type} [LinearOrder α]

/-- The items of the levels. -/
def levels (s : Sketch α) : List (List α) := s.compactors.map act

/-- Number of items held. -/
def sumCount (cs : List (Compactor α)) : Nat := (cs.map fun c => c.count).sum

def sumCap (cs : List (Compactor α)) : Nat := (cs.map nomCapacity).sum

theorem computeRetained_eq (cs : List (Compactor α)) : computeRetainedItems cs = (sumCount cs : Int) := by
  unfold computeRetainedItems sumCount
  have : ∀ a : Int, cs.foldl (fun count comp => count + (comp.count : Int)) a =
      a + ((cs.map fun c => c.count).sum : Nat) := by
    induction cs with
    | nil => intro a; simp
    | cons c cs ih =>
      intro a
      simp only [List.foldl_cons, ih, List.map_cons, List.sum_cons]
      push_cast
      ring
  rw [this]; ring

theorem computeMaxNom_eq (cs : List (Compactor α)) : computeMaxNomSize cs = (sumCap cs : Int) := by
  unfold computeMaxNomSize sumCap
  have : ∀ a : Int, cs.foldl (fun count comp => count + (nomCapacity comp : Int)) a =
      a + ((cs.map nomCapacity).sum : Nat) := by
    induction cs with
    | nil => intro a; simp
    | cons c cs ih =>
      intro a
      simp only [List.foldl_cons, ih, List.map_cons, List.sum_cons]
      push_cast
      ring
  rw [this]; ring

theorem sumCount_append (A B : List (Compactor α)) : sumCount (A ++ B) = sumCount A + sumCount B := by
  simp [sumCount]

theorem sumCap_append (A B : List (Compactor α)) : sumCap (A ++ B) = sumCap A + sumCap B := by
  simp [sumCap]

theorem sumCount_cons (c : Compactor α) (B : List (Compactor α)) :
    sumCount (c :: B) = c.count + sumCount B := by simp [sumCount]

theorem sumCap_cons (c : Compactor α) (B : List (Compactor α)) :
    sumCap (c :: B) = nomCapacity c + sumCap B := by simp [sumCap]

/-- Number of compactions of level `i` in the log. -/
def nEvents (log : List (Event α)) (i : Nat) : Nat := log.countP fun e => decide (e.level = i)

/-- What holds for the compactor of level `i`. -/
structure LevelOk (K : Nat) (hra : Bool) (log : List (Event α)) (i : Nat) (c : Compactor α) : Prop where
  wf : CWf K c
  hra : c.hra = hra
  lg : c.lgWeight = i
  srt : 1 ≤ i → c.sorted = true
  state : c.state ≤ nEvents log i

/-- Invariant of a sketch. -/
structure SInv (s : Sketch α) : Prop where
  k4 : 4 ≤ s.k
  kle : s.k ≤ 1024
  keven : s.k % 2 = 0
  ne : s.compactors ≠ []
  lv : ∀ (i : Nat) (c : Compactor α), s.compactors[i]? = some c → LevelOk s.k s.hra s.log i c
  ret : s.numRetained = (sumCount s.compactors : Int)
  nom : s.maxNomSize = (sumCap s.compactors : Int)
  wt : Kll.wt (levels s) = s.n
  spent : sumCount s.compactors + s.log.length ≤ s.n
  full : 0 < s.n → ∀ c ∈ s.compactors, 0 < c.count
  empty : s.n = 0 → s.compactors.length = 1

theorem wt_get {Ls : List (List α)} {i : Nat} {l : List α} (h : Ls[i]? = some l) :
    2 ^ i * l.length ≤ Kll.wt Ls := by
  obtain ⟨hi, hl⟩ := List.getElem?_eq_some_iff.1 h
  have e : Ls = Ls.take i ++ l :: Ls.drop (i + 1) := by
    rw [← hl, List.getElem_cons_drop, List.take_append_drop]
  rw [e]
  unfold Kll.wt
  rw [Kll.rk_append, List.length_take, Nat.min_eq_left (by omega)]
  simp only [Kll.rk, List.countP_true]
  have : 2 ^ i * l.length ≤ 2 ^ i * (l.length + 2 * Kll.rk (fun _ => true) (Ls.drop (i + 1))) :=
    Nat.mul_le_mul_left _ (by omega)
  omega

theorem SInv.two_pow {s : Sketch α} (h : SInv s) (h0 : 0 < s.n) :
    2 ^ (s.compactors.length - 1) ≤ s.n := by
  have hpos := List.length_pos_of_ne_nil h.ne
  have hi : s.compactors.length - 1 < s.compactors.length := by omega
  have hg := List.getElem?_eq_getElem hi
  have hc := (h.lv _ _ hg).wf.act_length
  have hf := h.full h0 _ (List.getElem_mem hi)
  have hw := wt_get (Ls := levels s) (i := s.compactors.length - 1)
    (l := act s.compactors[s.compactors.length - 1]) (by
      unfold levels; rw [List.getElem?_map, hg]; rfl)
  rw [h.wt, hc] at hw
  exact le_trans (Nat.le_mul_of_pos_right _ hf) hw

theorem SInv.len_le {s : Sketch α} (h : SInv s) (hn : s.n < 2 ^ 47) : s.compactors.length ≤ 47 := by
  have hpos := List.length_pos_of_ne_nil h.ne
  rcases Nat.eq_zero_or_pos s.n with h0 | h0
  · have := h.empty h0; omega
  · have := h.two_pow h0
    have h47 : 2 ^ (s.compactors.length - 1) < 2 ^ 47 := by omega
    have := (Nat.pow_lt_pow_iff_right (by norm_num : 1 < 2)).1 h47
    omega

theorem nEvents_le (log : List (Event α)) (i : Nat) : nEvents log i ≤ log.length :=
  List.countP_le_length

theorem nEvents_cons (e : Event α) (log : List (Event α)) (i : Nat) :
    nEvents (e :: log) i = nEvents log i + if e.level = i then 1 else 0 := by
  simp [nEvents, List.countP_cons]

theorem LevelOk.mono {K : Nat} {hra : Bool} {log log' : List (Event α)} {i : Nat} {c : Compactor α}
    (h : LevelOk K hra log i c) (hl : nEvents log i ≤ nEvents log' i) : LevelOk K hra log' i c :=
  ⟨h.wf, h.hra, h.lg, h.srt, le_trans h.state hl⟩

/-- Replace two neighbours. -/
theorem lv_replace {P Q : Nat → Compactor α → Prop} {A C : List (Compactor α)}
    {c nx c' nx' : Compactor α} (hP : ∀ (i : Nat) (x : Compactor α), A[i]? = some x → P i x)
    (hC : ∀ (i : Nat) (x : Compactor α), C[i]? = some x → P (A.length + 2 + i) x)
    (hPQ : ∀ i x, P i x → Q i x) (h1 : Q A.length c') (h2 : Q (A.length + 1) nx') :
    ∀ (i : Nat) (x : Compactor α), (A ++ c' :: nx' :: C)[i]? = some x → Q i x := by
  intro i x hx
  rcases Nat.lt_or_ge i A.length with hi | hi
  · rw [List.getElem?_append_left hi] at hx
    exact hPQ _ _ (hP i x hx)
  · rw [List.getElem?_append_right hi] at hx
    rcases Nat.eq_or_lt_of_le hi with he | hlt
    · rw [← he, Nat.sub_self] at hx
      simp only [List.getElem?_cons_zero, Option.some.injEq] at hx
      rw [← hx, ← he]; exact h1
    · rcases Nat.eq_or_lt_of_le hlt with he | hlt2
      · rw [← he, show A.length + 1 - A.length = 1 by omega] at hx
        simp only [List.getElem?_cons_succ, List.getElem?_cons_zero, Option.some.injEq] at hx
        rw [← hx, ← he]; exact h2
      · rw [show i - A.length = (i - A.length - 2) + 1 + 1 by omega, List.getElem?_cons_succ,
          List.getElem?_cons_succ] at hx
        have := hC _ x hx
        rw [show A.length + 2 + (i - A.length - 2) = i by omega] at this
        exact hPQ _ _ this

theorem lv_left {P : Nat → Compactor α → Prop} {A B : List (Compactor α)}
    (h : ∀ (i : Nat) (x : Compactor α), (A ++ B)[i]? = some x → P i x) :
    ∀ (i : Nat) (x : Compactor α), A[i]? = some x → P i x := by
  intro i x hx
  apply h i x
  rw [List.getElem?_append_left (List.getElem?_eq_some_iff.1 hx).1]
  exact hx

theorem lv_right {P : Nat → Compactor α → Prop} {A B : List (Compactor α)}
    (h : ∀ (i : Nat) (x : Compactor α), (A ++ B)[i]? = some x → P i x) :
    ∀ (i : Nat) (x : Compactor α), B[i]? = some x → P (A.length + i) x := by
  intro i x hx
  apply h
  rw [List.getElem?_append_right (by omega), show A.length + i - A.length = i by omega]
  exact hx

/-! ## One compaction -/

/-- The situation before the compaction of a level: levels below, the level, the next one (perhaps
new), levels above, the items that leave the level and those that stay. -/
structure Before (env : Env α) (s : Sketch α) (A : List (Compactor α)) (c nx : Compactor α)
    (C : List (Compactor α)) (X Kp : List α) : Prop where
  cs : s.compactors = A ++ c :: nx :: C ∨
    (s.compactors = A ++ [c] ∧ C = [] ∧ nx = newCompactor env (A.length + 1) s.hra s.k)
  nxok : LevelOk s.k s.hra s.log (A.length + 1) nx
  even : X.length % 2 = 0
  two : 2 ≤ X.length
  kept_lt : Kp.length < nomCapacity c
  kept_ge : 3 * s.k ≤ Kp.length
  split : srt (act c) = if s.hra then X ++ Kp else Kp ++ X
  rng : ∃ range, chooseRange c = .ok range ∧ range.2 - range.1 = X.length
  kept : keepBase c ≤ Kp.length ∧ Kp.length ≤ keepBase c + 1
  full : nomCapacity c ≤ c.count

/-- The compaction. -/
structure LStep (env : Env α) (s s' : Sketch α) (A : List (Compactor α)) (c nx : Compactor α)
    (C : List (Compactor α)) (X Kp : List α) (coin : Bool) (c' nx' : Compactor α) : Prop where
  comp : Compacted env s.k c nx c' nx' X Kp coin
  cs : s'.compactors = A ++ c' :: nx' :: C
  log : s'.log = ⟨A.length, c, c'⟩ :: s.log
  n : s'.n = s.n
  k : s'.k = s.k
  hra : s'.hra = s.hra
  minItem : s'.minItem = s.minItem
  maxItem : s'.maxItem = s.maxItem
  view : s'.view = s.view
  ret : s'.numRetained = (sumCount s'.compactors : Int)
  nom : s'.maxNomSize = (sumCap s'.compactors : Int)

theorem new_act (env : Env α) (lg : Nat) (hra : Bool) (k : Nat) : act (newCompactor env lg hra k) = [] := by
  apply List.eq_nil_of_length_eq_zero
  exact actOf_length (Nat.zero_le _)

theorem levelStep {env : Env α} (he : EnvOk env) {s : Sketch α} (hs : SInv s) (hn : s.n < 2 ^ 47)
    {A B : List (Compactor α)} {c : Compactor α} (hcs : s.compactors = A ++ c :: B)
    (hfull : nomCapacity c ≤ c.count) :
    ∃ nx C X Kp, Before env s A c nx C X Kp ∧
      ∃ S' : Bool → Sketch α, compactLevel env (growTop env s A.length) A.length c =
          (flipCoin c >>= fun coin => Rand.ret (S' coin)) ∧
        ∀ coin, ∃ c' nx', LStep env s (S' coin) A c nx C X Kp coin c' nx' := by
  have hlen := hs.len_le hn
  have hcok : LevelOk s.k s.hra s.log A.length c := hs.lv _ _ (by rw [hcs]; simp)
  -- the next level
  obtain ⟨nx, C, hcs', hnx, hgrow, hret, hnom, hrest⟩ : ∃ nx C,
      (s.compactors = A ++ c :: nx :: C ∨ (s.compactors = A ++ [c] ∧ C = [] ∧
        nx = newCompactor env (A.length + 1) s.hra s.k)) ∧
      LevelOk s.k s.hra s.log (A.length + 1) nx ∧
      (growTop env s A.length).compactors = A ++ c :: nx :: C ∧
      (growTop env s A.length).numRetained = (sumCount (A ++ c :: nx :: C) : Int) ∧
      (growTop env s A.length).maxNomSize = (sumCap (A ++ c :: nx :: C) : Int) ∧
      growTop env s A.length = { s with
        compactors := (growTop env s A.length).compactors
        maxNomSize := (growTop env s A.length).maxNomSize } := by
    unfold growTop
    cases B with
    | nil =>
      have hl : s.compactors.length = A.length + 1 := by rw [hcs]; simp
      rw [if_pos (by omega)]
      refine ⟨newCompactor env (A.length + 1) s.hra s.k, [], Or.inr ⟨hcs, rfl, rfl⟩, ?_, ?_, ?_, ?_, rfl⟩
      · refine ⟨newCompactor_wf env _ _ hs.k4 hs.kle hs.keven, rfl, ?_, fun _ => rfl, Nat.zero_le _⟩
        show (A.length + 1) % 256 = _
        omega
      · show s.compactors ++ [_] = _
        rw [hl, hcs]; simp
      · show s.numRetained = _
        rw [hs.ret, hcs]
        simp only [sumCount_append, sumCount_cons]
        rfl
      · show computeMaxNomSize (s.compactors ++ [_]) = _
        rw [computeMaxNom_eq, hl, hcs]; simp
    | cons nx C =>
      have hl : s.compactors.length = A.length + 1 + (C.length + 1) := by rw [hcs]; simp; omega
      rw [if_neg (by omega)]
      refine ⟨nx, C, Or.inl hcs, ?_, hcs, by rw [hs.ret, hcs], by rw [hs.nom, hcs], rfl⟩
      refine hs.lv _ _ ?_
      rw [hcs]
      simp
  -- the state of the level is not yet too large
  have hstate : c.state + 1 < 2 ^ 47 := by
    have h1 := hcok.state
    have h2 := nEvents_le s.log A.length
    have h3 := hs.spent
    have h4 : c.count ≤ sumCount s.compactors := by
      rw [hcs, sumCount_append, sumCount_cons]; omega
    have h5 : 1 ≤ nomCapacity c := by
      have := hcok.wf.size
      have := hcok.wf.secs_range
      unfold nomCapacity
      exact Nat.mul_pos (by omega) (by omega)
    omega
  obtain ⟨range, X, Kp, hr, hrX, h1, h2, h3, h4, hkb, h5, h6⟩ := compactWith_ok he hcok.wf hnx.wf
    (hnx.srt (by omega)) hfull hstate
  have hbase := hcok.wf.base
  have hcap : nomCapacity c = 2 * (c.numSections * c.sectionSize) := by
    unfold nomCapacity; ring
  refine ⟨nx, C, X, Kp, ⟨hcs', hnx, h1, h2, h3, by omega, by rw [← hcok.hra]; exact h5,
    ⟨range, hr, hrX⟩, hkb, hfull⟩, ?_⟩
  choose c' nx' hcw hcomp using h6
  refine ⟨fun coin => { growTop env s A.length with
    compactors := A ++ c' coin :: nx' coin :: C
    numRetained := (growTop env s A.length).numRetained + -((X.length / 2 : Nat) : Int)
    maxNomSize := (growTop env s A.length).maxNomSize + ((nomCapacity (c' coin) : Int) - nomCapacity c)
    log := ⟨A.length, c, c' coin⟩ :: (growTop env s A.length).log }, ?_, ?_⟩
  · unfold compactLevel compact
    have hrd : rd (growTop env s A.length).compactors (A.length + 1) = .ok nx := by
      apply rd_ok
      rw [hgrow]; simp
    rw [hrd, Rand.ofOutcome_ok, Rand.ret_bind, hr, Rand.ofOutcome_ok, Rand.ret_bind, Rand.bind_assoc]
    congr 1
    funext coin
    rw [hcw coin, Rand.ofOutcome_ok, Rand.ret_bind, hgrow]
    simp
  · intro coin
    have hcc := hcomp coin
    have hcnt : (Kp.length : Int) = c.count - X.length := by
      have := congrArg List.length h5
      rw [List.length_insertionSort, hcok.wf.act_length] at this
      split at this <;> rw [List.length_append] at this <;> omega
    have hc'cnt : (c' coin).count = Kp.length := by
      rw [← hcc.wf.act_length, hcc.act]
    have hnx'cnt : (nx' coin).count = nx.count + X.length / 2 := by
      rw [← hcc.wfn.act_length, hcc.actn, List.length_insertionSort, List.length_append,
        hnx.wf.act_length, half_length]
    refine ⟨c' coin, nx' coin, hcc, rfl, ?_, ?_, ?_, ?_, ?_, ?_, ?_, ?_, ?_⟩
    · rw [hrest]
    · rw [hrest]
    · rw [hrest]
    · rw [hrest]
    · rw [hrest]
    · rw [hrest]
    · rw [hrest]
    · simp only
      rw [hret]
      simp only [sumCount_append, sumCount_cons, hc'cnt, hnx'cnt]
      push_cast
      omega
    · simp only
      rw [hnom]
      simp only [sumCap_append, sumCap_cons]
      rw [hcc.capn]
      push_cast
      omega

theorem rk_two (p : α → Bool) (A C : List (Compactor α)) (c nx : Compactor α) :
    Kll.rk p ((A ++ c :: nx :: C).map act) = Kll.rk p (A.map act) +
      2 ^ A.length * ((act c).countP p + 2 * ((act nx).countP p + 2 * Kll.rk p (C.map act))) := by
  rw [List.map_append, Kll.rk_append, List.length_map]
  rfl

theorem Before.rk {env : Env α} {s : Sketch α} {A C : List (Compactor α)} {c nx : Compactor α}
    {X Kp : List α} (h : Before env s A c nx C X Kp) (p : α → Bool) :
    Kll.rk p (levels s) = Kll.rk p ((A ++ c :: nx :: C).map act) := by
  unfold levels
  rcases h.cs with h1 | ⟨h1, rfl, rfl⟩
  · rw [h1]
  · rw [h1, rk_two, List.map_append, Kll.rk_append, List.length_map, new_act]
    simp [Kll.rk]

theorem Before.countP {env : Env α} {s : Sketch α} {A C : List (Compactor α)} {c nx : Compactor α}
    {X Kp : List α} (h : Before env s A c nx C X Kp) (p : α → Bool) :
    (act c).countP p = X.countP p + Kp.countP p := by
  have := (srt_perm (act c)).countP_eq p
  rw [h.split] at this
  rw [← this]
  split <;> rw [List.countP_append]
  omega

/-- The change of the weighted number of items with a property. -/
theorem LStep.rk {env : Env α} {s s' : Sketch α} {A C : List (Compactor α)}
    {c nx c' nx' : Compactor α} {X Kp : List α} {coin : Bool}
    (hb : Before env s A c nx C X Kp) (h : LStep env s s' A c nx C X Kp coin c' nx') (p : α → Bool) :
    Kll.rk p (levels s') + 2 ^ A.length * X.countP p =
      Kll.rk p (levels s) + 2 ^ A.length * (2 * (half coin X).countP p) := by
  rw [hb.rk p]
  unfold levels
  rw [h.cs, rk_two, rk_two, h.comp.act, h.comp.actn, (srt_perm _).countP_eq, List.countP_append,
    hb.countP p]
  ring

theorem halves_all (o : Bool) {X : List α} (h : X.length % 2 = 0) :
    2 * (half o X).length = X.length := by
  rw [half_length]; omega

theorem Before.mem {env : Env α} {s : Sketch α} {A C : List (Compactor α)} {c nx : Compactor α}
    {X Kp : List α} (h : Before env s A c nx C X Kp) {x : α} : x ∈ act c ↔ x ∈ X ∨ x ∈ Kp := by
  rw [← (srt_perm (act c)).mem_iff, h.split]
  split <;> rw [List.mem_append]
  exact or_comm

theorem LStep.inv {env : Env α} {s s' : Sketch α} (hs : SInv s) {A C : List (Compactor α)}
    {c nx c' nx' : Compactor α} {X Kp : List α} {coin : Bool}
    (hb : Before env s A c nx C X Kp) (h : LStep env s s' A c nx C X Kp coin c' nx') : SInv s' := by
  have hcc := h.comp
  have hev := hb.even
  have htwo := hb.two
  have hcin : ∃ B, s.compactors = A ++ c :: B := by
    rcases hb.cs with h | ⟨h, -, -⟩
    · exact ⟨_, h⟩
    · exact ⟨_, h⟩
  obtain ⟨B, hB⟩ := hcin
  have hcok : LevelOk s.k s.hra s.log A.length c := hs.lv _ _ (by rw [hB]; simp)
  have hc'cnt : c'.count = Kp.length := by rw [← hcc.wf.act_length, hcc.act]
  have hnx'cnt : nx'.count = nx.count + X.length / 2 := by
    rw [← hcc.wfn.act_length, hcc.actn, List.length_insertionSort, List.length_append,
      hb.nxok.wf.act_length, half_length]
  have hccnt : c.count = X.length + Kp.length := by
    have := congrArg List.length hb.split
    rw [List.length_insertionSort, hcok.wf.act_length] at this
    split at this <;> rw [List.length_append] at this <;> omega
  have hsum : sumCount s.compactors = sumCount (A ++ c :: nx :: C) := by
    rcases hb.cs with h1 | ⟨h1, rfl, rfl⟩
    · rw [h1]
    · rw [h1]
      simp only [sumCount_append, sumCount_cons]
      rfl
  have hCin : ∀ (i : Nat) (x : Compactor α), C[i]? = some x →
      LevelOk s.k s.hra s.log (A.length + 2 + i) x := by
    rcases hb.cs with h | ⟨h, rfl, rfl⟩
    · intro i x hx
      have h2 := hs.lv
      rw [h] at h2
      have := lv_right (A := A ++ [c, nx]) (B := C) (P := LevelOk s.k s.hra s.log) (by simpa using h2)
        i x hx
      simpa using this
    · intro i x hx; simp at hx
  have hnpos : 0 < s.n := by
    have := hs.spent
    rw [hB, sumCount_append, sumCount_cons] at this
    omega
  refine ⟨by rw [h.k]; exact hs.k4, by rw [h.k]; exact hs.kle, by rw [h.k]; exact hs.keven,
    by rw [h.cs]; simp, ?_, h.ret, h.nom, ?_, ?_, ?_, ?_⟩
  · rw [h.cs, h.k, h.hra, h.log]
    refine lv_replace (P := LevelOk s.k s.hra s.log) (c := c) (nx := nx) ?_ hCin ?_ ?_ ?_
    · have h2 := hs.lv
      rw [hB] at h2
      exact lv_left h2
    · intro i x hx
      exact hx.mono (by rw [nEvents_cons]; omega)
    · refine ⟨hcc.wf, hcc.hra.trans hcok.hra, hcc.lgWeight.trans hcok.lg, fun _ => hcc.sorted, ?_⟩
      rw [hcc.state, nEvents_cons, if_pos rfl]
      have := hcok.state
      omega
    · refine ⟨hcc.wfn, hcc.hran.trans hb.nxok.hra, hcc.lgWeightn.trans hb.nxok.lg,
        fun _ => hcc.sortedn, ?_⟩
      rw [hcc.staten, nEvents_cons]
      have := hb.nxok.state
      omega
  · have := LStep.rk hb h (fun _ => true)
    simp only [List.countP_true] at this
    rw [halves_all coin hev] at this
    have hw : Kll.wt (levels s') = Kll.wt (levels s) := by
      unfold Kll.wt; omega
    rw [hw, hs.wt, h.n]
  · have := hs.spent
    rw [hsum] at this
    rw [h.cs, h.log, h.n]
    simp only [sumCount_append, sumCount_cons, hc'cnt, hnx'cnt, hccnt, List.length_cons] at this ⊢
    omega
  · intro _ x hx
    rw [h.cs] at hx
    rcases List.mem_append.1 hx with hx | hx
    · exact hs.full hnpos x (by rw [hB]; exact List.mem_append_left _ hx)
    · rcases List.mem_cons.1 hx with rfl | hx
      · have := hb.kept_ge
        have := hs.k4
        omega
      · rcases List.mem_cons.1 hx with rfl | hx
        · omega
        · rcases hb.cs with h | ⟨h, rfl, rfl⟩
          · exact hs.full hnpos x (by rw [h]; simp [hx])
          · simp at hx
  · intro h0
    rw [h.n] at h0
    omega

/-! ## Compressing -/

/-- A property of sketches that compactions preserve. -/
def StepClosed (env : Env α) (Q : Sketch α → Prop) : Prop :=
  ∀ (s s' : Sketch α) A c nx C X Kp coin c' nx', SInv s → s.n < 2 ^ 47 → Q s →
    Before env s A c nx C X Kp → LStep env s s' A c nx C X Kp coin c' nx' → Q s'

theorem flipCoin_all (c : Compactor α) (P : Bool → Prop) (h : ∀ b, P b) : Rand.All P (flipCoin c) := by
  unfold flipCoin
  split
  · exact h _
  · exact (Rand.All.draw (by omega) (fun i _ => trivial)).bind fun b (_ : True) => h _

theorem compressFrom_all {env : Env α} (he : EnvOk env) {Q : Sketch α → Prop}
    (hQ : StepClosed env Q) (hv : ∀ s, Q s → Q { s with view := none }) (fuel : Nat) :
    ∀ (i : Nat) (s : Sketch α), SInv s → s.n < 2 ^ 47 → Q s → i ≤ s.compactors.length →
      (s.compactors.length - i) + sumCount s.compactors < fuel →
      (∀ c ∈ s.compactors.take i, c.count < nomCapacity c) →
      Rand.All (fun s' => SInv s' ∧ Q s' ∧ s'.n = s.n ∧ s'.k = s.k ∧ s'.hra = s.hra ∧
        s'.minItem = s.minItem ∧ s'.maxItem = s.maxItem ∧ s'.view = none ∧
        ∀ c ∈ s'.compactors, c.count < nomCapacity c) (compressFrom env fuel i s) := by
  induction fuel with
  | zero => intro i s _ _ _ _ hf; omega
  | succ fuel ih =>
    intro i s hs hn hq hil hf hlow
    unfold compressFrom
    by_cases hi : i < s.compactors.length
    · rw [List.getElem?_eq_getElem hi]
      simp only
      have hcs : s.compactors = s.compactors.take i ++ s.compactors[i] :: s.compactors.drop (i + 1) := by
        rw [List.getElem_cons_drop, List.take_append_drop]
      have hAl : (s.compactors.take i).length = i := by rw [List.length_take]; omega
      by_cases hfull : nomCapacity s.compactors[i] ≤ s.compactors[i].count
      · rw [if_pos hfull]
        obtain ⟨nx, C, X, Kp, hb, S', hS, hst⟩ := levelStep he hs hn hcs hfull
        rw [hAl] at hS
        rw [hS, Rand.bind_assoc]
        refine (flipCoin_all _ (fun _ => True) fun _ => trivial).bind fun coin _ => ?_
        rw [Rand.ret_bind]
        obtain ⟨c', nx', hL⟩ := hst coin
        have hinv := hL.inv hs hb
        have hcc := hL.comp
        have hc'cnt : c'.count = Kp.length := by rw [← hcc.wf.act_length, hcc.act]
        have hlen' : (S' coin).compactors.length ≤ s.compactors.length + (if i + 1 = s.compactors.length then 1 else 0) ∧ i + 1 ≤ (S' coin).compactors.length := by
          rw [hL.cs]
          rcases hb.cs with h | ⟨h, rfl, rfl⟩
          · have := congrArg List.length h
            simp only [List.length_append, List.length_cons, hAl] at this ⊢
            omega
          · have := congrArg List.length h
            simp only [List.length_append, List.length_cons, List.length_nil, hAl] at this ⊢
            rw [if_pos (by omega)]
            omega
        have hsum : sumCount (S' coin).compactors + 1 ≤ sumCount s.compactors := by
          have h1 := hL.ret
          have h2 := hs.spent
          have hnx'cnt : nx'.count = nx.count + X.length / 2 := by
            rw [← hcc.wfn.act_length, hcc.actn, List.length_insertionSort, List.length_append,
              hb.nxok.wf.act_length, half_length]
          have hccnt : s.compactors[i].count = X.length + Kp.length := by
            have := congrArg List.length hb.split
            rw [List.length_insertionSort, ((hs.lv i _ (List.getElem?_eq_getElem hi)).wf.act_length)] at this
            split at this <;> rw [List.length_append] at this <;> omega
          have htwo := hb.two
          have hsum : sumCount s.compactors = sumCount (s.compactors.take i ++ s.compactors[i] :: nx :: C) := by
            rcases hb.cs with h | ⟨h, rfl, rfl⟩
            · rw [← h]
            · conv_lhs => rw [h]
              simp only [sumCount_append, sumCount_cons]
              rfl
          rw [hL.cs, hsum]
          simp only [sumCount_append, sumCount_cons, hc'cnt, hnx'cnt, hccnt]
          omega
        have := ih (i + 1) (S' coin) hinv (by rw [hL.n]; exact hn)
          (hQ s (S' coin) _ _ _ _ _ _ _ _ _ hs hn hq hb hL) hlen'.2 (by
            have := hlen'.1
            split at this <;> omega) (by
            intro x hx
            rw [hL.cs, List.take_append, hAl, show i + 1 - i = 1 by omega,
              List.take_of_length_le (by omega)] at hx
            rcases List.mem_append.1 hx with hx | hx
            · exact hlow x hx
            · simp only [List.take_succ_cons, List.take_zero, List.mem_singleton] at hx
              rw [hx, hc'cnt]
              exact lt_of_lt_of_le hb.kept_lt hcc.cap)
        refine this.mono ?_
        rintro s' ⟨h1, h2, h3, h4, h5, h6, h7, h8, h9⟩
        exact ⟨h1, h2, h3.trans hL.n, h4.trans hL.k, h5.trans hL.hra, h6.trans hL.minItem,
          h7.trans hL.maxItem, h8, h9⟩
      · rw [if_neg hfull]
        refine ih (i + 1) s hs hn hq (by omega) (by omega) ?_
        intro x hx
        rw [List.take_add_one, List.getElem?_eq_getElem hi] at hx
        rcases List.mem_append.1 hx with hx | hx
        · exact hlow x hx
        · simp only [Option.toList_some, List.mem_singleton] at hx
          rw [hx]
          omega
    · rw [List.getElem?_eq_none (by omega)]
      simp only
      refine ⟨⟨hs.k4, hs.kle, hs.keven, hs.ne, hs.lv, hs.ret, hs.nom, hs.wt, hs.spent, hs.full,
        hs.empty⟩, hv s hq, rfl, rfl, rfl, rfl, rfl, rfl, ?_⟩
      intro c hc
      apply hlow
      rw [List.take_of_length_le (by omega)]
      exact hc

theorem compress_all {env : Env α} (he : EnvOk env) {Q : Sketch α → Prop}
    (hQ : StepClosed env Q) (hv : ∀ s, Q s → Q { s with view := none }) {s : Sketch α} (hs : SInv s)
    (hn : s.n < 2 ^ 47) (hq : Q s) :
    Rand.All (fun s' => SInv s' ∧ Q s' ∧ s'.n = s.n ∧ s'.k = s.k ∧ s'.hra = s.hra ∧
        s'.minItem = s.minItem ∧ s'.maxItem = s.maxItem ∧ s'.view = none ∧
        ∀ c ∈ s'.compactors, c.count < nomCapacity c) (compress env s) := by
  unfold compress
  refine compressFrom_all he hQ hv _ 0 s hs hn hq (Nat.zero_le _) ?_ (by simp)
  rw [hs.ret]
  simp

theorem sum_lt_cap {cs : List (Compactor α)} (hne : cs ≠ []) (h : ∀ c ∈ cs, c.count < nomCapacity c) :
    sumCount cs < sumCap cs := by
  induction cs with
  | nil => exact absurd rfl hne
  | cons c cs ih =>
    rw [sumCount_cons, sumCap_cons]
    have h1 := h c (by simp)
    rcases List.eq_nil_or_concat cs with rfl | ⟨_, _, h2⟩
    · simp [sumCount, sumCap]; omega
    · have := ih (by rw [h2]; simp) (fun x hx => h x (by simp [hx]))
      omega

end Verif.Req
