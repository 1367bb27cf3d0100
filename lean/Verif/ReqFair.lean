import Verif.ReqRun
import Verif.RandMirror

/-!
# The compactions of a REQ sketch are fair

The coin of a level serves for two compactions: it is flipped for the first and reversed for the
second.  A run of updates is paired with the run in which one coin is the other way: the one of
level `h` for its compactions number `2j` and `2j + 1`.  Below level `h` nothing changes, at level
`h` the other halves are promoted by these two compactions, above it the items may be anything, but
the sizes and with them the schedule of compactions are the same.
-/

namespace Verif.Req

open Verif Verif.View

variable {α : Type} [LinearOrder α]

/-- Which coin is reversed: level and number. -/
structure Pick where
  h : Nat
  j : Nat

/-- The compaction of level `i` in state `st` uses the picked coin. -/
def Pick.hits (q : Pick) (i st : Nat) : Prop := i = q.h ∧ st / 2 = q.j

instance (q : Pick) (i st : Nat) : Decidable (q.hits i st) := inferInstanceAs (Decidable (_ ∧ _))

/-- Compactors of paired runs at level `i`. -/
structure LRel (q : Pick) (i : Nat) (c d : Compactor α) : Prop where
  count : d.count = c.count
  secs : secsOf d = secsOf c
  state : d.state = c.state
  items : i ≤ q.h → (act d).Perm (act c)
  coin : i ≤ q.h → c.state % 2 = 1 → d.coin = if q.hits i c.state then !c.coin else c.coin

theorem LRel.cap {q : Pick} {i : Nat} {c d : Compactor α} (hr : LRel q i c d) :
    nomCapacity d = nomCapacity c := by
  have := hr.secs
  unfold secsOf at this
  simp only [Prod.mk.injEq] at this
  unfold nomCapacity
  rw [this.1, this.2.2]

theorem LRel.range {q : Pick} {i : Nat} {c d : Compactor α} (hr : LRel q i c d) (hra : d.hra = c.hra) :
    chooseRange d = chooseRange c := by
  have h1 := hr.secs
  unfold secsOf at h1
  simp only [Prod.mk.injEq] at h1
  unfold chooseRange computeCompactionRange
  rw [hr.cap, hr.state, hr.count, h1.1, h1.2.2, hra]

/-- All levels. -/
def LvRel (q : Pick) : Nat → List (Compactor α) → List (Compactor α) → Prop
  | _, [], [] => True
  | i, c :: cs, d :: ds => LRel q i c d ∧ LvRel q (i + 1) cs ds
  | _, _, _ => False

theorem LvRel.length {q : Pick} {i : Nat} {cs ds : List (Compactor α)} (hr : LvRel q i cs ds) :
    ds.length = cs.length := by
  induction cs generalizing ds i with
  | nil =>
    cases ds with
    | nil => rfl
    | cons d ds => exact absurd hr (by simp [LvRel])
  | cons c cs ih =>
    cases ds with
    | nil => exact absurd hr (by simp [LvRel])
    | cons d ds => simp only [List.length_cons, ih hr.2]

theorem LvRel.append {q : Pick} {i : Nat} {A A' B B' : List (Compactor α)} (hl : A'.length = A.length) :
    LvRel q i (A ++ B) (A' ++ B') ↔ LvRel q i A A' ∧ LvRel q (i + A.length) B B' := by
  induction A generalizing A' i with
  | nil =>
    have : A' = [] := List.length_eq_zero_iff.1 hl
    subst this
    simp [LvRel]
  | cons a A ih =>
    cases A' with
    | nil => simp at hl
    | cons a' A' =>
      have hl' : A'.length = A.length := by simpa using hl
      simp only [List.cons_append, LvRel, ih hl', List.length_cons, and_assoc,
        show i + (A.length + 1) = i + 1 + A.length by omega]

theorem LvRel.get {q : Pick} {i j : Nat} {cs ds : List (Compactor α)} (hr : LvRel q i cs ds) {c d : Compactor α}
    (hc : cs[j]? = some c) (hd : ds[j]? = some d) : LRel q (i + j) c d := by
  induction cs generalizing ds i j with
  | nil => simp at hc
  | cons a cs ih =>
    cases ds with
    | nil => simp at hd
    | cons b ds =>
      cases j with
      | zero =>
        simp only [List.getElem?_cons_zero, Option.some.injEq] at hc hd
        rw [← hc, ← hd]; exact hr.1
      | succ j =>
        rw [List.getElem?_cons_succ] at hc hd
        have := ih hr.2 hc hd
        rwa [show i + (j + 1) = i + 1 + j by omega]

theorem LvRel.sums {q : Pick} {i : Nat} {cs ds : List (Compactor α)} (hr : LvRel q i cs ds) :
    sumCount ds = sumCount cs ∧ sumCap ds = sumCap cs := by
  induction cs generalizing ds i with
  | nil =>
    cases ds with
    | nil => exact ⟨rfl, rfl⟩
    | cons d ds => exact absurd hr (by simp [LvRel])
  | cons c cs ih =>
    cases ds with
    | nil => exact absurd hr (by simp [LvRel])
    | cons d ds =>
      obtain ⟨h1, h2⟩ := ih hr.2
      simp only [sumCount_cons, sumCap_cons, h1, h2, hr.1.count, hr.1.cap, and_self]

/-- What the compactions with one coin added to the weight of the items with property `p`. -/
def errAt (p : α → Bool) (q : Pick) (log : List (Event α)) : Int :=
  ((log.filter fun e => q.hits e.level e.before.state).map (Event.err p)).sum

/-- Sketches of paired runs. -/
structure Rel (p : α → Bool) (q : Pick) (s t : Sketch α) : Prop where
  n : t.n = s.n
  k : t.k = s.k
  hra : t.hra = s.hra
  lv : LvRel q 0 s.compactors t.compactors
  err : errAt p q t.log = -errAt p q s.log
  same : ∀ r : Pick, r.h ≤ q.h → r ≠ q → errAt p r t.log = errAt p r s.log
  ev : ∀ e ∈ s.log, e.level < s.compactors.length ∧ e.before.state < 2 ^ 47

/-- The coin of a level. -/
theorem flip_mirror {q : Pick} {i : Nat} {c d : Compactor α} (hr : LRel q i c d) :
    Rand.Mirror (fun b b' => i ≤ q.h → b' = if q.hits i c.state then !b else b)
      (flipCoin c) (flipCoin d) := by
  unfold flipCoin
  rw [hr.state]
  by_cases hs : c.state % 2 = 1
  · rw [if_pos hs, if_pos hs]
    intro hi
    rw [hr.coin hi hs]
    split <;> rfl
  · rw [if_neg hs, if_neg hs]
    unfold Rand.draw
    rw [if_neg (by omega)]
    simp only [Rand.intn_bind, Rand.ret_bind, Rand.Mirror]
    refine ⟨trivial, trivial, ?_⟩
    by_cases hi : q.hits i c.state
    · right
      simp only [if_pos hi]
      exact ⟨fun _ => rfl, fun _ => rfl⟩
    · left
      simp only [if_neg hi]
      exact ⟨fun _ => trivial, fun _ => trivial⟩

theorem new_rel (env : Env α) (q : Pick) (i lg : Nat) (hra : Bool) (k : Nat) :
    LRel q i (newCompactor env lg hra k) (newCompactor env lg hra k) :=
  ⟨rfl, rfl, rfl, fun _ => List.Perm.refl _, fun _ hs => by simp [newCompactor] at hs⟩

/-- The levels before a compaction, with the level above that may be new. -/
theorem before_rel {env : Env α} {p : α → Bool} {q : Pick} {s t : Sketch α} (hr : Rel p q s t)
    {A C A' C' : List (Compactor α)} {c nx d ny : Compactor α} {X Kp Y Kq : List α}
    (hb : Before env s A c nx C X Kp) (hb' : Before env t A' d ny C' Y Kq)
    (hA : A'.length = A.length) :
    LvRel q 0 (A ++ c :: nx :: C) (A' ++ d :: ny :: C') := by
  have hlv := hr.lv
  have hlen := hlv.length
  rcases hb.cs with h1 | ⟨h1, rfl, rfl⟩ <;> rcases hb'.cs with h2 | ⟨h2, rfl, rfl⟩
  · rwa [h1, h2] at hlv
  · rw [h1, h2] at hlen
    simp at hlen
    omega
  · rw [h1, h2] at hlen
    simp at hlen
    omega
  · rw [h1, h2, LvRel.append hA] at hlv
    rw [LvRel.append hA]
    refine ⟨hlv.1, hlv.2.1, ?_, trivial⟩
    rw [hr.hra, hr.k, hA]
    exact new_rel env _ _ _ _ _

theorem countP_halves (p : α → Bool) {X : List α} (h : X.length % 2 = 0) (b : Bool) :
    (half b X).countP p + (half (!b) X).countP p = X.countP p := by
  have := Kll.countP_evens_odds p h
  cases b <;> simp only [half, Bool.not_true, Bool.not_false, if_true, Bool.false_eq_true, if_false] <;>
    omega

/-- One compaction in both runs. -/
theorem step_rel {env : Env α} {p : α → Bool} {q : Pick} {s t s' t' : Sketch α} (hs : SInv s)
    (ht : SInv t) (hn : s.n < 2 ^ 47) (hr : Rel p q s t)
    {A C A' C' : List (Compactor α)} {c nx d ny c' nx' d' ny' : Compactor α} {X Kp Y Kq : List α}
    {b b' : Bool}
    (hb : Before env s A c nx C X Kp) (hb' : Before env t A' d ny C' Y Kq)
    (hA : A'.length = A.length)
    (hL : LStep env s s' A c nx C X Kp b c' nx') (hL' : LStep env t t' A' d ny C' Y Kq b' d' ny')
    (hcoin : A.length ≤ q.h → b' = if q.hits A.length c.state then !b else b) : Rel p q s' t' := by
  have hbr := before_rel hr hb hb' hA
  rw [LvRel.append hA] at hbr
  obtain ⟨hAA, hcd, hnn, hCC⟩ := hbr
  rw [Nat.zero_add] at hcd hnn hCC
  obtain ⟨B, hB⟩ : ∃ B, s.compactors = A ++ c :: B := by
    rcases hb.cs with h | ⟨h, -, -⟩
    · exact ⟨_, h⟩
    · exact ⟨_, h⟩
  obtain ⟨B', hB'⟩ : ∃ B, t.compactors = A' ++ d :: B := by
    rcases hb'.cs with h | ⟨h, -, -⟩
    · exact ⟨_, h⟩
    · exact ⟨_, h⟩
  have hcok : LevelOk s.k s.hra s.log A.length c := hs.lv _ _ (by rw [hB]; simp)
  have hdok : LevelOk t.k t.hra t.log A'.length d := ht.lv _ _ (by rw [hB']; simp)
  have hXY : Y.length = X.length := by
    obtain ⟨r, h1, h2⟩ := hb.rng
    obtain ⟨r', h1', h2'⟩ := hb'.rng
    rw [hcd.range (by rw [hcok.hra, hdok.hra, hr.hra]), h1] at h1'
    cases h1'
    omega
  have hccnt : c.count = X.length + Kp.length := by
    have := congrArg List.length hb.split
    rw [List.length_insertionSort, hcok.wf.act_length] at this
    split at this <;> rw [List.length_append] at this <;> omega
  have hdcnt : d.count = Y.length + Kq.length := by
    have := congrArg List.length hb'.split
    rw [List.length_insertionSort, hdok.wf.act_length] at this
    split at this <;> rw [List.length_append] at this <;> omega
  have hKK : Kq.length = Kp.length := by
    have := hcd.count
    omega
  have hsame : A.length ≤ q.h → Y = X ∧ Kq = Kp := by
    intro hi
    have h1 := hcd.items hi
    have h2 : srt (act d) = srt (act c) := by
      apply List.Perm.eq_of_pairwise' (r := (· ≤ ·)) (srt_sorted _) (srt_sorted _)
      exact (srt_perm _).trans (h1.trans (srt_perm _).symm)
    rw [hb.split, hb'.split, hr.hra] at h2
    split at h2
    · exact List.append_inj h2 hXY
    · exact (List.append_inj h2 hKK).symm
  have hcc := hL.comp
  have hdd := hL'.comp
  have herr : Event.err p ⟨A.length, c, c'⟩ =
        2 ^ A.length * (2 * ((half b X).countP p : Int) - (X.countP p : Int)) ∧
      Event.err p ⟨A'.length, d, d'⟩ =
        2 ^ A'.length * (2 * ((half b' Y).countP p : Int) - (Y.countP p : Int)) := by
    unfold Event.err
    rw [event_items hs hb hL, event_items ht hb' hL']
    simp only
    rw [hcc.coin, hdd.coin]
    exact ⟨rfl, rfl⟩
  refine ⟨hL'.n.trans (hr.n.trans hL.n.symm), hL'.k.trans (hr.k.trans hL.k.symm),
    hL'.hra.trans (hr.hra.trans hL.hra.symm), ?_, ?_, ?_, ?_⟩
  · rw [hL.cs, hL'.cs, LvRel.append hA, Nat.zero_add]
    refine ⟨hAA, ⟨?_, ?_, ?_, ?_, ?_⟩, ⟨?_, ?_, ?_, ?_, ?_⟩, hCC⟩
    · rw [← hcc.wf.act_length, ← hdd.wf.act_length, hcc.act, hdd.act, hKK]
    · rw [hcc.secs, hdd.secs, hcd.secs, hcd.state]
    · rw [hcc.state, hdd.state, hcd.state]
    · intro hi
      rw [hcc.act, hdd.act, (hsame hi).2]
    · intro hi hst
      rw [hcc.state] at hst
      rw [hcc.coin, hdd.coin, hcoin hi, hcc.state]
      have : q.hits A.length (c.state + 1) ↔ q.hits A.length c.state := by
        unfold Pick.hits
        rw [show (c.state + 1) / 2 = c.state / 2 by omega]
      simp only [this]
    · rw [← hcc.wfn.act_length, ← hdd.wfn.act_length, hcc.actn, hdd.actn, List.length_insertionSort,
        List.length_insertionSort, List.length_append, List.length_append, half_length, half_length,
        hXY, hb.nxok.wf.act_length, hb'.nxok.wf.act_length, hnn.count]
    · rw [hcc.secsn, hdd.secsn, hnn.secs]
    · rw [hcc.staten, hdd.staten, hnn.state]
    · intro hi
      have hno : ¬ q.hits A.length c.state := fun h => by
        have := h.1
        omega
      rw [hcc.actn, hdd.actn, (hsame (by omega)).1, hcoin (by omega), if_neg hno]
      exact (srt_perm _).trans (((hnn.items hi).append_right _).trans (srt_perm _).symm)
    · intro hi hst
      rw [hcc.staten] at hst ⊢
      rw [hcc.coinn, hdd.coinn, hnn.coin hi hst]
  · rw [hL.log, hL'.log]
    unfold errAt
    rw [List.filter_cons, List.filter_cons]
    simp only [hcd.state, hA]
    have h5 := hr.err
    unfold errAt at h5
    by_cases hi : q.hits A.length c.state
    · rw [if_pos (by simpa using hi), if_pos (by simpa using hi), List.map_cons, List.map_cons,
        List.sum_cons, List.sum_cons]
      have h3 : Event.err p ⟨A.length, d, d'⟩ = -Event.err p ⟨A.length, c, c'⟩ := by
        rw [herr.1, ← hA, herr.2, hcoin (le_of_eq hi.1), if_pos hi, (hsame (le_of_eq hi.1)).1, hA]
        have := countP_halves p hb.even b
        have h4 : ((half (!b) X).countP p : Int) = X.countP p - (half b X).countP p := by omega
        rw [h4]
        ring
      rw [h3, h5]
      ring
    · rw [if_neg (by simpa using hi), if_neg (by simpa using hi)]
      exact h5
  · intro r hrh hrq
    rw [hL.log, hL'.log]
    unfold errAt
    rw [List.filter_cons, List.filter_cons]
    simp only [hcd.state, hA]
    have h5 := hr.same r hrh hrq
    unfold errAt at h5
    by_cases hi : r.hits A.length c.state
    · rw [if_pos (by simpa using hi), if_pos (by simpa using hi), List.map_cons, List.map_cons,
        List.sum_cons, List.sum_cons]
      have hle : A.length ≤ q.h := by rw [hi.1]; exact hrh
      have hno : ¬ q.hits A.length c.state := by
        intro h
        apply hrq
        cases r; cases q
        simp only [Pick.hits] at h hi
        rw [Pick.mk.injEq]
        exact ⟨hi.1.symm.trans h.1, hi.2.symm.trans h.2⟩
      have h3 : Event.err p ⟨A.length, d, d'⟩ = Event.err p ⟨A.length, c, c'⟩ := by
        rw [herr.1, ← hA, herr.2, hcoin hle, if_neg hno, (hsame hle).1, hA]
      rw [h3, h5]
    · rw [if_neg (by simpa using hi), if_neg (by simpa using hi)]
      exact h5
  · intro e he
    rw [hL.log] at he
    have hlen : A.length + 1 < s'.compactors.length := by rw [hL.cs]; simp
    have hmono : s.compactors.length ≤ s'.compactors.length := by
      rw [hL.cs]
      rcases hb.cs with h1 | ⟨h1, -, -⟩ <;> rw [h1] <;> simp
    rcases List.mem_cons.1 he with rfl | he
    · refine ⟨by simp only; omega, ?_⟩
      have h1 := hcok.state
      have h2 := nEvents_le s.log A.length
      have h3 := hs.spent
      simp only
      omega
    · exact ⟨lt_of_lt_of_le (hr.ev e he).1 hmono, (hr.ev e he).2⟩

theorem compressFrom_mirror {env : Env α} (he : EnvOk env) {p : α → Bool} {q : Pick} (fuel : Nat) :
    ∀ (i : Nat) (s t : Sketch α), SInv s → SInv t → s.n < 2 ^ 47 → Rel p q s t →
      Rand.All (fun _ => True) (compressFrom env fuel i s) →
      Rand.All (fun _ => True) (compressFrom env fuel i t) →
      Rand.Mirror (Rel p q) (compressFrom env fuel i s) (compressFrom env fuel i t) := by
  induction fuel with
  | zero => intro i s t _ _ _ _ h1; exact h1.elim
  | succ fuel ih =>
    intro i s t hs ht hn hr h1 h2
    have hlen := hr.lv.length
    unfold compressFrom at h1 h2 ⊢
    by_cases hi : i < s.compactors.length
    · have hi' : i < t.compactors.length := by omega
      rw [List.getElem?_eq_getElem hi] at h1 ⊢
      rw [List.getElem?_eq_getElem hi'] at h2 ⊢
      simp only at h1 h2 ⊢
      have hl := hr.lv.get (List.getElem?_eq_getElem hi) (List.getElem?_eq_getElem hi')
      rw [Nat.zero_add] at hl
      have hcs : s.compactors = s.compactors.take i ++ s.compactors[i] :: s.compactors.drop (i + 1) := by
        rw [List.getElem_cons_drop, List.take_append_drop]
      have hcs' : t.compactors = t.compactors.take i ++ t.compactors[i] :: t.compactors.drop (i + 1) := by
        rw [List.getElem_cons_drop, List.take_append_drop]
      have hAl : (s.compactors.take i).length = i := by rw [List.length_take]; omega
      have hAl' : (t.compactors.take i).length = i := by rw [List.length_take]; omega
      rw [hl.cap, hl.count] at h2
      have hif : nomCapacity t.compactors[i] ≤ t.compactors[i].count ↔
          nomCapacity s.compactors[i] ≤ s.compactors[i].count := by
        rw [hl.cap, hl.count]
      by_cases hfull : nomCapacity s.compactors[i] ≤ s.compactors[i].count
      · rw [if_pos hfull] at h1 h2
        rw [if_pos hfull, if_pos (hif.2 hfull)]
        obtain ⟨nx, C, X, Kp, hb, S', hS, hst⟩ := levelStep he hs hn hcs hfull
        obtain ⟨ny, C', Y, Kq, hb', T', hT, htt⟩ := levelStep he ht (by rw [hr.n]; exact hn) hcs'
          (by rw [hl.cap, hl.count]; exact hfull)
        rw [hAl] at hS
        rw [hAl'] at hT
        rw [hS, Rand.bind_assoc] at h1 ⊢
        rw [hT, Rand.bind_assoc] at h2 ⊢
        refine (flip_mirror hl).bind h1.of_bind h2.of_bind ?_
        intro b b' hbb a1 a2
        rw [Rand.ret_bind] at a1 a2 ⊢
        obtain ⟨c', nx', hL⟩ := hst b
        obtain ⟨d', ny', hL'⟩ := htt b'
        exact ih (i + 1) (S' b) (T' b') (hL.inv hs hb) (hL'.inv ht hb') (by rw [hL.n]; exact hn)
          (step_rel hs ht hn hr hb hb' (by rw [hAl, hAl']) hL hL' (by rw [hAl]; exact hbb)) a1 a2
      · rw [if_neg hfull] at h1 h2
        rw [if_neg hfull, if_neg fun h => hfull (hif.1 h)]
        exact ih (i + 1) s t hs ht hn hr h1 h2
    · rw [List.getElem?_eq_none (by omega), List.getElem?_eq_none (by omega)]
      exact ⟨hr.n, hr.k, hr.hra, hr.lv, hr.err, hr.same, hr.ev⟩

theorem Rel.same_sizes {p : α → Bool} {q : Pick} {s t : Sketch α} (hr : Rel p q s t) (hs : SInv s)
    (ht : SInv t) : t.numRetained = s.numRetained ∧ t.maxNomSize = s.maxNomSize := by
  obtain ⟨h1, h2⟩ := hr.lv.sums
  rw [hs.ret, ht.ret, hs.nom, ht.nom, h1, h2]
  exact ⟨rfl, rfl⟩

theorem compress_mirror {env : Env α} (he : EnvOk env) {p : α → Bool} {q : Pick} {s t : Sketch α}
    (hs : SInv s) (ht : SInv t) (hn : s.n < 2 ^ 47) (hr : Rel p q s t) :
    Rand.Mirror (Rel p q) (compress env s) (compress env t) := by
  have hall : ∀ s : Sketch α, SInv s → s.n < 2 ^ 47 → Rand.All (fun _ => True) (compress env s) :=
    fun s hs hn => (compress_all (Q := fun _ => True) he (fun _ _ _ _ _ _ _ _ _ _ _ _ _ _ _ _ => trivial)
      (fun _ _ => trivial) hs hn trivial).mono fun _ _ => trivial
  have h1 := hall s hs hn
  have h2 := hall t ht (by rw [hr.n]; exact hn)
  unfold compress at *
  rw [hr.lv.length, (hr.same_sizes hs ht).1] at h2 ⊢
  exact compressFrom_mirror he _ 0 s t hs ht hn hr h1 h2

/-- Replacing level 0 in both. -/
theorem LvRel.head {q : Pick} {c d c' d' : Compactor α} {B B' : List (Compactor α)}
    (hr : LvRel q 0 (c :: B) (d :: B')) (h0 : LRel q 0 c d → LRel q 0 c' d') :
    LvRel q 0 (c' :: B) (d' :: B') := ⟨h0 hr.1, hr.2⟩

theorem sortZero_rel {K : Nat} {p : α → Bool} {q : Pick} {s t : Sketch α} {S : List α} (hs : Core K s S)
    (ht : Core K t S) (hr : Rel p q s t) :
    ∃ s' t', sortZero s = .ok s' ∧ sortZero t = .ok t' ∧ Core K s' S ∧ Core K t' S ∧ Rel p q s' t' := by
  obtain ⟨c, B, I, hc, h1, h2, h3⟩ := sortZero_ok hs
  obtain ⟨d, B', I', hd, h1', h2', h3'⟩ := sortZero_ok ht
  refine ⟨_, _, h1, h1', h3, h3', hr.n, hr.k, hr.hra, ?_, hr.err, hr.same, ?_⟩
  · have hlv := hr.lv
    rw [hc, hd] at hlv
    refine hlv.head fun hl => ⟨hl.count, hl.secs, hl.state, fun hi => ?_, hl.coin⟩
    rw [h2, h2']
    exact (srt_perm _).trans ((hl.items hi).trans (srt_perm _).symm)
  · have := hr.ev
    rw [hc] at this
    exact this

theorem updateItems_rel (env : Env α) {K : Nat} {p : α → Bool} {q : Pick} {s t : Sketch α} {S : List α}
    (hs : Core K s S) (ht : Core K t S) (hr : Rel p q s t) (x : α) :
    ∃ s' t', updateItems env s x = .ok s' ∧ updateItems env t x = .ok t' ∧ Core K s' (S ++ [x]) ∧
      Core K t' (S ++ [x]) ∧ Rel p q s' t' := by
  obtain ⟨c, B, c', hc, g1, g2, g3, g4, g5, h1, h2⟩ := updateItems_ok env hs x
  obtain ⟨d, B', d', hd, f1, f2, f3, f4, f5, h1', h2'⟩ := updateItems_ok env ht x
  have hx : ∀ s : Sketch α, (updateExtremes s x).k = s.k ∧ (updateExtremes s x).hra = s.hra ∧
      (updateExtremes s x).log = s.log := by
    intro s; unfold updateExtremes; split <;> exact ⟨rfl, rfl, rfl⟩
  refine ⟨_, _, h1, h1', h2, h2', ?_, ?_, ?_, ?_, ?_, ?_, ?_⟩
  · show t.n + 1 = s.n + 1
    rw [hr.n]
  · show (updateExtremes t x).k = (updateExtremes s x).k
    rw [(hx t).1, (hx s).1, hr.k]
  · show (updateExtremes t x).hra = (updateExtremes s x).hra
    rw [(hx t).2.1, (hx s).2.1, hr.hra]
  · have hlv := hr.lv
    rw [hc, hd] at hlv
    refine hlv.head fun hl => ⟨by rw [g2, f2, hl.count], by rw [g5, f5, hl.secs],
      by rw [g3, f3, hl.state], fun hi => ?_, fun hi hst => ?_⟩
    · exact f1.trans (((hl.items hi).cons x).trans g1.symm)
    · rw [g3] at hst ⊢
      rw [g4, f4, hl.coin hi hst]
  · show errAt p q (updateExtremes t x).log = -errAt p q (updateExtremes s x).log
    rw [(hx t).2.2, (hx s).2.2, hr.err]
  · intro r h1 h2
    show errAt p r (updateExtremes t x).log = errAt p r (updateExtremes s x).log
    rw [(hx t).2.2, (hx s).2.2, hr.same r h1 h2]
  · intro e he
    have he : e ∈ (updateExtremes s x).log := he
    rw [(hx s).2.2] at he
    have := hr.ev e he
    rw [hc] at this
    exact this

theorem Rel.noview {p : α → Bool} {q : Pick} {s t : Sketch α} (hr : Rel p q s t)
    (v w : Option (NumericView α)) : Rel p q { s with view := v } { t with view := w } :=
  ⟨hr.n, hr.k, hr.hra, hr.lv, hr.err, hr.same, hr.ev⟩

theorem update_mirror {env : Env α} (he : EnvOk env) {K : Nat} {p : α → Bool} {q : Pick} {s t : Sketch α}
    {S : List α} (hs : Core K s S) (ht : Core K t S) (hn : S.length + 1 < 2 ^ 47) (hr : Rel p q s t)
    (x : α) : Rand.Mirror (Rel p q) (update env s (some x)) (update env t (some x)) := by
  obtain ⟨s', t', h1, h2, h3, h4, h5⟩ := updateItems_rel env hs ht hr x
  simp only [update]
  rw [h1, h2, Rand.ofOutcome_ok, Rand.ofOutcome_ok, Rand.ret_bind, Rand.ret_bind]
  have hif : t'.maxNomSize ≤ t'.numRetained ↔ s'.maxNomSize ≤ s'.numRetained := by
    rw [(h5.same_sizes h3.inv h4.inv).1, (h5.same_sizes h3.inv h4.inv).2]
  by_cases hfull : s'.maxNomSize ≤ s'.numRetained
  · rw [if_pos hfull, if_pos (hif.2 hfull)]
    obtain ⟨s'', t'', g1, g2, g3, g4, g5⟩ := sortZero_rel h3 h4 h5
    rw [g1, g2, Rand.ofOutcome_ok, Rand.ofOutcome_ok, Rand.ret_bind, Rand.ret_bind]
    have hl : s''.n < 2 ^ 47 := by
      rw [g3.len, List.length_append, List.length_singleton]; exact hn
    have hall : ∀ s : Sketch α, SInv s → s.n < 2 ^ 47 → Rand.All (fun _ => True) (compress env s) :=
      fun s hs hn => (compress_all (Q := fun _ => True) he
        (fun _ _ _ _ _ _ _ _ _ _ _ _ _ _ _ _ => trivial)
        (fun _ _ => trivial) hs hn trivial).mono fun _ _ => trivial
    refine (compress_mirror he g3.inv g4.inv hl g5).bind (hall _ g3.inv hl)
      (hall _ g4.inv (by rw [g5.n]; exact hl)) fun a b hab _ _ => ?_
    exact hab.noview none none
  · rw [if_neg hfull, if_neg fun h => hfull (hif.1 h)]
    exact h5.noview none none

/-- Compactors that differ in the order of their items only. -/
structure Alike (c d : Compactor α) : Prop where
  count : d.count = c.count
  secs : secsOf d = secsOf c
  state : d.state = c.state
  coin : d.coin = c.coin
  items : (act d).Perm (act c)

theorem LvRel.alike {q : Pick} {i : Nat} {cs ds cs' ds' : List (Compactor α)} (h : LvRel q i cs ds)
    (hc : List.Forall₂ Alike cs cs') (hd : List.Forall₂ Alike ds ds') : LvRel q i cs' ds' := by
  induction hc generalizing i ds ds' with
  | nil =>
    cases ds with
    | nil => cases hd; exact trivial
    | cons d ds => exact h.elim
  | cons a as ih =>
    cases ds with
    | nil => exact h.elim
    | cons d ds =>
      cases hd with
      | cons b bs =>
        have hl := h.1
        refine ⟨⟨by rw [b.count, a.count, hl.count], by rw [b.secs, a.secs, hl.secs],
          by rw [b.state, a.state, hl.state], fun hi => b.items.trans ((hl.items hi).trans a.items.symm),
          fun hi hst => ?_⟩, ih h.2 bs⟩
        rw [a.state] at hst
        rw [b.coin, a.state, a.coin, hl.coin hi hst]

theorem query_alike {env : Env α} {K : Nat} {s s' : Sketch α} {h : Hist α} (hg : Good env K s h)
    (h1 : query env s = .ok s') : s'.n = s.n ∧ s'.k = s.k ∧ s'.hra = s.hra ∧ s'.log = s.log ∧
      List.Forall₂ Alike s.compactors s'.compactors := by
  have hrefl : List.Forall₂ Alike s.compactors s.compactors :=
    List.forall₂_same.2 fun _ _ => ⟨rfl, rfl, rfl, rfl, List.Perm.refl _⟩
  unfold query at h1
  by_cases hn : s.n = 0
  · rw [if_pos hn, Outcome.ok.injEq] at h1
    subst h1
    exact ⟨rfl, rfl, rfl, rfl, hrefl⟩
  · rw [if_neg hn] at h1
    cases hv : s.view with
    | some v =>
      have e : refreshSortedView env s = .ok (v, s) := by
        unfold refreshSortedView
        rw [hv]
      rw [e, Outcome.ok_bind, Outcome.ok.injEq] at h1
      subst h1
      exact ⟨rfl, rfl, rfl, rfl, hrefl⟩
    | none =>
      have hS : h.stream ≠ [] := by
        intro hS
        apply hn
        rw [hg.core.len, hS]
        rfl
      obtain ⟨hf, mn, mx, a1, a2, a3, a4⟩ := hg.ext.used hS
      obtain ⟨v, D, e, h2, h3⟩ := refresh_ok env hg.core hS a1 a2 (hg.between a3.2 a4.2)
        (hg.single a3 a4) hv
      rw [e, Outcome.ok_bind, Outcome.ok.injEq] at h1
      subst h1
      refine ⟨rfl, rfl, rfl, rfl, h2.imp fun c c' ht => ⟨ht.count, ht.secs, ht.state, ht.coin, ?_⟩⟩
      rw [ht.act]
      exact srt_perm _

theorem query_rel {env : Env α} {K : Nat} {p : α → Bool} {q : Pick} {s t s' t' : Sketch α} {h : Hist α}
    (hs : Good env K s h) (ht : Good env K t h) (hr : Rel p q s t) (h1 : query env s = .ok s')
    (h2 : query env t = .ok t') : Rel p q s' t' := by
  obtain ⟨a1, a2, a3, a4, a5⟩ := query_alike hs h1
  obtain ⟨b1, b2, b3, b4, b5⟩ := query_alike ht h2
  refine ⟨by rw [b1, a1, hr.n], by rw [b2, a2, hr.k], by rw [b3, a3, hr.hra], hr.lv.alike a5 b5,
    by rw [b4, a4, hr.err], fun r h3 h4 => by rw [b4, a4, hr.same r h3 h4], ?_⟩
  rw [a4, ← a5.length_eq]
  exact hr.ev

theorem fresh_rel (env : Env α) (p : α → Bool) (q : Pick) (s : Sketch α) (hc : s.compactors = [])
    (hl : s.log = []) : Rel p q (grow env s) (grow env s) := by
  refine ⟨rfl, rfl, rfl, ?_, ?_, fun _ _ _ => rfl, ?_⟩
  · show LvRel q 0 (s.compactors ++ [_]) (s.compactors ++ [_])
    rw [hc]
    exact ⟨new_rel env q _ _ _ _, trivial⟩
  · show errAt p q s.log = -errAt p q s.log
    rw [hl]
    rfl
  · intro e he
    have he : e ∈ s.log := he
    rw [hl] at he
    exact absurd he (by simp)

/-! ## Programs without merges -/

/-- No merge is called. -/
def Op.simple : Op α → Prop
  | .merge _ _ => False
  | _ => True

/-- Stores of paired runs. -/
def StRel (p : α → Bool) (q : Pick) (st su : List (Sketch α)) : Prop := List.Forall₂ (Rel p q) st su

theorem StRel.set {p : α → Bool} {q : Pick} {st su : List (Sketch α)} (h : StRel p q st su) (i : Nat)
    {s t : Sketch α} (hr : Rel p q s t) : StRel p q (st.set i s) (su.set i t) := by
  unfold StRel at *
  induction h generalizing i with
  | nil => exact List.Forall₂.nil
  | cons a as ih =>
    cases i with
    | zero => exact List.Forall₂.cons hr as
    | succ i => exact List.Forall₂.cons a (ih i)

theorem StRel.get {p : α → Bool} {q : Pick} {st su : List (Sketch α)} (h : StRel p q st su) {i : Nat}
    {s t : Sketch α} (hs : st[i]? = some s) (ht : su[i]? = some t) : Rel p q s t := by
  unfold StRel at *
  induction h generalizing i with
  | nil => simp at hs
  | cons a as ih =>
    cases i with
    | zero =>
      rw [List.getElem?_cons_zero, Option.some.injEq] at hs ht
      subst hs ht
      exact a
    | succ i => exact ih hs ht

theorem step_mirror {env : Env α} (he : EnvOk env) {K : Nat} {p : α → Bool} {q : Pick}
    {st su : List (Sketch α)} {hs : List (Hist α)} (h : Store env K st hs) (h' : Store env K su hs)
    (hr : StRel p q st su) {op : Op α} (ha : Allowed hs op) (hk : Ks K op) (hop : op.simple) :
    Rand.Mirror (StRel p q) (step env st op) (step env su op) := by
  cases op with
  | new k hra =>
    obtain ⟨s, h1, h2⟩ := new_good (env := env) (K := K) hra ha.1 ha.2.1 ha.2.2 hk
    simp only [step]
    rw [h1, Rand.ofOutcome_ok, Rand.ret_bind, Rand.ret_bind]
    refine Rand.Mirror.ret (List.rel_append hr (List.Forall₂.cons ?_ List.Forall₂.nil))
    unfold newSketch at h1
    rw [if_neg (by have := ha.1; have := ha.2; omega), Outcome.ok.injEq] at h1
    rw [← h1]
    exact fresh_rel env p q _ rfl rfl
  | update i x =>
    obtain ⟨s, g1, h1, h2⟩ := h.get ha.1
    obtain ⟨t, g2, h3, h4⟩ := h'.get ha.1
    have hst := hr.get g1 g2
    simp only [step]
    rw [h1, h3, Rand.ofOutcome_ok, Rand.ofOutcome_ok, Rand.ret_bind, Rand.ret_bind]
    cases x with
    | none =>
      simp only [update, Rand.ret_bind]
      exact hr.set i hst
    | some x =>
      refine (update_mirror he h2.core h4.core ha.2 hst x).bind (update_good he h2 ha.2 x)
        (update_good he h4 ha.2 x) fun a b hab _ _ => ?_
      exact hr.set i hab
  | merge i j => exact hop.elim
  | reset i =>
    obtain ⟨s, g1, h1, h2⟩ := h.get ha
    obtain ⟨t, g2, h3, h4⟩ := h'.get ha
    have hst := hr.get g1 g2
    simp only [step]
    rw [h1, h3, Rand.ofOutcome_ok, Rand.ofOutcome_ok, Rand.ret_bind, Rand.ret_bind]
    refine Rand.Mirror.ret (hr.set i ?_)
    have e : reset env t = reset env s := by
      unfold reset
      rw [hst.k, hst.hra]
    rw [e]
    exact fresh_rel env p q _ rfl rfl
  | query i =>
    obtain ⟨s, g1, h1, h2⟩ := h.get ha
    obtain ⟨t, g2, h3, h4⟩ := h'.get ha
    have hst := hr.get g1 g2
    obtain ⟨s', a1, a2⟩ := query_good h2
    obtain ⟨t', b1, b2⟩ := query_good h4
    simp only [step]
    rw [h1, h3, Rand.ofOutcome_ok, Rand.ofOutcome_ok, Rand.ret_bind, Rand.ret_bind, a1, b1,
      Rand.ofOutcome_ok, Rand.ofOutcome_ok, Rand.ret_bind, Rand.ret_bind]
    exact Rand.Mirror.ret (hr.set i (query_rel h2 h4 hst a1 b1))

theorem run_mirror {env : Env α} (he : EnvOk env) (p : α → Bool) (q : Pick) (ops : List (Op α))
    (hv : Valid env.zero ops) (hops : ∀ op ∈ ops, op.simple) :
    Rand.Mirror (StRel p q) (run env ops) (run env ops) := by
  have hks : ∀ ops : List (Op α), ∀ op ∈ ops, Ks 0 op := by
    intro ops op _
    cases op <;> simp [Ks]
  induction ops using List.reverseRecOn with
  | nil => exact List.Forall₂.nil
  | append_singleton ops op ih =>
    have hv' : Valid env.zero ops := fun pre o post e => hv pre o (post ++ [op]) (by rw [e]; simp)
    have hg := run_good he ops hv' (hks ops)
    have ih' := ih hv' fun o ho => hops o (List.mem_append_left _ ho)
    have ha : Allowed (hist env.zero ops) op := hv ops op [] rfl
    unfold run hist at *
    rw [List.foldlM_append]
    refine ih'.bind hg hg ?_
    intro st su hr h1 h2
    simp only [List.foldlM_cons, List.foldlM_nil]
    refine (step_mirror he h1 h2 hr ha (hks [op] op (by simp)) (hops op (by simp))).bind
      (step_good he h1 ha (hks [op] op (by simp))) (step_good he h2 ha (hks [op] op (by simp))) ?_
    intro a b hab _ _
    exact hab

end Verif.Req
