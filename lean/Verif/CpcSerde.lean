import Verif.CpcProps
import Verif.CpcImport
import Mathlib.Data.Nat.Bitwise

/-!
# The CPC sketch: from the sketch to the bytes and back
-/

namespace Verif.Cpc

open Outcome

variable {s : Sk} {S : Finset Nat} {sh : Nat → Outcome (BitVec 16)} {fbits : ℚ → BitVec 64}
  {fval : BitVec 64 → ℚ}

theorem SkInv.off_eq (h : SkInv s S) : s.off = correctOffset s.lgK s.num := by
  have hp := Nat.two_pow_pos s.lgK
  rw [h.num]
  rcases h.mode with hm | ⟨t, hm⟩ | ⟨w, t, hm⟩
  · rw [hm.off, hm.set]
    unfold correctOffset
    rw [if_pos (by rw [Finset.card_empty]; omega)]
  · have hf := hm.few
    rw [hm.off]
    unfold correctOffset
    rw [if_pos (by omega)]
  · exact (correctOffset_eq hm.hi hm.lo).symm

theorem SkInv.fi_le (h : SkInv s S) : s.fiCol ≤ 56 := by
  rcases h.mode with hm | ⟨t, hm⟩ | ⟨w, t, hm⟩
  · rw [hm.fi]; omega
  · rw [hm.fi]; omega
  · exact le_trans hm.fiLe hm.off

/-- the compressed state before `compress` -/
def cs0 (x : BitVec 16) (s : Sk) : CS :=
  { newCS s.lgK x with
    fiCol := s.fiCol, merged := s.merged, num := s.num, kxp := s.kxp, hip := s.hip }

theorem csOf_eq {x : BitVec 16} (hsh : sh s.seed = .ok x) : csOf sh s = compress (cs0 x s) s := by
  unfold csOf
  rw [hsh]
  rfl

/-- a good compressed state of the sketch -/
theorem csOk {x : BitVec 16} {c : CS} (h : SkInv s S) (he : compress (cs0 x s) s = .ok c)
    (ho : Over (cs0 x s) c) (hp : Packed s S c) : CSOk c := by
  have hlc : c.lgK = s.lgK := by rw [ho]; rfl
  have hnc : c.num = s.num := by rw [ho]; rfl
  have hfc : c.fiCol = s.fiCol := by rw [ho]; rfl
  refine ⟨by rw [hlc]; exact h.lg4, by rw [hlc]; exact h.lg26, ?_, by rw [hnc]; exact h.num_lt,
    hp.svWords, hp.cwWords, hp.svLen, hp.cwLenEq, hp.svLt, hp.cwLt, hp.numCsvLt, hp.sv,
    by rw [hnc, hfc]; exact hp.win, ?_⟩
  · have := h.fi_le
    omega
  · intro hw
    by_contra hcon
    have h0 : s.num = 0 := by omega
    have hc : c = cs0 x s := by
      unfold compress at he
      rw [show flavor s.lgK s.num = .empty by unfold flavor; rw [if_pos h0]] at he
      cases he
      rfl
    rw [hc] at hw
    cases hw

/-- what the bytes say about the sketch -/
structure Told (x : BitVec 16) (s : Sk) (fbits : ℚ → BitVec 64) (fval : BitVec 64 → ℚ) (c : CS) :
    Prop where
  lgK : c.lgK = s.lgK
  num : c.num = s.num
  fiCol : c.fiCol = s.fiCol
  merged : c.merged = s.merged
  seedHash : c.seedHash = x
  kxp : c.kxp = if s.merged ∨ s.num = 0 then 2 ^ s.lgK else fval (fbits s.kxp)
  hip : c.hip = if s.merged ∨ s.num = 0 then 0 else fval (fbits s.hip)

/-- what reading the bytes gives -/
structure Restored (s d : Sk) (seed : Nat) (S : Finset Nat) (fbits : ℚ → BitVec 64)
    (fval : BitVec 64 → ℚ) : Prop where
  inv : SkInv d S
  seed : d.seed = seed
  lgK : d.lgK = s.lgK
  num : d.num = s.num
  merged : d.merged = s.merged
  fiCol : d.fiCol = s.fiCol
  off : d.off = s.off
  kxp : d.kxp = if s.merged ∨ s.num = 0 then 2 ^ s.lgK else fval (fbits s.kxp)
  hip : d.hip = if s.merged ∨ s.num = 0 then 0 else fval (fbits s.hip)

/-- the rest of `fromBytes` after the import -/
def restore (c : CS) (seed : Nat) : Outcome Sk := do
  let s ← newSk c.lgK seed
  uncompress c { s with num := c.num, off := correctOffset c.lgK c.num, fiCol := c.fiCol,
                        merged := c.merged, kxp := c.kxp, hip := c.hip, win := none, pt := none }

theorem restore_spec {x : BitVec 16} {c c' : CS} (h : SkInv s S) (hp : Packed s S c)
    (hc : c' = decoded fbits fval c) (ho : Over (cs0 x s) c) (seed : Nat) :
    Told x s fbits fval c' ∧ ∃ d, restore c' seed = .ok d ∧ Restored s d seed S fbits fval := by
  have ht : Told x s fbits fval c' := by
    rw [hc, ho]
    exact ⟨rfl, rfl, rfl, rfl, rfl, rfl, rfl⟩
  refine ⟨ht, ?_⟩
  obtain ⟨s0, e0, -, l0, -⟩ := SkInv.new (lgK := s.lgK) (seed := seed) h.lg4 h.lg26
  have hseed : s0.seed = seed := by
    unfold newSk at e0
    split at e0
    · cases e0
    · cases e0; rfl
  obtain ⟨d, ed, di, dh⟩ := hp.back c'
    { s0 with num := c'.num, off := correctOffset c'.lgK c'.num, fiCol := c'.fiCol, merged := c'.merged,
              kxp := c'.kxp, hip := c'.hip, win := none, pt := none }
    ⟨ht.lgK, ht.num, by rw [hc]; rfl, by rw [hc]; rfl, by rw [hc]; rfl, by rw [hc]; rfl,
      by rw [hc]; rfl, l0, ht.num, by rw [ht.lgK, ht.num], ht.fiCol, rfl, rfl⟩
  refine ⟨d, ?_, di, by rw [dh.seed]; exact hseed, by rw [dh.lgK]; exact l0,
    by rw [dh.num]; exact ht.num, by rw [dh.merged]; exact ht.merged,
    by rw [dh.fiCol]; exact ht.fiCol, ?_, by rw [dh.kxp]; exact ht.kxp, by rw [dh.hip]; exact ht.hip⟩
  · unfold restore
    rw [ht.lgK, e0, Outcome.ok_bind, ← ht.lgK]
    exact ed
  · rw [dh.off, h.off_eq, ← ht.lgK, ← ht.num]

/-- Writing gives bytes that read back, or an error. -/
theorem toBytes_spec {x : BitVec 16} (h : SkInv s S) (hsh : sh s.seed = .ok x) :
    (∃ m, toBytes sh fbits s = .ok m ∧ ∀ fval, ∃ c, importCS fval m = .ok c ∧
      Told x s fbits fval c ∧ ∀ seed, ∃ d, restore c seed = .ok d ∧ Restored s d seed S fbits fval) ∨
    (∃ t, s.pt = some t ∧ 17 < t.num ∧ ∃ e, toBytes sh fbits s = .err e) := by
  unfold toBytes
  rw [csOf_eq hsh]
  rcases compress_spec (c0 := cs0 x s) h ⟨rfl, rfl, rfl, rfl, rfl⟩ with ⟨c, e, ho, hp⟩ | ⟨t, e, ht, m, em⟩
  · left
    have hok := csOk h e ho hp
    obtain ⟨m, em, _⟩ := export_import (fbits := fbits) (fval := fun _ => 0) hok
    refine ⟨m, by rw [e]; exact em, fun fval => ?_⟩
    obtain ⟨m', em', im⟩ := export_import (fbits := fbits) (fval := fval) hok
    rw [em] at em'
    cases em'
    exact ⟨_, im, (restore_spec h hp rfl ho 0).1, fun seed => (restore_spec h hp rfl ho seed).2⟩
  · right
    exact ⟨t, e, ht, m, by rw [em]; rfl⟩

theorem fromBytes_eq (fval : BitVec 64 → ℚ) (m : List Nat) (seed : Nat) :
    fromBytes fval m seed = (importCS fval m).bind fun c => restore c seed := rfl

/-! ## Two sketches of the same set go on alike -/

/-- the same set and the same registers of the estimator -/
structure Twin (a b : Sk) (S : Finset Nat) : Prop where
  left : SkInv a S
  right : SkInv b S
  lgK : a.lgK = b.lgK
  kxp : a.kxp = b.kxp
  hip : a.hip = b.hip

theorem Twin.off {a b : Sk} (t : Twin a b S) : a.off = b.off := by
  rw [t.left.off_eq, t.right.off_eq, t.left.num, t.right.num, t.lgK]

theorem Twin.step {a b a' : Sk} (t : Twin a b S) {h0 h1 : BitVec 64}
    (he : hashUpdate a h0 h1 = .ok a') :
    ∃ b', hashUpdate b h0 h1 = .ok b' ∧ Twin a' b' (insert (coupon a.lgK (h0, h1)) S) := by
  by_cases hx : coupon a.lgK (h0, h1) ∈ S
  · rw [hash_known t.left hx] at he
    cases he
    refine ⟨b, hash_known t.right (by rw [← t.lgK]; exact hx), ?_⟩
    rw [Finset.insert_eq_of_mem hx]
    exact t
  · have hxb : coupon b.lgK (h0, h1) ∉ S := by rw [← t.lgK]; exact hx
    rcases hash_new t.left hx with ⟨hr, a1, ea, ia, sa⟩ | ⟨_, hno⟩
    · rw [ea] at he
      cases he
      rcases hash_new t.right hxb with ⟨_, b1, eb, ib, sb⟩ | ⟨hr', _⟩
      · rw [← t.lgK] at ib sb
        have hoff : a'.off = b1.off := by
          rw [ia.off_eq, ib.off_eq, ia.num, ib.num, sa.lgK, sb.lgK, t.lgK]
        refine ⟨b1, eb, ia, ib, by rw [sa.lgK, sb.lgK, t.lgK], ?_, by rw [sa.hip, sb.hip, t.hip, t.lgK, t.kxp]⟩
        by_cases hf : a'.off = a.off + 1 ∧ a'.off % 8 = 0
        · obtain ⟨m, hm, e⟩ := sa.fresh hf.1 hf.2
          obtain ⟨m', hm', e'⟩ := sb.fresh (by rw [← hoff, ← t.off]; exact hf.1) (by rw [← hoff]; exact hf.2)
          rw [← t.lgK] at hm'
          rw [e, e', hm.ext hm']
        · rw [sa.kxp hf, sb.kxp (by rw [← hoff, ← t.off]; exact hf), t.kxp]
      · exact absurd hr (by rw [t.lgK]; exact hr')
    · exact absurd he (hno _)

theorem Twin.run (hs : List Hash) : ∀ {a b a' : Sk} {S : Finset Nat}, Twin a b S → run a hs = .ok a' →
    ∃ b', run b hs = .ok b' ∧ Twin a' b' (S ∪ coupons a.lgK hs) := by
  induction hs with
  | nil =>
    intro a b a' S t he
    cases he
    exact ⟨b, rfl, by simpa [coupons] using t⟩
  | cons x hs ih =>
    intro a b a' S t he
    unfold Cpc.run at he ⊢
    obtain ⟨a1, e1, e2⟩ := Outcome.bind_eq_ok.1 he
    obtain ⟨b1, f1, t1⟩ := t.step e1
    obtain ⟨b', f2, t2⟩ := ih t1 e2
    refine ⟨b', Outcome.bind_eq_ok.2 ⟨b1, f1, f2⟩, ?_⟩
    have hl : a1.lgK = a.lgK := (hash_sound t.left e1).2.1
    rw [hl] at t2
    convert t2 using 1
    ext y
    simp [coupons]

/-! ## The wrapper -/

theorem hip_flag (f : Nat) : (decide (f &&& 4 > 0)) = !(decide (((f >>> 2) &&& 7) &&& 1 = 0)) := by
  have h1 : ((f >>> 2) &&& 7) &&& 1 = (f.testBit 2).toNat := by
    rw [Nat.and_assoc, show (7 : Nat) &&& 1 = 1 from rfl, Nat.testBit, Nat.and_comm]
    have := Nat.and_one_is_mod (f >>> 2)
    rw [Nat.and_comm] at this
    rw [this]
    rcases Nat.mod_two_eq_zero_or_one (f >>> 2) with h | h <;> rw [h] <;> rfl
  have h2 : f &&& 4 = (f.testBit 2).toNat * 4 := Nat.and_two_pow f 2
  rw [h1, h2]
  cases f.testBit 2 <;> rfl

/-- what a reader of `kxp` and the hip accumulator may do -/
def HipOk (fval : BitVec 64 → ℚ) (m : List Nat) (fmt : Nat) (hip : CS → Outcome CS) : Prop :=
  ∀ a b, hip a = .ok b → b.num = a.num ∧ b.lgK = a.lgK ∧ b.merged = a.merged ∧
    (fmt &&& 1 ≠ 0 → ∃ h, getLE m (hiOff fmt fHip) 8 = .ok h ∧ b.hip = fval (BitVec.ofNat 64 h))

theorem hipOk_none {m : List Nat} {fmt : Nat} (h : fmt &&& 1 = 0) : HipOk fval m fmt .ok := by
  intro a b e
  cases e
  exact ⟨rfl, rfl, rfl, fun h' => absurd h h'⟩

theorem hipOk_some {m : List Nat} {fmt : Nat} : HipOk fval m fmt (getHip fval m fmt) := by
  intro a b e
  unfold getHip at e
  obtain ⟨k, ek, e⟩ := Outcome.bind_eq_ok.1 e
  obtain ⟨h, eh, e⟩ := Outcome.bind_eq_ok.1 e
  cases e
  exact ⟨rfl, rfl, rfl, fun _ => ⟨h, eh, rfl⟩⟩

/-- what the wrapper reads -/
structure Seen (fval : BitVec 64 → ℚ) (m : List Nat) (fmt : Nat) (c0 c : CS) : Prop where
  num : getLE m (hiOff fmt fNum) 4 = .ok c.num
  lgK : c.lgK = c0.lgK
  merged : c.merged = c0.merged
  hip : fmt &&& 1 ≠ 0 → ∃ h, getLE m (hiOff fmt fHip) 8 = .ok h ∧ c.hip = fval (BitVec.ofNat 64 h)

theorem getSparse_seen {m : List Nat} {fmt : Nat} {hip : CS → Outcome CS} {c0 c : CS}
    (hh : HipOk fval m fmt hip) (h : getSparse m fmt hip c0 = .ok c) : Seen fval m fmt c0 c := by
  unfold getSparse at h
  obtain ⟨n, en, h⟩ := Outcome.bind_eq_ok.1 h
  obtain ⟨_, _, h⟩ := Outcome.bind_eq_ok.1 h
  obtain ⟨b, eb, h⟩ := Outcome.bind_eq_ok.1 h
  obtain ⟨_, _, h⟩ := Outcome.bind_eq_ok.1 h
  obtain ⟨_, _, h⟩ := Outcome.bind_eq_ok.1 h
  cases h
  obtain ⟨h1, h2, h3, h4⟩ := hh _ _ eb
  exact ⟨by rw [en]; exact congrArg _ h1.symm, h2, h3, h4⟩

theorem getNoSV_seen {m : List Nat} {fmt : Nat} {hip : CS → Outcome CS} {c0 c : CS}
    (hh : HipOk fval m fmt hip) (h : getNoSV m fmt hip c0 = .ok c) : Seen fval m fmt c0 c := by
  unfold getNoSV at h
  obtain ⟨_, _, h⟩ := Outcome.bind_eq_ok.1 h
  obtain ⟨n, en, h⟩ := Outcome.bind_eq_ok.1 h
  obtain ⟨_, _, h⟩ := Outcome.bind_eq_ok.1 h
  obtain ⟨b, eb, h⟩ := Outcome.bind_eq_ok.1 h
  obtain ⟨_, _, h⟩ := Outcome.bind_eq_ok.1 h
  obtain ⟨_, _, h⟩ := Outcome.bind_eq_ok.1 h
  cases h
  obtain ⟨h1, h2, h3, h4⟩ := hh _ _ eb
  exact ⟨by rw [en]; exact congrArg _ h1.symm, h2, h3, h4⟩

theorem getFull_seen {m : List Nat} {fmt : Nat} {hip : CS → Outcome CS} {c0 c : CS}
    (hh : HipOk fval m fmt hip) (h : getFull m fmt hip c0 = .ok c) : Seen fval m fmt c0 c := by
  unfold getFull at h
  obtain ⟨_, _, h⟩ := Outcome.bind_eq_ok.1 h
  obtain ⟨n, en, h⟩ := Outcome.bind_eq_ok.1 h
  obtain ⟨_, _, h⟩ := Outcome.bind_eq_ok.1 h
  obtain ⟨_, _, h⟩ := Outcome.bind_eq_ok.1 h
  obtain ⟨_, _, h⟩ := Outcome.bind_eq_ok.1 h
  obtain ⟨b, eb, h⟩ := Outcome.bind_eq_ok.1 h
  obtain ⟨_, _, h⟩ := Outcome.bind_eq_ok.1 h
  obtain ⟨_, _, h⟩ := Outcome.bind_eq_ok.1 h
  obtain ⟨_, _, h⟩ := Outcome.bind_eq_ok.1 h
  cases h
  obtain ⟨h1, h2, h3, h4⟩ := hh _ _ eb
  exact ⟨by rw [en]; exact congrArg _ h1.symm, h2, h3, h4⟩

/-- The wrapper reads what the import reads, except from the formats of empty sketches. -/
theorem wrap_spec {m : List Nat} {c : CS} (h : importCS fval m = .ok c) :
    wrap m = .ok m ∧ wLgK m = .ok c.lgK ∧ wHasHip m = .ok (!c.merged) ∧
    (c.num ≠ 0 → wNum m = .ok c.num ∧ (c.merged = false → wHip fval m = .ok c.hip)) := by
  unfold importCS at h
  obtain ⟨_, e1, h⟩ := Outcome.bind_eq_ok.1 h
  obtain ⟨f, e2, h⟩ := Outcome.bind_eq_ok.1 h
  split at h
  · cases h
  rename_i hf
  obtain ⟨l, e3, h⟩ := Outcome.bind_eq_ok.1 h
  obtain ⟨x, e4, h⟩ := Outcome.bind_eq_ok.1 h
  obtain ⟨fmt, e5, h⟩ := Outcome.bind_eq_ok.1 h
  have e5' : fmt = (f >>> 2) &&& 7 := by
    unfold formatOf at e5
    rw [e2] at e5
    cases e5
    rfl
  obtain ⟨c0, hc0⟩ : ∃ c0 : CS, c0 = { newCS l (BitVec.ofNat 16 x) with merged := fmt &&& 1 = 0 } :=
    ⟨_, rfl⟩
  have key : (c.lgK = l ∧ c.merged = decide (fmt &&& 1 = 0)) ∧ (c.num ≠ 0 → Seen fval m fmt c0 c) := by
    have hl : c0.lgK = l := by rw [hc0]; rfl
    have hm : c0.merged = decide (fmt &&& 1 = 0) := by rw [hc0]
    simp only [← hc0] at h
    split at h
    · cases h
      exact ⟨⟨hl, hm⟩, fun hn => absurd (by rw [hc0]; rfl) hn⟩
    · cases h
      exact ⟨⟨hl, hm⟩, fun hn => absurd (by rw [hc0]; rfl) hn⟩
    · have := getSparse_seen (fval := fval) (hipOk_none rfl) h
      exact ⟨⟨this.lgK.trans hl, this.merged.trans hm⟩, fun _ => this⟩
    · have := getSparse_seen hipOk_some h
      exact ⟨⟨this.lgK.trans hl, this.merged.trans hm⟩, fun _ => this⟩
    · have := getNoSV_seen (fval := fval) (hipOk_none rfl) h
      exact ⟨⟨this.lgK.trans hl, this.merged.trans hm⟩, fun _ => this⟩
    · have := getNoSV_seen hipOk_some h
      exact ⟨⟨this.lgK.trans hl, this.merged.trans hm⟩, fun _ => this⟩
    · have := getFull_seen (fval := fval) (hipOk_none rfl) h
      exact ⟨⟨this.lgK.trans hl, this.merged.trans hm⟩, fun _ => this⟩
    · have := getFull_seen hipOk_some h
      exact ⟨⟨this.lgK.trans hl, this.merged.trans hm⟩, fun _ => this⟩
    · cases h
  obtain ⟨⟨k1, k2⟩, k3⟩ := key
  refine ⟨?_, by unfold wLgK; rw [e3, k1], ?_, fun hn => ⟨?_, fun hme => ?_⟩⟩
  · unfold wrap
    rw [e1, Outcome.ok_bind, e2, Outcome.ok_bind, if_neg hf]
  · unfold wHasHip
    rw [e2, Outcome.ok_bind, hip_flag, ← e5', k2]
  · unfold wNum
    rw [e5, Outcome.ok_bind]
    exact (k3 hn).num
  · obtain ⟨hv, e6, e7⟩ := (k3 hn).hip (by rw [k2] at hme; exact of_decide_eq_false hme)
    unfold wHip
    rw [e5, Outcome.ok_bind, e6, Outcome.ok_bind, e7]

end Verif.Cpc
