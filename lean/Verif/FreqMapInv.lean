import Verif.FreqModel
import Verif.Probe
import Mathlib.Data.Nat.ModEq
import Mathlib.Tactic.Linarith

/-!
# Invariant of the reverse-purge hash map; lookup, insertion and back-shifting deletion
-/

set_option linter.unusedSectionVars false

namespace Verif.Freq

variable {κ : Type} [DecidableEq κ] {c : Cfg κ}

/-! ## circular positions -/

theorem mod_inj {n h i j : Nat} (hi : i < n) (hj : j < n) (e : (h + i) % n = (h + j) % n) :
    i = j :=
  Nat.ModEq.eq_of_lt_of_lt (Nat.ModEq.add_left_cancel' h e) hi hj

theorem mod_back {n a d h j i : Nat} (e : (a + d) % n = (h + j) % n) (h1 : i ≤ d) (h2 : i ≤ j) :
    (a + (d - i)) % n = (h + (j - i)) % n := by
  have h3 : a + (d - i) + i ≡ h + (j - i) + i [MOD n] := by
    show (a + (d - i) + i) % n = (h + (j - i) + i) % n
    rw [show a + (d - i) + i = a + d by omega, show h + (j - i) + i = h + j by omega]
    exact e
  exact Nat.ModEq.add_right_cancel' i h3

theorem mod_fwd {n a b i : Nat} (e : a % n = b % n) : (a + i) % n = (b + i) % n := by
  rw [Nat.add_mod, e, ← Nat.add_mod]

theorem mod_reach {n : Nat} (h p : Nat) (hn : 0 < n) (hp : p < n) :
    ∃ i, i < n ∧ (h + i) % n = p := by
  refine ⟨(p + n - h % n) % n, Nat.mod_lt _ hn, ?_⟩
  have hh := Nat.mod_lt h hn
  rw [Nat.add_mod, Nat.mod_mod, ← Nat.add_mod, Nat.add_mod, Nat.add_mod]
  have h1 : h + (p + n - h % n) = p + n * (h / n + 1) := by
    have := Nat.div_add_mod h n
    rw [Nat.mul_add, Nat.mul_one]
    omega
  rw [← Nat.add_mod, ← Nat.add_mod, h1, Nat.add_mul_mod_self_left, Nat.mod_eq_of_lt hp]

theorem mask_eq {t : List α} {lg x : Nat} (h : t.length = 2 ^ lg) :
    x &&& (t.length - 1) = x % 2 ^ lg := by
  rw [h, Nat.and_two_pow_sub_one_eq_mod]

theorem step_eq {t : List α} {lg a : Nat} (h : t.length = 2 ^ lg) :
    ((a % 2 ^ lg) + 1) &&& (t.length - 1) = (a + 1) % 2 ^ lg := by
  rw [mask_eq h, Nat.mod_add_mod]

/-! ## configuration -/

/-- a drift of 1 is within the limit -/
def Cfg.Ok (c : Cfg κ) : Prop := c.over 1 = false

theorem over_mono {a b : Nat} (h : a ≤ b) (ha : c.over a = true) : c.over b = true := by
  unfold Cfg.over at *
  cases hl : c.limit with
  | none => rw [hl] at ha; simp at ha
  | some l => rw [hl] at ha; simp only [decide_eq_true_eq] at *; omega

theorem not_over_mono {a b : Nat} (h : a ≤ b) (hb : c.over b = false) : c.over a = false := by
  cases ha : c.over a with
  | false => rfl
  | true => rw [over_mono h ha] at hb; cases hb

/-- drifts that can occur in a table of size `2^lg` fit into an int16 -/
def Fits (c : Cfg κ) (lg : Nat) : Prop :=
  ∀ d, d < 2 ^ lg → c.over d = false → d < 2 ^ 15

theorem wrap2_nat {d : Nat} (h : d < 2 ^ 15) : wrap 2 (d : Int) = d := by
  apply wrap_of_inRange
  constructor
  · have : (0 : Int) ≤ d := Int.natCast_nonneg d
    norm_num; omega
  · norm_num
    have : (d : Int) < 2 ^ 15 := by exact_mod_cast h
    norm_num at this; omega

/-! ## the invariant -/

/-- slot `p` is in use -/
def Occ (t : List (Slot κ)) (p : Nat) : Prop := ∃ s, t[p]? = some s ∧ s.st ≠ 0

/-- slot `p` exists and is free -/
def Free (t : List (Slot κ)) (p : Nat) : Prop := ∃ s, t[p]? = some s ∧ s.st = 0

omit [DecidableEq κ] in
theorem not_free_of_occ {t : List (Slot κ)} {p : Nat} (h : Occ t p) (hf : Free t p) : False := by
  obtain ⟨s, h1, h2⟩ := h
  obtain ⟨s', h1', h2'⟩ := hf
  rw [h1] at h1'
  simp only [Option.some.injEq] at h1'
  subst h1'
  exact h2 h2'

/-- Every used slot holds its drift in `st` and is reached from its home through used slots
(or through the slot `hole`, while a deletion is in progress); keys are unique. -/
structure MapInv (c : Cfg κ) (lg : Nat) (t : List (Slot κ)) (hole : Option Nat) : Prop where
  len : t.length = 2 ^ lg
  path : ∀ (p : Nat) (s : Slot κ), t[p]? = some s → s.st ≠ 0 →
    ∃ d : Nat, s.st = (d : Int) + 1 ∧ d + 1 < 2 ^ lg ∧ c.over (d + 1) = false ∧
      p = (c.hash s.key + d) % 2 ^ lg ∧
      ∀ j, j < d → Occ t ((c.hash s.key + j) % 2 ^ lg) ∨ hole = some ((c.hash s.key + j) % 2 ^ lg)
  uniq : ∀ (p q : Nat) (s r : Slot κ), t[p]? = some s → s.st ≠ 0 → t[q]? = some r → r.st ≠ 0 →
    s.key = r.key → p = q

theorem MapInv.pos (h : MapInv c lg t hole) {p : Nat} {s : Slot κ} (hp : t[p]? = some s)
    (hs : s.st ≠ 0) : s.st > 0 := by
  obtain ⟨d, hd, _⟩ := h.path p s hp hs
  omega

theorem lt_of_some {t : List α} {p : Nat} {s : α} (h : t[p]? = some s) : p < t.length := by
  by_contra hcon
  rw [List.getElem?_eq_none (by omega)] at h; cases h

theorem set_get {t : List α} {p : Nat} (hp : p < t.length) (e : α) (q : Nat) :
    (t.set p e)[q]? = if p = q then some e else t[q]? := by
  by_cases hq : p = q
  · subst hq; rw [if_pos rfl, List.getElem?_set_self hp]
  · rw [if_neg hq, List.getElem?_set_ne hq]

/-! ## contents -/

/-- the pairs stored in the used slots -/
def items (t : List (Slot κ)) : List (κ × Int) :=
  (t.filter (fun s => !decide (s.st = 0))).map (fun s => (s.key, s.val))

/-- the scheme whose occupied entries are the used slots (to reuse the list lemmas of `Probe`) -/
def sch (κ : Type) : Probe.Scheme (Slot κ) :=
  ⟨fun s => decide (s.st = 0), fun _ => 0, 0, fun _ => 0, fun _ _ => 0⟩

omit [DecidableEq κ] in
theorem items_eq (t : List (Slot κ)) :
    items t = ((sch κ).items t).map (fun s => (s.key, s.val)) := rfl

omit [DecidableEq κ] in
theorem mem_items {t : List (Slot κ)} {k : κ} {v : Int} :
    (k, v) ∈ items t ↔ ∃ (p : Nat) (s : Slot κ), t[p]? = some s ∧ s.st ≠ 0 ∧ s.key = k ∧ s.val = v := by
  rw [items_eq, List.mem_map]
  constructor
  · rintro ⟨s, hs, e⟩
    obtain ⟨p, hp, he⟩ := Probe.mem_items.mp hs
    simp only [Prod.mk.injEq] at e
    exact ⟨p, s, hp, by simpa [sch] using he, e.1, e.2⟩
  · rintro ⟨p, s, hp, hs, hk, hv⟩
    exact ⟨s, Probe.mem_items.mpr ⟨p, hp, by simpa [sch] using hs⟩, by simp [hk, hv]⟩

omit [DecidableEq κ] in
/-- filling a free slot -/
theorem items_fill {t : List (Slot κ)} {p : Nat} {f e : Slot κ} (hp : t[p]? = some f)
    (hf : f.st = 0) (he : e.st ≠ 0) : (items (t.set p e)).Perm ((e.key, e.val) :: items t) := by
  have := Probe.items_set_empty (s := sch κ) (e := e) hp (by simpa [sch] using hf)
    (by simpa [sch] using he)
  rw [items_eq, items_eq]
  exact this.map (fun s => (s.key, s.val))

omit [DecidableEq κ] in
/-- clearing a used slot -/
theorem items_clear {t : List (Slot κ)} {p : Nat} {f e : Slot κ} (hp : t[p]? = some f)
    (hf : f.st ≠ 0) (he : e.st = 0) : (items t).Perm ((f.key, f.val) :: items (t.set p e)) := by
  have hlt := lt_of_some hp
  have h1 : (t.set p e)[p]? = some e := List.getElem?_set_self hlt
  have h2 := items_fill h1 he hf
  rw [List.set_set] at h2
  have h3 : t.set p f = t := by
    apply List.ext_getElem?
    intro q
    rw [set_get hlt]
    split
    · rename_i hq; rw [← hq, hp]
    · rfl
  rwa [h3] at h2

omit [DecidableEq κ] in
/-- replacing a used slot -/
theorem items_replace {t : List (Slot κ)} {p : Nat} {f e : Slot κ} (hp : t[p]? = some f)
    (hf : f.st ≠ 0) (he : e.st ≠ 0) :
    ∃ l, (items t).Perm ((f.key, f.val) :: l) ∧ (items (t.set p e)).Perm ((e.key, e.val) :: l) := by
  obtain ⟨l, h1, h2⟩ := Probe.items_set_occ (s := sch κ) (e := e) hp (by simpa [sch] using hf)
    (by simpa [sch] using he)
  refine ⟨l.map (fun s => (s.key, s.val)), ?_, ?_⟩
  · rw [items_eq]; exact h1.map (fun s => (s.key, s.val))
  · rw [items_eq]; exact h2.map (fun s => (s.key, s.val))

omit [DecidableEq κ] in
theorem free_of_items_lt {t : List (Slot κ)} (h : (items t).length < t.length) :
    ∃ p, p < t.length ∧ Free t p := by
  rw [items_eq, List.length_map] at h
  obtain ⟨p, e, hp, he⟩ := Probe.items_length_lt_of_free.mpr h
  exact ⟨p, lt_of_some hp, e, hp, by simpa [sch] using he⟩

theorem active_eq_items (h : MapInv c lg t hole) : active t = items t := by
  unfold active items
  congr 1
  apply List.filter_congr
  intro s hs
  obtain ⟨p, hp⟩ := List.mem_iff_getElem?.mp hs
  by_cases h0 : s.st = 0
  · simp [h0]
  · have := h.pos hp h0
    simp [h0, this]

theorem keys_nodup_aux (t : List (Slot κ))
    (hu : ∀ (p q : Nat) (s r : Slot κ), t[p]? = some s → s.st ≠ 0 → t[q]? = some r → r.st ≠ 0 →
      s.key = r.key → p = q) : ((items t).map Prod.fst).Nodup := by
  unfold items
  induction t with
  | nil => simp
  | cons a t ih =>
    have iht := ih (by
      intro p q e f hp he hq hf hk
      have := hu (p + 1) (q + 1) e f (by simpa using hp) he (by simpa using hq) hf hk
      omega)
    rw [List.filter_cons]
    split
    · rename_i ha
      rw [List.map_cons, List.map_cons, List.nodup_cons]
      refine ⟨?_, iht⟩
      intro hm
      rw [List.map_map] at hm
      obtain ⟨b, hb, hbk⟩ := List.mem_map.mp hm
      rw [List.mem_filter] at hb
      obtain ⟨p, hp⟩ := List.mem_iff_getElem?.mp hb.1
      have := hu 0 (p + 1) a b (by simp) (by simpa using ha) (by simpa using hp) (by simpa using hb.2)
        hbk.symm
      omega
    · exact iht

theorem MapInv.keys_nodup (h : MapInv c lg t hole) : ((items t).map Prod.fst).Nodup :=
  keys_nodup_aux t h.uniq

/-! ## lookup and insertion -/

/-- the probe sequence of `k` reaches a free slot or `k` -/
theorem probe_cases {t : List (Slot κ)} (hl : t.length = 2 ^ lg) (a : Nat) (k : κ)
    (hfree : ∃ p, p < t.length ∧ Free t p) :
    ∃ i, i < 2 ^ lg ∧
      (∀ j, j < i → ∃ s, t[(a + j) % 2 ^ lg]? = some s ∧ s.st ≠ 0 ∧ s.key ≠ k) ∧
      (∃ s, t[(a + i) % 2 ^ lg]? = some s ∧ (s.st = 0 ∨ s.key = k)) := by
  have hn := Nat.two_pow_pos lg
  obtain ⟨p, hp, e, he, hest⟩ := hfree
  obtain ⟨i0, hi0, hpi⟩ := mod_reach a p hn (by omega)
  classical
  have hex : ∃ i, ∃ s, t[(a + i) % 2 ^ lg]? = some s ∧ (s.st = 0 ∨ s.key = k) :=
    ⟨i0, e, by rw [hpi]; exact he, Or.inl hest⟩
  refine ⟨Nat.find hex, ?_, ?_, Nat.find_spec hex⟩
  · exact Nat.lt_of_le_of_lt (Nat.find_min' hex ⟨e, by rw [hpi]; exact he, Or.inl hest⟩) hi0
  · intro j hj
    have hlt : (a + j) % 2 ^ lg < t.length := by rw [hl]; exact Nat.mod_lt _ hn
    refine ⟨t[(a + j) % 2 ^ lg], List.getElem?_eq_getElem hlt, ?_⟩
    have := Nat.find_min hex hj
    constructor
    · intro h0; exact this ⟨_, List.getElem?_eq_getElem hlt, Or.inl h0⟩
    · intro h0; exact this ⟨_, List.getElem?_eq_getElem hlt, Or.inr h0⟩

theorem hashProbeLoop_eq (hi : MapInv c lg t hole) (a : Nat) (k : κ) (i : Nat)
    (hpre : ∀ j, j < i → ∃ s, t[(a + j) % 2 ^ lg]? = some s ∧ s.st ≠ 0 ∧ s.key ≠ k)
    (hend : ∃ s, t[(a + i) % 2 ^ lg]? = some s ∧ (s.st = 0 ∨ s.key = k)) :
    ∀ fuel j, j ≤ i → i < j + fuel →
      hashProbeLoop t k fuel ((a + j) % 2 ^ lg) = .ok ((a + i) % 2 ^ lg) := by
  intro fuel
  induction fuel with
  | zero => intro j h1 h2; omega
  | succ fuel ih =>
    intro j h1 h2
    by_cases hji : j = i
    · subst hji
      obtain ⟨s, hs, hc⟩ := hend
      rw [hashProbeLoop, hs]
      simp only
      rw [if_neg]
      rintro ⟨g1, g2⟩
      rcases hc with hc | hc
      · omega
      · exact g2 hc
    · obtain ⟨s, hs, hst, hk⟩ := hpre j (by omega)
      rw [hashProbeLoop, hs]
      simp only
      rw [if_pos ⟨hi.pos hs hst, hk⟩, step_eq hi.len]
      exact ih (j + 1) (by omega) (by omega)

theorem adjustLoop_eq (hl : t.length = 2 ^ lg) (a : Nat) (k : κ) (i : Nat)
    (hpre : ∀ j, j < i → ∃ s, t[(a + j) % 2 ^ lg]? = some s ∧ s.st ≠ 0 ∧ s.key ≠ k)
    (hend : ∃ s, t[(a + i) % 2 ^ lg]? = some s ∧ (s.st = 0 ∨ s.key = k)) :
    ∀ fuel j, j ≤ i → i < j + fuel → c.over (j + 1) = false →
      (c.over (i + 1) = false ∧
        adjustLoop c t k fuel ((a + j) % 2 ^ lg) (j + 1) = .ok ((a + i) % 2 ^ lg, i + 1)) ∨
      (c.over (i + 1) = true ∧
        adjustLoop c t k fuel ((a + j) % 2 ^ lg) (j + 1) = .err "drift >= driftLimit") := by
  intro fuel
  induction fuel with
  | zero => intro j h1 h2; omega
  | succ fuel ih =>
    intro j h1 h2 hov
    by_cases hji : j = i
    · subst hji
      obtain ⟨s, hs, hc⟩ := hend
      left
      refine ⟨hov, ?_⟩
      rw [adjustLoop, hs]
      simp only
      rw [if_neg]
      rintro ⟨g1, g2⟩
      rcases hc with hc | hc
      · exact g1 hc
      · exact g2 hc
    · obtain ⟨s, hs, hst, hk⟩ := hpre j (by omega)
      rw [adjustLoop, hs]
      simp only
      rw [if_pos ⟨hst, hk⟩]
      cases ho : c.over (j + 1 + 1) with
      | true =>
        right
        exact ⟨over_mono (by omega) ho, by simp⟩
      | false =>
        simp only [Bool.false_eq_true, if_false]
        rw [step_eq hl]
        exact ih (j + 1) (by omega) (by omega) ho

/-- In a map with the invariant, a free or matching slot at the end of the probe sequence of `k` is
matching exactly when `k` is stored. -/
theorem probe_end_key (hi : MapInv c lg t none) (k : κ) (i : Nat) (hin : i < 2 ^ lg)
    (hpre : ∀ j, j < i → ∃ s, t[(c.hash k + j) % 2 ^ lg]? = some s ∧ s.st ≠ 0 ∧ s.key ≠ k)
    {s : Slot κ} (hs : t[(c.hash k + i) % 2 ^ lg]? = some s) (hc : s.st = 0 ∨ s.key = k)
    {p : Nat} {r : Slot κ} (hr : t[p]? = some r) (hrs : r.st ≠ 0) (hrk : r.key = k) :
    s.st ≠ 0 ∧ p = (c.hash k + i) % 2 ^ lg := by
  obtain ⟨d, hd, hdn, _, hpd, hocc⟩ := hi.path p r hr hrs
  rw [hrk] at hpd hocc
  rcases Nat.lt_trichotomy i d with hlt | heq | hgt
  · exfalso
    rcases hocc i hlt with hO | hO
    · obtain ⟨s', hs', hst'⟩ := hO
      rw [hs] at hs'
      simp only [Option.some.injEq] at hs'
      subst hs'
      rcases hc with hc | hc
      · exact hst' hc
      · have := hi.uniq _ _ s r hs hst' hr hrs (by rw [hc, hrk])
        rw [hpd] at this
        exact absurd (mod_inj hin (by omega) this) (by omega)
    · simp at hO
  · subst heq
    refine ⟨?_, hpd⟩
    rw [← hpd, hr] at hs
    simp only [Option.some.injEq] at hs
    subst hs
    exact hrs
  · exfalso
    obtain ⟨s', hs', _, hk'⟩ := hpre d hgt
    rw [← hpd, hr] at hs'
    simp only [Option.some.injEq] at hs'
    subst hs'
    exact hk' hrk

theorem get_spec (hi : MapInv c lg t none) (hfree : (items t).length < t.length) (k : κ) :
    (∀ v, (k, v) ∈ items t → get c t k = .ok v) ∧
    ((∀ v, (k, v) ∉ items t) → get c t k = .ok 0) := by
  obtain ⟨i, hin, hpre, s, hs, hc⟩ := probe_cases hi.len (c.hash k) k (free_of_items_lt hfree)
  have hloop := hashProbeLoop_eq hi (c.hash k) k i hpre ⟨s, hs, hc⟩ t.length 0 (by omega)
    (by rw [hi.len]; omega)
  rw [Nat.add_zero] at hloop
  constructor
  · intro v hv
    obtain ⟨p, r, hr, hrs, hrk, hrv⟩ := mem_items.mp hv
    obtain ⟨h0, hp⟩ := probe_end_key hi k i hin hpre hs hc hr hrs hrk
    rw [hp, hs] at hr
    simp only [Option.some.injEq] at hr
    subst hr
    unfold get
    rw [mask_eq hi.len, hloop]
    simp only [Outcome.ok_bind, hs, Outcome.ofOption_some]
    rw [if_pos (hi.pos hs hrs), if_pos hrk]
    simp [hrv]
  · intro hno
    have h0 : s.st = 0 := by
      by_contra h0
      rcases hc with hc | hc
      · exact h0 hc
      · exact hno s.val (mem_items.mpr ⟨_, s, hs, h0, hc, rfl⟩)
    unfold get
    rw [mask_eq hi.len, hloop]
    simp only [Outcome.ok_bind, hs, Outcome.ofOption_some]
    rw [if_neg (by omega)]
    rfl

/-- a map whose bookkeeping is right -/
structure WF (c : Cfg κ) (m : Map κ) : Prop where
  inv : MapInv c m.lg m.slots none
  num : m.num = (items m.slots).length

theorem set_path_keep {t : List (Slot κ)} {p : Nat} {e : Slot κ} (hp : p < t.length)
    (he : e.st ≠ 0) {q : Nat} (h : Occ t q) : Occ (t.set p e) q := by
  obtain ⟨f, hf, hfe⟩ := h
  by_cases hq : p = q
  · exact ⟨e, by rw [set_get hp, if_pos hq], he⟩
  · exact ⟨f, by rw [set_get hp, if_neg hq]; exact hf, hfe⟩

/-- Complete description of `adjustOrPutValue`. -/
theorem adjustOrPut_spec (hok : c.Ok) {m : Map κ} (hw : WF c m) (hf : Fits c m.lg)
    (hnum : m.num + 1 < 2 ^ m.lg) (hcap : m.num ≤ capOf (2 ^ m.lg)) (k : κ) (a : Int) :
    (∃ i, i + 1 < 2 ^ m.lg ∧ c.over (i + 1) = true ∧
      adjustOrPut c m k a = .err "drift >= driftLimit") ∨
    (∃ m', adjustOrPut c m k a = .ok m' ∧ WF c m' ∧ m'.lg = m.lg ∧
      ((∃ v l, (items m.slots).Perm ((k, v) :: l) ∧
          (items m'.slots).Perm ((k, wrap 8 (v + a)) :: l) ∧ m'.num = m.num) ∨
       ((∀ v, (k, v) ∉ items m.slots) ∧ (items m'.slots).Perm ((k, a) :: items m.slots) ∧
          m'.num = m.num + 1))) := by
  have hi := hw.inv
  have hl := hi.len
  obtain ⟨i, hin, hpre, s, hs, hc⟩ := probe_cases hl (c.hash k) k
    (free_of_items_lt (by rw [← hw.num, hl]; omega))
  have hslt := lt_of_some hs
  -- the end of the probe sequence is not the last slot
  have hi1 : i + 1 < 2 ^ m.lg := by
    by_cases h0 : s.st = 0
    · -- two free slots
      by_contra hcon
      have hlen : i + 1 = 2 ^ m.lg := by omega
      let e : Slot κ := ⟨k, a, 1⟩
      have hfill := (items_fill hs h0 (e := e) (by simp [e])).length_eq
      rw [List.length_cons, ← hw.num] at hfill
      obtain ⟨q, hq, f, hqf, hf0⟩ := free_of_items_lt (t := m.slots.set ((c.hash k + i) % 2 ^ m.lg) e)
        (by rw [List.length_set, hl, hfill]; omega)
      rw [List.length_set, hl] at hq
      obtain ⟨j, hj, hjq⟩ := mod_reach (c.hash k) q (Nat.two_pow_pos _) hq
      rw [set_get hslt] at hqf
      split at hqf
      · simp only [Option.some.injEq] at hqf; rw [← hqf] at hf0; simp [e] at hf0
      · rename_i hne
        have hji : j ≠ i := by rintro rfl; exact hne hjq
        obtain ⟨s', hs', hst', _⟩ := hpre j (by omega)
        rw [hjq, hqf] at hs'
        simp only [Option.some.injEq] at hs'
        subst hs'
        exact hst' hf0
    · have hk : s.key = k := by rcases hc with hc | hc; exact absurd hc h0; exact hc
      obtain ⟨d, hd, hdn, _, hpd, _⟩ := hi.path _ s hs h0
      rw [hk] at hpd
      have := mod_inj hin (by omega) hpd
      omega
  have hloop := adjustLoop_eq (c := c) hl (c.hash k) k i hpre ⟨s, hs, hc⟩ m.slots.length 0 (by omega)
    (by rw [hl]; omega) hok
  simp only [Nat.add_zero, Nat.zero_add] at hloop
  rcases hloop with ⟨hov, hloop⟩ | ⟨hov, hloop⟩
  · right
    unfold adjustOrPut
    rw [mask_eq hl, hloop]
    simp only [Outcome.ok_bind, hs, Outcome.ofOption_some]
    by_cases h0 : s.st = 0
    · rw [if_pos h0, if_neg (by omega)]
      have hst : wrap 2 ((i + 1 : Nat) : Int) = ((i + 1 : Nat) : Int) :=
        wrap2_nat (hf (i + 1) hi1 hov)
      have hne : (wrap 2 ((i + 1 : Nat) : Int)) ≠ 0 := by rw [hst]; omega
      have habs : ∀ v, (k, v) ∉ items m.slots := by
        intro v hv
        obtain ⟨p, r, hr, hrs, hrk, hrv⟩ := mem_items.mp hv
        exact (probe_end_key hi k i hin hpre hs hc hr hrs hrk).1 h0
      have hperm := items_fill hs h0 (e := ⟨k, a, wrap 2 ((i + 1 : Nat) : Int)⟩) hne
      refine ⟨_, rfl, ⟨⟨by simpa using hl, ?_, ?_⟩, ?_⟩, rfl, Or.inr ⟨habs, hperm, rfl⟩⟩
      · intro p r hr hrs
        dsimp only at hr ⊢
        rw [set_get hslt] at hr
        split at hr
        · rename_i hpe
          simp only [Option.some.injEq] at hr
          subst hr
          refine ⟨i, by rw [hst]; push_cast; rfl, hi1, hov, hpe.symm, ?_⟩
          intro j hj
          obtain ⟨s', hs', hst', _⟩ := hpre j hj
          exact Or.inl (set_path_keep hslt hne ⟨s', hs', hst'⟩)
        · obtain ⟨d, h1, h2, h3, h4, h5⟩ := hi.path p r hr hrs
          refine ⟨d, h1, h2, h3, h4, ?_⟩
          intro j hj
          rcases h5 j hj with hO | hO
          · exact Or.inl (set_path_keep hslt hne hO)
          · simp at hO
      · intro p q r u hr hrs hu hus hk
        dsimp only at hr hu
        rw [set_get hslt] at hr hu
        split at hr <;> split at hu
        · omega
        · exfalso
          simp only [Option.some.injEq] at hr
          subst hr
          dsimp only at hk
          exact habs u.val (mem_items.mpr ⟨q, u, hu, hus, hk.symm, rfl⟩)
        · exfalso
          simp only [Option.some.injEq] at hu
          subst hu
          dsimp only at hk
          exact habs r.val (mem_items.mpr ⟨p, r, hr, hrs, hk, rfl⟩)
        · exact hi.uniq p q r u hr hrs hu hus hk
      · dsimp only
        rw [hperm.length_eq, List.length_cons, hw.num]
    · have hk : s.key = k := by rcases hc with hc | hc; exact absurd hc h0; exact hc
      rw [if_neg h0, if_neg (by simp [hk])]
      obtain ⟨l, hp1, hp2⟩ := items_replace hs h0 (e := { s with val := wrap 8 (s.val + a) }) h0
      dsimp only at hp2
      refine ⟨_, rfl, ⟨⟨by simpa using hl, ?_, ?_⟩, ?_⟩, rfl,
        Or.inl ⟨s.val, l, by rw [← hk]; exact hp1,
          by simpa [hk] using hp2, rfl⟩⟩
      · intro p r hr hrs
        dsimp only at hr ⊢
        rw [set_get hslt] at hr
        have hold : ∃ r', m.slots[p]? = some r' ∧ r'.st = r.st ∧ r'.key = r.key := by
          split at hr
          · rename_i hpe
            simp only [Option.some.injEq] at hr
            subst hr
            exact ⟨s, by rw [← hpe]; exact hs, rfl, rfl⟩
          · exact ⟨r, hr, rfl, rfl⟩
        obtain ⟨r', hr', hst', hk'⟩ := hold
        obtain ⟨d, h1, h2, h3, h4, h5⟩ := hi.path p r' hr' (by rw [hst']; exact hrs)
        rw [hst'] at h1
        rw [hk'] at h4 h5
        refine ⟨d, h1, h2, h3, h4, ?_⟩
        intro j hj
        rcases h5 j hj with hO | hO
        · exact Or.inl (set_path_keep (e := { s with val := wrap 8 (s.val + a) }) hslt h0 hO)
        · simp at hO
      · intro p q r u hr hrs hu hus hkk
        dsimp only at hr hu
        have hold : ∀ (p : Nat) (r : Slot κ),
            (m.slots.set ((c.hash k + i) % 2 ^ m.lg) { s with val := wrap 8 (s.val + a) })[p]? = some r →
            ∃ r', m.slots[p]? = some r' ∧ r'.st = r.st ∧ r'.key = r.key := by
          intro p r hr
          rw [set_get hslt] at hr
          split at hr
          · rename_i hpe
            simp only [Option.some.injEq] at hr
            subst hr
            exact ⟨s, by rw [← hpe]; exact hs, rfl, rfl⟩
          · exact ⟨r, hr, rfl, rfl⟩
        obtain ⟨r', hr', hst', hk'⟩ := hold p r hr
        obtain ⟨u', hu', hut', huk'⟩ := hold q u hu
        exact hi.uniq p q r' u' hr' (by rw [hst']; exact hrs) hu' (by rw [hut']; exact hus)
          (by rw [hk', huk', hkk])
      · dsimp only
        rw [hw.num, hp1.length_eq, hp2.length_eq, List.length_cons, List.length_cons]
  · left
    refine ⟨i, hi1, hov, ?_⟩
    unfold adjustOrPut
    rw [mask_eq hl, hloop]
    rfl

omit [DecidableEq κ] in
theorem items_replicate (n : Nat) (z : κ) : items (List.replicate n ⟨z, 0, 0⟩) = [] := by
  simp [items]

theorem newMap_wf (z : κ) (lg : Nat) : WF c (newMap z lg) := by
  refine ⟨⟨by simp [newMap], ?_, ?_⟩, by simp [newMap, items_replicate]⟩
  · intro p s hp hs
    have := List.mem_of_getElem? hp
    simp only [newMap, List.mem_replicate] at this
    rw [this.2] at hs; simp at hs
  · intro p q s r hp hs
    have := List.mem_of_getElem? hp
    simp only [newMap, List.mem_replicate] at this
    rw [this.2] at hs; simp at hs

end Verif.Freq
