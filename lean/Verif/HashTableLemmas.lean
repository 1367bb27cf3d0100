import Verif.HashTableModel
import Verif.QuickSelectProps

/-!
# Facts about the hash table of the theta and tuple sketches
-/

namespace Verif.HashTable

open Probe

variable {α : Type} {E : Elem α}

/-- occupied entries of a table, in slot order (what the iterator `All` yields) -/
def itemsOf (E : Elem α) (entries : List α) : List α := entries.filter (fun e => E.key e != 0)

theorem items_scheme (lg : Nat) (entries : List α) :
    (scheme E lg).items entries = itemsOf E entries := by
  simp [Scheme.items, itemsOf, scheme, bne]

theorem mem_itemsOf {entries : List α} {e : α} :
    e ∈ itemsOf E entries ↔ e ∈ entries ∧ E.key e ≠ 0 := by
  simp [itemsOf]

theorem scheme_ok {lg : Nat} (h : lg ≤ 32) : (scheme E lg).Ok lg (fun k => computeStride k lg) where
  size_eq := rfl
  start_lt := by
    intro k
    simp only [scheme, Nat.and_two_pow_sub_one_eq_mod]
    exact Nat.mod_lt _ (Nat.two_pow_pos lg)
  odd := by intro k; simp only [computeStride]; omega
  next_eq := by
    intro k i _
    simp only [scheme, Nat.and_two_pow_sub_one_eq_mod]
    exact Nat.mod_mod_of_dvd _ (pow_dvd_pow 2 h)

/-- chain invariant of the table's slots -/
abbrev TChain (E : Elem α) (lg : Nat) (entries : List α) : Prop :=
  Chain (scheme E lg) (fun k => computeStride k lg) entries

theorem emp_iff (lg : Nat) (e : α) : (scheme E lg).emp e = true ↔ E.key e = 0 := by simp [scheme]

theorem emp_false_iff (lg : Nat) (e : α) : (scheme E lg).emp e = false ↔ E.key e ≠ 0 := by
  simp [scheme]

theorem TChain.keys_nodup {lg : Nat} {entries : List α} (h : TChain E lg entries) :
    ((itemsOf E entries).map E.key).Nodup := by
  have := Chain.keys_nodup h
  rwa [items_scheme] at this

theorem TChain.replicate (E : Elem α) (lg : Nat) :
    TChain E lg (List.replicate (2 ^ lg) E.zero) :=
  Chain.empty (s := scheme E lg) (z := E.zero) (by simp [scheme, E.key_zero])

theorem itemsOf_replicate (n : Nat) : itemsOf E (List.replicate n E.zero) = [] := by
  simp [itemsOf, E.key_zero]

/-- Searching an absent non-zero key in a table with a free slot. -/
theorem TChain.find_absent {lg : Nat} (hlg : lg ≤ 32) {entries : List α} (h : TChain E lg entries)
    (k : Nat) (habs : ∀ e ∈ itemsOf E entries, E.key e ≠ k)
    (hfree : (itemsOf E entries).length < 2 ^ lg) :
    ∃ p, findIn E entries lg k = .empty p ∧ p < entries.length ∧
      (∃ f, entries[p]? = some f ∧ E.key f = 0) := by
  have hfr : ∃ (p : Nat) (e : α), entries[p]? = some e ∧ (scheme E lg).emp e = true := by
    rw [items_length_lt_of_free, items_scheme, h.len]; exact hfree
  obtain ⟨i, e, hi, hp, he, -, hf⟩ := Chain.find_absent h.len (scheme_ok hlg) k
    (by
      intro p e hp he
      apply habs
      rw [mem_itemsOf]
      exact ⟨List.mem_of_getElem? hp, (emp_false_iff lg e).mp he⟩) hfr
  refine ⟨_, hf, ?_, e, hp, (emp_iff lg e).mp he⟩
  by_contra hcon
  rw [List.getElem?_eq_none (by omega)] at hp; cases hp

theorem TChain.find_present {lg : Nat} (hlg : lg ≤ 32) {entries : List α} (h : TChain E lg entries)
    {e : α} (he : e ∈ itemsOf E entries) :
    ∃ p, findIn E entries lg (E.key e) = .found p ∧ entries[p]? = some e := by
  rw [mem_itemsOf] at he
  obtain ⟨p, hp⟩ := List.mem_iff_getElem?.mp he.1
  exact ⟨p, Chain.find_present h (scheme_ok hlg) hp ((emp_false_iff lg e).mpr he.2), hp⟩

theorem TChain.find_found {lg : Nat} (hlg : lg ≤ 32) {entries : List α} (h : TChain E lg entries)
    {k p : Nat} (hf : findIn E entries lg k = .found p) :
    ∃ e, entries[p]? = some e ∧ E.key e ≠ 0 ∧ E.key e = k := by
  obtain ⟨e, h1, h2, h3⟩ := (scheme_ok (E := E) hlg).find_found h.len hf
  exact ⟨e, h1, (emp_false_iff lg e).mp h2, h3⟩

/-- Insertion at the slot reported by the search. -/
theorem TChain.set_empty {lg : Nat} (hlg : lg ≤ 32) {entries : List α} (h : TChain E lg entries)
    {e : α} (he : E.key e ≠ 0) {p : Nat} (hf : findIn E entries lg (E.key e) = .empty p) :
    TChain E lg (entries.set p e) ∧
      (itemsOf E (entries.set p e)).Perm (e :: itemsOf E entries) ∧
      (∀ x ∈ itemsOf E entries, E.key x ≠ E.key e) ∧ p < entries.length := by
  have he' : (scheme E lg).emp e = false := (emp_false_iff lg e).mpr he
  obtain ⟨i, f, hi, hpi, hp, hfe, -⟩ := (scheme_ok (E := E) hlg).find_empty h.len hf
  refine ⟨Chain.insert h (scheme_ok hlg) he' hf, ?_, ?_, ?_⟩
  · have := items_set_empty (s := scheme E lg) hp hfe he'
    rwa [items_scheme, items_scheme] at this
  · intro x hx
    rw [mem_itemsOf] at hx
    obtain ⟨q, hq⟩ := List.mem_iff_getElem?.mp hx.1
    exact Chain.absent_of_empty h (scheme_ok hlg) hf q x hq ((emp_false_iff lg x).mpr hx.2)
  · by_contra hcon
    rw [List.getElem?_eq_none (by omega)] at hp; cases hp

/-- Re-inserting a list of entries with distinct non-zero keys. -/
theorem placeEach_spec {lg : Nat} (hlg : lg ≤ 32) : ∀ (l entries : List α), TChain E lg entries →
    (l.map E.key).Nodup → (∀ e ∈ l, E.key e ≠ 0) →
    (∀ e ∈ l, ∀ x ∈ itemsOf E entries, E.key x ≠ E.key e) →
    (itemsOf E entries).length + l.length ≤ 2 ^ lg →
    ∃ entries', placeEach E lg entries l = .ok entries' ∧ TChain E lg entries' ∧
      (itemsOf E entries').Perm (l ++ itemsOf E entries) := by
  intro l
  induction l with
  | nil => intro entries hc _ _ _ _; exact ⟨entries, rfl, hc, List.Perm.refl _⟩
  | cons e l ih =>
    intro entries hc hnd hnz hdis hlen
    rw [List.map_cons, List.nodup_cons] at hnd
    simp only [List.length_cons] at hlen
    obtain ⟨p, hf, hp, -⟩ := hc.find_absent hlg (E.key e) (hdis e (by simp)) (by omega)
    obtain ⟨hc', hperm, -, -⟩ := hc.set_empty hlg (hnz e (by simp)) hf
    obtain ⟨es, e1, c1, p1⟩ := ih (entries.set p e) hc' hnd.2 (fun x hx => hnz x (by simp [hx]))
      (by
        intro x hx y hy
        rcases List.mem_cons.mp (hperm.mem_iff.mp hy) with rfl | hy
        · intro hcon
          apply hnd.1
          rw [hcon]
          exact List.mem_map_of_mem hx
        · exact hdis x (by simp [hx]) y hy)
      (by rw [hperm.length_eq, List.length_cons]; omega)
    refine ⟨es, ?_, c1, ?_⟩
    · rw [placeEach, place, hf]; exact e1
    · refine p1.trans ?_
      refine (hperm.append_left l).trans ?_
      simp

theorem placeAll_eq {lg : Nat} : ∀ (l entries : List α),
    placeAll E lg entries l = placeEach E lg entries (l.filter (fun e => E.key e != 0)) := by
  intro l
  induction l with
  | nil => intro entries; rfl
  | cons e l ih =>
    intro entries
    by_cases h : E.key e = 0
    · rw [placeAll, if_neg (by simp [h]), ih, List.filter_cons_of_neg (by simp [h])]
    · rw [placeAll, if_pos h, List.filter_cons_of_pos (by simp [h]), placeEach]
      cases hp : place E lg entries e with
      | ok es => simp only [Outcome.ok_bind]; exact ih es
      | err m => rfl
      | panic => rfl

theorem resize_spec (t : Table α) (hchain : TChain E t.lgCur t.entries)
    (lgNew : Nat) (hnew : lgNew = min ((t.lgCur + t.rf) % 256) ((t.lgNom + 1) % 256))
    (hlg : lgNew ≤ 32) (hfit : (itemsOf E t.entries).length ≤ 2 ^ lgNew) :
    ∃ es, t.resize E = .ok { t with entries := es, lgCur := lgNew } ∧ TChain E lgNew es ∧
      (itemsOf E es).Perm (itemsOf E t.entries) := by
  have hlen : t.entries.length = 2 ^ t.lgCur := hchain.len
  obtain ⟨es, e1, c1, p1⟩ := placeEach_spec hlg (itemsOf E t.entries)
    (List.replicate (2 ^ lgNew) E.zero) (TChain.replicate E lgNew) hchain.keys_nodup
    (fun e he => (mem_itemsOf.mp he).2) (by simp [itemsOf_replicate])
    (by simpa [itemsOf_replicate] using hfit)
  refine ⟨es, ?_, c1, by simpa [itemsOf_replicate] using p1⟩
  unfold Table.resize
  simp only [← hnew]
  rw [if_neg (by omega), List.take_of_length_le (by omega), placeAll_eq]
  change (placeEach E lgNew _ (itemsOf E t.entries) >>= _) = _
  rw [e1]; rfl

theorem firstEmpty_spec (entries : List α) : ∀ (fuel i : Nat), i ≤ entries.length →
    entries.length < fuel + i → (∀ k, k < i → ∃ e, entries[k]? = some e ∧ E.key e ≠ 0) →
    ∃ i', firstEmpty E entries entries.length fuel i = .ok i' ∧ i' ≤ entries.length ∧
      (∀ k, k < i' → ∃ e, entries[k]? = some e ∧ E.key e ≠ 0) ∧
      (i' < entries.length → ∃ e, entries[i']? = some e ∧ E.key e = 0) := by
  intro fuel
  induction fuel with
  | zero => intro i h1 h2 _; omega
  | succ fuel ih =>
    intro i h1 h2 hprev
    rw [firstEmpty]
    by_cases hi : i < entries.length
    · rw [if_pos hi, List.getElem?_eq_getElem hi]
      simp only
      by_cases hk : E.key entries[i] = 0
      · rw [if_neg (by simp [hk])]
        exact ⟨i, rfl, h1, hprev, fun _ => ⟨_, List.getElem?_eq_getElem hi, hk⟩⟩
      · rw [if_pos hk]
        apply ih (i + 1) (by omega) (by omega)
        intro k hk'
        by_cases hki : k = i
        · subst hki; exact ⟨_, List.getElem?_eq_getElem hi, hk⟩
        · exact hprev k (by omega)
    · rw [if_neg hi]
      exact ⟨i, rfl, h1, hprev, fun h => absurd h hi⟩

theorem itemsOf_append (a b : List α) : itemsOf E (a ++ b) = itemsOf E a ++ itemsOf E b := by
  simp [itemsOf]

theorem take_succ_set {l : List α} {i : Nat} {e : α} (h : i < l.length) :
    (l.set i e).take (i + 1) = l.take i ++ [e] := by
  rw [List.take_add_one, List.getElem?_set_self h, List.take_set_of_le (le_refl _)]
  simp

theorem consolidateLoop_spec (orig : List α) (num : Nat) (hnum : (itemsOf E orig).length = num) :
    ∀ (fuel : Nat) (entries : List α) (i j : Nat), entries.length = orig.length → i < j →
      j ≤ orig.length → orig.length < fuel + j → entries.take i = itemsOf E (orig.take j) →
      entries.drop j = orig.drop j →
      ∃ es, consolidateLoop E orig.length num fuel entries i j = .ok es ∧
        es.length = orig.length ∧ es.take num = itemsOf E orig := by
  intro fuel
  induction fuel with
  | zero => intro entries i j _ _ h1 h2; omega
  | succ fuel ih =>
    intro entries i j hlen hij hj hfuel htake hdrop
    rw [consolidateLoop]
    have hsplit : itemsOf E orig = itemsOf E (orig.take j) ++ itemsOf E (orig.drop j) := by
      rw [← itemsOf_append, List.take_append_drop]
    have hi_len : (itemsOf E (orig.take j)).length = i := by
      rw [← htake, List.length_take]; omega
    by_cases hjs : j < orig.length
    · have hget : entries[j]? = some orig[j] := by
        have := congrArg (fun l => l[0]?) hdrop
        simp only [List.getElem?_drop, Nat.add_zero] at this
        rw [this, List.getElem?_eq_getElem hjs]
      have htk : orig.take (j + 1) = orig.take j ++ [orig[j]] := by
        rw [List.take_add_one, List.getElem?_eq_getElem hjs]; rfl
      have hdrop' : ∀ (l : List α), l.drop j = orig.drop j → l.drop (j + 1) = orig.drop (j + 1) := by
        intro l hl
        rw [← List.drop_drop, ← List.drop_drop, hl]
      rw [if_pos hjs, hget]
      simp only
      by_cases hk : E.key orig[j] = 0
      · rw [if_neg (by simp [hk])]
        refine ih entries i (j + 1) hlen (by omega) (by omega) (by omega) ?_ (hdrop' _ hdrop)
        rw [htk, itemsOf_append, htake]
        simp [itemsOf, hk]
      · rw [if_pos hk]
        have htake' : ((entries.set i orig[j]).set j E.zero).take (i + 1) =
            itemsOf E (orig.take (j + 1)) := by
          rw [List.take_set_of_le (by omega), take_succ_set (by omega), htake, htk, itemsOf_append]
          simp [itemsOf, hk]
        have hlen' : ((entries.set i orig[j]).set j E.zero).length = orig.length := by simp [hlen]
        by_cases hn : i + 1 = num
        · rw [if_pos hn]
          refine ⟨_, rfl, hlen', ?_⟩
          rw [← hn, htake']
          have h1 : (itemsOf E (orig.take (j + 1))).length = i + 1 := by
            rw [← htake', List.length_take]; omega
          have h2 : itemsOf E orig = itemsOf E (orig.take (j + 1)) ++ itemsOf E (orig.drop (j + 1)) := by
            rw [← itemsOf_append, List.take_append_drop]
          have h3 : (itemsOf E (orig.drop (j + 1))).length = 0 := by
            have := congrArg List.length h2
            rw [List.length_append] at this; omega
          rw [h2, List.eq_nil_of_length_eq_zero h3, List.append_nil]
        · rw [if_neg hn]
          refine ih _ (i + 1) (j + 1) hlen' (by omega) (by omega) (by omega) htake' ?_
          rw [List.drop_set_of_lt (by omega), List.drop_set_of_lt (by omega)]
          exact hdrop' _ hdrop
    · rw [if_neg hjs]
      refine ⟨entries, rfl, hlen, ?_⟩
      have : j = orig.length := by omega
      subst this
      rw [List.take_length] at htake hi_len
      rw [show num = i by omega]; exact htake

theorem consolidate_spec (entries : List α) :
    ∃ es, consolidateNonEmpty E entries entries.length (itemsOf E entries).length = .ok es ∧
      es.length = entries.length ∧ es.take (itemsOf E entries).length = itemsOf E entries := by
  obtain ⟨i, e1, hi, hprev, hat⟩ := firstEmpty_spec (E := E) entries (entries.length + 1) 0
    (by omega) (by omega) (by intro k hk; omega)
  unfold consolidateNonEmpty
  rw [e1]
  simp only [Outcome.ok_bind]
  have hall : itemsOf E (entries.take i) = entries.take i := by
    rw [itemsOf, List.filter_eq_self]
    intro x hx
    obtain ⟨k, hk, rfl⟩ := List.mem_iff_getElem.mp hx
    simp only [List.length_take] at hk
    obtain ⟨e, he, hne⟩ := hprev k (by omega)
    rw [List.getElem_take]
    rw [List.getElem?_eq_getElem (by omega)] at he
    simp only [Option.some.injEq] at he
    rw [he]; simpa using hne
  by_cases hlt : i < entries.length
  · obtain ⟨e, he, hk⟩ := hat hlt
    apply consolidateLoop_spec entries _ rfl (entries.length + 1) entries i (i + 1) rfl (by omega)
      (by omega) (by omega)
    · rw [List.take_add_one, he, itemsOf_append, hall]
      simp [itemsOf, hk]
    · rfl
  · have hie : i = entries.length := by omega
    rw [consolidateLoop, if_neg (by omega)]
    refine ⟨entries, rfl, rfl, ?_⟩
    rw [hie, List.take_length] at hall
    rw [hall, List.take_length]

theorem ltKey_strictWeak : QuickSelect.StrictWeak (ltKey E) where
  irrefl a := by simp [ltKey]
  trans a b c := by simp only [ltKey, decide_eq_true_eq]; exact lt_trans
  negtrans a b c := by
    simp only [ltKey, decide_eq_false_iff_not, not_lt]
    intro h1 h2; exact le_trans h2 h1

/-- What `rebuild` does: theta becomes the key of some retained entry, exactly `2^lgNom` entries
remain, namely those with a key below the new theta. -/
theorem rebuild_spec (t : Table α) (hchain : TChain E t.lgCur t.entries) (hlg : t.lgCur ≤ 32)
    (hnum : t.numEntries = (itemsOf E t.entries).length) (hnom : 2 ^ t.lgNom < t.numEntries) :
    ∃ es pivot, pivot ∈ itemsOf E t.entries ∧
      t.rebuild E = .ok { t with entries := es, numEntries := 2 ^ t.lgNom, theta := E.key pivot } ∧
      TChain E t.lgCur es ∧ (itemsOf E es).length = 2 ^ t.lgNom ∧
      (itemsOf E es).Perm ((itemsOf E t.entries).filter (fun e => decide (E.key e < E.key pivot))) := by
  have hlen : t.entries.length = 2 ^ t.lgCur := hchain.len
  have hpos := Nat.two_pow_pos t.lgNom
  obtain ⟨es, e1, l1, t1⟩ := consolidate_spec (E := E) t.entries
  rw [hlen, ← hnum] at e1
  rw [← hnum] at t1
  have hle : (itemsOf E t.entries).length ≤ t.entries.length := List.length_filter_le _ _
  have hnd := hchain.keys_nodup
  generalize hI : itemsOf E t.entries = I at *
  obtain ⟨pre, v, q, hperm, -, hv, hL, hR⟩ :=
    QuickSelect.C05_quickSelect_splits (ltKey E) ltKey_strictWeak I 0 (t.numEntries - 1)
      (2 ^ t.lgNom) (by omega) (by omega) (by omega)
  rw [show ((t.numEntries - 1 : Nat) : Int) = (t.numEntries : Int) - 1 by omega] at q
  have hplen : pre.length = t.numEntries := by rw [hperm.length_eq, ← hnum]
  have hndp : (pre.map E.key).Nodup := (hperm.map E.key).nodup_iff.mpr hnd
  have hv' : pre[2 ^ t.lgNom]'(by omega) = v := by
    rw [List.getElem?_eq_getElem (by omega)] at hv; simpa using hv
  have hsub : ∀ e ∈ I, E.key e ≠ 0 := by
    intro e he; rw [← hI] at he; exact (mem_itemsOf.mp he).2
  -- the kept part is exactly the part below the pivot
  have hkeep : (pre.take (2 ^ t.lgNom)) = pre.filter (fun e => decide (E.key e < E.key v)) := by
    have hdec : pre = pre.take (2 ^ t.lgNom) ++ pre.drop (2 ^ t.lgNom) :=
      (List.take_append_drop _ _).symm
    conv_rhs => rw [hdec]
    rw [List.filter_append]
    have hA : (pre.take (2 ^ t.lgNom)).filter (fun e => decide (E.key e < E.key v)) =
        pre.take (2 ^ t.lgNom) := by
      rw [List.filter_eq_self]
      intro x hx
      obtain ⟨k, hk, rfl⟩ := List.mem_iff_getElem.mp hx
      simp only [List.length_take] at hk
      rw [List.getElem_take]
      have h1 := hL k pre[k] (by omega) (by omega) (List.getElem?_eq_getElem (by omega))
      simp only [ltKey, decide_eq_false_iff_not, not_lt] at h1
      have hne : E.key pre[k] ≠ E.key v := by
        intro hcon
        rw [← hv'] at hcon
        have := List.nodup_iff_injective_getElem.mp hndp
        have h2 := @this ⟨k, by simp; omega⟩ ⟨2 ^ t.lgNom, by simp; omega⟩ (by simpa using hcon)
        simp at h2; omega
      simp only [decide_eq_true_eq]; omega
    have hB : (pre.drop (2 ^ t.lgNom)).filter (fun e => decide (E.key e < E.key v)) = [] := by
      rw [List.filter_eq_nil_iff]
      intro x hx
      obtain ⟨k, hk, rfl⟩ := List.mem_iff_getElem.mp hx
      simp only [List.length_drop] at hk
      rw [List.getElem_drop]
      have h1 := hR (2 ^ t.lgNom + k) pre[2 ^ t.lgNom + k] (by omega) (by omega)
        (List.getElem?_eq_getElem (by omega))
      simp only [ltKey, decide_eq_false_iff_not, not_lt] at h1
      simp only [decide_eq_true_eq]; omega
    rw [hA, hB, List.append_nil]
  have hvI : v ∈ I := by
    apply hperm.mem_iff.mp
    rw [← hv']; exact List.getElem_mem _
  have hkeepnd : ((pre.take (2 ^ t.lgNom)).map E.key).Nodup := by
    rw [List.map_take]; exact hndp.sublist (List.take_sublist _ _)
  obtain ⟨new, n1, c1, p1⟩ := placeEach_spec hlg (pre.take (2 ^ t.lgNom))
    (List.replicate (2 ^ t.lgCur) E.zero) (TChain.replicate E t.lgCur) hkeepnd
    (fun e he => hsub e (hperm.mem_iff.mp (List.mem_of_mem_take he)))
    (by simp [itemsOf_replicate])
    (by
      simp only [itemsOf_replicate, List.length_nil, List.length_take]
      omega)
  rw [itemsOf_replicate, List.append_nil] at p1
  refine ⟨new, v, hvI, ?_, c1, ?_, ?_⟩
  · unfold Table.rebuild
    rw [e1]
    simp only [Outcome.ok_bind]
    rw [if_neg (by omega), t1, q]
    simp only
    rw [List.getElem?_append_left (by omega), hv]
    simp only
    rw [List.take_append_of_le_length (by omega), n1]
    rfl
  · rw [p1.length_eq, List.length_take]; omega
  · rw [hkeep] at p1
    exact p1.trans (hperm.filter _)

end Verif.HashTable
