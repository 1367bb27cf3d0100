import Verif.FreqTextModel
import Verif.FreqSerde

/-!
# Lemmas on the text form of the long sketch
-/

namespace Verif.Freq

theorem toDigits_digits (n : Nat) : (Nat.toDigits 10 n).all Char.isDigit = true := by
  rw [List.all_eq_true]
  intro ch h
  exact Nat.isDigit_of_mem_toDigits (by norm_num) (by norm_num) h

theorem parseUint_fmt {bits : Nat} {x : Int} (h0 : 0 ≤ x) (h1 : x < 2 ^ bits) :
    parseUint bits (fmtInt x) = .ok x.toNat := by
  have hx : x.natAbs = x.toNat := by omega
  have hlt : x.toNat < 2 ^ bits := by
    have : ((x.toNat : Nat) : Int) < ((2 ^ bits : Nat) : Int) := by
      push_cast
      rw [Int.toNat_of_nonneg h0]
      exact h1
    exact_mod_cast this
  have he : fmtInt x = Nat.toDigits 10 x.toNat := by unfold fmtInt; rw [if_neg (by omega), hx]
  unfold parseUint
  rw [he, if_neg (Nat.toDigits_ne_nil), if_pos (toDigits_digits _),
    Nat.ofDigitChars_ten_toDigits, if_pos hlt]

theorem parseUint_neg {bits : Nat} {x : Int} (h0 : x < 0) :
    parseUint bits (fmtInt x) = .err "invalid syntax" := by
  unfold parseUint fmtInt
  rw [if_pos h0, if_neg (by simp), if_neg (by simp)]

theorem parseInt_fmt {bits : Nat} (hb : 1 ≤ bits) {x : Int} (h0 : 0 ≤ x) (h1 : x < 2 ^ (bits - 1)) :
    parseInt bits (fmtInt x) = .ok x := by
  have h2 : x < 2 ^ bits := by
    refine lt_of_lt_of_le h1 ?_
    exact_mod_cast Nat.pow_le_pow_right (by norm_num) (by omega)
  have hp := parseUint_fmt h0 h2
  have hlt : ¬ 2 ^ (bits - 1) ≤ x.toNat := by
    intro h
    have : ((2 ^ (bits - 1) : Nat) : Int) ≤ ((x.toNat : Nat) : Int) := by exact_mod_cast h
    push_cast at this
    rw [Int.toNat_of_nonneg h0] at this
    omega
  have hd : ∃ ch r, fmtInt x = ch :: r ∧ ch.isDigit = true := by
    have he : fmtInt x = Nat.toDigits 10 x.natAbs := by unfold fmtInt; rw [if_neg (by omega)]
    have := toDigits_digits x.natAbs
    rw [← he] at this
    cases hc : fmtInt x with
    | nil => rw [hc] at he; exact absurd he.symm Nat.toDigits_ne_nil
    | cons ch r =>
      rw [hc] at this
      simp only [List.all_cons, Bool.and_eq_true] at this
      exact ⟨ch, r, rfl, this.1⟩
  obtain ⟨ch, r, e, hch⟩ := hd
  unfold parseInt
  have h3 : ch ≠ '-' := by rintro rfl; revert hch; decide
  have h4 : ch ≠ '+' := by rintro rfl; revert hch; decide
  rw [e]
  split
  · rename_i heq; cases heq; exact absurd rfl h3
  · rename_i heq; cases heq; exact absurd rfl h4
  · rw [← e, hp]
    show (if _ then _ else _) = _
    rw [if_neg hlt, Int.toNat_of_nonneg h0]

theorem fmt_no_comma (x : Int) : ',' ∉ fmtInt x := by
  have h : ∀ n : Nat, ',' ∉ Nat.toDigits 10 n := by
    intro n hn
    have := Nat.isDigit_of_mem_toDigits (by norm_num) (by norm_num) hn
    revert this
    decide
  unfold fmtInt
  split
  · simp [h]
  · exact h _

theorem split_none {t : List Char} (h : ',' ∉ t) : splitText t = [t] := by
  induction t with
  | nil => rfl
  | cons ch t ih =>
    rw [List.mem_cons, not_or] at h
    rw [splitText, if_neg (Ne.symm h.1), ih h.2]

theorem split_comma {t : List Char} (h : ',' ∉ t) (r : List Char) :
    splitText (t ++ ',' :: r) = t :: splitText r := by
  induction t with
  | nil => rw [List.nil_append, splitText, if_pos rfl]
  | cons ch t ih =>
    rw [List.mem_cons, not_or] at h
    rw [List.cons_append, splitText, if_neg (Ne.symm h.1), ih h.2]

/-- the text of a list of numbers, each followed by a comma, without the last comma -/
theorem split_fields : ∀ (xs : List Int), xs ≠ [] →
    splitText ((xs.flatMap field).dropLast) = xs.map fmtInt ∧
      (xs.flatMap field).getLast? = some ',' := by
  intro xs
  induction xs with
  | nil => intro h; exact absurd rfl h
  | cons x xs ih =>
    intro _
    cases hx : xs with
    | nil =>
      simp only [List.flatMap_cons, List.flatMap_nil, List.append_nil, List.map_cons, List.map_nil, field]
      rw [List.dropLast_concat, split_none (fmt_no_comma x)]
      simp
    | cons y ys =>
      rw [← hx]
      obtain ⟨i1, i2⟩ := ih (by rw [hx]; simp)
      have hne : xs.flatMap field ≠ [] := by
        intro h; rw [h] at i2; cases i2
      rw [List.flatMap_cons, List.dropLast_append_of_ne_nil hne, List.getLast?_append_of_ne_nil _ hne]
      refine ⟨?_, i2⟩
      rw [field, List.append_assoc, List.singleton_append, split_comma (fmt_no_comma x), i1, List.map_cons]

/-- the numbers of the text -/
def Sketch.numbers (s : Sketch Int) : List Int :=
  [1, 10, (s.lgMax : Int), (if s.map.num = 0 then 5 else 0), s.weight, s.offset, (s.map.num : Int),
    (s.map.slots.length : Int)] ++ (items s.map.slots).flatMap (fun e => [e.1, e.2])

theorem toText_eq (s : Sketch Int) : s.toText = s.numbers.flatMap field := by
  unfold Sketch.toText Sketch.numbers Map.toText
  have h : ∀ L : List (Slot Int), L.flatMap (fun s => field s.key ++ field s.val) =
      ((L.map (fun s => (s.key, s.val))).flatMap (fun e => [e.1, e.2])).flatMap field := by
    intro L
    induction L with
    | nil => rfl
    | cons e L ih => simp [ih]
  rw [h]
  simp [items]

theorem trailingZeros_pow : ∀ (lg fuel : Nat), lg < fuel → trailingZeros fuel (2 ^ lg) = lg := by
  intro lg
  induction lg with
  | zero => intro fuel h; cases fuel with
    | zero => omega
    | succ f => rfl
  | succ lg ih =>
    intro fuel h
    cases fuel with
    | zero => omega
    | succ f =>
      rw [trailingZeros, if_pos (by rw [Nat.pow_succ]; omega),
        show 2 ^ (lg + 1) / 2 = 2 ^ lg by rw [Nat.pow_succ]; omega, ih f (by omega)]

theorem token_eq {ts : List (List Char)} {i : Nat} {t : List Char} (h : ts[i]? = some t) :
    token ts i = .ok t := by
  unfold token
  rw [h]
  rfl

theorem putText_eq {c : Cfg Int} {m : Map Int} (hw : WF c m) (hnum : m.num < 2 ^ m.lg) (k a : Int) :
    putText c m k a = adjustOrPut c m k a := by
  obtain ⟨q, hq, f, hqf, hf0⟩ := free_of_items_lt (t := m.slots) (by rw [← hw.num, hw.inv.len]; omega)
  unfold putText
  rw [if_neg]
  intro h
  rw [List.all_eq_true] at h
  have := h f (List.mem_of_getElem? hqf)
  rw [decide_eq_true_eq] at this
  exact this.1 hf0

theorem readPairs_spec {c : Cfg Int} (hok : c.Ok) : ∀ (L : List (Int × Int)) (pre : List (List Char))
    (m : Map Int), WF c m → Fits c m.lg → 3 ≤ m.lg → m.num + L.length ≤ capOf (2 ^ m.lg) →
    (∀ e ∈ L, 0 ≤ e.1 ∧ e.1 < 2 ^ 63 ∧ 0 < e.2 ∧ e.2 < 2 ^ 63) → (L.map Prod.fst).Nodup →
    (∀ e ∈ L, ∀ v, (e.1, v) ∉ items m.slots) →
    (readPairs c (pre ++ (L.flatMap (fun e => [e.1, e.2])).map fmtInt) L.length pre.length m =
        .err "drift >= driftLimit" ∧ ∃ d, d < 2 ^ m.lg ∧ c.over d = true) ∨
    (∃ m', readPairs c (pre ++ (L.flatMap (fun e => [e.1, e.2])).map fmtInt) L.length pre.length m =
        .ok m' ∧ WF c m' ∧ m'.lg = m.lg ∧ (items m'.slots).Perm (L ++ items m.slots)) := by
  intro L
  induction L with
  | nil =>
    intro pre m hw _ _ _ _ _ _
    exact Or.inr ⟨m, rfl, hw, rfl, List.Perm.refl _⟩
  | cons e L ih =>
    intro pre m hw hf h3 hnum hb hnd hfresh
    obtain ⟨k, a⟩ := e
    obtain ⟨hk0, hk1, ha0, ha1⟩ := hb (k, a) (List.mem_cons_self ..)
    have hno := hfresh (k, a) (List.mem_cons_self ..)
    dsimp only at hk0 hk1 ha0 ha1 hno
    rw [List.length_cons] at hnum
    have hlt := capOf_lt h3
    have hts : pre ++ (((k, a) :: L).flatMap (fun e => [e.1, e.2])).map fmtInt =
        (pre ++ [fmtInt k, fmtInt a]) ++ (L.flatMap (fun e => [e.1, e.2])).map fmtInt := by
      simp [List.append_assoc]
    rw [hts]
    set ts := (pre ++ [fmtInt k, fmtInt a]) ++ (L.flatMap (fun e => [e.1, e.2])).map fmtInt with hts'
    have t0 : token ts pre.length = .ok (fmtInt k) := token_eq (by
      rw [hts', List.append_assoc, List.getElem?_append_right (le_refl _)]; simp)
    have t1 : token ts (pre.length + 1) = .ok (fmtInt a) := token_eq (by
      rw [hts', List.append_assoc, List.getElem?_append_right (by omega)]; simp)
    have s0 : toS 8 k.toNat = k := by
      have : toS 8 k.toNat = wrap 8 k := by
        unfold wrap
        congr 1
        unfold toU
        rw [Int.emod_eq_of_lt hk0 (by norm_num; omega)]
      rw [this, wrap_of_inRange (by constructor <;> norm_num <;> omega)]
    have s1 : toS 8 a.toNat = a := by
      have : toS 8 a.toNat = wrap 8 a := by
        unfold wrap
        congr 1
        unfold toU
        rw [Int.emod_eq_of_lt (by omega) (by norm_num; omega)]
      rw [this, wrap_of_inRange (by constructor <;> norm_num <;> omega)]
    rw [List.length_cons, readPairs, t0, t1]
    simp only [Outcome.bind]
    rw [parseUint_fmt hk0 (by norm_num; omega), parseUint_fmt (by omega) (by norm_num; omega)]
    simp only [Outcome.ok_bind]
    rw [s0, s1, putText_eq hw (by omega)]
    rcases adjustOrPut_spec hok hw hf (by omega) (by omega) k a with
      ⟨i, h1, h2, h3'⟩ | ⟨m', h1, h2, h3', h4⟩
    · left
      rw [h3']
      exact ⟨rfl, i + 1, h1, h2⟩
    · rcases h4 with ⟨v, l, p1, _⟩ | ⟨_, p, hn⟩
      · exact absurd (p1.mem_iff.2 (List.mem_cons_self ..)) (hno v)
      rw [h1]
      simp only [Outcome.ok_bind]
      rw [List.map_cons, List.nodup_cons] at hnd
      have := ih (pre ++ [fmtInt k, fmtInt a]) m' h2 (by rw [h3']; exact hf) (by omega)
        (by rw [h3']; omega) (fun e he => hb e (List.mem_cons_of_mem _ he)) hnd.2
        (by
          intro e he v hv
          rcases List.mem_cons.1 (p.mem_iff.1 hv) with h | h
          · exact hnd.1 (List.mem_map.2 ⟨e, he, (Prod.mk.inj h).1⟩)
          · exact hfresh e (List.mem_cons_of_mem _ he) v h)
      rw [List.length_append, List.length_cons, List.length_cons, List.length_nil, h3'] at this
      rcases this with ⟨u1, u2⟩ | ⟨m'', u1, u2, u3, u4⟩
      · exact Or.inl ⟨u1, u2⟩
      · exact Or.inr ⟨m'', u1, u2, u3, u4.trans ((p.append_left L).trans List.perm_middle)⟩

/-- the numbers before the counters -/
def Sketch.head8 (s : Sketch Int) : List Int :=
  [1, 10, (s.lgMax : Int), (if s.map.num = 0 then 5 else 0), s.weight, s.offset, (s.map.num : Int),
    (s.map.slots.length : Int)]

theorem numbers_split (s : Sketch Int) : s.numbers.map fmtInt =
    s.head8.map fmtInt ++ ((items s.map.slots).flatMap (fun e => [e.1, e.2])).map fmtInt := by
  rw [Sketch.numbers, ← Sketch.head8, List.map_append]

theorem fromText_tokens (hash : Int → Nat) (s : Sketch Int) :
    fromText hash s.toText = readTokens (cfg .longs hash) (s.numbers.map fmtInt) := by
  have hne : s.numbers ≠ [] := by simp [Sketch.numbers]
  obtain ⟨h1, h2⟩ := split_fields s.numbers hne
  unfold fromText
  rw [toText_eq]
  have h3 : s.numbers.flatMap field ≠ [] := by intro h; rw [h] at h2; cases h2
  rw [if_neg h3]
  simp only [h2, if_true]
  rw [h1, if_neg (by simp [Sketch.numbers])]

theorem number_at {s : Sketch Int} {i : Nat} {x : Int} (h : s.head8[i]? = some x) :
    token (s.numbers.map fmtInt) i = .ok (fmtInt x) := by
  apply token_eq
  have hi : i < s.head8.length := by
    by_contra hc
    rw [List.getElem?_eq_none (by omega)] at h
    cases h
  rw [numbers_split, List.getElem?_append_left (by simpa using hi), List.getElem?_map, h]
  rfl

/-- the first eight numbers are read back -/
theorem readTokens_head (c : Cfg Int) (s : Sketch Int) (hlm : s.lgMax < 2 ^ 31)
    (hw : 0 ≤ s.weight ∧ s.weight < 2 ^ 63) (ho : 0 ≤ s.offset ∧ s.offset < 2 ^ 63)
    (hn : s.map.num < 2 ^ 31) (hl : s.map.slots.length = 2 ^ s.map.lg) (hlg : s.map.lg < 32) :
    readTokens c (s.numbers.map fmtInt) = buildText c (s.numbers.map fmtInt) 1 10 s.lgMax
      (if s.map.num = 0 then 5 else 0) s.weight s.offset s.map.num s.map.lg := by
  have hp : (2 : Nat) ^ s.map.lg < 2 ^ 32 := Nat.pow_lt_pow_right (by norm_num) hlg
  unfold readTokens
  rw [number_at (s := s) (i := 0) rfl, number_at (s := s) (i := 1) rfl, number_at (s := s) (i := 2) rfl,
    number_at (s := s) (i := 3) rfl, number_at (s := s) (i := 4) rfl, number_at (s := s) (i := 5) rfl,
    number_at (s := s) (i := 6) rfl, number_at (s := s) (i := 7) rfl]
  simp only [Outcome.bind]
  rw [parseInt_fmt (by norm_num) (by norm_num) (by norm_num),
    parseInt_fmt (by norm_num) (by norm_num) (by norm_num),
    parseInt_fmt (by norm_num) (by omega) (by norm_num; omega),
    parseInt_fmt (by norm_num) (by split <;> norm_num) (by split <;> norm_num),
    parseInt_fmt (by norm_num) hw.1 (by norm_num; omega),
    parseInt_fmt (by norm_num) ho.1 (by norm_num; omega),
    parseInt_fmt (by norm_num) (by omega) (by norm_num; omega),
    parseUint_fmt (by omega) (by rw [hl]; exact_mod_cast hp)]
  simp only [Outcome.ok_bind]
  rw [Int.toNat_natCast, hl, trailingZeros_pow _ _ (by omega)]

theorem flat_length (L : List (Int × Int)) : (L.flatMap (fun e => [e.1, e.2])).length = 2 * L.length := by
  induction L with
  | nil => rfl
  | cons e L ih => rw [List.flatMap_cons, List.length_append, ih]; simp; omega

theorem pow_and_pred (lg : Nat) : 2 ^ lg &&& (2 ^ lg - 1) = 0 := by
  rw [Nat.and_two_pow_sub_one_eq_mod, Nat.mod_self]

/-- the map read, up to the counters -/
theorem build_eq (c : Cfg Int) (s : Sketch Int) (hw : WF c s.map) (h3 : 3 ≤ s.map.lg)
    (hn : s.map.num < 2 ^ 31) (hlg : s.map.lg < 32) :
    buildText c (s.numbers.map fmtInt) 1 10 s.lgMax (if s.map.num = 0 then 5 else 0) s.weight s.offset
        s.map.num s.map.lg =
      (readPairs c (s.numbers.map fmtInt) s.map.num 8 (newMap 0 s.map.lg)).bind fun m =>
        .ok (textSketch s.lgMax s.map.lg s.weight s.offset m) := by
  have hl : s.map.slots.length = 2 ^ s.map.lg := hw.inv.len
  have hp : (2 : Nat) ^ s.map.lg < 2 ^ 32 := Nat.pow_lt_pow_right (by norm_num) hlg
  have hp0 : 0 < (2 : Nat) ^ s.map.lg := Nat.two_pow_pos _
  have hlen : (s.numbers.map fmtInt).length = 8 + 2 * s.map.num := by
    rw [numbers_split, List.length_append, List.length_map, List.length_map, flat_length, hw.num]
    simp [Sketch.head8]
  unfold buildText
  rw [if_neg (by simp), if_neg (by simp), if_neg (by
    rintro ⟨h1, h2⟩
    have : s.map.num = 0 := by exact_mod_cast h2
    rw [if_pos this] at h1
    exact h1 (by norm_num)), if_neg (by rw [hlen]; push_cast; omega), if_neg (by omega)]
  congr 1
  unfold readMap
  rw [number_at (s := s) (i := 6) rfl, number_at (s := s) (i := 7) rfl]
  simp only [Outcome.ok_bind]
  have e6 : parseOrZero (fmtInt (s.map.num : Int)) = s.map.num := by
    unfold parseOrZero
    rw [parseUint_fmt (by omega) (by norm_num; omega)]
    simp
  have e7 : parseOrZero (fmtInt (s.map.slots.length : Int)) = 2 ^ s.map.lg := by
    unfold parseOrZero
    rw [parseUint_fmt (by omega) (by rw [hl]; exact_mod_cast hp)]
    rw [hl]
    exact_mod_cast Int.toNat_natCast (2 ^ s.map.lg)
  rw [e6, e7, pow_and_pred, if_neg (by rintro (h | h) <;> omega), Nat.log2_two_pow]

theorem fromText_full {hash : Int → Nat} {s : Sketch Int} {g : Nat} {f : Int → Int} {W : Int}
    (hi : SInv (cfg .longs hash) s g f W) (hf : Fits (cfg .longs hash) s.map.lg) (hlm : s.lgMax ≤ 31)
    (hP : ∀ e ∈ items s.map.slots, 0 ≤ e.1 ∧ e.1 < 2 ^ 63) :
    (fromText hash s.toText = .err "drift >= driftLimit" ∧
      ∃ d, d < 2 ^ s.map.lg ∧ (cfg .longs hash).over d = true) ∨
    ∃ t, fromText hash s.toText = .ok t ∧ Reread (cfg .longs hash) s t := by
  have h3 := hi.lg3
  have hM := hi.lgM
  have hwlt := hi.wlt
  have ho := hi.con.off0
  have htn := total_nonneg hi.con.pos
  have hol : s.offset ≤ W := by
    have := hi.con.off_le_goff hi.g1
    have := hi.con.budget
    omega
  have hW0 : 0 ≤ W := by omega
  have hcap := hi.cap
  have hnum := hi.num
  have hpow : (2 : Nat) ^ s.map.lg ≤ 2 ^ 31 := Nat.pow_le_pow_right (by norm_num) (by omega)
  have hnlt := hi.num_lt
  have hwt := hi.wt
  rw [fromText_tokens, readTokens_head _ _ (by omega) ⟨by omega, by omega⟩ ⟨by omega, by omega⟩
    (by omega) hi.wf.inv.len (by omega), build_eq _ _ hi.wf h3 (by omega) (by omega)]
  have hnil : items (newMap (0 : Int) s.map.lg).slots = [] := by
    have := (newMap_wf (c := cfg .longs hash) (0 : Int) s.map.lg).num
    exact List.eq_nil_of_length_eq_zero this.symm
  have hv : ∀ e ∈ items s.map.slots, e.2 < 2 ^ 63 := by
    intro e he
    have h1 := hi.con.total_le
    have h2 : e.2 ≤ total (items s.map.slots) := le_total hi.con.pos he
    omega
  have := readPairs_spec (c := cfg .longs hash) (cfg_ok .longs hash) (items s.map.slots)
    (s.head8.map fmtInt) (newMap 0 s.map.lg) (newMap_wf _ _) hf h3
    (by
      show 0 + _ ≤ capOf (2 ^ s.map.lg)
      rw [← hi.wf.num]
      omega)
    (fun e he => ⟨(hP e he).1, (hP e he).2, hi.con.pos e he, hv e he⟩) hi.wf.inv.keys_nodup
    (by intro e _ v hv; rw [hnil] at hv; cases hv)
  rw [← numbers_split, ← hi.wf.num] at this
  rcases this with ⟨e, d, h1, h2⟩ | ⟨m, e, h1, h2, h4⟩
  · left
    have e' : readPairs (cfg .longs hash) (s.numbers.map fmtInt) s.map.num 8 (newMap 0 s.map.lg) = _ := e
    rw [e']
    exact ⟨rfl, d, h1, h2⟩
  · right
    have e' : readPairs (cfg .longs hash) (s.numbers.map fmtInt) s.map.num 8 (newMap 0 s.map.lg) = _ := e
    rw [e']
    have hmx : (max (s.lgMax : Int) 3).toNat = s.lgMax := by omega
    refine ⟨_, rfl, ⟨?_, ?_, rfl, rfl, h1, h2, ?_, ?_⟩⟩
    · exact hmx
    · show capOf (2 ^ max s.map.lg 3) = s.curCap
      rw [hcap, Nat.max_eq_left h3]
    · rw [hnil, List.append_nil] at h4
      exact h4
    · show min 1024 (if (max (s.lgMax : Int) 3).toNat < 64 then _ else _) = _
      rw [hmx, if_pos (by omega)]

end Verif.Freq
