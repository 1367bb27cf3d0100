import Verif.FreqText

/-!
# Reading arbitrary texts: lemmas on termination
-/

namespace Verif.Freq

theorem adjustLoop_ends {c : Cfg Int} {t : List (Slot Int)} {lg : Nat} (hl : t.length = 2 ^ lg) (k : Int) :
    ∀ (d fuel a drift : Nat) (s : Slot Int), d < fuel → t[(a + d) % 2 ^ lg]? = some s →
      (s.st = 0 ∨ s.key = k) →
      (adjustLoop c t k fuel (a % 2 ^ lg) drift = .err "drift >= driftLimit") ∨
      ∃ p d' s', adjustLoop c t k fuel (a % 2 ^ lg) drift = .ok (p, d') ∧ t[p]? = some s' ∧
        (s'.st = 0 ∨ s'.key = k) ∧ drift ≤ d' ∧ (d' = drift ∨ c.over d' = false) := by
  intro d
  induction d with
  | zero =>
    intro fuel a drift s hf hs hc
    cases fuel with
    | zero => omega
    | succ fuel =>
      right
      refine ⟨a % 2 ^ lg, drift, s, ?_, hs, hc, le_refl _, Or.inl rfl⟩
      rw [adjustLoop, show t[a % 2 ^ lg]? = some s from hs]
      dsimp only
      rw [if_neg]
      rintro ⟨h1, h2⟩
      rcases hc with hc | hc
      · exact h1 hc
      · exact h2 hc
  | succ d ih =>
    intro fuel a drift s hf hs hc
    cases fuel with
    | zero => omega
    | succ fuel =>
      have hlt : a % 2 ^ lg < t.length := by rw [hl]; exact Nat.mod_lt _ (Nat.two_pow_pos _)
      obtain ⟨s0, hs0⟩ : ∃ s0, t[a % 2 ^ lg]? = some s0 := ⟨_, List.getElem?_eq_getElem hlt⟩
      rw [adjustLoop, hs0]
      dsimp only
      by_cases h : s0.st ≠ 0 ∧ s0.key ≠ k
      · rw [if_pos h]
        cases ho : c.over (drift + 1) with
        | true => left; rfl
        | false =>
          rw [if_neg (by simp), step_eq hl]
          rcases ih fuel (a + 1) (drift + 1) s (by omega) (by rw [← hs]; congr 2; omega) hc with
            e | ⟨p, d', s', e, h1, h2, h3, h4⟩
          · exact Or.inl e
          · refine Or.inr ⟨p, d', s', e, h1, h2, by omega, Or.inr ?_⟩
            rcases h4 with rfl | h4
            · exact ho
            · exact h4
      · rw [if_neg h]
        refine Or.inr ⟨_, _, s0, rfl, hs0, ?_, le_refl _, Or.inl rfl⟩
        by_cases h0 : s0.st = 0
        · exact Or.inl h0
        · right
          by_contra hk
          exact h ⟨h0, hk⟩

theorem hashProbeLoop_ends {t : List (Slot Int)} {lg : Nat} (hl : t.length = 2 ^ lg) (k : Int) :
    ∀ (d fuel a : Nat) (s : Slot Int), d < fuel → t[(a + d) % 2 ^ lg]? = some s → s.st = 0 →
      ∃ p s', hashProbeLoop t k fuel (a % 2 ^ lg) = .ok p ∧ t[p]? = some s' ∧ ¬ (s'.st > 0 ∧ s'.key ≠ k) := by
  intro d
  induction d with
  | zero =>
    intro fuel a s hf hs hc
    cases fuel with
    | zero => omega
    | succ fuel =>
      have h : ¬ (s.st > 0 ∧ s.key ≠ k) := by omega
      refine ⟨a % 2 ^ lg, s, ?_, hs, h⟩
      rw [hashProbeLoop, show t[a % 2 ^ lg]? = some s from hs]
      dsimp only
      rw [if_neg h]
  | succ d ih =>
    intro fuel a s hf hs hc
    cases fuel with
    | zero => omega
    | succ fuel =>
      have hlt : a % 2 ^ lg < t.length := by rw [hl]; exact Nat.mod_lt _ (Nat.two_pow_pos _)
      obtain ⟨s0, hs0⟩ : ∃ s0, t[a % 2 ^ lg]? = some s0 := ⟨_, List.getElem?_eq_getElem hlt⟩
      rw [hashProbeLoop, hs0]
      dsimp only
      by_cases h : s0.st > 0 ∧ s0.key ≠ k
      · rw [if_pos h, step_eq hl]
        exact ih fuel (a + 1) s (by omega) (by rw [← hs]; congr 2; omega) hc
      · rw [if_neg h]
        exact ⟨_, s0, rfl, hs0, h⟩

/-- what every map read from a text satisfies -/
structure Plain (m : Map Int) : Prop where
  len : m.slots.length = 2 ^ m.lg
  num : m.num = (items m.slots).length
  cap : m.num ≤ capOf (2 ^ m.lg) + 1

theorem plain_new (lg : Nat) : Plain (newMap (0 : Int) lg) := by
  refine ⟨by simp [newMap], ?_, by simp [newMap]⟩
  rw [show (newMap (0 : Int) lg).slots = List.replicate (2 ^ lg) ⟨0, 0, 0⟩ from rfl, items_replicate]
  rfl

theorem putText_plain {hash : Int → Nat} {m : Map Int} (hm : Plain m) (k a : Int) :
    (∃ e, putText (cfg .longs hash) m k a = .err e) ∨
    ∃ m', putText (cfg .longs hash) m k a = .ok m' ∧ Plain m' ∧ m'.lg = m.lg := by
  unfold putText
  split
  · exact Or.inl ⟨_, rfl⟩
  rename_i hall
  rw [List.all_eq_true] at hall
  push Not at hall
  obtain ⟨s, hs, hd⟩ := hall
  have hc : s.st = 0 ∨ s.key = k := by
    by_contra hcon
    push Not at hcon
    exact hd (decide_eq_true hcon)
  obtain ⟨p, hp⟩ := List.mem_iff_getElem?.1 hs
  obtain ⟨d, hd1, hd2⟩ := mod_reach (hash k) p (Nat.two_pow_pos m.lg) (by rw [← hm.len]; exact lt_of_some hp)
  unfold adjustOrPut
  rw [mask_eq hm.len]
  rcases adjustLoop_ends (c := cfg .longs hash) hm.len k d m.slots.length (hash k) 1 s
    (by rw [hm.len]; exact hd1) (by rw [hd2]; exact hp) hc with e | ⟨q, d', s', e, h1, h2, h3, h4⟩
  · left
    exact ⟨_, by rw [show (cfg .longs hash).hash k = hash k from rfl, e]; rfl⟩
  · rw [show (cfg .longs hash).hash k = hash k from rfl, e]
    simp only [Outcome.ok_bind, h1, Outcome.ofOption_some]
    by_cases h0 : s'.st = 0
    · rw [if_pos h0]
      by_cases hcap : m.num > capOf (2 ^ m.lg)
      · rw [if_pos hcap]; exact Or.inl ⟨_, rfl⟩
      · rw [if_neg hcap]
        right
        have hd' : d' < 1024 := by
          rcases h4 with rfl | h4
          · norm_num
          · simpa [cfg, Cfg.over] using h4
        have hw : wrap 2 (d' : Int) = d' := wrap_of_inRange (by constructor <;> norm_num <;> omega)
        have hne : wrap 2 (d' : Int) ≠ 0 := by rw [hw]; omega
        have hp := (items_fill h1 h0 (e := ⟨k, a, wrap 2 (d' : Int)⟩) hne).length_eq
        refine ⟨_, rfl, ⟨by simpa using hm.len, ?_, ?_⟩, rfl⟩
        · show m.num + 1 = _
          rw [hp, List.length_cons, hm.num]
        · show m.num + 1 ≤ capOf (2 ^ m.lg) + 1
          omega
    · have hk : s'.key = k := by
        rcases h2 with h2 | h2
        · exact absurd h2 h0
        · exact h2
      rw [if_neg h0, if_neg (by simpa using hk)]
      right
      obtain ⟨l, p1, p2⟩ := items_replace h1 h0 (e := { s' with val := wrap 8 (s'.val + a) }) h0
      refine ⟨_, rfl, ⟨by simpa using hm.len, ?_, hm.cap⟩, rfl⟩
      show m.num = _
      rw [p2.length_eq, hm.num, p1.length_eq]
      rfl

/-- with at least 8 slots a map read from a text answers every query -/
theorem plain_get {c : Cfg Int} {m : Map Int} (hm : Plain m) (h3 : 3 ≤ m.lg) (k : Int) :
    get c m.slots k ≠ .panic := by
  have hlt := capOf_lt h3
  have hfr : (items m.slots).length < m.slots.length := by
    rw [← hm.num, hm.len]
    have := hm.cap
    omega
  obtain ⟨p, hp, s, hs, h0⟩ := free_of_items_lt hfr
  obtain ⟨d, hd1, hd2⟩ := mod_reach (c.hash k) p (Nat.two_pow_pos m.lg) (by rw [← hm.len]; exact hp)
  obtain ⟨q, s', e, h1, _⟩ := hashProbeLoop_ends hm.len k d m.slots.length (c.hash k) s
    (by rw [hm.len]; exact hd1) (by rw [hd2]; exact hs) h0
  unfold get
  rw [mask_eq hm.len, e]
  simp only [Outcome.ok_bind, h1, Outcome.ofOption_some]
  split
  · split <;> simp
  · simp

theorem parseUint_total (bits : Nat) (s : List Char) : parseUint bits s ≠ .panic := by
  unfold parseUint
  split
  · simp
  · split
    · split <;> simp
    · simp

theorem parseUint_bind_total {β : Type} {bits : Nat} {s : List Char} {f : Nat → Outcome β}
    (h : ∀ n, f n ≠ .panic) : (parseUint bits s).bind f ≠ .panic := by
  cases e : parseUint bits s with
  | ok n => exact h n
  | err m => simp [Outcome.bind]
  | panic => exact absurd e (parseUint_total _ _)

theorem parseInt_total (bits : Nat) (s : List Char) : parseInt bits s ≠ .panic := by
  unfold parseInt
  split
  all_goals
    apply parseUint_bind_total
    intro n
    split <;> simp

theorem token_lt {ts : List (List Char)} {i : Nat} (h : i < ts.length) : token ts i = .ok ts[i] :=
  token_eq (List.getElem?_eq_getElem h)

theorem readPairs_total {hash : Int → Nat} (ts : List (List Char)) : ∀ (n j : Nat) (m : Map Int),
    j + 2 * n ≤ ts.length → Plain m →
    (∃ e, readPairs (cfg .longs hash) ts n j m = .err e) ∨
    ∃ m', readPairs (cfg .longs hash) ts n j m = .ok m' ∧ Plain m' ∧ m'.lg = m.lg := by
  intro n
  induction n with
  | zero => intro j m _ hm; exact Or.inr ⟨m, rfl, hm, rfl⟩
  | succ n ih =>
    intro j m hj hm
    rw [readPairs, token_lt (by omega : j < ts.length), token_lt (by omega : j + 1 < ts.length)]
    simp only [Outcome.bind]
    cases e1 : parseUint 64 ts[j] with
    | err e => exact Or.inl ⟨e, rfl⟩
    | panic => exact absurd e1 (parseUint_total _ _)
    | ok k =>
      simp only [Outcome.ok_bind]
      cases e2 : parseUint 64 ts[j + 1] with
      | err e => exact Or.inl ⟨e, rfl⟩
      | panic => exact absurd e2 (parseUint_total _ _)
      | ok a =>
        simp only [Outcome.ok_bind]
        rcases putText_plain hm (toS 8 k) (toS 8 a) (hash := hash) with ⟨e, h⟩ | ⟨m', h, h1, h2⟩
        · rw [h]; exact Or.inl ⟨e, rfl⟩
        · rw [h]
          simp only [Outcome.ok_bind]
          rcases ih (j + 2) m' (by omega) h1 with ⟨e, g⟩ | ⟨m'', g, g1, g2⟩
          · exact Or.inl ⟨e, g⟩
          · exact Or.inr ⟨m'', g, g1, g2.trans h2⟩

/-- the two readings of the number of counters agree -/
theorem parse_agree {s : List Char} {n : Int} (h : parseInt 32 s = .ok n) (hn : 0 ≤ n) :
    (parseOrZero s : Int) ≤ n := by
  unfold parseOrZero
  cases e : parseUint 32 s with
  | err _ => exact_mod_cast hn
  | panic => exact_mod_cast hn
  | ok m =>
    dsimp only
    unfold parseInt at h
    split at h
    · rename_i r
      have : parseUint 32 ('-' :: r) = .err "invalid syntax" := by
        unfold parseUint
        rw [if_neg (by simp), if_neg (by simp)]
      rw [this] at e; cases e
    · rename_i r
      have : parseUint 32 ('+' :: r) = .err "invalid syntax" := by
        unfold parseUint
        rw [if_neg (by simp), if_neg (by simp)]
      rw [this] at e; cases e
    · rw [e] at h
      simp only [Outcome.bind] at h
      split at h
      · cases h
      · cases h; exact le_refl _

theorem readMap_total {hash : Int → Nat} (ts : List (List Char)) (num : Int) (h8 : 8 ≤ ts.length)
    (hp : parseInt 32 ts[6] = .ok num) (hn : 2 * num = (ts.length : Int) - 6 - 2) :
    (∃ e, readMap (cfg .longs hash) ts = .err e) ∨
    ∃ m, readMap (cfg .longs hash) ts = .ok m ∧ Plain m ∧ m.lg = Nat.log2 (parseOrZero ts[7]) := by
  unfold readMap
  rw [token_lt (by omega : 6 < ts.length), token_lt (by omega : 7 < ts.length)]
  simp only [Outcome.ok_bind]
  split
  · exact Or.inl ⟨_, rfl⟩
  · have := parse_agree hp (by omega)
    exact readPairs_total ts _ 8 _ (by omega) (plain_new _)

/-- reading a text ends in an error or in a sketch with a plain map -/
theorem fromText_total (hash : Int → Nat) (str : List Char) :
    (∃ e, fromText hash str = .err e) ∨ ∃ s, fromText hash str = .ok s ∧ Plain s.map := by
  unfold fromText
  split
  · exact Or.inl ⟨_, rfl⟩
  dsimp only
  set ts := splitText (if str.getLast? = some ',' then str.dropLast else str) with hts
  split
  · exact Or.inl ⟨_, rfl⟩
  rename_i h8
  push Not at h8
  unfold readTokens
  rw [token_lt (by omega : 0 < ts.length), token_lt (by omega : 1 < ts.length),
    token_lt (by omega : 2 < ts.length), token_lt (by omega : 3 < ts.length),
    token_lt (by omega : 4 < ts.length), token_lt (by omega : 5 < ts.length),
    token_lt (by omega : 6 < ts.length), token_lt (by omega : 7 < ts.length)]
  simp only [Outcome.bind]
  have step : ∀ {α : Type} {x : Outcome α} {f : α → Outcome (Sketch Int)}, x ≠ .panic →
      (∀ a, x = .ok a → (∃ e, f a = .err e) ∨ ∃ s, f a = .ok s ∧ Plain s.map) →
      (∃ e, (x >>= f) = .err e) ∨ ∃ s, (x >>= f) = .ok s ∧ Plain s.map := by
    intro α x f hx hf
    cases x with
    | ok a => exact hf a rfl
    | err e => exact Or.inl ⟨e, rfl⟩
    | panic => exact absurd rfl hx
  refine step (parseInt_total _ _) fun a0 _ => step (parseInt_total _ _) fun a1 _ =>
    step (parseInt_total _ _) fun a2 _ => step (parseInt_total _ _) fun a3 _ =>
    step (parseInt_total _ _) fun a4 _ => step (parseInt_total _ _) fun a5 _ =>
    step (parseInt_total _ _) fun a6 h6 => step (parseUint_total _ _) fun a7 _ => ?_
  unfold buildText
  split
  · exact Or.inl ⟨_, rfl⟩
  split
  · exact Or.inl ⟨_, rfl⟩
  split
  · exact Or.inl ⟨_, rfl⟩
  split
  · exact Or.inl ⟨_, rfl⟩
  rename_i hn
  push Not at hn
  split
  · exact Or.inl ⟨_, rfl⟩
  rcases readMap_total (hash := hash) ts a6 h8 h6 hn with ⟨e, h⟩ | ⟨m, h, h1, _⟩
  · rw [h]; exact Or.inl ⟨e, rfl⟩
  · rw [h]; exact Or.inr ⟨_, rfl, h1⟩

/-- a negative key stops the reading -/
theorem readPairs_neg (c : Cfg Int) : ∀ (L : List (Int × Int)) (pre : List (List Char)) (m : Map Int),
    (∃ e ∈ L, e.1 < 0) →
    ∀ m', readPairs c (pre ++ (L.flatMap (fun e => [e.1, e.2])).map fmtInt) L.length pre.length m ≠ .ok m' := by
  intro L
  induction L with
  | nil => rintro pre m ⟨e, he, _⟩; cases he
  | cons e L ih =>
    intro pre m hneg m' h
    obtain ⟨k, a⟩ := e
    have hts : pre ++ (((k, a) :: L).flatMap (fun e => [e.1, e.2])).map fmtInt =
        (pre ++ [fmtInt k, fmtInt a]) ++ (L.flatMap (fun e => [e.1, e.2])).map fmtInt := by
      simp [List.append_assoc]
    rw [hts] at h
    set ts := (pre ++ [fmtInt k, fmtInt a]) ++ (L.flatMap (fun e => [e.1, e.2])).map fmtInt with hts'
    have t0 : token ts pre.length = .ok (fmtInt k) := token_eq (by
      rw [hts', List.append_assoc, List.getElem?_append_right (le_refl _)]; simp)
    rw [List.length_cons, readPairs, t0] at h
    obtain ⟨kk, h1, h⟩ := Outcome.bind_eq_ok.1 h
    obtain ⟨aa, _, h⟩ := Outcome.bind_eq_ok.1 h
    obtain ⟨m1, _, h⟩ := Outcome.bind_eq_ok.1 h
    by_cases hk : k < 0
    · have h1' : parseUint 64 (fmtInt k) = .ok kk := h1
      rw [parseUint_neg hk] at h1'
      cases h1'
    · obtain ⟨e', he', hl⟩ := hneg
      rcases List.mem_cons.1 he' with rfl | he'
      · exact hk hl
      · have := ih (pre ++ [fmtInt k, fmtInt a]) m1 ⟨e', he', hl⟩ m'
        rw [List.length_append] at this
        exact this h

end Verif.Freq
