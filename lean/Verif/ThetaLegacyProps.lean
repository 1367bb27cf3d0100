import Verif.ThetaSerdeProps

/-!
# C118: theta sketches written by old versions of the library

Serial versions 1 and 2 are only read, never written, by this code.  Their layout is stated here
on its own: eight bytes (preamble size in longs, serial version, type 3, three bytes that are not
read, two bytes of seed hash), then for sketches that are not in the one-long form the number of
retained hashes (four bytes) and four unused bytes, then theta (three-long form only), then the
hashes, each in eight bytes, little-endian.
-/

namespace Verif.Theta

/-- the first eight bytes -/
def oldHead (pre ver a b c seedHash : Nat) : List Nat := [pre, ver, 3, a, b, c] ++ toLE 2 seedHash

/-- the form with theta -/
def oldEstimation (ver a b c seedHash theta : Nat) (unused entries : List Nat) : List Nat :=
  oldHead 3 ver a b c seedHash
    ++ (toLE 4 entries.length ++ (unused ++ (toLE 8 theta ++ entries.flatMap (toLE 8))))

/-- the form without theta -/
def oldExact (a b c seedHash : Nat) (unused entries : List Nat) : List Nat :=
  oldHead 2 2 a b c seedHash
    ++ (toLE 4 entries.length ++ (unused ++ entries.flatMap (toLE 8)))

theorem decodeOld_spec {img head unused entries rest : List Nat} {sh theta : Nat}
    (hhead : head.length = 8) (hun : unused.length = 4) (hlen : entries.length < 2 ^ 32)
    (hth : theta < 2 ^ 64) (hent : ∀ e ∈ entries, e < 2 ^ 64)
    (himg : img = head
      ++ (toLE 4 entries.length ++ (unused ++ (toLE 8 theta ++ (entryBytes entries ++ rest))))) :
    ∃ d, decodeOld img sh = .ok d ∧ d.seedHash = sh ∧ d.theta = theta ∧
      d.isEmpty = decide (entries = [] ∧ theta = maxTheta) ∧ d.isOrdered = true ∧
      decodeEntries d img = .ok entries := by
  have hn : getLE img 8 4 = .ok entries.length := by
    rw [himg, getLE_append (by omega), Nat.mod_eq_of_lt (by simpa using hlen)]
  have ht : getLE img 16 8 = .ok theta := by
    have : img = (head ++ toLE 4 entries.length ++ unused)
        ++ (toLE 8 theta ++ (entryBytes entries ++ rest)) := by rw [himg]; simp
    rw [this, getLE_append (by simp [hhead, hun]), Nat.mod_eq_of_lt (by simpa using hth)]
  have hr : readEntries img 24 entries.length 0 = .ok entries := by
    have : img = (head ++ toLE 4 entries.length ++ unused ++ toLE 8 theta)
        ++ (entryBytes entries ++ rest) := by rw [himg]; simp
    rw [this]
    exact readEntries_spec rest entries _ 24 0 hent (by simp [hhead, hun])
  have hl : (3 + entries.length) * 8 ≤ img.length := by
    rw [himg]
    simp only [List.length_append, toLE_length, entryBytes_length, hhead, hun]
    omega
  unfold decodeOld
  simp only [hn, ht, Outcome.ok_bind]
  by_cases h : entries.length = 0 ∧ theta = maxTheta
  · rw [if_pos h]
    have h0 : entries = [] := List.length_eq_zero_iff.1 h.1
    refine ⟨_, rfl, rfl, rfl, ?_, rfl, ?_⟩
    · simp [h0, h.2]
    · simp [decodeEntries, readEntries, h0]
  · rw [if_neg h, validateSize_ok hl]
    refine ⟨_, rfl, rfl, rfl, ?_, rfl, ?_⟩
    · rw [List.length_eq_zero_iff] at h
      simp [h]
    · simp only [decodeEntries, if_true]
      exact hr

theorem ordered_any (l : List Nat) : (if l.length ≤ 1 then true else true) = true := by
  split <;> rfl

/-- C118: serial version 1.  There is no seed hash in the image: the sketch gets the one of the
decoder.  A sketch without hashes is empty only if theta is the maximum. -/
theorem C118_version1 {sh theta stored a b c : Nat} {unused entries : List Nat} (rest : List Nat)
    (hun : unused.length = 4) (hlen : entries.length < 2 ^ 32) (hth : theta < 2 ^ 64)
    (hent : ∀ e ∈ entries, e < 2 ^ 64) :
    decode (.ok sh) (oldEstimation 1 a b c stored theta unused entries ++ rest)
      = .ok ⟨entries, theta, sh, decide (entries = [] ∧ theta = maxTheta), true⟩ := by
  generalize himg : oldEstimation 1 a b c stored theta unused entries ++ rest = img
  have himg' : img = oldHead 3 1 a b c stored ++ (toLE 4 entries.length ++ (unused
      ++ (toLE 8 theta ++ (entryBytes entries ++ rest)))) := by
    rw [← himg]; simp [oldEstimation, entryBytes]
  obtain ⟨d, h1, h2, h3, h4, h5, h6⟩ := decodeOld_spec (sh := sh) (by simp [oldHead]) hun hlen hth
    hent himg'
  have g2 : getLE img 2 1 = .ok 3 := getLE_one (by rw [himg']; rfl)
  have g1 : getLE img 1 1 = .ok 1 := getLE_one (by rw [himg']; rfl)
  unfold decode decodeData
  rw [validateSize_ok (by rw [himg']; simp [oldHead])]
  simp only [Outcome.ok_bind, g2, g1]
  simp only [ne_eq, not_true_eq_false, if_false, if_true, show (1 : Nat) ≠ 4 from by decide,
    show (1 : Nat) ≠ 3 from by decide, show (1 : Nat) ≠ 2 from by decide]
  unfold decodeV1
  simp only [Outcome.ok_bind, h1, h6, Outcome.pure_eq, compactFromEntries, h2, h3, h4, h5,
    ordered_any]

/-- C118: serial version 2, three-long form. -/
theorem C118_version2_estimation {sh theta a b c : Nat} {unused entries : List Nat}
    (rest : List Nat) (hsh : sh < 2 ^ 16) (hun : unused.length = 4)
    (hlen : entries.length < 2 ^ 32) (hth : theta < 2 ^ 64) (hent : ∀ e ∈ entries, e < 2 ^ 64) :
    decode (.ok sh) (oldEstimation 2 a b c sh theta unused entries ++ rest)
      = .ok ⟨entries, theta, sh, decide (entries = [] ∧ theta = maxTheta), true⟩ := by
  generalize himg : oldEstimation 2 a b c sh theta unused entries ++ rest = img
  have himg' : img = oldHead 3 2 a b c sh ++ (toLE 4 entries.length ++ (unused
      ++ (toLE 8 theta ++ (entryBytes entries ++ rest)))) := by
    rw [← himg]; simp [oldEstimation, entryBytes]
  obtain ⟨d, h1, h2, h3, h4, h5, h6⟩ := decodeOld_spec (sh := sh) (by simp [oldHead]) hun hlen hth
    hent himg'
  have g2 : getLE img 2 1 = .ok 3 := getLE_one (by rw [himg']; rfl)
  have g1 : getLE img 1 1 = .ok 2 := getLE_one (by rw [himg']; rfl)
  have g0 : getLE img 0 1 = .ok 3 := getLE_one (by rw [himg']; rfl)
  have g6 : getLE img 6 2 = .ok sh := by
    rw [himg', oldHead, List.append_assoc, getLE_append (by rfl),
      Nat.mod_eq_of_lt (by simpa using hsh)]
  unfold decode decodeData
  rw [validateSize_ok (by rw [himg']; simp [oldHead])]
  simp only [Outcome.ok_bind, g2, g1]
  simp only [ne_eq, not_true_eq_false, if_false, if_true, show (2 : Nat) ≠ 4 from by decide,
    show (2 : Nat) ≠ 3 from by decide]
  unfold decodeV2
  simp only [g0, g6, Outcome.ok_bind, checkSeed, if_true, show (3 : Nat) ≠ 1 from by decide,
    show (3 : Nat) ≠ 2 from by decide, if_false, h1, h6, Outcome.pure_eq, compactFromEntries, h2,
    h3, h4, h5, ordered_any]

/-- C118: serial version 2, two-long form: exact sketches. -/
theorem C118_version2_exact {sh a b c : Nat} {unused entries : List Nat}
    (rest : List Nat) (hsh : sh < 2 ^ 16) (hun : unused.length = 4)
    (hlen : entries.length < 2 ^ 32) (hent : ∀ e ∈ entries, e < 2 ^ 64) :
    decode (.ok sh) (oldExact a b c sh unused entries ++ rest)
      = .ok ⟨entries, maxTheta, sh, decide (entries = []), true⟩ := by
  generalize himg : oldExact a b c sh unused entries ++ rest = img
  have himg' : img = oldHead 2 2 a b c sh ++ (toLE 4 entries.length ++ (unused
      ++ (entryBytes entries ++ rest))) := by
    rw [← himg]; simp [oldExact, entryBytes]
  have g2 : getLE img 2 1 = .ok 3 := getLE_one (by rw [himg']; rfl)
  have g1 : getLE img 1 1 = .ok 2 := getLE_one (by rw [himg']; rfl)
  have g0 : getLE img 0 1 = .ok 2 := getLE_one (by rw [himg']; rfl)
  have g6 : getLE img 6 2 = .ok sh := by
    rw [himg', oldHead, List.append_assoc, getLE_append (by rfl),
      Nat.mod_eq_of_lt (by simpa using hsh)]
  have hn : getLE img 8 4 = .ok entries.length := by
    rw [himg', getLE_append (by simp [oldHead]), Nat.mod_eq_of_lt (by simpa using hlen)]
  have hr : readEntries img 16 entries.length 0 = .ok entries := by
    have : img = (oldHead 2 2 a b c sh ++ toLE 4 entries.length ++ unused)
        ++ (entryBytes entries ++ rest) := by rw [himg']; simp
    rw [this]
    exact readEntries_spec rest entries _ 16 0 hent (by simp [oldHead, hun])
  have hl : (2 + entries.length) * 8 ≤ img.length := by
    rw [himg']
    simp only [oldHead, List.length_append, toLE_length, entryBytes_length, hun, List.length_cons,
      List.length_nil]
    omega
  unfold decode decodeData
  rw [validateSize_ok (by omega)]
  simp only [Outcome.ok_bind, g2, g1]
  simp only [ne_eq, not_true_eq_false, if_false, if_true, show (2 : Nat) ≠ 4 from by decide,
    show (2 : Nat) ≠ 3 from by decide]
  unfold decodeV2
  simp only [g0, g6, Outcome.ok_bind, checkSeed, if_true, show (2 : Nat) ≠ 1 from by decide,
    if_false]
  unfold decodeV2Exact
  simp only [hn, Outcome.ok_bind]
  by_cases h : entries.length = 0
  · have h0 : entries = [] := List.length_eq_zero_iff.1 h
    rw [if_pos h]
    simp [decodeEntries, readEntries, compactFromEntries, h0]
  · rw [if_neg h, validateSize_ok hl]
    simp only [Outcome.ok_bind, Outcome.pure_eq, decodeEntries, if_true, hr, compactFromEntries,
      ordered_any]
    rw [List.length_eq_zero_iff] at h
    simp [h]

/-- C118: serial version 2, one-long form: the empty sketch. -/
theorem C118_version2_empty {sh a b c : Nat} (rest : List Nat) (hsh : sh < 2 ^ 16) :
    decode (.ok sh) (oldHead 1 2 a b c sh ++ rest) = .ok ⟨[], maxTheta, sh, true, true⟩ := by
  generalize himg : oldHead 1 2 a b c sh ++ rest = img
  have g2 : getLE img 2 1 = .ok 3 := getLE_one (by rw [← himg]; rfl)
  have g1 : getLE img 1 1 = .ok 2 := getLE_one (by rw [← himg]; rfl)
  have g0 : getLE img 0 1 = .ok 1 := getLE_one (by rw [← himg]; rfl)
  have g6 : getLE img 6 2 = .ok sh := by
    rw [← himg, oldHead, List.append_assoc, getLE_append (by rfl),
      Nat.mod_eq_of_lt (by simpa using hsh)]
  unfold decode decodeData
  rw [validateSize_ok (by rw [← himg]; simp [oldHead])]
  simp only [Outcome.ok_bind, g2, g1]
  simp only [ne_eq, not_true_eq_false, if_false, if_true, show (2 : Nat) ≠ 4 from by decide,
    show (2 : Nat) ≠ 3 from by decide]
  unfold decodeV2
  simp [g0, g6, checkSeed, decodeEntries, readEntries, compactFromEntries]

/-- C118: a version 2 image made with another seed is refused, in every form. -/
theorem C118_version2_seed {sh stored pre a b c : Nat} (rest : List Nat) (hsh : stored < 2 ^ 16)
    (hne : stored ≠ sh) :
    ∃ m, decode (.ok sh) (oldHead pre 2 a b c stored ++ rest) = .err m := by
  generalize himg : oldHead pre 2 a b c stored ++ rest = img
  have g2 : getLE img 2 1 = .ok 3 := getLE_one (by rw [← himg]; rfl)
  have g1 : getLE img 1 1 = .ok 2 := getLE_one (by rw [← himg]; rfl)
  have g0 : getLE img 0 1 = .ok pre := getLE_one (by rw [← himg]; rfl)
  have g6 : getLE img 6 2 = .ok stored := by
    rw [← himg, oldHead, List.append_assoc, getLE_append (by rfl),
      Nat.mod_eq_of_lt (by simpa using hsh)]
  unfold decode decodeData
  rw [validateSize_ok (by rw [← himg]; simp [oldHead])]
  simp only [Outcome.ok_bind, g2, g1]
  simp only [ne_eq, not_true_eq_false, if_false, if_true, show (2 : Nat) ≠ 4 from by decide,
    show (2 : Nat) ≠ 3 from by decide]
  unfold decodeV2
  simp only [g0, g6, Outcome.ok_bind, checkSeed, if_neg hne]
  exact ⟨_, rfl⟩

/-- C118: an image cut short of the hashes it announces is refused. -/
theorem C118_truncated {sh theta stored a b c n : Nat} {unused part : List Nat}
    (hun : unused.length = 4) (hn : n < 2 ^ 32) (hth : theta < 2 ^ 64)
    (hshort : part.length < n * 8) :
    ∃ m, decode (.ok sh) (oldHead 3 1 a b c stored
      ++ (toLE 4 n ++ (unused ++ (toLE 8 theta ++ part)))) = .err m := by
  generalize himg : oldHead 3 1 a b c stored
      ++ (toLE 4 n ++ (unused ++ (toLE 8 theta ++ part))) = img
  have g2 : getLE img 2 1 = .ok 3 := getLE_one (by rw [← himg]; rfl)
  have g1 : getLE img 1 1 = .ok 1 := getLE_one (by rw [← himg]; rfl)
  have hn' : getLE img 8 4 = .ok n := by
    rw [← himg, getLE_append (by simp [oldHead]), Nat.mod_eq_of_lt (by simpa using hn)]
  have ht : getLE img 16 8 = .ok theta := by
    have : img = (oldHead 3 1 a b c stored ++ toLE 4 n ++ unused)
        ++ (toLE 8 theta ++ part) := by rw [← himg]; simp
    rw [this, getLE_append (by simp [oldHead, hun]), Nat.mod_eq_of_lt (by simpa using hth)]
  have hl : img.length < (3 + n) * 8 := by
    rw [← himg]
    simp only [oldHead, List.length_append, toLE_length, hun, List.length_cons, List.length_nil]
    omega
  unfold decode decodeData
  rw [validateSize_ok (by rw [← himg]; simp [oldHead])]
  simp only [Outcome.ok_bind, g2, g1]
  simp only [ne_eq, not_true_eq_false, if_false, if_true, show (1 : Nat) ≠ 4 from by decide,
    show (1 : Nat) ≠ 3 from by decide, show (1 : Nat) ≠ 2 from by decide]
  unfold decodeV1 decodeOld
  simp only [Outcome.ok_bind, hn', ht]
  rw [if_neg (by omega)]
  unfold validateSize
  rw [if_pos hl]
  exact ⟨_, rfl⟩

/-! ## The hypotheses can be met -/

example : decode (.ok 777) (oldEstimation 1 9 8 7 0 (2 ^ 62) [0, 0, 0, 0] [5, 9, 2 ^ 61] ++ [1, 2])
    = .ok ⟨[5, 9, 2 ^ 61], 2 ^ 62, 777, false, true⟩ :=
  C118_version1 _ rfl (by decide) (by decide) (by decide)

/-- No hashes, yet not empty: everything seen was above theta. -/
example : decode (.ok 777) (oldEstimation 2 9 8 7 777 (2 ^ 62) [0, 0, 0, 0] [] ++ [])
    = .ok ⟨[], 2 ^ 62, 777, false, true⟩ :=
  C118_version2_estimation _ (by decide) rfl (by decide) (by decide) (by decide)

example : decode (.ok 777) (oldExact 9 8 7 777 [0, 0, 0, 0] [5, 9] ++ [1])
    = .ok ⟨[5, 9], maxTheta, 777, false, true⟩ :=
  C118_version2_exact _ (by decide) rfl (by decide) (by decide)

example := C118_version2_seed (sh := 777) (stored := 778) (pre := 3) (a := 0) (b := 0) (c := 0)
  [1, 2, 3] (by decide) (by decide)

example := C118_truncated (sh := 777) (theta := 2 ^ 62) (stored := 0) (a := 0) (b := 0) (c := 0)
  (n := 2) (unused := [0, 0, 0, 0]) (part := [1, 2, 3, 4, 5, 6, 7, 8]) rfl (by decide) (by decide)
  (by decide)

end Verif.Theta
