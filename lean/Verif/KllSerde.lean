import Verif.KllSerdeModel
import Verif.ItemSerde
import Verif.KllRun

/-! # KLL items sketch: what is written and what is read -/

namespace Verif.Kll

open Verif
open Verif.Items

variable {α : Type}

/-! ## The image -/

def preInts (n : Nat) : Nat := if n = 0 ∨ n = 1 then 2 else 5
def serVer (n : Nat) : Nat := if n = 1 then 2 else 1
def flagBits (n : Nat) (zs : Bool) : Nat :=
  (if n = 0 then 1 else 0) + (if zs then 2 else 0) + (if n = 1 then 4 else 0)

/-- first seven bytes -/
def imgHead (a : Abs α) : List Nat :=
  toLE 1 (preInts a.n) ++ (toLE 1 (serVer a.n) ++ (toLE 1 15 ++ (toLE 1 (flagBits a.n a.zs) ++
    (toLE 2 a.k ++ toLE 1 a.m))))

def imgPre (a : Abs α) : List Nat :=
  toLE 1 0 ++ (toLE 8 a.n ++ (toLE 2 a.minK ++ (toLE 1 a.Ls.length ++ toLE 1 0)))

def imgLevels (a : Abs α) : List Nat := (starts a.free a.Ls).flatMap (toLE 4)

def imgItems (sd : Serde α) (a : Abs α) : List Nat :=
  sd.many [a.minItem] ++ (sd.many [a.maxItem] ++ sd.many a.Ls.flatten)

theorem imgHead_length (a : Abs α) : (imgHead a).length = 7 := by simp [imgHead]
theorem imgPre_length (a : Abs α) : (imgPre a).length = 13 := by simp [imgPre]
theorem imgLevels_length (a : Abs α) : (imgLevels a).length = 4 * a.Ls.length := by
  unfold imgLevels
  rw [flatMap_toLE_length, starts_length, Nat.mul_comm]

/-! ## Writing -/

theorem putHead_ok {s : Sketch α} {a : Abs α} (hr : Rep s a) {total : Nat} (ht : 7 ≤ total) :
    putHead s (List.replicate total 0) = .ok (Buf (imgHead a) (total - 7)) := by
  have e : List.replicate total 0 = Buf [] total := by simp [Buf]
  have ef : flagsByte s = flagBits a.n a.zs := by simp [flagsByte, flagBits, hr.n, hr.zs]
  unfold putHead
  rw [e, put_buf (by simp) (by simp; omega), Outcome.ok_bind, put_buf (by simp) (by simp; omega),
    Outcome.ok_bind, put_buf (by simp) (by simp; omega), Outcome.ok_bind,
    put_buf (by simp) (by simp; omega), Outcome.ok_bind, put_buf (by simp) (by simp; omega),
    Outcome.ok_bind, put_buf (by simp) (by simp; omega), ef, hr.n, hr.k, hr.m]
  simp only [toLE_length, imgHead, preInts, serVer, List.append_assoc, List.nil_append]
  congr 2

theorem rep_levels_length {s : Sketch α} {a : Abs α} (hr : Rep s a) :
    s.levels.length = a.Ls.length + 1 := by
  rw [hr.levels, offs_eq]; simp [starts_length]

theorem retainedSize_ok {sd : Serde α} {P : α → Prop} (hl : Lawful sd P) {s : Sketch α} {a : Abs α}
    (hr : Rep s a) : retainedSize sd s = .ok (sd.many a.Ls.flatten).length := by
  obtain ⟨G, hG, hi⟩ := hr.items
  unfold retainedSize
  rw [hr.levels, hr.numLevels, rd_offs _ _ (Nat.zero_le _), Outcome.ok_bind,
    rd_offs _ _ (Nat.le_refl _), Outcome.ok_bind, List.take_length]
  simp only [List.take_zero, size_nil, Nat.add_zero, Nat.add_sub_cancel_left]
  have hH := range_fold (n := size a.Ls)
    (f := fun sz i => do
      let x ← rd s.items (a.free + i)
      Outcome.ok (sz + sd.sizeOf x))
    (fun i sz => sz = (sd.many (a.Ls.flatten.take i)).length) (s0 := 0) (by simp [hl.nil]) ?_
  · obtain ⟨t, ht, h⟩ := hH
    rw [ht, h, List.take_of_length_le (by rfl)]
  · rintro i sz hlt rfl
    have hlt : i < a.Ls.flatten.length := hlt
    have e : rd s.items (a.free + i) = .ok a.Ls.flatten[i] := by
      apply rd_ok
      rw [hi, List.getElem?_append_right (by omega), hG, Nat.add_sub_cancel_left,
        List.getElem?_eq_getElem hlt]
    rw [e]
    refine ⟨_, rfl, ?_⟩
    rw [List.take_add_one, List.getElem?_eq_getElem hlt, hl.app, List.length_append, hl.size]
    rfl

theorem retainedItems_ok {s : Sketch α} {a : Abs α} (hr : Rep s a) :
    retainedItems s = .ok a.Ls.flatten := by
  obtain ⟨G, hG, hi⟩ := hr.items
  have h1 : getNumRetained s = .ok (size a.Ls) := by
    unfold getNumRetained
    rw [hr.levels, hr.numLevels, rd_offs _ _ (Nat.le_refl _), Outcome.ok_bind,
      rd_offs _ _ (Nat.zero_le _), Outcome.ok_bind, List.take_length, sub_ok (by simp)]
    simp
  have h2 : s.items.drop a.free = a.Ls.flatten := by rw [hi, ← hG, List.drop_left]
  unfold retainedItems
  have h0 : rd s.levels 0 = .ok a.free := by
    rw [hr.levels, rd_offs _ _ (Nat.zero_le _)]; simp
  rw [h1, Outcome.ok_bind, h0, Outcome.ok_bind]
  rw [if_neg (by rw [hi]; simp; omega), h2, if_neg (by simp [size])]
  congr 1
  exact List.take_of_length_le (Nat.le_refl _)

theorem serializedSize_full {sd : Serde α} {P : α → Prop} (hl : Lawful sd P) {s : Sketch α}
    {a : Abs α} (hr : Rep s a) (hn : 2 ≤ a.n) :
    serializedSize sd s = .ok (20 + a.Ls.length * 4 + (imgItems sd a).length) := by
  unfold serializedSize
  rw [hr.n, if_neg (by omega), if_neg (by omega), rep_levels_length hr, sub_ok (by omega),
    Outcome.ok_bind, retainedSize_ok hl hr, Outcome.ok_bind, hl.size, hl.size, hr.minItem,
    hr.maxItem]
  simp only [imgItems, List.length_append]
  congr 1
  omega

theorem putLevels_ok {s : Sketch α} {a : Abs α} (hr : Rep s a) (hL : a.Ls.length ≤ 58)
    {d : List Nat} (hd : d.length = 20) {n : Nat} (hn : 4 * a.Ls.length ≤ n) :
    putLevels s (Buf d n) = .ok (Buf (d ++ imgLevels a) (n - 4 * a.Ls.length)) := by
  unfold putLevels
  have hH := range_fold (n := s.numLevels)
    (f := fun b i => do
      let v ← rd s.levels i
      put b ((20 + i * 4) % 256) (toLE 4 v))
    (fun i b => b = Buf (d ++ ((starts a.free a.Ls).take i).flatMap (toLE 4)) (n - 4 * i))
    (s0 := Buf d n) (by simp) ?_
  · obtain ⟨b, hb, h⟩ := hH
    rw [hb, h, hr.numLevels, List.take_of_length_le (by rw [starts_length])]
    rfl
  · rintro i b hi rfl
    rw [hr.numLevels] at hi
    have hi' : i < (starts a.free a.Ls).length := by rw [starts_length]; exact hi
    have e : rd s.levels i = .ok (starts a.free a.Ls)[i] := by
      apply rd_ok
      rw [hr.levels, offs_eq, List.getElem?_append_left hi', List.getElem?_eq_getElem hi']
    rw [e]
    simp only [Outcome.ok_bind]
    rw [put_buf (by
      rw [List.length_append, flatMap_toLE_length, List.length_take, hd]
      omega) (by rw [toLE_length]; omega)]
    refine ⟨_, rfl, ?_⟩
    rw [List.take_add_one, List.getElem?_eq_getElem hi', toLE_length]
    simp only [Option.toList_some, List.flatMap_append, List.flatMap_singleton, List.append_assoc]
    congr 1

/-- the bytes of a sketch with two or more items -/
theorem toSlice_full {sd : Serde α} {P : α → Prop} (hl : Lawful sd P) {s : Sketch α} {a : Abs α}
    (hr : Rep s a) (hn : 2 ≤ a.n) (hL : a.Ls.length ≤ 58)
    (h1 : sd.one a.minItem = sd.many [a.minItem]) (h2 : sd.one a.maxItem = sd.many [a.maxItem]) :
    toSlice sd s = .ok (imgHead a ++ (imgPre a ++ (imgLevels a ++ imgItems sd a))) := by
  have hmm : minMaxBytes sd s = sd.many [a.minItem] ++ sd.many [a.maxItem] := by
    unfold minMaxBytes; rw [hr.minItem, hr.maxItem, h1, h2]
  have hN : (imgItems sd a).length = (sd.many [a.minItem]).length + (sd.many [a.maxItem]).length
      + (sd.many a.Ls.flatten).length := by simp [imgItems]; omega
  unfold toSlice
  rw [serializedSize_full hl hr hn, Outcome.ok_bind, putHead_ok hr (by omega), Outcome.ok_bind,
    hr.n, if_neg (by omega), if_neg (by omega)]
  unfold putFull
  rw [retainedItems_ok hr, Outcome.ok_bind,
    put_buf_skip (by rw [imgHead_length]; omega) (by rw [imgHead_length, toLE_length]; omega),
    Outcome.ok_bind, put_buf (by simp [imgHead_length]) (by rw [imgHead_length]; simp; omega),
    Outcome.ok_bind, put_buf (by simp [imgHead_length]) (by rw [imgHead_length]; simp; omega),
    Outcome.ok_bind]
  have e0 : List.replicate (8 - (imgHead a).length) 0 = toLE 1 0 := by
    rw [imgHead_length]; rfl
  rw [e0]
  -- byte 19
  have e19 : ∀ (d : List Nat) (n : Nat), 1 ≤ n → Buf d n = Buf (d ++ toLE 1 0) (n - 1) := by
    intro d n hn
    unfold Buf
    rw [List.append_assoc]
    congr 1
    obtain ⟨j, rfl⟩ : ∃ j, n = j + 1 := ⟨n - 1, by omega⟩
    simp [toLE_one_zero, List.replicate_succ]
  rw [e19 _ _ (by rw [imgHead_length]; simp; omega),
    putLevels_ok hr hL (by simp [imgHead_length]) (by rw [imgHead_length]; simp; omega),
    Outcome.ok_bind, hmm, hr.numLevels]
  have hmod : (20 + a.Ls.length * 4) % 256 = 20 + a.Ls.length * 4 := Nat.mod_eq_of_lt (by omega)
  rw [hmod, show a.Ls.length * 4 % 256 = a.Ls.length * 4 from Nat.mod_eq_of_lt (by omega)]
  rw [copy_buf (by simp [imgHead_length, imgLevels_length]; omega) (by
    rw [imgHead_length]; simp only [List.length_append, toLE_length]; omega), Outcome.ok_bind]
  rw [copy_buf (by simp [imgHead_length, imgLevels_length]; omega) (by
    rw [imgHead_length]; simp only [List.length_append, toLE_length]; omega)]
  congr 1
  rw [show ∀ (d : List Nat) (n : Nat), n = 0 → Buf d n = d from fun d n h => by rw [h, buf_zero]]
  · simp only [imgPre, imgItems, List.append_assoc, hr.n, hr.minK]
  · rw [imgHead_length]
    simp only [List.length_append, toLE_length]
    omega

/-! ## Reading -/

theorem starts_le (g : Nat) (A : List (List α)) : ∀ v ∈ starts g A, v ≤ g + size A := by
  induction A generalizing g with
  | nil => simp [starts]
  | cons l ls ih =>
    intro v hv
    simp only [starts, List.mem_cons] at hv
    rw [size_cons]
    rcases hv with rfl | hv
    · omega
    · have := ih _ v hv; omega

theorem readLevels_ok (a : Abs α) (hL : a.Ls.length ≤ 58) (hv : a.free + size a.Ls < 4294967296)
    {H R : List Nat} (hH : H.length = 20) :
    readLevels (H ++ (imgLevels a ++ R)) a.Ls.length = .ok (starts a.free a.Ls ++ [0]) := by
  unfold readLevels
  have hlen := starts_length a.free a.Ls
  have hH' := range_fold (n := a.Ls.length)
    (f := fun lv i => do
      let b ← slice (H ++ (imgLevels a ++ R)) ((20 + i * 4) % 256) ((20 + i * 4 + 4) % 256)
      let v ← getLE b 0 4
      wr lv i v)
    (fun i lv => lv = (starts a.free a.Ls).take i ++ List.replicate (a.Ls.length + 1 - i) 0)
    (s0 := List.replicate ((a.Ls.length + 1) % 256) 0)
    (by simp; omega) ?_
  · obtain ⟨lv, h, rfl⟩ := hH'
    rw [h, List.take_of_length_le (by omega)]
    simp
  · rintro i lv hi rfl
    have hi' : i < (starts a.free a.Ls).length := by omega
    have hsplit : imgLevels a = ((starts a.free a.Ls).take i).flatMap (toLE 4) ++
        (toLE 4 (starts a.free a.Ls)[i] ++ ((starts a.free a.Ls).drop (i + 1)).flatMap (toLE 4)) := by
      unfold imgLevels
      conv_lhs => rw [← List.take_append_drop i (starts a.free a.Ls), List.drop_eq_getElem_cons hi']
      simp only [List.flatMap_append, List.flatMap_cons]
    have hs : slice (H ++ (imgLevels a ++ R)) ((20 + i * 4) % 256) ((20 + i * 4 + 4) % 256) =
        .ok (toLE 4 (starts a.free a.Ls)[i]) := by
      rw [Nat.mod_eq_of_lt (by omega), Nat.mod_eq_of_lt (by omega), hsplit]
      have := slice_here (a := H ++ ((starts a.free a.Ls).take i).flatMap (toLE 4))
        (b := toLE 4 (starts a.free a.Ls)[i])
        (c := ((starts a.free a.Ls).drop (i + 1)).flatMap (toLE 4) ++ R) (o := 20 + i * 4)
        (e := 20 + i * 4 + 4) (by
          rw [List.length_append, flatMap_toLE_length, List.length_take, hH]; omega) (by simp)
      rw [← this]
      congr 1
      simp
    have hg : getLE (toLE 4 (starts a.free a.Ls)[i]) 0 4 = .ok (starts a.free a.Ls)[i] := by
      have := getLE_first (k := 4) (v := (starts a.free a.Ls)[i]) (c := []) (by
        have := starts_le a.free a.Ls _ (List.getElem_mem hi'); omega)
      simpa using this
    rw [hs]
    simp only [Outcome.ok_bind]
    rw [hg]
    simp only [Outcome.ok_bind]
    have e : List.replicate (a.Ls.length + 1 - i) 0 =
        0 :: List.replicate (a.Ls.length + 1 - (i + 1)) 0 := by
      rw [show a.Ls.length + 1 - i = (a.Ls.length + 1 - (i + 1)) + 1 by omega, List.replicate_succ]
    rw [e, wr_mid _ _ _ _ (by rw [List.length_take]; omega)]
    refine ⟨_, rfl, ?_⟩
    rw [List.take_add_one, List.getElem?_eq_getElem hi']
    simp only [Option.toList_some, List.append_assoc, List.singleton_append]

/-- the first eight bytes are read back -/
theorem newMemVal_ok {sd : Serde α} (a : Abs α) {R : List Nat} (hk : a.k < 65536)
    (hm : a.m = 2 ∨ a.m = 4 ∨ a.m = 6 ∨ a.m = 8) (hmk : a.m ≤ a.k) {st : Structure}
    (hst : getSketchStructure (preInts a.n) (serVer a.n) = .ok st) :
    newMemVal sd (imgHead a ++ (toLE 1 0 ++ R)) =
      validate sd (imgHead a ++ (toLE 1 0 ++ R)) st a.k a.m (flagBits a.n a.zs) := by
  obtain ⟨data, hd⟩ : ∃ d, d = imgHead a ++ (toLE 1 0 ++ R) := ⟨_, rfl⟩
  have hp : preInts a.n < 256 := by unfold preInts; split <;> omega
  have hs : serVer a.n < 256 := by unfold serVer; split <;> omega
  have hf : flagBits a.n a.zs < 256 := by unfold flagBits; split <;> split <;> split <;> omega
  have e0 : getLE data 0 1 = .ok (preInts a.n) := by
    rw [hd]; simp only [imgHead, List.append_assoc]; readLE
  have e1 : getLE data 1 1 = .ok (serVer a.n) := by
    rw [hd]; simp only [imgHead, List.append_assoc]; readLE
  have e2 : getLE data 2 1 = .ok 15 := by
    rw [hd]; simp only [imgHead, List.append_assoc]; readLE
  have e3 : getLE data 3 1 = .ok (flagBits a.n a.zs) := by
    rw [hd]; simp only [imgHead, List.append_assoc]; readLE
  have e4 : getLE data 4 2 = .ok a.k := by
    rw [hd]; simp only [imgHead, List.append_assoc]; readLE
  have e6 : getLE data 6 1 = .ok a.m := by
    rw [hd]; simp only [imgHead, List.append_assoc]; readLE
  rw [← hd]
  unfold newMemVal
  rw [if_neg (by rw [hd]; simp [imgHead_length]; omega), e0, Outcome.ok_bind, e1, Outcome.ok_bind, hst,
    Outcome.ok_bind, e2, Outcome.ok_bind, if_neg (by simp), e3, Outcome.ok_bind, e4,
    Outcome.ok_bind, e6, Outcome.ok_bind]
  have hc : checkKM a.k a.m = .ok () := by
    unfold checkKM
    rw [if_neg (by omega), if_neg (by omega)]
  rw [hc, Outcome.ok_bind]

theorem flagBits_zs (n : Nat) (zs : Bool) : (flagBits n zs / 2 % 2 == 1) = zs := by
  unfold flagBits
  by_cases h0 : n = 0 <;> by_cases h1 : n = 1 <;> cases zs <;> simp_all

/-- the sketch that is read back -/
def back (env : Env α) (a : Abs α) : Sketch α :=
  ⟨a.k, a.m, a.minK, a.Ls.length, a.zs, a.n, offs a.free a.Ls,
    List.replicate a.free env.zero ++ a.Ls.flatten, a.minItem, a.maxItem, true, []⟩

theorem fill_ok (env : Env α) (ret : List α) (low : Nat) (h : low + ret.length < 4294967296) :
    (List.range ret.length).foldlM (fun it i => do
      let x ← rd ret i
      wr it ((i + low) % 4294967296) x) (List.replicate (low + ret.length) env.zero) =
    .ok (List.replicate low env.zero ++ ret) := by
  have hH := range_fold (n := ret.length)
    (f := fun it i => do
      let x ← rd ret i
      wr it ((i + low) % 4294967296) x)
    (fun i it => it = List.replicate low env.zero ++ ret.take i ++
      List.replicate (ret.length - i) env.zero)
    (s0 := List.replicate (low + ret.length) env.zero)
    (by simp [List.replicate_append_replicate]) ?_
  · obtain ⟨it, h, rfl⟩ := hH
    rw [h]; simp
  · rintro i it hi rfl
    have e : List.replicate (ret.length - i) env.zero =
        env.zero :: List.replicate (ret.length - (i + 1)) env.zero := by
      rw [show ret.length - i = (ret.length - (i + 1)) + 1 by omega, List.replicate_succ]
    rw [rd_ok (List.getElem?_eq_getElem hi)]
    simp only [Outcome.ok_bind]
    rw [Nat.mod_eq_of_lt (by omega), e, wr_mid _ _ _ _ (by simp; omega)]
    refine ⟨_, rfl, ?_⟩
    rw [List.take_add_one, List.getElem?_eq_getElem hi]
    simp only [Option.toList_some, List.append_assoc, List.singleton_append]

theorem readFull_ok {sd : Serde α} {P : α → Prop} (hl : Lawful sd P) (env : Env α) (a : Abs α)
    (hn : 2 ≤ a.n) (hn' : a.n < 2 ^ 64) (hL : a.Ls.length ≤ 58) (hk : a.k < 65536)
    (hminK : a.minK < 65536)
    (hm : a.m = 2 ∨ a.m = 4 ∨ a.m = 6 ∨ a.m = 8) (hmk : a.m ≤ a.k)
    (hfull : a.free + size a.Ls = tot a.k a.m a.Ls.length)
    (hP : ∀ x ∈ a.minItem :: a.maxItem :: a.Ls.flatten, P x) :
    fromSlice sd env (imgHead a ++ (imgPre a ++ (imgLevels a ++ imgItems sd a))) =
      .ok (back env a) := by
  obtain ⟨R, hR⟩ : ∃ R, R = toLE 8 a.n ++ (toLE 2 a.minK ++ (toLE 1 a.Ls.length ++
    (toLE 1 0 ++ (imgLevels a ++ imgItems sd a)))) := ⟨_, rfl⟩
  obtain ⟨data, hd⟩ : ∃ d, d = imgHead a ++ (imgPre a ++ (imgLevels a ++ imgItems sd a)) := ⟨_, rfl⟩
  have hd1 : data = imgHead a ++ (toLE 1 0 ++ R) := by
    rw [hd, hR]; simp only [imgPre, List.append_assoc]
  have hlow : size a.Ls = a.Ls.flatten.length := rfl
  have hbd : a.free + size a.Ls < 4294967296 := by
    rw [hfull]
    have := tot_le hmk a.Ls.length
    have h2 : a.k * a.Ls.length ≤ 65535 * 58 := Nat.mul_le_mul (by omega) hL
    omega
  have hst : getSketchStructure (preInts a.n) (serVer a.n) = .ok .full := by
    unfold preInts serVer
    rw [if_neg (by omega), if_neg (by omega)]
    rfl
  have e8 : getLE data 8 8 = .ok a.n := by
    rw [hd]; simp only [imgHead, imgPre, List.append_assoc]; readLE
  have e16 : getLE data 16 2 = .ok a.minK := by
    rw [hd]; simp only [imgHead, imgPre, List.append_assoc]; readLE
  have e18 : getLE data 18 1 = .ok a.Ls.length := by
    rw [hd]; simp only [imgHead, imgPre, List.append_assoc]; readLE
  have elv : readLevels data a.Ls.length = .ok (starts a.free a.Ls ++ [0]) := by
    have := readLevels_ok a hL hbd (H := imgHead a ++ imgPre a) (R := imgItems sd a)
      (by simp [imgHead_length, imgPre_length])
    rw [hd, ← this]
    simp
  have ewr : wr (starts a.free a.Ls ++ [0]) a.Ls.length (a.free + size a.Ls) =
      .ok (offs a.free a.Ls) := by
    rw [wr_mid _ _ _ _ (by rw [starts_length]), offs_eq]
  have elo : rd (offs a.free a.Ls) 0 = .ok a.free := by
    rw [rd_offs _ _ (Nat.zero_le _)]; simp
  have ehi : rd (offs a.free a.Ls) a.Ls.length = .ok (a.free + size a.Ls) := by
    rw [rd_offs _ _ (Nat.le_refl _), List.take_length]
  have esub : sub32 (a.free + size a.Ls) a.free = a.Ls.flatten.length := by
    unfold sub32
    rw [show a.free + size a.Ls + 4294967296 - a.free = size a.Ls + 4294967296 by omega,
      Nat.add_mod_right, Nat.mod_eq_of_lt (by omega), hlow]
  obtain ⟨A, hA⟩ : ∃ A, A = imgHead a ++ (imgPre a ++ imgLevels a) := ⟨_, rfl⟩
  have hAl : A.length = 20 + a.Ls.length * 4 := by
    rw [hA]; simp [imgHead_length, imgPre_length, imgLevels_length]; omega
  have hdA : data = A ++ (sd.many (a.minItem :: a.maxItem :: a.Ls.flatten) ++ []) := by
    rw [hd, hA, hl.cons, hl.cons a.maxItem]
    simp [imgItems]
  have esz := hl.sizeMany (a.minItem :: a.maxItem :: a.Ls.flatten) A [] hP
  rw [← hdA, hAl] at esz
  simp only [List.length_cons] at esz
  have hval : newMemVal sd data = .ok ⟨.full, a.k, a.m, a.zs, a.n, a.minK, a.Ls.length,
      offs a.free a.Ls⟩ := by
    rw [hd1, newMemVal_ok a hk hm hmk hst, ← hd1]
    show validateFull sd data a.k a.m (flagBits a.n a.zs) = _
    unfold validateFull
    have hfl : ¬ flagBits a.n a.zs % 2 = 1 := by
      unfold flagBits
      split <;> split <;> split <;> omega
    rw [if_neg hfl, e8, Outcome.ok_bind, e16, Outcome.ok_bind, e18, Outcome.ok_bind, elv,
      Outcome.ok_bind, computeTotal_ok (by omega) (by omega), Outcome.ok_bind, ← hfull, ewr,
      Outcome.ok_bind, elo, Outcome.ok_bind, esub, esz, Outcome.ok_bind, flagBits_zs]
  have d1 : sd.deser data (20 + a.Ls.length * 4) 1 = .ok [a.minItem] := by
    have := hl.deser [a.minItem] A (sd.many (a.maxItem :: a.Ls.flatten)) (by
      intro x hx; exact hP x (by simp at hx; simp [hx]))
    rw [hAl] at this
    rw [← hl.cons, ← List.append_nil (sd.many _), ← hdA] at this
    exact this
  have d2 : sd.deser data (20 + a.Ls.length * 4 + sd.sizeOf a.minItem) 1 = .ok [a.maxItem] := by
    have := hl.deser [a.maxItem] (A ++ sd.many [a.minItem]) (sd.many a.Ls.flatten) (by
      intro x hx; exact hP x (by simp at hx; simp [hx]))
    rw [List.length_append, hAl, ← hl.size, ← hl.cons, List.append_assoc, ← hl.cons,
      ← List.append_nil (sd.many _), ← hdA] at this
    exact this
  have d3 : sd.deser data (20 + a.Ls.length * 4 + sd.sizeOf a.minItem + sd.sizeOf a.maxItem)
      a.Ls.flatten.length = .ok a.Ls.flatten := by
    have := hl.deser a.Ls.flatten (A ++ (sd.many [a.minItem] ++ sd.many [a.maxItem])) [] (by
      intro x hx; exact hP x (by simp at hx; simp [hx]))
    rw [List.length_append, List.length_append, hAl, ← hl.size, ← hl.size, List.append_nil] at this
    rw [Nat.add_assoc (20 + a.Ls.length * 4), ← this, hdA, hl.cons, hl.cons a.maxItem]
    simp
  rw [← hd]
  unfold fromSlice
  rw [hval, Outcome.ok_bind]
  show readFull sd env data _ = _
  unfold readFull
  simp only
  have hmod : (20 + a.Ls.length * 4) % 256 = 20 + a.Ls.length * 4 := Nat.mod_eq_of_lt (by omega)
  rw [ehi, Outcome.ok_bind, elo, Outcome.ok_bind, hmod, d1, Outcome.ok_bind]
  rw [show rd [a.minItem] 0 = .ok a.minItem from rfl, Outcome.ok_bind, d2, Outcome.ok_bind]
  rw [show rd [a.maxItem] 0 = .ok a.maxItem from rfl, Outcome.ok_bind, esub, d3, Outcome.ok_bind,
    hlow, fill_ok env _ _ (by omega), Outcome.ok_bind]
  rfl

theorem readFull_rep (env : Env α) (a : Abs α) (hm : a.hasMinMax = true) :
    Rep (back env a) { a with log := [] } :=
  { k := rfl
    m := rfl
    minK := rfl
    zs := rfl
    n := rfl
    numLevels := rfl
    levels := rfl
    items := ⟨List.replicate a.free env.zero, by simp, rfl⟩
    minItem := rfl
    maxItem := rfl
    hasMinMax := hm.symm
    log := rfl }

/-! ## Empty sketches and sketches with one item -/

theorem toSlice_empty {sd : Serde α} {s : Sketch α} {a : Abs α} (hr : Rep s a) (hn : a.n = 0) :
    serializedSize sd s = .ok 8 ∧ toSlice sd s = .ok (imgHead a ++ (toLE 1 0 ++ [])) := by
  have hz : serializedSize sd s = .ok 8 := by
    unfold serializedSize; rw [hr.n, if_pos hn]
  refine ⟨hz, ?_⟩
  unfold toSlice
  rw [hz, Outcome.ok_bind, putHead_ok hr (by omega), Outcome.ok_bind, hr.n, if_pos hn]
  simp [Buf, toLE_one_zero]

theorem toSlice_single {sd : Serde α} {P : α → Prop} (hl : Lawful sd P) {s : Sketch α} {a : Abs α}
    (hr : Rep s a) (hn : a.n = 1) {x : α} (hLs : a.Ls = [[x]]) (hf : a.free + 1 = a.k)
    (h1 : sd.one x = sd.many [x] ∨ (sd.one x = [] ∧ ∃ j, sd.many [x] = List.replicate j 0)) :
    serializedSize sd s = .ok (8 + (sd.many [x]).length) ∧
    toSlice sd s = .ok (imgHead a ++ (toLE 1 0 ++ sd.many [x])) := by
  obtain ⟨G, hG, hi⟩ := hr.items
  have hx : getSingleItem s = .ok x := by
    unfold getSingleItem
    rw [if_neg (by rw [hr.n]; omega), hr.k, sub_ok (by omega), Outcome.ok_bind, hi, hLs]
    apply rd_ok
    rw [List.getElem?_append_right (by omega)]
    simp [hG, show a.k - 1 - a.free = 0 by omega]
  have hz : serializedSize sd s = .ok (8 + (sd.many [x]).length) := by
    unfold serializedSize
    rw [hr.n, if_neg (by omega), if_pos hn, hx, Outcome.ok_bind, hl.size]
  refine ⟨hz, ?_⟩
  unfold toSlice
  rw [hz, Outcome.ok_bind, putHead_ok hr (by omega), Outcome.ok_bind, hr.n, if_neg (by omega),
    if_pos hn, hx, Outcome.ok_bind]
  have e : Buf (imgHead a) (8 + (sd.many [x]).length - 7) =
      Buf (imgHead a ++ toLE 1 0) (sd.many [x]).length := by
    unfold Buf
    rw [show 8 + (sd.many [x]).length - 7 = (sd.many [x]).length + 1 by omega, List.replicate_succ]
    simp [toLE_one_zero]
  rw [e]
  rcases h1 with h1 | ⟨h1, j, h2⟩
  · rw [h1, copy_buf (by simp [imgHead_length]) (Nat.le_refl _)]
    simp
  · rw [h1, copy_buf (by simp [imgHead_length]) (by simp), h2]
    simp [Buf]

theorem readEmpty_ok {sd : Serde α} (env : Env α) (a : Abs α) (hn : a.n = 0) (hk : a.k < 65536)
    (hm : a.m = 2 ∨ a.m = 4 ∨ a.m = 6 ∨ a.m = 8) (hmk : a.m ≤ a.k) :
    fromSlice sd env (imgHead a ++ (toLE 1 0 ++ [])) =
      .ok ⟨a.k, a.m, a.k, 1, a.zs, 0, [a.k, a.k], List.replicate a.k env.zero, env.zero, env.zero,
        false, []⟩ := by
  have hst : getSketchStructure (preInts a.n) (serVer a.n) = .ok .empty := by
    unfold preInts serVer
    rw [if_pos (by omega), if_neg (by omega)]
    rfl
  unfold fromSlice
  rw [newMemVal_ok a hk hm hmk hst]
  unfold validate
  simp only
  have hfl : ¬ flagBits a.n a.zs % 2 = 0 := by
    unfold flagBits
    split <;> split <;> split <;> omega
  rw [if_neg hfl, flagBits_zs, Outcome.ok_bind]

theorem readSingle_ok {sd : Serde α} {P : α → Prop} (hl : Lawful sd P) (env : Env α) (a : Abs α)
    (hn : a.n = 1) (hk : a.k < 65536) (hm : a.m = 2 ∨ a.m = 4 ∨ a.m = 6 ∨ a.m = 8)
    (hmk : a.m ≤ a.k) {x : α} (hx : P x) :
    fromSlice sd env (imgHead a ++ (toLE 1 0 ++ sd.many [x])) =
      .ok ⟨a.k, a.m, a.k, 1, a.zs, 1, [a.k - 1, a.k],
        List.replicate (a.k - 1) env.zero ++ [x], x, x, true, []⟩ := by
  have hst : getSketchStructure (preInts a.n) (serVer a.n) = .ok .single := by
    unfold preInts serVer
    rw [if_pos (by omega), if_pos (by omega)]
    rfl
  obtain ⟨data, hd⟩ : ∃ d, d = imgHead a ++ (toLE 1 0 ++ sd.many [x]) := ⟨_, rfl⟩
  have hd2 : data = (imgHead a ++ toLE 1 0) ++ (sd.many [x] ++ []) := by rw [hd]; simp
  have hl8 : (imgHead a ++ toLE 1 0).length = 8 := by simp [imgHead_length]
  have e1 := hl.sizeMany [x] (imgHead a ++ toLE 1 0) [] (by simpa using hx)
  have e2 := hl.deser [x] (imgHead a ++ toLE 1 0) [] (by simpa using hx)
  rw [← hd2, hl8] at e1 e2
  have e1 : sd.sizeOfMany data 8 1 = .ok (sd.many [x]).length := e1
  have e2 : sd.deser data 8 1 = .ok [x] := e2
  have hfl : ¬ flagBits a.n a.zs % 2 = 1 := by
    unfold flagBits
    rw [hn]
    cases a.zs <;> decide
  unfold fromSlice
  rw [newMemVal_ok a hk hm hmk hst, ← hd]
  unfold validate
  simp only
  rw [if_neg hfl, e1, Outcome.ok_bind, flagBits_zs, Outcome.ok_bind]
  simp only
  rw [e2, Outcome.ok_bind, show rd [x] 0 = .ok x from rfl, Outcome.ok_bind, sub_ok (by omega),
    Outcome.ok_bind]
  have : List.replicate a.k env.zero = List.replicate (a.k - 1) env.zero ++ [env.zero] := by
    conv_lhs => rw [show a.k = a.k - 1 + 1 by omega, List.replicate_succ']
  rw [this, wr_mid _ _ _ _ (by simp), Outcome.ok_bind]

end Verif.Kll
