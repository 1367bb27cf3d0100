import Verif.KllIter

/-!
# C104: iterating over a KLL sketch: the theorems
-/

namespace Verif.Kll

open Verif Verif.View

variable {α : Type}

/-- Valid programs keep all streams below `2^60` items. -/
theorem streams_lt (ops : List (Op α)) : Valid ops → ∀ i, ((streams ops).getD i []).length < 2 ^ 60 := by
  induction ops using List.reverseRecOn with
  | nil => intro _ i; simp [streams]
  | append_singleton pre op ih =>
    intro hv i
    have hp : Valid pre := by
      intro a o b e
      exact hv a o (b ++ [op]) (by rw [e]; simp)
    have hih := ih hp
    have ha := hv pre op [] rfl
    have hset : ∀ (ss : List (List α)) (j : Nat) (X : List α), X.length < 2 ^ 60 →
        (∀ i, (ss.getD i []).length < 2 ^ 60) → ((ss.set j X).getD i []).length < 2 ^ 60 := by
      intro ss j X hX hss
      rw [List.getD_eq_getElem?_getD, List.getElem?_set]
      split
      · split
        · exact hX
        · simp
      · rw [← List.getD_eq_getElem?_getD]
        exact hss i
    rw [streams, List.foldl_append]
    change ((streamStep (streams pre) op).getD i []).length < _
    cases op with
    | new k m =>
      unfold streamStep
      rw [List.getD_eq_getElem?_getD, List.getElem?_append]
      split
      · rw [← List.getD_eq_getElem?_getD]
        exact hih i
      · rcases Nat.lt_or_ge (i - (streams pre).length) 1 with h | h
        · have : i - (streams pre).length = 0 := by omega
          rw [this]
          simp
        · rw [List.getElem?_eq_none (by simpa using h)]
          simp
    | update j x =>
      apply hset _ _ _ _ hih
      have := ha.2
      cases x <;> simp at this ⊢ <;> omega
    | merge j k =>
      apply hset _ _ _ _ hih
      have := ha.2.2.2
      rw [List.length_append]
      omega
    | reset j => exact hset _ _ _ (by simp) hih

/-- The items of all levels with their weights. -/
def withWeights (s : Sketch α) : List (α × Int) :=
  (List.range s.numLevels).flatMap fun h => (levelItems s h).map fun x => (x, (2 : Int) ^ h)

theorem tag_eq (Ls : List (List α)) : ∀ j, tag j Ls =
    (List.range Ls.length).flatMap fun h => (Ls.getD h []).map fun x => (x, (2 : Int) ^ (j + h)) := by
  induction Ls with
  | nil => intro j; rfl
  | cons l ls ih =>
    intro j
    rw [tag, ih (j + 1), List.length_cons, List.range_succ_eq_map, List.flatMap_cons, List.flatMap_map]
    congr 1
    congr 1
    funext h
    simp only [List.getD_cons_succ, Nat.succ_eq_add_one]
    rw [show j + 1 + h = j + (h + 1) by omega]

theorem tag_sum (Ls : List (List α)) : ∀ j, ((tag j Ls).map Prod.snd).sum = 2 ^ j * (wt Ls : Int) := by
  induction Ls with
  | nil => intro j; simp [tag, wt, rk]
  | cons l ls ih =>
    intro j
    have hc : ∀ l : List α, ((l.map fun x => (x, (2 : Int) ^ j)).map Prod.snd).sum = 2 ^ j * l.length := by
      intro l
      induction l with
      | nil => simp
      | cons x l ih2 =>
        simp only [List.map_cons, List.sum_cons, ih2, List.length_cons]
        push_cast
        ring
    rw [tag, List.map_append, List.sum_append, ih, hc]
    simp only [wt, rk, List.countP_true]
    push_cast
    ring

/-- **C104.** Whatever was done before and whatever the coin showed: the loop over the iterator of a
sketch ends, and sees exactly the retained items, each one once, with the weight `2^level`; the weights
add up to the number of items presented; everything seen was presented.  One more call of `Next` after
it returned false panics. -/
theorem C104_iterate (env : Env α) (hs : ∀ l, (env.sort l).Perm l) (ops : List (Op α)) (hv : Valid ops) :
    Rand.All (fun st => ∀ i s, st[i]? = some s →
      (∀ fuel, (withWeights s).length < fuel → ∃ it', collect fuel (getIterator env s) = .ok (withWeights s, it') ∧
        it'.next = .panic) ∧
      getNumRetained s = .ok (withWeights s).length ∧
      ((withWeights s).map Prod.snd).sum = ((streams ops).getD i []).length ∧
      ∀ p ∈ withWeights s, p.1 ∈ (streams ops).getD i [])
      (run env ops) := by
  have hlt := streams_lt ops hv
  refine (run_link hs (by omega) ops hv (ks_of_valid hv)).mono fun st hst => ?_
  intro i s hi
  obtain ⟨a, hr, hinv, _⟩ := hst.link i s hi
  have hn : a.n < 2 ^ 60 := by rw [← hinv.core.len]; exact hlt i
  have hlen := hinv.core.levels_le hn
  have hw : withWeights s = tag 0 a.Ls := by
    rw [tag_eq, withWeights, hr.numLevels]
    apply List.flatMap_congr
    intro h hh
    rw [hr.levelItems (List.mem_range.1 hh), Nat.zero_add]
  have hsz : ∀ (Ls : List (List α)) j, (tag j Ls).length = size Ls := by
    intro Ls
    induction Ls with
    | nil => intro j; rfl
    | cons l ls ih => intro j; simp [tag, ih]
  have hfst : ∀ (Ls : List (List α)) j, (tag j Ls).map Prod.fst = Ls.flatten := by
    intro Ls
    induction Ls with
    | nil => intro j; rfl
    | cons l ls ih => intro j; simp [tag, ih, Function.comp_def]
  refine ⟨?_, ?_, ?_, ?_⟩
  · intro fuel hf
    rw [hw] at hf ⊢
    obtain ⟨G, hG, hit⟩ : ∃ G, G.length = a.free ∧ getTotalItemsArray env s = G ++ a.Ls.flatten := by
      unfold getTotalItemsArray
      split
      · rename_i h0
        have ha0 : a.n = 0 := by rw [← hr.n]; exact h0
        have hz : a.Ls.flatten = [] := by
          have := tag_sum a.Ls 0
          apply List.eq_nil_iff_forall_not_mem.2
          intro x hx
          have := hinv.core.mem x hx
          have hl := hinv.core.len
          rw [ha0] at hl
          rw [List.eq_nil_of_length_eq_zero hl] at this
          simp at this
        exact ⟨List.replicate s.k env.zero, by rw [List.length_replicate, hinv.fresh ha0, hr.k], by rw [hz]; simp⟩
      · exact hr.items
    obtain ⟨it', hc, ha, hi', hl⟩ := collect_ok hG (by omega) hinv.core.ne (tag 0 a.Ls) fuel (getIterator env s) hf
      (Or.inl ⟨⟨hit, hr.levels, by
        show s.levels.length - 1 = _
        rw [hr.levels, offs_length]; rfl⟩, rfl, rfl⟩)
    exact ⟨it', hc, next_after ha hi' hl⟩
  · rw [hw, hsz]
    unfold getNumRetained
    rw [hr.levels, hr.numLevels, rd_offs _ _ (Nat.le_refl _), Outcome.ok_bind,
      rd_offs _ _ (Nat.zero_le _), Outcome.ok_bind, List.take_length, sub_ok (by simp)]
    simp
  · rw [hw, tag_sum, hinv.core.weight, hinv.core.len]
    simp
  · intro p hp
    rw [hw] at hp
    apply hinv.core.mem
    rw [← hfst a.Ls 0]
    exact List.mem_map_of_mem hp

/-! ## The iterator of the sorted view -/

/-- kll/items_sketch_sorted_view_iterator.go:20-25 -/
structure VIt (α : Type) where
  quantiles : List α
  cumWeights : List Int
  totalN : Int
  index : Int

/-- kll/items_sketch_sorted_view_iterator.go:27-38 and kll/items_sketch_sorted_view.go:153-155 -/
def SView.iterator (v : SView α) : VIt α := ⟨v.quantiles, v.cumWeights, v.cumWeights.getLast?.getD 0, -1⟩

/-- `l[i]` for an `int` index -/
def rdI {β : Type} (l : List β) (i : Int) : Outcome β := if i < 0 then .panic else rd l i.toNat

/-- kll/items_sketch_sorted_view_iterator.go:40-43 -/
def VIt.next (it : VIt α) : Bool × VIt α :=
  (decide (it.index + 1 < it.cumWeights.length), { it with index := it.index + 1 })

/-- kll/items_sketch_sorted_view_iterator.go:49-51 -/
def VIt.getQuantile (it : VIt α) : Outcome α := rdI it.quantiles it.index

/-- kll/items_sketch_sorted_view_iterator.go:53-58 -/
def VIt.getWeight (it : VIt α) : Outcome Int :=
  if it.index = 0 then rdI it.cumWeights 0
  else do
    let a ← rdI it.cumWeights it.index
    let b ← rdI it.cumWeights (it.index - 1)
    .ok (a - b)

/-- kll/items_sketch_sorted_view_iterator.go:60-68 -/
def VIt.getNaturalRank (it : VIt α) (inclusive : Bool) : Outcome Int :=
  if inclusive then rdI it.cumWeights it.index
  else if it.index = 0 then .ok 0
  else rdI it.cumWeights (it.index - 1)

/-- kll/items_sketch_sorted_view_iterator.go:70-72 -/
def VIt.getNormalizedRank (it : VIt α) (inclusive : Bool) : Outcome ℚ := do
  let r ← it.getNaturalRank inclusive
  .ok ((r : ℚ) / it.totalN)

/-- what the loop of a caller sees at one position -/
structure Seen (α : Type) where
  quantile : α
  weight : Int
  rankIncl : Int
  rankExcl : Int
  normIncl : ℚ
  normExcl : ℚ

def VIt.look (it : VIt α) : Outcome (Seen α) := do
  let q ← it.getQuantile
  let w ← it.getWeight
  let ri ← it.getNaturalRank true
  let re ← it.getNaturalRank false
  let ni ← it.getNormalizedRank true
  let ne ← it.getNormalizedRank false
  .ok ⟨q, w, ri, re, ni, ne⟩

/-- `for it.Next() { ... }` -/
def collectV : Nat → VIt α → Outcome (List (Seen α))
  | 0, _ => .panic
  | fuel + 1, it =>
    if it.next.1 then do
      let x ← it.next.2.look
      let rest ← collectV fuel it.next.2
      .ok (x :: rest)
    else .ok []

/-- What should be seen: item, weight, total weight with and without it, the same divided by `n`. -/
def seenFrom (n : Int) (acc : Int) : List (α × Int) → List (Seen α)
  | [] => []
  | z :: Z => ⟨z.1, z.2, acc + z.2, acc, ((acc + z.2 : Int) : ℚ) / n, ((acc : Int) : ℚ) / n⟩ ::
      seenFrom n (acc + z.2) Z

theorem cums_append_at (P : List Int) (w : Int) (S : List Int) :
    ∀ a, (cums a (P ++ w :: S))[P.length]? = some (a + P.sum + w) := by
  induction P with
  | nil => intro a; simp [cums]
  | cons p P ih =>
    intro a
    simp only [List.cons_append, cums, List.length_cons, List.getElem?_cons_succ, List.sum_cons]
    rw [ih]
    congr 1
    ring

theorem collectV_ok (n : Int) (Z : List (α × Int)) : ∀ (P : List (α × Int)) (fuel : Nat),
    Z.length < fuel →
    collectV fuel ⟨(P ++ Z).map Prod.fst, cums 0 ((P ++ Z).map Prod.snd), n, (P.length : Int) - 1⟩ =
      .ok (seenFrom n (P.map Prod.snd).sum Z) := by
  induction Z with
  | nil =>
    intro P fuel hf
    obtain ⟨f, rfl⟩ : ∃ f, fuel = f + 1 := ⟨fuel - 1, by simp at hf; omega⟩
    unfold collectV VIt.next
    simp [seenFrom]
  | cons z Z ih =>
    intro P fuel hf
    obtain ⟨f, rfl⟩ : ∃ f, fuel = f + 1 := ⟨fuel - 1, by simp at hf; omega⟩
    have hq : ((P ++ z :: Z).map Prod.fst)[P.length]? = some z.1 := by
      rw [List.map_append, List.map_cons]
      exact get_mid _ _ _ (by simp)
    have hc : (cums 0 ((P ++ z :: Z).map Prod.snd))[P.length]? = some ((P.map Prod.snd).sum + z.2) := by
      rw [List.map_append, List.map_cons]
      have := cums_append_at (P.map Prod.snd) z.2 (Z.map Prod.snd) 0
      rw [List.length_map] at this
      rw [this]
      simp
    have hc' : P ≠ [] → (cums 0 ((P ++ z :: Z).map Prod.snd))[P.length - 1]? = some (P.map Prod.snd).sum := by
      intro hP
      obtain ⟨P', y, rfl⟩ : ∃ P' y, P = P' ++ [y] := ⟨P.dropLast, P.getLast hP, (List.dropLast_append_getLast hP).symm⟩
      have := cums_append_at (P'.map Prod.snd) y.2 ((z :: Z).map Prod.snd) 0
      rw [List.length_map] at this
      simp only [List.length_append, List.length_singleton, Nat.add_sub_cancel, List.map_append,
        List.map_cons, List.map_nil, List.append_assoc, List.singleton_append, List.sum_append,
        List.sum_singleton] at this ⊢
      rw [this]
      simp
    have hlook : (VIt.look ⟨(P ++ z :: Z).map Prod.fst, cums 0 ((P ++ z :: Z).map Prod.snd), n, (P.length : Int)⟩) =
        .ok ⟨z.1, z.2, (P.map Prod.snd).sum + z.2, (P.map Prod.snd).sum,
          (((P.map Prod.snd).sum + z.2 : Int) : ℚ) / n, (((P.map Prod.snd).sum : Int) : ℚ) / n⟩ := by
      have r1 : rdI ((P ++ z :: Z).map Prod.fst) (P.length : Int) = .ok z.1 := by
        unfold rdI rd
        rw [if_neg (by omega), Int.toNat_natCast, hq]
        rfl
      have r2 : rdI (cums 0 ((P ++ z :: Z).map Prod.snd)) (P.length : Int) = .ok ((P.map Prod.snd).sum + z.2) := by
        unfold rdI rd
        rw [if_neg (by omega), Int.toNat_natCast, hc]
        rfl
      generalize (P ++ z :: Z).map Prod.fst = Q at r1
      generalize cums 0 ((P ++ z :: Z).map Prod.snd) = C at r2 hc'
      unfold VIt.look VIt.getNormalizedRank VIt.getQuantile VIt.getWeight VIt.getNaturalRank
      by_cases hP : P = []
      · subst hP
        simp only [List.length_nil, Nat.cast_zero, List.map_nil, List.sum_nil] at r1 r2 ⊢
        simp [r1, r2]
      · have hl : 0 < P.length := List.length_pos_of_ne_nil hP
        have r3 : rdI C ((P.length : Int) - 1) = .ok (P.map Prod.snd).sum := by
          unfold rdI rd
          rw [if_neg (by omega), show ((P.length : Int) - 1).toNat = P.length - 1 by omega, hc' hP]
          rfl
        have h0 : ¬ ((P.length : Int) = 0) := by omega
        simp only [r1, r2, r3, if_neg h0, Outcome.ok_bind, if_true, Bool.false_eq_true, if_false]
        simp
    unfold collectV VIt.next
    dsimp only
    rw [show (P.length : Int) - 1 + 1 = P.length by omega]
    rw [if_pos (by simp), hlook, Outcome.ok_bind]
    have := ih (P ++ [z]) f (by simp only [List.length_cons] at hf; omega)
    rw [show P ++ [z] ++ Z = P ++ z :: Z by simp,
      show (((P ++ [z]).length : Nat) : Int) - 1 = P.length by simp] at this
    rw [this, Outcome.ok_bind, seenFrom]
    simp

theorem getLast_cums (ws : List Int) (h : ws ≠ []) : ∀ a, (cums a ws).getLast? = some (a + ws.sum) := by
  induction ws with
  | nil => exact absurd rfl h
  | cons w ws ih =>
    intro a
    cases ws with
    | nil => simp [cums]
    | cons y ys =>
      have := ih (by simp) (a + w)
      simp only [cums, List.getLast?_cons_cons, List.sum_cons] at this ⊢
      rw [this]
      congr 1
      ring

/-- the hypotheses hold for streams of any length below `2^60` -/
example (xs : List Nat) (hn : xs.length < 2 ^ 60) : Valid (streamProg 200 8 xs) :=
  streamProg_valid (by omega) (by omega) (by omega) (by omega) xs hn

/-- a loop over three retained items in levels 0 and 2 -/
example : (match collect 9 (getIterator natEnv
      ⟨8, 2, 8, 3, false, 9, [4, 5, 5, 7], [0, 0, 0, 0, 7, 3, 9], 1, 9, true, []⟩) with
    | .ok r => r.1
    | _ => []) = [(7, 1), (3, 4), (9, 4)] := by decide

variable [LinearOrder α]

/-- **C104, sorted view.** The loop over the iterator of the sorted view sees the retained items in
order, with positive weights; for every set of items the weights seen add up to the weight of the
retained items in that set; the natural rank is the total weight seen so far (with or without the
current item), the normalized rank is that divided by `n`. -/
theorem C104_view (env : Env α) (hlt : ∀ a b, env.lt a b = decide (a < b)) (hso : Sorts env)
    (ops : List (Op α)) (hv : Valid ops) :
    Rand.All (fun st => ∀ (i : Nat) (s : Sketch α), st[i]? = some s → s.n ≠ 0 →
      ∃ v, newSortedView env s = .ok v ∧ ∃ Z : List (α × Int),
        (∀ fuel, Z.length < fuel → collectV fuel v.iterator = .ok (seenFrom (s.n : Nat) 0 Z)) ∧
        Z.Pairwise (fun a b => a.1 ≤ b.1) ∧ (∀ z ∈ Z, 0 < z.2) ∧
        ∀ p : α → Bool, ((Z.filter fun z => p z.1).map Prod.snd).sum = weightOf p s) (run env ops) := by
  refine (run_view env hlt hso ops hv).mono fun st hst => ?_
  intro i s hi hn
  obtain ⟨hw, v, Z, hv', h⟩ := hst i s hi hn
  refine ⟨v, hv', Z, ?_, h.wf.sorted, h.pos, h.weight⟩
  intro fuel hf
  have hsum : (Z.map Prod.snd).sum = (s.n : Nat) := by
    have := h.weight fun _ => true
    rw [hw] at this
    rw [← this]
    simp [View.wsum]
  have := collectV_ok (s.n : Nat) Z [] fuel hf
  unfold SView.iterator
  rw [h.quantiles, h.cumWeights, getLast_cums _ (by simpa using h.ne)]
  simpa [hsum] using this

end Verif.Kll
