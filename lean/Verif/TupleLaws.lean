import Verif.TupleKeys
import Mathlib.Data.List.Nodup
import Mathlib.Data.List.Perm.Subperm

/-!
# What the proofs use about summaries

`Laws` says that the summary operations act on the content of a summary as the given functions and
leave the other summaries in use alone.  `own h l`: the summaries `l` are alive in the memory `h` and
do not share storage.  Both kinds of summaries satisfy the laws: for values nothing is shared, for
pointers the addresses must be distinct.
-/

namespace Verif.Tuple

/-- Behaviour of the summary operations. -/
structure Laws {H S V σ : Type} (K : Kind H S V) (read : H → S → σ) (new : σ) (upd : σ → V → σ)
    (app : σ → σ → σ) (own : H → List S → Prop) : Prop where
  sub : ∀ h l l', own h l → l'.Subperm l → own h l'
  make : ∀ h l, own h l → own (K.make h).2 ((K.make h).1 :: l) ∧
    read (K.make h).2 (K.make h).1 = new ∧ ∀ x ∈ l, read (K.make h).2 x = read h x
  update : ∀ h s l v, own h (s :: l) → own (K.update h s v).2 ((K.update h s v).1 :: l) ∧
    read (K.update h s v).2 (K.update h s v).1 = upd (read h s) v ∧
    ∀ x ∈ l, read (K.update h s v).2 x = read h x
  merge : ∀ h a b l, own h (a :: l) → b ∈ l → own (K.merge h a b).2 ((K.merge h a b).1 :: l) ∧
    read (K.merge h a b).2 (K.merge h a b).1 = app (read h a) (read h b) ∧
    ∀ x ∈ l, read (K.merge h a b).2 x = read h x
  clone : ∀ h s l, own h l → s ∈ l → own (K.clone h s).2 ((K.clone h s).1 :: l) ∧
    read (K.clone h s).2 (K.clone h s).1 = read h s ∧ ∀ x ∈ l, read (K.clone h s).2 x = read h x
  clear : ∀ h s l, own h (s :: l) → own (K.clear h s).2 l ∧
    ∀ x ∈ l, read (K.clear h s).2 x = read h x

/-- values share nothing -/
theorem values_laws {σ V : Type} (new : σ) (upd : σ → V → σ) (app : σ → σ → σ) :
    Laws (values new upd app) (fun _ s => s) new upd app (fun _ _ => True) where
  sub := fun _ _ _ _ _ => trivial
  make := fun _ _ _ => ⟨trivial, rfl, fun _ _ => rfl⟩
  update := fun _ _ _ _ _ => ⟨trivial, rfl, fun _ _ => rfl⟩
  merge := fun _ _ _ _ _ _ => ⟨trivial, rfl, fun _ _ => rfl⟩
  clone := fun _ _ _ _ _ => ⟨trivial, rfl, fun _ _ => rfl⟩
  clear := fun _ _ _ _ => ⟨trivial, fun _ _ => rfl⟩

/-- distinct live objects -/
def Distinct {σ : Type} (h : List σ) (l : List Nat) : Prop := l.Nodup ∧ ∀ s ∈ l, s < h.length

/-- content of an object -/
def content {σ : Type} (zero : σ) (h : List σ) (s : Nat) : σ := h[s]?.getD zero

theorem content_append {σ : Type} {zero : σ} {h : List σ} {x : Nat} (hx : x < h.length)
    (t : List σ) : content zero (h ++ t) x = content zero h x := by
  unfold content; rw [List.getElem?_append_left hx]

theorem content_modify_self {σ : Type} {zero : σ} {h : List σ} {s : Nat} (hs : s < h.length)
    (f : σ → σ) : content zero (h.modify s f) s = f (content zero h s) := by
  unfold content
  rw [List.getElem?_modify]
  simp [hs]

theorem content_modify_ne {σ : Type} {zero : σ} {h : List σ} {s x : Nat} (hx : s ≠ x)
    (f : σ → σ) : content zero (h.modify s f) x = content zero h x := by
  unfold content
  rw [List.getElem?_modify]
  simp [hx]

theorem pointers_laws {σ V : Type} (new zero : σ) (upd : σ → V → σ) (app : σ → σ → σ) :
    Laws (pointers new zero upd app) (content zero) new upd app Distinct where
  sub := by
    rintro h l l' ⟨h1, h2⟩ hs
    have hs2 := hs
    obtain ⟨m, hp, hsub⟩ := hs2
    refine ⟨hp.nodup_iff.mp (hsub.nodup h1), fun s hm => h2 s (hs.subset hm)⟩
  make := by
    rintro h l ⟨h1, h2⟩
    refine ⟨⟨?_, ?_⟩, ?_, ?_⟩
    · exact List.nodup_cons.mpr ⟨fun hm => absurd (h2 _ hm) (by simp [pointers]), h1⟩
    · intro s hs
      rcases List.mem_cons.mp hs with rfl | hs
      · simp [pointers]
      · have := h2 s hs
        simp [pointers]; omega
    · simp [pointers, content]
    · intro x hx
      exact content_append (h2 x hx) _
  update := by
    rintro h s l v ⟨h1, h2⟩
    refine ⟨⟨h1, ?_⟩, ?_, ?_⟩
    · intro x hx
      simp only [pointers, List.length_modify]
      exact h2 x hx
    · exact content_modify_self (h2 s (by simp)) _
    · intro x hx
      exact content_modify_ne (by rintro rfl; exact (List.nodup_cons.mp h1).1 hx) _
  merge := by
    rintro h a b l ⟨h1, h2⟩ hb
    have hbl := h2 b (by simp [hb])
    have hget : h[b]? = some (content zero h b) := by
      simp [content, hbl]
    have hm : ((pointers new zero upd app).merge h a b).2 =
        h.modify a (fun x => app x (content zero h b)) := by
      simp only [pointers, hget]
    refine ⟨⟨h1, ?_⟩, ?_, ?_⟩
    · intro x hx
      rw [hm, List.length_modify]
      exact h2 x hx
    · rw [hm]
      exact content_modify_self (h2 a (by simp)) _
    · intro x hx
      rw [hm]
      exact content_modify_ne (by rintro rfl; exact (List.nodup_cons.mp h1).1 hx) _
  clone := by
    rintro h s l ⟨h1, h2⟩ hs
    have hsl := h2 s hs
    have hget : h[s]? = some (content zero h s) := by
      simp [content, hsl]
    have hm : ((pointers new zero upd app).clone h s).2 = h ++ [content zero h s] := by
      simp only [pointers, hget]
    refine ⟨⟨?_, ?_⟩, ?_, ?_⟩
    · exact List.nodup_cons.mpr ⟨fun hm => absurd (h2 _ hm) (by simp [pointers]), h1⟩
    · intro x hx
      rw [hm]
      rcases List.mem_cons.mp hx with rfl | hx
      · simp [pointers]
      · have := h2 x hx
        simp; omega
    · rw [hm]; simp [pointers, content]
    · intro x hx
      rw [hm]
      exact content_append (h2 x hx) _
  clear := by
    rintro h s l ⟨h1, h2⟩
    refine ⟨⟨(List.nodup_cons.mp h1).2, ?_⟩, ?_⟩
    · intro x hx
      simp only [pointers, List.length_modify]
      exact h2 x (by simp [hx])
    · intro x hx
      exact content_modify_ne (by rintro rfl; exact (List.nodup_cons.mp h1).1 hx) _

section
variable {H S V σ : Type} {K : Kind H S V} {read : H → S → σ} {new : σ} {upd : σ → V → σ}
  {app : σ → σ → σ} {own : H → List S → Prop} (L : Laws K read new upd app own)
include L

theorem Laws.perm {h : H} {l l' : List S} (ho : own h l) (hp : l'.Perm l) : own h l' :=
  L.sub h l l' ho hp.subperm

/-- Clearing all slots: the summaries outside keep their content. -/
theorem Laws.clearAll : ∀ (es : List (Entry S)) (h : H) (F : List S),
    own h ((es.filter (fun e => e.1 != 0)).map Prod.snd ++ F) →
    own (clearAll K es h).2 F ∧ ∀ x ∈ F, read (clearAll K es h).2 x = read h x := by
  intro es
  induction es with
  | nil => intro h F ho; exact ⟨ho, fun _ _ => rfl⟩
  | cons e es ih =>
    intro h F ho
    simp only [Tuple.clearAll]
    by_cases h0 : e.1 ≠ 0
    · rw [if_pos h0]
      simp only
      rw [List.filter_cons, if_pos (by simpa using h0)] at ho
      obtain ⟨c1, c2⟩ := L.clear h e.2 _ ho
      obtain ⟨d1, d2⟩ := ih (K.clear h e.2).2 F c1
      exact ⟨d1, fun x hx => by rw [d2 x hx, c2 x (by simp [hx])]⟩
    · rw [if_neg h0]
      simp only
      rw [List.filter_cons, if_neg (by simpa using h0)] at ho
      exact ih h F ho

/-- Cloning all entries: fresh summaries with the same contents, everything else unchanged. -/
theorem Laws.cloneAll : ∀ (es : List (Entry S)) (h : H) (F : List S), own h F →
    (∀ e ∈ es, e.2 ∈ F) →
    own (cloneAll K es h).2 ((cloneAll K es h).1.map Prod.snd ++ F) ∧
    (cloneAll K es h).1.map (fun e => (e.1, read (cloneAll K es h).2 e.2)) =
      es.map (fun e => (e.1, read h e.2)) ∧
    ∀ x ∈ F, read (cloneAll K es h).2 x = read h x := by
  intro es
  induction es with
  | nil => intro h F ho _; exact ⟨ho, rfl, fun _ _ => rfl⟩
  | cons e es ih =>
    intro h F ho hes
    simp only [Tuple.cloneAll]
    obtain ⟨c1, c2, c3⟩ := L.clone h e.2 F ho (hes e (by simp))
    obtain ⟨d1, d2, d3⟩ := ih (K.clone h e.2).2 ((K.clone h e.2).1 :: F) c1
      (fun x hx => by simp [hes x (by simp [hx])])
    refine ⟨?_, ?_, ?_⟩
    · refine L.perm d1 ?_
      simp only [List.map_cons, List.cons_append]
      exact (List.perm_middle).symm
    · simp only [List.map_cons, d2]
      congr 1
      · rw [d3 _ (by simp), c2]
      · apply List.map_congr_left
        intro x hx
        rw [c3 _ (hes x (by simp [hx]))]
    · intro x hx
      rw [d3 x (by simp [hx]), c3 x hx]

end

end Verif.Tuple
