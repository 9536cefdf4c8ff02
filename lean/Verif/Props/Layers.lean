import Verif.SpecLayers
import Verif.Props.Table
import Verif.Lemmas.Strip

/-! # C145: layers painted with `minus_in_place`, exactly -/

set_option linter.unusedVariables false
set_option linter.unusedSectionVars false

namespace NI
open _root_.NI.Finite TT
variable {α : Type} {V : Type _} [LinearOrder α] [Finite α] [LawfulFinite α]

theorem List.snoc_split {β : Type _} {cs : List β} {c d : β} {before after : List β}
    (e : cs ++ [c] = before ++ d :: after) :
    (after = [] ∧ cs = before ∧ c = d) ∨ ∃ as, after = as ++ [c] ∧ cs = before ++ d :: as := by
  rcases List.eq_nil_or_concat after with rfl | ⟨as, f, rfl⟩
  · obtain ⟨h1, h2⟩ := List.concat_inj.1 (by simpa using e)
    exact .inl ⟨rfl, h1, h2⟩
  · have e' : cs ++ [c] = (before ++ d :: as) ++ [f] := by rw [e]; simp
    obtain ⟨h1, h2⟩ : cs = before ++ d :: as ∧ c = f := by simpa using List.append_inj' e' rfl
    exact .inr ⟨as, by rw [h2]; simp, h1⟩

theorem LastJoin.snoc (cs : List (Interval α × V)) (c : Interval α × V) (x : α) (v : V) :
    LastJoin (cs ++ [c]) x v ↔ (c.2 = v ∧ c.1.joins x = true) ∨ (c.1.joins x = false ∧ LastJoin cs x v) := by
  constructor
  · rintro ⟨before, i, after, e, hx, h⟩
    rcases List.snoc_split e with ⟨rfl, rfl, rfl⟩ | ⟨as, rfl, rfl⟩
    · exact .inl ⟨rfl, hx⟩
    · exact .inr ⟨h c (by simp), before, i, as, rfl, hx, fun d hd => h d (by simp [hd])⟩
  · rintro (⟨rfl, h⟩ | ⟨h, before, i, after, rfl, hx, h2⟩)
    · exact ⟨cs, c.1, [], rfl, h, by simp⟩
    · refine ⟨before, i, after ++ [c], by simp, hx, fun d hd => ?_⟩
      rcases List.mem_append.1 hd with hd | hd
      · exact h2 d hd
      · rw [List.mem_singleton.1 hd]; exact h

theorem FilledIn.snoc (cs : List (Interval α × V)) (c : Interval α × V) (x : α) (v : V) :
    FilledIn (cs ++ [c]) x v ↔ (c.2 ≠ v ∧ c.1.beside x = true ∧ LastJoin cs x v ∧ ∃ y, pred x = some y ∧ LastJoin cs y v) ∨
      (c.1.contains x = false ∧ FilledIn cs x v) := by
  constructor
  · rintro ⟨before, d, after, e, h1, h2, h3, h4, h5⟩
    rcases List.snoc_split e with ⟨rfl, rfl, rfl⟩ | ⟨as, rfl, rfl⟩
    · exact .inl ⟨h1, h2, h3, h4⟩
    · exact .inr ⟨h5 c (by simp), before, d, as, rfl, h1, h2, h3, h4, fun d hd => h5 d (by simp [hd])⟩
  · rintro (⟨h1, h2, h3, h4⟩ | ⟨h, before, d, after, rfl, h1, h2, h3, h4, h5⟩)
    · exact ⟨cs, c, [], rfl, h1, h2, h3, h4, by simp⟩
    · refine ⟨before, d, after ++ [c], by simp, h1, h2, h3, h4, fun d hd => ?_⟩
      rcases List.mem_append.1 hd with hd | hd
      · exact h5 d hd
      · rw [List.mem_singleton.1 hd]; exact h

theorem Interval.beside_out {i : Interval α} {x : α} (h : i.beside x = true) : i.contains x = false := by
  by_contra hc
  rw [Bool.not_eq_false, Interval.contains, RawInterval.contains_iff_bounds] at hc
  obtain ⟨l, u, e1, e2, g1, g2⟩ := hc
  rcases (Interval.beside_iff i x).1 h with ⟨y, h1, h2⟩ | ⟨y, h1, h2⟩
  · rw [Interval.lowerBound, e1] at h1; cases h1
    exact absurd (show y ≤ x from g1) (not_le.2 (LawfulFinite.pred_some y x h2).1)
  · rw [Interval.upperBound, e2] at h1; cases h1
    exact absurd (show x ≤ y from g2) (not_le.2 (LawfulFinite.succ_some y x h2).1)

/-- The strip of the layer of one value. -/
def Layers.strip [DecidableEq V] (cs : List (Interval α × V)) (v : V) : Strip α :=
  cs.foldl (fun p c => if v = c.2 then p.add c.1 else p.remove c.1) .nothing

theorem Layers.strip_snoc [DecidableEq V] (cs : List (Interval α × V)) (c : Interval α × V) (v : V) :
    Layers.strip (cs ++ [c]) v = if v = c.2 then (Layers.strip cs v).add c.1 else (Layers.strip cs v).remove c.1 := by
  rw [Layers.strip, List.foldl_append]; rfl

theorem Layers.strip_eq [DecidableEq V] (cs : List (Interval α × V)) (v : V) :
    (∀ x, (Layers.strip cs v).joint x = true ↔ LastJoin cs x v) ∧
    ∀ x, (Layers.strip cs v).val x = true ↔ LastSet (Layers.changes cs) x v ∨ FilledIn cs x v := by
  induction cs using List.reverseRecOn with
  | nil =>
    refine ⟨fun x => ⟨fun h => (by cases h), ?_⟩, fun x => ⟨fun h => (by cases h), ?_⟩⟩
    · rintro ⟨_, _, _, e, -⟩; simp at e
    · rintro (h | ⟨_, _, _, e, -⟩)
      · exact absurd h (LastSet.nil x v)
      · simp at e
  | append_singleton cs c ih =>
    obtain ⟨hj, hv⟩ := ih
    have hole : ∀ x, (Layers.strip cs v).hole x = true ↔ (Layers.strip cs v).val x = false ∧ LastJoin cs x v ∧
        ∃ y, pred x = some y ∧ LastJoin cs y v := fun x => by
      rw [Strip.hole, Bool.and_eq_true, Bool.and_eq_true, Bool.not_eq_true', Option.any_eq_true, hj, and_assoc]
      simp only [hj]
    have mem : ∀ x, x ∈ c.1.pts ↔ c.1.contains x = true := fun x => Iff.rfl
    by_cases hc : v = c.2
    · subst hc
      rw [Layers.strip_snoc, if_pos rfl]
      refine ⟨fun x => ?_, fun x => ?_⟩
      · rw [LastJoin.snoc, ← hj, Strip.add, Bool.or_eq_true]
        cases c.1.joins x <;> simp
      · rw [FilledIn.snoc, Layers.changes_snoc, LastSet.snoc, Strip.add, Bool.or_eq_true, hv]
        simp only [TableChange.set.injEq, TableChange.interval, mem]
        cases h : c.1.contains x
        · have hx : ¬ x ∈ c.1.pts := by rw [mem, h]; simp
          simp [hx]
        · have hx : x ∈ c.1.pts := (mem x).2 h
          simp [hx]
    · rw [Layers.strip_snoc, if_neg hc]
      have hc' : ¬ c.2 = v := fun h => hc h.symm
      refine ⟨fun x => ?_, fun x => ?_⟩
      · rw [LastJoin.snoc, ← hj, Strip.remove]
        cases hn : c.1.joins x <;> simp [hc', hn]
      · rw [FilledIn.snoc, Layers.changes_snoc, LastSet.snoc, Strip.remove, Bool.or_eq_true, Bool.and_eq_true, Bool.and_eq_true,
          hole, ← Bool.not_eq_true, hv]
        simp only [TableChange.set.injEq, TableChange.interval, mem]
        have out := Interval.beside_out (i := c.1) (x := x)
        cases h : c.1.contains x <;> cases hb : c.1.beside x <;> simp [h, hb, hc'] at out ⊢
        · generalize LastSet (Layers.changes cs) x v = A
          generalize FilledIn cs x v = B
          generalize (LastJoin cs x v ∧ _) = C
          by_cases hA : A <;> by_cases hB : B <;> simp [hA, hB]

variable [DecidableEq V]

/-- **C145.**  Taking out by `minus_in_place`, a layer holds exactly the values last given its value, and those that were
filled in. -/
theorem C145_layers_in_place_exact (dbg : Bool) (vs : List V) (cs : List (Interval α × V)) (ho : ∀ c ∈ cs, c.1.Obtainable) :
    ∃ ls, Layers.make (Selection.minusInPlace dbg) dbg vs cs = .ok ls ∧ ls.map Prod.fst = vs ∧
      ∀ l ∈ ls, ∀ x, l.2.contains dbg x = .ok true ↔ LastSet (Layers.changes cs) x l.1 ∨ FilledIn cs x l.1 := by
  obtain ⟨ls, e, hv, h⟩ := Layers.track (Selection.minusInPlace dbg) dbg (fun cs v s => (Layers.strip cs v).Of s)
    (fun v => Strip.of_new) vs
    (fun cs c v s hc hs => by
      by_cases hv : v = c.2
      · obtain ⟨s', e, h⟩ := hs.add dbg hc
        exact ⟨s', by rw [if_pos hv, e], by rw [Layers.strip_snoc, if_pos hv]; exact h⟩
      · obtain ⟨s', e, h⟩ := hs.remove dbg hc
        exact ⟨s', by rw [if_neg hv, e], by rw [Layers.strip_snoc, if_neg hv]; exact h⟩) cs ho
  refine ⟨ls, e, hv, fun l hl x => ?_⟩
  rw [Selection.contains_ok dbg (Selection.reachable_valid (h l hl).1), (h l hl).2.1, ← (Layers.strip_eq cs l.1).2]
  simp

/-- 3 was filled in: 2 and 4 had 0 when 4 to 10 got 1. -/
example : (∀ c ∈ [((.point (u8 2) : Interval U8), 0), (.point (u8 4), 0), (.mkClosed (u8 4) (u8 10), 1)], c.1.Obtainable) ∧
    FilledIn [((.point (u8 2) : Interval U8), 0), (.point (u8 4), 0), (.mkClosed (u8 4) (u8 10), 1)] (u8 3) 0 := by
  refine ⟨fun c hc => ?_, [(.point (u8 2), 0), (.point (u8 4), 0)], (.mkClosed (u8 4) (u8 10), 1), [], rfl, by decide, by decide,
    ⟨[(.point (u8 2), 0)], .point (u8 4), [], rfl, by decide, by simp⟩, ⟨u8 2, by decide, [], .point (u8 2), [(.point (u8 4), 0)],
      rfl, by decide, by simp; decide⟩, by simp⟩
  simp only [List.mem_cons, List.not_mem_nil, or_false] at hc
  rcases hc with rfl | rfl | rfl
  exacts [.point _, .point _, .mkClosed _ _]

end NI
