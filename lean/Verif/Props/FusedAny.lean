import Verif.Props.ClosureAny

/-! # `None` from the point iterators of selections of any history (C67) -/

set_option linter.unusedSimpArgs false
set_option linter.unusedVariables false
set_option linter.unusedSectionVars false

namespace NI
open _root_.NI.Finite TT
variable {α : Type} [LinearOrder α] [Finite α] [LawfulFinite α]

/-- A call on an interval as iterator: nothing is left, or both ends yield something. -/
theorem Interval.step_any {i : Interval α} (h : i.Obtainable) :
    (i.lowerBound = none ∧ i.next = .ok (none, i) ∧ i.nextBack = .ok (none, i)) ∨
    ((∃ m j, i.next = .ok (some m, j) ∧ j.Obtainable) ∧ ∃ m j, i.nextBack = .ok (some m, j) ∧ j.Obtainable) := by
  by_cases hr : i.Real
  · rcases Interval.iter_step h hr with ⟨-, e, e'⟩ | ⟨⟨m, i', -, e, h', -, -⟩, ⟨m', i'', -, e', h'', -, -⟩⟩
    · refine .inl ⟨?_, e, e'⟩
      unfold Interval.next at e
      cases hl : i.lowerBound with
      | none => rfl
      | some b => rw [hl] at e; cases b <;> cases e
    · exact .inr ⟨⟨_, _, e, h'⟩, _, _, e', h''⟩
  · obtain ⟨l, u, -, -, e, e'⟩ := Interval.not_real_step h hr
    exact .inr ⟨⟨_, _, e, .empty⟩, _, _, e', .empty⟩

/-- The reported interval of a piece can be iterated and yields something. -/
def Selection.Yields (i : RawInterval α) : Prop := (Selection.run i).Obtainable ∧ (Selection.run i).lowerBound ≠ none

theorem Selection.yields {s : Selection α} (hs : s.Reachable) : ∀ i ∈ pieces none s.tree, Selection.Yields i := by
  intro i hi
  have v := Selection.reachable_valid hs
  obtain ⟨l, u, lb, ub, e, -⟩ := Selection.run_ends' hs hi
  exact ⟨.ofRaw i ((pieces_wf v.1).1 i hi).1, by rw [e]; simp⟩

theorem Selection.fwd_fused (dbg : Bool) (n : Nat) : ∀ {ts : List (Tine α)} {saved : Option α} {cur : Interval α},
    (∀ t ∈ ts, t.Ok) → Chain saved.isSome ts false → cur.Obtainable →
    (∀ i ∈ pieces (saved.map .excl) ts, Selection.Yields i) →
    ∃ os, drive (PointIter.next dbg) (PointIter.nextBack dbg) ⟨itState ts saved, cur⟩ (List.replicate n .next) =
      .ok os ∧ Fused os ∧ (ts = [] → saved = none → cur.next = .ok (none, cur) → ∀ o ∈ os, o = none) := by
  induction n with
  | zero => intros; exact ⟨[], rfl, List.Pairwise.nil, fun _ _ _ o ho => absurd ho List.not_mem_nil⟩
  | succ n ih =>
    intro ts saved cur hok hc ho hy
    rw [List.replicate_succ]
    rcases Interval.step_any ho with ⟨-, e1, -⟩ | ⟨⟨m, cur', e1, ho'⟩, -⟩
    · rcases next_step dbg ts saved hok hc with ⟨rfl, rfl, k3, k4⟩ | ⟨i, ts', saved', k1, k2, k3, k4, k5⟩
      · obtain ⟨os, e, f, z⟩ := ih (ts := []) (saved := none) (by simp) rfl ho hy
        have z := z rfl rfl e1
        refine ⟨none :: os, ?_, List.pairwise_cons.2 ⟨fun o ho _ => z o ho, f⟩, fun _ _ _ o ho => ?_⟩
        · simp only [drive, PointIter.next, e1, Selection.intervalNext, k4, bind, Except.bind, Option.map_none, e]
          rfl
        · rcases List.mem_cons.1 ho with rfl | ho
          · rfl
          · exact z o ho
      · rw [k1] at hy
        obtain ⟨g1, g2⟩ := hy i (by simp)
        rcases Interval.step_any g1 with ⟨h, -⟩ | ⟨⟨m, cur', e2, ho'⟩, -⟩
        · exact absurd h g2
        obtain ⟨os, e, f, -⟩ := ih (fun t ht => hok t (k4 t ht)) k2 ho' (fun j hj => hy j (by simp [hj]))
        refine ⟨some m :: os, ?_, List.pairwise_cons.2 ⟨fun o _ h => (by cases h), f⟩, fun h => ?_⟩
        · simp only [drive, PointIter.next, e1, Selection.intervalNext, k5, bind, Except.bind, Option.map_some,
            Selection.run_eq, e2, e]
          rfl
        · subst h; simp at k3
    · obtain ⟨os, e, f, -⟩ := ih hok hc ho' hy
      refine ⟨some m :: os, ?_, List.pairwise_cons.2 ⟨fun o _ h => (by cases h), f⟩, fun _ _ h => ?_⟩
      · simp only [drive, PointIter.next, e1, bind, Except.bind, e]; rfl
      · rw [e1] at h; cases h

theorem Selection.mix_fused (dbg : Bool) (cs : List IterCall) : ∀ {t : List (Tine α)} {cur : Interval α},
    (∀ x ∈ t, x.Ok) → HoleFree t → Chain false t false → cur.Obtainable →
    (∀ i ∈ pieces none t, Selection.Yields i) →
    ∃ os, drive (PointIter.next dbg) (PointIter.nextBack dbg) ⟨⟨t, none, none⟩, cur⟩ cs = .ok os ∧ Fused os ∧
      (t = [] → cur.lowerBound = none → ∀ o ∈ os, o = none) := by
  induction cs with
  | nil => intros; exact ⟨[], rfl, List.Pairwise.nil, fun _ _ o ho => absurd ho List.not_mem_nil⟩
  | cons c cs ih =>
    intro t cur hok hf hc ho hy
    rcases Interval.step_any ho with ⟨e0, e1, e1'⟩ | ⟨⟨m, c1, e1, ho1⟩, m', c2, e2, ho2⟩
    · rcases deque_step dbg hok hf hc with ⟨rfl, k4, k4'⟩ |
        ⟨⟨i, A, k1, k2, k3, k4, k5⟩, ⟨i', A', k1', k2', k3', k4', k5'⟩⟩
      · obtain ⟨os, e, f, z⟩ := ih hok hf hc ho hy
        have z := z rfl e0
        refine ⟨none :: os, ?_, List.pairwise_cons.2 ⟨fun o ho _ => z o ho, f⟩, fun _ _ o ho => ?_⟩
        · cases c <;> simp only [drive, PointIter.nextBack, PointIter.next, e1, e1', Selection.intervalNext,
            Selection.intervalNextBack, k4, k4', bind, Except.bind, Option.map_none, e] <;> rfl
        · rcases List.mem_cons.1 ho with rfl | ho
          · rfl
          · exact z o ho
      · have ht : t ≠ [] := by rintro rfl; cases k1
        cases c
        · rw [k1] at hy
          obtain ⟨g1, g2⟩ := hy i (by simp)
          rcases Interval.step_any g1 with ⟨h, -⟩ | ⟨⟨m, cur', e2, ho'⟩, -⟩
          · exact absurd h g2
          obtain ⟨os, e, f, -⟩ := ih (t := A) k2 k3 k4 ho' (fun j hj => hy j (by simp [hj]))
          refine ⟨some m :: os, ?_, List.pairwise_cons.2 ⟨fun o _ h => (by cases h), f⟩, fun h => absurd h ht⟩
          simp only [drive, PointIter.next, e1, Selection.intervalNext, k5, bind, Except.bind, Option.map_some,
            Selection.run_eq, e2, e]
          rfl
        · rw [k1'] at hy
          obtain ⟨g1, g2⟩ := hy i' (by simp)
          rcases Interval.step_any g1 with ⟨h, -⟩ | ⟨-, ⟨m, cur', e2, ho'⟩⟩
          · exact absurd h g2
          obtain ⟨os, e, f, -⟩ := ih (t := A') k2' k3' k4' ho' (fun j hj => hy j (by simp [hj]))
          refine ⟨some m :: os, ?_, List.pairwise_cons.2 ⟨fun o _ h => (by cases h), f⟩, fun h => absurd h ht⟩
          simp only [drive, PointIter.nextBack, e1', Selection.intervalNextBack, k5', bind, Except.bind,
            Option.map_some, Selection.run_eq, e2, e]
          rfl
    · have hn : cur.lowerBound ≠ none := by
        intro h
        unfold Interval.next at e1
        rw [h] at e1; cases e1
      cases c
      · obtain ⟨os, e, f, -⟩ := ih hok hf hc ho1 hy
        refine ⟨some m :: os, ?_, List.pairwise_cons.2 ⟨fun o _ h => (by cases h), f⟩, fun _ h => absurd h hn⟩
        simp only [drive, PointIter.next, e1, bind, Except.bind, e]; rfl
      · obtain ⟨os, e, f, -⟩ := ih hok hf hc ho2 hy
        refine ⟨some m' :: os, ?_, List.pairwise_cons.2 ⟨fun o _ h => (by cases h), f⟩, fun _ h => absurd h hn⟩
        simp only [drive, PointIter.nextBack, e2, bind, Except.bind, e]; rfl

/-- Forward iteration over the points of a selection of any history, with point-free intervals or not, never panics
and never resumes after `None`. -/
theorem C67_forward_any (dbg : Bool) (s : Selection α) (hs : s.Reachable) (n : Nat) :
    ∃ os, drive (PointIter.next dbg) (PointIter.nextBack dbg) (PointIter.start s) (List.replicate n .next) = .ok os ∧
      Fused os := by
  have v := Selection.reachable_valid hs
  obtain ⟨os, e, f, -⟩ := Selection.fwd_fused dbg n (ts := s.tree) (saved := none) (cur := .empty) v.1.1 v.2 .empty
    (Selection.yields hs)
  exact ⟨os, e, f⟩

example : drive (PointIter.next true) (PointIter.nextBack true) (PointIter.start (Selection.demo [(u8 3, u8 4), (u8 9, u8 9)]))
    (List.replicate 5 .next) = .ok [some (u8 3), some (u8 4), some (u8 9), none, none] := by decide

/-- Nor does mixed iteration over a selection without pinholes. -/
theorem C67_mixed_any (dbg : Bool) (s : Selection α) (hs : s.Reachable) (hp : ∀ x, ¬ s.Pinhole dbg x)
    (cs : List IterCall) :
    ∃ os, drive (PointIter.next dbg) (PointIter.nextBack dbg) (PointIter.start s) cs = .ok os ∧ Fused os := by
  have v := Selection.reachable_valid hs
  have hn : ∀ x, holeAt s.tree (.fin x) = false := fun x => by
    rw [Bool.eq_false_iff, ne_eq, ← Selection.pinhole_iff dbg v]
    exact hp x
  obtain ⟨os, e, f, -⟩ := Selection.mix_fused dbg cs (t := s.tree) (cur := .empty) v.1.1 (noHole_holeFree v hn) v.2
    .empty (Selection.yields hs)
  exact ⟨os, e, f⟩

/-- A selection with a reported interval without points: it yields a value that it does not contain, and then stops. -/
example : drive (PointIter.next true) (PointIter.nextBack true)
    (PointIter.start (Selection.ofInterval (Interval.mkOpen (u8 3) (u8 4)))) [.next, .next, .nextBack] =
    .ok [some (u8 4), none, none] := by decide
example : (Selection.ofInterval (Interval.mkOpen (u8 3) (u8 4))).Reachable ∧
    ∀ x, ¬ (Selection.ofInterval (Interval.mkOpen (u8 3) (u8 4))).Pinhole true x := by
  have h : (Selection.ofInterval (Interval.mkOpen (u8 3) (u8 4))).Reachable := .ofInterval (.mkOpen _ _)
  refine ⟨h, ?_⟩
  rintro x ⟨c, cs, h1, h2, h3⟩
  have : (Selection.ofInterval (Interval.mkOpen (u8 3) (u8 4))).complement true >>= (Selection.intervals true ·) =
    .ok [⟨.closed (u8 0) (u8 3)⟩, ⟨.closed (u8 4) (u8 255)⟩] := by decide
  rw [h1] at this
  change c.intervals true = _ at this
  rw [h2] at this; cases this
  simp [Interval.point] at h3

/-- The bytes 1, 3, 20, 27, 29, with the pinholes 2 and 28: mixed iteration resumes after `None`, without a panic in
either build. -/
theorem C67_debug_counterexample :
    ∃ s : Selection U8, s.UnionBuilt ∧ ∀ dbg,
      drive (PointIter.next dbg) (PointIter.nextBack dbg) (PointIter.start s) [.next, .nextBack, .next, .next] =
        .ok [some (u8 1), some (u8 29), none, some (u8 20)] :=
  ⟨Selection.demo [(u8 1, u8 1), (u8 3, u8 3), (u8 20, u8 20), (u8 27, u8 27), (u8 29, u8 29)],
    Selection.demo_built _ (by decide), by decide⟩

end NI
