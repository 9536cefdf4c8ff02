import Verif.Props.StripRuns
import Verif.Props.StripBook
import Verif.Props.Pool

/-!
# C121: a pool of the numbers of an interval, used like a stack
-/

set_option linter.unusedVariables false
set_option linter.unusedSectionVars false

namespace NI
open _root_.NI.Finite TT
variable {α : Type} [LinearOrder α] [Finite α] [LawfulFinite α]

/-- What holds of a pool of the numbers `X` that is used like a stack: those in use come before the free ones, and nothing is joined that
is not free on one side. -/
structure Strip.Stacked (X : Set α) (st : List α) (p : Strip α) : Prop where
  sub : ∀ x, p.val x = true → x ∈ X
  all : ∀ x ∈ X, p.val x = true ∨ x ∈ st
  used : ∀ u ∈ st, u ∈ X
  below : ∀ u ∈ st, ∀ v, p.val v = true → u < v
  down : st.Pairwise (· > ·)
  joint : ∀ x, p.joint x = true → ∃ z, succ x = some z ∧ (p.val x = true ∨ p.val z = true)

theorem Strip.Stacked.noHole {X : Set α} (hX : X.OrdConnected) {st : List α} {p : Strip α} (h : p.Stacked X st) (x : α) : p.hole x = false := by
  rw [Bool.eq_false_iff]
  intro hh
  simp only [Strip.hole, Bool.and_eq_true, Bool.not_eq_true', Option.any_eq_true] at hh
  obtain ⟨⟨h1, h2⟩, y, hy, h3⟩ := hh
  have hs := pred_eq_iff.1 hy
  obtain ⟨z, hz, a⟩ := h.joint x h2
  obtain ⟨x', e, b⟩ := h.joint y h3
  rw [hs] at e; cases e
  rw [h1] at a b
  simp only [Bool.false_eq_true, or_false, false_or] at a b
  have l1 := (LawfulFinite.succ_some y x hs).1
  have l2 := (LawfulFinite.succ_some x z hz).1
  rcases h.all x (hX.out (h.sub y b) (h.sub z a) ⟨l1.le, l2.le⟩) with hx | hx
  · rw [h1] at hx; cases hx
  · exact absurd (h.below x hx y b) (not_lt.2 l1.le)

theorem Strip.Stacked.take {X : Set α} (hX : X.OrdConnected) {st : List α} {p : Strip α} (h : p.Stacked X st) {x : α} (hx : p.val x = true)
    (hl : ∀ y, p.val y = true → x ≤ y) : (p.remove (.point x)).Stacked X (x :: st) ∧
      ∀ y, (p.remove (.point x)).val y = true ↔ p.val y = true ∧ y ≠ x := by
  have hv : ∀ y, (p.remove (.point x)).val y = true ↔ p.val y = true ∧ y ≠ x := fun y => by
    rw [Strip.remove_val, h.noHole hX]
    have := Interval.point_contains x y
    simp only [Bool.false_and, Bool.or_false, Bool.and_eq_true, Bool.not_eq_true', ← Bool.not_eq_true, this, ne_eq]
  refine ⟨⟨fun y hy => h.sub y ((hv y).1 hy).1, fun y hy => ?_, ?_, ?_, ?_, fun y hy => ?_⟩, hv⟩
  · rw [hv]
    rcases h.all y hy with a | a
    · by_cases e : y = x
      · exact .inr (e ▸ .head _)
      · exact .inl ⟨a, e⟩
    · exact .inr (.tail _ a)
  · rintro u (_ | ⟨_, hu⟩)
    · exact h.sub x hx
    · exact h.used u hu
  · rintro u (_ | ⟨_, hu⟩) v w
    · exact lt_of_le_of_ne (hl v ((hv v).1 w).1) (Ne.symm ((hv v).1 w).2)
    · exact h.below u hu v ((hv v).1 w).1
  · exact List.pairwise_cons.2 ⟨fun u hu => h.below u hu x hx, h.down⟩
  · rw [Strip.remove_joint, Bool.and_eq_true, Bool.not_eq_true', ← Bool.not_eq_true, Interval.point_joins] at hy
    obtain ⟨a, b⟩ := hy
    obtain ⟨z, hz, c⟩ := h.joint y a
    refine ⟨z, hz, c.imp (fun c => (hv y).2 ⟨c, fun e => b (.inl ⟨e, ?_⟩)⟩) fun c => (hv z).2 ⟨c, fun e => b (.inr (e ▸ hz))⟩⟩
    rw [← e, hz]; rfl

theorem Strip.Stacked.give {X : Set α} {st : List α} {p : Strip α} {x : α} (h : p.Stacked X (x :: st)) :
    (p.add (.point x)).Stacked X st := by
  have hv : ∀ y, (p.add (.point x)).val y = true ↔ p.val y = true ∨ y = x := fun y => by
    rw [Strip.add_val, Bool.or_eq_true, Interval.point_contains]
  have hd := List.pairwise_cons.1 h.down
  refine ⟨fun y hy => ?_, fun y hy => ?_, fun u hu => h.used u (.tail _ hu), fun u hu v w => ?_, hd.2, fun y hy => ?_⟩
  · rcases (hv y).1 hy with a | rfl
    · exact h.sub y a
    · exact h.used y (.head _)
  · rw [hv]
    rcases h.all y hy with a | a
    · exact .inl (.inl a)
    · rcases List.mem_cons.1 a with rfl | a
      · exact .inl (.inr rfl)
      · exact .inr a
  · rcases (hv v).1 w with a | rfl
    · exact h.below u (.tail _ hu) v a
    · exact hd.1 u hu
  · rw [Strip.add_joint, Bool.or_eq_true, Interval.point_joins] at hy
    rcases hy with a | ⟨rfl, a⟩ | a
    · obtain ⟨z, hz, c⟩ := h.joint y a
      exact ⟨z, hz, c.imp (fun c => (hv y).2 (.inl c)) fun c => (hv z).2 (.inl c)⟩
    · obtain ⟨z, hz⟩ := Option.isSome_iff_exists.1 a
      exact ⟨z, hz, .inl ((hv y).2 (.inr rfl))⟩
    · exact ⟨x, a, .inr ((hv x).2 (.inr rfl))⟩

theorem Interval.pts_ordConnected {i : Interval α} (hi : i.Obtainable) : i.pts.OrdConnected := by
  refine ⟨fun a ha b hb c hc => ?_⟩
  change i.contains a = true at ha
  change i.contains b = true at hb
  show i.contains c = true
  rcases Interval.obtainable_cases hi with rfl | ⟨q, rfl⟩ | ⟨l, r, rfl, -⟩
  · cases ha
  all_goals
    simp only [Interval.contains, RawInterval.contains, Bool.and_eq_true, decide_eq_true_eq] at ha hb ⊢
  · subst ha; exact le_antisymm (hc.2.trans hb.le) hc.1
  · exact ⟨ha.1.trans hc.1, hc.2.trans hb.2⟩

theorem Strip.stacked_interval {i : Interval α} (hi : i.Obtainable) (hr : i.Real) : (Strip.nothing.add i).Stacked i.pts [] := by
  have hv : ∀ y, (Strip.nothing.add i).val y = i.contains y := fun y => by simp [Strip.add_val, Strip.nothing]
  refine ⟨fun x hx => (hv x).symm.trans hx, fun x hx => .inl ((hv x).trans hx), by simp, by simp, .nil, fun x hx => ?_⟩
  have hx : i.joins x = true := by simpa [Strip.add_joint, Strip.nothing] using hx
  rw [Interval.joins] at hx
  cases hs : succ x with
  | none => rw [hs] at hx; cases hx
  | some z =>
    rw [hs] at hx
    refine ⟨z, rfl, ?_⟩
    rw [hv, hv]
    simp only [Bool.or_eq_true, Bool.and_eq_true, decide_eq_true_eq] at hx
    rcases hx with h | ⟨h1, h2⟩
    · exact h
    · exfalso
      have hlt := (LawfulFinite.succ_some x z hs).1
      rcases Interval.obtainable_cases hi with rfl | ⟨q, rfl⟩ | ⟨l, r, rfl, -⟩
      · cases h1
      · simp only [Interval.lowerBound, Interval.upperBound, RawInterval.lowerBound, RawInterval.upperBound, Option.some.injEq,
          Bound.incl.injEq] at h1 h2
        exact absurd (h1.symm.trans h2) hlt.ne'
      · simp only [Interval.lowerBound, Interval.upperBound, RawInterval.lowerBound, RawInterval.upperBound, Option.some.injEq,
          Bound.incl.injEq] at h1 h2
        subst h1 h2
        rcases hr with e | ⟨v, hv⟩
        · cases e
        · have hv : (⟨.closed l r⟩ : Interval α).contains v = true := hv
          simp only [Interval.contains, RawInterval.contains, Bool.and_eq_true, decide_eq_true_eq] at hv
          exact absurd (hv.1.trans hv.2) (not_le.2 hlt)

/-- **C121.**  A pool of the numbers of an interval from which numbers are removed by `minus_in_place` never panics, and does what its
users rely on as long as they give back only the number they were handed out last. -/
theorem C121_stack (dbg : Bool) (i : Interval α) (hi : i.Obtainable) (hr : i.Real) (cs : List (PoolCall α)) :
    ∃ os s', (Selection.ofInterval i).pool (Selection.removeInPlace dbg) dbg cs = .ok (os, s') ∧ s'.Edited ∧
      (StackUse [] cs os → PoolRun i.pts cs os (s'.pts dbg)) := by
  have hX := Interval.pts_ordConnected hi
  have main : ∀ (cs : List (PoolCall α)) (s : Selection α) (p : Strip α) (st : List α), s.Edited → p.Of s →
      ∃ os s', s.pool (Selection.removeInPlace dbg) dbg cs = .ok (os, s') ∧ s'.Edited ∧
        (p.Stacked i.pts st → StackUse st cs os → PoolRun (s.pts dbg) cs os (s'.pts dbg)) := by
    intro cs
    induction cs with
    | nil => exact fun s p st hs _ => ⟨[], s, rfl, hs, fun _ _ => .nil _⟩
    | cons c cs ih =>
      intro s p st hs h
      have mem : ∀ {s : Selection α} {p : Strip α}, p.Of s → ∀ x, x ∈ s.pts dbg ↔ p.val x = true := fun {s p} h x => by
        rw [Selection.mem_pts dbg (Selection.reachable_valid h.1), h.2.1]
      cases c with
      | take =>
        rcases Selection.first_point dbg hs with ⟨h0, it, e⟩ | ⟨x, it, hl, e⟩
        · obtain ⟨os, s', e', k, r⟩ := ih s p st hs h
          refine ⟨none :: os, s', by simp only [Selection.pool, e, e', bind, Except.bind]; rfl, k, fun hk hu => .out h0 ?_⟩
          cases hu with
          | out hu => exact r hk hu
        · obtain ⟨s1, e1, h1⟩ := h.remove dbg (.point x)
          obtain ⟨os, s', e', k, r⟩ := ih s1 _ (x :: st) (.minusInPlace hs (.point x) (Interval.real_mk_point x) e1) h1
          refine ⟨some x :: os, s', by simp only [Selection.pool, Selection.removeInPlace, e, e1, e', bind, Except.bind]; rfl, k,
            fun hk hu => .take hl ?_⟩
          obtain ⟨k1, k2⟩ := hk.take hX ((mem h x).1 hl.1) fun y hy => hl.2 ((mem h y).2 hy)
          have : s1.pts dbg = s.pts dbg \ {x} := by
            ext y
            rw [mem h1, k2, Set.mem_sdiff, mem h]; rfl
          rw [← this]
          cases hu with
          | take hu => exact r k1 hu
      | give x =>
        obtain ⟨s1, e1, h1⟩ := h.add dbg (.point x)
        obtain ⟨os, s', e', k, r⟩ := ih s1 _ st.tail (.unionInPlace hs (.point x) (Interval.real_mk_point x) e1) h1
        refine ⟨none :: os, s', by simp only [Selection.pool, e1, e', bind, Except.bind]; rfl, k, fun hk hu => .give ?_⟩
        have : s1.pts dbg = s.pts dbg ∪ {x} := by
          ext y
          rw [mem h1, Set.mem_union, mem h, Strip.add_val, Bool.or_eq_true, Interval.point_contains]; rfl
        rw [← this]
        cases hu with
        | give hu => exact r hk.give hu
  obtain ⟨os, s', e, k, r⟩ := main cs (.ofInterval i) _ [] (.built (.ofInterval hi hr)) (Strip.of_interval hi)
  refine ⟨os, s', e, k, fun hu => ?_⟩
  have := r (Strip.stacked_interval hi hr) hu
  have hp : (Selection.ofInterval i).pts dbg = i.pts := by
    ext x
    rw [Selection.mem_pts dbg (Selection.reachable_valid (.ofInterval hi)), (Strip.of_interval hi).2.1]
    simp [Strip.add_val, Strip.nothing]; rfl
  rwa [hp] at this

/-- Of the numbers 1 to 9, 1, 2 and 3 are taken, 3 and 2 given back and 2 and 3 taken again. -/
example : (Interval.mkClosed (u8 1) (u8 9)).Obtainable ∧ (Interval.mkClosed (u8 1) (u8 9)).Real ∧
    ((Selection.ofInterval (.mkClosed (u8 1) (u8 9))).pool (Selection.removeInPlace true) true
      [.take, .take, .take, .give (u8 3), .give (u8 2), .take, .take]).map (·.1) =
      .ok [some (u8 1), some (u8 2), some (u8 3), none, none, some (u8 2), some (u8 3)] ∧
    StackUse [] [.take, .take, .take, .give (u8 3), .give (u8 2), .take, .take]
      [some (u8 1), some (u8 2), some (u8 3), none, none, some (u8 2), some (u8 3)] :=
  ⟨.mkClosed _ _, .inr ⟨u8 1, by decide⟩, by decide, .take (.take (.take (.give (.give (.take (.take (.nil _)))))))⟩

/-- It is false for all numbers but 2, though 2 was removed and so is no pinhole: after 0, 1 and 3 are taken and 3 and 1 given back, 1 is
taken and then 2, which was never in the pool. -/
theorem C121_stack_counterexample : ∃ (s : Selection U8) (cs : List (PoolCall U8)) (os : List (Option U8)), s.Carved ∧
    s.contains true (u8 2) = .ok false ∧ (s.pool (Selection.removeInPlace true) true cs).map (·.1) = .ok os ∧ StackUse [] cs os ∧
    os.getLast? = some (some (u8 2)) := by
  have : ∃ s, (Selection.full : Selection U8).minusInPlace true (.point (u8 2)) = .ok s ∧ s.contains true (u8 2) = .ok false ∧
      (s.pool (Selection.removeInPlace true) true [.take, .take, .take, .give (u8 3), .give (u8 1), .take, .take]).map (·.1) =
        .ok [some (u8 0), some (u8 1), some (u8 3), none, none, some (u8 1), some (u8 2)] := ⟨_, rfl, by decide, by decide⟩
  obtain ⟨s, e, h1, h2⟩ := this
  exact ⟨s, _, _, .minusInPlace .full (.point _) e, h1, h2,
    .take (.take (.take (.give (.give (.take (.take (.nil _))))))), by decide⟩

end NI
