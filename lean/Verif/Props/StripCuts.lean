import Verif.Props.StripRuns

/-!
# C126: when two runs of removals, or of additions, come to the same after any program
-/

set_option linter.unusedVariables false
set_option linter.unusedSectionVars false

namespace NI
open _root_.NI.Finite TT
variable {α : Type} [LinearOrder α] [Finite α] [LawfulFinite α]

/-- The program that goes on by removing the intervals, one by one. -/
def StripProg.cuts (p : StripProg α) (is : List (Interval α)) : StripProg α := is.foldl .remove p

/-- The program that goes on by adding the intervals, one by one. -/
def StripProg.puts (p : StripProg α) (is : List (Interval α)) : StripProg α := is.foldl .add p

theorem StripProg.cuts_legal (is : List (Interval α)) (hi : ∀ i ∈ is, i.Obtainable) (p : StripProg α) (hp : p.Legal) :
    (p.cuts is).Legal ∧ (p.cuts is).strip = is.foldl Strip.remove p.strip := by
  induction is generalizing p with
  | nil => exact ⟨hp, rfl⟩
  | cons i is ih => exact ih (fun j hj => hi j (.tail _ hj)) (.remove p i) ⟨hp, hi i (.head _)⟩

theorem StripProg.puts_legal (is : List (Interval α)) (hi : ∀ i ∈ is, i.Obtainable) (p : StripProg α) (hp : p.Legal) :
    (p.puts is).Legal ∧ ∀ x, (p.puts is).strip.val x = (p.strip.val x || is.any (·.contains x)) ∧
      (p.puts is).strip.joint x = (p.strip.joint x || is.any (·.joins x)) := by
  induction is generalizing p with
  | nil => exact ⟨hp, fun x => by simp [StripProg.puts]⟩
  | cons i is ih =>
    obtain ⟨h1, h2⟩ := ih (fun j hj => hi j (.tail _ hj)) (.add p i) ⟨hp, hi i (.head _)⟩
    refine ⟨h1, fun x => ?_⟩
    have := h2 x
    exact ⟨this.1.trans (by simp [StripProg.strip, Strip.add_val, Bool.or_assoc]),
      this.2.trans (by simp [StripProg.strip, Strip.add_joint, Bool.or_assoc])⟩

theorem StripProg.cuts_flags (is : List (Interval α)) (hi : ∀ i ∈ is, i.Obtainable) (p : StripProg α) (hp : p.Legal) (x : α) :
    (p.cuts is).strip.val x = (!(is.any (·.contains x)) && (p.strip.val x || (p.strip.hole x && is.any (·.beside x)))) ∧
    (p.cuts is).strip.joint x = (p.strip.joint x && !is.any (·.joins x)) := by
  rw [(p.cuts_legal is hi hp).2]
  exact Strip.removes is hi p.strip (p.last hp) x

/-- **C126.**  Two runs of removals come to the same after any program exactly if they take out the same of its values, leave the same
of its holes beside an interval, and separate the same of what it joins. -/
theorem C126_removals_iff (dbg : Bool) (p : StripProg α) (hp : p.Legal) (is js : List (Interval α)) (hi : ∀ i ∈ is, i.Obtainable)
    (hj : ∀ j ∈ js, j.Obtainable) : (p.cuts is).run dbg = (p.cuts js).run dbg ↔
      (∀ x, p.strip.val x = true → is.any (·.contains x) = js.any (·.contains x)) ∧
      (∀ x, p.strip.hole x = true → (!is.any (·.contains x) && is.any (·.beside x)) = (!js.any (·.contains x) && js.any (·.beside x))) ∧
      ∀ x, p.strip.joint x = true → is.any (·.joins x) = js.any (·.joins x) := by
  refine (StripProg.same_iff dbg _ _ (p.cuts_legal is hi hp).1 (p.cuts_legal js hj hp).1).trans ?_
  simp only [← forall_and]
  refine forall_congr' fun x => ?_
  obtain ⟨a1, a2⟩ := p.cuts_flags is hi hp x
  obtain ⟨b1, b2⟩ := p.cuts_flags js hj hp x
  rw [a1, a2, b1, b2]
  have : p.strip.hole x = true → p.strip.val x = false := fun h => by
    simp only [Strip.hole, Bool.and_eq_true, Bool.not_eq_true'] at h
    exact h.1.1
  generalize p.strip.hole x = h at *
  generalize p.strip.val x = v at *
  generalize p.strip.joint x = j at *
  generalize is.any (·.contains x) = c1 at *
  generalize js.any (·.contains x) = c2 at *
  generalize is.any (·.beside x) = d1 at *
  generalize js.any (·.beside x) = d2 at *
  generalize is.any (·.joins x) = e1 at *
  generalize js.any (·.joins x) = e2 at *
  clear * - this
  cases h <;> cases v <;> cases j <;> cases c1 <;> cases c2 <;> cases d1 <;> cases d2 <;> simp_all

/-- **C126.**  Two runs of additions come to the same exactly if they put in the same values besides, and join the same besides. -/
theorem C126_additions_iff (dbg : Bool) (p : StripProg α) (hp : p.Legal) (is js : List (Interval α)) (hi : ∀ i ∈ is, i.Obtainable)
    (hj : ∀ j ∈ js, j.Obtainable) : (p.puts is).run dbg = (p.puts js).run dbg ↔
      (∀ x, p.strip.val x = false → is.any (·.contains x) = js.any (·.contains x)) ∧
      ∀ x, p.strip.joint x = false → is.any (·.joins x) = js.any (·.joins x) := by
  refine (StripProg.same_iff dbg _ _ (p.puts_legal is hi hp).1 (p.puts_legal js hj hp).1).trans ?_
  simp only [← forall_and]
  refine forall_congr' fun x => ?_
  obtain ⟨a1, a2⟩ := (p.puts_legal is hi hp).2 x
  obtain ⟨b1, b2⟩ := (p.puts_legal js hj hp).2 x
  rw [a1, a2, b1, b2]
  cases p.strip.val x <;> cases p.strip.joint x <;> simp

/-- **C126.**  Removing what another program made, by `minus`, and removing intervals one by one (say those it lists) come to the same
exactly if they do so value by value, hole by hole and joint by joint. -/
theorem C126_minus_iff (dbg : Bool) (p q : StripProg α) (h : (StripProg.minus p q).Legal) (is : List (Interval α)) (hi : ∀ i ∈ is, i.Obtainable) :
    (StripProg.minus p q).run dbg = (p.cuts is).run dbg ↔
      (∀ x, p.strip.val x = true → q.strip.val x = is.any (·.contains x)) ∧
      (∀ x, p.strip.hole x = true → q.strip.edge x = (!is.any (·.contains x) && is.any (·.beside x))) ∧
      ∀ x, p.strip.joint x = true → q.strip.joint x = is.any (·.joins x) := by
  refine (StripProg.same_iff dbg _ _ h (p.cuts_legal is hi h.1).1).trans ?_
  simp only [← forall_and]
  refine forall_congr' fun x => ?_
  obtain ⟨b1, b2⟩ := p.cuts_flags is hi h.1 x
  rw [b1, b2]
  show (p.strip.val x && !q.strip.val x || p.strip.hole x && q.strip.edge x) = _ ∧ (p.strip.joint x && !q.strip.joint x) = _ ↔ _
  have : p.strip.hole x = true → p.strip.val x = false := fun h => by
    simp only [Strip.hole, Bool.and_eq_true, Bool.not_eq_true'] at h
    exact h.1.1
  generalize p.strip.hole x = h at *
  generalize p.strip.val x = v at *
  generalize p.strip.joint x = j at *
  generalize q.strip.joint x = k at *
  generalize q.strip.val x = w at *
  generalize q.strip.edge x = g at *
  generalize is.any (·.contains x) = c1 at *
  generalize is.any (·.beside x) = d1 at *
  generalize is.any (·.joins x) = e1 at *
  clear * - this
  cases h <;> cases v <;> cases j <;> cases w <;> cases g <;> cases c1 <;> cases d1 <;> simp_all

/-- **C126.**  And so for `union`. -/
theorem C126_union_iff (dbg : Bool) (p q : StripProg α) (hp : p.Legal) (hq : q.Legal) (is : List (Interval α)) (hi : ∀ i ∈ is, i.Obtainable) :
    (StripProg.union p q).run dbg = (p.puts is).run dbg ↔
      (∀ x, p.strip.val x = false → q.strip.val x = is.any (·.contains x)) ∧
      ∀ x, p.strip.joint x = false → q.strip.joint x = is.any (·.joins x) := by
  refine (StripProg.same_iff dbg (.union p q) _ ⟨hp, hq⟩ (p.puts_legal is hi hp).1).trans ?_
  simp only [← forall_and]
  refine forall_congr' fun x => ?_
  obtain ⟨b1, b2⟩ := (p.puts_legal is hi hp).2 x
  rw [b1, b2]
  show (p.strip.val x || q.strip.val x) = _ ∧ (p.strip.joint x || q.strip.joint x) = _ ↔ _
  cases p.strip.val x <;> cases p.strip.joint x <;> simp

/-- The complement of 0 to 3 and 5 to 255 lists 4, joined to neither side.  Removing it from 0 to 9 by `minus` is not removing 4, but
from itself it is, and from 0 to 9 less 3 and 5. -/
example : let q : StripProg U8 := .complement (.collect [.mkClosed (u8 0) (u8 3), .mkClosed (u8 5) (u8 255)])
    (do (← q.run true).intervals true) = .ok [.point (u8 4)] ∧
    (StripProg.minus (.collect [.mkClosed (u8 0) (u8 9)]) q).run true ≠ ((StripProg.collect [.mkClosed (u8 0) (u8 9)]).cuts [.point (u8 4)]).run true ∧
    (StripProg.minus q q).run true = (q.cuts [.point (u8 4)]).run true ∧
    (StripProg.minus (.remove (.remove (.collect [.mkClosed (u8 0) (u8 9)]) (.point (u8 3))) (.point (u8 5))) q).run true =
      ((StripProg.remove (.remove (.collect [.mkClosed (u8 0) (u8 9)]) (.point (u8 3))) (.point (u8 5))).cuts [.point (u8 4)]).run true ∧
    (StripProg.minus q q).Legal := by
  refine ⟨by decide, by decide, by decide, by decide, ?_⟩
  have hq : (StripProg.complement (.collect [.mkClosed (u8 0) (u8 3), .mkClosed (u8 5) (u8 255)])).Legal := fun i hi => by
    simp only [List.mem_cons, List.not_mem_nil, or_false] at hi
    rcases hi with rfl | rfl <;> exact .mkClosed _ _
  refine ⟨hq, hq, fun x hx => .inl ?_⟩
  simp only [Strip.hole, Strip.flip, Bool.and_eq_true, Bool.not_not] at hx
  exact hx.1.1

end NI
