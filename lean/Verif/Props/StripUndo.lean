import Verif.Props.StripAsk

/-!
# C116: taking back what was added, and putting back what was removed, after any program
-/

set_option linter.unusedVariables false
set_option linter.unusedSectionVars false

namespace NI
open _root_.NI.Finite TT
variable {α : Type} [LinearOrder α] [Finite α] [LawfulFinite α]

/-- **C116.**  Adding an interval and removing it again gives back what any program made exactly if no value of the interval is
in it, nothing is joined that the interval joins, and no hole there is after the addition is beside the interval. -/
theorem C116_add_remove_any (dbg : Bool) (p : StripProg α) (hp : p.Legal) (i : Interval α) (hi : i.Obtainable) :
    (StripProg.remove (.add p i) i).run dbg = p.run dbg ↔
      (∀ x, i.contains x = true → p.strip.val x = false) ∧ (∀ x, i.joins x = true → p.strip.joint x = false) ∧
      ∀ x, (p.strip.add i).hole x = true → i.beside x = false := by
  have hl : (StripProg.remove (.add p i) i).Legal := ⟨⟨hp, hi⟩, hi⟩
  refine (StripProg.same_iff dbg _ _ hl hp).trans ?_
  simp only [← forall_and]
  refine forall_congr' fun x => ?_
  show ((p.strip.val x || i.contains x) && !i.contains x || (p.strip.add i).hole x && i.beside x) = _ ∧ ((p.strip.joint x || i.joins x) && !i.joins x) = _ ↔ _
  have : (p.strip.add i).hole x = true → p.strip.val x = false := fun h => by
    simp only [Strip.hole, Strip.add, Bool.and_eq_true, Bool.not_eq_true', Bool.or_eq_false_iff] at h
    exact h.1.1.1
  cases hv : p.strip.val x <;> cases hc : i.contains x <;> cases hh : (p.strip.add i).hole x <;> cases i.beside x <;>
    cases p.strip.joint x <;> cases i.joins x <;> simp_all

/-- **C116.**  Removing an interval and adding it again gives back what any program made exactly if it has all values of the
interval and all it joins, and no hole beside the interval. -/
theorem C116_remove_add_any (dbg : Bool) (p : StripProg α) (hp : p.Legal) (i : Interval α) (hi : i.Obtainable) :
    (StripProg.add (.remove p i) i).run dbg = p.run dbg ↔
      (∀ x, i.contains x = true → p.strip.val x = true) ∧ (∀ x, i.joins x = true → p.strip.joint x = true) ∧
      ∀ x, p.strip.hole x = true → i.beside x = false := by
  have hl : (StripProg.add (.remove p i) i).Legal := ⟨⟨hp, hi⟩, hi⟩
  refine (StripProg.same_iff dbg _ _ hl hp).trans ?_
  simp only [← forall_and]
  refine forall_congr' fun x => ?_
  show (p.strip.val x && !i.contains x || p.strip.hole x && i.beside x || i.contains x) = _ ∧ (p.strip.joint x && !i.joins x || i.joins x) = _ ↔ _
  have : p.strip.hole x = true → p.strip.val x = false := fun h => by
    simp only [Strip.hole, Bool.and_eq_true, Bool.not_eq_true'] at h
    exact h.1.1
  cases hv : p.strip.val x <;> cases hc : i.contains x <;> cases hh : p.strip.hole x <;> cases i.beside x <;>
    cases p.strip.joint x <;> cases i.joins x <;> simp_all

/-- **C116.**  Uniting what two programs made and removing the second again never panics, and gives back the first exactly if
no flag is one of both and no hole of the union is at an edge of the second. -/
theorem C116_union_minus_any (dbg : Bool) (p q : StripProg α) (hp : p.Legal) (hq : q.Legal) :
    (StripProg.minus (.union p q) q).Legal ∧ ((StripProg.minus (.union p q) q).run dbg = p.run dbg ↔
      p.strip.Apart q.strip ∧ ∀ x, (p.strip.both q.strip).hole x = true → q.strip.edge x = false) := by
  have hl : (StripProg.minus (.union p q) q).Legal := ⟨⟨hp, hq⟩, hq, fun x hx => .inl (by
    simp only [Strip.hole, Strip.flip, Bool.and_eq_true, Bool.not_not] at hx
    simp [StripProg.strip, Strip.both, hx.1.1])⟩
  refine ⟨hl, (StripProg.same_iff dbg _ _ hl hp).trans ?_⟩
  simp only [Strip.Apart, ← forall_and]
  refine forall_congr' fun x => ?_
  show ((p.strip.val x || q.strip.val x) && !q.strip.val x || (p.strip.both q.strip).hole x && q.strip.edge x) = _ ∧ ((p.strip.joint x || q.strip.joint x) && !q.strip.joint x) = _ ↔ _
  have : (p.strip.both q.strip).hole x = true → p.strip.val x = false := fun h => by
    simp only [Strip.hole, Strip.both, Bool.and_eq_true, Bool.not_eq_true', Bool.or_eq_false_iff] at h
    exact h.1.1.1
  cases hv : p.strip.val x <;> cases hc : q.strip.val x <;> cases hh : (p.strip.both q.strip).hole x <;> cases q.strip.edge x <;>
    cases p.strip.joint x <;> cases q.strip.joint x <;> simp_all

/-- **C116.**  Removing and uniting again gives back the first exactly if all flags of the second are flags of the first, and
no hole of the first is at an edge of the second. -/
theorem C116_minus_union_any (dbg : Bool) (p q : StripProg α) (h : (StripProg.minus p q).Legal) :
    (StripProg.union (.minus p q) q).run dbg = p.run dbg ↔
      q.strip.Within p.strip ∧ ∀ x, p.strip.hole x = true → q.strip.edge x = false := by
  have hl : (StripProg.union (.minus p q) q).Legal := ⟨h, h.2.1⟩
  refine (StripProg.same_iff dbg _ _ hl h.1).trans ?_
  simp only [Strip.Within, ← forall_and]
  refine forall_congr' fun x => ?_
  show (p.strip.val x && !q.strip.val x || p.strip.hole x && q.strip.edge x || q.strip.val x) = _ ∧ (p.strip.joint x && !q.strip.joint x || q.strip.joint x) = _ ↔ _
  have : p.strip.hole x = true → p.strip.val x = false := fun h => by
    simp only [Strip.hole, Bool.and_eq_true, Bool.not_eq_true'] at h
    exact h.1.1
  cases hv : p.strip.val x <;> cases hc : q.strip.val x <;> cases hh : p.strip.hole x <;> cases q.strip.edge x <;>
    cases p.strip.joint x <;> cases q.strip.joint x <;> simp_all

/-- 5 removed from 2 to 9, put in and removed again: given back, though 4 and 6 are in.  Added to 2 to 4 and removed again: not. -/
example : (StripProg.remove (.add (.remove (.collect [.mkClosed (u8 2) (u8 9)]) (.point (u8 5))) (.point (u8 5))) (.point (u8 5))).run true =
      (StripProg.remove (.collect [.mkClosed (u8 2) (u8 9)]) (.point (u8 5))).run true ∧
    (StripProg.remove (.add (.collect [.mkClosed (u8 2) (u8 4)]) (.point (u8 5))) (.point (u8 5))).run true ≠
      (StripProg.collect [.mkClosed (u8 2) (u8 4)]).run true ∧
    (StripProg.remove (.collect [.mkClosed (u8 2) (u8 9)]) (.point (u8 5))).Legal :=
  ⟨by decide, by decide, fun i hi => by rw [List.mem_singleton.1 hi]; exact .mkClosed _ _, .point _⟩

/-- All but 2 and 4 is removed from everything and united again: 3, which is joined to neither side, does no harm.
Nor does it the other way round. -/
example : (StripProg.minus .full (.complement (.points [u8 2, u8 4]))).Legal ∧
    (StripProg.union (.minus .full (.complement (.points [u8 2, u8 4]))) (.complement (.points [u8 2, u8 4]))).run true =
      (StripProg.full : StripProg U8).run true ∧
    (StripProg.minus (.union (.points [u8 2, u8 4]) (.complement (.points [u8 2, u8 4]))) (.complement (.points [u8 2, u8 4]))).run true =
      (StripProg.points [u8 2, u8 4]).run true :=
  ⟨⟨trivial, trivial, fun _ _ => .inl rfl⟩, by decide, by decide⟩

end NI
