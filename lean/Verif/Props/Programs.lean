import Verif.Lemmas.Programs

/-!
# Whole programs: C69 (no panics) and C70 (debug and release builds agree)
-/

set_option linter.unusedSimpArgs false
set_option linter.unusedVariables false
set_option linter.unusedSectionVars false

namespace NI
open Finite TT

section Any
variable {α : Type} [LinearOrder α] [Finite α]

/-! ## C70 -/

/-- Whatever a program computes and answers in a build with debug assertions, it computes and answers
in a build without them. -/
theorem C70_builds_agree (p : SelProg α) (q : SelQuery α) (s : Selection α) (a : SelAnswer α)
    (hp : p.eval true = .ok s) (hq : q.ask true s = .ok a) :
    p.eval false = .ok s ∧ q.ask false s = .ok a :=
  ⟨p.eval_ref s hp, q.ask_ref s a hq⟩

example : ∃ (p : SelProg U8) (s : Selection U8),
    p = .intersectIn (.minus (.interval (.mkClosed (u8 2) (u8 9))) (.points [u8 4]))
      (.mkClosed (u8 3) (u8 6)) ∧
    p.eval true = .ok s ∧ (SelQuery.contains (u8 5)).ask true s = .ok (.bool true) ∧
    (SelQuery.contains (u8 4)).ask true s = .ok (.bool false) := by
  refine ⟨_, ⟨[.lower (.excl (u8 2)), .upper (.incl (u8 3)), .lower (.incl (u8 5)),
    .upper (.excl (u8 7))]⟩, rfl, ?_, ?_, ?_⟩ <;>
    decide

end Any

section Tree
variable {α : Type} [LinearOrder α]

/-- The same for the operations of tine trees. -/
theorem C70_trees_agree (t t' : TineTree α) (i : RawInterval α) (is : List (RawInterval α)) (x : α) :
    (∀ r, t.unionInPlace true i = .ok r → t.unionInPlace false i = .ok r) ∧
    (∀ r, t.intersectInPlace true i = .ok r → t.intersectInPlace false i = .ok r) ∧
    (∀ r, t.minusInPlace true i = .ok r → t.minusInPlace false i = .ok r) ∧
    (∀ r, t.union true t' = .ok r → t.union false t' = .ok r) ∧
    (∀ r, t.intersect true t' = .ok r → t.intersect false t' = .ok r) ∧
    (∀ r, t.minus true t' = .ok r → t.minus false t' = .ok r) ∧
    (∀ r, t.complement true = .ok r → t.complement false = .ok r) ∧
    (∀ r, TineTree.fromIter true is = .ok r → TineTree.fromIter false is = .ok r) ∧
    (∀ r, t.contains true x = .ok r → t.contains false x = .ok r) ∧
    (∀ r, t.enclose true = .ok r → t.enclose false = .ok r) ∧
    (∀ r, t.closure true = .ok r → t.closure false = .ok r) ∧
    (∀ r, t.intervals true = .ok r → t.intervals false = .ok r) ∧
    (∀ r, t.intervalsBack true = .ok r → t.intervalsBack false = .ok r) :=
  ⟨TineTree.unionInPlace_ref _ _, TineTree.intersectInPlace_ref _ _, TineTree.minusInPlace_ref _ _,
    TineTree.union_ref _ _, TineTree.intersect_ref _ _, TineTree.minus_ref _ _,
    TineTree.complement_ref _, TineTree.fromIter_ref _, TineTree.contains_ref _ _,
    TineTree.enclose_ref _, TineTree.closure_ref _, TineTree.intervals_ref _,
    TineTree.intervalsBack_ref _⟩

example : TineTree.minus true [.lower (.incl (u8 2)), .upper (.incl (u8 9))] [.point (.incl (u8 4))] =
    .ok [.lower (.incl (u8 2)), .point (.excl (u8 4)), .upper (.incl (u8 9))] := by decide

/-- The converse does not hold: a release build goes on where a debug build stops, and its answers are
then those of a broken tree: here the result of `{0} - ¬{0, 2, 4}`, which contains `1`. -/
theorem C70_release_goes_on :
    ∃ (p : SelProg U8) (s : Selection U8), p.eval true = .error .debugAssert ∧
      p.eval false = .ok s ∧ (SelQuery.contains (u8 1)).ask false s = .ok (.bool true) ∧
      (SelQuery.contains (u8 1)).ask true s = .error .debugAssert := by
  refine ⟨.minus (.points [u8 0]) (.complement (.points [u8 0, u8 2, u8 4])),
    ⟨[.lower .inf, .point (.incl (u8 3))]⟩, ?_, ?_, ?_, ?_⟩ <;> decide

end Tree

section Lawful
variable {α : Type} [LinearOrder α] [Finite α] [LawfulFinite α]

/-! ## C69 -/

/-- Programs that do not use `intersect_in_place`, and use `minus` only to take away unions of
intervals and points, run without a panic; so does every question put to the result, except iteration
from the back.  Debug and release builds have the same results.
Missing from the full property: the excluded operations, see `C69_counterexample`. -/
theorem C69_no_panic_partial (p : SelProg α) (hp : p.Safe) :
    ∃ s, (∀ dbg, p.eval dbg = .ok s) ∧
      ∀ q : SelQuery α, q.Safe → ∃ a, ∀ dbg, q.ask dbg s = .ok a := by
  obtain ⟨s, e, v⟩ := SelProg.safe_valid true hp
  refine ⟨s, fun dbg => ?_, fun q hq => ?_⟩
  · cases dbg
    exacts [p.eval_ref s e, e]
  · obtain ⟨a, ha⟩ := SelQuery.safe_ok true v hq
    refine ⟨a, fun dbg => ?_⟩
    cases dbg
    exacts [q.ask_ref s a ha, ha]

example : SelProg.Safe (α := U8)
    (.minus (.complement (.intersect (.minusIn .full (.mkClosed (u8 3) (u8 6)))
      (.interval (.mkOpen (u8 3) (u8 4))))) (.unionIn (.points [u8 4]) (.mkClosed (u8 7) (u8 9)))) ∧
    SelQuery.Safe (α := U8) (.points [.next, .next]) :=
  ⟨⟨⟨⟨trivial, .mkClosed _ _⟩, .mkOpen _ _⟩, trivial, .mkClosed _ _, Interval.closed_real (by decide)⟩,
    by simp [SelQuery.Safe]⟩

/-- `{0, 4} - ¬{0, 2}` panics in every build, and so do `intersect_in_place` and, in debug builds,
iteration from the back. -/
theorem C69_counterexample :
    (∀ dbg, (SelProg.minus (.points [u8 0, u8 4]) (.complement (.points [u8 0, u8 2]))).eval dbg =
      .error .unreachable) ∧
    (∀ dbg, (SelProg.intersectIn (.intervals [.mkClosed (u8 2) (u8 5), .mkClosed (u8 17) (u8 19)])
      (.mkClosed (u8 2) (u8 12))).eval dbg = .error .unreachable) ∧
    (∃ s, (SelProg.points [u8 2, u8 4]).eval true = .ok s ∧
      SelQuery.intervalsBack.ask true s = .error .debugAssert) := by
  refine ⟨by decide, ?_, ⟨_, rfl, by decide⟩⟩
  decide

end Lawful
end NI
