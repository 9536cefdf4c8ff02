import Verif.Spec
import Verif.SpecCalendar

/-! # Specification: cutting a selection down to a window

What a user may write to keep the values of a selection from `l` to `u`; that each keeps exactly them is to be shown or
refuted.  `SpecCalendar` is imported for the first run of a set. -/

namespace NI
open _root_.NI.Finite
variable {α : Type _} [LinearOrder α] [Finite α]

/-- `s.minus_in_place(Interval::unbounded_up_to(l)); s.minus_in_place(Interval::unbounded_up_from(u))`. -/
def Selection.clipByMinus (dbg : Bool) (s : Selection α) (l u : α) : Except Panic (Selection α) := do
  (← s.minusInPlace dbg (.unboundedUpTo l)).minusInPlace dbg (.unboundedUpFrom u)

/-- `s.intersect(&Selection::from(Interval::closed(l, u)))`. -/
def Selection.clipByIntersect (dbg : Bool) (s : Selection α) (l u : α) : Except Panic (Selection α) :=
  s.intersect dbg (.ofInterval (.mkClosed l u))

/-- `Selection::from(Interval::closed(l, u)).intersect(&s)`. -/
def Selection.clipFromIntersect (dbg : Bool) (s : Selection α) (l u : α) : Except Panic (Selection α) :=
  (Selection.ofInterval (.mkClosed l u)).intersect dbg s

/-- `s.interval_iter().map(|i| i.intersect(&Interval::closed(l, u))).collect()`. -/
def Selection.clipByIntervals (dbg : Bool) (s : Selection α) (l u : α) : Except Panic (Selection α) := do
  Selection.fromIntervals dbg ((← s.intervals dbg).map fun i => i.intersect (.mkClosed l u))

/-- `s.complement().union(&Selection::from(Interval::closed(l, u)).complement()).complement()`. -/
def Selection.clipByComplements (dbg : Bool) (s : Selection α) (l u : α) : Except Panic (Selection α) := do
  (← (← s.complement dbg).union dbg (← (Selection.ofInterval (.mkClosed l u)).complement dbg)).complement dbg

/-- The values of a set that can be reached from `m` without leaving it. -/
def RunOf {α : Type _} [LinearOrder α] (B : Set α) (m : α) : Set α := {y | ∀ z, min m y ≤ z → z ≤ max m y → z ∈ B}

/-- The values of a set up to the first run of it that does not touch `W`. -/
def NearRuns (B W : Set α) : Set α := {x | x ∈ B ∧ ∀ m ∈ B, m ≤ x → Touching (RunOf B m) W}

end NI
