import Verif.Spec

/-! # Specification: finding the next value of a selection at or after a given one (C138) -/

namespace NI
variable {α : Type _} [LinearOrder α]

/-- The least member of `S` that is at least `x`, if there is one. -/
def IsNext (S : Set α) (x : α) : Option α → Prop
  | some y => IsLeast {z | z ∈ S ∧ x ≤ z} y
  | none => ∀ z ∈ S, z < x

/-- The greatest member of `S` that is at most `x`, if there is one. -/
def IsPrev (S : Set α) (x : α) : Option α → Prop
  | some y => IsGreatest {z | z ∈ S ∧ z ≤ x} y
  | none => ∀ z ∈ S, x < z

variable [Finite α]

/-- `s.interval_iter().filter_map(|i| i.intersect(&Interval::unbounded_from(x)).infimum()).next()`. -/
def Selection.nextByIntervals (dbg : Bool) (s : Selection α) (x : α) : Except Panic (Option α) := do
  return (← s.intervals dbg).findSome? fun i => (i.intersect (.unboundedFrom x)).infimum

/-- `s.interval_iter().filter_map(|i| i.intersect(&Interval::unbounded_to(x)).supremum()).last()`. -/
def Selection.prevByIntervals (dbg : Bool) (s : Selection α) (x : α) : Except Panic (Option α) := do
  return ((← s.intervals dbg).filterMap fun i => (i.intersect (.unboundedTo x)).supremum).getLast?

/-- The same for `s.complement()`: the next value that is missing. -/
def Selection.nextFree (dbg : Bool) (s : Selection α) (x : α) : Except Panic (Option α) := do
  (← s.complement dbg).nextByIntervals dbg x

/-- `s.minus_in_place(&Interval::unbounded_up_to(x)); s.lower_bound()`. -/
def Selection.nextByMinus (dbg : Bool) (s : Selection α) (x : α) : Except Panic (Option (Bound α)) := do
  (← s.minusInPlace dbg (.unboundedUpTo x)).lowerBound dbg

/-- `s.intersect(&Selection::from(Interval::unbounded_from(x))).lower_bound()`. -/
def Selection.nextByIntersect (dbg : Bool) (s : Selection α) (x : α) : Except Panic (Option (Bound α)) := do
  (← s.intersect dbg (.ofInterval (.unboundedFrom x))).lowerBound dbg

end NI
