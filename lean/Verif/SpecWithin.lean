import Verif.Spec

/-! # Specification: asking whether one selection, or one interval, lies within another

The crate has no such method.  What a user may write instead; that each has the answer true exactly if every value of
the first is a value of the second is to be shown or refuted. -/

namespace NI
open _root_.NI.Finite
variable {α : Type _} [LinearOrder α]

/-- `a.union(&b) == b`. -/
def Selection.withinByUnion (dbg : Bool) (a b : Selection α) : Except Panic Bool := do
  return decide ((← a.union dbg b) = b)

/-- `a.minus(&b).is_empty()`. -/
def Selection.withinByMinus (dbg : Bool) (a b : Selection α) : Except Panic Bool := do
  return (← a.minus dbg b).isEmpty

/-- `!a.intersects(&b.complement())`. -/
def Selection.withinByIntersects (dbg : Bool) (a b : Selection α) : Except Panic Bool := do
  return !(← a.intersects dbg (← b.complement dbg))

variable [Finite α]

/-- `a.complement().union(&b).is_full()`. -/
def Selection.withinByComplement (dbg : Bool) (a b : Selection α) : Except Panic Bool := do
  return (← (← a.complement dbg).union dbg b).isFull

/-- `a.interval_iter().all(|i| b.interval_iter().any(|j| i.minus(&j).next().is_none()))`; that `all` and `any` stop at
the first one makes no difference. -/
def Selection.withinByIntervals (dbg : Bool) (a b : Selection α) : Except Panic Bool := do
  let js ← b.intervals dbg
  return (← a.intervals dbg).all fun i => js.any fun j => (i.minus j).isEmpty

/-- `a.interval_iter().all(|i| b.interval_iter().any(|j| i.intersect(&j) == i))`. -/
def Selection.withinByOverlaps (dbg : Bool) (a b : Selection α) : Except Panic Bool := do
  let js ← b.intervals dbg
  return (← a.intervals dbg).all fun i => js.any fun j => decide (i.intersect j = i)

end NI
