import Verif.SpecCalendar

/-! # Specification: asking whether two selections have no value in common

What a user may write; that each has the answer true exactly if there is no value in both is to be shown or refuted. -/

namespace NI
open _root_.NI.Finite
variable {α : Type _} [LinearOrder α]

/-- `!a.intersects(&b)`. -/
def Selection.apartByIntersects (dbg : Bool) (a b : Selection α) : Except Panic Bool := do
  return !(← a.intersects dbg b)

/-- `a.intersect(&b).is_empty()`. -/
def Selection.apartByIntersect (dbg : Bool) (a b : Selection α) : Except Panic Bool := do
  return (← a.intersect dbg b).isEmpty

/-- `a.minus(&b) == a`. -/
def Selection.apartByMinus (dbg : Bool) (a b : Selection α) : Except Panic Bool := do
  return decide ((← a.minus dbg b) = a)

/-- `a.union(&b.complement()) == b.complement()`. -/
def Selection.apartByUnion (dbg : Bool) (a b : Selection α) : Except Panic Bool := do
  let c ← b.complement dbg
  return decide ((← a.union dbg c) = c)

variable [Finite α]

/-- `a.complement().union(&b.complement()).is_full()`. -/
def Selection.apartByComplements (dbg : Bool) (a b : Selection α) : Except Panic Bool := do
  return (← (← a.complement dbg).union dbg (← b.complement dbg)).isFull

/-- `!a.interval_iter().any(|i| b.interval_iter().any(|j| i.intersects(&j)))`; that `any` stops at the first one makes no
difference. -/
def Selection.apartByIntervals (dbg : Bool) (a b : Selection α) : Except Panic Bool := do
  let js ← b.intervals dbg
  return !((← a.intervals dbg).any fun i => js.any fun j => i.intersects j)

end NI
