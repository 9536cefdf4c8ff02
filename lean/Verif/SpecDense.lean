import Verif.Spec

/-! # Specification: asking trees whether one lies within another, or whether they are apart (C136) -/

namespace NI
variable {α : Type _} [LinearOrder α]

/-- Every point of `a` is one of `b`. -/
def TineTree.Within (dbg : Bool) (a b : TineTree α) : Prop := ∀ x, a.contains dbg x = .ok true → b.contains dbg x = .ok true

/-- No point of `a` is one of `b`. -/
def TineTree.Disjoint (dbg : Bool) (a b : TineTree α) : Prop :=
  ∀ x, a.contains dbg x = .ok true → b.contains dbg x = .ok false

/-- `a.union(&b) == b`. -/
def TineTree.withinByUnion (dbg : Bool) (a b : TineTree α) : Except Panic Bool := do
  return decide ((← a.union dbg b) = b)

/-- `a.complement().union(&b).is_full()`. -/
def TineTree.withinByComplement (dbg : Bool) (a b : TineTree α) : Except Panic Bool := do
  return (← (← a.complement dbg).union dbg b).isFull

/-- `a.interval_iter().all(|i| b.interval_iter().any(|j| i.intersect(&j) == i))`. -/
def TineTree.withinByIntervals (dbg : Bool) (a b : TineTree α) : Except Panic Bool := do
  let js ← b.intervals dbg
  return (← a.intervals dbg).all fun i => js.any fun j => decide (i.intersect j = i)

/-- `a.minus(&b).is_empty()`. -/
def TineTree.withinByMinus (dbg : Bool) (a b : TineTree α) : Except Panic Bool := do
  return (← a.minus dbg b).isEmpty

/-- `a.union(&b.complement()) == b.complement()`. -/
def TineTree.apartByUnion (dbg : Bool) (a b : TineTree α) : Except Panic Bool := do
  let n ← b.complement dbg
  return decide ((← a.union dbg n) = n)

/-- `a.complement().union(&b.complement()).is_full()`. -/
def TineTree.apartByComplements (dbg : Bool) (a b : TineTree α) : Except Panic Bool := do
  return (← (← a.complement dbg).union dbg (← b.complement dbg)).isFull

/-- `!a.interval_iter().any(|i| b.interval_iter().any(|j| i.intersects(&j)))`. -/
def TineTree.apartByIntervals (dbg : Bool) (a b : TineTree α) : Except Panic Bool := do
  let js ← b.intervals dbg
  return !((← a.intervals dbg).any fun i => js.any fun j => i.intersects j)

/-- `a.minus(&b) == a`. -/
def TineTree.apartByMinus (dbg : Bool) (a b : TineTree α) : Except Panic Bool := do
  return decide ((← a.minus dbg b) = a)

/-- `a.intersect(&b).is_empty()`. -/
def TineTree.apartByIntersect (dbg : Bool) (a b : TineTree α) : Except Panic Bool := do
  return (← a.intersect dbg b).isEmpty

end NI
