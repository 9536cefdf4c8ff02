import Verif.SpecPatch

/-! # Specification: the values that are in one of two selections

What a user may write for the values that are in exactly one of two selections, and for switching single values or
intervals on and off.  The crate has no method for it.  That the result has exactly these values is to be shown or
refuted. -/

namespace NI
open _root_.NI.Finite
variable {α : Type _} [LinearOrder α]

/-- `a.minus(&b).union(&b.minus(&a))`. -/
def Selection.eitherByMinus (dbg : Bool) (a b : Selection α) : Except Panic (Selection α) := do
  (← a.minus dbg b).union dbg (← b.minus dbg a)

/-- `a.union(&b).minus(&a.intersect(&b))`. -/
def Selection.eitherByIntersect (dbg : Bool) (a b : Selection α) : Except Panic (Selection α) := do
  (← a.union dbg b).minus dbg (← a.intersect dbg b)

/-- `a.complement().union(&b).complement().union(&b.complement().union(&a).complement())`. -/
def Selection.eitherByComplements (dbg : Bool) (a b : Selection α) : Except Panic (Selection α) := do
  let p ← (← (← a.complement dbg).union dbg b).complement dbg
  let q ← (← (← b.complement dbg).union dbg a).complement dbg
  p.union dbg q

variable [Finite α]

/-- Switching intervals one after the other: what is in goes out, what is out comes in. -/
def Selection.toggles (dbg : Bool) (s : Selection α) (is : List (Interval α)) : Except Panic (Selection α) :=
  is.foldlM (fun s i => s.eitherByComplements dbg (.ofInterval i)) s

/-- `if s.contains(&v) { s.minus_in_place(Interval::point(v)) } else { s.union_in_place(Interval::point(v)) }`. -/
def Selection.click (dbg : Bool) (s : Selection α) (v : α) : Except Panic (Selection α) := do
  if ← s.contains dbg v then s.minusInPlace dbg (.point v) else s.unionInPlace dbg (.point v)

/-- Switching values one after the other. -/
def Selection.clicks (dbg : Bool) (s : Selection α) (vs : List α) : Except Panic (Selection α) :=
  vs.foldlM (fun s v => s.click dbg v) s

/-- The values in exactly one of two sets. -/
def InOne (X Y : Set α) : Set α := {x | (x ∈ X ∧ x ∉ Y) ∨ (x ∈ Y ∧ x ∉ X)}

/-- A value that is next to a value missing alone is never switched off. -/
def ClicksFine : Set α → List α → Prop
  | _, [] => True
  | X, v :: vs => (v ∈ X → ∀ y, MissingAlone X y → pred y ≠ some v ∧ succ y ≠ some v) ∧ ClicksFine (InOne X {v}) vs

end NI
