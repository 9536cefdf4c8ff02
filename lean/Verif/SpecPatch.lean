import Verif.SpecEdit

/-! # Specification: sending what has changed

What a sender may write to tell a receiver how a selection has changed, as the intervals that have gone and those that
have come, and what the receiver may write to bring a copy up to date.  That the copy then is the new selection is to be
shown or refuted. -/

namespace NI
open _root_.NI.Finite
variable {α : Type _} [LinearOrder α] [Finite α]

/-- `(old.minus(&new).interval_iter().collect(), new.minus(&old).interval_iter().collect())`. -/
def Selection.diff (dbg : Bool) (old new : Selection α) : Except Panic (List (Interval α) × List (Interval α)) := do
  return (← (← old.minus dbg new).intervals dbg, ← (← new.minus dbg old).intervals dbg)

/-- `a.complement().union(&b).complement().interval_iter().collect()`. -/
def Selection.lessByComplements (dbg : Bool) (a b : Selection α) : Except Panic (List (Interval α)) := do
  (← (← (← a.complement dbg).union dbg b).complement dbg).intervals dbg

/-- The same for both directions. -/
def Selection.diffByComplements (dbg : Bool) (old new : Selection α) :
    Except Panic (List (Interval α) × List (Interval α)) := do
  return (← old.lessByComplements dbg new, ← new.lessByComplements dbg old)

/-- `for i in gone { s.minus_in_place(i) }`. -/
def Selection.drop (dbg : Bool) (s : Selection α) (gone : List (Interval α)) : Except Panic (Selection α) :=
  gone.foldlM (fun s i => s.minusInPlace dbg i) s

/-- `for i in come { s.union_in_place(i) }`. -/
def Selection.put (dbg : Bool) (s : Selection α) (come : List (Interval α)) : Except Panic (Selection α) :=
  come.foldlM (fun s i => s.unionInPlace dbg i) s

/-- First what has gone, then what has come. -/
def Selection.patch (dbg : Bool) (s : Selection α) (d : List (Interval α) × List (Interval α)) :
    Except Panic (Selection α) := do
  (← s.drop dbg d.1).put dbg d.2

/-- First what has come, then what has gone. -/
def Selection.patchPutFirst (dbg : Bool) (s : Selection α) (d : List (Interval α) × List (Interval α)) :
    Except Panic (Selection α) := do
  (← s.put dbg d.2).drop dbg d.1

/-- `let mut c = s.complement(); for i in gone { c.union_in_place(i) }`, then what has come is put into
`c.complement()`. -/
def Selection.patchByComplements (dbg : Bool) (s : Selection α) (d : List (Interval α) × List (Interval α)) :
    Except Panic (Selection α) := do
  (← (← (← s.complement dbg).put dbg d.1).complement dbg).put dbg d.2

/-- A receiver that has a copy of a selection is sent the changes from version to version. -/
def Selection.follow (dbg : Bool) (copy old : Selection α) : List (Selection α) → Except Panic (Selection α)
  | [] => .ok copy
  | new :: vs => do Selection.follow dbg (← copy.patchByComplements dbg (← old.diffByComplements dbg new)) new vs

/-- The value is not in the set and both its neighbours are. -/
def MissingAlone (X : Set α) (x : α) : Prop := x ∉ X ∧ (∃ p ∈ X, pred x = some p) ∧ ∃ q ∈ X, succ x = some q

/-- A neighbour of the value is in the set. -/
def HasNeighbour (X : Set α) (x : α) : Prop := (∃ p ∈ X, pred x = some p) ∨ ∃ q ∈ X, succ x = some q

end NI
