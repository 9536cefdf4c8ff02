import Verif.Spec

/-! # Specification: a selection as a calendar of bookings -/

namespace NI
open _root_.NI.Finite

/-- What becomes of requests for sets of times, one after the other: a request is refused exactly if it clashes with
what is booked by then, and is booked otherwise.  `Bookings clash B is os B'`: from `B` to `B'`, with the answers `os`
to the requests `is`. -/
inductive Bookings {α : Type _} (clash : Set α → Set α → Prop) : Set α → List (Set α) → List Bool → Set α → Prop
  | nil B : Bookings clash B [] [] B
  | accept {B i is os B'} : ¬ clash B i → Bookings clash (B ∪ i) is os B' → Bookings clash B (i :: is) (true :: os) B'
  | refuse {B i is os B'} : clash B i → Bookings clash B is os B' → Bookings clash B (i :: is) (false :: os) B'

/-- There is a time in both. -/
def Overlapping {α : Type _} (B i : Set α) : Prop := ∃ x ∈ B, x ∈ i

variable {α : Type _} [LinearOrder α] [Finite α]

/-- There is a time in both, or one ends just before the other begins. -/
def Touching (B i : Set α) : Prop := ∃ x ∈ B, ∃ y ∈ i, x = y ∨ succ x = some y ∨ succ y = some x

/-- The times of a set up to the first one missing after its beginning. -/
def FirstRun (B : Set α) : Set α := {x | x ∈ B ∧ ∀ z ≤ x, (∃ m ∈ B, m ≤ z) → z ∈ B}

/-- `booked.interval_iter().any(|b| b.intersects(&i))`; that `any` stops at the first one makes no difference. -/
def Selection.takenByIntervals (dbg : Bool) (s : Selection α) (i : Interval α) : Except Panic Bool := do
  return (← s.intervals dbg).any fun b => b.intersects i

/-- `booked.intersects(&Selection::from(i))`. -/
def Selection.takenByIntersects (dbg : Bool) (s : Selection α) (i : Interval α) : Except Panic Bool :=
  s.intersects dbg (.ofInterval i)

/-- `Selection::from(i).minus(&booked) != Selection::from(i)`. -/
def Selection.takenByMinus (dbg : Bool) (s : Selection α) (i : Interval α) : Except Panic Bool := do
  return decide ((← (Selection.ofInterval i).minus dbg s) ≠ .ofInterval i)

/-- A calendar kept as a selection of what is booked: a request that is taken, in one of the ways above, is refused, and
others are booked by `booked.union_in_place(i)`.  The answers and the selection in the end. -/
def Selection.calendar (taken : Selection α → Interval α → Except Panic Bool) (dbg : Bool) :
    Selection α → List (Interval α) → Except Panic (List Bool × Selection α)
  | s, [] => .ok ([], s)
  | s, i :: is => do
    if ← taken s i then
      let (os, s') ← calendar taken dbg s is
      return (false :: os, s')
    else
      let (os, s') ← calendar taken dbg (← s.unionInPlace dbg i) is
      return (true :: os, s')

end NI
