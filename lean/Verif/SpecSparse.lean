import Verif.SpecStrip

/-! # Specification: the allocated parts of a sparse file (C156)

What the keeper of a sparse file, a heap or a cache of a range may write: a selection of what is there, to which ranges are added
when they are written and from which ranges are removed when they are freed. -/

namespace NI
open _root_.NI.Finite
variable {α : Type _} [LinearOrder α] [Finite α]

/-- The calls, the first one first: `true` for a range that is written, `false` for one that is freed. -/
abbrev SparseCalls (α : Type _) := List (Interval α × Bool)

/-- What should be there. -/
def SparseCalls.there : SparseCalls α → Set α :=
  List.foldl (fun W c => if c.2 then W ∪ c.1.pts else W \ c.1.pts) ∅

/-- Whether the latest call with such a range was to write it. -/
def SparseCalls.written (cs : SparseCalls α) (P : Interval α → Bool) : Bool := ((cs.reverse.find? fun c => P c.1).map (·.2)).getD false

/-- Freeing the range touches the value `y`, that is not there, though both sides of it have been written since it was freed itself: of the
calls that reached `y` or the one before the latest was to write, and so of those that reached `y` or the one after. -/
def SparseCalls.BridgedAt (cs : SparseCalls α) (i : Interval α) (y : α) : Prop :=
  ∃ x z, succ x = some y ∧ succ y = some z ∧ i.contains y = false ∧ (i.contains x = true ∨ i.contains z = true) ∧
    cs.written (fun j => j.contains y) = false ∧ cs.written (fun j => j.contains x || j.contains y) = true ∧
    cs.written (fun j => j.contains y || j.contains z) = true

/-- There is such a value. -/
def SparseCalls.Bridged (cs : SparseCalls α) (i : Interval α) : Prop := ∃ y, cs.BridgedAt i y

/-- No such range is freed. -/
def SparseCalls.Careful (cs : SparseCalls α) : Prop := ∀ (A B : SparseCalls α) (i : Interval α), cs = A ++ (i, false) :: B → ¬ A.Bridged i

/-- A range that was bridged at `y` has been freed, and no range with `y` was written or freed since. -/
def SparseCalls.Filled (cs : SparseCalls α) (y : α) : Prop :=
  ∃ (A B : SparseCalls α) (i : Interval α), cs = A ++ (i, false) :: B ∧ A.BridgedAt i y ∧ ∀ c ∈ B, c.1.contains y = false

/-- The calls with a selection: `union_in_place` and `minus_in_place`. -/
def SparseCalls.run (dbg : Bool) (cs : SparseCalls α) : Except Panic (Selection α) :=
  cs.foldlM (fun s c => if c.2 then s.unionInPlace dbg c.1 else s.minusInPlace dbg c.1) .new

/-- The same, but a range is freed by `complement`, `union_in_place`, `complement`. -/
def SparseCalls.runByComplement (dbg : Bool) (cs : SparseCalls α) (s : Selection α) : Except Panic (Selection α) :=
  cs.foldlM (fun s c => if c.2 then s.unionInPlace dbg c.1 else do (← (← s.complement dbg).unionInPlace dbg c.1).complement dbg) s

/-- The ranges are made of pages of two values or more: each value has a neighbour that is in the same ranges. -/
def SparseCalls.Paged (cs : SparseCalls α) : Prop :=
  ∀ y : α, ∃ z, (succ y = some z ∨ succ z = some y) ∧ ∀ c ∈ cs, c.1.contains y = c.1.contains z

end NI
