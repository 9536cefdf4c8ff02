import Verif.SpecSparse

/-! # Specification: the free parts of a file or heap (C157)

The calls are those of C156, `true` for a range that is allocated and `false` for one that is freed, but the selection has what is free. -/

namespace NI
open _root_.NI.Finite
variable {α : Type _} [LinearOrder α] [Finite α]

/-- The calls with a selection of what is free, at first all: `minus_in_place` for a range that is allocated, `union_in_place` for one that
is freed. -/
def SparseCalls.runFree (dbg : Bool) (cs : SparseCalls α) : Except Panic (Selection α) :=
  cs.foldlM (fun s c => if c.2 then s.minusInPlace dbg c.1 else s.unionInPlace dbg c.1) .full

/-- Allocating the range touches the value `y`, that is in use, and both sides of it have been freed since: of the calls that reached `y`
or the one before the latest was not to allocate, and so of those that reached `y` or the one after. -/
def SparseCalls.CutAt (cs : SparseCalls α) (i : Interval α) (y : α) : Prop :=
  ∃ x z, succ x = some y ∧ succ y = some z ∧ i.contains y = false ∧ (i.contains x = true ∨ i.contains z = true) ∧
    cs.written (fun j => j.contains y) = true ∧ cs.written (fun j => j.contains x || j.contains y) = false ∧
    cs.written (fun j => j.contains y || j.contains z) = false

/-- Such a range has been allocated, and no range with `y` was allocated or freed since. -/
def SparseCalls.Cut (cs : SparseCalls α) (y : α) : Prop :=
  ∃ (A B : SparseCalls α) (i : Interval α), cs = A ++ (i, true) :: B ∧ A.CutAt i y ∧ ∀ c ∈ B, c.1.contains y = false

end NI
