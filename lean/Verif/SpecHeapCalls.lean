import Verif.SpecHeap
import Verif.SpecFree

/-! # Specification: the ranges allocated and freed by a heap (C131) -/

namespace NI
open _root_.NI.Finite

/-- The blocks that were handed out (`true`) and given back (`false`), in order. -/
def heapCalls {hi : Int} [Fact (0 ≤ hi)] :
    List (HeapCall (MInt 0 hi)) → List (Option (MInt 0 hi × MInt 0 hi)) → SparseCalls (MInt 0 hi)
  | .take _ :: cs, some (l, u) :: os => (.mkClosed l u, true) :: heapCalls cs os
  | .take _ :: cs, none :: os => heapCalls cs os
  | .give l u :: cs, _ :: os => (.mkClosed l u, false) :: heapCalls cs os
  | _, _ => []

/-- No block was handed out that touches, without containing it, a number in use both sides of which have been given back since. -/
def SparseCalls.NeverCut {α : Type _} [LinearOrder α] [Finite α] (cs : SparseCalls α) : Prop :=
  ∀ (A B : SparseCalls α) (i : Interval α), cs = A ++ (i, true) :: B → ∀ y, ¬ A.CutAt i y

end NI
