import Verif.SpecToggle
import Verif.SpecSparse

/-! # Specification: switching values one after the other (C135) -/

namespace NI
open _root_.NI.Finite
variable {α : Type _} [LinearOrder α] [Finite α]

/-- The calls `cs` made before and what each switch should do: `true` for a value that comes in, because it was taken out last or never in,
`false` for one that goes out. -/
def clickCalls (cs : SparseCalls α) (vs : List α) : SparseCalls α :=
  vs.foldl (fun cs v => cs ++ [(.point v, !cs.written fun j => j.contains v)]) cs

/-- What should be in, the values `X` having been in at first. -/
def clicksOn (X : Set α) (vs : List α) : Set α := vs.foldl (fun X v => InOne X {v}) X

end NI
