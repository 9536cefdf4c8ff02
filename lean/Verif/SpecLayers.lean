import Verif.SpecTable
import Verif.SpecStrip

/-! # Specification: what painting layers by `minus_in_place` gives (C145) -/

namespace NI
open _root_.NI.Finite
variable {α : Type _} {V : Type _} [LinearOrder α] [Finite α]

/-- The last assignment that has `x` or the next value in its interval is one of `v`.  (For an interval without values: that
lies between the two.) -/
def LastJoin (cs : List (Interval α × V)) (x : α) (v : V) : Prop :=
  ∃ before i after, cs = before ++ (i, v) :: after ∧ i.joins x = true ∧ ∀ c ∈ after, c.1.joins x = false

/-- Another value was assigned right beside `x` when the last assignments on both sides of `x` were of `v`, and `x` itself
was not assigned since. -/
def FilledIn (cs : List (Interval α × V)) (x : α) (v : V) : Prop :=
  ∃ before c after, cs = before ++ c :: after ∧ c.2 ≠ v ∧ c.1.beside x = true ∧ LastJoin before x v ∧
    (∃ y, pred x = some y ∧ LastJoin before y v) ∧ ∀ d ∈ after, d.1.contains x = false

end NI
