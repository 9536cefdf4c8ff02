import Verif.Model.Selection

/-!
# Gaps of a list of intervals

Specification for C114.  An interval starts where the one before it ends, and the other way round: an included end is
excluded from the gap.
-/

namespace NI

/-- Where a gap begins or ends, given the end of the interval next to it; nothing if the interval goes on forever. -/
def Bound.turned {α : Type _} : Bound α → Option (Bound α)
  | .incl x => some (.excl x)
  | .excl x => some (.incl x)
  | .inf => none

/-- The gaps before, between and after the intervals of a list in ascending order. -/
def RawInterval.gaps {α : Type _} [LinearOrder α] (is : List (RawInterval α)) : List (RawInterval α) :=
  ((some .inf :: is.map fun i => i.upperBound.bind Bound.turned).zip
    ((is.map fun i => i.lowerBound.bind Bound.turned) ++ [some .inf])).filterMap fun p =>
      p.1.bind fun l => p.2.map fun u => RawInterval.new l u

/-- The gaps of a list of intervals of values that have neighbours. -/
def Interval.gaps {α : Type _} [LinearOrder α] [Finite α] (is : List (Interval α)) : List (Interval α) :=
  ((some Finite.minimum :: is.map fun i => i.supremum.bind Finite.succ).zip
    ((is.map fun i => i.infimum.bind Finite.pred) ++ [some Finite.maximum])).filterMap fun p =>
      p.1.bind fun l => p.2.map fun u => Interval.mkClosed l u

end NI
