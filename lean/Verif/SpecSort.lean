import Verif.Spec

/-! # Specification: sorting values and writing them as ranges (C137) -/

namespace NI
variable {α : Type _} [LinearOrder α]

/-- Put `x` at its place in an ascending list, unless it is there. -/
def insertNew (x : α) : List α → List α
  | [] => [x]
  | y :: l => if x < y then x :: y :: l else if x = y then y :: l else y :: insertNew x l

/-- The values of a list in ascending order, each once. -/
def sortedOnce : List α → List α
  | [] => []
  | x :: xs => insertNew x (sortedOnce xs)

/-- Write an ascending list of values as ranges: a value joins the range that begins at its successor. -/
def asRanges [Finite α] : List α → List (α × α)
  | [] => []
  | x :: l => match asRanges l with
    | [] => [(x, x)]
    | (y, u) :: r => if Finite.succ x = some y then (x, u) :: r else (x, x) :: (y, u) :: r

/-- The range `(l, u)` as an interval. -/
def rangeInterval [Finite α] (p : α × α) : Interval α := ⟨.closed p.1 p.2⟩

end NI
