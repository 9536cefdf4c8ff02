import Verif.Spec
import Mathlib.Order.Interval.Set.UnorderedInterval

/-! # Specification: cutting the line at the ends of intervals (C146) -/

namespace NI
variable {α : Type _} [LinearOrder α] [Finite α]

/-- `pieces.into_iter().flat_map(|p| once(p.intersect(&i)).chain(p.minus(&i))).filter(|p| !p.is_empty()).collect()`. -/
def Interval.splitAt (ps : List (Interval α)) (i : Interval α) : List (Interval α) :=
  (ps.flatMap fun p => p.intersect i :: p.minus i).filter fun p => !p.isEmpty

/-- All intervals one after the other, beginning with the whole type. -/
def Interval.pieces (is : List (Interval α)) : List (Interval α) := is.foldl Interval.splitAt [.full]

/-- No value from `x` to `y` is in an interval that `x` is not in, or the other way round. -/
def Unseparated (is : List (Interval α)) (x y : α) : Prop :=
  ∀ i ∈ is, ∀ z ∈ Set.uIcc x y, z ∈ i.pts ↔ x ∈ i.pts

/-- No value from `x` to `y` is in an interval that `x` is not in, or the other way round, and an interval without values (its
supremum is below its infimum) does not lie between them. -/
def UnseparatedAny (is : List (Interval α)) (x y : α) : Prop :=
  ∀ i ∈ is, (∀ z ∈ Set.uIcc x y, z ∈ i.pts ↔ x ∈ i.pts) ∧
    ∀ lo hi, i.infimum = some lo → i.supremum = some hi → hi < lo → (x ≤ hi ↔ y ≤ hi)

end NI
