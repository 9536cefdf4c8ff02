import Mathlib.Order.Basic
import Mathlib.Order.Compare
import Verif.Model.BoundPartial

/-!
# Specification for partially ordered points
-/

namespace NI

/-- What `PartialOrd` asks of an implementation, and that equal points compare alike. -/
class LawfulPartialCmp (α : Type _) [PartialCmp α] : Prop where
  dual : ∀ a b : α, PartialCmp.partialCmp b a = (PartialCmp.partialCmp a b).map Ordering.swap
  lt_trans : ∀ a b c : α, PartialCmp.partialCmp a b = some .lt → PartialCmp.partialCmp b c = some .lt →
    PartialCmp.partialCmp a c = some .lt
  eq_left : ∀ a b c : α, PartialCmp.partialCmp a b = some .eq →
    PartialCmp.partialCmp a c = PartialCmp.partialCmp b c

namespace Bound
open PartialCmp
variable {α : Type _} [PartialCmp α]

/-- `x` lies on the inner side of `b` seen as a lower bound, as the comparison operators say it. -/
def above (b : Bound α) (x : α) : Prop :=
  match b with
  | incl a => ge x a
  | excl a => gt x a
  | inf => True

/-- `x` lies on the inner side of `b` seen as an upper bound. -/
def below (b : Bound α) (x : α) : Prop :=
  match b with
  | incl a => le x a
  | excl a => lt x a
  | inf => True

/-- The points of the two bounds, if both have one, can be compared. -/
def Comparable (a b : Bound α) : Prop :=
  ∀ p ∈ a.asRef, ∀ q ∈ b.asRef, partialCmp p q ≠ none

end Bound

/-- The comparison of a total order. -/
@[instance_reducible] def PartialCmp.ofLinear (α : Type _) [LinearOrder α] : PartialCmp α := ⟨fun a b => some (cmp a b)⟩

/-- A model of floats: not-a-number, a negative zero, and numbers. -/
inductive Float' where
  | nan
  | negZero
  | num (q : Int)
  deriving DecidableEq

/-- The number. -/
def Float'.val : Float' → Option Int
  | nan => none
  | negZero => some 0
  | num q => some q

instance : PartialCmp Float' where
  partialCmp a b := match a.val, b.val with
    | some x, some y => some (cmp x y)
    | _, _ => none

end NI
