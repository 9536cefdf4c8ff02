import Verif.Model.Bound

/-!
# `Bound` over partially ordered points

`Bound` asks for `PartialOrd` only, so its union and intersection functions can be called with points such as
floats.  `Verif.Model.Bound` models them for totally ordered points, the only ones the other types allow;
this file models them for any `PartialOrd`.
-/

namespace NI

/-- Rust's `PartialOrd`: a `partial_cmp`, from which `<`, `<=`, `>` and `>=` are made (the provided methods of
the trait, which derived and float implementations agree with). -/
class PartialCmp (α : Type _) where
  partialCmp : α → α → Option Ordering

namespace PartialCmp
variable {α : Type _} [PartialCmp α]

/-- `a < b` -/
def lt (a b : α) : Bool := partialCmp a b == some .lt
/-- `a <= b` -/
def le (a b : α) : Bool := partialCmp a b == some .lt || partialCmp a b == some .eq
/-- `a > b` -/
def gt (a b : α) : Bool := partialCmp a b == some .gt
/-- `a >= b` -/
def ge (a b : α) : Bool := partialCmp a b == some .gt || partialCmp a b == some .eq

end PartialCmp

namespace Bound
open PartialCmp
variable {α : Type _} [PartialCmp α]

/-- src/bound.rs:422-438, for any `PartialOrd`. -/
def leastUnionP (s o : Bound α) : Bound α :=
  match s, o with
  | incl p, incl o => if lt p o then incl p else incl o
  | incl p, excl o => if le p o then incl p else excl o
  | excl p, incl o => if lt p o then excl p else incl o
  | excl p, excl o => if lt p o then excl p else excl o
  | _, _ => inf

/-- src/bound.rs:443-467, for any `PartialOrd`. -/
def leastIntersectP (s o : Bound α) : Bound α :=
  match s, o with
  | incl p, incl o => if lt p o then incl p else incl o
  | incl p, excl o => if lt p o then incl p else excl o
  | excl p, incl o => if le p o then excl p else incl o
  | excl p, excl o => if lt p o then excl p else excl o
  | incl p, inf => incl p
  | excl p, inf => excl p
  | inf, incl o => incl o
  | inf, excl o => excl o
  | inf, inf => inf

/-- src/bound.rs:472-488, for any `PartialOrd`. -/
def greatestUnionP (s o : Bound α) : Bound α :=
  match s, o with
  | incl p, incl o => if gt p o then incl p else incl o
  | incl p, excl o => if ge p o then incl p else excl o
  | excl p, incl o => if gt p o then excl p else incl o
  | excl p, excl o => if gt p o then excl p else excl o
  | _, _ => inf

/-- src/bound.rs:493-517, for any `PartialOrd`. -/
def greatestIntersectP (s o : Bound α) : Bound α :=
  match s, o with
  | incl p, incl o => if gt p o then incl p else incl o
  | incl p, excl o => if gt p o then incl p else excl o
  | excl p, incl o => if ge p o then excl p else incl o
  | excl p, excl o => if gt p o then excl p else excl o
  | incl p, inf => incl p
  | excl p, inf => excl p
  | inf, incl o => incl o
  | inf, excl o => excl o
  | inf, inf => inf

end Bound
end NI
