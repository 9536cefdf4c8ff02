import Mathlib.Order.Defs.LinearOrder
import Mathlib.Order.Basic

/-!
# Model of `src/bound.rs`

The element type `T: Ord + Clone` of the crate is a type `α` with a `LinearOrder`; `clone` is the
identity.  `PartialOrd`/`Ord`/`Eq` of `T` are assumed to be one lawful total order.

Panics are explicit: a function that can panic returns `Except Panic _`.  `dbg : Bool` is the build
profile: `debug_assert!` only fires when `dbg = true`.
-/

namespace NI

/-- Ways the modelled code can panic. -/
inductive Panic
  /-- an `unreachable!(..)` was reached -/
  | unreachable
  /-- an `Option::expect`/`unwrap` on `None` -/
  | expect
  /-- a `debug_assert!` failed (debug builds only) -/
  | debugAssert
  /-- an explicit `panic!(..)` -/
  | explicit
  /-- arithmetic overflow (debug builds only) -/
  | overflow
  /-- a string sliced inside a character or beyond its end -/
  | slice
  deriving DecidableEq, Repr

instance {ε α} [DecidableEq ε] [DecidableEq α] : DecidableEq (Except ε α)
  | .ok a, .ok b => if h : a = b then isTrue (by rw [h]) else isFalse (by simpa using h)
  | .error a, .error b => if h : a = b then isTrue (by rw [h]) else isFalse (by simpa using h)
  | .ok _, .error _ => isFalse (by simp)
  | .error _, .ok _ => isFalse (by simp)

/-- `debug_assert!(c)` in build profile `dbg`. -/
def dassert (dbg : Bool) (c : Bool) : Except Panic Unit :=
  if dbg && !c then .error .debugAssert else .ok ()

/-- src/bound.rs:32-41, `enum Bound<T>`. -/
inductive Bound (α : Type _)
  /-- `Include(T)` -/
  | incl (a : α)
  /-- `Exclude(T)` -/
  | excl (a : α)
  /-- `Infinite` -/
  | inf
  deriving DecidableEq, Repr

namespace Bound
variable {α β : Type _}

/-- src/bound.rs:69-71. -/
def isFinite : Bound α → Bool
  | inf => false
  | _ => true

/-- src/bound.rs:94-96. -/
def isInclusive : Bound α → Bool
  | incl _ => true
  | _ => false

/-- src/bound.rs:119-121. -/
def isExclusive : Bound α → Bool
  | excl _ => true
  | _ => false

/-- src/bound.rs:146-152, `as_ref` (also `as_mut`, 175-181, read through). -/
def asRef : Bound α → Option α
  | incl a => some a
  | excl a => some a
  | inf => none

/-- src/bound.rs:229-236, `unwrap`. -/
def unwrap : Bound α → Except Panic α
  | incl a => .ok a
  | excl a => .ok a
  | inf => .error .explicit

/-- src/bound.rs:254-260, `unwrap_or`. -/
def unwrapOr (b : Bound α) (d : α) : α :=
  match b with
  | incl a => a
  | excl a => a
  | inf => d

/-- src/bound.rs:279-285, `unwrap_or_else` (the closure is a thunk). -/
def unwrapOrElse (b : Bound α) (f : Unit → α) : α :=
  match b with
  | incl a => a
  | excl a => a
  | inf => f ()

/-- src/bound.rs:309-315, `map`. -/
def map (b : Bound α) (f : α → β) : Bound β :=
  match b with
  | incl a => incl (f a)
  | excl a => excl (f a)
  | inf => inf

/-- src/bound.rs:335-341, `map_or`. -/
def mapOr (b : Bound α) (d : β) (f : α → β) : β :=
  match b with
  | incl a => f a
  | excl a => f a
  | inf => d

/-- src/bound.rs:362-372, `map_or_else`. -/
def mapOrElse (b : Bound α) (d : Unit → β) (f : α → β) : β :=
  match b with
  | incl a => f a
  | excl a => f a
  | inf => d ()

/-- src/bound.rs:394-400, `transfer`. -/
def transfer (b : Bound α) (to : β) : Bound β :=
  match b with
  | incl _ => incl to
  | excl _ => excl to
  | inf => inf

/-- src/bound.rs:529-534, `From<T>`. -/
def ofPoint (a : α) : Bound α := incl a

/-- src/bound.rs:521-526, `Default`. -/
def default [Inhabited α] : Bound α := incl Inhabited.default

section Order
variable [LinearOrder α]

/-- src/bound.rs:407-412. -/
def isUnionAdjacentTo (s o : Bound α) : Bool :=
  match s, o with
  | incl p, incl o => p == o
  | incl p, excl o => p == o
  | excl p, incl o => p == o
  | _, _ => false

/-- src/bound.rs:422-438. -/
def leastUnion (s o : Bound α) : Bound α :=
  match s, o with
  | incl p, incl o => if p < o then incl p else incl o
  | incl p, excl o => if p ≤ o then incl p else excl o
  | excl p, incl o => if p < o then excl p else incl o
  | excl p, excl o => if p < o then excl p else excl o
  | _, _ => inf

/-- src/bound.rs:443-467. -/
def leastIntersect (s o : Bound α) : Bound α :=
  match s, o with
  | incl p, incl o => if p < o then incl p else incl o
  | incl p, excl o => if p < o then incl p else excl o
  | excl p, incl o => if p ≤ o then excl p else incl o
  | excl p, excl o => if p < o then excl p else excl o
  | incl p, inf => incl p
  | excl p, inf => excl p
  | inf, incl o => incl o
  | inf, excl o => excl o
  | inf, inf => inf

/-- src/bound.rs:472-488. -/
def greatestUnion (s o : Bound α) : Bound α :=
  match s, o with
  | incl p, incl o => if p > o then incl p else incl o
  | incl p, excl o => if p ≥ o then incl p else excl o
  | excl p, incl o => if p > o then excl p else incl o
  | excl p, excl o => if p > o then excl p else excl o
  | _, _ => inf

/-- src/bound.rs:493-517. -/
def greatestIntersect (s o : Bound α) : Bound α :=
  match s, o with
  | incl p, incl o => if p > o then incl p else incl o
  | incl p, excl o => if p > o then incl p else excl o
  | excl p, incl o => if p ≥ o then excl p else incl o
  | excl p, excl o => if p > o then excl p else excl o
  | incl p, inf => incl p
  | excl p, inf => excl p
  | inf, incl o => incl o
  | inf, excl o => excl o
  | inf, inf => inf

end Order
end Bound
end NI
