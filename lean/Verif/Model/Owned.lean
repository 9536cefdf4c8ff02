import Verif.Model.Selection

/-!
# Model of the owning iterators and of the remaining conversions

The owning iterators repeat the code of the borrowing ones.  They are modelled apart from them here, from
their own lines, and C83 shows that they behave alike.
-/

namespace NI

namespace Bound
variable {α : Type _}

/-- src/bound.rs:175-181, `as_mut`.  A `&mut T` into the bound is the value that it shows together with
what the bound becomes when another value is assigned through it. -/
def asMut : Bound α → Option (α × (α → Bound α))
  | incl v => some (v, incl)
  | excl v => some (v, excl)
  | inf => none

end Bound

namespace TineTree
variable {α : Type _} [LinearOrder α]

/-- src/tine_tree.rs:946-950, `Default`. -/
def default' : TineTree α := new

/-- src/tine_tree.rs:955-959, `From<RawInterval<T>>`. -/
def ofRaw (i : RawInterval α) : TineTree α := fromRawInterval i

/-- src/tine_tree.rs:961-973, `From<I> where I: Iterator`. -/
def ofIterator (dbg : Bool) (is : List (RawInterval α)) : Except Panic (TineTree α) :=
  go is new
where
  /-- The `for` loop. -/
  go : List (RawInterval α) → TineTree α → Except Panic (TineTree α)
    | [], t => .ok t
    | i :: is, t => do go is (← t.unionInPlace dbg i)

end TineTree

/-- src/tine_tree.rs:1010-1017, `struct IntoIter`.  `inner` is what the `BTreeSet` iterator has left. -/
structure IntoTineIter (α : Type _) where
  inner : List (Tine α)
  savedLower : Option (Tine α)
  savedUpper : Option (Tine α)
  deriving DecidableEq, Repr

namespace IntoTineIter
variable {α : Type _} [LinearOrder α]

/-- src/tine_tree.rs:995-1001, `into_iter`. -/
def start (t : TineTree α) : IntoTineIter α := ⟨t, none, none⟩

/-- `self.inner.next()`. -/
def pop (it : IntoTineIter α) : Option (Tine α) × IntoTineIter α :=
  (it.inner.head?, { it with inner := it.inner.tail })

/-- `self.inner.next_back()`. -/
def popBack (it : IntoTineIter α) : Option (Tine α) × IntoTineIter α :=
  (it.inner.getLast?, { it with inner := it.inner.dropLast })

/-- src/tine_tree.rs:1022-1052, `next`. -/
def next (dbg : Bool) (it : IntoTineIter α) :
    Except Panic (Option (RawInterval α) × IntoTineIter α) :=
  -- `self.saved_lower.take().or_else(|| self.inner.next())`
  let (lower, it) :=
    if it.savedLower.isSome then (it.savedLower, { it with savedLower := none }) else it.pop
  match lower with
  | none => .ok (none, it)
  | some (.point (.incl p)) => .ok (some (.point p), it)
  | some lower => do
    dassert dbg lower.isLowerBound
    -- `self.inner.next().or_else(|| self.saved_upper.take()).expect(..)`
    let (upper, it) := match it.pop with
      | (some u, it) => (some u, it)
      | (none, it) => (it.savedUpper, { it with savedUpper := none })
    match upper with
    | none => .error .expect
    | some upper =>
      let it := if upper.isPointExclude then { it with savedLower := some upper } else it
      dassert dbg upper.isUpperBound
      .ok (some (RawInterval.new lower.intoInner upper.intoInner), it)

/-- src/tine_tree.rs:1058-1088, `next_back`. -/
def nextBack (dbg : Bool) (it : IntoTineIter α) :
    Except Panic (Option (RawInterval α) × IntoTineIter α) :=
  -- `self.saved_upper.take().or_else(|| self.inner.next_back())`
  let (upper, it) :=
    if it.savedUpper.isSome then (it.savedUpper, { it with savedUpper := none }) else it.popBack
  match upper with
  | none => .ok (none, it)
  | some (.point (.incl p)) => .ok (some (.point p), it)
  | some upper => do
    dassert dbg upper.isUpperBound
    -- `self.inner.next_back().or_else(|| self.saved_lower.take()).expect(..)`
    let (lower, it) := match it.popBack with
      | (some l, it) => (some l, it)
      | (none, it) => (it.savedLower, { it with savedLower := none })
    match lower with
    | none => .error .expect
    | some lower =>
      let it := if lower.isPointExclude then { it with savedLower := some lower } else it
      dassert dbg lower.isLowerBound
      .ok (some (RawInterval.new lower.intoInner upper.intoInner), it)

end IntoTineIter

namespace Selection
variable {α : Type _} [LinearOrder α] [Finite α]

/-- src/selection.rs:863-865, `into_interval_iter`. -/
def intoIntervalIter (s : Selection α) : IntoTineIter α := IntoTineIter.start s.tree

/-- src/selection.rs:977-982, `IntoIntervalIter::next`. -/
def intoIntervalNext (dbg : Bool) (it : IntoTineIter α) :
    Except Panic (Option (Interval α) × IntoTineIter α) := do
  let (r, it) ← it.next dbg
  .ok ((r.map RawInterval.normalized).map Interval.ofRaw, it)

/-- src/selection.rs:990-995, `IntoIntervalIter::next_back`. -/
def intoIntervalNextBack (dbg : Bool) (it : IntoTineIter α) :
    Except Panic (Option (Interval α) × IntoTineIter α) := do
  let (r, it) ← it.nextBack dbg
  .ok ((r.map RawInterval.normalized).map Interval.ofRaw, it)

end Selection

/-- src/selection.rs:1054-1061, `struct IntoIter`. -/
structure IntoPointIter (α : Type _) where
  intervals : IntoTineIter α
  current : Interval α
  deriving DecidableEq, Repr

namespace IntoPointIter
variable {α : Type _} [LinearOrder α] [Finite α]

/-- src/selection.rs:887-892, `IntoIterator for Selection`. -/
def start (s : Selection α) : IntoPointIter α := ⟨IntoTineIter.start s.tree, Interval.empty⟩

/-- src/selection.rs:1068-1083, `next`. -/
def next (dbg : Bool) (it : IntoPointIter α) : Except Panic (Option α × IntoPointIter α) := do
  match ← it.current.next with
  | (some x, cur) => .ok (some x, { it with current := cur })
  | (none, cur) =>
    match ← it.intervals.next dbg with
    | (none, is) => .ok (none, ⟨is, cur⟩)
    | (some r, is) =>
      let (x, cur) ← (Interval.ofRaw r.normalized).next
      .ok (x, ⟨is, cur⟩)

/-- src/selection.rs:1089-1104, `next_back`. -/
def nextBack (dbg : Bool) (it : IntoPointIter α) : Except Panic (Option α × IntoPointIter α) := do
  match ← it.current.nextBack with
  | (some x, cur) => .ok (some x, { it with current := cur })
  | (none, cur) =>
    match ← it.intervals.nextBack dbg with
    | (none, is) => .ok (none, ⟨is, cur⟩)
    | (some r, is) =>
      let (x, cur) ← (Interval.ofRaw r.normalized).nextBack
      .ok (x, ⟨is, cur⟩)

end IntoPointIter
end NI
