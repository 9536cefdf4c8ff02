import Verif.Model.TineTree
import Verif.Model.Interval

/-!
# Model of `src/selection.rs`

`Selection<T>` is a newtype over `TineTree<T>`; `Finite` is assumed throughout, as for `Interval`.
-/

namespace NI

/-- src/selection.rs:42, `struct Selection<T>(TineTree<T>)`. -/
structure Selection (α : Type _) where
  tree : TineTree α
  deriving DecidableEq, Repr

namespace Selection
variable {α : Type _} [LinearOrder α]

/-- src/selection.rs:81-83 (and `empty`, 88-90). -/
def new : Selection α := ⟨TineTree.new⟩

/-- src/selection.rs:44-52, `Default`. -/
def default : Selection α := new

/-- src/selection.rs:247-249. -/
def infimum (s : Selection α) : Option α := s.tree.lowerBound.bind Bound.asRef

/-- src/selection.rs:291-293. -/
def supremum (s : Selection α) : Option α := s.tree.upperBound.bind Bound.asRef

/-- src/selection.rs:320-322. -/
def isEmpty (s : Selection α) : Bool := s.tree.isEmpty

/-- src/selection.rs:345-347. -/
def isFull (s : Selection α) : Bool := s.tree.isFull

/-- src/selection.rs:472-474. -/
def contains (dbg : Bool) (s : Selection α) (x : α) : Except Panic Bool := s.tree.contains dbg x

/-- src/selection.rs:501-504. -/
def intersects (dbg : Bool) (a b : Selection α) : Except Panic Bool := do
  .ok !(← a.tree.intersect dbg b.tree).isEmpty

/-- src/selection.rs:554-556. -/
def complement (dbg : Bool) (s : Selection α) : Except Panic (Selection α) := do
  .ok ⟨← s.tree.complement dbg⟩

/-- src/selection.rs:597-599. -/
def intersect (dbg : Bool) (a b : Selection α) : Except Panic (Selection α) := do
  .ok ⟨← a.tree.intersect dbg b.tree⟩

/-- src/selection.rs:640-642. -/
def union (dbg : Bool) (a b : Selection α) : Except Panic (Selection α) := do
  .ok ⟨← a.tree.union dbg b.tree⟩

/-- src/selection.rs:664-666. -/
def minus (dbg : Bool) (a b : Selection α) : Except Panic (Selection α) := do
  .ok ⟨← a.tree.minus dbg b.tree⟩

variable [Finite α]

/-- src/selection.rs:927-930, `From<Interval<T>>`. -/
def ofInterval (i : Interval α) : Selection α := ⟨TineTree.fromRawInterval i.raw.denormalized⟩

/-- src/selection.rs:110-112. -/
def full : Selection α := ofInterval Interval.full

/-- src/selection.rs:689-691. -/
def enclose (dbg : Bool) (s : Selection α) : Except Panic (Interval α) := do
  .ok ⟨(← s.tree.enclose dbg).normalized⟩

/-- src/selection.rs:714-716. -/
def closure (dbg : Bool) (s : Selection α) : Except Panic (Interval α) := do
  .ok ⟨(← s.tree.closure dbg).normalized⟩

/-- src/selection.rs:761-763. -/
def intersectInPlace (dbg : Bool) (s : Selection α) (i : Interval α) :
    Except Panic (Selection α) := do
  .ok ⟨← s.tree.intersectInPlace dbg i.raw.denormalized⟩

/-- src/selection.rs:804-806. -/
def unionInPlace (dbg : Bool) (s : Selection α) (i : Interval α) :
    Except Panic (Selection α) := do
  .ok ⟨← s.tree.unionInPlace dbg i.raw.denormalized⟩

/-- src/selection.rs:847-849. -/
def minusInPlace (dbg : Bool) (s : Selection α) (i : Interval α) :
    Except Panic (Selection α) := do
  .ok ⟨← s.tree.minusInPlace dbg i.raw.denormalized⟩

/-- src/selection.rs:914-919, `Extend<Interval<T>>::extend`. -/
def extend (dbg : Bool) (s : Selection α) (is : List (Interval α)) : Except Panic (Selection α) :=
  is.foldlM (fun s i => do .ok ⟨← s.tree.unionInPlace dbg i.raw.denormalized⟩) s

/-- src/selection.rs:938-945, `FromIterator<Interval<T>>`. -/
def fromIntervals (dbg : Bool) (is : List (Interval α)) : Except Panic (Selection α) :=
  is.foldlM (fun s i => do .ok ⟨← s.tree.unionInPlace dbg i.raw.denormalized⟩) new

/-- src/selection.rs:953-960, `FromIterator<T>`. -/
def fromPoints (dbg : Bool) (xs : List α) : Except Panic (Selection α) :=
  xs.foldlM (fun s x => do
    .ok ⟨← s.tree.unionInPlace dbg (Interval.point x).raw.denormalized⟩) new

/-! ## Interval iterators: `IntervalIter` (1010-1040) and `IntoIntervalIter` (968-996) wrap the
tree iterators and have the same code. -/

/-- src/selection.rs:1020-1025 (977-982): `.map(Normalize::normalized).map(Interval::from)`. -/
def intervalNext (dbg : Bool) (it : TineIter α) :
    Except Panic (Option (Interval α) × TineIter α) := do
  let (i, it) ← it.next dbg
  .ok (i.map fun r => Interval.ofRaw r.normalized, it)

/-- src/selection.rs:1034-1039 (990-995). -/
def intervalNextBack (dbg : Bool) (it : TineIter α) :
    Except Panic (Option (Interval α) × TineIter α) := do
  let (i, it) ← it.nextBack dbg
  .ok (i.map fun r => Interval.ofRaw r.normalized, it)

/-- `interval_iter().collect()`: `Iterator::collect` over `intervalNext`. -/
def intervalsAux (dbg : Bool) :
    Nat → TineIter α → List (Interval α) → Except Panic (List (Interval α))
  | 0, _, acc => .ok acc
  | n + 1, it, acc => do
    match ← intervalNext dbg it with
    | (none, _) => .ok acc
    | (some i, it) => intervalsAux dbg n it (acc ++ [i])

/-- src/selection.rs:857-859 `interval_iter` (863-865 `into_interval_iter`), collected. -/
def intervals (dbg : Bool) (s : Selection α) : Except Panic (List (Interval α)) :=
  intervalsAux dbg (TineIter.start s.tree).size (TineIter.start s.tree) []

/-- `interval_iter().rev().collect()`. -/
def intervalsBackAux (dbg : Bool) :
    Nat → TineIter α → List (Interval α) → Except Panic (List (Interval α))
  | 0, _, acc => .ok acc
  | n + 1, it, acc => do
    match ← intervalNextBack dbg it with
    | (none, _) => .ok acc
    | (some i, it) => intervalsBackAux dbg n it (acc ++ [i])

/-- `interval_iter().rev().collect()`. -/
def intervalsBack (dbg : Bool) (s : Selection α) : Except Panic (List (Interval α)) :=
  intervalsBackAux dbg (TineIter.start s.tree).size (TineIter.start s.tree) []

/-- src/selection.rs:158-160. -/
def lowerBound (dbg : Bool) (s : Selection α) : Except Panic (Option (Bound α)) := do
  .ok ((← intervalNext dbg (TineIter.start s.tree)).1.bind Interval.lowerBound)

/-- src/selection.rs:204-206. -/
def upperBound (dbg : Bool) (s : Selection α) : Except Panic (Option (Bound α)) := do
  .ok ((← intervalNextBack dbg (TineIter.start s.tree)).1.bind Interval.upperBound)

/-- src/selection.rs:370-372 (`||` evaluates the right side only when the left is false). -/
def isBounded (dbg : Bool) (s : Selection α) : Except Panic Bool := do
  if (← s.lowerBound dbg).isSome then .ok true else .ok (← s.upperBound dbg).isSome

/-- src/selection.rs:395-397. -/
def isLeftBounded (dbg : Bool) (s : Selection α) : Except Panic Bool := do
  .ok !((← s.lowerBound dbg) matches some .inf)

/-- src/selection.rs:421-423. -/
def isRightBounded (dbg : Bool) (s : Selection α) : Except Panic Bool := do
  .ok !((← s.upperBound dbg) matches some .inf)

/-- src/selection.rs:446-450. -/
def isHalfBounded (dbg : Bool) (s : Selection α) : Except Panic Bool := do
  let l ← s.isLeftBounded dbg
  let r ← s.isRightBounded dbg
  .ok ((l && !r) || (!l && r))

end Selection

/-! ## Point iterators: `Iter` (src/selection.rs:1116-1167) and `IntoIter` (1054-1105), same code. -/

/-- src/selection.rs:1116-1123 (1054-1061). -/
structure PointIter (α : Type _) where
  intervals : TineIter α
  current : Interval α
  deriving DecidableEq, Repr

namespace PointIter
variable {α : Type _} [LinearOrder α] [Finite α]

/-- src/selection.rs:873-878 `iter` (887-892, 901-906 `into_iter`). -/
def start (s : Selection α) : PointIter α := ⟨TineIter.start s.tree, Interval.empty⟩

/-- src/selection.rs:1130-1145 (1068-1083), `next`. -/
def next (dbg : Bool) (it : PointIter α) : Except Panic (Option α × PointIter α) := do
  let (x, cur) ← it.current.next
  match x with
  | some x => .ok (some x, { it with current := cur })
  | none =>
    let (i, is) ← Selection.intervalNext dbg it.intervals
    match i with
    | none => .ok (none, ⟨is, cur⟩)
    | some i =>
      let (x, cur) ← i.next
      .ok (x, ⟨is, cur⟩)

/-- src/selection.rs:1151-1166 (1089-1104), `next_back`. -/
def nextBack (dbg : Bool) (it : PointIter α) : Except Panic (Option α × PointIter α) := do
  let (x, cur) ← it.current.nextBack
  match x with
  | some x => .ok (some x, { it with current := cur })
  | none =>
    let (i, is) ← Selection.intervalNextBack dbg it.intervals
    match i with
    | none => .ok (none, ⟨is, cur⟩)
    | some i =>
      let (x, cur) ← i.nextBack
      .ok (x, ⟨is, cur⟩)

end PointIter
end NI
