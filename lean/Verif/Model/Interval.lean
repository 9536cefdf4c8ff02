import Verif.Model.Normalize

/-!
# Model of `src/interval.rs`

`Interval<T>` is a `RawInterval<T>` that every constructor normalizes.  The crate only implements
`Normalize` for `Finite` types (src/normalize.rs:80), so `Finite` is assumed throughout.
-/

namespace NI

/-- src/interval.rs:50, `struct Interval<T>(pub(crate) RawInterval<T>)`. -/
structure Interval (α : Type _) where
  raw : RawInterval α
  deriving DecidableEq, Repr

namespace Interval
variable {α : Type _}

/-- src/interval.rs:147-150. -/
def empty : Interval α := ⟨.empty⟩

/-- src/interval.rs:52-60, `Default`. -/
def default : Interval α := empty

/-- src/interval.rs:168-171. -/
def point (p : α) : Interval α := ⟨.point p⟩

/-- src/interval.rs:834-836. -/
def lowerBound (i : Interval α) : Option (Bound α) := i.raw.lowerBound

/-- src/interval.rs:877-879. -/
def upperBound (i : Interval α) : Option (Bound α) := i.raw.upperBound

/-- src/interval.rs:917-919. -/
def infimum (i : Interval α) : Option α := i.raw.infimum

/-- src/interval.rs:958-960. -/
def supremum (i : Interval α) : Option α := i.raw.supremum

/-- src/interval.rs:978-983, `size`, over a subtraction `sub`; `sub u l = none` is a panic of the
`Sub` implementation (integer overflow). -/
def size (sub : α → α → Option α) (i : Interval α) : Except Panic (Option α) :=
  match i.infimum, i.supremum with
  | some l, some u =>
    match sub u l with
    | some d => .ok (some d)
    | none => .error .overflow
  | _, _ => .ok none

/-- src/interval.rs:1008-1010. -/
def isEmpty (i : Interval α) : Bool := i.raw matches .empty

/-- src/interval.rs:1031-1033. -/
def isDegenerate (i : Interval α) : Bool := i.raw matches .point _

/-- src/interval.rs:1057-1061. -/
def isProper (i : Interval α) : Bool := !(i.raw matches .empty | .point _)

/-- src/interval.rs:1099-1103. -/
def isOpen (i : Interval α) : Bool := !(i.raw matches .point _ | .closed _ _)

/-- src/interval.rs:1141-1147. -/
def isLeftOpen (i : Interval α) : Bool := i.raw matches .leftOpen _ _ | .upTo _ | .to _ | .full

/-- src/interval.rs:1185-1191. -/
def isRightOpen (i : Interval α) : Bool := i.raw matches .rightOpen _ _ | .upFrom _ | .frm _ | .full

/-- src/interval.rs:1229-1234. -/
def isHalfOpen (i : Interval α) : Bool := !(i.raw matches .empty | .point _ | .closed _ _)

/-- src/interval.rs:1272-1278. -/
def isClosed (i : Interval α) : Bool := i.raw matches .empty | .point _ | .closed _ _ | .full

/-- src/interval.rs:1299-1305. -/
def isLeftClosed (i : Interval α) : Bool :=
  i.raw matches .point _ | .rightOpen _ _ | .closed _ _ | .frm _

/-- src/interval.rs:1326-1332. -/
def isRightClosed (i : Interval α) : Bool :=
  i.raw matches .point _ | .leftOpen _ _ | .closed _ _ | .to _

/-- src/interval.rs:1353-1359. -/
def isHalfClosed (i : Interval α) : Bool :=
  i.raw matches .leftOpen _ _ | .rightOpen _ _ | .to _ | .frm _

/-- src/interval.rs:1380-1387. -/
def isBounded (i : Interval α) : Bool :=
  !(i.raw matches .upTo _ | .upFrom _ | .to _ | .frm _ | .full)

/-- src/interval.rs:1408-1413. -/
def isLeftBounded (i : Interval α) : Bool := !(i.raw matches .upTo _ | .to _ | .full)

/-- src/interval.rs:1435-1440. -/
def isRightBounded (i : Interval α) : Bool := !(i.raw matches .upFrom _ | .frm _ | .full)

/-- src/interval.rs:1461-1467. -/
def isHalfBounded (i : Interval α) : Bool := i.raw matches .upTo _ | .upFrom _ | .to _ | .frm _

/-- src/interval.rs:782-788. -/
def intoNonEmpty (i : Interval α) : Option (Interval α) := if i.isEmpty then none else some i

section Finite
variable [Finite α]

/-- src/interval.rs:1703-1705, `From<RawInterval<T>>`. -/
def ofRaw (r : RawInterval α) : Interval α := ⟨r.normalized⟩

/-- src/interval.rs:595-597. -/
def unboundedFrom (p : α) : Interval α := ⟨(RawInterval.frm p).normalized⟩

/-- src/interval.rs:635-637. -/
def unboundedTo (p : α) : Interval α := ⟨(RawInterval.to p).normalized⟩

/-- src/interval.rs:675-677. -/
def unboundedUpFrom (p : α) : Interval α := ⟨(RawInterval.upFrom p).normalized⟩

/-- src/interval.rs:715-717. -/
def unboundedUpTo (p : α) : Interval α := ⟨(RawInterval.upTo p).normalized⟩

/-- src/interval.rs:754-756. -/
def full : Interval α := ⟨RawInterval.full.normalized⟩

/-- src/interval.rs:1709-1717, `From<T>`. -/
def ofPoint (p : α) : Interval α := ⟨(RawInterval.point p).normalized⟩

/-- src/interval.rs:1746-1754, `From<RangeFrom<T>>` (`start..`). -/
def ofRangeFrom (start : α) : Interval α := ⟨(RawInterval.frm start).normalized⟩

/-- src/interval.rs:1756-1764, `From<RangeTo<T>>` (`..end`). -/
def ofRangeTo (end_ : α) : Interval α := ⟨(RawInterval.upTo end_).normalized⟩

/-- src/interval.rs:1766-1774, `From<RangeToInclusive<T>>` (`..=end`). -/
def ofRangeToInclusive (end_ : α) : Interval α := ⟨(RawInterval.to end_).normalized⟩

/-- src/interval.rs:1776-1784, `From<RangeFull>` (`..`). -/
def ofRangeFull : Interval α := ⟨RawInterval.full.normalized⟩

/-- src/interval.rs:1568-1573. -/
def complement (i : Interval α) : List (Interval α) :=
  i.raw.complement.map fun r => ⟨r.normalized⟩

/-- src/interval.rs:1688-1690: normalized by `closure` and again by `into`. -/
def closure (i : Interval α) : Interval α := ofRaw i.raw.closure.normalized

variable [LinearOrder α]

/-- src/interval.rs:126-128. -/
def new (l r : Bound α) : Interval α := ⟨(RawInterval.new l r).normalized⟩

/-- src/interval.rs:223-225, `open`. -/
def mkOpen (l r : α) : Interval α := ⟨(RawInterval.mkOpen l r).normalized⟩

/-- src/interval.rs:293-295, `left_open`. -/
def mkLeftOpen (l r : α) : Interval α := ⟨(RawInterval.mkLeftOpen l r).normalized⟩

/-- src/interval.rs:363-365, `right_open`. -/
def mkRightOpen (l r : α) : Interval α := ⟨(RawInterval.mkRightOpen l r).normalized⟩

/-- src/interval.rs:415-417, `closed`. -/
def mkClosed (l r : α) : Interval α := ⟨(RawInterval.mkClosed l r).normalized⟩

/-- src/interval.rs:485-487, `left_closed`. -/
def mkLeftClosed (l r : α) : Interval α := mkRightOpen l r

/-- src/interval.rs:555-557, `right_closed`. -/
def mkRightClosed (l r : α) : Interval α := mkLeftOpen l r

/-- src/interval.rs:1723-1731, `From<Range<T>>` (`start..end`). -/
def ofRange (start end_ : α) : Interval α := ⟨(RawInterval.mkRightOpen start end_).normalized⟩

omit [Finite α] in
/-- src/interval.rs:1488-1490. -/
def contains (i : Interval α) (x : α) : Bool := i.raw.contains x

omit [Finite α] in
/-- src/interval.rs:1516-1518. -/
def intersects (a b : Interval α) : Bool := a.raw.intersects b.raw

omit [Finite α] in
/-- src/interval.rs:1541-1544. -/
def isAdjacentTo (a b : Interval α) : Bool := a.raw.isAdjacentTo b.raw

/-- src/interval.rs:1593-1595: normalized by `intersect` and again by `into`. -/
def intersect (a b : Interval α) : Interval α := ofRaw (a.raw.intersect b.raw).normalized

/-- src/interval.rs:1615-1621. -/
def union (a b : Interval α) : List (Interval α) := (a.raw.union b.raw).map fun r => ⟨r.normalized⟩

/-- src/interval.rs:1641-1647. -/
def minus (a b : Interval α) : List (Interval α) := (a.raw.minus b.raw).map fun r => ⟨r.normalized⟩

/-- src/interval.rs:1667-1669: normalized by `enclose` and again by `into`. -/
def enclose (a b : Interval α) : Interval α := ofRaw (a.raw.enclose b.raw).normalized

/-! The point iterator `Iter<T>` (src/interval.rs:1858-1861) holds one `Interval`; the interval is
its whole state.  `iter` (1821-1825) and the two `into_iter` (1836-1838, 1848-1850) wrap the interval itself. -/

/-- src/interval.rs:1868-1880, `Iter::next`. -/
def next (i : Interval α) : Except Panic (Option α × Interval α) :=
  match i.lowerBound with
  | some (.incl lb) => .ok (some lb, (i.minus (ofPoint lb)).head?.getD empty)
  | none => .ok (none, i)
  | _ => .error .unreachable

/-- src/interval.rs:1886-1898, `Iter::next_back`. -/
def nextBack (i : Interval α) : Except Panic (Option α × Interval α) :=
  match i.upperBound with
  | some (.incl ub) => .ok (some ub, (i.minus (ofPoint ub)).head?.getD empty)
  | none => .ok (none, i)
  | _ => .error .unreachable

end Finite
end Interval
end NI
