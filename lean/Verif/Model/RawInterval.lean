import Verif.Model.Bound

/-!
# Model of `src/raw_interval.rs` (except Display/FromStr, see `Verif.Model.Parse`)

`impl Iterator<Item=Self>` results are lists in iteration order; the `few::Few` container is the
list of its elements.
-/

namespace NI

/-- src/raw_interval.rs:34-61, `enum RawInterval<T>`. -/
inductive RawInterval (α : Type _)
  | empty
  | point (p : α)
  | opn (l r : α)
  | leftOpen (l r : α)
  | rightOpen (l r : α)
  | closed (l r : α)
  | upTo (p : α)
  | upFrom (p : α)
  | to (p : α)
  | frm (p : α)
  | full
  deriving DecidableEq, Repr

namespace RawInterval
variable {α : Type _}

/-- src/raw_interval.rs:70-72. -/
def isEmpty : RawInterval α → Bool
  | empty => true
  | _ => false

/-- src/raw_interval.rs:77-79. -/
def isFull : RawInterval α → Bool
  | full => true
  | _ => false

/-- src/raw_interval.rs:195-211, `lower_bound`. -/
def lowerBound : RawInterval α → Option (Bound α)
  | empty => none
  | point p => some (.incl p)
  | opn l _ => some (.excl l)
  | leftOpen l _ => some (.excl l)
  | rightOpen l _ => some (.incl l)
  | closed l _ => some (.incl l)
  | upTo _ => some .inf
  | upFrom p => some (.excl p)
  | to _ => some .inf
  | frm p => some (.incl p)
  | full => some .inf

/-- src/raw_interval.rs:215-231, `upper_bound`. -/
def upperBound : RawInterval α → Option (Bound α)
  | empty => none
  | point p => some (.incl p)
  | opn _ r => some (.excl r)
  | leftOpen _ r => some (.incl r)
  | rightOpen _ r => some (.excl r)
  | closed _ r => some (.incl r)
  | upTo p => some (.excl p)
  | upFrom _ => some .inf
  | to p => some (.incl p)
  | frm _ => some .inf
  | full => some .inf

/-- src/raw_interval.rs:234-241. -/
def infimum (i : RawInterval α) : Option α :=
  match i.lowerBound with
  | some (.incl b) => some b
  | some (.excl b) => some b
  | _ => none

/-- src/raw_interval.rs:244-251. -/
def supremum (i : RawInterval α) : Option α :=
  match i.upperBound with
  | some (.incl b) => some b
  | some (.excl b) => some b
  | _ => none

/-- src/raw_interval.rs:282-297, `complement`. -/
def complement : RawInterval α → List (RawInterval α)
  | empty => [full]
  | point p => [upTo p, upFrom p]
  | opn l r => [to l, frm r]
  | leftOpen l r => [to l, upFrom r]
  | rightOpen l r => [upTo l, frm r]
  | closed l r => [upTo l, upFrom r]
  | upTo p => [frm p]
  | upFrom p => [to p]
  | to p => [upFrom p]
  | frm p => [upTo p]
  | full => []

/-- src/raw_interval.rs:375-385, `closure`. -/
def closure : RawInterval α → RawInterval α
  | opn l r => closed l r
  | leftOpen l r => closed l r
  | rightOpen l r => closed l r
  | upTo r => to r
  | upFrom l => frm l
  | i => i

variable [LinearOrder α]

/-- src/raw_interval.rs:114-120, `open`. -/
def mkOpen (l u : α) : RawInterval α :=
  if l < u then opn l u else empty

/-- src/raw_interval.rs:128-135, `left_open`. -/
def mkLeftOpen (l u : α) : RawInterval α :=
  if l < u then leftOpen l u else if l = u then point u else empty

/-- src/raw_interval.rs:143-150, `right_open`. -/
def mkRightOpen (l u : α) : RawInterval α :=
  if l < u then rightOpen l u else if l = u then point l else empty

/-- src/raw_interval.rs:158-165, `closed`. -/
def mkClosed (l u : α) : RawInterval α :=
  if l < u then closed l u else if l = u then point l else empty

/-- src/raw_interval.rs:92-106, `new`. -/
def new (lower upper : Bound α) : RawInterval α :=
  match lower, upper with
  | .incl l, .incl u => mkClosed l u
  | .incl l, .excl u => mkRightOpen l u
  | .incl l, .inf => frm l
  | .excl l, .incl u => mkLeftOpen l u
  | .excl l, .excl u => mkOpen l u
  | .excl l, .inf => upFrom l
  | .inf, .incl u => to u
  | .inf, .excl u => upTo u
  | .inf, .inf => full

/-- src/raw_interval.rs:171-186, `contains`. -/
def contains (i : RawInterval α) (x : α) : Bool :=
  match i with
  | empty => false
  | point p => decide (x = p)
  | opn l r => decide (x > l) && decide (x < r)
  | leftOpen l r => decide (x > l) && decide (x ≤ r)
  | rightOpen l r => decide (x ≥ l) && decide (x < r)
  | closed l r => decide (x ≥ l) && decide (x ≤ r)
  | upTo p => decide (x < p)
  | upFrom p => decide (x > p)
  | to p => decide (x ≤ p)
  | frm p => decide (x ≥ p)
  | full => true

/-- src/raw_interval.rs:302-321, `intersect`. -/
def intersect (a b : RawInterval α) : RawInterval α :=
  match a.lowerBound, b.lowerBound with
  | some la, some lb =>
    match a.upperBound, b.upperBound with
    | some ua, some ub =>
      let lo := la.greatestIntersect lb
      let hi := ua.leastIntersect ub
      if lo.asRef = hi.asRef ∧
          ((lo.isInclusive && hi.isExclusive) || (lo.isExclusive && hi.isInclusive)) = true
      then empty
      else new lo hi
    | _, _ => empty
  | _, _ => empty

/-- src/raw_interval.rs:259-261, `intersects`. -/
def intersects (a b : RawInterval α) : Bool := !(a.intersect b).isEmpty

/-- src/raw_interval.rs:264-275, `is_adjacent_to`. -/
def isAdjacentTo (s o : RawInterval α) : Bool :=
  (match s.lowerBound, o.upperBound with
    | some lb, some ub => lb.isUnionAdjacentTo ub
    | _, _ => false) ||
  (match s.upperBound, o.lowerBound with
    | some ub, some lb => lb.isUnionAdjacentTo ub
    | _, _ => false)

/-- src/raw_interval.rs:354-370, `enclose`. -/
def enclose (a b : RawInterval α) : RawInterval α :=
  let lo : Option (Bound α) :=
    match a.lowerBound, b.lowerBound with
    | some x, some y => some (x.leastUnion y)
    | some x, none => some x
    | none, some y => some y
    | none, none => none
  let hi : Option (Bound α) :=
    match a.upperBound, b.upperBound with
    | some x, some y => some (x.greatestUnion y)
    | some x, none => some x
    | none, some y => some y
    | none, none => none
  match lo, hi with
  | some l, some u => new l u
  | _, _ => empty

/-- src/raw_interval.rs:325-339, `union`. -/
def union (a b : RawInterval α) : List (RawInterval α) :=
  match a.isEmpty, b.isEmpty with
  | true, true => []
  | true, false => [b]
  | false, true => [a]
  | false, false =>
    if a.intersects b || a.isAdjacentTo b then [a.enclose b] else [a, b]

/-- src/raw_interval.rs:343-349, `minus`. -/
def minus (a b : RawInterval α) : List (RawInterval α) :=
  (b.complement.map fun i => a.intersect i).filter fun i => !i.isEmpty

/-- src/raw_interval.rs:392-396, `enclose_all`. -/
def encloseAll (is : List (RawInterval α)) : RawInterval α :=
  is.foldl (fun acc i => acc.enclose i) full

/-- src/raw_interval.rs:400-404, `intersect_all`. -/
def intersectAll (is : List (RawInterval α)) : RawInterval α :=
  is.foldl (fun acc i => acc.intersect i) full

/-- src/raw_interval.rs:422-431: the inner `for item in &mut prev` loop with its `append` flag.
The first item that meets `next` is replaced by the enclosure; otherwise `next` is pushed. -/
def unionAllMerge (next : RawInterval α) : List (RawInterval α) → List (RawInterval α)
  | [] => [next]
  | item :: prev =>
    if item.intersects next || item.isAdjacentTo next then item.enclose next :: prev
    else item :: unionAllMerge next prev

/-- src/raw_interval.rs:417-432: the closure folded over the remaining intervals. -/
def unionAllStep (prev : List (RawInterval α)) (next : RawInterval α) : List (RawInterval α) :=
  if next = full then [full] else unionAllMerge next prev

/-- src/raw_interval.rs:408-436, `union_all`. -/
def unionAll (is : List (RawInterval α)) : List (RawInterval α) :=
  match is.filter fun i => !i.isEmpty with
  | start :: it => it.foldl unionAllStep [start]
  | [] => []

end RawInterval
end NI
