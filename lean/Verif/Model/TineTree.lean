import Verif.Model.Tine

/-!
# Model of `src/tine_tree.rs`

`TineTree<T>` is a `BTreeSet<Tine<T>>`.  The set is modelled by the list of its elements in
iteration order (`BSet` below gives the four `BTreeSet` operations the code uses).  The
`BTreeSet` implementation itself is trusted to behave like that list as long as the list is
strictly sorted by `Tine::cmp`, which is proved to be an invariant (`Valid`).

`&mut self` functions take the tree and return the new tree.
-/

namespace NI

abbrev TineTree (α : Type _) := List (Tine α)

namespace BSet
variable {α : Type _} [LinearOrder α]

/-- `BTreeSet::insert`: an element that compares `Equal` to one in the set is *not* replaced. -/
def insert (x : Tine α) : List (Tine α) → List (Tine α)
  | [] => [x]
  | y :: ys =>
    match x.cmp y with
    | .lt => x :: y :: ys
    | .eq => y :: ys
    | .gt => y :: insert x ys

/-- `BTreeSet::take`, the removed element. -/
def taken (x : Tine α) (t : List (Tine α)) : Option (Tine α) :=
  t.find? fun y => x.cmp y == .eq

/-- `BTreeSet::take`, the remaining set. -/
def remove (x : Tine α) (t : List (Tine α)) : List (Tine α) :=
  t.filter fun y => x.cmp y != .eq

/-- `BTreeSet::split_off(x)`, what stays in the set: everything less than `x`. -/
def below (x : Tine α) (t : List (Tine α)) : List (Tine α) :=
  t.filter fun y => x.cmp y == .gt

/-- `BTreeSet::split_off(x)`, what is returned: everything greater than or equal to `x`. -/
def above (x : Tine α) (t : List (Tine α)) : List (Tine α) :=
  t.filter fun y => x.cmp y != .gt

/-- `BTreeSet::append` of a set whose elements are all greater. -/
def append (a b : List (Tine α)) : List (Tine α) := a ++ b

/-- `BTreeSet::from_iter` for at most two elements (stable sort; elements that compare `Equal` but
differ under `==`, as a lower and an upper tine always do, are both kept). -/
def ofTines (ts : List (Tine α)) : List (Tine α) :=
  match ts with
  | [a, b] => if a.cmp b = .gt then [b, a] else [a, b]
  | ts => ts

end BSet

/-- src/tine_tree.rs:1096-1104, `struct Iter` (and `IntoIter`, 1010-1017, which has the same
fields and the same code).  `tines` is what the underlying `BTreeSet` iterator has left. -/
structure TineIter (α : Type _) where
  tines : List (Tine α)
  savedLower : Option (Tine α)
  savedUpper : Option (Tine α)
  deriving DecidableEq, Repr

namespace TineIter
variable {α : Type _} [LinearOrder α]

/-- src/tine_tree.rs:937-943 `interval_iter` and 995-1001 `into_iter`. -/
def start (t : TineTree α) : TineIter α := ⟨t, none, none⟩

/-- src/tine_tree.rs:1116-1140 (1027-1051): the `map(|lower| ..)` closure of `next`, run with the
lower tine already taken out of the iterator `it`. -/
def nextWith (dbg : Bool) (lower : Tine α) (it : TineIter α) :
    Except Panic (RawInterval α × TineIter α) :=
  match lower with
  | .point (.incl p) => .ok (.point p, it)
  | lower => do
    dassert dbg lower.isLowerBound
    let (upper, it) ← (match it.tines, it.savedUpper with
      | u :: rest, _ => .ok (u, { it with tines := rest })
      | [], some u => .ok (u, { it with savedUpper := none })
      | [], none => .error .expect : Except Panic (Tine α × TineIter α))
    let it := if upper.isPointExclude then { it with savedLower := some upper } else it
    dassert dbg upper.isUpperBound
    .ok (RawInterval.new lower.intoInner upper.intoInner, it)

/-- src/tine_tree.rs:1111-1142 `Iter::next` (1022-1052 `IntoIter::next`). -/
def next (dbg : Bool) (it : TineIter α) :
    Except Panic (Option (RawInterval α) × TineIter α) :=
  match it.savedLower with
  | some lower => do
    let (i, it) ← nextWith dbg lower { it with savedLower := none }
    .ok (some i, it)
  | none =>
    match it.tines with
    | lower :: rest => do
      let (i, it) ← nextWith dbg lower { it with tines := rest }
      .ok (some i, it)
    | [] => .ok (none, it)

/-- src/tine_tree.rs:1153-1177 (1064-1087): the `map(|upper| ..)` closure of `next_back`.
Note that the code stores a `Point(Exclude(_))` in `saved_lower`, not in `saved_upper`. -/
def nextBackWith (dbg : Bool) (upper : Tine α) (it : TineIter α) :
    Except Panic (RawInterval α × TineIter α) :=
  match upper with
  | .point (.incl p) => .ok (.point p, it)
  | upper => do
    dassert dbg upper.isUpperBound
    let (lower, it) ← (match it.tines.getLast?, it.savedLower with
      | some l, _ => .ok (l, { it with tines := it.tines.dropLast })
      | none, some l => .ok (l, { it with savedLower := none })
      | none, none => .error .expect : Except Panic (Tine α × TineIter α))
    let it := if lower.isPointExclude then { it with savedLower := some lower } else it
    dassert dbg lower.isLowerBound
    .ok (RawInterval.new lower.intoInner upper.intoInner, it)

/-- src/tine_tree.rs:1148-1178 `Iter::next_back` (1058-1088 `IntoIter::next_back`). -/
def nextBack (dbg : Bool) (it : TineIter α) :
    Except Panic (Option (RawInterval α) × TineIter α) :=
  match it.savedUpper with
  | some upper => do
    let (i, it) ← nextBackWith dbg upper { it with savedUpper := none }
    .ok (some i, it)
  | none =>
    match it.tines.getLast? with
    | some upper => do
      let (i, it) ← nextBackWith dbg upper { it with tines := it.tines.dropLast }
      .ok (some i, it)
    | none => .ok (none, it)

/-- An upper bound on the number of intervals the iterator can still return: every successful
`next`/`next_back` removes one of these tines.  Used as fuel for the loops below. -/
def size (it : TineIter α) : Nat := 2 * it.tines.length + 2

/-- `for interval in iter { acc = f(acc, interval)? }` for a forward iterator. -/
def foldAux {β : Type _} (dbg : Bool) (f : β → RawInterval α → Except Panic β) :
    Nat → TineIter α → β → Except Panic β
  | 0, _, acc => .ok acc
  | n + 1, it, acc => do
    match ← next dbg it with
    | (none, _) => .ok acc
    | (some i, it) => do foldAux dbg f n it (← f acc i)

/-- A complete `for` loop over the iterator. -/
def fold {β : Type _} (dbg : Bool) (f : β → RawInterval α → Except Panic β) (it : TineIter α)
    (acc : β) : Except Panic β := foldAux dbg f it.size it acc

/-- `iter.collect::<Vec<_>>()`. -/
def collect (dbg : Bool) (it : TineIter α) : Except Panic (List (RawInterval α)) :=
  fold dbg (fun acc i => .ok (acc ++ [i])) it []

/-- `iter.rev().collect::<Vec<_>>()`, driven by `next_back`. -/
def collectBackAux (dbg : Bool) :
    Nat → TineIter α → List (RawInterval α) → Except Panic (List (RawInterval α))
  | 0, _, acc => .ok acc
  | n + 1, it, acc => do
    match ← nextBack dbg it with
    | (none, _) => .ok acc
    | (some i, it) => collectBackAux dbg n it (acc ++ [i])

/-- `iter.rev().collect::<Vec<_>>()`. -/
def collectBack (dbg : Bool) (it : TineIter α) : Except Panic (List (RawInterval α)) :=
  collectBackAux dbg it.size it []

/-- src/tine_tree.rs:112-115, the loop of `contains` with its early return. -/
def anyContains (dbg : Bool) (x : α) : Nat → TineIter α → Except Panic Bool
  | 0, _ => .ok false
  | n + 1, it => do
    match ← next dbg it with
    | (none, _) => .ok false
    | (some i, it) => if i.contains x then .ok true else anyContains dbg x n it

end TineIter

namespace TineTree
variable {α : Type _} [LinearOrder α]

/-- src/tine_tree.rs:61-63. -/
def new : TineTree α := []

/-- src/tine_tree.rs:67-69 (and `From<RawInterval>`, 955-959). -/
def fromRawInterval (i : RawInterval α) : TineTree α := BSet.ofTines (Tine.fromRawInterval i)

/-- src/tine_tree.rs:78-80. -/
def lowerBound (t : TineTree α) : Option (Bound α) := t.head?.map Tine.intoInner

/-- src/tine_tree.rs:85-87. -/
def upperBound (t : TineTree α) : Option (Bound α) := t.getLast?.map Tine.intoInner

/-- src/tine_tree.rs:96-98. -/
def isEmpty (t : TineTree α) : Bool := List.isEmpty t

/-- src/tine_tree.rs:102-106. -/
def isFull (t : TineTree α) : Bool := decide (t = [Tine.lower .inf, Tine.upper .inf])

/-- src/tine_tree.rs:937-943 `interval_iter().collect()`. -/
def intervals (dbg : Bool) (t : TineTree α) : Except Panic (List (RawInterval α)) :=
  (TineIter.start t).collect dbg

/-- `interval_iter().rev().collect()`. -/
def intervalsBack (dbg : Bool) (t : TineTree α) : Except Panic (List (RawInterval α)) :=
  (TineIter.start t).collectBack dbg

/-- src/tine_tree.rs:110-116. -/
def contains (dbg : Bool) (t : TineTree α) (x : α) : Except Panic Bool :=
  TineIter.anyContains dbg x (TineIter.start t).size (TineIter.start t)

/-- src/tine_tree.rs:172-174, the loop inserting the inverted inner tines. -/
def complementRest : List (Tine α) → TineTree α → Except Panic (TineTree α)
  | [], c => .ok c
  | t :: ts, c => do complementRest ts (BSet.insert (← t.invert) c)

/-- src/tine_tree.rs:126-177, `complement`. -/
def complement (dbg : Bool) (t : TineTree α) : Except Panic (TineTree α) :=
  match t with
  | [] => .ok (fromRawInterval .full)
  | [tine] => do
    let tine ← tine.invert
    dassert dbg tine.isPointExclude
    .ok (BSet.insert (.upper .inf) (BSet.insert tine (BSet.insert (.lower .inf) new)))
  | first :: second :: rest => do
    let c ← (match first with
      | .lower .inf => .ok new
      | tine => do .ok (BSet.insert (← tine.invert) (BSet.insert (.lower .inf) new))
        : Except Panic (TineTree α))
    let c ← (match (second :: rest).getLast? with
      | some (.upper .inf) => .ok c
      | some tine => do .ok (BSet.insert (← tine.invert) (BSet.insert (.upper .inf) c))
      | none => .error .unreachable : Except Panic (TineTree α))
    complementRest (second :: rest).dropLast c

/-- src/tine_tree.rs:805-858, `interior_split_for_proper_interval`: the six returned tines and the
new content of the tree (the center). -/
def interiorSplit (dbg : Bool) (t : TineTree α) (lower upper : Tine α) :
    Except Panic ((Option (Tine α) × Option (Tine α) × Option (Tine α) × Option (Tine α) ×
      Option (Tine α) × Option (Tine α)) × TineTree α) := do
  dassert dbg (lower.cmp upper == .lt)
  let r2 := BSet.taken lower t
  let t := BSet.remove lower t
  let r3 := BSet.taken upper t
  let t := BSet.remove upper t
  let left := BSet.below lower t
  let center := BSet.above lower t
  let right := BSet.above upper center
  let center := BSet.below upper center
  let r0 := left.getLast?
  let r1 := center.head?
  let r4 := center.getLast?
  let r5 := right.head?
  dassert dbg (r1.isSome == r4.isSome)
  .ok ((r0, r1, r2, r3, r4, r5), center)

/-- src/tine_tree.rs:860-886, `exterior_split_for_point_interval`. -/
def exteriorSplitPoint (t : TineTree α) (tine : Tine α) :
    (Option (Tine α) × Option (Tine α) × Option (Tine α)) × TineTree α :=
  let r1 := BSet.taken tine t
  let t := BSet.remove tine t
  let right := BSet.above tine t
  let t := BSet.below tine t
  let r0 := t.getLast?
  let r2 := right.head?
  ((r0, r1, r2), BSet.append t right)

/-- src/tine_tree.rs:888-929, `exterior_split_for_proper_interval`. -/
def exteriorSplit (t : TineTree α) (lower upper : Tine α) :
    (Option (Tine α) × Option (Tine α) × Option (Tine α) × Option (Tine α)) × TineTree α :=
  let r1 := BSet.taken lower t
  let t := BSet.remove lower t
  let r2 := BSet.taken upper t
  let t := BSet.remove upper t
  let center := BSet.above lower t
  let t := BSet.below lower t
  let r0 := t.getLast?
  let right := BSet.above upper center
  let r3 := right.head?
  ((r0, r1, r2, r3), BSet.append t right)

/-- `opt.as_ref().is_some_and(f)` -/
def someAnd (o : Option (Tine α)) (f : Tine α → Bool) : Bool := o.elim false f

/-- `opt.as_ref().map_or(true, f)` -/
def noneOr (o : Option (Tine α)) (f : Tine α → Bool) : Bool := o.elim true f

/-- src/tine_tree.rs:323-411, `intersect_proper_interval`. -/
def intersectProper (dbg : Bool) (t : TineTree α) (l u : Tine α) : Except Panic (TineTree α) := do
  let ((t0, t1, t2, t3, t4, t5), c) ← interiorSplit dbg t l u
  let mergedL ← (match t2 with
    | some lower => lower.intersect dbg l
    | none => .ok (some l) : Except Panic (Option (Tine α)))
  let mergedU ← (match t3 with
    | some upper => upper.intersect dbg u
    | none => .ok (some u) : Except Panic (Option (Tine α)))
  dassert dbg (noneOr mergedL Tine.isLowerBound)
  dassert dbg (noneOr mergedU Tine.isUpperBound)
  let openBefore := someAnd t0 Tine.isLowerBound
  let closedAfter := someAnd t5 Tine.isUpperBound
  let inL := someAnd t1 Tine.isUpperBound
  let inR := someAnd t4 Tine.isLowerBound
  match openBefore, mergedL, inL, inR, mergedU, closedAfter with
  | _, some l, true, true, some u, _ => .ok (BSet.insert u (BSet.insert l c))
  | _, some l, false, false, some u, _ => .ok (BSet.insert u (BSet.insert l c))
  | true, some l, true, false, _, false => .ok (BSet.insert l c)
  | false, _, false, true, some u, true => .ok (BSet.insert u c)
  | false, _, false, false, _, false => .ok c
  | _, _, _, _, _, _ => .error .unreachable

/-- src/tine_tree.rs:280-319, `intersect_in_place`. -/
def intersectInPlace (dbg : Bool) (t : TineTree α) (i : RawInterval α) :
    Except Panic (TineTree α) :=
  if isEmpty t || i.isFull then .ok t
  else if i.isEmpty then .ok new
  else
    match i with
    | .point p => do
      if ← contains dbg t p then .ok (fromRawInterval i) else .ok new
    | i =>
      match Tine.fromRawInterval i with
      | [] => .ok new
      | [.point (.incl p)] => do
        if ← contains dbg t p then .ok (fromRawInterval (.point p)) else .ok new
      | [l, u] => intersectProper dbg t l u
      | _ => .error .unreachable

/-- src/tine_tree.rs:431-485, `union_point_interval`. -/
def unionPoint (dbg : Bool) (t : TineTree α) (p : Tine α) : Except Panic (TineTree α) := do
  let ((t0, t1, t2), t) := exteriorSplitPoint t p
  let merged ← (match t1 with
    | some pt => pt.union dbg p
    | none => .ok (some p) : Except Panic (Option (Tine α)))
  match merged with
  | none => .ok t
  | some p =>
    let openBefore := someAnd t0 Tine.isLowerBound
    let closedAfter := someAnd t2 Tine.isUpperBound
    match openBefore, closedAfter with
    | true, true => .ok t
    | true, false => do
      dassert dbg (!p.isLowerBound)
      .ok (BSet.insert p t)
    | false, true => do
      dassert dbg (!p.isUpperBound)
      .ok (BSet.insert p t)
    | false, false => .ok (BSet.insert p t)

/-- `if c {self.0.insert(x);}` -/
def insertIf (c : Bool) (x : Tine α) (t : TineTree α) : TineTree α :=
  if c then BSet.insert x t else t

/-- src/tine_tree.rs:489-609, `union_proper_interval`. -/
def unionProper (dbg : Bool) (t : TineTree α) (l u : Tine α) : Except Panic (TineTree α) := do
  let ((t0, t1, t2, t3), t) := exteriorSplit t l u
  let mergedL ← (match t1 with
    | some lower => lower.union dbg l
    | none => .ok (some l) : Except Panic (Option (Tine α)))
  let mergedU ← (match t2 with
    | some upper => upper.union dbg u
    | none => .ok (some u) : Except Panic (Option (Tine α)))
  dassert dbg (noneOr mergedL Tine.isLowerBound)
  dassert dbg (noneOr mergedU Tine.isUpperBound)
  let openBefore := someAnd t0 Tine.isLowerBound
  let closedAfter := someAnd t3 Tine.isUpperBound
  match openBefore, mergedL, mergedU, closedAfter with
  | true, some l, some u, true =>
    .ok (insertIf u.isLowerBound u (insertIf l.isUpperBound l t))
  | true, some l, some u, false => do
    let t := insertIf l.isUpperBound l t
    dassert dbg (!u.isLowerBound)
    .ok (BSet.insert u t)
  | false, some l, some u, true => do
    dassert dbg (!l.isUpperBound)
    let t := BSet.insert l t
    .ok (insertIf u.isLowerBound u t)
  | false, some l, some u, false => do
    dassert dbg (!l.isUpperBound)
    let t := BSet.insert l t
    dassert dbg (!u.isLowerBound)
    .ok (BSet.insert u t)
  | true, some l, none, true => .ok (insertIf l.isPointExclude l t)
  | false, some l, none, true => do
    dassert dbg (!l.isUpperBound)
    .ok (BSet.insert l t)
  | true, none, some u, true => .ok (insertIf u.isPointExclude u t)
  | true, none, some u, false => do
    dassert dbg (!u.isLowerBound)
    .ok (BSet.insert u t)
  | true, none, none, true => .ok t
  | _, _, _, _ => .error .unreachable

/-- src/tine_tree.rs:414-426, `union_in_place`. -/
def unionInPlace (dbg : Bool) (t : TineTree α) (i : RawInterval α) : Except Panic (TineTree α) :=
  if i.isFull then .ok (fromRawInterval .full)
  else
    match Tine.fromRawInterval i with
    | [] => .ok t
    | [p] => unionPoint dbg t p
    | [l, u] => unionProper dbg t l u
    | _ => .error .unreachable

/-- src/tine_tree.rs:631-687, `minus_point_interval`. -/
def minusPoint (dbg : Bool) (t : TineTree α) (p : Tine α) : Except Panic (TineTree α) := do
  let ((t0, t1, t2), t) := exteriorSplitPoint t p
  let merged ← (match t1 with
    | some pt => pt.minus dbg p
    | none => .ok (some p) : Except Panic (Option (Tine α)))
  match merged with
  | none => .ok t
  | some p =>
    let openBefore := someAnd t0 Tine.isLowerBound
    let closedAfter := someAnd t2 Tine.isUpperBound
    match openBefore, closedAfter with
    | true, true => do .ok (BSet.insert (← p.invert) t)
    | true, false => do
      dassert dbg p.isUpperBound
      .ok (BSet.insert p t)
    | false, true => do
      dassert dbg p.isLowerBound
      .ok (BSet.insert p t)
    | false, false => .ok t

/-- `if x.is_upper_bound() {x} else {x.invert()}` -/
def orInvert (c : Bool) (x : Tine α) : Except Panic (Tine α) :=
  if c then .ok x else x.invert

/-- src/tine_tree.rs:693-803, `minus_proper_interval`. -/
def minusProper (dbg : Bool) (t : TineTree α) (l u : Tine α) : Except Panic (TineTree α) := do
  let ((t0, t1, t2, t3), t) := exteriorSplit t l u
  let mergedL ← (match t1 with
    | some lower => lower.minus dbg l
    | none => .ok (some l) : Except Panic (Option (Tine α)))
  let mergedU ← (match t2 with
    | some upper => upper.minus dbg u
    | none => .ok (some u) : Except Panic (Option (Tine α)))
  let openBefore := someAnd t0 Tine.isLowerBound
  let closedAfter := someAnd t3 Tine.isUpperBound
  match openBefore, mergedL, mergedU, closedAfter with
  | true, some l, some u, true => do
    let l ← orInvert l.isUpperBound l
    let t := BSet.insert l t
    let u ← orInvert u.isLowerBound u
    .ok (BSet.insert u t)
  | true, some l, upper, false => do
    let l ← orInvert l.isUpperBound l
    let t := BSet.insert l t
    match upper with
    | some (.point (.incl p)) => .ok (BSet.insert (.point (.incl p)) t)
    | _ => .ok t
  | false, lower, some u, true => do
    let u ← orInvert u.isLowerBound u
    let t := BSet.insert u t
    match lower with
    | some (.point (.incl p)) => .ok (BSet.insert (.point (.incl p)) t)
    | _ => .ok t
  | false, some l, some u, false =>
    .ok (insertIf u.isPointInclude u (insertIf l.isPointInclude l t))
  | false, some l, none, false => .ok (insertIf l.isPointInclude l t)
  | false, none, some u, false => .ok (insertIf u.isPointInclude u t)
  | false, none, none, false => .ok t
  | _, _, _, _ => .error .unreachable

/-- src/tine_tree.rs:612-627, `minus_in_place`. -/
def minusInPlace (dbg : Bool) (t : TineTree α) (i : RawInterval α) : Except Panic (TineTree α) :=
  if isEmpty t || i.isEmpty then .ok t
  else if i.isFull then .ok new
  else
    match Tine.fromRawInterval i with
    | [] => .ok t
    | [p] => minusPoint dbg t p
    | [l, u] => minusProper dbg t l u
    | _ => .error .unreachable

/-- src/tine_tree.rs:188-201, the `'segment` loop for one interval of `self`.  The result is the
advanced `other` iterator, or `none` when it is exhausted (the `return`). -/
def intersectSegment (dbg : Bool) (s : RawInterval α) :
    Nat → TineIter α → TineTree α → Except Panic (Option (TineIter α) × TineTree α)
  | 0, _, acc => .ok (none, acc)
  | n + 1, o, acc => do
    match ← o.next dbg with
    | (none, _) => .ok (none, acc)
    | (some oi, o) =>
      let i := s.intersect oi
      if i.isEmpty then .ok (some o, acc)
      else do intersectSegment dbg s n o (← unionInPlace dbg acc i)

/-- src/tine_tree.rs:187-203, the outer loop of `intersect`. -/
def intersectLoop (dbg : Bool) :
    Nat → TineIter α → TineIter α → TineTree α → Except Panic (TineTree α)
  | 0, _, _, acc => .ok acc
  | n + 1, s, o, acc => do
    match ← s.next dbg with
    | (none, _) => .ok acc
    | (some si, s) => do
      match ← intersectSegment dbg si o.size o acc with
      | (none, acc) => .ok acc
      | (some o, acc) => intersectLoop dbg n s o acc

/-- src/tine_tree.rs:182-204, `intersect`. -/
def intersect (dbg : Bool) (a b : TineTree α) : Except Panic (TineTree α) :=
  intersectLoop dbg (TineIter.start a).size (TineIter.start a) (TineIter.start b) new

/-- src/tine_tree.rs:209-215, `union`. -/
def union (dbg : Bool) (a b : TineTree α) : Except Panic (TineTree α) :=
  (TineIter.start b).fold dbg (unionInPlace dbg) a

/-- src/tine_tree.rs:220-226, `minus`. -/
def minus (dbg : Bool) (a b : TineTree α) : Except Panic (TineTree α) :=
  (TineIter.start b).fold dbg (minusInPlace dbg) a

/-- src/tine_tree.rs:232-266, `enclose`. -/
def enclose (dbg : Bool) (t : TineTree α) : Except Panic (RawInterval α) :=
  match t with
  | [] => .ok .empty
  | [tine] => do
    dassert dbg tine.isPointInclude
    match tine.asRef with
    | some p => .ok (.point p)
    | none => .error .expect
  | first :: second :: rest =>
    match (second :: rest).getLast? with
    | some last => .ok (RawInterval.new first.intoInner last.intoInner)
    | none => .error .expect

/-- src/tine_tree.rs:271-273, `closure`. -/
def closure (dbg : Bool) (t : TineTree α) : Except Panic (RawInterval α) := do
  .ok (← enclose dbg t).closure

/-- src/tine_tree.rs:961-987, `From<Iterator>` and `FromIterator`. -/
def fromIter (dbg : Bool) : List (RawInterval α) → Except Panic (TineTree α) :=
  fun is => is.foldlM (unionInPlace dbg) new

end TineTree
end NI
