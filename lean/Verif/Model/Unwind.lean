import Verif.Model.Selection

/-!
# What a panic leaves behind

The methods of `TineTree` that take `&mut self` change the tree before the last place where they can panic. Here
their model keeps the tree as it is at that moment; it is what a caller who catches the panic finds. Everything
else is as in `Model/TineTree`.
-/

namespace NI

/-- How a method with `&mut self` ends: with a new tree, or with a panic and the tree it leaves. -/
abbrev Unwind (α : Type _) := Except (Panic × TineTree α)

/-- A step that panics, if at all, while the tree is `t`. -/
def leaving {α β : Type _} (t : TineTree α) : Except Panic β → Unwind α β
  | .ok b => .ok b
  | .error p => .error (p, t)

/-- The same computation without the tree that a panic leaves. -/
def Unwind.forget {α β : Type _} : Unwind α β → Except Panic β
  | .ok b => .ok b
  | .error (p, _) => .error p

namespace TineTree
variable {α : Type _} [LinearOrder α]

/-- src/tine_tree.rs:805-858, `interior_split_for_proper_interval`: `self.0` is the whole tree at the first
assertion and the left part at the second; the center is assigned only at the end. -/
def interiorSplitU (dbg : Bool) (t : TineTree α) (lower upper : Tine α) :
    Unwind α ((Option (Tine α) × Option (Tine α) × Option (Tine α) × Option (Tine α) ×
      Option (Tine α) × Option (Tine α)) × TineTree α) := do
  leaving t (dassert dbg (lower.cmp upper == .lt))
  let r2 := BSet.taken lower t
  let t := BSet.remove lower t
  let r3 := BSet.taken upper t
  let t := BSet.remove upper t
  let left := BSet.below lower t
  let center := BSet.above lower t
  let right := BSet.above upper center
  let center := BSet.below upper center
  let r0 := left.getLast?
  let r1 := center.head?
  let r4 := center.getLast?
  let r5 := right.head?
  leaving left (dassert dbg (r1.isSome == r4.isSome))
  .ok ((r0, r1, r2, r3, r4, r5), center)

/-- src/tine_tree.rs:323-411, `intersect_proper_interval`. -/
def intersectProperU (dbg : Bool) (t : TineTree α) (l u : Tine α) : Unwind α (TineTree α) := do
  let ((t0, t1, t2, t3, t4, t5), c) ← interiorSplitU dbg t l u
  let mergedL ← leaving c (match t2 with
    | some lower => lower.intersect dbg l
    | none => .ok (some l) : Except Panic (Option (Tine α)))
  let mergedU ← leaving c (match t3 with
    | some upper => upper.intersect dbg u
    | none => .ok (some u) : Except Panic (Option (Tine α)))
  leaving c (dassert dbg (noneOr mergedL Tine.isLowerBound))
  leaving c (dassert dbg (noneOr mergedU Tine.isUpperBound))
  let openBefore := someAnd t0 Tine.isLowerBound
  let closedAfter := someAnd t5 Tine.isUpperBound
  let inL := someAnd t1 Tine.isUpperBound
  let inR := someAnd t4 Tine.isLowerBound
  match openBefore, mergedL, inL, inR, mergedU, closedAfter with
  | _, some l, true, true, some u, _ => .ok (BSet.insert u (BSet.insert l c))
  | _, some l, false, false, some u, _ => .ok (BSet.insert u (BSet.insert l c))
  | true, some l, true, false, _, false => .ok (BSet.insert l c)
  | false, _, false, true, some u, true => .ok (BSet.insert u c)
  | false, _, false, false, _, false => .ok c
  | _, _, _, _, _, _ => leaving c (.error .unreachable)

/-- src/tine_tree.rs:280-319, `intersect_in_place`. -/
def intersectInPlaceU (dbg : Bool) (t : TineTree α) (i : RawInterval α) : Unwind α (TineTree α) :=
  if isEmpty t || i.isFull then .ok t
  else if i.isEmpty then .ok new
  else
    match i with
    | .point p => do
      if ← leaving t (contains dbg t p) then .ok (fromRawInterval i) else .ok new
    | i =>
      match Tine.fromRawInterval i with
      | [] => .ok new
      | [.point (.incl p)] => do
        if ← leaving t (contains dbg t p) then .ok (fromRawInterval (.point p)) else .ok new
      | [l, u] => intersectProperU dbg t l u
      | _ => leaving t (.error .unreachable)

/-- src/tine_tree.rs:431-485, `union_point_interval`. -/
def unionPointU (dbg : Bool) (t : TineTree α) (p : Tine α) : Unwind α (TineTree α) := do
  let ((t0, t1, t2), t) := exteriorSplitPoint t p
  let merged ← leaving t (match t1 with
    | some pt => pt.union dbg p
    | none => .ok (some p) : Except Panic (Option (Tine α)))
  match merged with
  | none => .ok t
  | some p =>
    let openBefore := someAnd t0 Tine.isLowerBound
    let closedAfter := someAnd t2 Tine.isUpperBound
    match openBefore, closedAfter with
    | true, true => .ok t
    | true, false => do
      leaving t (dassert dbg (!p.isLowerBound))
      .ok (BSet.insert p t)
    | false, true => do
      leaving t (dassert dbg (!p.isUpperBound))
      .ok (BSet.insert p t)
    | false, false => .ok (BSet.insert p t)

/-- src/tine_tree.rs:489-609, `union_proper_interval`. -/
def unionProperU (dbg : Bool) (t : TineTree α) (l u : Tine α) : Unwind α (TineTree α) := do
  let ((t0, t1, t2, t3), t) := exteriorSplit t l u
  let mergedL ← leaving t (match t1 with
    | some lower => lower.union dbg l
    | none => .ok (some l) : Except Panic (Option (Tine α)))
  let mergedU ← leaving t (match t2 with
    | some upper => upper.union dbg u
    | none => .ok (some u) : Except Panic (Option (Tine α)))
  leaving t (dassert dbg (noneOr mergedL Tine.isLowerBound))
  leaving t (dassert dbg (noneOr mergedU Tine.isUpperBound))
  let openBefore := someAnd t0 Tine.isLowerBound
  let closedAfter := someAnd t3 Tine.isUpperBound
  match openBefore, mergedL, mergedU, closedAfter with
  | true, some l, some u, true =>
    .ok (insertIf u.isLowerBound u (insertIf l.isUpperBound l t))
  | true, some l, some u, false => do
    let t := insertIf l.isUpperBound l t
    leaving t (dassert dbg (!u.isLowerBound))
    .ok (BSet.insert u t)
  | false, some l, some u, true => do
    leaving t (dassert dbg (!l.isUpperBound))
    let t := BSet.insert l t
    .ok (insertIf u.isLowerBound u t)
  | false, some l, some u, false => do
    leaving t (dassert dbg (!l.isUpperBound))
    let t := BSet.insert l t
    leaving t (dassert dbg (!u.isLowerBound))
    .ok (BSet.insert u t)
  | true, some l, none, true => .ok (insertIf l.isPointExclude l t)
  | false, some l, none, true => do
    leaving t (dassert dbg (!l.isUpperBound))
    .ok (BSet.insert l t)
  | true, none, some u, true => .ok (insertIf u.isPointExclude u t)
  | true, none, some u, false => do
    leaving t (dassert dbg (!u.isLowerBound))
    .ok (BSet.insert u t)
  | true, none, none, true => .ok t
  | _, _, _, _ => leaving t (.error .unreachable)

/-- src/tine_tree.rs:414-426, `union_in_place`. -/
def unionInPlaceU (dbg : Bool) (t : TineTree α) (i : RawInterval α) : Unwind α (TineTree α) :=
  if i.isFull then .ok (fromRawInterval .full)
  else
    match Tine.fromRawInterval i with
    | [] => .ok t
    | [p] => unionPointU dbg t p
    | [l, u] => unionProperU dbg t l u
    | _ => leaving t (.error .unreachable)

/-- src/tine_tree.rs:631-687, `minus_point_interval`. -/
def minusPointU (dbg : Bool) (t : TineTree α) (p : Tine α) : Unwind α (TineTree α) := do
  let ((t0, t1, t2), t) := exteriorSplitPoint t p
  let merged ← leaving t (match t1 with
    | some pt => pt.minus dbg p
    | none => .ok (some p) : Except Panic (Option (Tine α)))
  match merged with
  | none => .ok t
  | some p =>
    let openBefore := someAnd t0 Tine.isLowerBound
    let closedAfter := someAnd t2 Tine.isUpperBound
    match openBefore, closedAfter with
    | true, true => do .ok (BSet.insert (← leaving t p.invert) t)
    | true, false => do
      leaving t (dassert dbg p.isUpperBound)
      .ok (BSet.insert p t)
    | false, true => do
      leaving t (dassert dbg p.isLowerBound)
      .ok (BSet.insert p t)
    | false, false => .ok t

/-- src/tine_tree.rs:693-803, `minus_proper_interval`. -/
def minusProperU (dbg : Bool) (t : TineTree α) (l u : Tine α) : Unwind α (TineTree α) := do
  let ((t0, t1, t2, t3), t) := exteriorSplit t l u
  let mergedL ← leaving t (match t1 with
    | some lower => lower.minus dbg l
    | none => .ok (some l) : Except Panic (Option (Tine α)))
  let mergedU ← leaving t (match t2 with
    | some upper => upper.minus dbg u
    | none => .ok (some u) : Except Panic (Option (Tine α)))
  let openBefore := someAnd t0 Tine.isLowerBound
  let closedAfter := someAnd t3 Tine.isUpperBound
  match openBefore, mergedL, mergedU, closedAfter with
  | true, some l, some u, true => do
    let l ← leaving t (orInvert l.isUpperBound l)
    let t := BSet.insert l t
    let u ← leaving t (orInvert u.isLowerBound u)
    .ok (BSet.insert u t)
  | true, some l, upper, false => do
    let l ← leaving t (orInvert l.isUpperBound l)
    let t := BSet.insert l t
    match upper with
    | some (.point (.incl p)) => .ok (BSet.insert (.point (.incl p)) t)
    | _ => .ok t
  | false, lower, some u, true => do
    let u ← leaving t (orInvert u.isLowerBound u)
    let t := BSet.insert u t
    match lower with
    | some (.point (.incl p)) => .ok (BSet.insert (.point (.incl p)) t)
    | _ => .ok t
  | false, some l, some u, false =>
    .ok (insertIf u.isPointInclude u (insertIf l.isPointInclude l t))
  | false, some l, none, false => .ok (insertIf l.isPointInclude l t)
  | false, none, some u, false => .ok (insertIf u.isPointInclude u t)
  | false, none, none, false => .ok t
  | _, _, _, _ => leaving t (.error .unreachable)

/-- src/tine_tree.rs:612-627, `minus_in_place`. -/
def minusInPlaceU (dbg : Bool) (t : TineTree α) (i : RawInterval α) : Unwind α (TineTree α) :=
  if isEmpty t || i.isEmpty then .ok t
  else if i.isFull then .ok new
  else
    match Tine.fromRawInterval i with
    | [] => .ok t
    | [p] => minusPointU dbg t p
    | [l, u] => minusProperU dbg t l u
    | _ => leaving t (.error .unreachable)

end TineTree

namespace Selection
variable {α : Type _} [LinearOrder α] [Finite α]

/-- src/selection.rs:761-763: the tree inside the selection is changed in place. -/
def intersectInPlaceU (dbg : Bool) (s : Selection α) (i : Interval α) : Unwind α (TineTree α) :=
  s.tree.intersectInPlaceU dbg i.raw.denormalized

/-- src/selection.rs:804-806. -/
def unionInPlaceU (dbg : Bool) (s : Selection α) (i : Interval α) : Unwind α (TineTree α) :=
  s.tree.unionInPlaceU dbg i.raw.denormalized

/-- src/selection.rs:847-849. -/
def minusInPlaceU (dbg : Bool) (s : Selection α) (i : Interval α) : Unwind α (TineTree α) :=
  s.tree.minusInPlaceU dbg i.raw.denormalized

/-- src/selection.rs:914-919, `extend`. -/
def extendU (dbg : Bool) (s : Selection α) (is : List (Interval α)) : Unwind α (TineTree α) :=
  is.foldlM (fun t i => TineTree.unionInPlaceU dbg t i.raw.denormalized) s.tree

/-- src/selection.rs:914-919, `extend` from an iterator of the caller, given by what its calls of `next` return one after
the other up to its end; `.error` is a panic in the iterator. The loop takes one item at a time and adds it before it asks
for the next one. -/
def extendFromU (dbg : Bool) (s : Selection α) (is : List (Except Panic (Interval α))) : Unwind α (TineTree α) :=
  is.foldlM (fun t i => do
    let i ← leaving t i
    TineTree.unionInPlaceU dbg t i.raw.denormalized) s.tree

end Selection
end NI
