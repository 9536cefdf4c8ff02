import Verif.SpecMap
import Verif.Spec
import Mathlib.Order.Hom.Basic

/-! # The functions of `Bound`, `RawInterval`, `Tine` and `TineTree` commute with order embeddings -/

set_option linter.unusedSimpArgs false
set_option linter.unusedVariables false
set_option linter.unusedSectionVars false

namespace NI
variable {α β : Type _}

namespace Bound
variable (f : α → β)

@[simp] theorem map_isInclusive (b : Bound α) : (b.map f).isInclusive = b.isInclusive := by cases b <;> rfl
@[simp] theorem map_isExclusive (b : Bound α) : (b.map f).isExclusive = b.isExclusive := by cases b <;> rfl
@[simp] theorem map_asRef (b : Bound α) : (b.map f).asRef = b.asRef.map f := by cases b <;> rfl

variable [LinearOrder α] [LinearOrder β] (g : α ↪o β)

theorem map_adjacent (a b : Bound α) : (a.map g).isUnionAdjacentTo (b.map g) = a.isUnionAdjacentTo b := by
  cases a <;> cases b <;> simp [map, isUnionAdjacentTo, Bool.beq_eq_decide_eq]

theorem map_ite (c : Prop) [Decidable c] (x y : Bound α) : (if c then x else y).map g = if c then x.map g else y.map g := by
  split_ifs <;> rfl

theorem map_leastUnion (a b : Bound α) : (a.map g).leastUnion (b.map g) = (a.leastUnion b).map g := by
  cases a <;> cases b <;> simp only [map, leastUnion, g.lt_iff_lt, g.le_iff_le] <;> split_ifs <;> rfl
theorem map_leastIntersect (a b : Bound α) : (a.map g).leastIntersect (b.map g) = (a.leastIntersect b).map g := by
  cases a <;> cases b <;> simp only [map, leastIntersect, g.lt_iff_lt, g.le_iff_le] <;> split_ifs <;> rfl
theorem map_greatestUnion (a b : Bound α) : (a.map g).greatestUnion (b.map g) = (a.greatestUnion b).map g := by
  cases a <;> cases b <;> simp only [map, greatestUnion, g.lt_iff_lt, g.le_iff_le] <;> split_ifs <;> rfl
theorem map_greatestIntersect (a b : Bound α) :
    (a.map g).greatestIntersect (b.map g) = (a.greatestIntersect b).map g := by
  cases a <;> cases b <;> simp only [map, greatestIntersect, g.lt_iff_lt, g.le_iff_le] <;> split_ifs <;> rfl

end Bound

namespace RawInterval
section
variable (f : α → β)

@[simp] theorem map_isEmpty (i : RawInterval α) : (i.map f).isEmpty = i.isEmpty := by cases i <;> rfl
@[simp] theorem map_isFull (i : RawInterval α) : (i.map f).isFull = i.isFull := by cases i <;> rfl
@[simp] theorem map_lowerBound (i : RawInterval α) : (i.map f).lowerBound = i.lowerBound.map (Bound.map · f) := by
  cases i <;> rfl
@[simp] theorem map_upperBound (i : RawInterval α) : (i.map f).upperBound = i.upperBound.map (Bound.map · f) := by
  cases i <;> rfl
theorem map_complement (i : RawInterval α) : (i.map f).complement = i.complement.map (map f) := by cases i <;> rfl
theorem map_closure (i : RawInterval α) : (i.map f).closure = i.closure.map f := by cases i <;> rfl
end

variable [LinearOrder α] [LinearOrder β] (g : α ↪o β)

theorem map_new (a b : Bound α) : new (a.map g) (b.map g) = (new a b).map g := by
  cases a <;> cases b <;>
    simp only [Bound.map, new, mkClosed, mkRightOpen, mkLeftOpen, mkOpen, g.lt_iff_lt, g.eq_iff_eq] <;>
    (try split_ifs) <;> rfl

theorem map_contains (i : RawInterval α) (x : α) : (i.map g).contains (g x) = i.contains x := by
  cases i <;> simp [map, contains]

theorem map_intersect (a b : RawInterval α) : (a.map g).intersect (b.map g) = (a.intersect b).map g := by
  unfold intersect
  rw [map_lowerBound, map_lowerBound, map_upperBound, map_upperBound]
  cases a.lowerBound <;> cases b.lowerBound <;> cases a.upperBound <;> cases b.upperBound <;>
    simp only [Option.map_none, Option.map_some] <;> try rfl
  rename_i la lb ua ub
  simp only [Bound.map_greatestIntersect, Bound.map_leastIntersect, Bound.map_asRef, Bound.map_isInclusive,
    Bound.map_isExclusive, map_new, (Option.map_injective g.injective).eq_iff]
  split_ifs <;> rfl

theorem map_intersects (a b : RawInterval α) : (a.map g).intersects (b.map g) = a.intersects b := by
  rw [intersects, map_intersect, map_isEmpty, intersects]

theorem map_isAdjacentTo (a b : RawInterval α) : (a.map g).isAdjacentTo (b.map g) = a.isAdjacentTo b := by
  unfold isAdjacentTo
  rw [map_lowerBound, map_lowerBound, map_upperBound, map_upperBound]
  cases a.lowerBound <;> cases b.lowerBound <;> cases a.upperBound <;> cases b.upperBound <;>
    simp only [Option.map_none, Option.map_some, Bound.map_adjacent]

theorem map_enclose (a b : RawInterval α) : (a.map g).enclose (b.map g) = (a.enclose b).map g := by
  unfold enclose
  rw [map_lowerBound, map_lowerBound, map_upperBound, map_upperBound]
  cases a.lowerBound <;> cases b.lowerBound <;> cases a.upperBound <;> cases b.upperBound <;>
    simp only [Option.map_none, Option.map_some, Bound.map_leastUnion, Bound.map_greatestUnion, map_new] <;> rfl

theorem map_union (a b : RawInterval α) : (a.map g).union (b.map g) = (a.union b).map (map g) := by
  unfold union
  rw [map_isEmpty, map_isEmpty, map_intersects, map_isAdjacentTo, map_enclose]
  cases a.isEmpty <;> cases b.isEmpty <;> simp only [] <;> try rfl
  split_ifs <;> rfl

theorem map_filter (is : List (RawInterval α)) : (is.map (map g)).filter (fun i => !i.isEmpty) =
    (is.filter fun i => !i.isEmpty).map (map g) := by
  rw [List.filter_map]
  congr 1
  exact List.filter_congr fun i _ => by simp

theorem map_minus (a b : RawInterval α) : (a.map g).minus (b.map g) = (a.minus b).map (map g) := by
  unfold minus
  rw [map_complement, List.map_map, ← map_filter, List.map_map]
  congr 2
  funext i
  exact map_intersect g a i

theorem map_foldl {op : RawInterval α → RawInterval α → RawInterval α}
    {op' : RawInterval β → RawInterval β → RawInterval β}
    (h : ∀ a b, op' (a.map g) (b.map g) = (op a b).map g) (is : List (RawInterval α)) : ∀ a,
    (is.map (map g)).foldl (fun acc i => op' acc i) (a.map g) = (is.foldl (fun acc i => op acc i) a).map g := by
  induction is with
  | nil => intro a; rfl
  | cons i is ih => intro a; simp only [List.map_cons, List.foldl_cons, h, ih]

theorem map_encloseAll (is : List (RawInterval α)) : encloseAll (is.map (map g)) = (encloseAll is).map g :=
  map_foldl g (map_enclose g) is full

theorem map_intersectAll (is : List (RawInterval α)) : intersectAll (is.map (map g)) = (intersectAll is).map g :=
  map_foldl g (map_intersect g) is full

theorem map_unionAllMerge (n : RawInterval α) (is : List (RawInterval α)) :
    unionAllMerge (n.map g) (is.map (map g)) = (unionAllMerge n is).map (map g) := by
  induction is with
  | nil => rfl
  | cons i is ih =>
    simp only [List.map_cons, unionAllMerge, map_intersects, map_isAdjacentTo, map_enclose, ih]
    split_ifs <;> rfl

theorem map_unionAllStep (is : List (RawInterval α)) (n : RawInterval α) :
    unionAllStep (is.map (map g)) (n.map g) = (unionAllStep is n).map (map g) := by
  unfold unionAllStep
  have : n.map g = full ↔ n = full := by cases n <;> simp [map]
  simp only [this, map_unionAllMerge]
  split_ifs <;> rfl

theorem map_unionAll (is : List (RawInterval α)) : unionAll (is.map (map g)) = (unionAll is).map (map g) := by
  unfold unionAll
  rw [map_filter]
  cases is.filter fun i => !i.isEmpty with
  | nil => rfl
  | cons s it =>
    simp only [List.map_cons]
    have : ∀ (it acc : List (RawInterval α)), (it.map (map g)).foldl unionAllStep (acc.map (map g)) =
        (it.foldl unionAllStep acc).map (map g) := by
      intro it
      induction it with
      | nil => intro acc; rfl
      | cons i it ih => intro acc; simp only [List.map_cons, List.foldl_cons, map_unionAllStep, ih]
    exact this it [s]

end RawInterval

namespace Tine
section
variable (f : α → β)

theorem map_fromRaw (i : RawInterval α) : fromRawInterval (i.map f) = (fromRawInterval i).map (map f) := by
  cases i <;> rfl
@[simp] theorem map_isLowerBound (t : Tine α) : (t.map f).isLowerBound = t.isLowerBound := by
  rcases t with b | b | b <;> cases b <;> rfl
@[simp] theorem map_isUpperBound (t : Tine α) : (t.map f).isUpperBound = t.isUpperBound := by
  rcases t with b | b | b <;> cases b <;> rfl
@[simp] theorem map_isPointInclude (t : Tine α) : (t.map f).isPointInclude = t.isPointInclude := by
  rcases t with b | b | b <;> cases b <;> rfl
@[simp] theorem map_isPointExclude (t : Tine α) : (t.map f).isPointExclude = t.isPointExclude := by
  rcases t with b | b | b <;> cases b <;> rfl
@[simp] theorem map_intoInner (t : Tine α) : (t.map f).intoInner = t.intoInner.map f := by cases t <;> rfl
@[simp] theorem map_asRef (t : Tine α) : (t.map f).asRef = t.asRef.map f := by
  rw [asRef, map_intoInner, Bound.map_asRef]; rfl
theorem map_invert [LinearOrder α] [LinearOrder β] (t : Tine α) : (t.map f).invert = t.invert.map (map f) := by
  rcases t with b | b | b <;> cases b <;> rfl
end

variable [LinearOrder α] [LinearOrder β] (g : α ↪o β)

theorem map_beq (s o : Tine α) : ((s.map g).asRef == (o.map g).asRef) = (s.asRef == o.asRef) := by
  rw [map_asRef, map_asRef, Bool.eq_iff_iff, beq_iff_eq, beq_iff_eq, (Option.map_injective g.injective).eq_iff]

theorem map_union (dbg : Bool) (s o : Tine α) :
    union dbg (s.map g) (o.map g) = (union dbg s o).map (Option.map (map g)) := by
  unfold union
  rw [map_beq]
  cases dassert dbg (s.asRef == o.asRef) with
  | error e => rfl
  | ok _ =>
    rcases s with s | s | s <;> rcases o with o | o | o <;> cases s <;> cases o <;> rfl

theorem map_intersect (dbg : Bool) (s o : Tine α) :
    intersect dbg (s.map g) (o.map g) = (intersect dbg s o).map (Option.map (map g)) := by
  unfold intersect
  rw [map_beq]
  cases dassert dbg (s.asRef == o.asRef) with
  | error e => rfl
  | ok _ =>
    rcases s with s | s | s <;> rcases o with o | o | o <;> cases s <;> cases o <;> rfl

theorem map_minus (dbg : Bool) (s o : Tine α) :
    minus dbg (s.map g) (o.map g) = (minus dbg s o).map (Option.map (map g)) := by
  unfold minus
  rw [map_beq]
  cases dassert dbg (s.asRef == o.asRef) with
  | error e => rfl
  | ok _ =>
    rcases s with s | s | s <;> rcases o with o | o | o <;> cases s <;> cases o <;> rfl

theorem map_cmp? (s o : Tine α) : cmp? (s.map g) (o.map g) = cmp? s o := by
  rcases s with s | s | s <;> rcases o with o | o | o <;> cases s <;> cases o <;>
    simp [cmp?, map, asRef, intoInner, Bound.map, Bound.asRef]

@[simp] theorem map_cmp (s o : Tine α) : cmp (s.map g) (o.map g) = cmp s o := by rw [cmp, map_cmp?, cmp]

end Tine

namespace BSet
variable [LinearOrder α] [LinearOrder β] (g : α ↪o β)

theorem map_insert (x : Tine α) (t : List (Tine α)) :
    insert (x.map g) (t.map (Tine.map g)) = (insert x t).map (Tine.map g) := by
  induction t with
  | nil => rfl
  | cons y ys ih =>
    simp only [List.map_cons, insert, Tine.map_cmp]
    cases x.cmp y <;> simp [ih]

theorem map_taken (x : Tine α) (t : List (Tine α)) :
    taken (x.map g) (t.map (Tine.map g)) = (taken x t).map (Tine.map g) := by
  unfold taken
  rw [List.find?_map]
  congr 2
  funext y
  simp

theorem map_remove (x : Tine α) (t : List (Tine α)) :
    remove (x.map g) (t.map (Tine.map g)) = (remove x t).map (Tine.map g) := by
  unfold remove
  rw [List.filter_map]
  congr 2
  funext y
  simp

theorem map_below (x : Tine α) (t : List (Tine α)) :
    below (x.map g) (t.map (Tine.map g)) = (below x t).map (Tine.map g) := by
  unfold below
  rw [List.filter_map]
  congr 2
  funext y
  simp

theorem map_above (x : Tine α) (t : List (Tine α)) :
    above (x.map g) (t.map (Tine.map g)) = (above x t).map (Tine.map g) := by
  unfold above
  rw [List.filter_map]
  congr 2
  funext y
  simp

theorem map_ofTines (ts : List (Tine α)) : ofTines (ts.map (Tine.map g)) = (ofTines ts).map (Tine.map g) := by
  rcases ts with _ | ⟨a, _ | ⟨b, _ | ⟨c, ts⟩⟩⟩ <;> try rfl
  simp only [List.map_cons, List.map_nil, ofTines, Tine.map_cmp]
  split_ifs <;> rfl

end BSet
end NI
