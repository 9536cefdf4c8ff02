import Verif.SpecMirror
import Verif.Lemmas.NaturalTree

/-! # The functions of `Bound`, `RawInterval` and `Tine` under a decreasing function -/

set_option linter.unusedSimpArgs false
set_option linter.unusedVariables false
set_option linter.unusedSectionVars false

namespace NI
variable {α β : Type} [LinearOrder α] [LinearOrder β] {g : α → β} (hg : StrictAnti g)

theorem anti_eq {a b : α} (hg : StrictAnti g) : g a = g b ↔ b = a := hg.injective.eq_iff.trans eq_comm

namespace Bound
include hg
theorem mir_leastUnion (a b : Bound α) : (a.map g).greatestUnion (b.map g) = (a.leastUnion b).map g := by
  cases a <;> cases b <;> simp only [map, leastUnion, greatestUnion, hg.lt_iff_gt, hg.le_iff_ge] <;> split_ifs <;> rfl
theorem mir_leastIntersect (a b : Bound α) : (a.map g).greatestIntersect (b.map g) = (a.leastIntersect b).map g := by
  cases a <;> cases b <;> simp only [map, leastIntersect, greatestIntersect, hg.lt_iff_gt, hg.le_iff_ge] <;>
    split_ifs <;> rfl
theorem mir_greatestUnion (a b : Bound α) : (a.map g).leastUnion (b.map g) = (a.greatestUnion b).map g := by
  cases a <;> cases b <;> simp only [map, leastUnion, greatestUnion, hg.lt_iff_gt, hg.le_iff_ge] <;> split_ifs <;> rfl
theorem mir_greatestIntersect (a b : Bound α) : (a.map g).leastIntersect (b.map g) = (a.greatestIntersect b).map g := by
  cases a <;> cases b <;> simp only [map, leastIntersect, greatestIntersect, hg.lt_iff_gt, hg.le_iff_ge] <;>
    split_ifs <;> rfl
theorem mir_adjacent (a b : Bound α) : (a.map g).isUnionAdjacentTo (b.map g) = b.isUnionAdjacentTo a := by
  cases a <;> cases b <;> simp [map, isUnionAdjacentTo, anti_eq hg, Bool.beq_eq_decide_eq]
theorem mir_adjacent' (a b : Bound α) : (a.map g).isUnionAdjacentTo (b.map g) = a.isUnionAdjacentTo b := by
  cases a <;> cases b <;> simp [map, isUnionAdjacentTo, hg.injective.eq_iff, Bool.beq_eq_decide_eq]
end Bound

namespace RawInterval

@[simp] theorem mir_isEmpty (i : RawInterval α) : (i.mirror g).isEmpty = i.isEmpty := by cases i <;> rfl
@[simp] theorem mir_isFull (i : RawInterval α) : (i.mirror g).isFull = i.isFull := by cases i <;> rfl
@[simp] theorem mir_lowerBound (i : RawInterval α) : (i.mirror g).lowerBound = i.upperBound.map (Bound.map · g) := by
  cases i <;> rfl
@[simp] theorem mir_upperBound (i : RawInterval α) : (i.mirror g).upperBound = i.lowerBound.map (Bound.map · g) := by
  cases i <;> rfl
theorem mir_complement (i : RawInterval α) : (i.mirror g).complement = (i.complement.map (mirror g)).reverse := by
  cases i <;> rfl
theorem mir_closure (i : RawInterval α) : (i.mirror g).closure = i.closure.mirror g := by cases i <;> rfl

include hg

theorem mir_new (a b : Bound α) : new (b.map g) (a.map g) = (new a b).mirror g := by
  cases a <;> cases b <;>
    simp only [Bound.map, new, mkClosed, mkRightOpen, mkLeftOpen, mkOpen, hg.lt_iff_gt, anti_eq hg] <;>
    (try split_ifs) <;> simp_all [mirror]

theorem mir_contains (i : RawInterval α) (x : α) : (i.mirror g).contains (g x) = i.contains x := by
  cases i <;> simp [mirror, contains, hg.lt_iff_gt, hg.le_iff_ge, hg.injective.eq_iff, Bool.and_comm]

theorem mir_intersect (a b : RawInterval α) : (a.mirror g).intersect (b.mirror g) = (a.intersect b).mirror g := by
  unfold intersect
  rw [mir_lowerBound, mir_lowerBound, mir_upperBound, mir_upperBound]
  cases a.lowerBound <;> cases b.lowerBound <;> cases a.upperBound <;> cases b.upperBound <;>
    simp only [Option.map_none, Option.map_some] <;> try rfl
  rename_i la lb ua ub
  simp only [Bound.mir_greatestIntersect hg, Bound.mir_leastIntersect hg, Bound.map_asRef, Bound.map_isInclusive,
    Bound.map_isExclusive, mir_new hg, (Option.map_injective hg.injective).eq_iff]
  have e : (((ua.leastIntersect ub).asRef = (la.greatestIntersect lb).asRef ∧
      ((ua.leastIntersect ub).isInclusive && (la.greatestIntersect lb).isExclusive ||
        (ua.leastIntersect ub).isExclusive && (la.greatestIntersect lb).isInclusive) = true)) ↔
      ((la.greatestIntersect lb).asRef = (ua.leastIntersect ub).asRef ∧
      ((la.greatestIntersect lb).isInclusive && (ua.leastIntersect ub).isExclusive ||
        (la.greatestIntersect lb).isExclusive && (ua.leastIntersect ub).isInclusive) = true) := by
    rw [eq_comm, Bool.or_comm, Bool.and_comm, Bool.and_comm (ua.leastIntersect ub).isInclusive]
  simp only [e]
  split_ifs <;> rfl

theorem mir_intersects (a b : RawInterval α) : (a.mirror g).intersects (b.mirror g) = a.intersects b := by
  rw [intersects, mir_intersect hg, mir_isEmpty, intersects]

theorem mir_isAdjacentTo (a b : RawInterval α) : (a.mirror g).isAdjacentTo (b.mirror g) = a.isAdjacentTo b := by
  unfold isAdjacentTo
  rw [mir_lowerBound, mir_lowerBound, mir_upperBound, mir_upperBound]
  cases a.lowerBound <;> cases b.lowerBound <;> cases a.upperBound <;> cases b.upperBound <;>
    simp only [Option.map_none, Option.map_some, Bool.or_false, Bool.false_or]
  all_goals first
    | rfl
    | rw [Bool.or_comm, Bound.mir_adjacent hg, Bound.mir_adjacent hg]
    | exact Bound.mir_adjacent hg _ _

theorem mir_enclose (a b : RawInterval α) : (a.mirror g).enclose (b.mirror g) = (a.enclose b).mirror g := by
  unfold enclose
  rw [mir_lowerBound, mir_lowerBound, mir_upperBound, mir_upperBound]
  cases a.lowerBound <;> cases b.lowerBound <;> cases a.upperBound <;> cases b.upperBound <;>
    simp only [Option.map_none, Option.map_some, Bound.mir_leastUnion hg, Bound.mir_greatestUnion hg, mir_new hg] <;> rfl

theorem mir_union (a b : RawInterval α) : (a.mirror g).union (b.mirror g) = (a.union b).map (mirror g) := by
  unfold union
  rw [mir_isEmpty, mir_isEmpty, mir_intersects hg, mir_isAdjacentTo hg, mir_enclose hg]
  cases a.isEmpty <;> cases b.isEmpty <;> simp only [] <;> try rfl
  split_ifs <;> rfl

omit hg in
theorem mir_filter (is : List (RawInterval α)) : (is.map (mirror g)).filter (fun i => !i.isEmpty) =
    (is.filter fun i => !i.isEmpty).map (mirror g) := by
  rw [List.filter_map]
  congr 1
  exact List.filter_congr fun i _ => by simp

theorem mir_minus (a b : RawInterval α) : (a.mirror g).minus (b.mirror g) = ((a.minus b).map (mirror g)).reverse := by
  unfold minus
  rw [mir_complement, ← mir_filter, List.map_map, List.map_reverse, List.filter_reverse, List.map_map]
  congr 3
  funext i
  exact mir_intersect hg a i

omit hg [LinearOrder α] [LinearOrder β] in
theorem mir_foldl {op : RawInterval α → RawInterval α → RawInterval α}
    {op' : RawInterval β → RawInterval β → RawInterval β}
    (h : ∀ a b, op' (a.mirror g) (b.mirror g) = (op a b).mirror g) (is : List (RawInterval α)) : ∀ a,
    (is.map (mirror g)).foldl (fun acc i => op' acc i) (a.mirror g) = (is.foldl (fun acc i => op acc i) a).mirror g := by
  induction is with
  | nil => intro a; rfl
  | cons i is ih => intro a; simp only [List.map_cons, List.foldl_cons, h, ih]

theorem mir_encloseAll (is : List (RawInterval α)) : encloseAll (is.map (mirror g)) = (encloseAll is).mirror g :=
  mir_foldl (mir_enclose hg) is full

theorem mir_intersectAll (is : List (RawInterval α)) : intersectAll (is.map (mirror g)) = (intersectAll is).mirror g :=
  mir_foldl (mir_intersect hg) is full

theorem mir_unionAllMerge (n : RawInterval α) (is : List (RawInterval α)) :
    unionAllMerge (n.mirror g) (is.map (mirror g)) = (unionAllMerge n is).map (mirror g) := by
  induction is with
  | nil => rfl
  | cons i is ih =>
    simp only [List.map_cons, unionAllMerge, mir_intersects hg, mir_isAdjacentTo hg, mir_enclose hg, ih]
    split_ifs <;> rfl

theorem mir_unionAllStep (is : List (RawInterval α)) (n : RawInterval α) :
    unionAllStep (is.map (mirror g)) (n.mirror g) = (unionAllStep is n).map (mirror g) := by
  unfold unionAllStep
  have : n.mirror g = full ↔ n = full := by cases n <;> simp [mirror]
  simp only [this, mir_unionAllMerge hg]
  split_ifs <;> rfl

theorem mir_unionAll (is : List (RawInterval α)) : unionAll (is.map (mirror g)) = (unionAll is).map (mirror g) := by
  unfold unionAll
  rw [mir_filter]
  cases is.filter fun i => !i.isEmpty with
  | nil => rfl
  | cons s it =>
    simp only [List.map_cons]
    have : ∀ (it acc : List (RawInterval α)), (it.map (mirror g)).foldl unionAllStep (acc.map (mirror g)) =
        (it.foldl unionAllStep acc).map (mirror g) := by
      intro it
      induction it with
      | nil => intro acc; rfl
      | cons i it ih => intro acc; simp only [List.map_cons, List.foldl_cons, mir_unionAllStep hg, ih]
    exact this it [s]

end RawInterval

namespace Tine

theorem mir_fromRaw (i : RawInterval α) : fromRawInterval (i.mirror g) = ((fromRawInterval i).map (mirror g)).reverse := by
  cases i <;> rfl
@[simp] theorem mir_isLowerBound (t : Tine α) : (t.mirror g).isLowerBound = t.isUpperBound := by
  rcases t with b | b | b <;> cases b <;> rfl
@[simp] theorem mir_isUpperBound (t : Tine α) : (t.mirror g).isUpperBound = t.isLowerBound := by
  rcases t with b | b | b <;> cases b <;> rfl
@[simp] theorem mir_isPointInclude (t : Tine α) : (t.mirror g).isPointInclude = t.isPointInclude := by
  rcases t with b | b | b <;> cases b <;> rfl
@[simp] theorem mir_isPointExclude (t : Tine α) : (t.mirror g).isPointExclude = t.isPointExclude := by
  rcases t with b | b | b <;> cases b <;> rfl
@[simp] theorem mir_intoInner (t : Tine α) : (t.mirror g).intoInner = t.intoInner.map g := by cases t <;> rfl
@[simp] theorem mir_asRef (t : Tine α) : (t.mirror g).asRef = t.asRef.map g := by
  rw [asRef, mir_intoInner, Bound.map_asRef]; rfl
theorem mir_invert (t : Tine α) : (t.mirror g).invert = t.invert.map (mirror g) := by
  rcases t with b | b | b <;> cases b <;> rfl

include hg
theorem mir_beq (s o : Tine α) : ((s.mirror g).asRef == (o.mirror g).asRef) = (s.asRef == o.asRef) := by
  rw [mir_asRef, mir_asRef, Bool.eq_iff_iff, beq_iff_eq, beq_iff_eq, (Option.map_injective hg.injective).eq_iff]

theorem mir_union (dbg : Bool) (s o : Tine α) :
    union dbg (s.mirror g) (o.mirror g) = (union dbg s o).map (Option.map (mirror g)) := by
  unfold union
  rw [mir_beq hg]
  cases dassert dbg (s.asRef == o.asRef) with
  | error e => rfl
  | ok _ =>
    rcases s with s | s | s <;> rcases o with o | o | o <;> cases s <;> cases o <;> rfl

theorem mir_intersect (dbg : Bool) (s o : Tine α) :
    intersect dbg (s.mirror g) (o.mirror g) = (intersect dbg s o).map (Option.map (mirror g)) := by
  unfold intersect
  rw [mir_beq hg]
  cases dassert dbg (s.asRef == o.asRef) with
  | error e => rfl
  | ok _ =>
    rcases s with s | s | s <;> rcases o with o | o | o <;> cases s <;> cases o <;> rfl

theorem mir_minus (dbg : Bool) (s o : Tine α) :
    minus dbg (s.mirror g) (o.mirror g) = (minus dbg s o).map (Option.map (mirror g)) := by
  unfold minus
  rw [mir_beq hg]
  cases dassert dbg (s.asRef == o.asRef) with
  | error e => rfl
  | ok _ =>
    rcases s with s | s | s <;> rcases o with o | o | o <;> cases s <;> cases o <;> rfl

theorem mir_cmp? (s o : Tine α) : cmp? (s.mirror g) (o.mirror g) = cmp? o s := by
  rcases s with s | s | s <;> rcases o with o | o | o <;> cases s <;> cases o <;>
    simp [cmp?, mirror, asRef, intoInner, Bound.map, Bound.asRef, hg.lt_iff_gt, anti_eq hg]

theorem mir_cmp (s o : Tine α) : cmp (s.mirror g) (o.mirror g) = cmp o s := by rw [cmp, mir_cmp? hg, cmp]

end Tine
end NI
