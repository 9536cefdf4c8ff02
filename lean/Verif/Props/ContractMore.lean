import Verif.Props.Cut
import Verif.Props.Minus
import Verif.Props.UnionAll
import Verif.Props.Bounds
import Verif.Props.Walk

/-!
# Contracts, continued (C86–C91)

As in `Props/Contract.lean`: each theorem says exactly which uses of an operation are right whose plain
property (C11, C42, C50–C53, C66) is false.
-/

set_option linter.unusedSimpArgs false
set_option linter.unusedVariables false
set_option linter.unusedSectionVars false

namespace NI
open Finite TT

section Sel
variable {α : Type} [LinearOrder α] [Finite α] [LawfulFinite α]

/-! ## C86: `Selection::intersect_in_place` -/

/-- `intersect_in_place` with `[l,u]` keeps exactly the points in `[l,u]` of a union-built selection and
leaves it usable if and only if the selection is empty, the interval is everything, or the selection lies
well to the ends of the interval. -/
theorem C86_intersect_in_place_iff (dbg : Bool) (s : Selection α) (hs : s.UnionBuilt) (l u : α) (hlu : l ≤ u) :
    (∃ s', s.intersectInPlace dbg (Interval.mkClosed l u) = .ok s' ∧ s'.tree.Reachable ∧
      s'.pts dbg = s.pts dbg ∩ Set.Icc l u) ↔
    s.pts dbg = ∅ ∨ (l = minimum ∧ u = maximum) ∨ s.CutWell dbg l u :=
  C51_exact_iff dbg s hs l u hlu

example : (Selection.demo [(u8 2, u8 12)]).UnionBuilt ∧ u8 4 ≤ u8 20 :=
  ⟨Selection.demo_built _ (by decide), by decide⟩

/-! ## C87: `Selection::intersect` -/

/-- `intersect` of two union-built selections computes the common points if and only if all their intervals
that share a point come together in the walk through the right selection. -/
theorem C87_intersect_iff (dbg : Bool) (a b : Selection α) (ha : a.UnionBuilt) (hb : b.UnionBuilt)
    (as bs : List (Interval α)) (has : a.intervals dbg = .ok as) (hbs : b.intervals dbg = .ok bs)
    (near : Interval α → Interval α → Bool) (hn : ∀ i j, near i j = true ↔ i.Near j) :
    (∃ s, a.intersect dbg b = .ok s ∧ s.pts dbg = a.pts dbg ∩ b.pts dbg) ↔
      ∀ i ∈ as, ∀ j ∈ bs, i.Overlap j → Together near as bs i j :=
  C52_exact_iff dbg a b ha hb as bs has hbs near hn

open Classical in
example : (Selection.demo [(u8 2, u8 5)]).UnionBuilt ∧
    (Selection.demo [(u8 2, u8 5)]).intervals true = .ok [Interval.mkClosed (u8 2) (u8 5)] ∧
    ∀ i j : Interval U8, decide (i.Near j) = true ↔ i.Near j :=
  ⟨Selection.demo_built _ (by decide), by decide, by simp⟩

/-! ## C88: `Selection::minus_in_place` and `Selection::minus` -/

/-- Removing an interval from a union-built selection is right if and only if no single missing value is a
neighbour of the interval; removing a selection, if and only if no single missing value that is missing in
the other selection too has a neighbour there. -/
theorem C88_minus_iff (dbg : Bool) (a b : Selection α) (ha : a.UnionBuilt) (hb : b.UnionBuilt)
    (i : Interval α) (hi : i.Obtainable) (hr : i.Real) :
    ((∃ s, a.minusInPlace dbg i = .ok s ∧ s.pts dbg = a.pts dbg \ i.pts) ↔
      ∀ p x q, pred x = some p → succ x = some q → p ∈ a.pts dbg → q ∈ a.pts dbg → x ∉ a.pts dbg →
        ¬ IsLeast i.pts q ∧ ¬ IsGreatest i.pts p) ∧
    ((∃ s, a.minus dbg b = .ok s ∧ s.pts dbg = a.pts dbg \ b.pts dbg) ↔
      ∀ p x q, pred x = some p → succ x = some q → p ∈ a.pts dbg → q ∈ a.pts dbg → x ∉ a.pts dbg →
        x ∉ b.pts dbg → p ∉ b.pts dbg ∧ q ∉ b.pts dbg) :=
  ⟨C50_exact_iff dbg a ha i hi hr, C53_exact_iff dbg a b ha hb⟩

example : (Selection.demo [(u8 2, u8 5), (u8 7, u8 9)]).UnionBuilt ∧
    (Interval.mkClosed (u8 3) (u8 6)).Obtainable :=
  ⟨Selection.demo_built _ (by decide), .mkClosed _ _⟩

end Sel

/-! ## C89: `TineTree::minus` -/

/-- On dense unbounded orders `minus` is right and leaves a usable tree if and only if each interval of the
right tree can be removed safely from the left tree. -/
theorem C89_minus_iff {α : Type} [LinearOrder α] [DenselyOrdered α] [NoMinOrder α] [NoMaxOrder α]
    [Nonempty α] (dbg : Bool) (a b : TineTree α) (ha : a.Reachable) (hb : b.Reachable)
    (as bs : List (RawInterval α)) (has : a.intervals dbg = .ok as) (hbs : b.intervals dbg = .ok bs) :
    (∃ t, a.minus dbg b = .ok t ∧ t.Reachable ∧ ∀ x, t.contains dbg x = .ok true ↔
      (a.contains dbg x = .ok true ∧ b.contains dbg x = .ok false)) ↔
    ∀ o ∈ bs, RawInterval.RemovalSafe as o :=
  C42_dense_iff dbg a b ha hb as bs has hbs

example : (TineTree.fromRawInterval (.opn (0 : ℚ) 1)).Reachable ∧
    TineTree.intervals true (TineTree.fromRawInterval (.opn (0 : ℚ) 1)) = .ok [.opn 0 1] :=
  ⟨.fromRaw (by show (0 : ℚ) < 1; decide), by decide⟩

/-! ## C90: `RawInterval::union_all` -/

/-- The result of `union_all` is pairwise disjoint if and only if an argument is full, or every argument
shares points with no interval made of the arguments before it other than the first it meets or adjoins. -/
theorem C90_union_all_iff {α : Type} [LinearOrder α] (is : List (RawInterval α)) (h : ∀ i ∈ is, i.WF) :
    (RawInterval.unionAll is).Pairwise (fun i j => Disjoint i.pts j.pts) ↔
    .full ∈ is ∨ ∀ k n, is[k]? = some n → ∀ q ∈ RawInterval.unionAll (is.take k),
      ¬ Disjoint q.pts n.pts →
      (RawInterval.unionAll (is.take k)).find? (fun i => i.intersects n || i.isAdjacentTo n) = some q :=
  C11_exact_iff is h

example : ∀ i ∈ [RawInterval.closed (0 : Int) 1, .closed 4 5, .closed 1 4], i.WF := by
  simp [RawInterval.WF]

/-! ## C91: the parser -/

/-- `from_str` gives `i` for the strings properly written for `i`, for those that start with the empty sign,
and for those with anything between an infinite bound and the comma; for no others. -/
theorem C91_parse_iff {lo hi : Int} (s : Str) (i : RawInterval (MInt lo hi)) :
    RawInterval.fromStr s = .ok (.ok i) ↔ StrictText s i ∨ (∃ v, s = 'Ø' :: v ∧ i = .empty) ∨
      ∃ x y lb ub, s = x ++ ',' :: y ∧ ',' ∉ x ∧ LowerText x lb ∧ UpperText y ub ∧
        (lb = .inf ∨ ub = .inf) ∧ i = RawInterval.new lb ub :=
  C66_exact_iff s i

example : RawInterval.fromStr (α := I8) "Øl".toList = .ok (.ok .empty) ∧
    RawInterval.fromStr (α := I8) "(-∞,5]".toList = .ok (.ok (.to (MInt.lit 5))) := by decide

end NI
