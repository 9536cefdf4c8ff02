import Verif.Lemmas.NaturalSel
import Verif.Props.Tree
import Verif.Props.Selection

/-! # Results depend on the values only through their order (C108)

`f` keeps the order of the values.  Replacing every value in the arguments by its image and then calling a
function gives the result of the function with every value replaced: the same shape, the same answers, the
same panics. -/

set_option linter.unusedSimpArgs false
set_option linter.unusedVariables false
set_option linter.unusedSectionVars false

namespace NI

section
variable {α β : Type} [LinearOrder α] [LinearOrder β] (f : α ↪o β)

/-- An order embedding used in the examples: the values spread out, so that new values lie between them. -/
def spread : Int ↪o Int := OrderEmbedding.ofStrictMono (fun x => 10 * x) (fun a b h => by
  change 10 * a < 10 * b; omega)

/-- **C108.**  Choosing between two bounds. -/
theorem C108_bounds (a b : Bound α) :
    (a.map f).leastUnion (b.map f) = (a.leastUnion b).map f ∧
    (a.map f).leastIntersect (b.map f) = (a.leastIntersect b).map f ∧
    (a.map f).greatestUnion (b.map f) = (a.greatestUnion b).map f ∧
    (a.map f).greatestIntersect (b.map f) = (a.greatestIntersect b).map f ∧
    (a.map f).isUnionAdjacentTo (b.map f) = a.isUnionAdjacentTo b :=
  ⟨Bound.map_leastUnion f a b, Bound.map_leastIntersect f a b, Bound.map_greatestUnion f a b,
    Bound.map_greatestIntersect f a b, Bound.map_adjacent f a b⟩

example : (Bound.incl (3 : Int)).leastIntersect (.excl 3) = .excl 3 ∧
    ((Bound.incl (3 : Int)).map spread).leastIntersect ((Bound.excl 3).map spread) = .excl 30 := by decide

/-- **C108.**  Making a raw interval out of two values or bounds. -/
theorem C108_raw_new (a b : Bound α) (l r : α) :
    RawInterval.new (a.map f) (b.map f) = (RawInterval.new a b).map f ∧
    RawInterval.mkOpen (f l) (f r) = (RawInterval.mkOpen l r).map f ∧
    RawInterval.mkLeftOpen (f l) (f r) = (RawInterval.mkLeftOpen l r).map f ∧
    RawInterval.mkRightOpen (f l) (f r) = (RawInterval.mkRightOpen l r).map f ∧
    RawInterval.mkClosed (f l) (f r) = (RawInterval.mkClosed l r).map f :=
  ⟨RawInterval.map_new f a b, RawInterval.map_new f (.excl l) (.excl r), RawInterval.map_new f (.excl l) (.incl r),
    RawInterval.map_new f (.incl l) (.excl r), RawInterval.map_new f (.incl l) (.incl r)⟩

example : RawInterval.mkClosed (spread 5) (spread 3) = .empty ∧
    RawInterval.mkLeftOpen (spread 3) (spread 5) = .leftOpen 30 50 := by decide

/-- **C108.**  The operations on one or two raw intervals. -/
theorem C108_raw (a b : RawInterval α) (x : α) :
    (a.map f).contains (f x) = a.contains x ∧
    (a.map f).complement = a.complement.map (RawInterval.map f) ∧
    (a.map f).closure = a.closure.map f ∧
    (a.map f).intersects (b.map f) = a.intersects b ∧
    (a.map f).isAdjacentTo (b.map f) = a.isAdjacentTo b ∧
    (a.map f).intersect (b.map f) = (a.intersect b).map f ∧
    (a.map f).enclose (b.map f) = (a.enclose b).map f ∧
    (a.map f).union (b.map f) = (a.union b).map (RawInterval.map f) ∧
    (a.map f).minus (b.map f) = (a.minus b).map (RawInterval.map f) :=
  ⟨RawInterval.map_contains f a x, RawInterval.map_complement f a, RawInterval.map_closure f a,
    RawInterval.map_intersects f a b, RawInterval.map_isAdjacentTo f a b, RawInterval.map_intersect f a b,
    RawInterval.map_enclose f a b, RawInterval.map_union f a b, RawInterval.map_minus f a b⟩

example : (RawInterval.closed (1 : Int) 4).minus (.opn 2 3) = [.closed 1 2, .closed 3 4] ∧
    ((RawInterval.closed (1 : Int) 4).map spread).minus ((RawInterval.opn 2 3).map spread) =
      [.closed 10 20, .closed 30 40] := by decide

/-- **C108.**  The operations on a list of raw intervals. -/
theorem C108_raw_all (is : List (RawInterval α)) :
    RawInterval.encloseAll (is.map (RawInterval.map f)) = (RawInterval.encloseAll is).map f ∧
    RawInterval.intersectAll (is.map (RawInterval.map f)) = (RawInterval.intersectAll is).map f ∧
    RawInterval.unionAll (is.map (RawInterval.map f)) = (RawInterval.unionAll is).map (RawInterval.map f) :=
  ⟨RawInterval.map_encloseAll f is, RawInterval.map_intersectAll f is, RawInterval.map_unionAll f is⟩

example : RawInterval.unionAll ([RawInterval.closed (1 : Int) 2, .leftOpen 2 4, .point 9].map (RawInterval.map spread)) =
    [.closed 10 40, .point 90] := by decide

/-- **C108.**  The questions about a tree and the intervals it yields, for any list of tines, valid or not. -/
theorem C108_tree_reads (dbg : Bool) (t : TineTree α) (x : α) :
    (t.map f).contains dbg (f x) = t.contains dbg x ∧
    (t.map f).isEmpty = t.isEmpty ∧ (t.map f).isFull = t.isFull ∧
    (t.map f).lowerBound = t.lowerBound.map (Bound.map · f) ∧
    (t.map f).upperBound = t.upperBound.map (Bound.map · f) ∧
    (t.map f).enclose dbg = (t.enclose dbg).map (RawInterval.map f) ∧
    (t.map f).closure dbg = (t.closure dbg).map (RawInterval.map f) ∧
    (t.map f).intervals dbg = (t.intervals dbg).map (List.map (RawInterval.map f)) ∧
    (t.map f).intervalsBack dbg = (t.intervalsBack dbg).map (List.map (RawInterval.map f)) :=
  ⟨TineTree.map_contains f dbg t x, TineTree.map_isEmpty f t, TineTree.map_isFull f t, TineTree.map_lowerBound f t,
    TineTree.map_upperBound f t, TineTree.map_enclose f dbg t, TineTree.map_closure f dbg t,
    TineTree.map_intervals f dbg t, TineTree.map_intervalsBack f dbg t⟩

example : ((TineTree.demo [.closed 1 2, .opn 4 6]).map spread).intervals true = .ok [.closed 10 20, .opn 40 60] ∧
    TineTree.contains true ((TineTree.demo [.closed 1 2, .opn 4 6]).map spread) 50 = .ok true ∧
    TineTree.intervals true (TineTree.map spread [.upper (.incl 3)]) = .error .debugAssert := by decide

/-- **C108.**  One call of either iterator method, in any state of the iterator. -/
theorem C108_tree_steps (dbg : Bool) (it : TineIter α) :
    (it.map f).next dbg = (it.next dbg).map (fun x => (x.1.map (RawInterval.map f), x.2.map f)) ∧
    (it.map f).nextBack dbg = (it.nextBack dbg).map (fun x => (x.1.map (RawInterval.map f), x.2.map f)) :=
  ⟨TineIter.map_next f dbg it, TineIter.map_nextBack f dbg it⟩

example : (TineIter.start ((TineTree.demo [.closed 1 2, .opn 4 6]).map spread)).next true =
    .ok (some (.closed 10 20), ⟨[.lower (.excl 40), .upper (.excl 60)], none, none⟩) := by decide

/-- **C108.**  The operations on trees, for any lists of tines, valid or not. -/
theorem C108_tree (dbg : Bool) (a b : TineTree α) (i : RawInterval α) (is : List (RawInterval α)) :
    TineTree.fromRawInterval (i.map f) = (TineTree.fromRawInterval i).map f ∧
    TineTree.fromIter dbg (is.map (RawInterval.map f)) = (TineTree.fromIter dbg is).map (TineTree.map f) ∧
    (a.map f).complement dbg = (a.complement dbg).map (TineTree.map f) ∧
    (a.map f).union dbg (b.map f) = (a.union dbg b).map (TineTree.map f) ∧
    (a.map f).intersect dbg (b.map f) = (a.intersect dbg b).map (TineTree.map f) ∧
    (a.map f).minus dbg (b.map f) = (a.minus dbg b).map (TineTree.map f) ∧
    (a.map f).unionInPlace dbg (i.map f) = (a.unionInPlace dbg i).map (TineTree.map f) ∧
    (a.map f).intersectInPlace dbg (i.map f) = (a.intersectInPlace dbg i).map (TineTree.map f) ∧
    (a.map f).minusInPlace dbg (i.map f) = (a.minusInPlace dbg i).map (TineTree.map f) :=
  ⟨TineTree.map_fromRaw f i, TineTree.map_fromIter f dbg is, TineTree.map_complement f dbg a,
    TineTree.map_union f dbg a b, TineTree.map_intersect f dbg a b, TineTree.map_minus f dbg a b,
    TineTree.map_unionInPlace f dbg a i, TineTree.map_intersectInPlace f dbg a i, TineTree.map_minusInPlace f dbg a i⟩

example : ((TineTree.demo [.closed 1 2, .opn 4 6]).map spread).union true ((TineTree.demo [.leftOpen 2 4]).map spread) =
    .ok [.lower (.incl 10), .upper (.excl 60)] ∧
    (TineTree.demo [.closed 1 2, .opn 4 6]).union true (TineTree.demo [.leftOpen 2 4]) =
    .ok [.lower (.incl 1), .upper (.excl 6)] := by decide
end

section
variable {α β : Type} [LinearOrder α] [LinearOrder β] [Finite α] [Finite β] {f : α ↪o β}

/-- **C108.**  Between two lawful types, keeping the order in both directions is enough: the smallest value, the greatest
value and the neighbours follow along. -/
theorem C108_renames [LawfulFinite α] [LawfulFinite β] (e : α ≃o β) : Renames e.toOrderEmbedding := Renames.of_iso e

/-- The order isomorphism from `u8` to `i8` used in the examples: `x ↦ x - 128`. -/
def signed : U8 ≃o I8 where
  toFun x := ⟨x.1 - 128, by have := x.2; omega⟩
  invFun x := ⟨x.1 + 128, by have := x.2; omega⟩
  left_inv x := Subtype.ext (by change x.1 - 128 + 128 = x.1; omega)
  right_inv x := Subtype.ext (by change x.1 + 128 - 128 = x.1; omega)
  map_rel_iff' {x y} := by
    change x.1 - 128 ≤ y.1 - 128 ↔ x.1 ≤ y.1
    omega

example : Renames signed.toOrderEmbedding ∧ signed (MInt.lit 3) = MInt.lit (-125) := ⟨C108_renames signed, by decide⟩

/-- **C108.**  The operations on normalized intervals, for a renaming of the values. -/
theorem C108_interval (R : Renames f) (a b : Interval α) (r : RawInterval α) (l u : Bound α) (x : α) :
    Interval.ofRaw (r.map f) = (Interval.ofRaw r).map f ∧
    Interval.new (l.map f) (u.map f) = (Interval.new l u).map f ∧
    (a.map f).contains (f x) = a.contains x ∧
    (a.map f).intersects (b.map f) = a.intersects b ∧
    (a.map f).isAdjacentTo (b.map f) = a.isAdjacentTo b ∧
    (a.map f).complement = a.complement.map (Interval.map f) ∧
    (a.map f).closure = a.closure.map f ∧
    (a.map f).intersect (b.map f) = (a.intersect b).map f ∧
    (a.map f).enclose (b.map f) = (a.enclose b).map f ∧
    (a.map f).union (b.map f) = (a.union b).map (Interval.map f) ∧
    (a.map f).minus (b.map f) = (a.minus b).map (Interval.map f) ∧
    (a.map f).next = a.next.map (fun y => (y.1.map f, y.2.map f)) ∧
    (a.map f).nextBack = a.nextBack.map (fun y => (y.1.map f, y.2.map f)) :=
  ⟨Interval.map_ofRaw R r, Interval.map_new R l u, RawInterval.map_contains f a.raw x,
    RawInterval.map_intersects f a.raw b.raw, RawInterval.map_isAdjacentTo f a.raw b.raw,
    Interval.map_complement R a, Interval.map_closure R a, Interval.map_intersect R a b,
    Interval.map_enclose R a b, Interval.map_union R a b, Interval.map_minus R a b, Interval.map_next R a,
    Interval.map_nextBack R a⟩

example : (Interval.mkOpen (u8 3) (u8 9)).raw = .closed (u8 4) (u8 8) ∧
    ((Interval.mkOpen (u8 3) (u8 9)).map signed).complement.map Interval.raw =
      [.closed (MInt.lit (-128)) (MInt.lit (-125)), .closed (MInt.lit (-119)) (MInt.lit 127)] := by decide

/-- **C108.**  The operations on selections, for a renaming of the values. -/
theorem C108_selection (R : Renames f) (dbg : Bool) (a b : Selection α) (i : Interval α) (is : List (Interval α))
    (xs : List α) (x : α) :
    (a.map f).contains dbg (f x) = a.contains dbg x ∧
    (a.map f).intersects dbg (b.map f) = a.intersects dbg b ∧
    (a.map f).complement dbg = (a.complement dbg).map (Selection.map f) ∧
    (a.map f).union dbg (b.map f) = (a.union dbg b).map (Selection.map f) ∧
    (a.map f).intersect dbg (b.map f) = (a.intersect dbg b).map (Selection.map f) ∧
    (a.map f).minus dbg (b.map f) = (a.minus dbg b).map (Selection.map f) ∧
    (a.map f).unionInPlace dbg (i.map f) = (a.unionInPlace dbg i).map (Selection.map f) ∧
    (a.map f).intersectInPlace dbg (i.map f) = (a.intersectInPlace dbg i).map (Selection.map f) ∧
    (a.map f).minusInPlace dbg (i.map f) = (a.minusInPlace dbg i).map (Selection.map f) ∧
    (a.map f).extend dbg (is.map (Interval.map f)) = (a.extend dbg is).map (Selection.map f) ∧
    Selection.fromIntervals dbg (is.map (Interval.map f)) = (Selection.fromIntervals dbg is).map (Selection.map f) ∧
    Selection.fromPoints dbg (xs.map f) = (Selection.fromPoints dbg xs).map (Selection.map f) ∧
    Selection.ofInterval (i.map f) = (Selection.ofInterval i).map f ∧
    (Selection.full : Selection β) = (Selection.full : Selection α).map f :=
  ⟨Selection.map_contains dbg a x, Selection.map_intersects dbg a b, Selection.map_complement dbg a,
    Selection.map_union dbg a b, Selection.map_intersect dbg a b, Selection.map_minus dbg a b,
    Selection.map_unionInPlace R dbg a i, Selection.map_intersectInPlace R dbg a i, Selection.map_minusInPlace R dbg a i,
    Selection.map_extend R dbg is a, Selection.map_fromIntervals R dbg is, Selection.map_fromPoints R dbg xs,
    Selection.map_ofInterval R i, Selection.map_full R⟩

example : ((Selection.demo [(u8 3, u8 5)]).map signed).unionInPlace true ⟨.closed (MInt.lit (-122)) (MInt.lit (-120))⟩ =
    .ok ((Selection.demo [(u8 3, u8 8)]).map signed) := by decide

/-- **C108.**  What a selection says about itself and the intervals and points it yields, for a renaming of the values. -/
theorem C108_selection_reads (R : Renames f) (dbg : Bool) (s : Selection α) (it : PointIter α) :
    (s.map f).lowerBound dbg = (s.lowerBound dbg).map (Option.map (Bound.map · f)) ∧
    (s.map f).upperBound dbg = (s.upperBound dbg).map (Option.map (Bound.map · f)) ∧
    (s.map f).enclose dbg = (s.enclose dbg).map (Interval.map f) ∧
    (s.map f).closure dbg = (s.closure dbg).map (Interval.map f) ∧
    (s.map f).intervals dbg = (s.intervals dbg).map (List.map (Interval.map f)) ∧
    (s.map f).intervalsBack dbg = (s.intervalsBack dbg).map (List.map (Interval.map f)) ∧
    PointIter.start (s.map f) = (PointIter.start s).map f ∧
    (it.map f).next dbg = (it.next dbg).map (fun y => (y.1.map f, y.2.map f)) ∧
    (it.map f).nextBack dbg = (it.nextBack dbg).map (fun y => (y.1.map f, y.2.map f)) :=
  ⟨Selection.map_lowerBound R dbg s, Selection.map_upperBound R dbg s, Selection.map_enclose R dbg s,
    Selection.map_closure R dbg s, Selection.map_intervals R dbg s, Selection.map_intervalsBack R dbg s, rfl,
    PointIter.map_next R dbg it, PointIter.map_nextBack R dbg it⟩

example : ((Selection.demo [(u8 3, u8 5), (u8 9, u8 9)]).map signed).intervals true =
    .ok [⟨.closed (MInt.lit (-125)) (MInt.lit (-123))⟩, ⟨.closed (MInt.lit (-119)) (MInt.lit (-119))⟩] := by decide
end

/-- The order embedding of `u8` into `i16`: `u8 as i16`. -/
def widen : U8 ↪o I16 := OrderEmbedding.ofStrictMono (fun x => ⟨x.1, by have := x.2; omega⟩) (fun a b h => h)

/-- **C108.**  Keeping the order is not enough for normalized intervals: the complement of a widened interval is not the
widened complement, since the wider type has further values.  So the values in a selection cannot be widened. -/
theorem C108_widening_differs : ∃ i : Interval U8,
    (i.map widen).complement ≠ i.complement.map (Interval.map widen) :=
  ⟨Interval.mkClosed (u8 3) (u8 5), by decide⟩

example : ((Interval.mkClosed (u8 3) (u8 5)).map widen).complement.map Interval.raw =
    [.closed (MInt.lit (-32768)) (MInt.lit 2), .closed (MInt.lit 6) (MInt.lit 32767)] := by decide

end NI
