import Verif.Lemmas.MirrorSel
import Verif.Props.Back
import Verif.Props.SelectionMore

/-! # What holds on the left holds on the right (C109)

`f` turns the order of the values around.  Exchanging the ends of every interval in the arguments and then
calling a function gives the result of the function with the ends exchanged.  Where two results come in order,
the order is turned around as well.  `minus`, `intersect` and backward iteration of trees are different: they
work through the intervals from the left. -/

set_option linter.unusedSimpArgs false
set_option linter.unusedVariables false
set_option linter.unusedSectionVars false

namespace NI
open TT

section
variable {α β : Type} [LinearOrder α] [LinearOrder β] {f : α → β} (hf : StrictAnti f)

/-- The reflection of the integers used in the examples. -/
theorem neg_anti : StrictAnti (fun x : Int => -x) := fun a b h => by
  change -b < -a; omega

include hf

/-- **C109.**  Choosing between two bounds: least and greatest change places. -/
theorem C109_bounds (a b : Bound α) :
    (a.map f).greatestUnion (b.map f) = (a.leastUnion b).map f ∧
    (a.map f).greatestIntersect (b.map f) = (a.leastIntersect b).map f ∧
    (a.map f).leastUnion (b.map f) = (a.greatestUnion b).map f ∧
    (a.map f).leastIntersect (b.map f) = (a.greatestIntersect b).map f ∧
    (a.map f).isUnionAdjacentTo (b.map f) = a.isUnionAdjacentTo b :=
  ⟨Bound.mir_leastUnion hf a b, Bound.mir_leastIntersect hf a b, Bound.mir_greatestUnion hf a b,
    Bound.mir_greatestIntersect hf a b, Bound.mir_adjacent' hf a b⟩

omit hf [LinearOrder α] [LinearOrder β] in
example : (Bound.incl (3 : Int)).leastIntersect (.excl 3) = .excl 3 ∧
    ((Bound.incl (3 : Int)).map (fun x => -x)).greatestIntersect ((Bound.excl 3).map (fun x => -x)) = .excl (-3) := by
  decide

/-- **C109.**  Making a raw interval out of two values or bounds. -/
theorem C109_raw_new (a b : Bound α) (l r : α) :
    RawInterval.new (b.map f) (a.map f) = (RawInterval.new a b).mirror f ∧
    RawInterval.mkOpen (f r) (f l) = (RawInterval.mkOpen l r).mirror f ∧
    RawInterval.mkLeftOpen (f r) (f l) = (RawInterval.mkRightOpen l r).mirror f ∧
    RawInterval.mkRightOpen (f r) (f l) = (RawInterval.mkLeftOpen l r).mirror f ∧
    RawInterval.mkClosed (f r) (f l) = (RawInterval.mkClosed l r).mirror f :=
  ⟨RawInterval.mir_new hf a b, RawInterval.mir_new hf (.excl l) (.excl r), RawInterval.mir_new hf (.incl l) (.excl r),
    RawInterval.mir_new hf (.excl l) (.incl r), RawInterval.mir_new hf (.incl l) (.incl r)⟩

omit hf [LinearOrder α] [LinearOrder β] in
example : RawInterval.mkLeftOpen (-5 : Int) (-3) = (RawInterval.mkRightOpen 3 5).mirror (fun x => -x) ∧
    RawInterval.mkClosed (-3 : Int) (-5) = (RawInterval.mkClosed 5 3).mirror (fun x => -x) ∧
    (RawInterval.mkClosed (5 : Int) 3) = .empty := by decide

/-- **C109.**  The operations on one or two raw intervals.  The parts of a complement or of a difference come in the
other order; those of a union stay, since `union` gives two separate intervals in the order of the arguments. -/
theorem C109_raw (a b : RawInterval α) (x : α) :
    (a.mirror f).contains (f x) = a.contains x ∧
    (a.mirror f).lowerBound = a.upperBound.map (Bound.map · f) ∧
    (a.mirror f).upperBound = a.lowerBound.map (Bound.map · f) ∧
    (a.mirror f).complement = (a.complement.map (RawInterval.mirror f)).reverse ∧
    (a.mirror f).closure = a.closure.mirror f ∧
    (a.mirror f).intersects (b.mirror f) = a.intersects b ∧
    (a.mirror f).isAdjacentTo (b.mirror f) = a.isAdjacentTo b ∧
    (a.mirror f).intersect (b.mirror f) = (a.intersect b).mirror f ∧
    (a.mirror f).enclose (b.mirror f) = (a.enclose b).mirror f ∧
    (a.mirror f).union (b.mirror f) = (a.union b).map (RawInterval.mirror f) ∧
    (a.mirror f).minus (b.mirror f) = ((a.minus b).map (RawInterval.mirror f)).reverse :=
  ⟨RawInterval.mir_contains hf a x, RawInterval.mir_lowerBound a, RawInterval.mir_upperBound a,
    RawInterval.mir_complement a, RawInterval.mir_closure a,
    RawInterval.mir_intersects hf a b, RawInterval.mir_isAdjacentTo hf a b, RawInterval.mir_intersect hf a b,
    RawInterval.mir_enclose hf a b, RawInterval.mir_union hf a b, RawInterval.mir_minus hf a b⟩

omit hf [LinearOrder α] [LinearOrder β] in
example : (RawInterval.closed (1 : Int) 9).minus (.leftOpen 2 3) = [.closed 1 2, .leftOpen 3 9] ∧
    (RawInterval.closed (-9 : Int) (-1)).minus (.rightOpen (-3) (-2)) = [.rightOpen (-9) (-3), .closed (-2) (-1)] := by
  decide

/-- **C109.**  The operations on a list of raw intervals. -/
theorem C109_raw_all (is : List (RawInterval α)) :
    RawInterval.encloseAll (is.map (RawInterval.mirror f)) = (RawInterval.encloseAll is).mirror f ∧
    RawInterval.intersectAll (is.map (RawInterval.mirror f)) = (RawInterval.intersectAll is).mirror f ∧
    RawInterval.unionAll (is.map (RawInterval.mirror f)) = (RawInterval.unionAll is).map (RawInterval.mirror f) :=
  ⟨RawInterval.mir_encloseAll hf is, RawInterval.mir_intersectAll hf is, RawInterval.mir_unionAll hf is⟩

omit hf [LinearOrder α] [LinearOrder β] in
example : RawInterval.unionAll ([RawInterval.closed (1 : Int) 2, .leftOpen 2 4, .point 9].map
    (RawInterval.mirror (fun x => -x))) = [.closed (-4) (-1), .point (-9)] := by decide

/-- **C109.**  A tree read from the other end is again a tree that the functions of the crate can build. -/
theorem C109_tree_reachable (t : TineTree α) (ht : t.Reachable) : (t.mirror f).Reachable :=
  TT.valid_reachable (valid_mir hf (TT.reachable_valid ht))

omit hf [LinearOrder α] [LinearOrder β] in
example : TineTree.Reachable (TineTree.mirror (fun x => -x) (TineTree.demo [.closed (1 : Int) 2, .upFrom 4])) ∧
    TineTree.mirror (fun x => -x) (TineTree.demo [.closed (1 : Int) 2, .upFrom 4]) =
      TineTree.demo [.upTo (-4), .closed (-2) (-1)] :=
  ⟨C109_tree_reachable neg_anti _ (TineTree.fromIter_reachable (dbg := true) (is := [.closed 1 2, .upFrom 4])
    (by simp [RawInterval.WF]) rfl), by decide⟩

/-- **C109.**  The questions about a tree and the intervals it yields. -/
theorem C109_tree_reads (dbg : Bool) (t : TineTree α) (ht : t.Reachable) (x : α) :
    (t.mirror f).contains dbg (f x) = t.contains dbg x ∧
    (t.mirror f).isEmpty = t.isEmpty ∧ (t.mirror f).isFull = t.isFull ∧
    (t.mirror f).lowerBound = t.upperBound.map (Bound.map · f) ∧
    (t.mirror f).upperBound = t.lowerBound.map (Bound.map · f) ∧
    (t.mirror f).enclose dbg = (t.enclose dbg).map (RawInterval.mirror f) ∧
    (t.mirror f).closure dbg = (t.closure dbg).map (RawInterval.mirror f) ∧
    (t.mirror f).intervals dbg = (t.intervals dbg).map (fun is => (is.map (RawInterval.mirror f)).reverse) := by
  have v := TT.reachable_valid ht
  refine ⟨TT.mir_contains hf dbg v x, isEmpty_mir t, isFull_mir t, ?_, ?_, TT.mir_enclose hf dbg v,
    TT.mir_closure hf dbg v, TT.mir_intervals hf dbg v⟩
  · rw [TineTree.lowerBound, TineTree.upperBound, TineTree.mirror, List.head?_reverse, List.getLast?_map, Option.map_map,
      Option.map_map]
    congr 1; funext y; exact Tine.mir_intoInner y
  · rw [TineTree.lowerBound, TineTree.upperBound, TineTree.mirror, List.getLast?_reverse, List.head?_map, Option.map_map,
      Option.map_map]
    congr 1; funext y; exact Tine.mir_intoInner y

omit hf [LinearOrder α] [LinearOrder β] in
example : TineTree.Reachable (TineTree.demo [.rightOpen (1 : Int) 2, .upFrom 4]) ∧
    (TineTree.demo [.rightOpen (1 : Int) 2, .upFrom 4]).lowerBound = some (.incl 1) ∧
    TineTree.upperBound ((TineTree.demo [.rightOpen (1 : Int) 2, .upFrom 4]).mirror (fun x => -x)) = some (.incl (-1)) ∧
    TineTree.intervals true ((TineTree.demo [.rightOpen (1 : Int) 2, .upFrom 4]).mirror (fun x => -x)) =
      .ok [.upTo (-4), .leftOpen (-2) (-1)] :=
  ⟨TineTree.fromIter_reachable (dbg := true) (is := [.rightOpen 1 2, .upFrom 4]) (by simp [RawInterval.WF]) rfl,
    by decide, by decide, by decide⟩

/-- **C109.**  The operations on trees that do not work through the intervals of a second tree one by one, and `union`:
result, wrong results and panics included. -/
theorem C109_tree (dbg : Bool) (a b : TineTree α) (ha : a.Reachable) (hb : b.Reachable) (i : RawInterval α) (hi : i.WF)
    (is : List (RawInterval α)) (his : ∀ i ∈ is, i.WF) :
    TineTree.fromRawInterval (i.mirror f) = (TineTree.fromRawInterval i).mirror f ∧
    TineTree.fromIter dbg (is.map (RawInterval.mirror f)) = (TineTree.fromIter dbg is).map (TineTree.mirror f) ∧
    (a.mirror f).complement dbg = (a.complement dbg).map (TineTree.mirror f) ∧
    (a.mirror f).union dbg (b.mirror f) = (a.union dbg b).map (TineTree.mirror f) ∧
    (a.mirror f).unionInPlace dbg (i.mirror f) = (a.unionInPlace dbg i).map (TineTree.mirror f) ∧
    (a.mirror f).intersectInPlace dbg (i.mirror f) = (a.intersectInPlace dbg i).map (TineTree.mirror f) ∧
    (a.mirror f).minusInPlace dbg (i.mirror f) = (a.minusInPlace dbg i).map (TineTree.mirror f) := by
  have va := TT.reachable_valid ha
  exact ⟨fromRaw_mir hf hi, TT.mir_fromIter hf dbg is his, TT.mir_complement hf dbg va,
    TT.mir_union hf dbg va (TT.reachable_valid hb), TT.mir_unionInPlace hf dbg va hi,
    TT.mir_intersectInPlace hf dbg va hi, TT.mir_minusInPlace hf dbg va hi⟩

omit hf [LinearOrder α] [LinearOrder β] in
example : (RawInterval.rightOpen (3 : Int) 9).WF ∧ TineTree.Reachable (TineTree.demo [.leftOpen (1 : Int) 4, .upFrom 9]) ∧
    TineTree.minusInPlace true (TineTree.demo [.leftOpen (1 : Int) 4, .upFrom 9]) (.rightOpen 3 9) =
      .ok (TineTree.demo [.opn 1 3, .upFrom 9]) ∧
    TineTree.minusInPlace true (TineTree.demo [.rightOpen (-4 : Int) (-1), .upTo (-9)]) (.leftOpen (-9) (-3)) =
      .ok (TineTree.demo [.opn (-3) (-1), .upTo (-9)]) :=
  ⟨by simp [RawInterval.WF], TineTree.fromIter_reachable (dbg := true) (is := [.leftOpen 1 4, .upFrom 9])
    (by simp [RawInterval.WF]) rfl, by decide, by decide⟩

/-- **C109, `minus`.**  Missing: right trees with a single point at which an interval of the left tree ends or starts
without including it; see `C109_minus_counterexample`. -/
theorem C109_minus_partial (dbg : Bool) (a b : TineTree α) (ha : a.Reachable) (hb : b.Reachable)
    (as bs : List (RawInterval α)) (has : TineTree.intervals dbg a = .ok as)
    (hbs : TineTree.intervals dbg b = .ok bs)
    (hp : ∀ p, .point p ∈ bs → ¬ RawInterval.OpenEnd as p ∧ ¬ RawInterval.OpenStart as p) :
    (a.mirror f).minus dbg (b.mirror f) = (a.minus dbg b).map (TineTree.mirror f) := by
  have va := TT.reachable_valid ha
  have vb := TT.reachable_valid hb
  rw [TT.intervals_eq dbg va] at has
  rw [TT.intervals_eq dbg vb] at hbs
  cases has; cases hbs
  exact TT.mir_minus hf dbg va vb fun p h => TT.minusOk_of_safe va (i := .point p) trivial
    ⟨fun q hq => by cases hq; exact hp p h, fun h2 => absurd rfl (h2.2 p)⟩

omit hf [LinearOrder α] [LinearOrder β] in
example : TineTree.Reachable (TineTree.demo [.opn (0 : Int) 4, .opn 4 9]) ∧
    TineTree.Reachable (TineTree.demo [.closed (4 : Int) 6]) ∧
    TineTree.intervals true (TineTree.demo [.closed (4 : Int) 6]) = .ok [.closed 4 6] ∧
    (∀ p, RawInterval.point p ∈ [RawInterval.closed (4 : Int) 6] →
      ¬ RawInterval.OpenEnd [.opn 0 4, .opn 4 9] p ∧ ¬ RawInterval.OpenStart [.opn 0 4, .opn 4 9] p) ∧
    TineTree.minus true (TineTree.demo [.opn (0 : Int) 4, .opn 4 9]) (TineTree.demo [.closed 4 6]) =
      .ok (TineTree.demo [.leftOpen 0 4, .opn 6 9]) ∧
    TineTree.minus true (TineTree.demo [.opn (-4 : Int) 0, .opn (-9) (-4)]) (TineTree.demo [.closed (-6) (-4)]) =
      .ok (TineTree.demo [.rightOpen (-4) 0, .opn (-9) (-6)]) :=
  ⟨TineTree.fromIter_reachable (dbg := true) (is := [.opn 0 4, .opn 4 9]) (by simp [RawInterval.WF]) rfl,
    TineTree.fromIter_reachable (dbg := true) (is := [.closed 4 6]) (by simp [RawInterval.WF]) rfl,
    by decide, by simp, by decide, by decide⟩

/-- **C109, `intersect`.**  Missing: trees for which the walk from the left and the walk from the right bring
different pairs of intersecting intervals together; see `C109_intersect_counterexample`. -/
theorem C109_intersect_partial (dbg : Bool) (a b : TineTree α) (ha : a.Reachable) (hb : b.Reachable)
    (as bs : List (RawInterval α)) (has : TineTree.intervals dbg a = .ok as)
    (hbs : TineTree.intervals dbg b = .ok bs)
    (hw : ∀ s o, s.intersects o = true → (Together RawInterval.intersects as bs s o ↔
      Together RawInterval.intersects as.reverse bs.reverse s o)) :
    (a.mirror f).intersect dbg (b.mirror f) = (a.intersect dbg b).map (TineTree.mirror f) := by
  have va := TT.reachable_valid ha
  have vb := TT.reachable_valid hb
  rw [TT.intervals_eq dbg va] at has
  rw [TT.intervals_eq dbg vb] at hbs
  cases has; cases hbs
  exact TT.mir_intersect hf dbg va vb hw

omit hf [LinearOrder α] [LinearOrder β] in
example : TineTree.Reachable (TineTree.demo [.closed (0 : Int) 9]) ∧
    TineTree.Reachable (TineTree.demo [.opn (-1 : Int) 2, .upFrom 7]) ∧
    (∀ s o : RawInterval Int, s.intersects o = true →
      (Together RawInterval.intersects [.closed 0 9] [.opn (-1) 2, .upFrom 7] s o ↔
        Together RawInterval.intersects [RawInterval.closed (0 : Int) 9].reverse
          [RawInterval.opn (-1 : Int) 2, .upFrom 7].reverse s o)) ∧
    TineTree.intersect true (TineTree.demo [.closed (0 : Int) 9]) (TineTree.demo [.opn (-1) 2, .upFrom 7]) =
      .ok (TineTree.demo [.rightOpen 0 2, .leftOpen 7 9]) := by
  refine ⟨TineTree.fromIter_reachable (dbg := true) (is := [.closed 0 9]) (by simp [RawInterval.WF]) rfl,
    TineTree.fromIter_reachable (dbg := true) (is := [.opn (-1) 2, .upFrom 7]) (by simp [RawInterval.WF]) rfl, ?_, by decide⟩
  intro s o _
  have e1 : ∀ o' : RawInterval Int, o' = .opn (-1) 2 ∨ o' = .upFrom 7 →
      RawInterval.intersects (RawInterval.closed (0 : Int) 9) o' = true := by rintro o' (rfl | rfl) <;> decide
  have key : ∀ bs : List (RawInterval Int), (∀ o' ∈ bs, o' = .opn (-1) 2 ∨ o' = .upFrom 7) →
      (Together RawInterval.intersects [.closed (0 : Int) 9] bs s o ↔ s = .closed 0 9 ∧ o ∈ bs) := by
    intro bs hbs
    induction bs with
    | nil => simp [Together]
    | cons o0 bs ih =>
      rw [together_meet (e1 o0 (hbs o0 (by simp))), ih fun o' h => hbs o' (by simp [h]), List.mem_cons]
      tauto
  rw [List.reverse_singleton, key _ (by simp), key _ (by simp)]
  simp [or_comm]

/-- The condition is exact: whenever the two walks bring different pairs together, `intersect` is not symmetric. -/
theorem C109_intersect_iff (dbg : Bool) (a b : TineTree α) (ha : a.Reachable) (hb : b.Reachable)
    (as bs : List (RawInterval α)) (has : TineTree.intervals dbg a = .ok as)
    (hbs : TineTree.intervals dbg b = .ok bs) :
    (a.mirror f).intersect dbg (b.mirror f) = (a.intersect dbg b).map (TineTree.mirror f) ↔
      ∀ s o, s.intersects o = true → (Together RawInterval.intersects as bs s o ↔
        Together RawInterval.intersects as.reverse bs.reverse s o) := by
  have va := TT.reachable_valid ha
  have vb := TT.reachable_valid hb
  rw [TT.intervals_eq dbg va] at has
  rw [TT.intervals_eq dbg vb] at hbs
  cases has; cases hbs
  exact TT.mir_intersect_iff hf dbg va vb

omit hf [LinearOrder α] [LinearOrder β] in
/-- Walking through `[4,5]` from the left meets `[0,1]` first and goes on, from the right it meets `[4,5]`. -/
example : (∃ k, [RawInterval.closed (4 : Int) 5][k]? = some (.closed 4 5) ∧
      [RawInterval.closed (0 : Int) 1, .closed 4 5][finger RawInterval.intersects [.closed (0 : Int) 1, .closed 4 5]
        ([RawInterval.closed (4 : Int) 5].take k) 0]? = some (.closed 0 1)) ∧
    Together RawInterval.intersects [.closed (4 : Int) 5, .closed 0 1] [.closed 4 5] (.closed 4 5) (.closed 4 5) :=
  ⟨⟨0, by decide⟩, ⟨0, by decide⟩⟩

/-- **C109.**  The intervals of the mirrored tree are those that backward iteration of the tree yields exactly if no
single point is left out between two intervals. -/
theorem C109_back_iff (dbg : Bool) (t : TineTree α) (ht : t.Reachable) (is : List (RawInterval α))
    (his : TineTree.intervals dbg t = .ok is) :
    (t.mirror f).intervals dbg = (t.intervalsBack dbg).map (List.map (RawInterval.mirror f)) ↔
      ∀ p, ¬ RawInterval.Hole is p := by
  have v := TT.reachable_valid ht
  rw [TT.mir_back_iff hf dbg v, TT.holeFree_iff v]
  rw [TT.intervals_eq dbg v] at his
  cases his
  refine forall_congr' fun p => ?_
  rw [show RawInterval.Hole (TT.pieces none t) p ↔ TT.holeAt t (.fin p) = true from (TT.hole_iff v p).symm]
  simp

omit hf [LinearOrder α] [LinearOrder β] in
example : TineTree.Reachable (TineTree.demo [.opn (0 : Int) 2, .opn 2 4, .opn 4 6]) ∧
    TineTree.intervals true (TineTree.demo [.opn (0 : Int) 2, .opn 2 4, .opn 4 6]) = .ok [.opn 0 2, .opn 2 4, .opn 4 6] ∧
    TineTree.intervalsBack true (TineTree.demo [.opn (0 : Int) 2, .opn 2 4, .opn 4 6]) = .ok [.opn 4 6, .opn 0 2] ∧
    TineTree.intervals true ((TineTree.demo [.opn (0 : Int) 2, .opn 2 4, .opn 4 6]).mirror (fun x => -x)) =
      .ok [.opn (-6) (-4), .opn (-4) (-2), .opn (-2) 0] :=
  ⟨TineTree.fromIter_reachable (dbg := true) (is := [.opn 0 2, .opn 2 4, .opn 4 6]) (by simp [RawInterval.WF]) rfl,
    by decide, by decide, by decide⟩
end

/-- `(0,5]` without `{0} ∪ [1,3]` comes out as `(3,5]`; `[-5,0)` without `[-3,-1] ∪ {0}` as a tree with an interval that
starts after -1 and has no end. -/
theorem C109_minus_counterexample : ∃ a b : TineTree Int, a.Reachable ∧ b.Reachable ∧ ∀ dbg,
    a.minus dbg b = .ok (TineTree.demo [.leftOpen 3 5]) ∧
    (a.mirror (fun x => -x)).minus dbg (b.mirror (fun x => -x)) =
      .ok [.lower (.incl (-5)), .upper (.excl (-3)), .lower (.excl (-1))] :=
  ⟨TineTree.demo [.leftOpen 0 5], TineTree.demo [.point 0, .closed 1 3],
    TineTree.fromIter_reachable (dbg := true) (is := [.leftOpen 0 5]) (by simp [RawInterval.WF]) rfl,
    TineTree.fromIter_reachable (dbg := true) (is := [.point 0, .closed 1 3]) (by simp [RawInterval.WF]) rfl, by decide⟩

/-- `intersect` of `[0,1] ∪ [4,5]` and `[4,5]` is empty, that of `[-5,-4] ∪ [-1,0]` and `[-5,-4]` is not. -/
theorem C109_intersect_counterexample : ∃ a b : TineTree Int, a.Reachable ∧ b.Reachable ∧ ∀ dbg,
    a.intersect dbg b = .ok [] ∧
    (a.mirror (fun x => -x)).intersect dbg (b.mirror (fun x => -x)) = .ok (TineTree.demo [.closed (-5) (-4)]) :=
  ⟨TineTree.demo [.closed 0 1, .closed 4 5], TineTree.demo [.closed 4 5],
    TineTree.fromIter_reachable (dbg := true) (is := [.closed 0 1, .closed 4 5]) (by simp [RawInterval.WF]) rfl,
    TineTree.fromIter_reachable (dbg := true) (is := [.closed 4 5]) (by simp [RawInterval.WF]) rfl, by decide⟩

section
variable {α β : Type} [LinearOrder α] [LinearOrder β] [Finite α] [Finite β] {f : α → β}

/-- **C109.**  Between two lawful types, turning the order around completely is enough: the ends and the neighbours
follow along. -/
theorem C109_reflects [LawfulFinite α] [LawfulFinite β] (hf : StrictAnti f) (hs : Function.Surjective f) : Reflects f :=
  Reflects.of_surjective hf hs

/-- The reflection of `u8` used in the examples: `x ↦ !x`, which is `255 - x`. -/
def flip8 (x : U8) : U8 := ⟨255 - x.1, by have := x.2; omega⟩

theorem flip8_reflects : Reflects flip8 :=
  C109_reflects (fun a b h => by have h : a.1 < b.1 := h; change 255 - b.1 < 255 - a.1; omega)
    fun y => ⟨flip8 y, Subtype.ext (by change 255 - (255 - y.1) = y.1; omega)⟩

example : Reflects flip8 ∧ flip8 (u8 3) = u8 252 := ⟨flip8_reflects, by decide⟩

/-- **C109.**  The operations on normalized intervals, and one call of either iterator method. -/
theorem C109_interval (R : Reflects f) (a b : Interval α) (r : RawInterval α) (l u : Bound α) (x : α) :
    Interval.ofRaw (r.mirror f) = (Interval.ofRaw r).mirror f ∧
    Interval.new (u.map f) (l.map f) = (Interval.new l u).mirror f ∧
    (a.mirror f).contains (f x) = a.contains x ∧
    (a.mirror f).intersects (b.mirror f) = a.intersects b ∧
    (a.mirror f).isAdjacentTo (b.mirror f) = a.isAdjacentTo b ∧
    (a.mirror f).complement = (a.complement.map (Interval.mirror f)).reverse ∧
    (a.mirror f).closure = a.closure.mirror f ∧
    (a.mirror f).intersect (b.mirror f) = (a.intersect b).mirror f ∧
    (a.mirror f).enclose (b.mirror f) = (a.enclose b).mirror f ∧
    (a.mirror f).union (b.mirror f) = (a.union b).map (Interval.mirror f) ∧
    (a.mirror f).minus (b.mirror f) = ((a.minus b).map (Interval.mirror f)).reverse ∧
    (a.mirror f).next = a.nextBack.map (fun y => (y.1.map f, y.2.mirror f)) ∧
    (a.mirror f).nextBack = a.next.map (fun y => (y.1.map f, y.2.mirror f)) :=
  ⟨Interval.mir_ofRaw R r, Interval.mir_new R l u, RawInterval.mir_contains R.anti a.raw x,
    RawInterval.mir_intersects R.anti a.raw b.raw, RawInterval.mir_isAdjacentTo R.anti a.raw b.raw,
    Interval.mir_complement R a, Interval.mir_closure R a, Interval.mir_intersect R a b,
    Interval.mir_enclose R a b, Interval.mir_union R a b, Interval.mir_minus R a b, Interval.mir_next R a,
    Interval.mir_nextBack R a⟩

example : (Interval.mkOpen (u8 3) (u8 9)).nextBack = .ok (some (u8 8), ⟨.closed (u8 4) (u8 7)⟩) ∧
    ((Interval.mkOpen (u8 3) (u8 9)).mirror flip8).next = .ok (some (u8 247), ⟨.closed (u8 248) (u8 251)⟩) := by decide

variable [LawfulFinite α] [LawfulFinite β]

/-- **C109.**  The operations on selections other than `minus` and `intersect` of two selections. -/
theorem C109_selection (R : Reflects f) (dbg : Bool) (a b : Selection α) (ha : a.Reachable) (hb : b.Reachable)
    (i : Interval α) (hi : i.Obtainable) (is : List (Interval α)) (his : ∀ i ∈ is, i.Obtainable) (xs : List α) (x : α) :
    (a.mirror f).contains dbg (f x) = a.contains dbg x ∧
    (a.mirror f).complement dbg = (a.complement dbg).map (Selection.mirror f) ∧
    (a.mirror f).union dbg (b.mirror f) = (a.union dbg b).map (Selection.mirror f) ∧
    (a.mirror f).unionInPlace dbg (i.mirror f) = (a.unionInPlace dbg i).map (Selection.mirror f) ∧
    (a.mirror f).intersectInPlace dbg (i.mirror f) = (a.intersectInPlace dbg i).map (Selection.mirror f) ∧
    (a.mirror f).minusInPlace dbg (i.mirror f) = (a.minusInPlace dbg i).map (Selection.mirror f) ∧
    (a.mirror f).extend dbg (is.map (Interval.mirror f)) = (a.extend dbg is).map (Selection.mirror f) ∧
    Selection.fromIntervals dbg (is.map (Interval.mirror f)) = (Selection.fromIntervals dbg is).map (Selection.mirror f) ∧
    Selection.fromPoints dbg (xs.map f) = (Selection.fromPoints dbg xs).map (Selection.mirror f) ∧
    Selection.ofInterval (i.mirror f) = (Selection.ofInterval i).mirror f ∧
    (Selection.full : Selection β) = (Selection.full : Selection α).mirror f := by
  have va := Selection.reachable_valid ha
  exact ⟨TT.mir_contains R.anti dbg va x, Selection.wrap_mir (TT.mir_complement R.anti dbg va),
    Selection.wrap_mir (TT.mir_union R.anti dbg va (Selection.reachable_valid hb)),
    Selection.mir_unionInPlace R dbg va hi, Selection.mir_intersectInPlace R dbg va hi,
    Selection.mir_minusInPlace R dbg va hi, Selection.mir_extend R dbg is a va his, Selection.mir_fromIntervals R dbg is his,
    Selection.mir_fromPoints R dbg xs, Selection.mir_ofInterval R hi, Selection.mir_full R⟩

example : (Selection.demo [(u8 3, u8 5)]).Reachable ∧ (Interval.mkClosed (u8 6) (u8 8)).Obtainable ∧
    (Selection.demo [(u8 3, u8 5)]).unionInPlace true (Interval.mkClosed (u8 6) (u8 8)) = .ok (Selection.demo [(u8 3, u8 8)]) ∧
    ((Selection.demo [(u8 3, u8 5)]).mirror flip8).unionInPlace true (Interval.mkClosed (u8 247) (u8 249)) =
      .ok (Selection.demo [(u8 247, u8 252)]) :=
  ⟨(Selection.demo_built _ (by decide)).reachable, .mkClosed _ _, by decide, by decide⟩

/-- **C109.**  What a selection says about itself and the intervals it yields. -/
theorem C109_selection_reads (R : Reflects f) (dbg : Bool) (s : Selection α) (hs : s.Reachable) :
    (s.mirror f).isEmpty = s.isEmpty ∧ (s.mirror f).isFull = s.isFull ∧
    (s.mirror f).lowerBound dbg = (s.upperBound dbg).map (Option.map (Bound.map · f)) ∧
    (s.mirror f).upperBound dbg = (s.lowerBound dbg).map (Option.map (Bound.map · f)) ∧
    (s.mirror f).infimum = s.supremum.map f ∧
    (s.mirror f).supremum = s.infimum.map f ∧
    (s.mirror f).enclose dbg = (s.enclose dbg).map (Interval.mirror f) ∧
    (s.mirror f).closure dbg = (s.closure dbg).map (Interval.mirror f) ∧
    (s.mirror f).intervals dbg = (s.intervals dbg).map (fun is => (is.map (Interval.mirror f)).reverse) := by
  have v := Selection.reachable_valid hs
  have vm : Valid (s.mirror f).tree := valid_mir R.anti v
  obtain ⟨-, -, -, t1, t2, -⟩ := C109_tree_reads R.anti dbg s.tree (TT.valid_reachable v) Finite.minimum
  have hp : pieces none (s.mirror f).tree = ((pieces none s.tree).map (RawInterval.mirror f)).reverse := pieces_mir R.anti v
  refine ⟨isEmpty_mir s.tree, isFull_mir s.tree, ?_, ?_, ?_, ?_, Selection.mir_enclose R dbg v, Selection.mir_closure R dbg v,
    Selection.mir_intervals R dbg v⟩
  · rw [Selection.lowerBound_eq dbg vm, Selection.upperBound_eq dbg v, hp, List.head?_reverse, List.getLast?_map]
    cases (pieces none s.tree).getLast? with
    | none => rfl
    | some i =>
      show Except.ok (Selection.run (i.mirror f)).lowerBound = Except.ok _
      rw [Selection.mir_run R]; exact congrArg Except.ok (RawInterval.mir_lowerBound _)
  · rw [Selection.upperBound_eq dbg vm, Selection.lowerBound_eq dbg v, hp, List.getLast?_reverse, List.head?_map]
    cases (pieces none s.tree).head? with
    | none => rfl
    | some i =>
      show Except.ok (Selection.run (i.mirror f)).upperBound = Except.ok _
      rw [Selection.mir_run R]; exact congrArg Except.ok (RawInterval.mir_upperBound _)
  · show (TineTree.lowerBound (s.tree.mirror f)).bind Bound.asRef = _
    rw [t1, Selection.supremum]
    cases TineTree.upperBound s.tree with
    | none => rfl
    | some b => cases b <;> rfl
  · show (TineTree.upperBound (s.tree.mirror f)).bind Bound.asRef = _
    rw [t2, Selection.infimum]
    cases TineTree.lowerBound s.tree with
    | none => rfl
    | some b => cases b <;> rfl

example : (Selection.demo [(u8 3, u8 5), (u8 9, u8 9)]).Reachable ∧
    (Selection.demo [(u8 3, u8 5), (u8 9, u8 9)]).upperBound true = .ok (some (.incl (u8 9))) ∧
    ((Selection.demo [(u8 3, u8 5), (u8 9, u8 9)]).mirror flip8).lowerBound true = .ok (some (.incl (u8 246))) ∧
    ((Selection.demo [(u8 3, u8 5), (u8 9, u8 9)]).mirror flip8).intervals true =
      .ok [⟨.closed (u8 246) (u8 246)⟩, ⟨.closed (u8 250) (u8 252)⟩] :=
  ⟨(Selection.demo_built _ (by decide)).reachable, by decide, by decide, by decide⟩

/-- **C109, `minus` of selections.**  Missing: right selections that were not built by unions alone. -/
theorem C109_selection_minus_partial (R : Reflects f) (dbg : Bool) (a b : Selection α) (ha : a.Reachable)
    (hb : b.UnionBuilt) : (a.mirror f).minus dbg (b.mirror f) = (a.minus dbg b).map (Selection.mirror f) := by
  have vb := Selection.reachable_valid hb.reachable
  exact Selection.wrap_mir (TT.mir_minus R.anti dbg (Selection.reachable_valid ha) vb
    fun p hp => absurd rfl (Selection.do_pieces vb hb.do hp p))

example : (Selection.demo [(u8 3, u8 5), (u8 7, u8 9)]).Reachable ∧ (Selection.demo [(u8 4, u8 6)]).UnionBuilt ∧
    (Selection.demo [(u8 3, u8 5), (u8 7, u8 9)]).minus true (Selection.demo [(u8 4, u8 6)]) =
      .ok ⟨[.lower (.excl (u8 2)), .upper (.incl (u8 3)), .lower (.incl (u8 7)), .upper (.excl (u8 10))]⟩ :=
  ⟨(Selection.demo_built _ (by decide)).reachable, Selection.demo_built _ (by decide), by decide⟩

/-- **C109, `minus` of any selections.**  Missing: right selections with a single point at which an interval of the tree of the
left ends or starts without including it. -/
theorem C109_selection_minus_any_partial (R : Reflects f) (dbg : Bool) (a b : Selection α) (ha : a.Reachable)
    (hb : b.Reachable) (as bs : List (RawInterval α)) (has : a.tree.intervals dbg = .ok as)
    (hbs : b.tree.intervals dbg = .ok bs)
    (hp : ∀ p, .point p ∈ bs → ¬ RawInterval.OpenEnd as p ∧ ¬ RawInterval.OpenStart as p) :
    (a.mirror f).minus dbg (b.mirror f) = (a.minus dbg b).map (Selection.mirror f) :=
  Selection.wrap_mir (C109_minus_partial R.anti dbg a.tree b.tree (TT.valid_reachable (Selection.reachable_valid ha))
    (TT.valid_reachable (Selection.reachable_valid hb)) as bs has hbs hp)

/-- The right selection has the single point 3, in the middle of the left. -/
example : Selection.Reachable (.full : Selection U8) ∧
    Selection.complement true (Selection.demo [(u8 0, u8 2), (u8 4, u8 255)]) = .ok ⟨[.point (.incl (u8 3))]⟩ ∧
    TineTree.intervals true (Selection.full : Selection U8).tree = .ok [.full] ∧
    TineTree.intervals true [Tine.point (.incl (u8 3))] = .ok [.point (u8 3)] ∧
    ¬ RawInterval.OpenEnd [(.full : RawInterval U8)] (u8 3) ∧ ¬ RawInterval.OpenStart [(.full : RawInterval U8)] (u8 3) :=
  ⟨.full, by decide, by decide, by decide, by simp [RawInterval.OpenEnd, RawInterval.upperBound], by simp [RawInterval.OpenStart, RawInterval.lowerBound]⟩

/-- **C109, `intersect` of selections.**  It is symmetric exactly if the two walks through the intervals of the
underlying trees bring the same pairs together. -/
theorem C109_selection_intersect_iff (R : Reflects f) (dbg : Bool) (a b : Selection α) (ha : a.Reachable)
    (hb : b.Reachable) (as bs : List (RawInterval α)) (has : a.tree.intervals dbg = .ok as)
    (hbs : b.tree.intervals dbg = .ok bs) :
    (a.mirror f).intersect dbg (b.mirror f) = (a.intersect dbg b).map (Selection.mirror f) ↔
      ∀ s o, s.intersects o = true → (Together RawInterval.intersects as bs s o ↔
        Together RawInterval.intersects as.reverse bs.reverse s o) := by
  have va := Selection.reachable_valid ha
  have vb := Selection.reachable_valid hb
  rw [TT.intervals_eq dbg va] at has
  rw [TT.intervals_eq dbg vb] at hbs
  cases has; cases hbs
  rw [← TT.mir_intersect_iff R.anti dbg va vb]
  refine ⟨fun h => ?_, Selection.wrap_mir⟩
  obtain ⟨t, e, -, -⟩ := TT.intersect_eq dbg va vb
  obtain ⟨u, e', -, -⟩ := TT.intersect_eq dbg (TT.valid_mir R.anti va) (TT.valid_mir R.anti vb)
  have h' : (do .ok ⟨← (a.tree.mirror f).intersect dbg (b.tree.mirror f)⟩ : Except Panic (Selection β)) =
      (do .ok ⟨← a.tree.intersect dbg b.tree⟩ : Except Panic (Selection α)).map (Selection.mirror f) := h
  rw [e, e'] at h' ⊢
  simpa [Except.map, bind, Except.bind, Selection.mirror] using h'

example : (Selection.demo [(u8 0, u8 1), (u8 6, u8 7)]).Reachable ∧ (Selection.demo [(u8 6, u8 7)]).Reachable ∧
    (Selection.demo [(u8 0, u8 1), (u8 6, u8 7)]).intersect true (Selection.demo [(u8 6, u8 7)]) = .ok ⟨[]⟩ ∧
    ((Selection.demo [(u8 0, u8 1), (u8 6, u8 7)]).mirror flip8).intersect true
      ((Selection.demo [(u8 6, u8 7)]).mirror flip8) ≠ .ok ⟨[]⟩ :=
  ⟨(Selection.demo_built _ (by decide)).reachable, (Selection.demo_built _ (by decide)).reachable, by decide, by decide⟩

/-- **C109.**  For a selection built by unions, the intervals of the mirrored selection are those that backward iteration
yields exactly if no single value is missing between two of its values. -/
theorem C109_selection_back_iff (R : Reflects f) (dbg : Bool) (s : Selection α) (hs : s.UnionBuilt) :
    (s.mirror f).intervals dbg = (s.intervalsBack dbg).map (List.map (Interval.mirror f)) ↔ ¬ OneMissing (s.pts dbg) := by
  have v := Selection.reachable_valid hs.reachable
  have e := Selection.intervals_eq dbg v
  rw [← C73_intervals_iff dbg s hs _ e, Selection.mir_intervals R dbg v, e]
  have inj : Function.Injective (Interval.mirror f) := fun x y h => by
    cases x; cases y
    simp only [Interval.mirror, Interval.mk.injEq] at h
    rw [TT.mirror_inj R.anti h]
  constructor
  · intro h
    cases hb : s.intervalsBack dbg with
    | error p => rw [hb] at h; cases h
    | ok js =>
      rw [hb] at h
      simp only [Except.map, Except.ok.injEq, ← List.map_reverse] at h
      rw [← (List.map_inj_right inj).1 h, List.map_reverse]
  · intro h
    rw [h]; simp only [Except.map, List.map_reverse]

example : (Selection.demo [(u8 2, u8 2), (u8 4, u8 4)]).UnionBuilt ∧
    OneMissing (Selection.pts true (Selection.demo [(u8 2, u8 2), (u8 4, u8 4)])) :=
  ⟨Selection.demo_built _ (by decide), u8 2, u8 3, u8 4, by decide, by decide,
    show Selection.contains true _ _ = .ok true by decide, show Selection.contains true _ _ = .ok true by decide,
    show ¬ Selection.contains true _ _ = .ok true by decide⟩
end

/-- `[0,1] ∪ [6,7]` and `[6,7]` as selections of `u8`: `intersects` is false, and true for their mirror images. -/
theorem C109_selection_counterexample : ∃ a b : Selection U8, a.UnionBuilt ∧ b.UnionBuilt ∧ ∀ dbg,
    a.intersects dbg b = .ok false ∧ (a.mirror flip8).intersects dbg (b.mirror flip8) = .ok true ∧
    (a.mirror flip8).intersect dbg (b.mirror flip8) ≠ (a.intersect dbg b).map (Selection.mirror flip8) :=
  ⟨Selection.demo [(u8 0, u8 1), (u8 6, u8 7)], Selection.demo [(u8 6, u8 7)], Selection.demo_built _ (by decide),
    Selection.demo_built _ (by decide), by decide⟩

end NI
