import Verif.Lemmas.Twice
import Verif.Props.Minus
import Verif.Props.Back
import Verif.Props.Cut
import Verif.Props.Walk

/-! # The same operation again (C111), and a value with itself (C112) -/

namespace NI
open _root_.NI.Finite TT

section Tree
variable {α : Type} [LinearOrder α]

/-! ## C111 -/

/-- **C111.**  Adding something a second time changes nothing. -/
theorem C111_union (dbg : Bool) (a b t : TineTree α) (ha : a.Reachable) (hb : b.Reachable) (i : RawInterval α) (hi : i.WF) :
    (a.unionInPlace dbg i = .ok t → t.unionInPlace dbg i = .ok t) ∧ (a.union dbg b = .ok t → t.union dbg b = .ok t) :=
  ⟨unionInPlace_twice dbg (reachable_valid ha) hi, union_twice dbg (reachable_valid ha) (reachable_valid hb)⟩

example : TineTree.unionInPlace true (TineTree.demo [.closed (0 : Int) 2]) (.opn 2 5) =
      .ok (TineTree.demo [.rightOpen 0 5]) ∧
    TineTree.unionInPlace true (TineTree.demo [.rightOpen (0 : Int) 5]) (.opn 2 5) = .ok (TineTree.demo [.rightOpen 0 5]) := by
  decide

/-- **C111.**  Removing an interval with two ends a second time changes nothing exactly if no single missing point of
the tree is an included end of the interval.  The second removal always gives the difference, and after that
nothing changes any more. -/
theorem C111_minus_in_place_iff (dbg : Bool) (t : TineTree α) (ht : t.Reachable) (i : RawInterval α) (hi : i.WF)
    (h2 : i.TwoEnded) (is : List (RawInterval α)) (his : TineTree.intervals dbg t = .ok is) :
    ∃ t1 t2, t.minusInPlace dbg i = .ok t1 ∧ t1.minusInPlace dbg i = .ok t2 ∧ t2.minusInPlace dbg i = .ok t2 ∧
      t1.Reachable ∧ t2.Reachable ∧
      (∀ x, t2.contains dbg x = .ok true ↔ t1.contains dbg x = .ok true ∧ x ∉ i.pts) ∧
      (t1.minusInPlace dbg i = .ok t1 ↔ ∀ p, RawInterval.Hole is p → i.IsBound p → p ∉ i.pts) := by
  have v := reachable_valid ht
  rw [TT.intervals_eq dbg v] at his
  cases his
  obtain ⟨t1, e1, v1, -⟩ := minusTwo_ok dbg v hi h2.2
  have hb := fromRaw_valid hi
  obtain ⟨t2, e2, v2, c2, e3, h⟩ := minus_again dbg v hb (by
    intro p hp
    rw [pieces_one hi h2.1, List.mem_singleton] at hp
    exact h2.2 p hp.symm) ((minus_one dbg t hi h2.1).trans e1)
  rw [minus_one dbg _ hi h2.1] at e2 e3
  refine ⟨t1, t2, e1, e2, e3, valid_reachable v1, valid_reachable v2, fun x => ?_, ?_⟩
  · rw [TT.contains_iff dbg v2, TT.contains_iff dbg v1, c2, Bool.and_eq_true, Bool.not_eq_true',
      ← RawInterval.contains_iff, ← icov_fin hi]
    simp [icov, tcov]
  · rw [e2, show (Except.ok t2 = (Except.ok t1 : Except Panic _) ↔ t2 = t1) from ⟨fun h => by cases h; rfl, fun h => by rw [h]⟩,
      h, pieces_one hi h2.1]
    simp only [List.mem_singleton, exists_eq_left]
    constructor
    · intro h p hp hb
      have := h (.fin p) ((hole_iff v p).2 hp) ((TT.endAt_iff i p).2 hb)
      rw [← RawInterval.contains_iff, ← icov_fin hi]
      simpa [icov, tcov] using this
    · intro h k hk he
      cases k with
      | bot => rw [(hole_inf v).1] at hk; cases hk
      | top => rw [(hole_inf v).2] at hk; cases hk
      | fin p =>
        have := h p ((hole_iff v p).1 hk) ((TT.endAt_iff i p).1 he)
        rw [← RawInterval.contains_iff, ← icov_fin hi] at this
        simpa [icov, tcov] using this

/-- The missing point 4 comes back when `[4,6]` is removed, and goes when it is removed again. -/
example : TineTree.intervals true (TineTree.demo [.opn (0 : Int) 4, .opn 4 9]) = .ok [.opn 0 4, .opn 4 9] ∧
    TineTree.minusInPlace true (TineTree.demo [.opn (0 : Int) 4, .opn 4 9]) (.closed 4 6) =
      .ok (TineTree.demo [.leftOpen 0 4, .opn 6 9]) ∧
    TineTree.minusInPlace true (TineTree.demo [.leftOpen (0 : Int) 4, .opn 6 9]) (.closed 4 6) =
      .ok (TineTree.demo [.opn 0 4, .opn 6 9]) := by
  decide

/-- **C111.**  Removing a single point a second time, if the first removal was right: it changes nothing exactly if the
point was not in the tree, or was there on its own. -/
theorem C111_minus_point_iff (dbg : Bool) (t t' : TineTree α) (ht : t.Reachable) (p : α) (is : List (RawInterval α))
    (his : TineTree.intervals dbg t = .ok is) (hs : ¬ RawInterval.OpenEnd is p ∧ ¬ RawInterval.OpenStart is p)
    (e : t.minusInPlace dbg (.point p) = .ok t') :
    t'.minusInPlace dbg (.point p) = .ok t' ↔ (t.contains dbg p ≠ .ok true ∨ .point p ∈ is) := by
  have v := reachable_valid ht
  rw [TT.intervals_eq dbg v] at his
  cases his
  rw [minusPoint_twice dbg v ?_ e, ne_eq, TT.contains_iff dbg v, Bool.not_eq_true]
  rw [RawInterval.OpenEnd, RawInterval.OpenStart, open_upper_iff v, open_lower_iff v] at hs
  simp only [MinusOk]
  generalize bef false t (.fin p) = b, tcov t false (.fin p) = a, tcov t true (.fin p) = c at *
  clear * - hs
  cases a <;> cases b <;> cases c <;> simp_all

example : TineTree.intervals true (TineTree.demo [.closed (0 : Int) 4, .point 6]) = .ok [.closed 0 4, .point 6] ∧
    TineTree.minusInPlace true (TineTree.demo [.closed (0 : Int) 4, .point 6]) (.point 6) = .ok (TineTree.demo [.closed 0 4]) ∧
    TineTree.minusInPlace true (TineTree.demo [.closed (0 : Int) 4]) (.point 6) = .ok (TineTree.demo [.closed 0 4]) := by
  decide

/-- **C111.**  Removing a tree without single points a second time: as for intervals. -/
theorem C111_minus_iff (dbg : Bool) (a b : TineTree α) (ha : a.Reachable) (hb : b.Reachable)
    (as bs : List (RawInterval α)) (has : TineTree.intervals dbg a = .ok as) (hbs : TineTree.intervals dbg b = .ok bs)
    (hp : ∀ p, .point p ∉ bs) :
    ∃ t1 t2, a.minus dbg b = .ok t1 ∧ t1.minus dbg b = .ok t2 ∧ t2.minus dbg b = .ok t2 ∧ t1.Reachable ∧ t2.Reachable ∧
      (∀ x, t2.contains dbg x = .ok true ↔ t1.contains dbg x = .ok true ∧ b.contains dbg x ≠ .ok true) ∧
      (t1.minus dbg b = .ok t1 ↔ ∀ p, RawInterval.Hole as p → (∃ i ∈ bs, i.IsBound p) → b.contains dbg p ≠ .ok true) := by
  have va := reachable_valid ha
  have vb := reachable_valid hb
  rw [TT.intervals_eq dbg va] at has
  rw [TT.intervals_eq dbg vb] at hbs
  cases has; cases hbs
  obtain ⟨t1, e1, v1, -⟩ := minus_eq dbg va vb fun p h => absurd h (hp p)
  obtain ⟨t2, e2, v2, c2, e3, h⟩ := minus_again dbg va vb hp e1
  refine ⟨t1, t2, e1, e2, e3, valid_reachable v1, valid_reachable v2, fun x => ?_, ?_⟩
  · rw [TT.contains_iff dbg v2, TT.contains_iff dbg v1, ne_eq, TT.contains_iff dbg vb, c2, Bool.and_eq_true,
      Bool.not_eq_true', Bool.not_eq_true]
  · rw [e2, show (Except.ok t2 = (Except.ok t1 : Except Panic _) ↔ t2 = t1) from ⟨fun h => by cases h; rfl, fun h => by rw [h]⟩, h]
    constructor
    · rintro h p hp ⟨i, hi, hb⟩
      rw [ne_eq, TT.contains_iff dbg vb, Bool.not_eq_true]
      exact h (.fin p) ((hole_iff va p).2 hp) ⟨i, hi, (TT.endAt_iff i p).2 hb⟩
    · rintro h k hk ⟨i, hi, he⟩
      cases k with
      | bot => rw [(hole_inf va).1] at hk; cases hk
      | top => rw [(hole_inf va).2] at hk; cases hk
      | fin p =>
        have := h p ((hole_iff va p).1 hk) ⟨i, hi, (TT.endAt_iff i p).1 he⟩
        rwa [ne_eq, TT.contains_iff dbg vb, Bool.not_eq_true] at this

example : TineTree.intervals true (TineTree.demo [.opn (0 : Int) 4, .opn 4 9]) = .ok [.opn 0 4, .opn 4 9] ∧
    TineTree.intervals true (TineTree.demo [.opn (2 : Int) 4, .opn 6 7]) = .ok [.opn 2 4, .opn 6 7] ∧
    TineTree.minus true (TineTree.demo [.opn (0 : Int) 4, .opn 4 9]) (TineTree.demo [.opn 2 4, .opn 6 7]) =
      .ok (TineTree.demo [.leftOpen 0 2, .closed 4 6, .rightOpen 7 9]) := by
  decide

/-- **C111.**  Cutting a tree down to an interval with two ends a second time, if the first cut was right: it changes
nothing exactly if nothing is left, or the result reaches both ends of the interval (or, without debug assertions,
has both as single points). -/
theorem C111_intersect_in_place_iff (dbg : Bool) (t t' : TineTree α) (ht : t.Reachable) (ht0 : t.isEmpty = false)
    (i : RawInterval α) (hi : i.WF) (h2 : i.TwoEnded) (hf : i ≠ .full) (is : List (RawInterval α))
    (his : TineTree.intervals dbg t = .ok is) (hc : RawInterval.CutClean dbg is i)
    (e : t.intersectInPlace dbg i = .ok t') (l u : Bound α) (hl : i.lowerBound = some l) (hu : i.upperBound = some u) :
    ∃ is', TineTree.intervals dbg t' = .ok is' ∧ (t'.intersectInPlace dbg i = .ok t' ↔ t'.isEmpty = true ∨
      (RawInterval.CoversAbove is' (Tine.lower l).pos ∧ RawInterval.CoversBelow is' (Tine.upper u).pos) ∨
      (dbg = false ∧ ¬ RawInterval.CoversAbove is' (Tine.lower l).pos ∧ ¬ RawInterval.CoversBelow is' (Tine.upper u).pos ∧
        RawInterval.CoversAt is' (Tine.lower l).pos ∧ RawInterval.CoversAt is' (Tine.upper u).pos)) := by
  have v := reachable_valid ht
  rw [TT.intervals_eq dbg v] at his
  cases his
  have ht0 : t ≠ [] := by simpa [TineTree.isEmpty] using ht0
  obtain ⟨r, vr, -, hr⟩ := intersectInPlace_sharp dbg v ht0 hi h2 hf
  have := hr.2 hc
  rw [e] at this
  cases this
  refine ⟨_, TT.intervals_eq dbg vr, ?_⟩
  rw [intersectInPlace_twice dbg v ht0 hi h2 hf hc e hl hu]
  simp [TineTree.isEmpty]

example : TineTree.intersectInPlace true (TineTree.demo [.closed (0 : Int) 4, .closed 6 9]) (.closed 2 7) =
      .ok (TineTree.demo [.closed 2 4, .closed 6 7]) ∧
    TineTree.intersectInPlace true (TineTree.demo [.closed (2 : Int) 4, .closed 6 7]) (.closed 2 7) =
      .ok (TineTree.demo [.closed 2 4, .closed 6 7]) ∧
    RawInterval.CutClean true [.closed (0 : Int) 4, .closed 6 9] (.closed 2 7) := by
  refine ⟨by decide, by decide, _, _, rfl, rfl, .inl ⟨⟨.closed 0 4, by simp, _, _, rfl, rfl, ?_⟩,
    ⟨.closed 6 9, by simp, _, _, rfl, rfl, ?_⟩⟩⟩ <;> decide

/-- **C111.**  With a single point, nothing or everything, cutting again changes nothing. -/
theorem C111_intersect_in_place_simple (dbg : Bool) (t t' : TineTree α) (ht : t.Reachable) (i : RawInterval α)
    (hi : (∃ p, i = .point p) ∨ i = .empty ∨ i = .full) (e : t.intersectInPlace dbg i = .ok t') :
    t'.intersectInPlace dbg i = .ok t' := by
  have v := reachable_valid ht
  rcases hi with ⟨p, rfl⟩ | rfl | rfl
  · have h0 : TineTree.intersectInPlace dbg ([] : TineTree α) (.point p) = .ok [] := by
      simp [TineTree.intersectInPlace, TineTree.isEmpty]
    rw [TineTree.intersectInPlace] at e
    by_cases hb : (TineTree.isEmpty t || (RawInterval.point p).isFull) = true
    · rw [if_pos hb] at e
      cases e
      rw [TineTree.intersectInPlace, if_pos hb]
    · rw [if_neg hb, if_neg (by simp [RawInterval.isEmpty])] at e
      simp only [contains_eq dbg v, bind, Except.bind] at e
      split_ifs at e
      · cases e
        have c := contains_eq dbg (fromRaw_valid (i := RawInterval.point p) trivial) p
        rw [pieces_one (i := .point p) trivial (by simp)] at c
        rw [tree_fromRaw (i := .point p) trivial]
        simp only [TineTree.intersectInPlace, c, bind, Except.bind]
        simp [TineTree.isEmpty, RawInterval.isFull, RawInterval.isEmpty, RawInterval.contains,
          tree_fromRaw (i := RawInterval.point p) trivial]
      · cases e
        exact h0
  · simp only [TineTree.intersectInPlace] at e
    by_cases hb : TineTree.isEmpty t = true
    · rw [hb] at e
      cases e
      simp [TineTree.intersectInPlace, hb]
    · simp only [hb, RawInterval.isFull, RawInterval.isEmpty, Bool.or_self, if_true] at e
      cases e
      simp [TineTree.intersectInPlace, TineTree.isEmpty, TineTree.new]
  · simp only [TineTree.intersectInPlace, RawInterval.isFull, Bool.or_true, if_true] at e ⊢

example : TineTree.intersectInPlace true (TineTree.demo [.closed (0 : Int) 4, .closed 6 9]) (.point 7) =
    .ok (TineTree.demo [.point 7]) := by decide

/-- **C111.**  Intersecting with the same tree a second time changes nothing exactly if all intervals of the result that
meet an interval of the tree come together with it in the walk. -/
theorem C111_intersect_iff (dbg : Bool) (a b t : TineTree α) (ha : a.Reachable) (hb : b.Reachable)
    (e : a.intersect dbg b = .ok t) (ts bs : List (RawInterval α)) (hts : TineTree.intervals dbg t = .ok ts)
    (hbs : TineTree.intervals dbg b = .ok bs) :
    t.intersect dbg b = .ok t ↔
      ∀ s ∈ ts, ∀ o ∈ bs, s.intersects o = true → Together RawInterval.intersects ts bs s o := by
  have va := reachable_valid ha
  have vb := reachable_valid hb
  rw [TT.intervals_eq dbg (intersect_within dbg va vb e).1] at hts
  rw [TT.intervals_eq dbg vb] at hbs
  cases hts; cases hbs
  exact intersect_twice dbg va vb e

example : TineTree.intersect true (TineTree.demo [.closed (0 : Int) 2, .closed 6 9])
      (TineTree.demo [.closed 0 1, .closed 3 4, .closed 7 8]) = .ok (TineTree.demo [.closed 0 1, .closed 7 8]) ∧
    TineTree.intersect true (TineTree.demo [.closed (0 : Int) 1, .closed 7 8])
      (TineTree.demo [.closed 0 1, .closed 3 4, .closed 7 8]) = .ok (TineTree.demo [.closed 0 1, .closed 7 8]) := by
  decide

/-- Without the conditions: removing or cutting again gives something else, a broken tree or a panic. -/
theorem C111_counterexample :
    (∃ t t1 t2 : TineTree Int, t.Reachable ∧ ∀ dbg, t.minusInPlace dbg (.closed 4 6) = .ok t1 ∧
      t1.minusInPlace dbg (.closed 4 6) = .ok t2 ∧ t1 ≠ t2) ∧
    (∃ t t1 t2 : TineTree Int, t.Reachable ∧ t1.Reachable ∧ ∀ dbg, t.minusInPlace dbg (.point 4) = .ok t1 ∧
      t1.minusInPlace dbg (.point 4) = .ok t2 ∧ t1 ≠ t2 ∧ ∃ e, t2.intervals true = .error e) ∧
    (∃ t t1 : TineTree Int, t.Reachable ∧ ∀ dbg, t.intersectInPlace dbg (.closed 2 7) = .ok t1 ∧
      ∃ e, t1.intersectInPlace dbg (.closed 2 7) = .error e) ∧
    ∃ a b t1 t2 : TineTree Int, a.Reachable ∧ b.Reachable ∧ ∀ dbg, a.intersect dbg b = .ok t1 ∧
      t1.intersect dbg b = .ok t2 ∧ t1 ≠ t2 := by
  refine ⟨⟨TineTree.demo [.opn 0 4, .opn 4 9], TineTree.demo [.leftOpen 0 4, .opn 6 9], TineTree.demo [.opn 0 4, .opn 6 9],
      TineTree.fromIter_reachable (dbg := true) (is := [.opn 0 4, .opn 4 9]) (by simp [RawInterval.WF]) rfl, by decide⟩,
    ⟨TineTree.demo [.closed 0 4], TineTree.demo [.rightOpen 0 4], [.lower (.incl 0)],
      TineTree.fromIter_reachable (dbg := true) (is := [.closed 0 4]) (by simp [RawInterval.WF]) rfl,
      TineTree.fromIter_reachable (dbg := true) (is := [.rightOpen 0 4]) (by simp [RawInterval.WF]) rfl,
      fun dbg => ⟨by revert dbg; decide, by revert dbg; decide, by decide, _, rfl⟩⟩,
    ⟨TineTree.demo [.closed 0 4, .closed 10 14], TineTree.demo [.closed 2 4],
      TineTree.fromIter_reachable (dbg := true) (is := [.closed 0 4, .closed 10 14]) (by simp [RawInterval.WF]) rfl,
      fun dbg => ⟨by revert dbg; decide, .unreachable, by revert dbg; decide⟩⟩,
    ⟨TineTree.demo [.closed 0 9], TineTree.demo [.closed 1 2, .closed 4 5], TineTree.demo [.closed 1 2, .closed 4 5],
      TineTree.demo [.closed 1 2],
      TineTree.fromIter_reachable (dbg := true) (is := [.closed 0 9]) (by simp [RawInterval.WF]) rfl,
      TineTree.fromIter_reachable (dbg := true) (is := [.closed 1 2, .closed 4 5]) (by simp [RawInterval.WF]) rfl, by decide⟩⟩

/-! ## C112 -/

/-- **C112.**  A raw interval with itself. -/
theorem C112_raw (a : RawInterval α) (ha : a.WF) : a.intersect a = a ∧ a.enclose a = a ∧ a.minus a = [] ∧
    (a.union a = if a.isEmpty then [] else [a]) ∧ (a.intersects a = !a.isEmpty) := by
  have hm : a.minus a = [] := by
    cases a with
    | opn l r | leftOpen l r | rightOpen l r | closed l r =>
      have ha : l < r := ha
      have h1 := not_le.2 ha
      have h2 := ha.not_gt
      simp [RawInterval.minus, RawInterval.complement, RawInterval.intersect, RawInterval.lowerBound,
        RawInterval.upperBound, Bound.greatestIntersect, Bound.leastIntersect, RawInterval.new, RawInterval.isEmpty,
        RawInterval.mkOpen, RawInterval.mkClosed, RawInterval.mkLeftOpen, RawInterval.mkRightOpen, Bound.asRef,
        Bound.isInclusive, Bound.isExclusive, h1, h2]
    | _ =>
      simp [RawInterval.minus, RawInterval.complement, RawInterval.intersect, RawInterval.lowerBound,
        RawInterval.upperBound, Bound.greatestIntersect, Bound.leastIntersect, RawInterval.new, RawInterval.isEmpty,
        RawInterval.mkOpen, Bound.asRef, Bound.isInclusive, Bound.isExclusive]
  have hi := RawInterval.intersect_self ha
  have he := RawInterval.enclose_self ha
  have hs : a.intersects a = !a.isEmpty := by rw [RawInterval.intersects, hi]
  refine ⟨hi, he, hm, ?_, hs⟩
  rw [RawInterval.union]
  cases h : a.isEmpty
  · simp [hs, h, he]
  · rfl

example : (RawInterval.leftOpen (0 : Int) 4).union (.leftOpen 0 4) = [.leftOpen 0 4] ∧
    (RawInterval.leftOpen (0 : Int) 4).minus (.leftOpen 0 4) = [] := by decide

/-- **C112.**  A tree united with itself is the same tree. -/
theorem C112_union (dbg : Bool) (a : TineTree α) (ha : a.Reachable) : a.union dbg a = .ok a :=
  union_self dbg (reachable_valid ha)

example : TineTree.union true (TineTree.demo [.opn (0 : Int) 4, .point 4, .closed 7 8])
    (TineTree.demo [.opn 0 4, .point 4, .closed 7 8]) = .ok (TineTree.demo [.leftOpen 0 4, .closed 7 8]) ∧ 
    TineTree.demo [.opn (0 : Int) 4, .point 4, .closed 7 8] = TineTree.demo [.leftOpen 0 4, .closed 7 8] := by decide

/-- **C112.**  A tree intersected with itself keeps its first interval only. -/
theorem C112_intersect (dbg : Bool) (a : TineTree α) (ha : a.Reachable) (as : List (RawInterval α))
    (has : a.intervals dbg = .ok as) :
    ∃ t, a.intersect dbg a = .ok t ∧ t.Reachable ∧ t.intervals dbg = .ok (as.take 1) ∧
      (a.intersect dbg a = .ok a ↔ as.length ≤ 1) := by
  have va := reachable_valid ha
  rw [TT.intervals_eq dbg va] at has
  cases has
  obtain ⟨t, e, v, h⟩ := intersect_self dbg va
  refine ⟨t, e, valid_reachable v, by rw [TT.intervals_eq dbg v, h], ?_⟩
  rw [e]
  constructor
  · intro h'
    cases h'
    have := congrArg List.length h
    rw [List.length_take] at this
    omega
  · intro h'
    rw [List.take_of_length_le h'] at h
    have h1 := fromIter_pieces dbg v
    rw [h, fromIter_pieces dbg va] at h1
    exact h1.symm

example : TineTree.intervals true (TineTree.demo [.closed (0 : Int) 1, .closed 3 4]) = .ok [.closed 0 1, .closed 3 4] ∧
    TineTree.intersect true (TineTree.demo [.closed (0 : Int) 1, .closed 3 4]) (TineTree.demo [.closed 0 1, .closed 3 4]) =
      .ok (TineTree.demo [.closed 0 1]) := by decide

/-- **C112.**  A tree minus itself consists of its single missing points, so it is empty exactly if there are none. -/
theorem C112_minus (dbg : Bool) (a : TineTree α) (ha : a.Reachable) (as : List (RawInterval α))
    (has : a.intervals dbg = .ok as) :
    ∃ t, a.minus dbg a = .ok t ∧ t.Reachable ∧ (∀ x, t.contains dbg x = .ok true ↔ RawInterval.Hole as x) ∧
      (a.minus dbg a = .ok .new ↔ ∀ x, ¬ RawInterval.Hole as x) := by
  have va := reachable_valid ha
  rw [TT.intervals_eq dbg va] at has
  cases has
  obtain ⟨t, e, v, c⟩ := minus_eq dbg va va fun p hp => .inl ((point_iff va p).1 hp).2.1
  have hx : ∀ x, t.contains dbg x = .ok true ↔ RawInterval.Hole (pieces none a) x := fun x => by
    rw [TT.contains_iff dbg v, c, RawInterval.Hole, RawInterval.OpenEnd, RawInterval.OpenStart, ← hole_iff va]
    simp only [Bool.and_not_self, Bool.false_or, Bool.not_false, Bool.true_and, Bool.and_eq_true, decide_eq_true_eq,
      and_iff_left_iff_imp]
    intro h
    obtain ⟨⟨i, hi, hu⟩, -⟩ := (hole_iff va x).1 h
    exact ⟨i, hi, (TT.endAt_iff i x).2 (.inr ⟨_, hu, rfl⟩)⟩
  refine ⟨t, e, valid_reachable v, hx, ?_⟩
  rw [e]
  constructor
  · intro h x hh
    cases h
    have := (TT.contains_iff dbg v x).1 ((hx x).2 hh)
    cases this
  · intro h
    congr 1
    refine valid_ext v valid_nil fun aft k hr => ?_
    rw [← tcov, c]
    cases hk : holeAt a k
    · simp [cov, TineTree.new]
    · cases k with
      | bot => rw [(hole_inf va).1] at hk; cases hk
      | top => rw [(hole_inf va).2] at hk; cases hk
      | fin p => exact absurd ((hole_iff va p).1 hk) (h p)

example : TineTree.intervals true (TineTree.demo [.opn (0 : Int) 1, .opn 1 4]) = .ok [.opn 0 1, .opn 1 4] ∧
    TineTree.minus true (TineTree.demo [.opn (0 : Int) 1, .opn 1 4]) (TineTree.demo [.opn 0 1, .opn 1 4]) =
      .ok (TineTree.demo [.point 1]) := by decide

end Tree

section Sel
variable {α : Type} [LinearOrder α] [Finite α] [LawfulFinite α]

/-- **C111.**  Selections: adding an interval, a list of intervals or a selection a second time changes nothing. -/
theorem C111_selection_union (dbg : Bool) (a b s : Selection α) (ha : a.Reachable) (hb : b.Reachable) (i : Interval α)
    (hi : i.Obtainable) (is : List (Interval α)) (his : ∀ i ∈ is, i.Obtainable) :
    (a.unionInPlace dbg i = .ok s → s.unionInPlace dbg i = .ok s) ∧
    (a.extend dbg is = .ok s → s.extend dbg is = .ok s) ∧
    (a.union dbg b = .ok s → s.union dbg b = .ok s) := by
  have va := Selection.reachable_valid ha
  have vb := Selection.reachable_valid hb
  refine ⟨fun e => ?_, fun e => ?_, fun e => ?_⟩
  · obtain ⟨s1, e1, v1, c1⟩ := Selection.unionInPlace_ok dbg va hi
    rw [e1] at e; cases e
    obtain ⟨s2, e2, v2, c2⟩ := Selection.unionInPlace_ok dbg v1 hi
    rw [e2]
    congr 1
    refine congrArg Selection.mk (valid_ext v2 v1 fun aft k _ => ?_)
    rw [← tcov, ← tcov, c2, c1, Bool.or_assoc, Bool.or_self]
  · obtain ⟨s1, e1, v1, c1⟩ := Selection.extend_ok dbg va his
    rw [e1] at e; cases e
    obtain ⟨s2, e2, v2, c2⟩ := Selection.extend_ok dbg v1 his
    rw [e2]
    congr 1
    refine congrArg Selection.mk (valid_ext v2 v1 fun aft k _ => ?_)
    rw [← tcov, ← tcov, c2, c1, Bool.or_assoc, Bool.or_self]
  · obtain ⟨s1, e1, v1, c1⟩ := Selection.union_ok dbg va vb
    rw [e1] at e; cases e
    obtain ⟨s2, e2, v2, c2⟩ := Selection.union_ok dbg v1 vb
    rw [e2]
    congr 1
    refine congrArg Selection.mk (valid_ext v2 v1 fun aft k _ => ?_)
    rw [← tcov, ← tcov, c2, c1, Bool.or_assoc, Bool.or_self]

example : Selection.unionInPlace true (Selection.demo [(u8 3, u8 5)]) (.mkClosed (u8 5) (u8 9)) =
      .ok (Selection.demo [(u8 3, u8 9)]) ∧
    Selection.unionInPlace true (Selection.demo [(u8 3, u8 9)]) (.mkClosed (u8 5) (u8 9)) =
      .ok (Selection.demo [(u8 3, u8 9)]) := by decide

/-- **C111.**  Selections: removing an interval a second time changes nothing, even if the first time filled in a
missing value. -/
theorem C111_selection_minus_in_place (dbg : Bool) (s s' : Selection α) (hs : s.Reachable) (i : Interval α)
    (hi : i.Obtainable) (e : s.minusInPlace dbg i = .ok s') : s'.minusInPlace dbg i = .ok s' := by
  have v := Selection.reachable_valid hs
  have hn := Interval.obtainable_nf hi
  have hw := RawInterval.denorm_wf hn
  obtain ⟨t1, e1, v1, -⟩ := minusTwo_ok dbg v hw (RawInterval.denorm_not_point hn)
  rw [Selection.minusInPlace, e1] at e
  cases e
  suffices h : TineTree.minusInPlace dbg t1 i.raw.denormalized = .ok t1 by rw [Selection.minusInPlace, h]; rfl
  by_cases h0 : i.raw.denormalized = .empty
  · rw [h0]
    simp [TineTree.minusInPlace, RawInterval.isEmpty]
  obtain ⟨t2, e2, v2, c2, -, h⟩ := minus_again dbg v (fromRaw_valid hw) (by
    intro p hp
    rw [pieces_one hw h0, List.mem_singleton] at hp
    exact RawInterval.denorm_not_point hn p hp.symm) ((minus_one dbg s.tree hw h0).trans e1)
  rw [minus_one dbg _ hw h0] at e2
  rw [e2, h.2]
  rintro k - ⟨j, hj, he⟩
  rw [pieces_one hw h0, List.mem_singleton] at hj
  subst hj
  obtain ⟨x, hx, rfl⟩ := he
  rcases fromRaw_cases hw with ⟨e0, e⟩ | ⟨p, e0, e⟩ | ⟨lb, ub, e, hk⟩
  · rw [e] at hx; cases hx
  · exact absurd e0 (RawInterval.denorm_not_point hn p)
  have hl : (Tine.lower lb).inclAt = false ∧ (Tine.upper ub).inclAt = false := by
    rcases RawInterval.denorm_open hn with g | ⟨a, b, g⟩ | ⟨a, g⟩ | ⟨b, g⟩ | g <;> rw [g] at e <;>
      simp only [Tine.fromRawInterval, List.cons.injEq, Tine.lower.injEq, Tine.upper.injEq, and_true, reduceCtorEq] at e
    all_goals
      obtain ⟨rfl, rfl⟩ := e
      exact ⟨rfl, rfl⟩
  rw [e] at hx ⊢
  simp only [List.mem_cons, List.not_mem_nil, or_false] at hx
  rw [tcov, cov_pair hk]
  rcases hx with rfl | rfl
  · simp [hl.1]
  · simp [hl.2, hk.not_gt, hk.ne']

/-- Removing `5..7` fills in 4; doing it again leaves it there. -/
example : Selection.minusInPlace true (Selection.demo [(u8 1, u8 3), (u8 5, u8 7)]) (.mkClosed (u8 5) (u8 6)) =
      .ok ⟨[.lower (.excl (u8 0)), .upper (.incl (u8 4)), .lower (.incl (u8 7)), .upper (.excl (u8 8))]⟩ ∧
    Selection.minusInPlace true ⟨[.lower (.excl (u8 0)), .upper (.incl (u8 4)), .lower (.incl (u8 7)), .upper (.excl (u8 8))]⟩
        (.mkClosed (u8 5) (u8 6)) =
      .ok ⟨[.lower (.excl (u8 0)), .upper (.incl (u8 4)), .lower (.incl (u8 7)), .upper (.excl (u8 8))]⟩ := by decide

/-- **C111.**  Selections: removing a selection built by unions a second time changes nothing. -/
theorem C111_selection_minus (dbg : Bool) (a b s : Selection α) (ha : a.Reachable) (hb : b.UnionBuilt)
    (e : a.minus dbg b = .ok s) : s.minus dbg b = .ok s := by
  have va := Selection.reachable_valid ha
  have vb := Selection.reachable_valid hb.reachable
  have op : ∀ i ∈ pieces none b.tree, OpenIv i := fun i hi => hb.do.open vb hi
  have np : ∀ p, .point p ∉ pieces none b.tree := fun p hp => (op _ hp p).1 rfl
  obtain ⟨t1, e1, v1, -⟩ := minus_eq dbg va vb fun p h => absurd h (np p)
  rw [Selection.minus, e1] at e
  cases e
  suffices h : TineTree.minus dbg t1 b.tree = .ok t1 by rw [Selection.minus, h]; rfl
  obtain ⟨t2, e2, v2, c2, -, h⟩ := minus_again dbg va vb np e1
  rw [e2, h.2]
  rintro k - ⟨i, hi, he⟩
  cases k with
  | bot => exact cov_unreal vb (by simp [RealPos])
  | top => exact cov_unreal vb (by simp [RealPos])
  | fin p =>
    rcases (TT.endAt_iff i p).1 he with ⟨c, h1, h2⟩ | ⟨c, h1, h2⟩
    · rcases c with x | x | _ <;> cases h2
      · exact absurd h1 (op i hi p).1
      · exact ((open_lower_iff vb p).1 ⟨i, hi, h1⟩).1
    · rcases c with x | x | _ <;> cases h2
      · exact absurd h1 (op i hi p).2
      · exact ((open_upper_iff vb p).1 ⟨i, hi, h1⟩).2

example : (Selection.demo [(u8 1, u8 3), (u8 5, u8 7)]).UnionBuilt ∧
    Selection.minus true (Selection.demo [(u8 0, u8 9)]) (Selection.demo [(u8 1, u8 3), (u8 5, u8 7)]) =
      .ok ⟨[.lower .inf, .upper (.incl (u8 0)), .point (.incl (u8 4)), .lower (.incl (u8 8)), .upper (.excl (u8 10))]⟩ ∧
    Selection.minus true
      ⟨[.lower .inf, .upper (.incl (u8 0)), .point (.incl (u8 4)), .lower (.incl (u8 8)), .upper (.excl (u8 10))]⟩
      (Selection.demo [(u8 1, u8 3), (u8 5, u8 7)]) =
      .ok ⟨[.lower .inf, .upper (.incl (u8 0)), .point (.incl (u8 4)), .lower (.incl (u8 8)), .upper (.excl (u8 10))]⟩ :=
  ⟨Selection.demo_built _ (by decide), by decide, by decide⟩

/-- **C111.**  Selections: cutting a selection built by unions down to `l..=u` a second time, if the first cut was
right: it changes nothing exactly if the selection reaches both ends of the interval. -/
theorem C111_selection_cut_iff (dbg : Bool) (s s' : Selection α) (hs : s.UnionBuilt) (l u : α) (hlu : l ≤ u)
    (hf : ¬ (l = minimum ∧ u = maximum)) (hc : s.CutWell dbg l u)
    (e : s.intersectInPlace dbg (Interval.mkClosed l u) = .ok s') :
    s'.intersectInPlace dbg (Interval.mkClosed l u) = .ok s' ↔ s.TouchesBelow dbg l ∧ s.TouchesAbove dbg u := by
  have v := Selection.reachable_valid hs.reachable
  have hw := RawInterval.denorm_wf (Interval.obtainable_nf (.mkClosed l u))
  have hfull : (Interval.mkClosed l u).raw.denormalized ≠ .full := by
    rw [Selection.closed_denorm hlu, ← LawfulFinite.pred_none, ← LawfulFinite.succ_none] at *
    simp only [RawInterval.denormalized]
    cases hp : pred l <;> cases hq : succ u <;> simp_all
  have htwo : (Interval.mkClosed l u).raw.denormalized.TwoEnded := by
    rw [Selection.closed_denorm hlu]
    simp only [RawInterval.denormalized]
    cases hp : pred l <;> cases hq : succ u <;> simp [RawInterval.TwoEnded]
  have hta : ∀ lb ub, Tine.fromRawInterval (Interval.mkClosed l u).raw.denormalized = [.lower lb, .upper ub] →
      (s.TouchesAbove dbg u ↔ bef false s.tree (Tine.upper ub).key = true) := by
    intro lb ub h
    have ta : s.TouchesAbove dbg u ↔ tcov s.tree true (.fin u) = true := by
      rw [hs.do.1, Selection.TouchesAbove]
      simp only [Selection.mem_pts dbg v, Bool.or_eq_true]
      cases succ u <;> simp
    rw [Selection.closed_denorm hlu] at h
    simp only [RawInterval.denormalized] at h
    rw [ta]
    cases hq : succ u with
    | none =>
      have : ub = .inf := by
        rw [hq] at h
        cases hp : pred l <;> rw [hp] at h <;> simp [Tine.fromRawInterval] at h <;> exact h.2.symm
      subst this
      rw [show (Tine.upper (Bound.inf : Bound α)).key = .top from rfl, bef_top, (LawfulFinite.succ_none u).1 hq]
    | some y =>
      have : ub = .excl y := by
        rw [hq] at h
        cases hp : pred l <;> rw [hp] at h <;> simp [Tine.fromRawInterval] at h <;> exact h.2.symm
      subst this
      rw [show (Tine.upper (Bound.excl y)).key = .fin y from rfl, bef_pred (pred_of_succ hq)]
  rcases fromRaw_cases hw with ⟨e0, -⟩ | ⟨p, e0, -⟩ | ⟨lb, ub, hfr, hk⟩
  · exact absurd e0 htwo.1
  · exact absurd e0 (htwo.2 p)
  obtain ⟨il, iu, ha, ha2, htb, hcw⟩ := Selection.cutWell_iff dbg s hs l u hlu hfr
  rw [hta lb ub hfr, htb]
  rw [Selection.intersectInPlace] at e ⊢
  generalize (Interval.mkClosed l u).raw.denormalized = i at *
  have hg := hcw.2 hc
  have ht0 : s.tree ≠ [] := by
    intro h0
    rw [h0] at hg
    simp [IsectGood, bef, tcov, cov] at hg
  have hcl : RawInterval.CutClean dbg (pieces none s.tree) i :=
    (cutClean_iff dbg v hw hfr hk).2 (by rw [il, iu, IsectSharp, hg]; rfl)
  obtain ⟨r, vr, cr, hr⟩ := intersectInPlace_sharp dbg v ht0 hw htwo hfull
  have er := hr.2 hcl
  rw [er] at e
  cases e
  have hs' : ((do .ok ⟨← r.intersectInPlace dbg i⟩) = (.ok ⟨r⟩ : Except Panic (Selection α))) ↔
      r.intersectInPlace dbg i = .ok r := by
    cases h : r.intersectInPlace dbg i with
    | error => exact iff_of_false (fun h => by cases h) fun h => by cases h
    | ok r' => exact ⟨fun h => by cases h; rfl, fun h => by cases h; rfl⟩
  refine hs'.trans ?_
  obtain ⟨b1, b2⟩ := bounds_of_tines hfr
  have cb : bef false r (Tine.upper ub).key = bef false s.tree (Tine.upper ub).key := by
    obtain ⟨k0, h0, h1⟩ := last_below (r ++ s.tree) (k := (Tine.upper ub).key) (lt_of_le_of_lt (key_bot_le _) hk)
    obtain ⟨k1, g0, g1, g2⟩ : ∃ k1, k0 ≤ k1 ∧ (Tine.lower lb).key ≤ k1 ∧ k1 < (Tine.upper ub).key :=
      ⟨max k0 (Tine.lower lb).key, le_max_left _ _, le_max_right _ _, max_lt h0 hk⟩
    rw [bef_cov g2 fun x hx hlt => h1 x (by simp [hx]) (lt_of_le_of_lt g0 hlt),
      bef_cov g2 fun x hx hlt => h1 x (by simp [hx]) (lt_of_le_of_lt g0 hlt), ← tcov, ← tcov, cr, icov, hfr, cov_pair hk]
    rcases lt_or_eq_of_le g1 with h | h
    · simp [h.not_gt, h.ne', g2]
    · simp [h]
  have cl : ∀ aft, tcov r aft (Tine.lower lb).key = (aft && tcov s.tree aft (Tine.lower lb).key) := by
    intro aft
    rw [cr, icov, hfr, cov_pair hk]
    cases aft <;> simp [il]
  have h0 : r = [] → tcov s.tree true (Tine.lower lb).key = false ∧ bef false s.tree (Tine.upper ub).key = false := by
    rintro rfl
    exact ⟨by simpa [tcov, cov] using (cl true).symm, cb.symm⟩
  rw [intersectInPlace_twice dbg v ht0 hw htwo hfull hcl er b1 b2, Tine.pos_eq, Tine.pos_eq, coversAbove_iff vr,
    coversBelow_iff vr, coversAt_iff vr, coversAt_iff vr, cb, cl, cl]
  generalize bef false s.tree (Tine.lower lb).key = b, tcov s.tree false (Tine.lower lb).key = a,
    tcov s.tree true (Tine.lower lb).key = c, bef false s.tree (Tine.upper ub).key = d,
    tcov s.tree false (Tine.upper ub).key = a2, tcov s.tree true (Tine.upper ub).key = e at *
  clear * - ha ha2 hg h0
  simp only [Bool.true_and, Bool.false_and, Bool.false_eq_true, false_and, and_false, or_false]
  constructor
  · rintro (h | h)
    · obtain ⟨rfl, rfl⟩ := h0 h
      cases a <;> cases a2 <;> simp_all [IsectGood]
    · exact h
  · exact .inr

example : (Selection.demo [(u8 1, u8 4), (u8 6, u8 9)]).UnionBuilt ∧
    Selection.intersectInPlace true (Selection.demo [(u8 1, u8 4), (u8 6, u8 9)]) (.mkClosed (u8 3) (u8 7)) =
      .ok (Selection.demo [(u8 3, u8 4), (u8 6, u8 7)]) ∧
    Selection.intersectInPlace true (Selection.demo [(u8 3, u8 4), (u8 6, u8 7)]) (.mkClosed (u8 3) (u8 7)) =
      .ok (Selection.demo [(u8 3, u8 4), (u8 6, u8 7)]) ∧
    Selection.TouchesBelow true (Selection.demo [(u8 1, u8 4), (u8 6, u8 9)]) (u8 3) :=
  ⟨Selection.demo_built _ (by decide), by decide, by decide, .inl (show Selection.contains true _ _ = _ by decide)⟩

/-- Without reaching the upper end, the second cut panics. -/
theorem C111_selection_counterexample : ∃ s : Selection U8, s.UnionBuilt ∧ ∀ dbg,
    s.intersectInPlace dbg (.mkClosed (u8 3) (u8 9)) = .ok (Selection.demo [(u8 3, u8 4)]) ∧
    ∃ e, (Selection.demo [(u8 3, u8 4)]).intersectInPlace dbg (.mkClosed (u8 3) (u8 9)) = .error e :=
  ⟨Selection.demo [(u8 1, u8 4), (u8 20, u8 22)], Selection.demo_built _ (by decide),
    fun dbg => ⟨by revert dbg; decide, .unreachable, by revert dbg; decide⟩⟩

/-- **C111.**  Selections: intersecting with the same selection a second time. -/
theorem C111_selection_intersect_iff (dbg : Bool) (a b s : Selection α) (ha : a.Reachable) (hb : b.Reachable)
    (e : a.intersect dbg b = .ok s) (ts bs : List (RawInterval α)) (hts : s.tree.intervals dbg = .ok ts)
    (hbs : b.tree.intervals dbg = .ok bs) :
    s.intersect dbg b = .ok s ↔
      ∀ i ∈ ts, ∀ o ∈ bs, i.intersects o = true → Together RawInterval.intersects ts bs i o := by
  have va := Selection.reachable_valid ha
  have vb := Selection.reachable_valid hb
  obtain ⟨t, e1, v, -⟩ := intersect_eq dbg va vb
  rw [Selection.intersect, e1] at e
  cases e
  rw [← C111_intersect_iff dbg a.tree b.tree t (valid_reachable va) (valid_reachable vb) e1 ts bs hts hbs, Selection.intersect]
  obtain ⟨t2, e2, -⟩ := intersect_eq dbg v vb
  rw [e2]
  constructor
  · intro h; cases h; rfl
  · intro h; cases h; rfl

example : Selection.intersect true (Selection.demo [(u8 0, u8 9)]) (Selection.demo [(u8 1, u8 2), (u8 5, u8 6)]) =
      .ok (Selection.demo [(u8 1, u8 2), (u8 5, u8 6)]) ∧
    Selection.intersect true (Selection.demo [(u8 1, u8 2), (u8 5, u8 6)]) (Selection.demo [(u8 1, u8 2), (u8 5, u8 6)]) =
      .ok (Selection.demo [(u8 1, u8 2)]) := by decide

/-! ## C112, intervals and selections -/

/-- **C112.**  Nothing is left of an interval without itself.  United with itself, an interval is one interval (none if it
is empty) with the same points, unless it has no points but does not report itself empty. -/
theorem C112_interval (a : Interval α) (ha : a.Obtainable) : a.minus a = [] ∧
    ((a.union a).length ≤ 1 ↔ a.Real) ∧ (∀ x, (∃ i ∈ a.union a, i.contains x = true) ↔ a.contains x = true) ∧
    ((a.union a).Pairwise fun i j => i = j) ∧ ∀ x, (a.intersect a).contains x = a.contains x := by
  have hi : ∀ x, (a.intersect a).contains x = a.contains x := fun x => by
    rw [Bool.eq_iff_iff, (C27_set_operations a a x).1, and_self]
  rcases Interval.obtainable_cases ha with rfl | ⟨p, rfl⟩ | ⟨l, u, rfl, h⟩
  · exact ⟨rfl, by simp [Interval.union, RawInterval.union, RawInterval.isEmpty, Interval.Real, Interval.isEmpty], by
      simp [Interval.union, RawInterval.union, RawInterval.isEmpty, Interval.contains, RawInterval.contains], .nil, hi⟩
  · obtain ⟨h1, h2, h3, h4, h5⟩ := C112_raw (RawInterval.point p) trivial
    simp only [RawInterval.isEmpty, Bool.false_eq_true, if_false] at h4
    have hu : Interval.union (⟨.point p⟩ : Interval α) ⟨.point p⟩ = [⟨.point p⟩] := by
      rw [Interval.union, h4]; rfl
    refine ⟨by rw [Interval.minus, h3]; rfl, ?_, by simp [hu], by simp [hu], hi⟩
    rw [hu]
    exact iff_of_true (by simp) (.inr ⟨p, by simp [Interval.contains, RawInterval.contains]⟩)
  · rcases lt_trichotomy l u with g | rfl | g
    · obtain ⟨h1, h2, h3, h4, h5⟩ := C112_raw (RawInterval.closed l u) g
      simp only [RawInterval.isEmpty, Bool.false_eq_true, if_false] at h4
      have hu : Interval.union (⟨.closed l u⟩ : Interval α) ⟨.closed l u⟩ = [⟨.closed l u⟩] := by
        rw [Interval.union, h4]; rfl
      refine ⟨by rw [Interval.minus, h3]; rfl, ?_, by simp [hu], by simp [hu], hi⟩
      rw [hu]
      exact iff_of_true (by simp) (.inr ⟨l, by simp [Interval.contains, RawInterval.contains, g.le]⟩)
    · have hu : Interval.union (⟨.closed l l⟩ : Interval α) ⟨.closed l l⟩ = [⟨.point l⟩] := by
        simp [Interval.union, RawInterval.union, RawInterval.isEmpty, RawInterval.intersects, RawInterval.intersect,
          RawInterval.lowerBound, RawInterval.upperBound, Bound.greatestIntersect, Bound.leastIntersect, Bound.asRef,
          Bound.isInclusive, Bound.isExclusive, RawInterval.new, RawInterval.mkClosed, RawInterval.enclose,
          Bound.leastUnion, Bound.greatestUnion, RawInterval.normalized]
      refine ⟨?_, ?_, fun x => ?_, by simp [hu], hi⟩
      · simp [Interval.minus, RawInterval.minus, RawInterval.complement, RawInterval.isEmpty, RawInterval.intersect,
          RawInterval.lowerBound, RawInterval.upperBound, Bound.greatestIntersect, Bound.leastIntersect, Bound.asRef,
          Bound.isInclusive, Bound.isExclusive]
      · rw [hu]
        exact iff_of_true (by simp) (.inr ⟨l, by simp [Interval.contains, RawInterval.contains]⟩)
      · rw [hu]
        simp only [List.mem_singleton, exists_eq_left, Interval.contains, RawInterval.contains, Bool.and_eq_true,
          decide_eq_true_eq]
        exact ⟨fun h => ⟨h.ge, h.le⟩, fun h => le_antisymm h.2 h.1⟩
    · have hu : Interval.union (⟨.closed l u⟩ : Interval α) ⟨.closed l u⟩ = [⟨.closed l u⟩, ⟨.closed l u⟩] := by
        simp [Interval.union, RawInterval.union, RawInterval.isEmpty, RawInterval.intersects, RawInterval.intersect,
          RawInterval.lowerBound, RawInterval.upperBound, Bound.greatestIntersect, Bound.leastIntersect, Bound.asRef,
          Bound.isInclusive, Bound.isExclusive, RawInterval.new, RawInterval.mkClosed, RawInterval.isAdjacentTo,
          Bound.isUnionAdjacentTo, RawInterval.normalized, g.not_gt, g.ne']
      refine ⟨?_, ?_, fun x => by simp [hu], by simp [hu], hi⟩
      · simp [Interval.minus, RawInterval.minus, RawInterval.complement, RawInterval.isEmpty, RawInterval.intersect,
          RawInterval.lowerBound, RawInterval.upperBound, Bound.greatestIntersect, Bound.leastIntersect, Bound.asRef,
          Bound.isInclusive, Bound.isExclusive, RawInterval.new, RawInterval.mkClosed, g.not_gt, g.ne', g]
      · rw [hu]
        refine iff_of_false (by simp) ?_
        rintro (h | ⟨x, h⟩)
        · cases h
        · simp only [Interval.contains, RawInterval.contains, Bool.and_eq_true, decide_eq_true_eq] at h
          exact absurd (h.1.trans h.2) (not_le.2 g)

/-- The interval between two neighbours, united with itself, is listed twice. -/
example : (Interval.mkOpen (u8 3) (u8 4)).union (.mkOpen (u8 3) (u8 4)) = [.mkOpen (u8 3) (u8 4), .mkOpen (u8 3) (u8 4)] ∧
    (Interval.mkOpen (u8 3) (u8 9)).union (.mkOpen (u8 3) (u8 9)) = [.mkOpen (u8 3) (u8 9)] ∧
    (Interval.mkOpen (u8 3) (u8 9)).minus (.mkOpen (u8 3) (u8 9)) = [] := by decide

/-- **C112.**  A selection with itself. -/
theorem C112_selection (dbg : Bool) (a : Selection α) (ha : a.Reachable) (is : List (Interval α))
    (his : a.intervals dbg = .ok is) :
    a.union dbg a = .ok a ∧
    ∃ s, a.intersect dbg a = .ok s ∧ s.Reachable ∧ s.intervals dbg = .ok (is.take 1) ∧
      (a.intersect dbg a = .ok a ↔ is.length ≤ 1) := by
  have v := Selection.reachable_valid ha
  rw [Selection.intervals_eq dbg v] at his
  cases his
  obtain ⟨t, e, vt, h⟩ := intersect_self dbg v
  have es : a.intersect dbg a = .ok ⟨t⟩ := by rw [Selection.intersect, e]; rfl
  obtain ⟨t', e', -, -, h3⟩ := C112_intersect dbg a.tree (valid_reachable v) _ (TT.intervals_eq dbg v)
  rw [e] at e' h3
  cases e'
  refine ⟨by rw [Selection.union, union_self dbg v]; rfl, ⟨t⟩, es, .intersect ha ha es, ?_, ?_⟩
  · rw [Selection.intervals_eq dbg (s := ⟨t⟩) vt, h, List.map_take]
  · rw [es, List.length_map, ← h3]
    constructor
    · intro h; cases h; rfl
    · intro h; cases h; rfl

example : Selection.intervals true (Selection.demo [(u8 1, u8 2), (u8 5, u8 6)]) =
      .ok [.mkClosed (u8 1) (u8 2), .mkClosed (u8 5) (u8 6)] ∧
    Selection.intersect true (Selection.demo [(u8 1, u8 2), (u8 5, u8 6)]) (Selection.demo [(u8 1, u8 2), (u8 5, u8 6)]) =
      .ok (Selection.demo [(u8 1, u8 2)]) := by decide

/-- **C112.**  A selection built by unions minus itself contains the values that are missing on their own, so it is
empty exactly if there are none. -/
theorem C112_selection_minus (dbg : Bool) (a : Selection α) (ha : a.UnionBuilt) :
    ∃ s, a.minus dbg a = .ok s ∧ s.Reachable ∧
      (∀ x, x ∈ s.pts dbg ↔ x ∉ a.pts dbg ∧ (∃ p ∈ a.pts dbg, pred x = some p) ∧ ∃ q ∈ a.pts dbg, succ x = some q) ∧
      (a.minus dbg a = .ok .new ↔ ¬ OneMissing (a.pts dbg)) := by
  have v := Selection.reachable_valid ha.reachable
  obtain ⟨t, e, ht, hx, hn⟩ := C112_minus dbg a.tree (valid_reachable v) _ (TT.intervals_eq dbg v)
  have vt := reachable_valid ht
  have es : a.minus dbg a = .ok ⟨t⟩ := by rw [Selection.minus, e]; rfl
  have hh : ∀ x, RawInterval.Hole (pieces none a.tree) x ↔
      (x ∉ a.pts dbg ∧ (∃ p ∈ a.pts dbg, pred x = some p) ∧ ∃ q ∈ a.pts dbg, succ x = some q) := fun x => by
    rw [RawInterval.Hole, RawInterval.OpenEnd, RawInterval.OpenStart, ← hole_iff v, ha.do.hole]
    simp only [Selection.mem_pts dbg v]
    cases pred x <;> cases succ x <;> simp [and_assoc]
  refine ⟨⟨t⟩, es, .minus ha.reachable ha.reachable es ht, fun x => ?_, ?_⟩
  · rw [← hh, ← hx]; rfl
  · have : a.minus dbg a = .ok .new ↔ TineTree.minus dbg a.tree a.tree = .ok .new := by
      rw [es, e]
      constructor
      · intro h; cases h; rfl
      · intro h; cases h; rfl
    rw [this, hn]
    simp only [hh, OneMissing]
    constructor
    · rintro h ⟨p, x, q, h1, h2, h3, h4, h5⟩
      exact h x ⟨h5, ⟨p, h3, h1⟩, q, h4, h2⟩
    · rintro h x ⟨h5, ⟨p, h3, h1⟩, q, h4, h2⟩
      exact h ⟨p, x, q, h1, h2, h3, h4, h5⟩

example : (Selection.demo [(u8 1, u8 3), (u8 6, u8 7)]).UnionBuilt ∧
    Selection.minus true (Selection.demo [(u8 1, u8 3), (u8 6, u8 7)]) (Selection.demo [(u8 1, u8 3), (u8 6, u8 7)]) =
      .ok .new := ⟨Selection.demo_built _ (by decide), by decide⟩

/-- `{1,2,3,5,6,7}` minus itself is `{4}`. -/
theorem C112_counterexample : ∃ a : Selection U8, a.UnionBuilt ∧ ∀ dbg,
    a.minus dbg a = .ok ⟨[.point (.incl (u8 4))]⟩ ∧ a.intersect dbg a = .ok (Selection.demo [(u8 1, u8 3)]) :=
  ⟨Selection.demo [(u8 1, u8 3), (u8 5, u8 7)], Selection.demo_built _ (by decide), by decide⟩

end Sel
end NI
