import Verif.Lemmas.Walk
import Verif.Props.Exact

/-!
# What `intersect` gives for every pair of trees: more on C41 and C52

`intersect` walks through the intervals of the right tree with a finger on those of the left one, and
forms the intersection of each pair that comes together.
-/

set_option linter.unusedSimpArgs false
set_option linter.unusedVariables false
set_option linter.unusedSectionVars false

namespace NI
open Finite TT

section Tree
variable {α : Type} [LinearOrder α]

/-! ## C41 -/

/-- The points of the result are those that two intervals share that come together in the walk, and the
result is empty exactly if no two intervals that come together meet. -/
theorem C41_formula (dbg : Bool) (a b : TineTree α) (ha : a.Reachable) (hb : b.Reachable)
    (as bs : List (RawInterval α)) (has : TineTree.intervals dbg a = .ok as)
    (hbs : TineTree.intervals dbg b = .ok bs) :
    ∃ t, TineTree.intersect dbg a b = .ok t ∧ t.Reachable ∧
      (∀ x, TineTree.contains dbg t x = .ok true ↔
        ∃ s o, Together RawInterval.intersects as bs s o ∧ x ∈ s.pts ∧ x ∈ o.pts) ∧
      (t.isEmpty = true ↔ ∀ s o, Together RawInterval.intersects as bs s o → s.intersects o = false) := by
  have va := TT.reachable_valid ha
  have vb := TT.reachable_valid hb
  rw [TT.intervals_eq dbg va, Except.ok.injEq] at has
  rw [TT.intervals_eq dbg vb, Except.ok.injEq] at hbs
  subst has hbs
  obtain ⟨t, e, v, e2⟩ := TT.intersect_eq dbg va vb
  obtain ⟨t', e', v', c'⟩ := TT.fromIter_ok dbg (TT.isectList (TT.pieces none a) (TT.pieces none b))
    (fun i hi => by obtain ⟨s, _, o, _, rfl⟩ := TT.isectList_mem hi; exact RawInterval.intersect_wf s o)
  rw [e2] at e'; cases e'
  refine ⟨t, e, valid_reachable v, fun x => ?_, ?_⟩
  · rw [TT.contains_iff dbg v, c', List.any_eq_true]
    constructor
    · rintro ⟨r, hr, hx⟩
      obtain ⟨s, o, h1, h2, rfl⟩ := (isectList_together r _ _).1 hr
      rw [TT.icov_fin (RawInterval.intersect_wf s o), RawInterval.intersect_contains,
        RawInterval.contains_iff, RawInterval.contains_iff] at hx
      exact ⟨s, o, h1, hx⟩
    · rintro ⟨s, o, h1, h2, h3⟩
      refine ⟨s.intersect o, (isectList_together _ _ _).2 ⟨s, o, h1, (C08_symm s o).1 ⟨x, h2, h3⟩, rfl⟩, ?_⟩
      rw [TT.icov_fin (RawInterval.intersect_wf s o), RawInterval.intersect_contains,
        RawInterval.contains_iff, RawInterval.contains_iff]
      exact ⟨h2, h3⟩
  · rw [TineTree.isEmpty, List.isEmpty_iff, TT.fromIter_nil (fun i hi => by
      obtain ⟨s, _, o, _, rfl⟩ := TT.isectList_mem hi; exact RawInterval.intersect_wf s o) e2]
    constructor
    · intro h s o hso
      by_contra hne
      rw [Bool.not_eq_false] at hne
      have := h _ ((isectList_together _ _ _).2 ⟨s, o, hso, hne, rfl⟩)
      rw [RawInterval.intersects, this] at hne
      cases hne
    · intro h i hi
      obtain ⟨s, o, h1, h2, rfl⟩ := (isectList_together _ _ _).1 hi
      rw [h s o h1] at h2; cases h2

example : (TineTree.demo [.closed 0 1, .closed 4 5]).Reachable ∧
    TineTree.intervals true (TineTree.demo [.closed (0 : Int) 1, .closed 4 5]) = .ok [.closed 0 1, .closed 4 5] ∧
    TineTree.intervals true (TineTree.demo [.closed (0 : Int) 5, .closed 7 8]) = .ok [.closed 0 5, .closed 7 8] :=
  ⟨TineTree.fromIter_reachable (dbg := true) (is := [.closed 0 1, .closed 4 5]) (by simp [RawInterval.WF]) rfl, by decide,
    by decide⟩

/-- `TineTree::intersect` is exact if and only if all intervals that share a point come together in the
walk. -/
theorem C41_exact_iff_together (dbg : Bool) (a b : TineTree α) (ha : a.Reachable) (hb : b.Reachable)
    (as bs : List (RawInterval α)) (has : TineTree.intervals dbg a = .ok as)
    (hbs : TineTree.intervals dbg b = .ok bs) :
    (∃ t, TineTree.intersect dbg a b = .ok t ∧
      ∀ x, TineTree.contains dbg t x = .ok true ↔
        (TineTree.contains dbg a x = .ok true ∧ TineTree.contains dbg b x = .ok true)) ↔
    ∀ s ∈ as, ∀ o ∈ bs, (∃ x, x ∈ s.pts ∧ x ∈ o.pts) → Together RawInterval.intersects as bs s o := by
  obtain ⟨t, e, -, hx, -⟩ := C41_formula dbg a b ha hb as bs has hbs
  obtain ⟨as', e1, -, p1, c1, -⟩ := C45_iteration dbg a ha
  obtain ⟨bs', e2, -, p2, c2, -⟩ := C45_iteration dbg b hb
  rw [has] at e1; rw [hbs] at e2
  cases e1; cases e2
  constructor
  · rintro ⟨t', e', h⟩ s hs o ho ⟨x, h1, h2⟩
    rw [e] at e'; cases e'
    obtain ⟨s', o', h3, h4, h5⟩ := (hx x).1 ((h x).2 ⟨(c1 x).2 ⟨s, hs, h1⟩, (c2 x).2 ⟨o, ho, h2⟩⟩)
    rwa [TT.eq_of_shared (pts := RawInterval.pts) (p1.imp And.left) hs h3.mem.1 h1 h4,
      TT.eq_of_shared (pts := RawInterval.pts) (p2.imp And.left) ho h3.mem.2 h2 h5]
  · intro h
    refine ⟨t, e, fun x => (hx x).trans ⟨?_, ?_⟩⟩
    · rintro ⟨s, o, h1, h2, h3⟩
      exact ⟨(c1 x).2 ⟨s, h1.mem.1, h2⟩, (c2 x).2 ⟨o, h1.mem.2, h3⟩⟩
    · rintro ⟨h1, h2⟩
      obtain ⟨s, hs, h1⟩ := (c1 x).1 h1
      obtain ⟨o, ho, h2⟩ := (c2 x).1 h2
      exact ⟨s, o, h s hs o ho ⟨x, h1, h2⟩, h1, h2⟩

/-- The walk for two lists that are not in lock step: the finger is on the first interval when the second
interval of the right list is reached, so the overlap of `4..5` with it is lost. -/
example : Together RawInterval.intersects [.closed (0 : Int) 1, .closed 4 5] [.closed 0 5, .closed 7 8]
      (.closed 0 1) (.closed 0 5) ∧
    Together RawInterval.intersects [.closed (0 : Int) 1, .closed 4 5] [.closed 0 5, .closed 7 8]
      (.closed 0 1) (.closed 7 8) ∧
    TineTree.intersect true (TineTree.demo [.closed (0 : Int) 1, .closed 4 5])
      (TineTree.demo [.closed 0 5, .closed 7 8]) = .ok (TineTree.demo [.closed 0 1]) :=
  ⟨⟨0, by decide, by decide⟩, ⟨1, by decide, by decide⟩, by decide⟩

end Tree

variable {α : Type} [LinearOrder α] [Finite α] [LawfulFinite α]

/-! ## C52 -/

/-- The raw intervals behind two union-built selections meet exactly if the intervals are near. -/
theorem near_run {dbg : Bool} {a b : Selection α} (ha : a.UnionBuilt) (hb : b.UnionBuilt)
    {near : Interval α → Interval α → Bool} (hn : ∀ i j, near i j = true ↔ i.Near j) :
    ∀ i ∈ pieces none a.tree, ∀ j ∈ pieces none b.tree,
      near (Selection.run i) (Selection.run j) = i.intersects j := by
  have va := Selection.reachable_valid ha.reachable
  have vb := Selection.reachable_valid hb.reachable
  have ga := Selection.np_good va ha.do.np
  have gb := Selection.np_good vb hb.do.np
  intro i hi j hj
  rw [Bool.eq_iff_iff, hn, open_intersects (ga i hi).1 (gb j hj).1 (ha.do.open va hi)
    (hb.do.open vb hj) (ga i hi).2 (gb j hj).2]
  simp only [Interval.Near, Selection.run_pts, Set.mem_ofPred_eq]

/-- What `intersect` and `intersects` give for union-built selections: the points of the result are those
that two intervals share that come together in the walk, and `intersects` tells whether two intervals that
come together are near. -/
theorem C52_formula (dbg : Bool) (a b : Selection α) (ha : a.UnionBuilt) (hb : b.UnionBuilt)
    (as bs : List (Interval α)) (has : a.intervals dbg = .ok as) (hbs : b.intervals dbg = .ok bs)
    (near : Interval α → Interval α → Bool) (hn : ∀ i j, near i j = true ↔ i.Near j) :
    (∃ s, a.intersect dbg b = .ok s ∧
      ∀ x, x ∈ s.pts dbg ↔ ∃ i j, Together near as bs i j ∧ x ∈ i.pts ∧ x ∈ j.pts) ∧
    ∃ r, a.intersects dbg b = .ok r ∧ (r = true ↔ ∃ i j, Together near as bs i j ∧ i.Near j) := by
  have va := Selection.reachable_valid ha.reachable
  have vb := Selection.reachable_valid hb.reachable
  rw [Selection.intervals_eq dbg va, Except.ok.injEq] at has
  rw [Selection.intervals_eq dbg vb, Except.ok.injEq] at hbs
  subst has hbs
  have hm := near_run (dbg := dbg) ha hb hn
  obtain ⟨t, e, -, hx, hne⟩ := C41_formula dbg a.tree b.tree (valid_reachable va) (valid_reachable vb) _ _
    (TT.intervals_eq dbg va) (TT.intervals_eq dbg vb)
  constructor
  · refine ⟨⟨t⟩, by rw [Selection.intersect, e]; rfl, fun x => (hx x).trans ⟨?_, ?_⟩⟩
    · rintro ⟨s, o, h, h1, h2⟩
      refine ⟨_, _, (together_map hm _ _).2 ⟨s, rfl, o, rfl, h⟩, ?_, ?_⟩
      · rw [Selection.run_pts]; exact (RawInterval.contains_iff s x).2 h1
      · rw [Selection.run_pts]; exact (RawInterval.contains_iff o x).2 h2
    · rintro ⟨i, j, h, h1, h2⟩
      obtain ⟨s, rfl, o, rfl, h'⟩ := (together_map hm _ _).1 h
      rw [Selection.run_pts] at h1 h2
      exact ⟨s, o, h', (RawInterval.contains_iff s x).1 h1, (RawInterval.contains_iff o x).1 h2⟩
  · refine ⟨!t.isEmpty, by rw [Selection.intersects, e]; rfl, ?_⟩
    rw [Bool.not_eq_true', ← Bool.not_eq_true, hne]
    push Not
    simp only [ne_eq, Bool.not_eq_false]
    constructor
    · rintro ⟨s, o, h, h1⟩
      exact ⟨_, _, (together_map hm _ _).2 ⟨s, rfl, o, rfl, h⟩, (hn _ _).1 (by
        rw [hm s h.mem.1 o h.mem.2, h1])⟩
    · rintro ⟨i, j, h, h1⟩
      obtain ⟨s, rfl, o, rfl, h'⟩ := (together_map hm _ _).1 h
      exact ⟨s, o, h', by rw [← hm s h'.mem.1 o h'.mem.2]; exact (hn _ _).2 h1⟩

example : (Selection.demo [(u8 0, u8 5)]).UnionBuilt ∧ (Selection.demo [(u8 2, u8 3), (u8 5, u8 9)]).UnionBuilt ∧
    (∃ near : Interval U8 → Interval U8 → Bool, ∀ i j, near i j = true ↔ i.Near j) ∧
    Selection.intersect true (Selection.demo [(u8 0, u8 5)]) (Selection.demo [(u8 2, u8 3), (u8 5, u8 9)]) =
      .ok (Selection.demo [(u8 2, u8 3), (u8 5, u8 5)]) :=
  ⟨Selection.demo_built _ (by decide), Selection.demo_built _ (by decide),
    ⟨fun i j => @decide (i.Near j) (Classical.propDecidable _), fun i j => by simp⟩, by decide⟩

/-- Union-built selections are intersected exactly if and only if all their intervals that share a point
come together in the walk. -/
theorem C52_exact_iff (dbg : Bool) (a b : Selection α) (ha : a.UnionBuilt) (hb : b.UnionBuilt)
    (as bs : List (Interval α)) (has : a.intervals dbg = .ok as) (hbs : b.intervals dbg = .ok bs)
    (near : Interval α → Interval α → Bool) (hn : ∀ i j, near i j = true ↔ i.Near j) :
    (∃ s, a.intersect dbg b = .ok s ∧ s.pts dbg = a.pts dbg ∩ b.pts dbg) ↔
      ∀ i ∈ as, ∀ j ∈ bs, i.Overlap j → Together near as bs i j := by
  obtain ⟨⟨s, e, hx⟩, -⟩ := C52_formula dbg a b ha hb as bs has hbs near hn
  obtain ⟨as', e1, -, p1, c1⟩ := C56_cover_partial dbg a ha.reachable
  obtain ⟨bs', e2, -, p2, c2⟩ := C56_cover_partial dbg b hb.reachable
  rw [has] at e1; rw [hbs] at e2
  cases e1; cases e2
  have c1 : ∀ x, x ∈ a.pts dbg ↔ ∃ i ∈ as, x ∈ i.pts := c1
  have c2 : ∀ x, x ∈ b.pts dbg ↔ ∃ i ∈ bs, x ∈ i.pts := c2
  constructor
  · rintro ⟨s', e', h⟩ i hi j hj ⟨x, h1, h2⟩
    rw [e] at e'; cases e'
    have : x ∈ s.pts dbg := by rw [h]; exact ⟨(c1 x).2 ⟨i, hi, h1⟩, (c2 x).2 ⟨j, hj, h2⟩⟩
    obtain ⟨i', j', h3, h4, h5⟩ := (hx x).1 this
    rwa [eq_of_shared (pts := Interval.pts) p1 hi h3.mem.1 h1 h4,
      eq_of_shared (pts := Interval.pts) p2 hj h3.mem.2 h2 h5]
  · intro h
    refine ⟨s, e, ?_⟩
    ext x
    refine (hx x).trans ⟨?_, ?_⟩
    · rintro ⟨i, j, h1, h2, h3⟩
      exact ⟨(c1 x).2 ⟨i, h1.mem.1, h2⟩, (c2 x).2 ⟨j, h1.mem.2, h3⟩⟩
    · rintro ⟨h1, h2⟩
      obtain ⟨i, hi, h1⟩ := (c1 x).1 h1
      obtain ⟨j, hj, h2⟩ := (c2 x).1 h2
      exact ⟨i, j, h i hi j hj ⟨x, h1, h2⟩, h1, h2⟩


/-- Neighbours come together and count as meeting, though they share no point. -/
example : (Selection.demo [(u8 0, u8 5)]).UnionBuilt ∧ (Selection.demo [(u8 6, u8 9)]).UnionBuilt ∧
    Selection.intervals true (Selection.demo [(u8 0, u8 5)]) = .ok [Interval.mkClosed (u8 0) (u8 5)] ∧
    Selection.intervals true (Selection.demo [(u8 6, u8 9)]) = .ok [Interval.mkClosed (u8 6) (u8 9)] ∧
    (Interval.mkClosed (u8 0) (u8 5)).Near (Interval.mkClosed (u8 6) (u8 9)) ∧
    Selection.intersects true (Selection.demo [(u8 0, u8 5)]) (Selection.demo [(u8 6, u8 9)]) = .ok true :=
  ⟨Selection.demo_built _ (by decide), Selection.demo_built _ (by decide), by decide, by decide,
    ⟨u8 5, show Interval.contains _ _ = true by decide, u8 6, show Interval.contains _ _ = true by decide,
      .inr (.inl (by decide))⟩, by decide⟩
example (near : Interval U8 → Interval U8 → Bool) :
    Together near [Interval.mkClosed (u8 0) (u8 5)] [Interval.mkClosed (u8 6) (u8 9)]
      (Interval.mkClosed (u8 0) (u8 5)) (Interval.mkClosed (u8 6) (u8 9)) := ⟨0, rfl, rfl⟩

end NI
