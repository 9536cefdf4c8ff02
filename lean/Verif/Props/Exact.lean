import Verif.Lemmas.Exact
import Verif.Lemmas.Isect
import Verif.Props.SelectionMore

/-!
# Exact descriptions of `intersect` and `minus`: more on C38, C41, C52 and C53
-/

set_option linter.unusedSimpArgs false
set_option linter.unusedVariables false
set_option linter.unusedSectionVars false

namespace NI
open Finite TT

section Tree
variable {α : Type} [LinearOrder α]

/-! ## C38 -/

/-- `intersect_in_place` is exact on every order if the ends of the interval lie well relative to the
intervals of the tree.
Missing from the full property: all other positions, see `C38_counterexample` and `C38_exact_iff`. -/
theorem C38_cut_clean_partial (dbg : Bool) (t : TineTree α) (ht : t.Reachable)
    (i : RawInterval α) (hi : i.WF) (is : List (RawInterval α))
    (his : TineTree.intervals dbg t = .ok is) (h2 : i.TwoEnded)
    (hc : RawInterval.CutClean dbg is i) :
    ∃ t', TineTree.intersectInPlace dbg t i = .ok t' ∧ t'.Reachable ∧
      ∀ x, TineTree.contains dbg t' x = .ok true ↔
        (TineTree.contains dbg t x = .ok true ∧ i.contains x = true) := by
  have h := TT.reachable_valid ht
  rw [TT.intervals_eq dbg h] at his
  cases his
  by_cases ht0 : t = []
  · subst ht0
    exact ⟨[], by simp [TineTree.intersectInPlace, TineTree.isEmpty], ht,
      fun x => by simp [TT.contains_iff dbg h, tcov, cov]⟩
  by_cases hf : i = .full
  · subst hf
    exact ⟨t, by simp [TineTree.intersectInPlace, RawInterval.isFull], ht,
      fun x => by simp [RawInterval.contains]⟩
  obtain ⟨r, v, c, e⟩ := TT.intersectInPlace_sharp dbg h ht0 hi h2 hf
  refine ⟨r, e.2 hc, TT.valid_reachable v, fun x => ?_⟩
  rw [TT.contains_iff dbg v, TT.contains_iff dbg h, c, TT.icov_fin hi, Bool.and_eq_true]

example : (TineTree.demo [.closed 0 4, .closed 6 9]).intersectInPlace true (.closed 2 7) =
    .ok (TineTree.demo [.closed 2 4, .closed 6 7]) := by decide

/-- On dense orders without end points these are the only cases: in every other position it panics,
leaves a tree that no other call can produce, or keeps the wrong points. -/
theorem C38_exact_iff [DenselyOrdered α] [NoMinOrder α] [NoMaxOrder α] [Nonempty α] (dbg : Bool)
    (t : TineTree α) (ht : t.Reachable) (i : RawInterval α) (hi : i.WF) (is : List (RawInterval α))
    (his : TineTree.intervals dbg t = .ok is) (hne : is ≠ []) (h2 : i.TwoEnded) (hf : i ≠ .full) :
    (∃ t', TineTree.intersectInPlace dbg t i = .ok t' ∧ t'.Reachable ∧
      ∀ x, TineTree.contains dbg t' x = .ok true ↔
        (TineTree.contains dbg t x = .ok true ∧ i.contains x = true)) ↔
    RawInterval.CutClean dbg is i := by
  refine ⟨?_, C38_cut_clean_partial dbg t ht i hi is his h2⟩
  rintro ⟨t', e', r', c'⟩
  have h := TT.reachable_valid ht
  rw [TT.intervals_eq dbg h] at his
  cases his
  have ht0 : t ≠ [] := by rintro rfl; exact hne rfl
  obtain ⟨r, v, c, e⟩ := TT.intersectInPlace_sharp dbg h ht0 hi h2 hf
  have v' := TT.reachable_valid r'
  have : t' = r := TT.dense_ext v' v fun x => by
    have := c' x
    rw [TT.contains_iff dbg v', TT.contains_iff dbg h, ← TT.icov_fin hi, ← Bool.and_eq_true, ← c,
      ← Bool.eq_iff_iff] at this
    exact this
  rw [← e, e', this]

/-- The tree `[0,4], [10,14]` and the interval `[2,7]`: the tree passes over `2` and is nowhere near
`7`. -/
example : RawInterval.CutClean true [.closed (0 : Int) 4, .closed 10 14] (.closed 2 7) := by
  refine ⟨.incl 2, .incl 7, rfl, rfl, .inr (.inl ?_)⟩
  have hb : ∀ j ∈ [RawInterval.closed (0 : Int) 4, .closed 10 14], ∀ l u, j.lowerBound = some l →
      j.upperBound = some u → (l = .incl 0 ∧ u = .incl 4) ∨ (l = .incl 10 ∧ u = .incl 14) := by
    intro j hj l u h1 h2
    simp only [List.mem_cons, List.not_mem_nil, or_false] at hj
    rcases hj with rfl | rfl <;> cases h1 <;> cases h2 <;> simp
  refine ⟨⟨.closed 0 4, by simp, _, _, rfl, rfl, by decide, by decide⟩,
    ⟨.closed 0 4, by simp, _, _, rfl, rfl, by decide, by decide⟩, ?_, ?_, ?_⟩
  · rintro ⟨j, hj, l, u, h1, h2, h3, h4⟩
    rcases hb j hj l u h1 h2 with ⟨rfl, rfl⟩ | ⟨rfl, rfl⟩
    · exact absurd h4 (by decide)
    · exact absurd h3 (by decide)
  · rintro ⟨j, hj, l, u, h1, h2, h3, h4⟩
    rcases hb j hj l u h1 h2 with ⟨rfl, rfl⟩ | ⟨rfl, rfl⟩
    · exact absurd h4 (by decide)
    · exact absurd h3 (by decide)
  · rintro ⟨j, hj, x, hx, h1, h2⟩
    have : x = 7 := by
      have := WithTop.coe_inj.1 (WithBot.coe_inj.1 hx); exact this.symm
    subst this
    simp only [List.mem_cons, List.not_mem_nil, or_false] at hj
    rcases hj with rfl | rfl <;> simp [RawInterval.pts] at h1
example : TineTree.intersectInPlace true (TineTree.demo [.closed 0 4, .closed 10 14]) (.closed 2 7) =
    .ok (TineTree.demo [.closed 2 4]) := by decide
/-- Two isolated points at the two ends: right without debug assertions, a panic with them. -/
example : TineTree.intersectInPlace false (TineTree.demo [.point 0, .point 4]) (.closed 0 4) =
      .ok (TineTree.demo [.point 0, .point 4]) ∧
    TineTree.intersectInPlace true (TineTree.demo [.point 0, .point 4]) (.closed 0 4) =
      .error .debugAssert := by decide

/-! ## C41 -/

/-- `TineTree::intersect` is exact if the intervals of the two trees run in lock step.
Missing from the full property: all other pairs of trees, see `C41_counterexample`. -/
theorem C41_lock_step_partial (dbg : Bool) (a b : TineTree α) (ha : a.Reachable) (hb : b.Reachable)
    (as bs : List (RawInterval α)) (has : TineTree.intervals dbg a = .ok as)
    (hbs : TineTree.intervals dbg b = .ok bs) (hl : LockStep RawInterval.intersects as bs) :
    ∃ t, TineTree.intersect dbg a b = .ok t ∧ t.Reachable ∧
      ∀ x, TineTree.contains dbg t x = .ok true ↔
        (TineTree.contains dbg a x = .ok true ∧ TineTree.contains dbg b x = .ok true) := by
  have va := TT.reachable_valid ha
  have vb := TT.reachable_valid hb
  obtain ⟨t, e, r, hsub⟩ := C41_intersect_subset_partial dbg a b ha hb
  refine ⟨t, e, r, fun x => ⟨hsub x, fun hx => ?_⟩⟩
  rw [TT.intervals_eq dbg va, Except.ok.injEq] at has
  rw [TT.intervals_eq dbg vb, Except.ok.injEq] at hbs
  subst has hbs
  obtain ⟨t', e', v, e2⟩ := TT.intersect_eq dbg va vb
  rw [e] at e'; cases e'
  obtain ⟨t', e', v', c'⟩ := TT.fromIter_ok dbg (TT.isectList (TT.pieces none a) (TT.pieces none b))
    (fun i hi => by obtain ⟨s, _, o, _, rfl⟩ := TT.isectList_mem hi; exact RawInterval.intersect_wf s o)
  rw [e2] at e'; cases e'
  rw [TT.contains_iff dbg v, c', List.any_eq_true]
  rw [TT.contains_eq dbg va, TT.contains_eq dbg vb, Except.ok.injEq, Except.ok.injEq,
    List.any_eq_true, List.any_eq_true] at hx
  obtain ⟨⟨i, hi, hix⟩, j, hj, hjx⟩ := hx
  refine ⟨i.intersect j, TT.isectList_of_lockStep hl i hi j hj ?_, ?_⟩
  · exact (C08_symm i j).1 ⟨x, (RawInterval.contains_iff i x).1 hix, (RawInterval.contains_iff j x).1 hjx⟩
  · rw [TT.icov_fin (RawInterval.intersect_wf i j)]
    exact (RawInterval.intersect_contains i j x).2 ⟨hix, hjx⟩

example : LockStep RawInterval.intersects [.closed (0 : Int) 4, .closed 10 14] [.closed 1 2, .opn 3 6, .point 8, .closed 11 20] ∧
    TineTree.intervals true (TineTree.demo [.closed 0 4, .closed 10 14]) = .ok [.closed 0 4, .closed 10 14] ∧
    TineTree.intervals true (TineTree.demo [.closed 1 2, .opn 3 6, .point 8, .closed 11 20]) = .ok [.closed 1 2, .opn 3 6, .point 8, .closed 11 20] ∧
    TineTree.intersect true (TineTree.demo [.closed 0 4, .closed 10 14]) (TineTree.demo [.closed 1 2, .opn 3 6, .point 8, .closed 11 20]) =
      .ok (TineTree.demo [.closed 1 2, .leftOpen 3 4, .closed 11 14]) := by decide

/-- Where intervals that meet share a point (dense orders), these are the only trees that are
intersected exactly. -/
theorem C41_exact_iff [DenselyOrdered α] [NoMinOrder α] [NoMaxOrder α] [Nonempty α] (dbg : Bool)
    (a b : TineTree α) (ha : a.Reachable) (hb : b.Reachable) (as bs : List (RawInterval α))
    (has : TineTree.intervals dbg a = .ok as) (hbs : TineTree.intervals dbg b = .ok bs) :
    (∃ t, TineTree.intersect dbg a b = .ok t ∧
      ∀ x, TineTree.contains dbg t x = .ok true ↔
        (TineTree.contains dbg a x = .ok true ∧ TineTree.contains dbg b x = .ok true)) ↔
    LockStep RawInterval.intersects as bs := by
  constructor
  · rintro ⟨t, e, hx⟩
    have va := TT.reachable_valid ha
    have vb := TT.reachable_valid hb
    obtain ⟨as', e1, -, p1, -⟩ := C45_iteration dbg a ha
    obtain ⟨bs', e2, -, p2, -⟩ := C45_iteration dbg b hb
    rw [has] at e1; rw [hbs] at e2
    cases e1; cases e2
    rw [TT.intervals_eq dbg va, Except.ok.injEq] at has
    rw [TT.intervals_eq dbg vb, Except.ok.injEq] at hbs
    subst has hbs
    rw [lockStep_iff]
    refine TT.lockStep_of_exact _ _ (fun i _ j _ h => (C08_intersects i j).1 h)
      (p1.imp fun h x h1 h2 => lt_irrefl x (h.1 x h1 x h2))
      (p2.imp fun h x h1 h2 => lt_irrefl x (h.1 x h1 x h2)) fun i hi j hj x h1 h2 => ?_
    obtain ⟨t', e', v, e2⟩ := TT.intersect_eq dbg va vb
    rw [e] at e'; cases e'
    obtain ⟨t', e', v', c'⟩ := TT.fromIter_ok dbg (TT.isectList (TT.pieces none a) (TT.pieces none b))
      (fun i hi => by
        obtain ⟨s, _, o, _, rfl⟩ := TT.isectList_mem hi; exact RawInterval.intersect_wf s o)
    rw [e2] at e'; cases e'
    have := (hx x).2 ⟨by
        rw [TT.contains_eq dbg va, Except.ok.injEq, List.any_eq_true]
        exact ⟨i, hi, (RawInterval.contains_iff i x).2 h1⟩, by
        rw [TT.contains_eq dbg vb, Except.ok.injEq, List.any_eq_true]
        exact ⟨j, hj, (RawInterval.contains_iff j x).2 h2⟩⟩
    rw [TT.contains_iff dbg v, c', List.any_eq_true] at this
    obtain ⟨r, hr, hrx⟩ := this
    refine ⟨r, hr, ?_⟩
    obtain ⟨s, _, o, _, rfl⟩ := TT.isectList_mem hr
    rwa [TT.icov_fin (RawInterval.intersect_wf s o), RawInterval.contains_iff] at hrx
  · intro hl
    obtain ⟨t, e, -, hx⟩ := C41_lock_step_partial dbg a b ha hb as bs has hbs hl
    exact ⟨t, e, hx⟩

example : LockStep RawInterval.intersects [.closed (0 : Int) 4, .closed 10 14]
    [.closed 1 2, .opn 3 6, .point 8, .closed 11 20] := by decide
example : ¬ LockStep RawInterval.intersects [.closed (0 : Int) 1, .closed 4 5] [.closed 0 5] := by decide

end Tree

variable {α : Type} [LinearOrder α] [Finite α] [LawfulFinite α]

/-! ## C52 -/

/-- Union-built selections are intersected exactly if their intervals run in lock step, where intervals
with neighbouring points count as meeting.
Missing from the full property: all other pairs, see `C52_counterexample`. -/
theorem C52_lock_step_partial (dbg : Bool) (a b : Selection α) (ha : a.UnionBuilt) (hb : b.UnionBuilt)
    (as bs : List (Interval α)) (has : a.intervals dbg = .ok as) (hbs : b.intervals dbg = .ok bs)
    (near : Interval α → Interval α → Bool) (hn : ∀ i j, near i j = true ↔ i.Near j)
    (hl : LockStep near as bs) :
    ∃ s, a.intersect dbg b = .ok s ∧ s.Reachable ∧ s.pts dbg = a.pts dbg ∩ b.pts dbg := by
  have va := Selection.reachable_valid ha.reachable
  have vb := Selection.reachable_valid hb.reachable
  rw [Selection.intervals_eq dbg va, Except.ok.injEq] at has
  rw [Selection.intervals_eq dbg vb, Except.ok.injEq] at hbs
  subst has hbs
  have ga := Selection.np_good va ha.do.np
  have gb := Selection.np_good vb hb.do.np
  rw [lockStep_map (meets' := RawInterval.intersects) fun i hi j hj => by
    rw [Bool.eq_iff_iff, hn, open_intersects (ga i hi).1 (gb j hj).1 (ha.do.open va hi)
      (hb.do.open vb hj) (ga i hi).2 (gb j hj).2]
    simp only [Interval.Near, Selection.run_pts, Set.mem_ofPred_eq]] at hl
  obtain ⟨t, e, -, hx⟩ := C41_lock_step_partial dbg a.tree b.tree (valid_reachable va)
    (valid_reachable vb) _ _ (TT.intervals_eq dbg va) (TT.intervals_eq dbg vb) hl
  have e' : a.intersect dbg b = .ok ⟨t⟩ := by rw [Selection.intersect, e]; rfl
  refine ⟨⟨t⟩, e', .intersect ha.reachable hb.reachable e', ?_⟩
  ext x
  exact hx x

example (near : Interval U8 → Interval U8 → Bool) (hn : ∀ i j, near i j = true ↔ i.Near j) :
    LockStep near [Interval.mkClosed (u8 0) (u8 5)]
      [Interval.mkClosed (u8 1) (u8 2), Interval.mkClosed (u8 6) (u8 9)] := by
  have h1 : near (Interval.mkClosed (u8 0) (u8 5)) (Interval.mkClosed (u8 1) (u8 2)) = true :=
    (hn _ _).2 ⟨u8 1, show Interval.contains _ _ = true by decide, u8 1,
      show Interval.contains _ _ = true by decide, .inl rfl⟩
  have h2 : near (Interval.mkClosed (u8 0) (u8 5)) (Interval.mkClosed (u8 6) (u8 9)) = true :=
    (hn _ _).2 ⟨u8 5, show Interval.contains _ _ = true by decide, u8 6,
      show Interval.contains _ _ = true by decide, .inr (.inl (by decide))⟩
  rintro ⟨p, hp⟩ ⟨k, hk⟩ _
  have : p = 0 := by simpa using hp
  subst this
  rcases k with _ | _ | k
  · rfl
  · simp [missed, h1]
  · simp at hk
    omega
example : Selection.intersect true (Selection.demo [(u8 0, u8 5)])
    (Selection.demo [(u8 1, u8 2), (u8 6, u8 9)]) >>= (Selection.contains true · (u8 2)) = .ok true := by
  decide

/-- Complements of union-built selections are intersected exactly if and only if their intervals run in
lock step, where intervals meet if they share a point. -/
theorem C52_complements_iff (dbg : Bool) (a0 b0 a b : Selection α) (ha0 : a0.UnionBuilt)
    (hb0 : b0.UnionBuilt) (ha : a0.complement dbg = .ok a) (hb : b0.complement dbg = .ok b)
    (as bs : List (Interval α)) (has : a.intervals dbg = .ok as) (hbs : b.intervals dbg = .ok bs)
    (overlap : Interval α → Interval α → Bool) (hn : ∀ i j, overlap i j = true ↔ i.Overlap j) :
    (∃ s, a.intersect dbg b = .ok s ∧ s.pts dbg = a.pts dbg ∩ b.pts dbg) ↔
      LockStep overlap as bs := by
  have ra : a.Reachable := .complement ha0.reachable ha
  have rb : b.Reachable := .complement hb0.reachable hb
  have va := Selection.reachable_valid ra
  have vb := Selection.reachable_valid rb
  have ca := Selection.compl_co ha0 ha
  have cb := Selection.compl_co hb0 hb
  rw [Selection.intervals_eq dbg va, Except.ok.injEq] at has
  rw [Selection.intervals_eq dbg vb, Except.ok.injEq] at hbs
  subst has hbs
  have meet : ∀ i ∈ pieces none a.tree, ∀ j ∈ pieces none b.tree, (i.intersects j = true ↔
      ∃ x, x ∈ i.pts ∧ x ∈ j.pts) := fun i hi j hj =>
    ⟨closed_intersects (ca.closed va hi) (cb.closed vb hj), (C08_symm i j).1⟩
  rw [lockStep_map (meets' := RawInterval.intersects) fun i hi j hj => by
    rw [Bool.eq_iff_iff, hn, meet i hi j hj]
    simp only [Interval.Overlap, Selection.run_pts, Set.mem_ofPred_eq, RawInterval.contains_iff]]
  constructor
  · rintro ⟨s, e, hs⟩
    obtain ⟨as', e1, -, p1, -⟩ := C45_iteration dbg a.tree (valid_reachable va)
    obtain ⟨bs', e2, -, p2, -⟩ := C45_iteration dbg b.tree (valid_reachable vb)
    rw [TT.intervals_eq dbg va] at e1
    rw [TT.intervals_eq dbg vb] at e2
    cases e1; cases e2
    rw [lockStep_iff]
    refine TT.lockStep_of_exact _ _ (fun i hi j hj h => (meet i hi j hj).1 h)
      (p1.imp fun h x h1 h2 => lt_irrefl x (h.1 x h1 x h2))
      (p2.imp fun h x h1 h2 => lt_irrefl x (h.1 x h1 x h2)) fun i hi j hj x h1 h2 => ?_
    obtain ⟨s', e', v, e2⟩ := Selection.intersect_ok dbg va vb
    rw [e] at e'; cases e'
    obtain ⟨t', e', v', c'⟩ := TT.fromIter_ok dbg
      (TT.isectList (TT.pieces none a.tree) (TT.pieces none b.tree)) (fun i hi => by
        obtain ⟨s, _, o, _, rfl⟩ := TT.isectList_mem hi; exact RawInterval.intersect_wf s o)
    rw [e2] at e'; cases e'
    have : x ∈ s.pts dbg := by
      rw [hs]
      exact ⟨(Selection.mem_pts dbg va x).2 (piece_in va hi ((RawInterval.contains_iff i x).2 h1)),
        (Selection.mem_pts dbg vb x).2 (piece_in vb hj ((RawInterval.contains_iff j x).2 h2))⟩
    rw [Selection.mem_pts dbg v, at', c', List.any_eq_true] at this
    obtain ⟨r, hr, hrx⟩ := this
    refine ⟨r, hr, ?_⟩
    obtain ⟨s, _, o, _, rfl⟩ := TT.isectList_mem hr
    rwa [TT.icov_fin (RawInterval.intersect_wf s o), RawInterval.contains_iff] at hrx
  · intro hl
    obtain ⟨t, e, -, hx⟩ := C41_lock_step_partial dbg a.tree b.tree (valid_reachable va)
      (valid_reachable vb) _ _ (TT.intervals_eq dbg va) (TT.intervals_eq dbg vb) hl
    refine ⟨⟨t⟩, by rw [Selection.intersect, e]; rfl, ?_⟩
    ext x
    exact hx x

example : (Selection.demo [(u8 3, u8 3)]).UnionBuilt ∧
    ((Selection.demo [(u8 3, u8 3)]).complement true >>= (Selection.intervals true ·)) =
      .ok [Interval.mkClosed (u8 0) (u8 2), Interval.mkClosed (u8 4) (u8 255)] :=
  ⟨Selection.demo_built _ (by decide), by decide⟩

/-! ## C53 -/

/-- What `minus` gives for union-built selections: the difference, and in addition every point that is
missing between two neighbours of the left selection, not in the right one, and next to a point of the
right one.
Missing from the full property: that there is no such point, see `C53_counterexample`. -/
theorem C53_formula_partial (dbg : Bool) (a b : Selection α) (ha : a.UnionBuilt) (hb : b.UnionBuilt) :
    ∃ s, a.minus dbg b = .ok s ∧ ∀ x, x ∈ s.pts dbg ↔
      (x ∈ a.pts dbg ∧ x ∉ b.pts dbg) ∨
      (x ∉ a.pts dbg ∧ x ∉ b.pts dbg ∧ (∃ p ∈ a.pts dbg, pred x = some p) ∧
        (∃ q ∈ a.pts dbg, succ x = some q) ∧
        ((∃ p ∈ b.pts dbg, pred x = some p) ∨ ∃ q ∈ b.pts dbg, succ x = some q)) := by
  have va := Selection.reachable_valid ha.reachable
  have vb := Selection.reachable_valid hb.reachable
  obtain ⟨s, e, v, k⟩ := Selection.minusOpen_exact dbg va vb hb.do
  refine ⟨s, e, fun x => ?_⟩
  have el : ∀ (o : Option α) (t : Selection α) (vt : Valid t.tree),
      (∃ p ∈ t.pts dbg, o = some p) ↔ o.elim false (at' t.tree) = true := by
    intro o t vt
    cases o <;> simp [Selection.mem_pts dbg vt]
  rw [Selection.mem_pts dbg v, k, ha.do.hole, el _ a va, el _ a va, el _ b vb, el _ b vb,
    Selection.mem_pts dbg va, Selection.mem_pts dbg vb]
  simp only [Bool.and_eq_true, Bool.not_eq_true', Bool.not_eq_true]
  grind

example : (Selection.demo [(u8 2, u8 2), (u8 4, u8 4)]).UnionBuilt ∧
    (Selection.minus true (Selection.demo [(u8 2, u8 2), (u8 4, u8 4)]) (Selection.demo [(u8 4, u8 9)])
      >>= (Selection.intervals true ·)) = .ok [Interval.mkClosed (u8 2) (u8 3)] :=
  ⟨Selection.demo_built _ (by decide), by decide⟩

/-- Subtracting any selection from the complement of a union-built one is exact.
Missing from the full property: other left operands, see `C53_counterexample`. -/
theorem C53_complement_partial (dbg : Bool) (a0 a b : Selection α) (ha0 : a0.UnionBuilt)
    (ha : a0.complement dbg = .ok a) (hb : b.Reachable) :
    ∃ s, a.minus dbg b = .ok s ∧ s.pts dbg = a.pts dbg \ b.pts dbg := by
  have va := Selection.reachable_valid (.complement ha0.reachable ha)
  have vb := Selection.reachable_valid hb
  obtain ⟨s, e, v, c⟩ := Selection.minusClosed_ok dbg va (Selection.compl_co ha0 ha) vb
  refine ⟨s, e, ?_⟩
  ext x
  rw [Set.mem_sdiff, Selection.mem_pts dbg v, Selection.mem_pts dbg va, Selection.mem_pts dbg vb,
    at', c, Bool.and_eq_true, Bool.not_eq_true', Bool.not_eq_true]

example : (Selection.demo [(u8 3, u8 3)]).UnionBuilt ∧ (do
    let a ← (Selection.demo [(u8 3, u8 3)]).complement true
    let b ← (Selection.demo [(u8 5, u8 5), (u8 7, u8 7)]).complement true
    let s ← a.minus true b
    s.intervals true) = .ok [⟨.closed (u8 5) (u8 5)⟩, ⟨.closed (u8 7) (u8 7)⟩] :=
  ⟨Selection.demo_built _ (by decide), by decide⟩

end NI
