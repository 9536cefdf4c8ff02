import Verif.Lemmas.Pinhole
import Verif.Props.Back
import Verif.Props.Runs
import Verif.Props.SharpSel

/-!
# `minus`, iteration from the back and infimum for selections of any history (C50, C53, C56–C59, C73)

Whether a single missing value disturbs `minus_in_place` and `next_back` depends on how it came to be missing.
The complement of the selection tells: it lists such a value as `Interval::point(x)`, and any other as the
closed interval from `x` to `x`, which the derived `==` distinguishes from it.
-/

set_option linter.unusedVariables false
set_option linter.unusedSectionVars false

namespace NI
open _root_.NI.Finite TT

/-- The intervals of the complement of `s` include `Interval::point(x)`. -/
def Selection.Pinhole {α : Type _} [LinearOrder α] [Finite α] (dbg : Bool) (s : Selection α) (x : α) : Prop :=
  ∃ c cs, s.complement dbg = .ok c ∧ c.intervals dbg = .ok cs ∧ Interval.point x ∈ cs

variable {α : Type} [LinearOrder α] [Finite α] [LawfulFinite α]

theorem Selection.pinhole_iff (dbg : Bool) {s : Selection α} (v : Valid s.tree) (x : α) :
    s.Pinhole dbg x ↔ holeAt s.tree (.fin x) = true := by
  obtain ⟨c, e, vc, k⟩ := Selection.complement_ok dbg v
  have : s.Pinhole dbg x ↔ RawInterval.point x ∈ pieces none c.tree := by
    constructor
    · rintro ⟨c', cs, e', h1, h2⟩
      rw [e] at e'; cases e'
      rw [Selection.intervals_eq dbg vc] at h1; cases h1
      obtain ⟨i, hi, h⟩ := List.mem_map.1 h2
      rwa [← Selection.run_point.1 h]
    · intro h
      exact ⟨c, _, e, Selection.intervals_eq dbg vc, List.mem_map.2 ⟨_, h, Selection.run_point.2 rfl⟩⟩
  rw [this, point_iff vc, bef_compl k, k _ _ ⟨by simp, by simp⟩, k _ _ ⟨by simp, by simp⟩, holeAt]
  cases bef false s.tree (.fin x) <;> cases tcov s.tree false (.fin x) <;>
    cases tcov s.tree true (.fin x) <;> simp

/-- On union-built selections these are the single values missing between two values of the selection. -/
theorem C73_pinhole_built (dbg : Bool) (s : Selection α) (hs : s.UnionBuilt) (x : α) :
    s.Pinhole dbg x ↔ x ∉ s.pts dbg ∧ (∃ p ∈ s.pts dbg, pred x = some p) ∧ ∃ q ∈ s.pts dbg, succ x = some q := by
  have v := Selection.reachable_valid hs.reachable
  rw [Selection.pinhole_iff dbg v, hs.do.hole]
  simp only [Bool.and_eq_true, Bool.not_eq_true', Selection.mem_pts dbg v, Bool.not_eq_true]
  rw [and_assoc]
  refine and_congr_right fun _ => and_congr ?_ ?_
  · cases pred x <;> simp
  · cases succ x <;> simp

example : (Selection.demo [(u8 2, u8 2), (u8 4, u8 4)]).UnionBuilt ∧
    (Selection.demo [(u8 2, u8 2), (u8 4, u8 4)]).Pinhole true (u8 3) :=
  ⟨Selection.demo_built _ (by decide), _, _, rfl, rfl, by decide⟩

/-- `[2,5] ∪ [9,12]` has no pinhole. -/
theorem Selection.two_runs_no_pinhole (x : U8) : ¬ (Selection.demo [(u8 2, u8 5), (u8 9, u8 12)]).Pinhole true x := by
  rintro ⟨c, cs, h1, h2, h3⟩
  have : (Selection.demo [(u8 2, u8 5), (u8 9, u8 12)]).complement true >>= (Selection.intervals true ·) =
      .ok [⟨.closed (u8 0) (u8 1)⟩, ⟨.closed (u8 6) (u8 8)⟩, ⟨.closed (u8 13) (u8 255)⟩] := by decide
  rw [h1] at this
  change c.intervals true = _ at this
  rw [h2] at this; cases this
  simp [Interval.point] at h3

/-- A pinhole is never a point of the selection; the complement of a union-built selection has none. -/
theorem C73_pinhole (dbg : Bool) (s : Selection α) (hs : s.Reachable) (x : α) (h : s.Pinhole dbg x) :
    x ∉ s.pts dbg := by
  have v := Selection.reachable_valid hs
  rw [Selection.pinhole_iff dbg v, holeAt] at h
  rw [Selection.mem_pts dbg v]
  intro h1
  change at' s.tree x = true at h1
  rw [at'] at h1
  simp [h1] at h

example : (Selection.demo [(u8 0, u8 7), (u8 9, u8 255)]).Reachable ∧
    (Selection.demo [(u8 0, u8 7), (u8 9, u8 255)]).Pinhole true (u8 8) :=
  ⟨(Selection.demo_built _ (by decide)).reachable, _, _, rfl, rfl, by decide⟩

theorem C73_pinhole_complement (dbg : Bool) (s c : Selection α) (hs : s.UnionBuilt)
    (hc : s.complement dbg = .ok c) (x : α) : ¬ c.Pinhole dbg x := by
  rw [Selection.pinhole_iff dbg (Selection.reachable_valid (.complement hs.reachable hc)),
    (Selection.compl_co hs hc).noHole x]
  simp

example : (Selection.demo [(u8 3, u8 3)]).UnionBuilt ∧
    ∃ c, (Selection.demo [(u8 3, u8 3)]).complement true = .ok c ∧ c.contains true (u8 2) = .ok true ∧
      c.contains true (u8 3) = .ok false ∧ c.contains true (u8 4) = .ok true :=
  ⟨Selection.demo_built _ (by decide), _, rfl, by decide, by decide, by decide⟩

/-- What `minus_in_place` does to a selection of any history: it removes the points of the interval, and adds
the pinholes next to its bounds. -/
theorem C50_formula_any (dbg : Bool) (s : Selection α) (hs : s.Reachable) (i : Interval α)
    (hi : i.Obtainable) :
    ∃ s', s.minusInPlace dbg i = .ok s' ∧ s'.Reachable ∧ ∀ x, x ∈ s'.pts dbg ↔
      (x ∈ s.pts dbg ∧ x ∉ i.pts) ∨
      (s.Pinhole dbg x ∧ ((∃ l, i.lowerBound = some (.incl l) ∧ pred l = some x) ∨
        ∃ u, i.upperBound = some (.incl u) ∧ succ u = some x)) := by
  have v := Selection.reachable_valid hs
  obtain ⟨s', e, v', c⟩ := Selection.minusInPlace_ok dbg v hi
  refine ⟨s', e, .minusInPlace hs hi e, fun x => ?_⟩
  have key : (∃ y ∈ Tine.fromRawInterval i.raw.denormalized, y.key = Key.fin x) ↔
      ((∃ l, i.lowerBound = some (.incl l) ∧ pred l = some x) ∨
        ∃ u, i.upperBound = some (.incl u) ∧ succ u = some x) := by
    have hn := Interval.obtainable_nf hi
    rcases i with ⟨r⟩
    cases r <;> simp only [RawInterval.NF] at hn <;>
      simp only [Interval.lowerBound, Interval.upperBound, RawInterval.lowerBound, RawInterval.upperBound,
        RawInterval.denormalized]
    case empty => simp [Tine.fromRawInterval]
    case point p => cases h1 : pred p <;> cases h2 : succ p <;> simp [Tine.fromRawInterval, Tine.key, h1, h2]
    case closed l u => cases h1 : pred l <;> cases h2 : succ u <;> simp [Tine.fromRawInterval, Tine.key, h1, h2]
  rw [Selection.mem_pts dbg v', at', c, Selection.ic_fin hi, Bool.or_eq_true, Bool.and_eq_true,
    Bool.and_eq_true, Bool.not_false, Bool.true_and, decide_eq_true_eq, key, ← Selection.pinhole_iff dbg v,
    Selection.mem_pts dbg v]
  have : x ∈ i.pts ↔ i.contains x = true := Iff.rfl
  rw [this]
  simp

example : (Selection.demo [(u8 2, u8 2), (u8 4, u8 4)]).minusInPlace true (Interval.mkClosed (u8 4) (u8 10)) >>=
    (Selection.intervals true ·) = .ok [Interval.mkClosed (u8 2) (u8 3)] := by decide

/-- So it is right, for any history, exactly if no pinhole lies next to a bound of the interval. -/
theorem C50_exact_any (dbg : Bool) (s : Selection α) (hs : s.Reachable) (i : Interval α)
    (hi : i.Obtainable) :
    (∃ s', s.minusInPlace dbg i = .ok s' ∧ s'.pts dbg = s.pts dbg \ i.pts) ↔
    ∀ x, s.Pinhole dbg x → (∀ l, i.lowerBound = some (.incl l) → pred l ≠ some x) ∧
      ∀ u, i.upperBound = some (.incl u) → succ u ≠ some x := by
  obtain ⟨s', e, -, k⟩ := C50_formula_any dbg s hs i hi
  constructor
  · rintro ⟨s1, e1, h⟩ x hx
    rw [e] at e1; cases e1
    have hx' := C73_pinhole dbg s hs x hx
    have := k x
    rw [h, Set.mem_sdiff] at this
    grind
  · intro h
    refine ⟨s', e, ?_⟩
    ext x
    rw [k, Set.mem_sdiff]
    grind

example : (Selection.demo [(u8 2, u8 5), (u8 9, u8 12)]).Reachable ∧
    (∀ x, ¬ (Selection.demo [(u8 2, u8 5), (u8 9, u8 12)]).Pinhole true x) ∧
    (Selection.demo [(u8 2, u8 5), (u8 9, u8 12)]).minusInPlace true (Interval.mkClosed (u8 4) (u8 10)) >>=
      (Selection.intervals true ·) = .ok [Interval.mkClosed (u8 2) (u8 3), Interval.mkClosed (u8 11) (u8 12)] :=
  ⟨(Selection.demo_built _ (by decide)).reachable, Selection.two_runs_no_pinhole, by decide⟩

/-- What `minus` of a union-built selection does to a selection of any history. -/
theorem C53_formula_any (dbg : Bool) (a b : Selection α) (ha : a.Reachable) (hb : b.UnionBuilt) :
    ∃ s, a.minus dbg b = .ok s ∧ ∀ x, x ∈ s.pts dbg ↔ x ∉ b.pts dbg ∧
      (x ∈ a.pts dbg ∨ (a.Pinhole dbg x ∧
        ((∃ p ∈ b.pts dbg, pred x = some p) ∨ ∃ q ∈ b.pts dbg, succ x = some q))) := by
  have va := Selection.reachable_valid ha
  have vb := Selection.reachable_valid hb.reachable
  obtain ⟨s, e, v, k⟩ := Selection.minusOpen_exact dbg va vb hb.do
  refine ⟨s, e, fun x => ?_⟩
  have el : ∀ (o : Option α), (∃ p ∈ b.pts dbg, o = some p) ↔ o.elim false (at' b.tree) = true := by
    intro o
    cases o <;> simp [Selection.mem_pts dbg vb]
  rw [Selection.mem_pts dbg v, k, el, el, Selection.mem_pts dbg va, Selection.mem_pts dbg vb,
    Selection.pinhole_iff dbg va]
  simp only [Bool.not_eq_true]

example : (Selection.demo [(u8 2, u8 2), (u8 4, u8 4)]).minus true (Selection.demo [(u8 4, u8 10)]) >>=
    (Selection.intervals true ·) = .ok [Interval.mkClosed (u8 2) (u8 3)] := by decide

/-- So it is right exactly if no pinhole of the left selection outside the right one has a neighbour there. -/
theorem C53_exact_any (dbg : Bool) (a b : Selection α) (ha : a.Reachable) (hb : b.UnionBuilt) :
    (∃ s, a.minus dbg b = .ok s ∧ s.pts dbg = a.pts dbg \ b.pts dbg) ↔
    ∀ x, a.Pinhole dbg x → x ∉ b.pts dbg →
      (∀ p, pred x = some p → p ∉ b.pts dbg) ∧ ∀ q, succ x = some q → q ∉ b.pts dbg := by
  obtain ⟨s', e, k⟩ := C53_formula_any dbg a b ha hb
  constructor
  · rintro ⟨s1, e1, h⟩ x hx hb
    rw [e] at e1; cases e1
    have hx' := C73_pinhole dbg a ha x hx
    have := k x
    rw [h, Set.mem_sdiff] at this
    grind
  · intro h
    refine ⟨s', e, ?_⟩
    ext x
    rw [k, Set.mem_sdiff]
    grind

example : (∀ x, ¬ (Selection.demo [(u8 2, u8 5), (u8 9, u8 12)]).Pinhole true x) ∧ (Selection.demo [(u8 4, u8 10)]).UnionBuilt ∧
    (Selection.demo [(u8 2, u8 5), (u8 9, u8 12)]).minus true (Selection.demo [(u8 4, u8 10)]) >>=
      (Selection.intervals true ·) = .ok [Interval.mkClosed (u8 2) (u8 3), Interval.mkClosed (u8 11) (u8 12)] :=
  ⟨Selection.two_runs_no_pinhole, Selection.demo_built _ (by decide), by decide⟩

/-- Iterating the intervals of a selection of any history from the back is right if it has no pinhole. -/
theorem C56_reverse_any (dbg : Bool) (s : Selection α) (hs : s.Reachable) (is : List (Interval α))
    (he : s.intervals dbg = .ok is) (hp : ∀ x, ¬ s.Pinhole dbg x) :
    s.intervalsBack dbg = .ok is.reverse := by
  have v := Selection.reachable_valid hs
  rw [Selection.intervals_eq dbg v] at he
  cases he
  refine Selection.intervalsBack_eq dbg v (noHole_holeFree v fun x => ?_)
  rw [Bool.eq_false_iff, ne_eq, ← Selection.pinhole_iff dbg v]
  exact hp x

example : (∀ x, ¬ (Selection.demo [(u8 2, u8 5), (u8 9, u8 12)]).Pinhole true x) ∧
    (Selection.demo [(u8 2, u8 5), (u8 9, u8 12)]).intervalsBack true =
      .ok [Interval.mkClosed (u8 9) (u8 12), Interval.mkClosed (u8 2) (u8 5)] :=
  ⟨Selection.two_runs_no_pinhole, by decide⟩

/-- And only then: with a pinhole it panics or yields other intervals, in both kinds of build. -/
theorem C73_intervals_any (dbg : Bool) (s : Selection α) (hs : s.Reachable) (is : List (Interval α))
    (he : s.intervals dbg = .ok is) :
    s.intervalsBack dbg = .ok is.reverse ↔ ∀ x, ¬ s.Pinhole dbg x := by
  refine ⟨fun h x hx => ?_, C56_reverse_any dbg s hs is he⟩
  have v := Selection.reachable_valid hs
  rw [Selection.intervals_eq dbg v] at he
  cases he
  refine Selection.intervalsBack_ne_any dbg hs (fun hf => ?_) h
  rw [Selection.pinhole_iff dbg v, (TT.holeFree_iff v).1 hf x] at hx
  cases hx

example : (Selection.demo [(u8 2, u8 2), (u8 4, u8 4)]).Pinhole true (u8 3) ∧
    (Selection.demo [(u8 2, u8 2), (u8 4, u8 4)]).intervalsBack true ≠ .ok [⟨.closed (u8 4) (u8 4)⟩, ⟨.closed (u8 2) (u8 2)⟩] :=
  ⟨⟨_, _, rfl, rfl, by decide⟩, by decide⟩

/-- So are the points, if every listed interval has one. -/
theorem C57_reverse_any (dbg : Bool) (s : Selection α) (hs : s.Reachable) (is : List (Interval α))
    (he : s.intervals dbg = .ok is) (hg : ∀ i ∈ is, i.pts.Nonempty) (hp : ∀ x, ¬ s.Pinhole dbg x) (n : Nat) :
    ∃ os, drive (PointIter.next dbg) (PointIter.nextBack dbg) (PointIter.start s)
        (List.replicate n .nextBack) = .ok os ∧
      Walk (s.pts dbg) (List.replicate n .nextBack) os := by
  have v := Selection.reachable_valid hs
  rw [Selection.intervals_eq dbg v] at he
  cases he
  have hn : ∀ x, holeAt s.tree (.fin x) = false := fun x => by
    rw [Bool.eq_false_iff, ne_eq, ← Selection.pinhole_iff dbg v]
    exact hp x
  obtain ⟨os, h1, h2⟩ := Selection.bwd_walk dbg n (t := s.tree) (cur := .empty)
    v.1.1 (noHole_holeFree v hn) v.2 .empty (.inl rfl)
    (fun i hi => (Selection.good_iff hs hi).2 (hg _ (List.mem_map.2 ⟨i, hi, rfl⟩)))
    (Selection.pieces_inc v) (fun x hx => absurd hx (by intro h; cases h))
  refine ⟨os, h1, ?_⟩
  have e : (Interval.empty : Interval α).pts ∪ Selection.rest (pieces none s.tree) = s.pts dbg := by
    rw [← Selection.rest_pieces dbg v]
    ext x
    exact ⟨fun h => h.elim (fun h => by cases h) id, .inr⟩
  rwa [e] at h2

example : (∀ x, ¬ (Selection.demo [(u8 2, u8 5), (u8 9, u8 12)]).Pinhole true x) ∧
    drive (PointIter.next true) (PointIter.nextBack true) (PointIter.start (Selection.demo [(u8 2, u8 5), (u8 9, u8 12)]))
      (List.replicate 5 .nextBack) = .ok [some (u8 12), some (u8 11), some (u8 10), some (u8 9), some (u8 5)] :=
  ⟨Selection.two_runs_no_pinhole, by decide⟩

/-- In debug builds only then (for types without infinite descending sequences). -/
theorem C73_points_any [WellFoundedLT α] (s : Selection α) (hs : s.Reachable) (is : List (Interval α))
    (he : s.intervals true = .ok is) (hg : ∀ i ∈ is, i.pts.Nonempty) :
    (∀ n, ∃ os, drive (PointIter.next true) (PointIter.nextBack true) (PointIter.start s)
        (List.replicate n .nextBack) = .ok os ∧
      Walk (s.pts true) (List.replicate n .nextBack) os) ↔ ∀ x, ¬ s.Pinhole true x := by
  refine ⟨fun h x hx => ?_, fun h n => C57_reverse_any true s hs is he hg h n⟩
  have v := Selection.reachable_valid hs
  rw [Selection.intervals_eq true v] at he
  cases he
  refine Selection.points_back_ne true v
    (fun i hi => (Selection.good_iff hs hi).2 (hg _ (List.mem_map.2 ⟨i, hi, rfl⟩))) (.inr rfl) (fun hf => ?_) h
  rw [Selection.pinhole_iff true v, (TT.holeFree_iff v).1 hf x] at hx
  cases hx

/-- In release builds errors can cancel out: this selection of 3, 4, 6 and 7 has the pinhole 5, and its points
still come out right from the back in release builds. -/
example : (do
    let a ← (Selection.demo [(u8 2, u8 2), (u8 4, u8 4)]).complement true
    let a ← a.minusInPlace true (Interval.mkClosed (u8 0) (u8 1))
    let a ← a.minusInPlace true (Interval.mkClosed (u8 5) (u8 255))
    let b ← (Selection.demo [(u8 3, u8 3), (u8 5, u8 5)]).complement true
    let b ← b.minusInPlace true (Interval.mkClosed (u8 0) (u8 2))
    let b ← b.minusInPlace true (Interval.mkClosed (u8 6) (u8 255))
    let s ← a.union true b
    let s ← s.unionInPlace true (Interval.mkOpen (u8 4) (u8 5))
    let s ← s.unionInPlace true (Interval.mkClosed (u8 6) (u8 7))
    let is ← s.intervals true
    let c ← s.complement true
    let cs ← c.intervals true
    let os ← drive (PointIter.next false) (PointIter.nextBack false) (PointIter.start s)
      (List.replicate 5 .nextBack)
    pure (is, cs.contains (Interval.point (u8 5)), os)) =
    .ok ([.point (u8 3), ⟨.closed (u8 4) (u8 4)⟩, ⟨.closed (u8 6) (u8 7)⟩], true,
      [some (u8 7), some (u8 6), some (u8 4), some (u8 3), none]) := by decide

/-- Mixed calls of `next` and `next_back` then yield each point once. -/
theorem C58_drain_any (dbg : Bool) (s : Selection α) (hs : s.Reachable) (is : List (Interval α))
    (he : s.intervals dbg = .ok is) (hg : ∀ i ∈ is, i.pts.Nonempty) (hp : ∀ x, ¬ s.Pinhole dbg x)
    (cs : List IterCall) :
    ∃ os, drive (PointIter.next dbg) (PointIter.nextBack dbg) (PointIter.start s) cs = .ok os ∧
      Drain (s.pts dbg) os := by
  have v := Selection.reachable_valid hs
  rw [Selection.intervals_eq dbg v] at he
  cases he
  have hn : ∀ x, holeAt s.tree (.fin x) = false := fun x => by
    rw [Bool.eq_false_iff, ne_eq, ← Selection.pinhole_iff dbg v]
    exact hp x
  obtain ⟨os, h1, h2⟩ := Selection.mix_drain dbg cs (t := s.tree) (cur := .empty)
    v.1.1 (noHole_holeFree v hn) v.2 .empty (.inl rfl)
    (fun i hi => (Selection.good_iff hs hi).2 (hg _ (List.mem_map.2 ⟨i, hi, rfl⟩)))
    (Selection.pieces_inc v) (fun x hx => absurd hx (by intro h; cases h))
  refine ⟨os, h1, ?_⟩
  have e : (Interval.empty : Interval α).pts ∪ Selection.rest (pieces none s.tree) = s.pts dbg := by
    rw [← Selection.rest_pieces dbg v]
    ext x
    exact ⟨fun h => h.elim (fun h => by cases h) id, .inr⟩
  rwa [e] at h2

example : (∀ x, ¬ (Selection.demo [(u8 2, u8 5), (u8 9, u8 12)]).Pinhole true x) ∧
    drive (PointIter.next true) (PointIter.nextBack true) (PointIter.start (Selection.demo [(u8 2, u8 5), (u8 9, u8 12)]))
      [.next, .nextBack, .next] = .ok [some (u8 2), some (u8 5), some (u8 3)] :=
  ⟨Selection.two_runs_no_pinhole, by decide⟩

/-- Nor does it ever resume after `None`. -/
theorem C67_points_any (dbg : Bool) (s : Selection α) (hs : s.Reachable) (is : List (Interval α))
    (he : s.intervals dbg = .ok is) (hg : ∀ i ∈ is, i.pts.Nonempty) (hp : ∀ x, ¬ s.Pinhole dbg x)
    (cs : List IterCall) :
    ∃ os, drive (PointIter.next dbg) (PointIter.nextBack dbg) (PointIter.start s) cs = .ok os ∧ Fused os := by
  obtain ⟨os, e, w⟩ := C58_drain_any dbg s hs is he hg hp cs
  exact ⟨os, e, w.fused⟩

example : (∀ x, ¬ (Selection.demo [(u8 2, u8 5), (u8 9, u8 12)]).Pinhole true x) ∧
    (Selection.demo [(u8 2, u8 5), (u8 9, u8 12)]).intervals true =
      .ok [Interval.mkClosed (u8 2) (u8 5), Interval.mkClosed (u8 9) (u8 12)] ∧
    (Interval.mkClosed (u8 2) (u8 5)).pts.Nonempty ∧ (Interval.mkClosed (u8 9) (u8 12)).pts.Nonempty :=
  ⟨Selection.two_runs_no_pinhole, by decide, ⟨u8 3, show Interval.contains _ _ = true by decide⟩,
    ⟨u8 9, show Interval.contains _ _ = true by decide⟩⟩

/-- The points of a selection without pinholes come in the promised order under all mixed calls exactly if it has
at most one interval or each of its intervals is a single value. -/
theorem C58_exact_any [WellFoundedLT α] (dbg : Bool) (s : Selection α) (hs : s.Reachable)
    (is : List (Interval α)) (he : s.intervals dbg = .ok is) (hg : ∀ i ∈ is, i.pts.Nonempty)
    (hp : ∀ x, ¬ s.Pinhole dbg x) :
    (∀ cs, ∃ os, drive (PointIter.next dbg) (PointIter.nextBack dbg) (PointIter.start s) cs = .ok os ∧
      Walk (s.pts dbg) cs os) ↔ is.length ≤ 1 ∨ ∀ i ∈ is, ∃ p, i.pts = {p} := by
  have v := Selection.reachable_valid hs
  rw [Selection.intervals_eq dbg v] at he
  cases he
  have hn : ∀ x, holeAt s.tree (.fin x) = false := fun x => by
    rw [Bool.eq_false_iff, ne_eq, ← Selection.pinhole_iff dbg v]
    exact hp x
  have hf := noHole_holeFree v hn
  have hg' : ∀ i ∈ pieces none s.tree, Selection.Good i := fun i hi =>
    (Selection.good_iff hs hi).2 (hg _ (List.mem_map.2 ⟨i, hi, rfl⟩))
  have hi := Selection.pieces_inc v
  have hr := Selection.rest_pieces dbg v
  have shape : ((pieces none s.tree).map Selection.run).length ≤ 1 ∨
        (∀ i ∈ (pieces none s.tree).map Selection.run, ∃ p, i.pts = {p}) ↔
      (pieces none s.tree).length ≤ 1 ∨ (∀ i ∈ pieces none s.tree, ∃ p, (Selection.run i).pts = {p}) := by
    rw [List.length_map, List.forall_mem_map]
  rw [shape]
  constructor
  · intro h
    rw [← hr] at h
    exact Selection.walks_single dbg _ rfl v.1.1 hf v.2 hg' hi h
  · rintro (h | h) cs
    · rw [← hr]; exact Selection.single_walk dbg v h hg' cs
    · rw [← hr]; exact Selection.single_walks dbg cs v.1.1 hf v.2 hg' hi h

example : (∀ x, ¬ (Selection.demo [(u8 2, u8 5), (u8 9, u8 12)]).Pinhole true x) ∧
    drive (PointIter.next true) (PointIter.nextBack true) (PointIter.start (Selection.demo [(u8 2, u8 5), (u8 9, u8 12)]))
      [.next, .nextBack] ≠ .ok [some (u8 2), some (u8 12)] :=
  ⟨Selection.two_runs_no_pinhole, by decide⟩

/-- The interval iterator of a selection of any history serves all mixed calls from both ends exactly if the
selection has no pinhole. -/
theorem C68_selection_any (dbg : Bool) (s : Selection α) (hs : s.Reachable) (is : List (Interval α))
    (his : s.intervals dbg = .ok is) :
    (∀ cs, ∃ os, drive (Selection.intervalNext dbg) (Selection.intervalNextBack dbg)
      (TineIter.start s.tree) cs = .ok os ∧ Deque is cs os) ↔ ∀ x, ¬ s.Pinhole dbg x := by
  have v := Selection.reachable_valid hs
  constructor
  · intro h
    rw [← C73_intervals_any dbg s hs is his]
    obtain ⟨os, h1, h2⟩ := h (List.replicate (TineIter.start s.tree).size .nextBack)
    have e := his
    rw [Selection.intervals_eq dbg v] at e
    cases e
    have := Selection.collect_of_deque dbg _ _ [] _ os h1 h2 (by
      have := Selection.pieces_length (ts := s.tree) none
      simp only [TineIter.size, TineIter.start, List.length_map]; omega)
    exact this
  · intro hp cs
    rw [Selection.intervals_eq dbg v] at his
    cases his
    have hn : ∀ x, holeAt s.tree (.fin x) = false := fun x => by
      rw [Bool.eq_false_iff, ne_eq, ← Selection.pinhole_iff dbg v]
      exact hp x
    obtain ⟨os, e, w⟩ := mix_deque dbg cs v.1.1 (noHole_holeFree v hn) v.2
    exact ⟨_, Selection.drive_intervals dbg _ e, w.map _⟩

/-- The complement of 2..3 and 5..6: 0..1, 4 and 7..255, without a pinhole, but points are not in the promised
order; intervals are. -/
example : (do
    let s ← (Selection.demo [(u8 2, u8 3), (u8 5, u8 6)]).complement true
    let c ← s.complement true
    let cs ← c.intervals true
    let os ← drive (PointIter.next true) (PointIter.nextBack true) (PointIter.start s) [.next, .nextBack]
    pure (cs, os)) =
    .ok ([⟨.closed (u8 2) (u8 3)⟩, ⟨.closed (u8 5) (u8 6)⟩], [some (u8 0), some (u8 1)]) := by decide
example : (do
    let s ← (Selection.demo [(u8 2, u8 3), (u8 5, u8 6)]).complement true
    let os ← drive (Selection.intervalNext true) (Selection.intervalNextBack true) (TineIter.start s.tree)
      [.nextBack, .next, .next, .nextBack]
    pure (os.map (Option.map Interval.raw))) =
    .ok [some (.closed (u8 7) (u8 255)), some (.closed (u8 0) (u8 1)), some (.point (u8 4)), none] := by decide

theorem Selection.run_ends {s : Selection α} (hs : s.Reachable) {i : RawInterval α} (hi : i ∈ pieces none s.tree) :
    ∃ l u lb ub, (run i).lowerBound = some (.incl l) ∧ (run i).upperBound = some (.incl u) ∧
      i.lowerBound = some lb ∧ i.upperBound = some ub ∧ (lb.asRef = some l ∨ lb.asRef = pred l) ∧
      (ub.asRef = some u ∨ ub.asRef = succ u) := by
  have h6 : (run i).isEmpty = false := by
    rcases hs.run_cases hi with g | ⟨p, q, -, -, e, -⟩
    · obtain ⟨_, _, _, _, _, _, g⟩ := g.cases
      exact g
    · rw [e]; rfl
  have pmin : pred (minimum : α) = none := (LawfulFinite.pred_none _).2 rfl
  have smax : succ (maximum : α) = none := (LawfulFinite.succ_none _).2 rfl
  rw [run] at h6 ⊢
  cases i <;> simp only [RawInterval.normalized] at h6 ⊢
  case empty => cases h6
  case point p => exact ⟨p, p, _, _, rfl, rfl, rfl, rfl, .inl rfl, .inl rfl⟩
  case opn a b =>
    cases h1 : succ a <;> cases h2 : pred b <;> rw [h1, h2] at h6 <;>
      first | (cases h6; done) | exact ⟨_, _, _, _, rfl, rfl, rfl, rfl, .inr (pred_of_succ h1).symm, .inr (succ_of_pred h2).symm⟩
  case leftOpen a b =>
    cases h1 : succ a <;> rw [h1] at h6 <;>
      first | (cases h6; done) | exact ⟨_, _, _, _, rfl, rfl, rfl, rfl, .inr (pred_of_succ h1).symm, .inl rfl⟩
  case rightOpen a b =>
    cases h1 : pred b <;> rw [h1] at h6 <;>
      first | (cases h6; done) | exact ⟨_, _, _, _, rfl, rfl, rfl, rfl, .inl rfl, .inr (succ_of_pred h1).symm⟩
  case closed a b => exact ⟨_, _, _, _, rfl, rfl, rfl, rfl, .inl rfl, .inl rfl⟩
  case upTo b =>
    cases h1 : pred b <;> rw [h1] at h6 <;>
      first | (cases h6; done) | exact ⟨_, _, _, _, rfl, rfl, rfl, rfl, .inr pmin.symm, .inr (succ_of_pred h1).symm⟩
  case upFrom a =>
    cases h1 : succ a <;> rw [h1] at h6 <;>
      first | (cases h6; done) | exact ⟨_, _, _, _, rfl, rfl, rfl, rfl, .inr (pred_of_succ h1).symm, .inr smax.symm⟩
  case «to» b => exact ⟨_, _, _, _, rfl, rfl, rfl, rfl, .inr pmin.symm, .inl rfl⟩
  case frm a => exact ⟨_, _, _, _, rfl, rfl, rfl, rfl, .inl rfl, .inr smax.symm⟩
  case full => exact ⟨_, _, _, _, rfl, rfl, rfl, rfl, .inr pmin.symm, .inr smax.symm⟩

/-- What `infimum` and `supremum` give for a selection of any history: the value of the lower bound, or the one
before it; the value of the upper bound, or the one after it. -/
theorem C59_infimum_any (dbg : Bool) (s : Selection α) (hs : s.Reachable) :
    (s.isEmpty = true ∧ s.lowerBound dbg = .ok none ∧ s.upperBound dbg = .ok none ∧
      s.infimum = none ∧ s.supremum = none) ∨
    ∃ l u, s.lowerBound dbg = .ok (some (.incl l)) ∧ s.upperBound dbg = .ok (some (.incl u)) ∧
      (s.infimum = some l ∨ s.infimum = pred l) ∧ (s.supremum = some u ∨ s.supremum = succ u) := by
  have v := Selection.reachable_valid hs
  obtain ⟨b1, b2⟩ := Selection.tree_bounds v
  rw [Selection.lowerBound_eq dbg v, Selection.upperBound_eq dbg v, Selection.infimum, Selection.supremum, b1, b2]
  cases hh : (pieces none s.tree).head? with
  | none =>
    have : pieces none s.tree = [] := by cases h : pieces none s.tree <;> simp_all
    left
    rw [this]
    refine ⟨?_, rfl, rfl, rfl, rfl⟩
    rw [Selection.isEmpty_iff]
    have := Selection.tree_nil v this
    cases s; cases this; rfl
  | some r =>
    have hr := List.mem_of_head? hh
    obtain ⟨r', hr'⟩ : ∃ j, (pieces none s.tree).getLast? = some j := by
      cases h : pieces none s.tree with
      | nil => rw [h] at hh; cases hh
      | cons a L => exact ⟨_, List.getLast?_cons⟩
    obtain ⟨l, -, lb, -, h1, -, h2, -, h3, -⟩ := Selection.run_ends hs hr
    obtain ⟨-, u, -, ub, -, h4, -, h5, -, h6⟩ := Selection.run_ends hs (List.mem_of_getLast? hr')
    right
    rw [hr']
    refine ⟨l, u, ?_, ?_, ?_, ?_⟩
    all_goals simp [*]

/-- Both happen: 3..5 has the infimum 2, its complement's complement from a missing range 0..2 the infimum 3. -/
example : (Selection.demo [(u8 3, u8 5)]).infimum = some (u8 2) ∧
    ((Selection.demo [(u8 0, u8 2)]).complement true).map (·.infimum) = .ok (some (u8 3)) := by decide

/-- The selection `{2,4}` has the pinhole 3, so removing `[4,10]` adds it. -/
example : (Selection.demo [(u8 2, u8 2), (u8 4, u8 4)]).Reachable ∧
    (Selection.demo [(u8 2, u8 2), (u8 4, u8 4)]).Pinhole true (u8 3) ∧
    (Interval.mkClosed (u8 4) (u8 10)).lowerBound = some (.incl (u8 4)) ∧ pred (u8 4) = some (u8 3) :=
  ⟨(Selection.demo_built _ (by decide)).reachable,
    ⟨_, _, rfl, rfl, by decide⟩, by decide, by decide⟩

/-- Neither union-built nor the complement of such a selection, and without a pinhole. -/
example : Selection.cut.Reachable ∧ ∀ x, ¬ Selection.cut.Pinhole true x := by
  refine ⟨Selection.cut_solid.reachable, ?_⟩
  rintro x ⟨c, cs, h1, h2, h3⟩
  have : Selection.cut.complement true >>= (Selection.intervals true ·) = .ok [⟨.closed (u8 5) (u8 4)⟩] := by decide
  rw [h1] at this
  change c.intervals true = _ at this
  rw [h2] at this; cases this
  cases List.mem_singleton.1 h3

end NI
