import Verif.Props.Strong
import Verif.Props.Canon
import Verif.Props.Contract

/-!
# A selection of one interval and the interval itself (C105)

Both wrapper types have the same operations, implemented in different ways: `Interval` on `RawInterval` values,
`Selection` on trees.  Results are compared by the sets the listed intervals contain, in order.
-/

set_option linter.unusedSectionVars false
set_option linter.unusedVariables false

namespace NI
open _root_.NI.Finite TT

section
variable {α : Type} [LinearOrder α] [Finite α] [LawfulFinite α]

namespace RawInterval

theorem denorm_meet_to {l u p : α} (h : l ≤ u) :
    ((closed l u).denormalized.intersect (.to p)).isEmpty = true ↔ p < l := by
  have a1 : ∀ s, pred l = some s → (p ≤ s ↔ p < l) := fun s hs => le_pred_iff hs p
  have a2 : ∀ s, succ u = some s → u < s := fun s hs => (LawfulFinite.succ_some _ _ hs).1
  have a3 : ∀ s, pred l = some s → s < l := fun s hs => (LawfulFinite.pred_some _ _ hs).1
  have a4 : pred l = none → ¬ p < l := fun hs => not_lt.2 (not_lt_of_pred hs p)
  simp only [denormalized]
  cases e1 : pred l <;> cases e2 : succ u <;>
    simp only [intersect, lowerBound, upperBound, Bound.greatestIntersect, Bound.leastIntersect, new, mkOpen,
      mkLeftOpen, Bound.asRef, Bound.isInclusive, Bound.isExclusive] <;> grind [isEmpty]

theorem denorm_meet_frm {l u p : α} (h : l ≤ u) :
    ((closed l u).denormalized.intersect (.frm p)).isEmpty = true ↔ u < p := by
  have a1 : ∀ s, succ u = some s → (s ≤ p ↔ u < p) := fun s hs => succ_le_iff hs p
  have a2 : ∀ s, succ u = some s → u < s := fun s hs => (LawfulFinite.succ_some _ _ hs).1
  have a3 : ∀ s, pred l = some s → s < l := fun s hs => (LawfulFinite.pred_some _ _ hs).1
  have a4 : succ u = none → ¬ u < p := fun hs => not_lt.2 (not_gt_of_succ hs p)
  simp only [denormalized]
  cases e1 : pred l <;> cases e2 : succ u <;>
    simp only [intersect, lowerBound, upperBound, Bound.greatestIntersect, Bound.leastIntersect, new, mkOpen,
      mkRightOpen, Bound.asRef, Bound.isInclusive, Bound.isExclusive] <;> grind [isEmpty]

omit [Finite α] [LawfulFinite α] in
theorem closed_meet_upTo {l u p : α} (h : l ≤ u) :
    ((closed l u).intersect (.upTo p)).isEmpty = true ↔ p ≤ l := by
  simp only [intersect, lowerBound, upperBound, Bound.greatestIntersect, Bound.leastIntersect, new, mkClosed,
      mkRightOpen, Bound.asRef, Bound.isInclusive, Bound.isExclusive]
  grind [isEmpty]

omit [Finite α] [LawfulFinite α] in
theorem closed_meet_upFrom {l u p : α} (h : l ≤ u) :
    ((closed l u).intersect (.upFrom p)).isEmpty = true ↔ u ≤ p := by
  simp only [intersect, lowerBound, upperBound, Bound.greatestIntersect, Bound.leastIntersect, new, mkClosed,
      mkLeftOpen, Bound.asRef, Bound.isInclusive, Bound.isExclusive]
  grind [isEmpty]

/-- Two lists with the same emptiness flags and points at each place. -/
theorem filter_pts {ps qs : List (RawInterval α)}
    (h : List.Forall₂ (fun p q : RawInterval α => p.isEmpty = q.isEmpty ∧ p.pts = q.pts) ps qs) :
    (ps.filter fun i => !i.isEmpty).map pts = (qs.filter fun i => !i.isEmpty).map pts := by
  induction h with
  | nil => rfl
  | cons h _ ih =>
    obtain ⟨h1, h2⟩ := h
    simp only [List.filter_cons, h1]
    split
    · simp [h2, ih]
    · exact ih

theorem denorm_closed_pts (l u : α) : (closed l u).denormalized.pts = Set.Icc l u :=
  denormalized_pts _ (by simp) (by simp)


theorem closed_minus {l u l' u' : α} (h : l ≤ u) (h' : l' ≤ u') :
    ((closed l u).denormalized.minus (closed l' u').denormalized).map pts =
      ((closed l u).minus (closed l' u')).map pts := by
  have pi : ∀ a b : RawInterval α, (a.intersect b).pts = a.pts ∩ b.pts := C03_intersect
  have lo : ∀ s, pred l' = some s →
      ((closed l u).denormalized.intersect (.to s)).isEmpty = ((closed l u).intersect (.upTo l')).isEmpty ∧
      ((closed l u).denormalized.intersect (.to s)).pts = ((closed l u).intersect (.upTo l')).pts := fun s hs => by
    refine ⟨Bool.eq_iff_iff.2 ?_, ?_⟩
    · rw [denorm_meet_to h, closed_meet_upTo h, ← not_le, le_pred_iff hs, not_lt]
    · rw [pi, pi, denorm_closed_pts]
      ext x
      simp [pts, le_pred_iff hs]
  have hi : ∀ s, succ u' = some s →
      ((closed l u).denormalized.intersect (.frm s)).isEmpty = ((closed l u).intersect (.upFrom u')).isEmpty ∧
      ((closed l u).denormalized.intersect (.frm s)).pts = ((closed l u).intersect (.upFrom u')).pts := fun s hs => by
    refine ⟨Bool.eq_iff_iff.2 ?_, ?_⟩
    · rw [denorm_meet_frm h, closed_meet_upFrom h, ← not_le, succ_le_iff hs, not_lt]
    · rw [pi, pi, denorm_closed_pts]
      ext x
      simp [pts, succ_le_iff hs]
  have lo' : pred l' = none → ((closed l u).intersect (.upTo l')).isEmpty = true := fun hs =>
    (closed_meet_upTo h).2 (not_lt_of_pred hs _)
  have hi' : succ u' = none → ((closed l u).intersect (.upFrom u')).isEmpty = true := fun hs =>
    (closed_meet_upFrom h).2 (not_gt_of_succ hs _)
  have z1 : ∀ x y : RawInterval α, x.isEmpty = true →
      [x, y].filter (fun i => !i.isEmpty) = [y].filter fun i => !i.isEmpty := fun x y hx => by simp [hx]
  have z2 : ∀ x y : RawInterval α, y.isEmpty = true →
      [x, y].filter (fun i => !i.isEmpty) = [x].filter fun i => !i.isEmpty := fun x y hx => by
    simp [List.filter_cons, hx]
  simp only [minus]
  generalize (closed l u).denormalized = D at lo hi ⊢
  cases e1 : pred l' <;> cases e2 : succ u' <;>
    simp only [denormalized, e1, e2, complement, List.map_cons, List.map_nil]
  · simp [lo' e1, hi' e2]
  · rw [z1 _ _ (lo' e1)]
    exact filter_pts (.cons (hi _ e2) .nil)
  · rw [z2 _ _ (hi' e2)]
    exact filter_pts (.cons (lo _ e1) .nil)
  · exact filter_pts (.cons (lo _ e1) (.cons (hi _ e2) .nil))

theorem closed_complement (l u : α) :
    ((closed l u).denormalized.complement).map pts =
      ((closed l u).complement.filter fun i => !i.normalized.isEmpty).map pts := by
  have p1 : ∀ s, pred l = some s → pts (.to s) = pts (.upTo l) := fun s hs => by
    ext x; exact le_pred_iff hs x
  have q1 : ∀ s, succ u = some s → pts (.frm s) = pts (.upFrom u) := fun s hs => by
    ext x; exact succ_le_iff hs x
  simp only [denormalized]
  rcases e1 : pred l with _ | s <;> rcases e2 : succ u with _ | t
  · simp [complement, normalized, e1, e2, isEmpty]
  · simp [complement, normalized, e1, e2, isEmpty, q1 t e2]
  · simp [complement, normalized, e1, e2, isEmpty, p1 s e1]
  · simp [complement, normalized, e1, e2, isEmpty, q1 t e2, p1 s e1]

theorem denorm_meet {l u l' u' : α} (h : l ≤ u) (h' : l' ≤ u') :
    (closed l u).denormalized.intersects (closed l' u').denormalized = true ↔
      (l ≤ u' ∨ succ u' = some l) ∧ (l' ≤ u ∨ succ u = some l') := by
  have p1 : ∀ s, pred l = some s → s < l ∧ ∀ t, succ u' = some t → (s < t ↔ l ≤ u' ∨ t = l) := fun s hs =>
    ⟨(LawfulFinite.pred_some _ _ hs).1, fun t ht => by
      rw [← not_le (b := s), le_pred_iff hs, not_lt, le_iff_lt_or_eq, ← not_le (b := l), succ_le_iff ht, not_lt,
        eq_comm (a := l)]⟩
  have p2 : ∀ s, pred l' = some s → s < l' ∧ ∀ t, succ u = some t → (s < t ↔ l' ≤ u ∨ t = l') := fun s hs =>
    ⟨(LawfulFinite.pred_some _ _ hs).1, fun t ht => by
      rw [← not_le (b := s), le_pred_iff hs, not_lt, le_iff_lt_or_eq, ← not_le (b := l'), succ_le_iff ht, not_lt,
        eq_comm (a := l')]⟩
  have q1 : ∀ s, succ u = some s → u < s := fun s hs => (LawfulFinite.succ_some _ _ hs).1
  have q2 : ∀ s, succ u' = some s → u' < s := fun s hs => (LawfulFinite.succ_some _ _ hs).1
  have p3 : pred l = none → l ≤ u' := fun hs => not_lt_of_pred hs _
  have p4 : pred l' = none → l' ≤ u := fun hs => not_lt_of_pred hs _
  have q3 : succ u = none → l' ≤ u := fun hs => not_gt_of_succ hs _
  have q4 : succ u' = none → l ≤ u' := fun hs => not_gt_of_succ hs _
  simp only [denormalized, intersects]
  cases e1 : pred l <;> cases e2 : succ u <;> cases e3 : pred l' <;> cases e4 : succ u' <;>
    simp only [intersect, lowerBound, upperBound, Bound.greatestIntersect, Bound.leastIntersect, new, mkOpen,
      Bound.asRef, Bound.isInclusive, Bound.isExclusive] <;> grind [isEmpty]

theorem closed_meet {l u l' u' : α} (h : l ≤ u) (h' : l' ≤ u') :
    (closed l u).intersects (closed l' u') = true ↔ l ≤ u' ∧ l' ≤ u := by
  simp only [intersects, intersect, lowerBound, upperBound, Bound.greatestIntersect, Bound.leastIntersect, new,
    mkClosed, Bound.asRef, Bound.isInclusive, Bound.isExclusive]
  grind [isEmpty]

theorem closed_enclose {l u l' u' : α} (h : l ≤ u) (h' : l' ≤ u') :
    ((closed l u).denormalized.enclose (closed l' u').denormalized).pts = Set.Icc (min l l') (max u u') ∧
      ((closed l u).enclose (closed l' u')).pts = Set.Icc (min l l') (max u u') := by
  have p1 : ∀ s x, pred l = some s → s < l ∧ (s < x ↔ l ≤ x) := fun s x hs =>
    ⟨(LawfulFinite.pred_some _ _ hs).1, by rw [← not_le, le_pred_iff hs, not_lt]⟩
  have p2 : ∀ s x, pred l' = some s → s < l' ∧ (s < x ↔ l' ≤ x) := fun s x hs =>
    ⟨(LawfulFinite.pred_some _ _ hs).1, by rw [← not_le, le_pred_iff hs, not_lt]⟩
  have q1 : ∀ s x, succ u = some s → u < s ∧ (x < s ↔ x ≤ u) := fun s x hs =>
    ⟨(LawfulFinite.succ_some _ _ hs).1, by rw [← not_le, succ_le_iff hs, not_lt]⟩
  have q2 : ∀ s x, succ u' = some s → u' < s ∧ (x < s ↔ x ≤ u') := fun s x hs =>
    ⟨(LawfulFinite.succ_some _ _ hs).1, by rw [← not_le, succ_le_iff hs, not_lt]⟩
  have p3 : ∀ t, pred l = none → l ≤ t := fun t hs => not_lt_of_pred hs t
  have p4 : ∀ t, pred l' = none → l' ≤ t := fun t hs => not_lt_of_pred hs t
  have q3 : ∀ t, succ u = none → t ≤ u := fun t hs => not_gt_of_succ hs t
  have q4 : ∀ t, succ u' = none → t ≤ u' := fun t hs => not_gt_of_succ hs t
  constructor
  · ext x
    have p1 := fun s => p1 s x
    have p2 := fun s => p2 s x
    have q1 := fun s => q1 s x
    have q2 := fun s => q2 s x
    have p3 := p3 x
    have p4 := p4 x
    have q3 := q3 x
    have q4 := q4 x
    rw [← contains_iff, Set.mem_Icc, min_le_iff, le_max_iff]
    simp only [denormalized]
    cases e1 : pred l <;> cases e2 : succ u <;> cases e3 : pred l' <;> cases e4 : succ u' <;>
      simp only [enclose, lowerBound, upperBound, Bound.leastUnion, Bound.greatestUnion] <;>
      grind [new, mkOpen, contains]
  · ext x
    rw [← contains_iff, Set.mem_Icc, min_le_iff, le_max_iff]
    simp only [enclose, lowerBound, upperBound, Bound.leastUnion, Bound.greatestUnion]
    grind [new, mkClosed, contains]

theorem denorm_not_adjacent {l u l' u' : α} :
    (closed l u).denormalized.isAdjacentTo (closed l' u').denormalized = false := by
  simp only [denormalized]
  cases e1 : pred l <;> cases e2 : succ u <;> cases e3 : pred l' <;> cases e4 : succ u' <;>
    simp [isAdjacentTo, lowerBound, upperBound, Bound.isUnionAdjacentTo]

theorem closed_adjacent {l u l' u' : α} (h : (closed l u).isAdjacentTo (closed l' u') = true) : l = u' ∨ u = l' := by
  simp [isAdjacentTo, lowerBound, upperBound, Bound.isUnionAdjacentTo] at h
  exact h.imp id Eq.symm

end RawInterval

/-- A legal interval is empty, or has a least and a greatest value; a single value is kept as a point or as the closed
interval from the value to itself. -/
theorem Interval.single {a : Interval α} (ha : a.Obtainable) (hr : a.Real) : a = ⟨.empty⟩ ∨
    ∃ l u, l ≤ u ∧ (a = ⟨.closed l u⟩ ∨ l = u ∧ a = ⟨.point l⟩) := by
  rcases Interval.obtainable_cases ha with rfl | ⟨p, rfl⟩ | ⟨l, u, rfl, hlu⟩
  · exact .inl rfl
  · exact .inr ⟨p, p, le_rfl, .inr ⟨rfl, rfl⟩⟩
  · refine .inr ⟨l, u, ?_, .inl rfl⟩
    rcases hr with h | ⟨x, hx⟩
    · cases h
    · simp only [Interval.contains, RawInterval.contains, Bool.and_eq_true, decide_eq_true_eq] at hx
      exact le_trans hx.1 hx.2

theorem Selection.list_of_tree (dbg : Bool) {s : Selection α} (hs : s.Reachable) {rs : List (RawInterval α)}
    (h : TineTree.intervals dbg s.tree = .ok rs) :
    s.intervals dbg = .ok (rs.map Selection.run) ∧ (rs.map Selection.run).map Interval.pts = rs.map RawInterval.pts := by
  have v := Selection.reachable_valid hs
  rw [TT.intervals_eq dbg v] at h
  cases h
  refine ⟨Selection.intervals_eq dbg v, ?_⟩
  rw [List.map_map]
  refine List.map_congr_left fun r _ => ?_
  rw [Function.comp_apply, Selection.run_pts]
  ext x; exact RawInterval.contains_iff r x

theorem Interval.map_pts (rs : List (RawInterval α)) :
    (rs.map fun r => (⟨r.normalized⟩ : Interval α)).map Interval.pts = rs.map RawInterval.pts := by
  rw [List.map_map]
  refine List.map_congr_left fun r _ => ?_
  rw [Function.comp_apply, Interval.pts_eq, RawInterval.normalized_pts]

theorem Interval.denorm_wf {a : Interval α} (ha : a.Obtainable) : a.raw.denormalized.WF :=
  RawInterval.denorm_wf (Interval.obtainable_nf ha)

theorem Interval.denorm_pts {a : Interval α} (ha : a.Obtainable) : a.raw.denormalized.pts = a.pts := by
  rw [Interval.pts_eq]
  rcases Interval.obtainable_cases ha with rfl | ⟨p, rfl⟩ | ⟨l, u, rfl, hlu⟩ <;>
    exact RawInterval.denormalized_pts _ (by simp) (by simp)

theorem Selection.ofInterval_list (dbg : Bool) {a : Interval α} (ha : a.Obtainable) :
    TineTree.intervals dbg (Selection.ofInterval a).tree = .ok (if a.isEmpty then [] else [a.raw.denormalized]) := by
  rw [TT.intervals_eq dbg (Selection.reachable_valid (.ofInterval ha)), Selection.ofInterval_tree ha,
    TT.pieces_single (Interval.denorm_wf ha)]
  have : a.raw.denormalized.isEmpty = a.isEmpty := by
    rcases Interval.obtainable_cases ha with rfl | ⟨p, rfl⟩ | ⟨l, u, rfl, hlu⟩
    · rfl
    all_goals
      simp only [RawInterval.denormalized, Interval.isEmpty]
      split <;> rfl
  rw [this]

/-- A selection made of one interval lists that interval, or nothing if it is empty. -/
theorem C105_list (dbg : Bool) (a : Interval α) (ha : a.Obtainable) :
    ∃ is, (Selection.ofInterval a).intervals dbg = .ok is ∧
      is.map Interval.pts = if a.isEmpty then [] else [a.pts] := by
  obtain ⟨h1, h2⟩ := Selection.list_of_tree dbg (.ofInterval ha) (Selection.ofInterval_list dbg ha)
  refine ⟨_, h1, h2.trans ?_⟩
  split
  · rfl
  · simp [Interval.denorm_pts ha]

example : (Interval.mkClosed (u8 4) (u8 6)).Obtainable ∧
    (Selection.ofInterval (.mkClosed (u8 4) (u8 6))).intervals true = .ok [.mkClosed (u8 4) (u8 6)] :=
  ⟨.mkClosed _ _, by decide⟩

/-- The complement: the pieces `Interval::complement` gives, without empty ones. -/
theorem C105_complement (dbg : Bool) (a : Interval α) (ha : a.Obtainable) (hr : a.Real) :
    ∃ s is, (Selection.ofInterval a).complement dbg = .ok s ∧ s.intervals dbg = .ok is ∧
      is.map Interval.pts = (a.complement.filter fun i => !i.isEmpty).map Interval.pts := by
  obtain ⟨t, e, r, h⟩ := C72_complement dbg a.raw.denormalized (Interval.denorm_wf ha)
  have e' : (Selection.ofInterval a).complement dbg = .ok ⟨t⟩ := by
    rw [Selection.complement]; change (TineTree.complement dbg (TineTree.fromRawInterval a.raw.denormalized)).bind _ = _
    rw [e]; rfl
  obtain ⟨h1, h2⟩ := Selection.list_of_tree dbg (s := ⟨t⟩) (.complement (.ofInterval ha) e') h
  refine ⟨_, _, e', h1, h2.trans ?_⟩
  have key : ∀ l u : α, ((RawInterval.closed l u).denormalized.complement).map RawInterval.pts =
      (((⟨.closed l u⟩ : Interval α).complement).filter fun i => !i.isEmpty).map Interval.pts := by
    intro l u
    rw [RawInterval.closed_complement, Interval.complement, List.filter_map, Interval.map_pts]
    rfl
  rcases Interval.single ha hr with rfl | ⟨l, u, h, rfl | ⟨rfl, rfl⟩⟩
  · simp [RawInterval.denormalized, RawInterval.complement, Interval.complement, RawInterval.normalized,
      Interval.isEmpty, Interval.pts_eq, RawInterval.pts, Set.ext_iff, minimum_le, le_maximum]
  · exact key l u
  · exact key l l

example : (Interval.mkClosed (u8 0) (u8 6)).Real ∧
    (Interval.mkClosed (u8 0) (u8 6)).complement = [⟨.empty⟩, .mkClosed (u8 7) (u8 255)] :=
  ⟨Interval.closed_real (by decide), by decide⟩

theorem Interval.minus_agree {a b : Interval α} (ha : a.Obtainable) (hra : a.Real) (hb : b.Obtainable)
    (hrb : b.Real) :
    (a.raw.denormalized.minus b.raw.denormalized).map RawInterval.pts = (a.minus b).map Interval.pts := by
  rw [Interval.minus, Interval.map_pts]
  have none : ∀ k : RawInterval α, RawInterval.empty.minus k = [] := by
    intro k
    rw [RawInterval.minus, List.filter_eq_nil_iff]
    intro i hi
    obtain ⟨j, -, rfl⟩ := List.mem_map.1 hi
    simp [RawInterval.intersect, RawInterval.lowerBound, RawInterval.isEmpty]
  have all : ∀ l u : α, l ≤ u → ((RawInterval.closed l u).denormalized.minus .empty).map RawInterval.pts =
      ((RawInterval.closed l u).minus .empty).map RawInterval.pts := by
    intro l u h
    have e1 : ((RawInterval.closed l u).denormalized.intersect .full).isEmpty = false ∧
        ((RawInterval.closed l u).intersect .full).isEmpty = false := by
      constructor
      · rw [Bool.eq_false_iff, Ne, RawInterval.isEmpty_iff]
        intro hc
        have := congrArg RawInterval.pts hc
        rw [C03_intersect, RawInterval.denorm_closed_pts] at this
        exact Set.notMem_empty l (show l ∈ RawInterval.empty.pts from this ▸ ⟨⟨le_rfl, h⟩, trivial⟩)
      · rw [Bool.eq_false_iff, Ne, RawInterval.isEmpty_iff]
        intro hc
        have := congrArg RawInterval.pts hc
        rw [C03_intersect] at this
        exact Set.notMem_empty l (show l ∈ RawInterval.empty.pts from this ▸ ⟨⟨le_rfl, h⟩, trivial⟩)
    simp only [RawInterval.minus, RawInterval.complement, List.map_cons, List.map_nil]
    rw [List.filter_cons_of_pos (by simp [e1.1]), List.filter_cons_of_pos (by simp [e1.2])]
    rw [List.filter_nil, List.map_cons, List.map_cons, C03_intersect, C03_intersect, RawInterval.denorm_closed_pts]
    rfl
  rcases Interval.single ha hra with rfl | ⟨l, u, h, rfl | ⟨rfl, rfl⟩⟩
  · rw [show (⟨.empty⟩ : Interval α).raw.denormalized = .empty from rfl]
    change List.map _ (RawInterval.empty.minus _) = List.map _ (RawInterval.empty.minus _)
    rw [none, none]
  all_goals rcases Interval.single hb hrb with rfl | ⟨l', u', h', rfl | ⟨rfl, rfl⟩⟩
  · exact all _ _ h
  · exact RawInterval.closed_minus h h'
  · exact RawInterval.closed_minus h h'
  · exact all _ _ h
  · exact RawInterval.closed_minus h h'
  · exact RawInterval.closed_minus h h'

/-- Removing an interval, or a selection made of one: the pieces `Interval::minus` gives. -/
theorem C105_minus (dbg : Bool) (a b : Interval α) (ha : a.Obtainable) (hra : a.Real) (hb : b.Obtainable)
    (hrb : b.Real) :
    ∃ s is, (Selection.ofInterval a).minusInPlace dbg b = .ok s ∧
      (Selection.ofInterval a).minus dbg (Selection.ofInterval b) = .ok s ∧ s.intervals dbg = .ok is ∧
      is.map Interval.pts = (a.minus b).map Interval.pts := by
  have np : ∀ p, b.raw.denormalized ≠ .point p := by
    intro p
    rcases Interval.obtainable_cases hb with rfl | ⟨q, rfl⟩ | ⟨l, u, rfl, hlu⟩ <;>
      simp only [RawInterval.denormalized]
    · simp
    all_goals split <;> simp
  obtain ⟨t, e, r, h⟩ := (C72_minus_partial dbg a.raw.denormalized b.raw.denormalized (Interval.denorm_wf ha)
    (Interval.denorm_wf hb)).2 (fun ⟨p, hp, _⟩ => np p hp)
  have e' : (Selection.ofInterval a).minusInPlace dbg b = .ok ⟨t⟩ := by
    rw [Selection.minusInPlace]
    change (TineTree.minusInPlace dbg (TineTree.fromRawInterval a.raw.denormalized) _).bind _ = _
    rw [e]; rfl
  obtain ⟨h1, h2⟩ := Selection.list_of_tree dbg (s := ⟨t⟩) (.minusInPlace (.ofInterval ha) hb e') h
  refine ⟨_, _, e', ?_, h1, h2.trans (Interval.minus_agree ha hra hb hrb)⟩
  have vb := Selection.reachable_valid (.ofInterval hb)
  have hl := Selection.ofInterval_list dbg hb
  rw [TT.intervals_eq dbg vb, Except.ok.injEq] at hl
  rw [Selection.minus, TineTree.minus, TT.fold_eq dbg _ vb, hl]
  cases hbe : b.isEmpty
  · change ((TineTree.minusInPlace dbg (TineTree.fromRawInterval a.raw.denormalized) _).bind _).bind _ = _
    rw [e]; rfl
  · have : b = ⟨.empty⟩ := by
      rcases Interval.single hb hrb with rfl | ⟨l, u, h, rfl | ⟨rfl, rfl⟩⟩
      · rfl
      · cases hbe
      · cases hbe
    subst this
    have : TineTree.fromRawInterval a.raw.denormalized = t := by
      simpa [TineTree.minusInPlace, RawInterval.denormalized, RawInterval.isEmpty] using e
    rw [← this]; rfl

example : (Interval.mkClosed (u8 2) (u8 9)).Real ∧ (Interval.point (u8 4)).Real ∧
    (Interval.mkClosed (u8 2) (u8 9)).minus (.point (u8 4)) = [.mkClosed (u8 2) (u8 3), .mkClosed (u8 5) (u8 9)] :=
  ⟨Interval.closed_real (by decide), .inr ⟨u8 4, by decide⟩, by decide⟩

theorem Interval.near_closed {a b : Interval α} {l u l' u' : α} (h : l ≤ u) (h' : l' ≤ u')
    (ha : a.pts = Set.Icc l u) (hb : b.pts = Set.Icc l' u') :
    (a.Near b ↔ (l ≤ u' ∨ succ u' = some l) ∧ (l' ≤ u ∨ succ u = some l')) ∧
    (a.Overlap b ↔ l ≤ u' ∧ l' ≤ u) := by
  have ov : a.Overlap b ↔ l ≤ u' ∧ l' ≤ u := by
    rw [Interval.Overlap, ha, hb]
    exact ⟨fun ⟨x, h1, h2⟩ => ⟨h1.1.trans h2.2, h2.1.trans h1.2⟩, fun ⟨h1, h2⟩ =>
      ⟨max l l', ⟨le_max_left _ _, max_le h h2⟩, le_max_right _ _, max_le h1 h'⟩⟩
  refine ⟨⟨?_, ?_⟩, ov⟩
  · have one : ∀ {l u l' u' x y : α}, x ∈ Set.Icc l u → y ∈ Set.Icc l' u' → succ x = some y →
        l ≤ u' ∧ (l' ≤ u ∨ succ u = some l') := by
      intro l u l' u' x y hx hy e
      have hlt := (LawfulFinite.succ_some _ _ e).1
      refine ⟨(hx.1.trans hlt.le).trans hy.2, ?_⟩
      rcases lt_or_eq_of_le hx.2 with c | rfl
      · exact .inl (hy.1.trans ((succ_le_iff e _).2 c))
      · rcases lt_or_eq_of_le hy.1 with c | rfl
        · exact .inl (by rwa [← not_lt, ← succ_le_iff e, not_le])
        · exact .inr e
    rintro ⟨x, hx, y, hy, rfl | e | e⟩ <;> rw [ha] at hx <;> rw [hb] at hy
    · exact ⟨.inl (hx.1.trans hy.2), .inl (hy.1.trans hx.2)⟩
    · obtain ⟨h1, h2⟩ := one hx hy e
      exact ⟨.inl h1, h2⟩
    · obtain ⟨h1, h2⟩ := one hy hx e
      exact ⟨h2, .inl h1⟩
  · rintro ⟨h1 | h1, h2⟩
    · rcases h2 with h2 | h2
      · obtain ⟨x, h1, h2⟩ := ov.2 ⟨h1, h2⟩
        exact ⟨x, h1, x, h2, .inl rfl⟩
      · exact ⟨u, by rw [ha]; exact ⟨h, le_rfl⟩, l', by rw [hb]; exact ⟨le_rfl, h'⟩, .inr (.inl h2)⟩
    · exact ⟨l, by rw [ha]; exact ⟨le_rfl, h⟩, u', by rw [hb]; exact ⟨h', le_rfl⟩, .inr (.inr h1)⟩

/-- `Interval.single` with what the operations see of the interval. -/
theorem Interval.single' {a : Interval α} (ha : a.Obtainable) (hr : a.Real) : a = ⟨.empty⟩ ∨
    ∃ l u, l ≤ u ∧ a.pts = Set.Icc l u ∧ a.isEmpty = false ∧ a.raw.isEmpty = false ∧
      a.raw.denormalized = (RawInterval.closed l u).denormalized ∧
      a.lowerBound = some (.incl l) ∧ a.upperBound = some (.incl u) := by
  rcases Interval.single ha hr with rfl | ⟨l, u, h, rfl | ⟨rfl, rfl⟩⟩
  · exact .inl rfl
  · exact .inr ⟨l, u, h, Interval.pts_eq _, rfl, rfl, rfl, rfl, rfl⟩
  · refine .inr ⟨l, l, h, ?_, rfl, rfl, rfl, rfl, rfl⟩
    rw [Interval.pts_eq, Set.Icc_self]; rfl

theorem RawInterval.intersect_by_bounds {a a' b b' : RawInterval α} (h1 : a.lowerBound = a'.lowerBound)
    (h2 : a.upperBound = a'.upperBound) (h3 : b.lowerBound = b'.lowerBound) (h4 : b.upperBound = b'.upperBound) :
    a.intersect b = a'.intersect b' ∧ a.enclose b = a'.enclose b' ∧ a.isAdjacentTo b = a'.isAdjacentTo b' := by
  simp only [RawInterval.intersect, RawInterval.enclose, RawInterval.isAdjacentTo, h1, h2, h3, h4, and_self]

theorem Interval.not_near_empty (b : Interval α) : ¬ (⟨.empty⟩ : Interval α).Near b ∧ ¬ b.Near ⟨.empty⟩ := by
  constructor
  · rintro ⟨x, hx, -⟩
    cases (show RawInterval.contains .empty x = true from hx)
  · rintro ⟨_, -, x, hx, -⟩
    cases (show RawInterval.contains .empty x = true from hx)

/-- Uniting a selection made of one interval with an interval, or with another such selection: the enclosing interval
if the two have a value in common or neighbouring values, otherwise the pieces `Interval::union` gives.  (In ascending
order, which those of `Interval::union` need not be.) -/
theorem C105_union (dbg : Bool) (a b : Interval α) (ha : a.Obtainable) (hra : a.Real) (hb : b.Obtainable)
    (hrb : b.Real) :
    ∃ s is, (Selection.ofInterval a).unionInPlace dbg b = .ok s ∧
      (Selection.ofInterval a).union dbg (Selection.ofInterval b) = .ok s ∧ s.UnionBuilt ∧ s.intervals dbg = .ok is ∧
      (a.Near b → is.map Interval.pts = [(a.enclose b).pts]) ∧
      (¬ a.Near b → (is.map Interval.pts).Perm ((a.union b).map Interval.pts)) := by
  obtain ⟨t, rs, e, r, h, hp⟩ := C72_union dbg a.raw.denormalized b.raw.denormalized (Interval.denorm_wf ha)
    (Interval.denorm_wf hb)
  have e' : (Selection.ofInterval a).unionInPlace dbg b = .ok ⟨t⟩ := by
    rw [Selection.unionInPlace]
    change (TineTree.unionInPlace dbg (TineTree.fromRawInterval a.raw.denormalized) _).bind _ = _
    rw [e]; rfl
  have ub : (⟨t⟩ : Selection α).UnionBuilt := .unionInPlace (.ofInterval ha hra) hb hrb e'
  obtain ⟨h1, h2⟩ := Selection.list_of_tree dbg (s := ⟨t⟩) ub.reachable h
  refine ⟨_, _, e', ?_, ub, h1, ?_⟩
  · have va := Selection.reachable_valid (.ofInterval ha)
    have vb := Selection.reachable_valid (.ofInterval hb)
    have hl := Selection.ofInterval_list dbg hb
    rw [TT.intervals_eq dbg vb, Except.ok.injEq] at hl
    rw [Selection.union, TineTree.union, TT.fold_eq dbg _ vb, hl]
    cases hbe : b.isEmpty
    · change ((TineTree.unionInPlace dbg (TineTree.fromRawInterval a.raw.denormalized) _).bind _).bind _ = _
      rw [e]; rfl
    · have : b = ⟨.empty⟩ := by
        rcases Interval.single hb hrb with rfl | ⟨l, u, h, rfl | ⟨rfl, rfl⟩⟩
        · rfl
        · cases hbe
        · cases hbe
      subst this
      have : TineTree.fromRawInterval a.raw.denormalized = t :=
        Except.ok.inj (show Except.ok (TineTree.fromRawInterval a.raw.denormalized) = .ok t from e)
      rw [← this]; rfl
  · rw [h2]
    have emp : (⟨.empty⟩ : Interval α).raw.denormalized = .empty := rfl
    rcases Interval.single' ha hra with rfl | ⟨l, u, hlu, a1, a2, a3, a4, a5, a6⟩
    · refine ⟨fun hn => absurd hn (Interval.not_near_empty b).1, fun _ => (hp.map _).trans ?_⟩
      rw [emp, Interval.union, Interval.map_pts]
      rcases Interval.single' hb hrb with rfl | ⟨l', u', hlu', b1, b2, b3, b4, b5, b6⟩
      · exact .refl _
      · have b7 : b.raw.denormalized.isEmpty = false := by
          rw [b4]; simp only [RawInterval.denormalized]; split <;> rfl
        rw [RawInterval.union, RawInterval.union, b3, b7]
        simp only [RawInterval.isEmpty, List.map_cons, List.map_nil, Interval.denorm_pts hb, Interval.pts_eq]
        exact .refl _
    · have a7 : a.raw.denormalized.isEmpty = false := by
        rw [a4]; simp only [RawInterval.denormalized]; split <;> rfl
      rcases Interval.single' hb hrb with rfl | ⟨l', u', hlu', b1, b2, b3, b4, b5, b6⟩
      · refine ⟨fun hn => absurd hn (Interval.not_near_empty a).2, fun _ => (hp.map _).trans ?_⟩
        rw [emp, Interval.union, Interval.map_pts]
        rw [RawInterval.union, RawInterval.union, a3, a7]
        simp only [RawInterval.isEmpty, List.map_cons, List.map_nil, Interval.denorm_pts ha, Interval.pts_eq]
        exact .refl _
      · have b7 : b.raw.denormalized.isEmpty = false := by
          rw [b4]; simp only [RawInterval.denormalized]; split <;> rfl
        obtain ⟨n1, n2⟩ := Interval.near_closed hlu hlu' a1 b1
        obtain ⟨c1, c2, c3⟩ := RawInterval.intersect_by_bounds (a := a.raw) (a' := .closed l u) (b := b.raw)
          (b' := .closed l' u') a5 a6 b5 b6
        have hne := RawInterval.denorm_meet hlu hlu'
        rw [← n1] at hne
        have adj : (RawInterval.closed l u).denormalized.isAdjacentTo (RawInterval.closed l' u').denormalized =
          false := RawInterval.denorm_not_adjacent
        constructor
        · intro hn
          rw [← hne] at hn
          rw [RawInterval.union, a7, b7] at hp
          simp only [a4, b4, hn, Bool.true_or, if_true] at hp
          rw [List.perm_singleton.1 hp, List.map_cons, (RawInterval.closed_enclose hlu hlu').1, List.map_nil,
            Interval.enclose, Interval.ofRaw, RawInterval.normalized_idem, Interval.pts_eq,
            RawInterval.normalized_pts, c2, (RawInterval.closed_enclose hlu hlu').2]
        · intro hn
          have no : a.raw.intersects b.raw = false := by
            rw [RawInterval.intersects, c1, ← RawInterval.intersects, Bool.eq_false_iff, Ne,
              RawInterval.closed_meet hlu hlu', ← n2]
            rintro ⟨x, h1, h2⟩
            exact hn ⟨x, h1, x, h2, .inl rfl⟩
          have no' : a.raw.isAdjacentTo b.raw = false := by
            rw [c3, Bool.eq_false_iff]
            intro hc
            have hc := RawInterval.closed_adjacent hc
            refine hn (n1.2 ?_)
            rcases hc with rfl | rfl
            · exact ⟨.inl le_rfl, .inl (hlu'.trans hlu)⟩
            · exact ⟨.inl (hlu.trans hlu'), .inl le_rfl⟩
          rw [← hne, Bool.not_eq_true] at hn
          rw [RawInterval.union, a7, b7] at hp
          simp only [a4, b4, hn, adj, Bool.or_self, Bool.false_eq_true, if_false] at hp
          rw [Interval.union, Interval.map_pts, RawInterval.union, a3, b3]
          simp only [no, no', Bool.or_self, Bool.false_eq_true, if_false]
          refine (hp.map _).trans ?_
          rw [← a4, ← b4]
          simp only [List.map_cons, List.map_nil, Interval.denorm_pts ha, Interval.denorm_pts hb, Interval.pts_eq]
          exact .refl _

example : (Interval.mkClosed (u8 2) (u8 4)).Near (.mkClosed (u8 5) (u8 9)) ∧
    ∃ s, (Selection.ofInterval (.mkClosed (u8 2) (u8 4))).unionInPlace true (.mkClosed (u8 5) (u8 9)) = .ok s ∧
      s.intervals true = .ok [.mkClosed (u8 2) (u8 9)] :=
  ⟨⟨u8 4, by show _ = true; decide, u8 5, by show _ = true; decide, .inr (.inl (by decide))⟩, _, rfl, by decide⟩

/-- Both ways of uniting give the same pieces exactly if the intervals are not neighbours. -/
theorem C105_union_iff (dbg : Bool) (a b : Interval α) (ha : a.Obtainable) (hra : a.Real) (hb : b.Obtainable)
    (hrb : b.Real) :
    (∃ s is, (Selection.ofInterval a).unionInPlace dbg b = .ok s ∧ s.intervals dbg = .ok is ∧
      (is.map Interval.pts).Perm ((a.union b).map Interval.pts)) ↔ (a.Near b → a.Overlap b) := by
  obtain ⟨s, is, e, -, -, hi, h1, h2⟩ := C105_union dbg a b ha hra hb hrb
  constructor
  · rintro ⟨s', is', e', hi', hp⟩ hn
    rw [e, Except.ok.injEq] at e'; subst e'
    rw [hi, Except.ok.injEq] at hi'; subst hi'
    rw [h1 hn] at hp
    have hlen := hp.length_eq
    rw [List.length_map, Interval.union, List.length_map, List.length_singleton] at hlen
    rcases Interval.single' ha hra with rfl | ⟨l, u, hlu, a1, a2, a3, a4, a5, a6⟩
    · exact absurd hn (Interval.not_near_empty b).1
    rcases Interval.single' hb hrb with rfl | ⟨l', u', hlu', b1, b2, b3, b4, b5, b6⟩
    · exact absurd hn (Interval.not_near_empty a).2
    obtain ⟨n1, n2⟩ := Interval.near_closed hlu hlu' a1 b1
    obtain ⟨c1, c2, c3⟩ := RawInterval.intersect_by_bounds (a := a.raw) (a' := .closed l u) (b := b.raw)
      (b' := .closed l' u') a5 a6 b5 b6
    rw [RawInterval.union, a3, b3] at hlen
    have : a.raw.intersects b.raw = true ∨ a.raw.isAdjacentTo b.raw = true := by
      by_contra hc
      simp only [not_or, Bool.not_eq_true] at hc
      simp only [hc.1, hc.2, Bool.or_self, Bool.false_eq_true, if_false] at hlen
      simp at hlen
    rw [n2]
    rcases this with h | h
    · rw [RawInterval.intersects, c1, ← RawInterval.intersects] at h
      exact (RawInterval.closed_meet hlu hlu').1 h
    · rw [c3] at h
      rcases RawInterval.closed_adjacent h with rfl | rfl
      · exact ⟨le_rfl, hlu'.trans hlu⟩
      · exact ⟨hlu.trans hlu', le_rfl⟩
  · intro hn
    refine ⟨s, is, e, hi, ?_⟩
    by_cases c : a.Near b
    · rw [h1 c]
      have ov := hn c
      rcases Interval.single' ha hra with rfl | ⟨l, u, hlu, a1, a2, a3, a4, a5, a6⟩
      · exact absurd c (Interval.not_near_empty b).1
      rcases Interval.single' hb hrb with rfl | ⟨l', u', hlu', b1, b2, b3, b4, b5, b6⟩
      · exact absurd c (Interval.not_near_empty a).2
      obtain ⟨n1, n2⟩ := Interval.near_closed hlu hlu' a1 b1
      obtain ⟨c1, c2, c3⟩ := RawInterval.intersect_by_bounds (a := a.raw) (a' := .closed l u) (b := b.raw)
        (b' := .closed l' u') a5 a6 b5 b6
      have : a.raw.intersects b.raw = true := by
        rw [RawInterval.intersects, c1, ← RawInterval.intersects, RawInterval.closed_meet hlu hlu', ← n2]
        exact ov
      rw [Interval.union, Interval.map_pts, RawInterval.union, a3, b3]
      simp only [this, Bool.true_or, if_true, List.map_cons, List.map_nil]
      rw [Interval.enclose, Interval.ofRaw, RawInterval.normalized_idem, Interval.pts_eq, RawInterval.normalized_pts]
    · exact h2 c

example : (Interval.mkClosed (u8 2) (u8 4)).union (.mkClosed (u8 5) (u8 9)) =
      [.mkClosed (u8 2) (u8 4), .mkClosed (u8 5) (u8 9)] ∧
    (Interval.mkClosed (u8 2) (u8 5)).union (.mkClosed (u8 5) (u8 9)) = [.mkClosed (u8 2) (u8 9)] := by decide

/-- Intersecting: nothing is listed unless the two have a value in common or neighbouring values, and then the
intersection, which for neighbours is listed although it contains no value; `Selection::intersects` is true for
neighbours. -/
theorem C105_intersect (dbg : Bool) (a b : Interval α) (ha : a.Obtainable) (hra : a.Real) (hb : b.Obtainable)
    (hrb : b.Real) :
    ∃ s is r, (Selection.ofInterval a).intersect dbg (Selection.ofInterval b) = .ok s ∧ s.intervals dbg = .ok is ∧
      (Selection.ofInterval a).intersects dbg (Selection.ofInterval b) = .ok r ∧
      (a.Near b → is.map Interval.pts = [(a.intersect b).pts] ∧ r = true) ∧
      (¬ a.Near b → is = [] ∧ r = false) := by
  obtain ⟨t, e, r, h⟩ := C72_intersect dbg a.raw.denormalized b.raw.denormalized (Interval.denorm_wf ha)
    (Interval.denorm_wf hb)
  have e' : (Selection.ofInterval a).intersect dbg (Selection.ofInterval b) = .ok ⟨t⟩ := by
    rw [Selection.intersect]
    change (TineTree.intersect dbg (TineTree.fromRawInterval a.raw.denormalized)
      (TineTree.fromRawInterval b.raw.denormalized)).bind _ = _
    rw [e]; rfl
  have hR : (⟨t⟩ : Selection α).Reachable := .intersect (.ofInterval ha) (.ofInterval hb) e'
  obtain ⟨h1, h2⟩ := Selection.list_of_tree dbg (s := ⟨t⟩) hR h
  have hi : (Selection.ofInterval a).intersects dbg (Selection.ofInterval b) = .ok !TineTree.isEmpty t := by
    rw [Selection.intersects]
    change (TineTree.intersect dbg (TineTree.fromRawInterval a.raw.denormalized)
      (TineTree.fromRawInterval b.raw.denormalized)).bind _ = _
    rw [e]; rfl
  have near : a.raw.denormalized.intersects b.raw.denormalized = true ↔ a.Near b := by
    have emp : (⟨.empty⟩ : Interval α).raw.denormalized = .empty := rfl
    rcases Interval.single' ha hra with rfl | ⟨l, u, hlu, a1, a2, a3, a4, a5, a6⟩
    · rw [emp]
      simp [(Interval.not_near_empty b).1, RawInterval.intersects, RawInterval.intersect, RawInterval.lowerBound,
        RawInterval.isEmpty]
    rcases Interval.single' hb hrb with rfl | ⟨l', u', hlu', b1, b2, b3, b4, b5, b6⟩
    · rw [emp]
      have : a.raw.denormalized.intersect .empty = .empty := by
        rw [(C03_algebra a.raw.denormalized .empty .empty).1]; rfl
      simp [(Interval.not_near_empty a).2, RawInterval.intersects, this, RawInterval.isEmpty]
    · rw [a4, b4, RawInterval.denorm_meet hlu hlu', (Interval.near_closed hlu hlu' a1 b1).1]
  have emp : TineTree.isEmpty t = true ↔ (⟨t⟩ : Selection α).intervals dbg = .ok [] := by
    have v := Selection.reachable_valid hR
    rw [show TineTree.isEmpty t = (⟨t⟩ : Selection α).isEmpty from rfl, Selection.isEmpty_iff,
      Selection.intervals_eq dbg v, Except.ok.injEq, List.map_eq_nil_iff]
    exact ⟨fun h => by rw [h]; rfl, fun h => congrArg Selection.mk (Selection.tree_nil v h)⟩
  refine ⟨_, _, _, e', h1, hi, fun hn => ?_, fun hn => ?_⟩
  · rw [← near] at hn
    rw [h2]
    rw [h1] at emp
    simp only [hn, if_true] at emp ⊢
    constructor
    · rw [List.map_cons, List.map_nil, C03_intersect, Interval.denorm_pts ha, Interval.denorm_pts hb,
        Interval.pts_intersect]
    · cases hh : TineTree.isEmpty t
      · rfl
      · rw [hh] at emp; simp at emp
  · rw [← near, Bool.not_eq_true] at hn
    rw [h1] at emp
    simp only [hn, Bool.false_eq_true, if_false, List.map_nil, true_and] at emp ⊢
    simp [emp]

example : (Interval.mkClosed (u8 2) (u8 4)).intersect (.mkClosed (u8 5) (u8 9)) = ⟨.empty⟩ ∧
    (Selection.ofInterval (.mkClosed (u8 2) (u8 4))).intersects true (.ofInterval (.mkClosed (u8 5) (u8 9))) =
      .ok true ∧
    (Selection.ofInterval (.mkClosed (u8 2) (u8 4))).intersects true (.ofInterval (.mkClosed (u8 6) (u8 9))) =
      .ok false := by decide

/-- The queries: bounds, emptiness, fullness and enclosure are those of the interval. -/
theorem C105_queries (dbg : Bool) (a : Interval α) (ha : a.Obtainable) (hr : a.Real) :
    (Selection.ofInterval a).lowerBound dbg = .ok a.lowerBound ∧
    (Selection.ofInterval a).upperBound dbg = .ok a.upperBound ∧
    (Selection.ofInterval a).isEmpty = a.isEmpty ∧
    ((Selection.ofInterval a).isFull = true ↔ a.pts = Set.univ) ∧
    (∀ x, (Selection.ofInterval a).contains dbg x = .ok (a.contains x)) ∧
    ∃ e, (Selection.ofInterval a).enclose dbg = .ok e ∧ e.pts = a.pts := by
  have ub : (Selection.ofInterval a).UnionBuilt := .ofInterval ha hr
  have hp := (C48_start dbg a ha).2.2
  have hq := C59_bounds_partial dbg _ (.tidy (.inl ub))
  have he := C54_is_empty_partial dbg _ (.tidy (.inl ub))
  have hf := C54_is_full_partial dbg _ (.inl ub)
  obtain ⟨e, e1, -, e2⟩ := C61_enclose_partial dbg _ (.tidy (.inl ub))
  rw [hp] at hq he hf e2
  have hc : ∀ x, (Selection.ofInterval a).contains dbg x = .ok (a.contains x) := fun x => by
    have := Set.ext_iff.1 hp x
    obtain ⟨b, hb⟩ : ∃ b, (Selection.ofInterval a).contains dbg x = .ok b :=
      ⟨_, TT.contains_eq dbg (Selection.reachable_valid ub.reachable) x⟩
    rw [hb, Except.ok.injEq, Bool.eq_iff_iff]
    rw [show x ∈ (Selection.ofInterval a).pts dbg ↔ (Selection.ofInterval a).contains dbg x = .ok true from Iff.rfl,
      hb, Except.ok.injEq] at this
    exact this
  rcases Interval.single' ha hr with rfl | ⟨l, u, hlu, a1, a2, a3, a4, a5, a6⟩
  · have h0 : (⟨.empty⟩ : Interval α).pts = ∅ := Interval.pts_eq _
    rcases hq with ⟨-, h1, h2⟩ | ⟨l, u, h1, -⟩
    · refine ⟨h1, h2, ?_, hf, hc, e, e1, ?_⟩
      · rw [he.2 h0]; rfl
      · rcases e2 with ⟨-, h⟩ | ⟨l, u, h, -⟩
        · rw [h, h0]
        · rw [h0] at h; exact absurd h.1 (Set.notMem_empty _)
    · rw [h0] at h1; exact absurd h1.1 (Set.notMem_empty _)
  · have hl : IsLeast a.pts l := by rw [a1]; exact isLeast_Icc hlu
    have hu : IsGreatest a.pts u := by rw [a1]; exact isGreatest_Icc hlu
    have h0 : a.pts ≠ ∅ := fun h => Set.notMem_empty l (h ▸ hl.1)
    rcases hq with ⟨h, -⟩ | ⟨l', u', h1, h2, h3, h4⟩
    · exact absurd h h0
    · cases h1.unique hl
      cases h2.unique hu
      refine ⟨by rw [h3, a5], by rw [h4, a6], ?_, hf, hc, e, e1, ?_⟩
      · rw [a2, Bool.eq_false_iff, Ne, he]; exact h0
      · rcases e2 with ⟨h, -⟩ | ⟨l', u', h1, h2, h3⟩
        · exact absurd h h0
        · cases h1.unique hl
          cases h2.unique hu
          rw [h3, a1]

example : (Selection.ofInterval (.mkClosed (u8 4) (u8 6))).lowerBound true = .ok (some (.incl (u8 4))) ∧
    (Selection.ofInterval (.mkClosed (u8 4) (u8 6))).enclose true = .ok (.mkClosed (u8 4) (u8 6)) := by decide

/-- The interval that encloses a union is the one `Interval::enclose` gives. -/
theorem C105_enclose (dbg : Bool) (a b : Interval α) (ha : a.Obtainable) (hra : a.Real) (hb : b.Obtainable)
    (hrb : b.Real) :
    ∃ s e, (Selection.ofInterval a).unionInPlace dbg b = .ok s ∧ s.enclose dbg = .ok e ∧
      e.pts = (a.enclose b).pts := by
  obtain ⟨s, hs, -, hp⟩ := C48_union_in_place dbg (Selection.ofInterval a) (.ofInterval ha) b hb
  have ub : s.UnionBuilt := .unionInPlace (.ofInterval ha hra) hb hrb hs
  obtain ⟨e, e1, -, e2⟩ := C61_enclose_partial dbg s (.tidy (.inl ub))
  rw [hp, (C48_start dbg a ha).2.2] at e2
  obtain ⟨⟨c1, c2⟩, c3, -⟩ := C30_enclose_partial a b ha hb
  refine ⟨s, e, hs, e1, Set.Subset.antisymm ?_ ?_⟩
  · rcases e2 with ⟨-, h⟩ | ⟨l, u, hl, hu, h⟩
    · rw [h]; exact Set.empty_subset _
    · have hl' : l ∈ (a.enclose b).pts := hl.1.elim (fun h => c1 h) fun h => c2 h
      have hu' : u ∈ (a.enclose b).pts := hu.1.elim (fun h => c1 h) fun h => c2 h
      rw [h]
      rcases Interval.incl_bounds (.enclose ha hb) with h0 | ⟨l', u', -, -, -, -, -, k⟩
      · rw [h0] at hl'; cases (show RawInterval.contains .empty l = true from hl')
      · intro x hx
        exact (k x).2 ⟨((k l).1 hl').1.trans hx.1, hx.2.trans ((k u).1 hu').2⟩
  · have : a.pts ∪ b.pts ⊆ e.pts := by
      rcases e2 with ⟨h, -⟩ | ⟨l, u, hl, hu, h⟩
      · rw [h]; exact Set.empty_subset _
      · rw [h]; exact fun x hx => ⟨hl.2 hx, hu.2 hx⟩
    exact c3 hra hrb e (fun x hx => this (.inl hx)) fun x hx => this (.inr hx)

example : (Interval.mkClosed (u8 2) (u8 4)).enclose (.point (u8 9)) = .mkClosed (u8 2) (u8 9) ∧
    (Interval.point (u8 9)).Real := ⟨by decide, .inr ⟨u8 9, by decide⟩⟩

theorem Walk.det {S : Set α} {cs : List IterCall} {os os' : List (Option α)} (h : Walk S cs os) (h' : Walk S cs os') :
    os = os' := by
  induction h generalizing os' with
  | nil => cases h'; rfl
  | next hm _ ih =>
    cases h' with
    | next hm' h' => cases hm.unique hm'; rw [ih h']
    | done he _ => rw [he] at hm; exact absurd hm.1 (Set.notMem_empty _)
  | nextBack hm _ ih =>
    cases h' with
    | nextBack hm' h' => cases hm.unique hm'; rw [ih h']
    | done he _ => rw [he] at hm; exact absurd hm.1 (Set.notMem_empty _)
  | done he _ ih =>
    cases h' with
    | next hm' h' => rw [he] at hm'; exact absurd hm'.1 (Set.notMem_empty _)
    | nextBack hm' h' => rw [he] at hm'; exact absurd hm'.1 (Set.notMem_empty _)
    | done _ h' => rw [ih h']

/-- The point iterators answer every sequence of calls alike. -/
theorem C105_points (dbg : Bool) (a : Interval α) (ha : a.Obtainable) (hr : a.Real) (cs : List IterCall) :
    ∃ os, drive (PointIter.next dbg) (PointIter.nextBack dbg) (PointIter.start (Selection.ofInterval a)) cs = .ok os ∧
      drive Interval.next Interval.nextBack a cs = .ok os := by
  obtain ⟨is, h1, h2⟩ := C105_list dbg a ha
  have hlen : is.length ≤ 1 := by
    have := congrArg List.length h2
    rw [List.length_map] at this
    rw [this]; split <;> simp
  obtain ⟨os, h3, h4⟩ := C58_single_partial dbg (Selection.ofInterval a) (.tidy (.inl (.ofInterval ha hr))) is h1 hlen cs
  obtain ⟨os', h5, h6⟩ := C32_iteration_partial a ha hr cs
  rw [(C48_start dbg a ha).2.2] at h4
  exact ⟨os, h3, by rw [h4.det h6, h5]⟩

example : drive (PointIter.next true) (PointIter.nextBack true)
      (PointIter.start (Selection.ofInterval (.mkClosed (u8 4) (u8 6)))) [.next, .nextBack, .next, .next] =
    .ok [some (u8 4), some (u8 6), some (u8 5), none] := by decide

end
end NI
