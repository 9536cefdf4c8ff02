import Verif.Lemmas.Interval

/-!
# Properties of `Interval` (C21–C33)

`Obtainable i` (in `Verif.Spec`) says that the public API can produce `i`.
`i.pts` is the set of points for which `i.contains` is true.
-/

set_option linter.unusedSimpArgs false
set_option linter.unusedVariables false
set_option linter.unnecessarySeqFocus false
set_option linter.unusedSectionVars false

namespace NI
open Finite
variable {α : Type _} [LinearOrder α] [Finite α] [LawfulFinite α]

theorem Interval.pts_mk_normalized (r : RawInterval α) : (⟨r.normalized⟩ : Interval α).pts = r.pts := by
  rw [Interval.pts_eq, RawInterval.normalized_pts]

/-! ## C21 -/

/-- `Interval::new` contains the points between its bounds; two bounds at one point of which exactly
one is inclusive give that point. -/
theorem C21_new (l u : Bound α) (x : α) : (Interval.new l u).contains x = true ↔
      (l.AdmitsAbove x ∧ u.AdmitsBelow x) ∨
      ((l = .incl x ∧ u = .excl x) ∨ (l = .excl x ∧ u = .incl x)) := by
  rw [← (C02_new l u).2, ← Interval.pts_mk_normalized]; rfl

example : (Interval.new (.excl (MInt.lit 3 : U8)) (.incl (MInt.lit 7 : U8))).contains (MInt.lit 3 : U8) = false ∧
    (Interval.new (.excl (MInt.lit 3 : U8)) (.incl (MInt.lit 7 : U8))).contains (MInt.lit 7 : U8) = true ∧
    (Interval.new (.excl (MInt.lit 3 : U8)) .inf).contains (MInt.lit 255 : U8) = true := by decide

/-- The bounded constructors. -/
theorem C21_bounded (l u x : α) :
    ((Interval.empty : Interval α).contains x = false) ∧
    ((Interval.point l).contains x = true ↔ x = l) ∧
    ((Interval.mkOpen l u).contains x = true ↔ l < x ∧ x < u) ∧
    ((Interval.mkClosed l u).contains x = true ↔ l ≤ x ∧ x ≤ u) ∧
    ((Interval.mkLeftOpen l u).contains x = true ↔ (l < x ∧ x ≤ u) ∨ (l = u ∧ x = u)) ∧
    ((Interval.mkRightClosed l u).contains x = true ↔ (l < x ∧ x ≤ u) ∨ (l = u ∧ x = u)) ∧
    ((Interval.mkRightOpen l u).contains x = true ↔ (l ≤ x ∧ x < u) ∨ (l = u ∧ x = u)) ∧
    ((Interval.mkLeftClosed l u).contains x = true ↔ (l ≤ x ∧ x < u) ∨ (l = u ∧ x = u)) := by
  obtain ⟨h1, h2, h3, h4⟩ := C02_constructors l u x
  rw [← Interval.pts_mk_normalized] at h1 h2 h3 h4
  exact ⟨rfl, by simp [Interval.point, Interval.contains, RawInterval.contains, eq_comm],
    h1, h2, h3, h3, h4, h4⟩

example : (Interval.mkOpen (MInt.lit 3 : U8) (MInt.lit 5 : U8)).contains (MInt.lit 4 : U8) = true ∧ (Interval.mkOpen (MInt.lit 3 : U8) (MInt.lit 5 : U8)).contains (MInt.lit 5 : U8) = false ∧
    (Interval.mkRightOpen (MInt.lit 3 : U8) (MInt.lit 3 : U8)).contains (MInt.lit 3 : U8) = true := by decide

/-- The constructors of unbounded intervals. -/
theorem C21_unbounded (p x : α) :
    ((Interval.unboundedFrom p).contains x = true ↔ p ≤ x) ∧
    ((Interval.unboundedTo p).contains x = true ↔ x ≤ p) ∧
    ((Interval.unboundedUpFrom p).contains x = true ↔ p < x) ∧
    ((Interval.unboundedUpTo p).contains x = true ↔ x < p) ∧
    ((Interval.full : Interval α).contains x = true) := by
  have h := fun r : RawInterval α => iff_of_eq (congrFun (Interval.pts_mk_normalized r) x)
  exact ⟨h (.frm p), h (.to p), h (.upFrom p), h (.upTo p), (h .full).2 trivial⟩

example : Interval.mkOpen (MInt.lit 3 : U8) (MInt.lit 7) = ⟨.closed (MInt.lit 4) (MInt.lit 6)⟩ ∧
    (Interval.mkOpen (MInt.lit 3 : U8) (MInt.lit 7)).contains (MInt.lit 6) = true ∧
    (Interval.mkOpen (MInt.lit 3 : U8) (MInt.lit 7)).contains (MInt.lit 7) = false ∧
    (Interval.unboundedUpFrom (MInt.lit 254 : U8)).contains (MInt.lit 255) = true := by decide

/-! ## C22 -/

/-- Conversions from ranges keep the points.
Missing from the full property: an empty range `a..a`, for which it is false, see
`C22_counterexample`. -/
theorem C22_ranges_partial (a b x : α) :
    (a ≠ b → ((Interval.ofRange a b).contains x = true ↔ a ≤ x ∧ x < b)) ∧
    ((Interval.ofRangeFrom a).contains x = true ↔ a ≤ x) ∧
    ((Interval.ofRangeTo a).contains x = true ↔ x < a) ∧
    ((Interval.ofRangeToInclusive a).contains x = true ↔ x ≤ a) ∧
    ((Interval.ofRangeFull : Interval α).contains x = true) ∧
    ((Interval.ofPoint a).contains x = true ↔ x = a) := by
  have h := fun r : RawInterval α => iff_of_eq (congrFun (Interval.pts_mk_normalized r) x)
  refine ⟨fun hab => ?_, h (.frm a), h (.upTo a), h (.to a), (h .full).2 trivial, h (.point a)⟩
  have := (C21_bounded a b x).2.2.2.2.2.2.1
  rw [show Interval.ofRange a b = Interval.mkRightOpen a b from rfl, this]
  exact ⟨fun h => h.resolve_right fun h => hab h.1, .inl⟩

example : (Interval.ofRange (MInt.lit 3 : U8) (MInt.lit 5)).contains (MInt.lit 4) = true ∧
    (Interval.ofRange (MInt.lit 5 : U8) (MInt.lit 3)).isEmpty = true := by decide

/-- The empty range `5..5` becomes the interval `{5}`, which contains 5. -/
theorem C22_counterexample :
    ¬ ∀ a b x : U8, (Interval.ofRange a b).contains x = true ↔ a ≤ x ∧ x < b := by
  intro h
  have := (h (MInt.lit 5) (MInt.lit 5) (MInt.lit 5)).1 (by decide)
  exact absurd this.2 (by decide)

/-! ## C23 -/

/-- Every `Interval` the API can produce is `Empty`, a `Point` or a `Closed` interval; its bounds are
absent or inclusive, and the kind predicates say so. -/
theorem C23_normal_form (i : Interval α) (h : i.Obtainable) :
    (i.raw = .empty ∨ (∃ p, i.raw = .point p) ∨ ∃ l u, i.raw = .closed l u) ∧
    ((i.lowerBound = none ∧ i.upperBound = none ∧ i.isEmpty = true) ∨
      ∃ l u, i.lowerBound = some (.incl l) ∧ i.upperBound = some (.incl u) ∧ i.isEmpty = false) ∧
    (i.isBounded && i.isLeftBounded && i.isRightBounded && !i.isHalfBounded &&
      i.isClosed && !i.isHalfClosed && !i.isHalfOpen && !i.isLeftOpen && !i.isRightOpen) = true ∧
    (i.isOpen = i.isEmpty ∧ i.isLeftClosed = !i.isEmpty ∧ i.isRightClosed = !i.isEmpty) := by
  rcases Interval.obtainable_cases h with rfl | ⟨p, rfl⟩ | ⟨l, u, rfl, _⟩
  · exact ⟨.inl rfl, .inl ⟨rfl, rfl, rfl⟩, rfl, rfl, rfl, rfl⟩
  · exact ⟨.inr (.inl ⟨p, rfl⟩), .inr ⟨p, p, rfl, rfl, rfl⟩, rfl, rfl, rfl, rfl⟩
  · exact ⟨.inr (.inr ⟨l, u, rfl⟩), .inr ⟨l, u, rfl, rfl, rfl⟩, rfl, rfl, rfl, rfl⟩

example : (Interval.mkOpen (MInt.lit 3 : U8) (MInt.lit 9 : U8)).Obtainable ∧ (Interval.mkOpen (MInt.lit 3 : U8) (MInt.lit 9 : U8)).raw = .closed (MInt.lit 4 : U8) (MInt.lit 8 : U8) :=
  ⟨.ofRaw (.opn (MInt.lit 3 : U8) (MInt.lit 9 : U8)) (by decide), by decide⟩

/-- The values the API can produce, exactly: `Empty`, points, `Closed l u` with `l ≤ u`, and
`Closed l u` with `u` the predecessor of `l`. -/
theorem C23_exact (i : Interval α) : i.Obtainable ↔
    i.raw = .empty ∨ (∃ p, i.raw = .point p) ∨
      ∃ l u, i.raw = .closed l u ∧ (l ≤ u ∨ succ u = some l) := by
  rw [Interval.obtainable_iff]
  rcases i with ⟨r⟩
  cases r <;> simp [RawInterval.NF]

example : (Interval.mkOpen (MInt.lit 3 : U8) (MInt.lit 7)).Obtainable := .mkOpen _ _

/-! ## C24 -/

/-- `is_empty` is only true if there is no point, and the results of `intersect`, `minus` and
`complement` report emptiness exactly.
Missing from the full property: an interval without points always reports `is_empty`. That is
false, see `C24_counterexample`. -/
theorem C24_is_empty_partial (i a b : Interval α) (h : i.Obtainable) (ha : a.Obtainable)
    (hb : b.Obtainable) :
    (i.isEmpty = true → ∀ x, i.contains x = false) ∧
    (a.intersect b).Real ∧ (∀ c ∈ a.minus b, c.Real) ∧ (∀ c ∈ a.complement, c.Real) := by
  refine ⟨?_, Interval.real_intersect ha hb, fun c hc => Interval.real_minus ha hc,
    fun c hc => Interval.real_complement hc⟩
  intro he x
  rcases i with ⟨r⟩
  cases r <;> simp_all [Interval.isEmpty, Interval.contains, RawInterval.contains]

example : (Interval.mkClosed (MInt.lit 3 : U8) (MInt.lit 9 : U8)).Obtainable ∧ (Interval.mkOpen (MInt.lit 4 : U8) (MInt.lit 7 : U8)).Obtainable ∧
    (Interval.mkClosed (MInt.lit 3 : U8) (MInt.lit 9 : U8)).minus (Interval.mkOpen (MInt.lit 4 : U8) (MInt.lit 7 : U8)) =
      [Interval.mkClosed (MInt.lit 3 : U8) (MInt.lit 4 : U8), Interval.mkClosed (MInt.lit 7 : U8) (MInt.lit 9 : U8)] :=
  ⟨.ofRaw (.closed (MInt.lit 3 : U8) (MInt.lit 9 : U8)) (by decide), .ofRaw (.opn (MInt.lit 4 : U8) (MInt.lit 7 : U8)) (by decide), by decide⟩

/-- `Real` intervals report emptiness exactly. -/
theorem C24_real (i : Interval α) (h : i.Obtainable) (hr : i.Real) :
    i.isEmpty = true ↔ ∀ x, i.contains x = false := by
  refine ⟨(C24_is_empty_partial i i i h h h).1, fun hx => ?_⟩
  rcases hr with hr | ⟨x, hr⟩
  · exact hr
  · rw [hx x] at hr; cases hr

example : (Interval.mkClosed (MInt.lit 3 : U8) (MInt.lit 7)).Obtainable ∧
    ((Interval.mkClosed (MInt.lit 3 : U8) (MInt.lit 7)).intersect
      (Interval.mkClosed (MInt.lit 8) (MInt.lit 9))).isEmpty = true :=
  ⟨.mkClosed _ _, by decide⟩

theorem Interval.phantom_no_point (x : U8) :
    (Interval.mkOpen (MInt.lit 3 : U8) (MInt.lit 4)).contains x = false := by
  rw [Bool.eq_false_iff, ne_eq, (C21_bounded _ _ x).2.2.1]
  rintro ⟨h1, h2⟩
  have a1 : (3 : Int) < x.1 := h1
  have a2 : x.1 < (4 : Int) := h2
  omega

/-- `Interval::open(3, 4)` over `u8` contains no point but is not `is_empty`. -/
theorem C24_counterexample :
    ¬ ∀ i : Interval U8, i.Obtainable → (∀ x, i.contains x = false) → i.isEmpty = true := by
  intro h
  exact absurd (h _ (.mkOpen (MInt.lit 3) (MInt.lit 4)) Interval.phantom_no_point) (by decide)

/-! ## C25 -/

/-- `is_degenerate` is only true of one-point intervals, and `is_proper` is true of all intervals
with more than one point.
Missing from the full property: the converse directions. They are false, see
`C25_counterexample`. -/
theorem C25_degenerate_partial (i : Interval α) (h : i.Obtainable) :
    (i.isDegenerate = true → ∃ x, ∀ y, i.contains y = true ↔ y = x) ∧
    ((∃ x y, x ≠ y ∧ i.contains x = true ∧ i.contains y = true) → i.isProper = true) := by
  rcases Interval.obtainable_cases h with rfl | ⟨p, rfl⟩ | ⟨l, u, rfl, _⟩
  · simp [Interval.isDegenerate, Interval.contains, RawInterval.contains]
  · refine ⟨fun _ => ⟨p, fun y => by simp [Interval.contains, RawInterval.contains, eq_comm]⟩, ?_⟩
    rintro ⟨x, y, hne, hx, hy⟩
    simp [Interval.contains, RawInterval.contains] at hx hy
    exact absurd (hx.trans hy.symm) hne
  · simp [Interval.isDegenerate, Interval.isProper]

example : (Interval.point (MInt.lit 3 : U8)).isDegenerate = true ∧
    (Interval.mkClosed (MInt.lit 3 : U8) (MInt.lit 5)).isProper = true := by decide

/-- `Interval::left_open(3, 4)` over `u8` contains exactly the point 4, but is `is_proper` and not
`is_degenerate`. -/
theorem C25_counterexample :
    ∃ i : Interval U8, i.Obtainable ∧ (∃ x, ∀ y, i.contains y = true ↔ y = x) ∧
      i.isDegenerate = false ∧ i.isProper = true := by
  refine ⟨.mkLeftOpen (MInt.lit 3) (MInt.lit 4), .mkLeftOpen _ _, ⟨MInt.lit 4, fun y => ?_⟩,
    by decide, by decide⟩
  rw [(C21_bounded _ _ y).2.2.2.2.1]
  constructor
  · rintro (⟨h1, h2⟩ | ⟨h, _⟩)
    · have a1 : (3 : Int) < y.1 := h1
      have a2 : y.1 ≤ (4 : Int) := h2
      apply Subtype.ext; show y.1 = 4; omega
    · exact absurd h (by decide)
  · rintro rfl; exact .inl ⟨by decide, by decide⟩

/-! ## C26 -/

/-- Intervals with the same points, at least two of them, are equal.
Missing from the full property: intervals with at most one point. For those it is false, see
`C26_counterexample`. -/
theorem C26_equality_partial (a b : Interval α) (ha : a.Obtainable) (hb : b.Obtainable)
    (h : ∀ x, a.contains x = b.contains x)
    (h2 : ∃ x y, x ≠ y ∧ a.contains x = true ∧ a.contains y = true) : a = b := by
  obtain ⟨x, y, hne, hx, hy⟩ := h2
  have e : a.raw.pts = b.raw.pts := by
    rw [← Interval.pts_eq, ← Interval.pts_eq]; ext z
    show a.contains z = true ↔ b.contains z = true
    rw [h]
  have := C17_canonical_partial a.raw b.raw e x y ((RawInterval.contains_iff _ _).1 hx)
    ((RawInterval.contains_iff _ _).1 hy) hne
  rw [RawInterval.nf_normalized (Interval.obtainable_nf ha),
    RawInterval.nf_normalized (Interval.obtainable_nf hb)] at this
  rcases a with ⟨a⟩; rcases b with ⟨b⟩; simp at this; rw [this]

example : Interval.mkOpen (MInt.lit 3 : U8) (MInt.lit 7) = .mkClosed (MInt.lit 4) (MInt.lit 6) := by
  decide

/-- Two obtainable intervals without points need not be equal; neither two with the same single
point. -/
theorem C26_counterexample :
    ¬ ∀ a b : Interval U8, a.Obtainable → b.Obtainable → (∀ x, a.contains x = b.contains x) → a = b := by
  intro h
  refine absurd (h _ _ (.mkOpen (MInt.lit 3) (MInt.lit 4)) .empty fun x => ?_) (by decide)
  rw [Interval.phantom_no_point]; rfl

/-! ## C27 -/

/-- `intersect`, `minus` and `complement` are the set operations. -/
theorem C27_set_operations (a b : Interval α) (x : α) :
    ((a.intersect b).contains x = true ↔ a.contains x = true ∧ b.contains x = true) ∧
    ((∃ c ∈ a.minus b, c.contains x = true) ↔ a.contains x = true ∧ b.contains x = false) ∧
    ((∃ c ∈ a.complement, c.contains x = true) ↔ a.contains x = false) := by
  refine ⟨iff_of_eq (congrFun (Interval.pts_intersect a b) x), ?_, ?_⟩
  · rw [← Bool.not_eq_true]; exact Interval.mem_minus a b x
  · rw [← Bool.not_eq_true]; exact Interval.mem_complement a x

example : ((Interval.mkClosed (MInt.lit 3 : U8) (MInt.lit 7)).minus (.point (MInt.lit 5))) =
    [.mkClosed (MInt.lit 3) (MInt.lit 4), .mkClosed (MInt.lit 6) (MInt.lit 7)] ∧
    (Interval.mkClosed (MInt.lit 0 : U8) (MInt.lit 7)).complement =
      [.empty, .mkClosed (MInt.lit 8) (MInt.lit 255)] := by decide

/-- Obtainable intervals that do not report empty have two inclusive bounds. -/
theorem Interval.incl_bounds {i : Interval α} (h : i.Obtainable) : i = ⟨.empty⟩ ∨
    ∃ l u, i.raw.lowerBound = some (.incl l) ∧ i.raw.upperBound = some (.incl u) ∧
      i.raw ≠ .empty ∧ (l ≤ u ∨ succ u = some l) ∧ (i.Real → l ≤ u) ∧
      ∀ x, i.contains x = true ↔ l ≤ x ∧ x ≤ u := by
  rcases Interval.obtainable_cases h with rfl | ⟨p, rfl⟩ | ⟨l, u, rfl, hlu⟩
  · exact .inl rfl
  · refine .inr ⟨p, p, rfl, rfl, by simp, .inl (le_refl _), fun _ => le_refl _, fun x => ?_⟩
    simp [Interval.contains, RawInterval.contains]
    exact ⟨fun h => by simp [h], fun h => le_antisymm h.2 h.1⟩
  · refine .inr ⟨l, u, rfl, rfl, by simp, hlu, Interval.real_mk_closed.1, fun x => ?_⟩
    simp [Interval.contains, RawInterval.contains]

/-! ## C28 -/

/-- `union` is set union as soon as one of the arguments is `Real`.
Missing from the full property: two adjacent open intervals between neighbours. For those it is
false, see `C28_counterexample`. -/
theorem C28_union_partial (a b : Interval α) (ha : a.Obtainable) (hb : b.Obtainable)
    (hr : a.Real ∨ b.Real) (x : α) :
    (∃ c ∈ a.union b, c.contains x = true) ↔ a.contains x = true ∨ b.contains x = true := by
  have hmap : ∀ (L : List (RawInterval α)),
      (∃ c ∈ L.map (fun r => (⟨r.normalized⟩ : Interval α)), c.contains x = true) ↔
      ∃ r ∈ L, r.contains x = true := by
    intro L
    simp only [List.mem_map]
    constructor
    · rintro ⟨_, ⟨r, hr, rfl⟩, hx⟩
      exact ⟨r, hr, by rw [← C15_normalize_pts]; exact hx⟩
    · rintro ⟨r, hr, hx⟩
      exact ⟨_, ⟨r, hr, rfl⟩, by show RawInterval.contains _ _ = true; rw [C15_normalize_pts]; exact hx⟩
  rw [Interval.union, hmap]
  have e0 : (RawInterval.empty : RawInterval α).isEmpty = true := rfl
  rcases Interval.incl_bounds ha with rfl | ⟨la, ua, a1, a2, a3, a4, a5, a6⟩
  · cases hbe : b.raw.isEmpty
    · simp [RawInterval.union, hbe, e0, Interval.contains, RawInterval.contains]
    · simp [RawInterval.union, hbe, e0, Interval.contains, RawInterval.contains]
      rw [(RawInterval.isEmpty_iff _).1 hbe]
  have e1 : a.raw.isEmpty = false := by
    rw [Bool.eq_false_iff]; simpa [RawInterval.isEmpty_iff] using a3
  rcases Interval.incl_bounds hb with rfl | ⟨lb, ub, b1, b2, b3, b4, b5, b6⟩
  · simp [RawInterval.union, e1, e0, Interval.contains, RawInterval.contains]
  have e2 : b.raw.isEmpty = false := by
    rw [Bool.eq_false_iff]; simpa [RawInterval.isEmpty_iff] using b3
  simp only [RawInterval.union, e1, e2]
  split_ifs with hc
  · simp only [List.mem_singleton, exists_eq_left]
    have hcomp : ((Bound.incl la).leastUnion (.incl lb)).Compat
        ((Bound.incl ua).greatestUnion (.incl ub)) := by
      rcases hr with hr | hr
      · exact Bound.compat_lu _ _ _ _ (a5 hr)
      · rw [Bound.lu_comm, Bound.gu_comm]; exact Bound.compat_lu _ _ _ _ (b5 hr)
    rw [RawInterval.enclose_of_bounds a1 a2 b1 b2, RawInterval.new_contains hcomp,
      Bound.leastUnion_above, Bound.greatestUnion_below, a6, b6]
    simp only [Bool.or_eq_true, RawInterval.intersect_isEmpty a1 a2 b1 b2,
      RawInterval.isAdjacentTo, a1, a2, b1, b2, Bound.isUnionAdjacentTo, Bound.Compat,
      beq_iff_eq] at hc
    simp only [Bound.AdmitsAbove, Bound.AdmitsBelow]
    have q1 : la ≤ ua ∨ ua < la := le_or_gt _ _
    have q2 : lb ≤ ub ∨ ub < lb := le_or_gt _ _
    have q3 : la ≤ ua ∨ lb ≤ ub := hr.imp a5 b5
    clear a1 a2 a3 a4 a5 a6 b1 b2 b3 b4 b5 b6 hcomp e0 e1 e2 hmap ha hb hr
    grind
  · simp [Interval.contains]

example : (Interval.mkClosed (MInt.lit 3 : U8) (MInt.lit 7)).union
      (.mkClosed (MInt.lit 7) (MInt.lit 9)) = [.mkClosed (MInt.lit 3) (MInt.lit 9)] ∧
    (Interval.mkClosed (MInt.lit 3 : U8) (MInt.lit 7)).Real :=
  ⟨by decide, .inr ⟨MInt.lit 4, by decide⟩⟩

/-- The union of `Interval::open(3, 4)` and `Interval::open(2, 3)`, both without points, contains
the point 3. -/
theorem C28_counterexample :
    ¬ ∀ (a b : Interval U8) (x : U8), a.Obtainable → b.Obtainable →
      ((∃ c ∈ a.union b, c.contains x = true) ↔ a.contains x = true ∨ b.contains x = true) := by
  intro h
  have := (h _ _ (MInt.lit 3) (.mkOpen (MInt.lit 3) (MInt.lit 4))
    (.mkOpen (MInt.lit 2) (MInt.lit 3))).1 (by decide)
  revert this; decide

/-! ## C29 -/

/-- `intersects` decides whether there is a common point. -/
theorem C29_intersects (a b : Interval α) (ha : a.Obtainable) (hb : b.Obtainable) :
    a.intersects b = true ↔ ∃ x, a.contains x = true ∧ b.contains x = true := by
  rcases Interval.incl_bounds ha with rfl | ⟨la, ua, a1, a2, a3, a4, a5, a6⟩
  · simp [Interval.intersects, RawInterval.intersects, RawInterval.intersect_empty_left,
      RawInterval.isEmpty, Interval.contains, RawInterval.contains]
  rcases Interval.incl_bounds hb with rfl | ⟨lb, ub, b1, b2, b3, b4, b5, b6⟩
  · simp [Interval.intersects, RawInterval.intersects, RawInterval.intersect_empty_right,
      RawInterval.isEmpty, Interval.contains, RawInterval.contains]
  rw [Interval.intersects, RawInterval.intersect_isEmpty a1 a2 b1 b2]
  simp only [Bound.Compat, a6, b6]
  constructor
  · rintro ⟨⟨h1, h2⟩, h3, h4⟩
    refine ⟨max la lb, ⟨le_max_left _ _, max_le h1 h4⟩, le_max_right _ _, max_le h3 h2⟩
  · rintro ⟨x, ⟨h1, h2⟩, h3, h4⟩
    exact ⟨⟨h1.trans h2, h3.trans h4⟩, h1.trans h4, h3.trans h2⟩

example : (Interval.mkClosed (MInt.lit 3 : U8) (MInt.lit 7)).intersects
      (.mkOpen (MInt.lit 6) (MInt.lit 9)) = true ∧
    (Interval.mkClosed (MInt.lit 3 : U8) (MInt.lit 7)).intersects
      (.mkOpen (MInt.lit 7) (MInt.lit 9)) = false := by decide

/-! ## C30 -/

/-- `enclose` contains both arguments and, for `Real` arguments, is contained in every interval that
does; `closure` contains the same points.
Missing from the full property: minimality for an argument that is not `Real`. There it is false,
see `C30_counterexample`. -/
theorem C30_enclose_partial (a b : Interval α) (ha : a.Obtainable) (hb : b.Obtainable) :
    (a.pts ⊆ (a.enclose b).pts ∧ b.pts ⊆ (a.enclose b).pts) ∧
    (a.Real → b.Real → ∀ j : Interval α, a.pts ⊆ j.pts → b.pts ⊆ j.pts →
      (a.enclose b).pts ⊆ j.pts) ∧
    a.closure = a := by
  have hcl : a.closure = a := by
    rcases Interval.obtainable_cases ha with rfl | ⟨p, rfl⟩ | ⟨l, u, rfl, _⟩ <;> rfl
  have he : (a.enclose b).pts = (a.raw.enclose b.raw).pts := by
    rw [Interval.pts_eq, Interval.enclose, Interval.ofRaw, RawInterval.normalized_idem,
      RawInterval.normalized_pts]
  rw [he]
  rcases Interval.incl_bounds ha with rfl | ⟨la, ua, a1, a2, a3, a4, a5, a6⟩
  · have hb' : (RawInterval.empty.enclose b.raw).pts = b.pts := by
      rw [Interval.pts_eq]
      rcases Interval.obtainable_cases hb with rfl | ⟨p, rfl⟩ | ⟨l, u, rfl, _⟩
      · rfl
      · rw [RawInterval.enclose_empty_left (b := .point p) (by trivial)]
      · ext x
        show x ∈ (RawInterval.new (.incl l) (.incl u)).pts ↔ _
        rw [(C02_new _ _).2]
        simp [Bound.AdmitsAbove, Bound.AdmitsBelow, RawInterval.pts]
    rw [hb']
    refine ⟨⟨?_, fun _ h => h⟩, fun _ _ j _ hj => hj, hcl⟩
    intro x hx; exact absurd hx (by show ¬ (_ = true); simp [Interval.contains, RawInterval.contains])
  rcases Interval.incl_bounds hb with rfl | ⟨lb, ub, b1, b2, b3, b4, b5, b6⟩
  · have hb' : (a.raw.enclose .empty).pts = a.pts := by
      rw [Interval.pts_eq]
      rcases Interval.obtainable_cases ha with rfl | ⟨p, rfl⟩ | ⟨l, u, rfl, _⟩
      · rfl
      · rw [RawInterval.enclose_empty_right (b := .point p) (by trivial)]
      · ext x
        show x ∈ (RawInterval.new (.incl l) (.incl u)).pts ↔ _
        rw [(C02_new _ _).2]
        simp [Bound.AdmitsAbove, Bound.AdmitsBelow, RawInterval.pts]
    rw [hb']
    refine ⟨⟨fun _ h => h, ?_⟩, fun _ _ j hj _ => hj, hcl⟩
    intro x hx; exact absurd hx (by show ¬ (_ = true); simp [Interval.contains, RawInterval.contains])
  have hmem : ∀ x, x ∈ (a.raw.enclose b.raw).pts ↔ (la ≤ x ∨ lb ≤ x) ∧ (x ≤ ua ∨ x ≤ ub) := by
    intro x
    rw [RawInterval.enclose_of_bounds a1 a2 b1 b2, (C02_new _ _).2, Bound.leastUnion_above,
      Bound.greatestUnion_below]
    have n1 : ∀ y, (Bound.incl la).leastUnion (.incl lb) ≠ .excl y := by
      intro y; simp only [Bound.leastUnion]; split_ifs <;> simp
    have n2 : ∀ y, (Bound.incl ua).greatestUnion (.incl ub) ≠ .excl y := by
      intro y; simp only [Bound.greatestUnion]; split_ifs <;> simp
    simp [n1, n2, Bound.AdmitsAbove, Bound.AdmitsBelow]
  have pa : ∀ x, x ∈ a.pts ↔ la ≤ x ∧ x ≤ ua := a6
  have pb : ∀ x, x ∈ b.pts ↔ lb ≤ x ∧ x ≤ ub := b6
  refine ⟨⟨fun x hx => ?_, fun x hx => ?_⟩, ?_, hcl⟩
  · rw [hmem]; rw [pa] at hx; exact ⟨.inl hx.1, .inl hx.2⟩
  · rw [hmem]; rw [pb] at hx; exact ⟨.inr hx.1, .inr hx.2⟩
  · intro ra rb j ja jb x hx
    rw [hmem] at hx
    have l1 := a5 ra
    have l2 := b5 rb
    have j1 := ja ((pa la).2 ⟨le_refl _, l1⟩)
    have j2 := ja ((pa ua).2 ⟨l1, le_refl _⟩)
    have j3 := jb ((pb lb).2 ⟨le_refl _, l2⟩)
    have j4 := jb ((pb ub).2 ⟨l2, le_refl _⟩)
    rw [Interval.pts_eq] at *
    rcases hx with ⟨h1 | h1, h2 | h2⟩
    · exact j.raw.convex j1 j2 h1 h2
    · exact j.raw.convex j1 j4 h1 h2
    · exact j.raw.convex j3 j2 h1 h2
    · exact j.raw.convex j3 j4 h1 h2

example : (Interval.mkClosed (MInt.lit 3 : U8) (MInt.lit 5)).enclose
      (.mkOpen (MInt.lit 6) (MInt.lit 9)) = .mkClosed (MInt.lit 3) (MInt.lit 8) ∧
    (Interval.mkClosed (MInt.lit 3 : U8) (MInt.lit 5)).Real :=
  ⟨by decide, .inr ⟨MInt.lit 4, by decide⟩⟩

/-- Enclosing `{1}` and `Interval::open(3, 4)`, which has no points, gives `[1,3]`. -/
theorem C30_counterexample :
    ¬ ∀ a b j : Interval U8, a.Obtainable → b.Obtainable → a.pts ⊆ j.pts → b.pts ⊆ j.pts →
      (a.enclose b).pts ⊆ j.pts := by
  intro h
  have := h (.point (MInt.lit 1)) (.mkOpen (MInt.lit 3) (MInt.lit 4)) (.point (MInt.lit 1))
    (.point _) (.mkOpen _ _) (fun _ h => h)
    (fun x hx => absurd hx (by show ¬ (_ = true); rw [Interval.phantom_no_point]; simp))
  have k := this (a := (MInt.lit 2 : U8)) (by show _ = true; decide)
  exact absurd k (by show ¬ (_ = true); decide)

/-! ## C31 -/

/-- `infimum`/`supremum` are the least/greatest point, and absent exactly if there is none, for
`Real` intervals.
Missing from the full property: intervals that are not `Real`, for which it is false, see
`C31_counterexample`. -/
theorem C31_extrema_partial (i : Interval α) (h : i.Obtainable) (hr : i.Real) :
    (∀ m, i.infimum = some m ↔ IsLeast i.pts m) ∧ (∀ m, i.supremum = some m ↔ IsGreatest i.pts m) ∧
    (i.infimum = none ↔ i.pts = ∅) ∧ (i.supremum = none ↔ i.pts = ∅) := by
  have key : ∀ l u : α, l ≤ u → i.infimum = some l → i.supremum = some u → i.pts = Set.Icc l u →
      (∀ m, i.infimum = some m ↔ IsLeast i.pts m) ∧
      (∀ m, i.supremum = some m ↔ IsGreatest i.pts m) ∧
      (i.infimum = none ↔ i.pts = ∅) ∧ (i.supremum = none ↔ i.pts = ∅) := by
    intro l u hlu h1 h2 h3
    have g1 : IsLeast (Set.Icc l u) l := ⟨⟨le_refl _, hlu⟩, fun x hx => hx.1⟩
    have g2 : IsGreatest (Set.Icc l u) u := ⟨⟨hlu, le_refl _⟩, fun x hx => hx.2⟩
    have g3 : Set.Icc l u ≠ ∅ := fun h => by
      have g := g1.1; rw [h] at g; exact g
    rw [h1, h2, h3]
    refine ⟨fun m => ?_, fun m => ?_, by simp [g3], by simp [g3]⟩
    · rw [Option.some.injEq]
      exact ⟨fun e => e ▸ g1, fun g => le_antisymm (g1.2 g.1) (g.2 g1.1)⟩
    · rw [Option.some.injEq]
      exact ⟨fun e => e ▸ g2, fun g => le_antisymm (g.2 g2.1) (g2.2 g.1)⟩
  rcases Interval.real_cases h hr with rfl | ⟨p, rfl⟩ | ⟨l, u, rfl, hlu⟩
  · have e : (⟨.empty⟩ : Interval α).pts = ∅ := Interval.pts_eq _
    rw [e]
    refine ⟨fun m => ?_, fun m => ?_, ?_, ?_⟩
    · exact Iff.intro (fun h => by cases h) (fun h => absurd h.1 id)
    · exact Iff.intro (fun h => by cases h) (fun h => absurd h.1 id)
    · exact ⟨fun _ => rfl, fun _ => rfl⟩
    · exact ⟨fun _ => rfl, fun _ => rfl⟩
  · refine key p p (le_refl _) rfl rfl ?_
    rw [Interval.pts_eq]; ext x
    exact ⟨fun h => by rw [show x = p from h]; exact ⟨le_refl _, le_refl _⟩,
      fun h => le_antisymm h.2 h.1⟩
  · exact key l u hlu rfl rfl (Interval.pts_eq _)

example : (Interval.mkOpen (MInt.lit 3 : U8) (MInt.lit 9)).infimum = some (MInt.lit 4) ∧
    (Interval.mkOpen (MInt.lit 3 : U8) (MInt.lit 9)).supremum = some (MInt.lit 8) ∧
    (Interval.mkOpen (MInt.lit 3 : U8) (MInt.lit 9)).Real :=
  ⟨by decide, by decide, .inr ⟨MInt.lit 4, by decide⟩⟩

/-- `Interval::open(3, 4)` has no points, but infimum 4 and supremum 3. -/
theorem C31_counterexample :
    ∃ i : Interval U8, i.Obtainable ∧ (∀ x, i.contains x = false) ∧
      i.infimum = some (MInt.lit 4) ∧ i.supremum = some (MInt.lit 3) :=
  ⟨_, .mkOpen (MInt.lit 3) (MInt.lit 4), Interval.phantom_no_point, by decide, by decide⟩

/-! ## C32 -/

/-- Under any interleaving of `next` and `next_back`, iteration over a `Real` interval is a
double-ended walk over its points; it never panics.
Missing from the full property: intervals that are not `Real`, for which it is false, see
`C32_counterexample`. -/
theorem C32_iteration_partial (i : Interval α) (h : i.Obtainable) (hr : i.Real)
    (cs : List IterCall) :
    ∃ os, drive Interval.next Interval.nextBack i cs = .ok os ∧ Walk i.pts cs os :=
  Interval.drive_walk cs h hr

example : drive Interval.next Interval.nextBack (Interval.mkClosed (MInt.lit 3 : U8) (MInt.lit 6))
    [.next, .nextBack, .nextBack, .next, .next] =
    .ok [some (MInt.lit 3), some (MInt.lit 6), some (MInt.lit 5), some (MInt.lit 4), none] := by
  decide

/-- Iterating over `Interval::open(3, 4)`, which has no points, returns the point 4 (`next`) or the
point 3 (`next_back`). -/
theorem C32_counterexample :
    ∃ i : Interval U8, i.Obtainable ∧ (∀ x, i.contains x = false) ∧
      drive Interval.next Interval.nextBack i [.next] = .ok [some (MInt.lit 4)] ∧
      drive Interval.next Interval.nextBack i [.nextBack] = .ok [some (MInt.lit 3)] :=
  ⟨_, .mkOpen (MInt.lit 3) (MInt.lit 4), Interval.phantom_no_point, by decide, by decide⟩

/-! ## C33 -/

/-- The `Sub` of the machine integers: `none` is an overflow. -/
def MInt.sub {lo hi : Int} (a b : MInt lo hi) : Option (MInt lo hi) := a.checkedSub b.1

/-- `size` is `None` iff the interval reports empty, and otherwise supremum minus infimum, whenever
that difference is a value of the type.  For unsigned types it always is, if the interval is
`Real`.
Missing from the full property: the difference may overflow, see `C33_counterexample`. -/
theorem C33_size_partial {lo hi : Int} [Fact (lo ≤ hi)] (i : Interval (MInt lo hi))
    (h : i.Obtainable) :
    (i.isEmpty = true → i.size MInt.sub = .ok none) ∧
    (∀ l u : MInt lo hi, i.infimum = some l → i.supremum = some u →
      (∀ d : MInt lo hi, d.1 = u.1 - l.1 → i.size MInt.sub = .ok (some d)) ∧
      (lo = 0 → i.Real → ∃ d : MInt lo hi, d.1 = u.1 - l.1)) := by
  refine ⟨?_, ?_⟩
  · intro he
    rcases i with ⟨r⟩
    cases r <;> simp_all [Interval.isEmpty]
    rfl
  · intro l u h1 h2
    refine ⟨fun d hd => ?_, fun h0 hr => ?_⟩
    · simp only [Interval.size, h1, h2, MInt.sub, MInt.checkedSub]
      rw [dif_pos (by rw [← hd]; exact d.2)]
      simp only [Except.ok.injEq, Option.some.injEq]
      exact Subtype.ext hd.symm
    · have hle : l ≤ u := by
        have := C31_extrema_partial i h hr
        exact ((this.1 l).1 h1).2 ((this.2.1 u).1 h2).1
      have a1 : l.1 ≤ u.1 := hle
      have a2 := l.2
      have a3 := u.2
      exact ⟨⟨u.1 - l.1, by omega, by omega⟩, rfl⟩

example : (Interval.mkClosed (MInt.lit 3 : U8) (MInt.lit 7)).size MInt.sub =
    .ok (some (MInt.lit 4)) := by decide

/-- `size` overflows: `Interval::<i8>::full()` would have size 255; and for `u8` the pointless
`Interval::open(3, 4)` would have size -1. -/
theorem C33_counterexample :
    (Interval.full : Interval I8).size MInt.sub = .error .overflow ∧
    (Interval.mkOpen (MInt.lit 3 : U8) (MInt.lit 4)).size MInt.sub = .error .overflow := by decide

end NI
