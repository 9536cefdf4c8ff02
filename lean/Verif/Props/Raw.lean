import Verif.Lemmas.Raw
import Mathlib.Algebra.Order.Field.Rat
import Mathlib.Algebra.Order.Field.Basic
import Mathlib.Order.Max

/-!
# Properties of `Bound` and `RawInterval` (C01–C12)

`i.contains x` is the API function; `i.pts` is the mathematical set from `Verif.Spec`.
-/

set_option linter.unusedSimpArgs false
set_option linter.unusedVariables false
set_option linter.unnecessarySeqFocus false

namespace NI
variable {α : Type _} [LinearOrder α]

theorem exists_mem_cons {β : Type _} {p : β → Prop} {a : β} {l : List β} :
    (∃ x ∈ a :: l, p x) ↔ p a ∨ ∃ x ∈ l, p x := by simp

/-! ## C01 -/

/-- `least_union` of two lower bounds admits a point iff one of them does. -/
theorem C01_least_union (a b : Bound α) (x : α) :
    (a.leastUnion b).AdmitsAbove x ↔ a.AdmitsAbove x ∨ b.AdmitsAbove x :=
  Bound.leastUnion_above a b x

example : (Bound.excl (2 : Int)).leastUnion (.incl 5) = .excl 2 ∧ (Bound.excl (2 : Int)).AdmitsAbove 3 ∧
    ¬ (Bound.incl (5 : Int)).AdmitsAbove 3 := by simp [Bound.AdmitsAbove]; decide

/-- `greatest_intersect` of two lower bounds admits a point iff both do. -/
theorem C01_greatest_intersect (a b : Bound α) (x : α) :
    (a.greatestIntersect b).AdmitsAbove x ↔ a.AdmitsAbove x ∧ b.AdmitsAbove x :=
  Bound.greatestIntersect_above a b x

example : (Bound.excl (2 : Int)).greatestIntersect (.incl 2) = .excl 2 ∧ (Bound.incl (2 : Int)).AdmitsAbove 2 ∧
    ¬ (Bound.excl (2 : Int)).AdmitsAbove 2 := by simp [Bound.AdmitsAbove]; decide

/-- `greatest_union` of two upper bounds admits a point iff one of them does. -/
theorem C01_greatest_union (a b : Bound α) (x : α) :
    (a.greatestUnion b).AdmitsBelow x ↔ a.AdmitsBelow x ∨ b.AdmitsBelow x :=
  Bound.greatestUnion_below a b x

example : (Bound.excl (2 : Int)).greatestUnion (.incl 2) = .incl 2 ∧ (Bound.incl (2 : Int)).AdmitsBelow 2 ∧
    ¬ (Bound.excl (2 : Int)).AdmitsBelow 2 := by simp [Bound.AdmitsBelow]; decide

/-- `least_intersect` of two upper bounds admits a point iff both do. -/
theorem C01_least_intersect (a b : Bound α) (x : α) :
    (a.leastIntersect b).AdmitsBelow x ↔ a.AdmitsBelow x ∧ b.AdmitsBelow x :=
  Bound.leastIntersect_below a b x

example : (Bound.excl (2 : Int)).leastIntersect (.incl 2) = .excl 2 ∧ (Bound.incl (2 : Int)).AdmitsBelow 2 ∧
    ¬ (Bound.excl (2 : Int)).AdmitsBelow 2 := by simp [Bound.AdmitsBelow]; decide

/-- The result is always one of the two arguments (so no bound is invented), or infinite when a
union involves an infinite bound. -/
theorem C01_selects (a b : Bound α) :
    (a.leastUnion b = a ∨ a.leastUnion b = b) ∧ (a.greatestUnion b = a ∨ a.greatestUnion b = b) ∧
    (a.leastIntersect b = a ∨ a.leastIntersect b = b) ∧
    (a.greatestIntersect b = a ∨ a.greatestIntersect b = b) := by
  rcases a with a | a | _ <;> rcases b with b | b | _ <;>
    (unfold Bound.leastUnion Bound.greatestUnion Bound.leastIntersect Bound.greatestIntersect
     simp only []) <;> grind

example : ((Bound.excl (3 : Int)).leastUnion (.incl 3)) = .incl 3 ∧
    ((Bound.excl (3 : Int)).leastUnion (.incl 3)).AdmitsAbove 3 ∧
    ¬ (Bound.excl (3 : Int)).AdmitsAbove 3 := by
  refine ⟨rfl, le_refl _, lt_irrefl _⟩

example : ((Bound.excl (3 : Int)).greatestIntersect (.incl 3)) = .excl 3 ∧
    ((Bound.excl (5 : Int)).greatestUnion (.incl 5)) = .incl 5 ∧
    ((Bound.excl (5 : Int)).leastIntersect .inf) = .excl 5 := by decide

/-! ## C02 -/

/-- `contains` decides membership in the set the notation denotes. -/
theorem C02_contains (i : RawInterval α) (x : α) : i.contains x = true ↔ x ∈ i.pts :=
  RawInterval.contains_iff i x

example : (RawInterval.leftOpen (2 : Int) 5).contains 5 = true ∧ (RawInterval.leftOpen (2 : Int) 5).contains 2 = false := by
  decide

/-- `new(l, u)` contains exactly the points between its bounds, except that two bounds at one point
of which exactly one is inclusive give that one point.  The result is well formed. -/
theorem C02_new (l u : Bound α) :
    (RawInterval.new l u).WF ∧ ∀ x, x ∈ (RawInterval.new l u).pts ↔
      (l.AdmitsAbove x ∧ u.AdmitsBelow x) ∨
      ((l = .incl x ∧ u = .excl x) ∨ (l = .excl x ∧ u = .incl x)) := by
  refine ⟨RawInterval.new_wf l u, fun x => ?_⟩
  rcases l with l | l | _ <;> rcases u with u | u | _ <;>
    simp only [RawInterval.new, RawInterval.mkClosed, RawInterval.mkOpen, RawInterval.mkLeftOpen,
      RawInterval.mkRightOpen, Bound.AdmitsAbove, Bound.AdmitsBelow] <;> (try split_ifs) <;>
    simp [RawInterval.pts] <;> grind

example : RawInterval.new (.excl (2 : Int)) (.incl 5) = .leftOpen 2 5 ∧ RawInterval.new (.excl (5 : Int)) (.incl 5) = .point 5 ∧
    RawInterval.new (.excl (5 : Int)) .inf = .upFrom 5 := by decide

/-- The four two-ended constructors. -/
theorem C02_constructors (l u x : α) :
    (x ∈ (RawInterval.mkOpen l u).pts ↔ l < x ∧ x < u) ∧
    (x ∈ (RawInterval.mkClosed l u).pts ↔ l ≤ x ∧ x ≤ u) ∧
    (x ∈ (RawInterval.mkLeftOpen l u).pts ↔ (l < x ∧ x ≤ u) ∨ (l = u ∧ x = u)) ∧
    (x ∈ (RawInterval.mkRightOpen l u).pts ↔ (l ≤ x ∧ x < u) ∨ (l = u ∧ x = u)) := by
  simp only [RawInterval.mkClosed, RawInterval.mkOpen, RawInterval.mkLeftOpen,
    RawInterval.mkRightOpen]
  refine ⟨?_, ?_, ?_, ?_⟩ <;> split_ifs <;> simp [RawInterval.pts] <;> grind

example : RawInterval.mkOpen (2 : Int) 2 = .empty ∧ RawInterval.mkClosed (2 : Int) 2 = .point 2 ∧
    RawInterval.mkLeftOpen (2 : Int) 7 = .leftOpen 2 7 ∧ RawInterval.mkRightOpen (7 : Int) 2 = .empty := by decide

/-- An interval contains a point exactly if it reports bounds (`lower_bound`, `upper_bound`) and the point
is on the right side of both. -/
theorem C02_bounds (i : RawInterval α) (x : α) :
    x ∈ i.pts ↔ ∃ l u, i.lowerBound = some l ∧ i.upperBound = some u ∧
      l.AdmitsAbove x ∧ u.AdmitsBelow x := by
  rw [← RawInterval.contains_iff, RawInterval.contains_iff_bounds]

example : RawInterval.new (.incl (2 : Int)) (.excl 5) = .rightOpen 2 5 ∧
    RawInterval.new (.incl (5 : Int)) (.excl 2) = .empty ∧
    RawInterval.new (.incl (5 : Int)) (.excl 5) = .point 5 ∧
    (RawInterval.rightOpen (2 : Int) 5).contains 4 = true ∧
    (RawInterval.rightOpen (2 : Int) 5).contains 5 = false := by decide

/-! ## C03 -/

/-- `intersect` is set intersection. -/
theorem C03_intersect (a b : RawInterval α) : (a.intersect b).pts = a.pts ∩ b.pts := by
  ext x; simp only [Set.mem_inter_iff, ← RawInterval.contains_iff,
    RawInterval.intersect_contains a b x]

example : (RawInterval.closed (0 : Int) 7).intersect (.opn 3 12) = .leftOpen 3 7 := by decide

/-- The result of `intersect` is well formed (even for inverted arguments). -/
theorem C03_wf (a b : RawInterval α) : (a.intersect b).WF := RawInterval.intersect_wf a b

example : (RawInterval.closed (9 : Int) 0).intersect .full = .empty ∧ ¬ (RawInterval.closed (9 : Int) 0).WF := by decide

/-- `intersect` is commutative and associative as a function on values, and idempotent on well
formed intervals. -/
theorem C03_algebra (a b c : RawInterval α) :
    a.intersect b = b.intersect a ∧ (a.intersect b).intersect c = a.intersect (b.intersect c) ∧
    (a.WF → a.intersect a = a) :=
  ⟨RawInterval.intersect_comm a b, RawInterval.intersect_assoc a b c,
    fun h => RawInterval.intersect_self h⟩

example : (RawInterval.rightOpen (0 : Int) 5).intersect (.leftOpen 3 9) = .opn 3 5 ∧
    (RawInterval.rightOpen (0 : Int) 5).intersect (.closed 5 9) = .empty ∧
    (RawInterval.closed (0 : Int) 5).intersect (.closed 5 9) = .point 5 ∧
    (RawInterval.rightOpen (0 : Int) 5).WF := by decide

/-! ## C04 -/

/-- The intervals of `complement` cover exactly the points outside, for every raw interval. -/
theorem C04_complement (a : RawInterval α) (x : α) :
    (∃ j ∈ a.complement, x ∈ j.pts) ↔ x ∉ a.pts := by
  simp only [← RawInterval.contains_iff, RawInterval.complement_contains a x,
    Bool.not_eq_true]

example : (RawInterval.leftOpen (3 : Int) 7).complement = [.to 3, .upFrom 7] := by decide

/-- There are at most two, they are well formed and, for well formed `a`, disjoint. -/
theorem C04_shape (a : RawInterval α) :
    a.complement.length ≤ 2 ∧ (∀ j ∈ a.complement, j.WF) ∧
    (a.WF → a.complement.Pairwise fun i j => Disjoint i.pts j.pts) := by
  refine ⟨?_, RawInterval.complement_wf a, ?_⟩
  · cases a <;> simp [RawInterval.complement]
  · cases a <;> simp [RawInterval.complement, RawInterval.WF, RawInterval.pts] <;>
      simp only [Set.disjoint_left] <;> intros <;> simp at * <;> grind

example : (RawInterval.rightOpen (2 : Int) 5).complement = [.upTo 2, .frm 5] ∧
    (RawInterval.rightOpen (2 : Int) 5).WF := by decide

/-! ## C05 -/

/-- `union` covers exactly the points of both arguments. -/
theorem C05_union (a b : RawInterval α) (ha : a.WF) (hb : b.WF) (x : α) :
    (∃ j ∈ a.union b, x ∈ j.pts) ↔ x ∈ a.pts ∨ x ∈ b.pts := by
  simp only [← RawInterval.contains_iff]
  rcases a.bounds_cases with ⟨rfl, h1, h2⟩ | ⟨la, ua, h1, h2, h⟩
  · rcases b.bounds_cases with ⟨rfl, h3, h4⟩ | ⟨lb, ub, h3, h4, h'⟩
    · simp [RawInterval.union, RawInterval.isEmpty, RawInterval.contains]
    · have : b.isEmpty = false := by
        rw [Bool.eq_false_iff]; simpa [RawInterval.isEmpty_iff] using h'
      have e : (RawInterval.empty : RawInterval α).isEmpty = true := rfl
      simp [RawInterval.union, this, e, RawInterval.contains]
  · have e1 : a.isEmpty = false := by
      rw [Bool.eq_false_iff]; simpa [RawInterval.isEmpty_iff] using h
    rcases b.bounds_cases with ⟨rfl, h3, h4⟩ | ⟨lb, ub, h3, h4, h'⟩
    · have e : (RawInterval.empty : RawInterval α).isEmpty = true := rfl
      simp [RawInterval.union, e1, e, RawInterval.contains]
    · have e2 : b.isEmpty = false := by
        rw [Bool.eq_false_iff]; simpa [RawInterval.isEmpty_iff] using h'
      simp only [RawInterval.union, e1, e2]
      split_ifs with hc
      · simp only [List.mem_singleton, exists_eq_left]
        rw [RawInterval.enclose_contains ha h1 h2 h3 h4, RawInterval.contains_iff_bounds a,
          RawInterval.contains_iff_bounds b, h1, h2, h3, h4]
        simp only [Option.some.injEq, exists_and_left, exists_eq_left']
        constructor
        · rintro ⟨p, q⟩
          apply Bound.fill la ua lb ub x (RawInterval.wf_compat ha h1 h2)
            (RawInterval.wf_compat hb h3 h4) _ p q
          rw [Bool.or_eq_true, RawInterval.intersect_isEmpty h1 h2 h3 h4] at hc
          simp only [RawInterval.isAdjacentTo, h1, h2, h3, h4, Bool.or_eq_true] at hc
          tauto
        · tauto
      · simp

example : (RawInterval.closed (0 : Int) 7).WF ∧ (RawInterval.opn (3 : Int) 12).WF ∧
    (RawInterval.closed (0 : Int) 7).union (.opn 3 12) = [.rightOpen 0 12] := by decide

/-- At most two intervals come back, well formed; if there are two they are disjoint. -/
theorem C05_shape (a b : RawInterval α) (ha : a.WF) (hb : b.WF) :
    (a.union b).length ≤ 2 ∧ (∀ j ∈ a.union b, j.WF) ∧
    ∀ i j, a.union b = [i, j] → Disjoint i.pts j.pts := by
  refine ⟨?_, ?_, ?_⟩
  · unfold RawInterval.union; split <;> simp; split_ifs <;> simp
  · unfold RawInterval.union; split <;> simp [ha, hb]; split_ifs <;> simp [ha, hb]
    exact RawInterval.enclose_wf a b
  · intro i j h
    unfold RawInterval.union at h
    split at h <;> simp at h
    split_ifs at h with hc
    · simp at h
    · simp at h; obtain ⟨rfl, rfl⟩ := h
      simp only [Bool.or_eq_true, not_or, RawInterval.intersects] at hc
      have h0 : a.intersect b = .empty := by
        have := hc.1; simp [RawInterval.isEmpty_iff] at this; exact this
      rw [Set.disjoint_iff_inter_eq_empty, ← C03_intersect, h0]; rfl

example : (RawInterval.closed (0 : Int) 2).union (.closed 5 9) = [.closed 0 2, .closed 5 9] ∧
    (RawInterval.closed (0 : Int) 2).WF ∧ (RawInterval.closed (5 : Int) 9).WF := by decide

/-- The points of a raw interval are convex. -/
theorem RawInterval.convex (i : RawInterval α) {x y z : α} (hx : x ∈ i.pts) (hz : z ∈ i.pts)
    (h1 : x ≤ y) (h2 : y ≤ z) : y ∈ i.pts := by
  cases i <;> simp [RawInterval.pts] at * <;> grind

/-- Over a dense order without end points every well formed interval other than `Empty` has a
point. -/
theorem RawInterval.exists_point [DenselyOrdered α] [NoMinOrder α] [NoMaxOrder α] [Nonempty α]
    (i : RawInterval α) (hi : i.WF) (h : i ≠ .empty) : i.pts.Nonempty := by
  cases i <;> simp [RawInterval.pts, RawInterval.WF] at *
  all_goals first
    | assumption
    | exact hi.le

theorem Bound.gap [DenselyOrdered α] (la ua lb ub : Bound α) (ha : la.Compat ua) (hb : lb.Compat ub)
    (h : ¬ (la.Compat ub ∧ lb.Compat ua)) (h1 : la.isUnionAdjacentTo ub = false)
    (h2 : lb.isUnionAdjacentTo ua = false) :
    (∃ x, ¬ ua.AdmitsBelow x ∧ ¬ lb.AdmitsAbove x) ∨
    (∃ x, ¬ ub.AdmitsBelow x ∧ ¬ la.AdmitsAbove x) := by
  have key : ∀ u l : Bound α, ¬ l.Compat u → l.isUnionAdjacentTo u = false →
      ∃ x, ¬ u.AdmitsBelow x ∧ ¬ l.AdmitsAbove x := by
    intro u l h h1
    rcases l with l | l | _ <;> rcases u with u | u | _ <;>
      simp only [Bound.Compat, Bound.isUnionAdjacentTo, Bound.AdmitsBelow, Bound.AdmitsAbove,
        not_le, not_lt, beq_eq_false_iff_ne, ne_eq, not_true_eq_false] at *
    · exact exists_between h
    · obtain ⟨x, hx⟩ := exists_between (lt_of_le_of_ne h (Ne.symm h1))
      exact ⟨x, hx.1.le, hx.2⟩
    · obtain ⟨x, hx⟩ := exists_between (lt_of_le_of_ne h (Ne.symm h1))
      exact ⟨x, hx.1, hx.2.le⟩
    · exact ⟨u, le_refl u, h⟩
  by_cases c : la.Compat ub
  · exact .inl (key ua lb (fun t => h ⟨c, t⟩) h2)
  · exact .inr (key ub la c h1)

/-- Over a dense order without end points a two-interval union cannot be written as one interval. -/
theorem C05_two_needed [DenselyOrdered α] [NoMinOrder α] [NoMaxOrder α] [Nonempty α]
    (a b i j : RawInterval α) (ha : a.WF) (hb : b.WF) (h : a.union b = [i, j])
    (k : RawInterval α) : k.pts ≠ i.pts ∪ j.pts := by
  rcases a.bounds_cases with ⟨rfl, h1, h2⟩ | ⟨la, ua, h1, h2, ea⟩
  · have e : (RawInterval.empty : RawInterval α).isEmpty = true := rfl
    cases e' : b.isEmpty <;> simp [RawInterval.union, e, e'] at h
  rcases b.bounds_cases with ⟨rfl, h3, h4⟩ | ⟨lb, ub, h3, h4, eb⟩
  · have e : (RawInterval.empty : RawInterval α).isEmpty = true := rfl
    cases e' : a.isEmpty <;> simp [RawInterval.union, e, e'] at h
  obtain ⟨p, hp⟩ := a.exists_point ha ea
  obtain ⟨q, hq⟩ := b.exists_point hb eb
  have e1 : a.isEmpty = false := by
    rw [Bool.eq_false_iff]; simpa [RawInterval.isEmpty_iff] using ea
  have e2 : b.isEmpty = false := by
    rw [Bool.eq_false_iff]; simpa [RawInterval.isEmpty_iff] using eb
  simp only [RawInterval.union, e1, e2] at h
  split_ifs at h with hc
  · simp at h
  simp only [List.cons.injEq, and_true] at h
  obtain ⟨rfl, rfl⟩ := h
  intro hk
  have pa : ∀ y, y ∈ a.pts ↔ la.AdmitsAbove y ∧ ua.AdmitsBelow y := fun y => by
    rw [← RawInterval.contains_iff, RawInterval.contains_iff_bounds, h1, h2]; simp
  have pb : ∀ y, y ∈ b.pts ↔ lb.AdmitsAbove y ∧ ub.AdmitsBelow y := fun y => by
    rw [← RawInterval.contains_iff, RawInterval.contains_iff_bounds, h3, h4]; simp
  have up : ∀ (l : Bound α) {y z}, l.AdmitsAbove y → ¬ l.AdmitsAbove z → z < y := by
    intro l y z; rcases l with l | l | _ <;> simp only [Bound.AdmitsAbove] <;> grind
  have dn : ∀ (l : Bound α) {y z}, l.AdmitsBelow y → ¬ l.AdmitsBelow z → y < z := by
    intro l y z; rcases l with l | l | _ <;> simp only [Bound.AdmitsBelow] <;> grind
  have ca := RawInterval.wf_compat ha h1 h2
  have cb := RawInterval.wf_compat hb h3 h4
  rw [Bool.or_eq_true, RawInterval.intersect_isEmpty h1 h2 h3 h4] at hc
  simp only [RawInterval.isAdjacentTo, h1, h2, h3, h4, Bool.or_eq_true, not_or,
    Bool.not_eq_true] at hc
  have hpk : p ∈ k.pts := hk ▸ Set.mem_union_left _ hp
  have hqk : q ∈ k.pts := hk ▸ Set.mem_union_right _ hq
  rw [pa] at hp; rw [pb] at hq
  rcases Bound.gap la ua lb ub ca cb (fun t => hc.1 ⟨⟨ca, cb⟩, t⟩) (by tauto) (by tauto) with
    ⟨x, x1, x2⟩ | ⟨x, x1, x2⟩
  · have hx := k.convex hpk hqk (dn ua hp.2 x1).le (up lb hq.1 x2).le
    rw [hk, Set.mem_union, pa, pb] at hx; tauto
  · have hx := k.convex hqk hpk (dn ub hq.2 x1).le (up la hp.1 x2).le
    rw [hk, Set.mem_union, pa, pb] at hx; tauto

example : (RawInterval.rightOpen (0 : Int) 5).union (.closed 5 9) = [.closed 0 9] ∧
    (RawInterval.rightOpen (0 : Int) 5).union (.leftOpen 5 9) =
      [.rightOpen 0 5, .leftOpen 5 9] := by decide

example : (RawInterval.rightOpen (0 : ℚ) 5).WF ∧ (RawInterval.leftOpen (5 : ℚ) 9).WF := by
  decide

/-! ## C06 -/

/-- `minus` covers exactly the points of `a` outside `b`, for every pair of raw intervals. -/
theorem C06_minus (a b : RawInterval α) (x : α) :
    (∃ j ∈ a.minus b, x ∈ j.pts) ↔ x ∈ a.pts ∧ x ∉ b.pts := by
  rw [← C04_complement b x]
  simp only [RawInterval.minus, List.mem_filter, List.mem_map]
  constructor
  · rintro ⟨j, ⟨⟨k, hk, rfl⟩, _⟩, hx⟩
    rw [C03_intersect] at hx
    exact ⟨hx.1, k, hk, hx.2⟩
  · rintro ⟨hx, k, hk, hx'⟩
    have hm : x ∈ (a.intersect k).pts := by rw [C03_intersect]; exact ⟨hx, hx'⟩
    refine ⟨_, ⟨⟨k, hk, rfl⟩, ?_⟩, hm⟩
    rw [Bool.not_eq_true', Bool.eq_false_iff, ne_eq, RawInterval.isEmpty_iff]
    intro e; rw [e] at hm; simp [RawInterval.pts] at hm

example : (RawInterval.closed (0 : Int) 7).minus (.opn 3 5) = [.closed 0 3, .closed 5 7] := by decide

/-- The returned intervals are at most two, not `Empty`, well formed and, for well formed `b`,
disjoint. -/
theorem C06_shape (a b : RawInterval α) :
    (a.minus b).length ≤ 2 ∧ (∀ j ∈ a.minus b, j.WF ∧ j ≠ .empty) ∧
    (b.WF → (a.minus b).Pairwise fun i j => Disjoint i.pts j.pts) := by
  refine ⟨?_, ?_, ?_⟩
  · refine le_trans (List.length_filter_le _ _) ?_
    simpa using (C04_shape b).1
  · intro j hj
    simp only [RawInterval.minus, List.mem_filter, List.mem_map] at hj
    obtain ⟨⟨k, _, rfl⟩, h2⟩ := hj
    rw [Bool.not_eq_true', Bool.eq_false_iff, ne_eq, RawInterval.isEmpty_iff] at h2
    exact ⟨RawInterval.intersect_wf _ _, h2⟩
  · intro hb
    have := (C04_shape b).2.2 hb
    apply List.Pairwise.filter
    rw [List.pairwise_map]
    refine this.imp ?_
    intro i j hij
    rw [C03_intersect, C03_intersect]
    exact hij.mono Set.inter_subset_right Set.inter_subset_right

example : (RawInterval.closed (0 : Int) 9).minus (.rightOpen 3 5) = [.rightOpen 0 3, .closed 5 9] ∧
    (RawInterval.rightOpen (3 : Int) 5).WF := by decide

/-! ## C07 -/

/-- `enclose` contains both arguments. -/
theorem C07_encloses (a b : RawInterval α) (ha : a.WF) (hb : b.WF) :
    a.pts ⊆ (a.enclose b).pts ∧ b.pts ⊆ (a.enclose b).pts := by
  rcases a.bounds_cases with ⟨rfl, h1, h2⟩ | ⟨la, ua, h1, h2, h⟩
  · rw [RawInterval.enclose_empty_left hb]; simp [RawInterval.pts]
  rcases b.bounds_cases with ⟨rfl, h3, h4⟩ | ⟨lb, ub, h3, h4, h'⟩
  · rw [RawInterval.enclose_empty_right ha]; simp [RawInterval.pts]
  constructor <;> intro x hx <;> rw [← RawInterval.contains_iff] at * <;>
    rw [RawInterval.enclose_contains ha h1 h2 h3 h4] <;>
    rw [RawInterval.contains_iff_bounds] at hx
  · rw [h1, h2] at hx; simp at hx; tauto
  · rw [h3, h4] at hx; simp at hx; tauto

example : (RawInterval.closed (0 : Int) 7).WF ∧ (RawInterval.opn (20 : Int) 22).WF ∧
    (RawInterval.closed (0 : Int) 7).enclose (.opn 20 22) = .rightOpen 0 22 := by decide

/-- `enclose` is the smallest interval containing both arguments, in every total order, as soon as
each argument is `Empty` or really contains a point. -/
theorem C07_smallest (a b : RawInterval α) (ha : a.WF) (hb : b.WF)
    (pa : a = .empty ∨ a.pts.Nonempty) (pb : b = .empty ∨ b.pts.Nonempty)
    (j : RawInterval α) (ja : a.pts ⊆ j.pts) (jb : b.pts ⊆ j.pts) : (a.enclose b).pts ⊆ j.pts := by
  rcases a.bounds_cases with ⟨rfl, h1, h2⟩ | ⟨la, ua, h1, h2, h⟩
  · rw [RawInterval.enclose_empty_left hb]; exact jb
  rcases b.bounds_cases with ⟨rfl, h3, h4⟩ | ⟨lb, ub, h3, h4, h'⟩
  · rw [RawInterval.enclose_empty_right ha]; exact ja
  obtain ⟨p, hp⟩ := pa.resolve_left h
  obtain ⟨q, hq⟩ := pb.resolve_left h'
  intro x hx
  rw [← RawInterval.contains_iff, RawInterval.enclose_contains ha h1 h2 h3 h4] at hx
  have ea : ∀ y, y ∈ a.pts ↔ la.AdmitsAbove y ∧ ua.AdmitsBelow y := fun y => by
    rw [← RawInterval.contains_iff, RawInterval.contains_iff_bounds, h1, h2]; simp
  have eb : ∀ y, y ∈ b.pts ↔ lb.AdmitsAbove y ∧ ub.AdmitsBelow y := fun y => by
    rw [← RawInterval.contains_iff, RawInterval.contains_iff_bounds, h3, h4]; simp
  have up : ∀ (l : Bound α) {y z}, l.AdmitsAbove y → ¬ l.AdmitsAbove z → z < y := by
    intro l y z; rcases l with l | l | _ <;> simp only [Bound.AdmitsAbove] <;> grind
  have dn : ∀ (l : Bound α) {y z}, l.AdmitsBelow y → ¬ l.AdmitsBelow z → y < z := by
    intro l y z; rcases l with l | l | _ <;> simp only [Bound.AdmitsBelow] <;> grind
  by_cases c1 : x ∈ a.pts
  · exact ja c1
  by_cases c2 : x ∈ b.pts
  · exact jb c2
  rw [ea] at c1 hp; rw [eb] at c2 hq
  have hp' := ja ((ea p).2 hp); have hq' := jb ((eb q).2 hq)
  rcases hx with ⟨x1 | x1, x2 | x2⟩
  · exact absurd ⟨x1, x2⟩ c1
  · have k1 := dn ua hp.2 (fun t => c1 ⟨x1, t⟩)
    have k2 := up lb hq.1 (fun t => c2 ⟨t, x2⟩)
    exact j.convex hp' hq' k1.le k2.le
  · have k1 := dn ub hq.2 (fun t => c2 ⟨x1, t⟩)
    have k2 := up la hp.1 (fun t => c1 ⟨t, x2⟩)
    exact j.convex hq' hp' k1.le k2.le
  · exact absurd ⟨x1, x2⟩ c2

example : (RawInterval.closed (0 : Int) 2).pts.Nonempty ∧ (RawInterval.opn (5 : Int) 9).pts.Nonempty ∧
    (RawInterval.closed (0 : Int) 2).enclose (.opn 5 9) = .rightOpen 0 9 :=
  ⟨⟨1, (C02_contains _ _).1 (by decide)⟩, ⟨7, (C02_contains _ _).1 (by decide)⟩, by decide⟩

/-- `enclose` is the smallest enclosing interval over dense orders without end points. -/
theorem C07_smallest_dense [DenselyOrdered α] [NoMinOrder α] [NoMaxOrder α] [Nonempty α]
    (a b : RawInterval α) (ha : a.WF) (hb : b.WF) (j : RawInterval α)
    (ja : a.pts ⊆ j.pts) (jb : b.pts ⊆ j.pts) : (a.enclose b).pts ⊆ j.pts := by
  refine C07_smallest a b ha hb ?_ ?_ j ja jb
  · by_cases h : a = .empty
    · exact .inl h
    · exact .inr (a.exists_point ha h)
  · by_cases h : b = .empty
    · exact .inl h
    · exact .inr (b.exists_point hb h)

example : (RawInterval.rightOpen (0 : Int) 5).enclose (.leftOpen 7 9) = .closed 0 9 ∧
    (RawInterval.rightOpen (0 : Int) 5).contains 0 ∧ (RawInterval.leftOpen (7 : Int) 9).contains 9
    := by decide

example : (RawInterval.opn (0 : ℚ) 1).WF ∧ (RawInterval.opn (2 : ℚ) 3).WF ∧
    (RawInterval.opn (0 : ℚ) 1).enclose (.opn 2 3) = .opn 0 3 := by decide

/-! ## C08 -/

/-- Over a dense order without end points `is_empty` decides emptiness. -/
theorem C08_is_empty [DenselyOrdered α] [NoMinOrder α] [NoMaxOrder α] [Nonempty α]
    (i : RawInterval α) (hi : i.WF) : i.isEmpty = true ↔ i.pts = ∅ := by
  rw [RawInterval.isEmpty_iff]
  constructor
  · rintro rfl; rfl
  · intro h
    by_contra hne
    exact (i.exists_point hi hne).ne_empty h

example : (RawInterval.opn (2 : ℚ) 4).WF ∧ (RawInterval.opn (2 : ℚ) 4).isEmpty = false ∧
    (RawInterval.opn (2 : ℚ) 4).contains 3 = true := by decide

/-- Over a dense order without end points `intersects` decides whether a common point exists.
Inverted arguments are allowed. -/
theorem C08_intersects [DenselyOrdered α] [NoMinOrder α] [NoMaxOrder α] [Nonempty α]
    (a b : RawInterval α) : a.intersects b = true ↔ ∃ x, x ∈ a.pts ∧ x ∈ b.pts := by
  have h := C08_is_empty (a.intersect b) (C03_wf a b)
  rw [RawInterval.intersects, Bool.not_eq_true', Bool.eq_false_iff, ne_eq, h, C03_intersect,
    ← ne_eq, ← Set.nonempty_iff_ne_empty]
  rfl

example : (RawInterval.opn (0 : ℚ) 3).intersects (.opn 2 5) = true ∧ (RawInterval.opn (0 : ℚ) 2).intersects (.opn 2 5) = false := by
  decide

/-- In every total order a common point implies `intersects`; `intersects` and `is_adjacent_to` are
symmetric. -/
theorem C08_symm (a b : RawInterval α) :
    ((∃ x, x ∈ a.pts ∧ x ∈ b.pts) → a.intersects b = true) ∧
    a.intersects b = b.intersects a ∧ a.isAdjacentTo b = b.isAdjacentTo a := by
  refine ⟨?_, ?_, ?_⟩
  · rintro ⟨x, h1, h2⟩
    have : x ∈ (a.intersect b).pts := by rw [C03_intersect]; exact ⟨h1, h2⟩
    rw [RawInterval.intersects, Bool.not_eq_true', Bool.eq_false_iff, ne_eq,
      RawInterval.isEmpty_iff]
    intro e; rw [e] at this; simp [RawInterval.pts] at this
  · rw [RawInterval.intersects, RawInterval.intersects, RawInterval.intersect_comm]
  · rcases a.bounds_cases with ⟨_, h1, h2⟩ | ⟨la, ua, h1, h2, _⟩ <;>
    rcases b.bounds_cases with ⟨_, h3, h4⟩ | ⟨lb, ub, h3, h4, _⟩ <;>
    simp [RawInterval.isAdjacentTo, h1, h2, h3, h4, Bool.or_comm, Bound.isUnionAdjacentTo_comm]

example : (RawInterval.closed (0 : Int) 3).intersects (.opn 2 5) = true ∧
    (RawInterval.rightOpen (0 : Int) 2).isAdjacentTo (.closed 2 5) = true ∧
    (RawInterval.closed (2 : Int) 5).isAdjacentTo (.rightOpen 0 2) = true := by decide

/-- Two intervals (well formed, not `Empty`) that are adjacent or intersect have an interval as
union, and `enclose` is that union. -/
theorem C08_adjacent (a b : RawInterval α) (ha : a.WF) (hb : b.WF) (ea : a ≠ .empty)
    (eb : b ≠ .empty) (h : a.isAdjacentTo b = true) : (a.enclose b).pts = a.pts ∪ b.pts := by
  have e1 : a.isEmpty = false := by
    rw [Bool.eq_false_iff]; simpa [RawInterval.isEmpty_iff] using ea
  have e2 : b.isEmpty = false := by
    rw [Bool.eq_false_iff]; simpa [RawInterval.isEmpty_iff] using eb
  ext x
  have := C05_union a b ha hb x
  simpa [RawInterval.union, e1, e2, h] using this

example : (RawInterval.opn (0 : ℚ) 2).intersects (.opn 1 3) = true ∧
    (RawInterval.opn (0 : ℚ) 1).intersects (.opn 1 3) = false ∧
    (RawInterval.opn (0 : ℚ) 1).isAdjacentTo (.rightOpen 1 3) = true := by decide

/-- Over a discrete order the dense-order hypothesis is needed: two intervals with no common point
may "intersect", and a non-`Empty` interval may have no points. -/
example : (RawInterval.opn (0 : Int) 4).intersects (.opn 3 9) = true ∧
    (RawInterval.opn (3 : Int) 4).isEmpty = false := by decide

/-! ## C09 -/

/-- `closure` contains the interval and has no exclusive bound. -/
theorem C09_closure (a : RawInterval α) (ha : a.WF) :
    a.pts ⊆ a.closure.pts ∧ a.closure.WF ∧
    (∀ b, a.closure.lowerBound = some b → b.isExclusive = false) ∧
    (∀ b, a.closure.upperBound = some b → b.isExclusive = false) := by
  refine ⟨?_, ?_, ?_, ?_⟩
  · intro x; cases a <;> simp [RawInterval.closure, RawInterval.pts] <;> grind
  · cases a <;> simp_all [RawInterval.closure, RawInterval.WF]
  · cases a <;> simp_all [RawInterval.closure, RawInterval.lowerBound, Bound.isExclusive]
  · cases a <;> simp_all [RawInterval.closure, RawInterval.upperBound, Bound.isExclusive]

example : (RawInterval.opn (0 : Int) 3).WF ∧ (RawInterval.opn (0 : Int) 3).closure = .closed 0 3 ∧
    (RawInterval.upFrom (0 : Int)).closure = .frm 0 := by decide

/-- Over a dense order without end points, `closure` is contained in every interval without
exclusive bounds that contains `a`. -/
theorem C09_smallest [DenselyOrdered α] [NoMinOrder α] [NoMaxOrder α]
    (a : RawInterval α) (ha : a.WF) (j : RawInterval α)
    (hl : ∀ b, j.lowerBound = some b → b.isExclusive = false)
    (hu : ∀ b, j.upperBound = some b → b.isExclusive = false)
    (h : a.pts ⊆ j.pts) : a.closure.pts ⊆ j.pts := by
  intro x hx
  have : Nonempty α := ⟨x⟩
  have ea : a ≠ .empty := by rintro rfl; exact hx
  obtain ⟨p, hp⟩ := a.exists_point ha ea
  -- a lower bound of `a` is a lower bound of its closure, and likewise above
  have lo : ∀ m, (∀ y ∈ a.pts, m ≤ y) → m ≤ x := by
    intro m hy
    by_contra hlt
    rw [not_le] at hlt
    have hxn : x ∉ a.pts := fun h => absurd (hy x h) (not_le.2 hlt)
    have near : ∀ b, x < b → ∃ y, x < y ∧ y < b ∧ y < m := by
      intro b hb
      obtain ⟨y, h1, h2⟩ := exists_between (lt_min hb hlt)
      exact ⟨y, h1, lt_of_lt_of_le h2 (min_le_left _ _), lt_of_lt_of_le h2 (min_le_right _ _)⟩
    have hpm := hy p hp
    cases a with
    | empty => exact ea rfl
    | point q => exact hxn hx
    | opn l r =>
      obtain ⟨y, h1, h2, h3⟩ := near r (lt_trans (lt_of_lt_of_le hlt hpm) hp.2)
      exact absurd (hy y ⟨lt_of_le_of_lt hx.1 h1, h2⟩) (not_le.2 h3)
    | leftOpen l r =>
      obtain ⟨y, h1, h2, h3⟩ := near r (lt_of_lt_of_le (lt_of_lt_of_le hlt hpm) hp.2)
      exact absurd (hy y ⟨lt_of_le_of_lt hx.1 h1, h2.le⟩) (not_le.2 h3)
    | rightOpen l r => exact hxn ⟨hx.1, lt_trans (lt_of_lt_of_le hlt hpm) hp.2⟩
    | closed l r => exact hxn hx
    | upTo q => exact hxn (lt_trans (lt_of_lt_of_le hlt hpm) hp)
    | upFrom q =>
      obtain ⟨y, h1, _, h3⟩ := near m hlt
      exact absurd (hy y (lt_of_le_of_lt hx h1)) (not_le.2 h3)
    | «to» q => exact hxn hx
    | frm q => exact hxn hx
    | full => exact hxn hx
  have hi : ∀ m, (∀ y ∈ a.pts, y ≤ m) → x ≤ m := by
    intro m hy
    by_contra hlt
    rw [not_le] at hlt
    have hxn : x ∉ a.pts := fun h => absurd (hy x h) (not_le.2 hlt)
    have near : ∀ b, b < x → ∃ y, y < x ∧ b < y ∧ m < y := by
      intro b hb
      obtain ⟨y, h1, h2⟩ := exists_between (max_lt hb hlt)
      exact ⟨y, h2, lt_of_le_of_lt (le_max_left _ _) h1, lt_of_le_of_lt (le_max_right _ _) h1⟩
    have hpm := hy p hp
    cases a with
    | empty => exact ea rfl
    | point q => exact hxn hx
    | opn l r =>
      obtain ⟨y, h1, h2, h3⟩ := near l (lt_trans hp.1 (lt_of_le_of_lt hpm hlt))
      exact absurd (hy y ⟨h2, lt_of_lt_of_le h1 hx.2⟩) (not_le.2 h3)
    | leftOpen l r => exact hxn ⟨lt_trans hp.1 (lt_of_le_of_lt hpm hlt), hx.2⟩
    | rightOpen l r =>
      obtain ⟨y, h1, h2, h3⟩ := near l (lt_of_le_of_lt hp.1 (lt_of_le_of_lt hpm hlt))
      exact absurd (hy y ⟨h2.le, lt_of_lt_of_le h1 hx.2⟩) (not_le.2 h3)
    | closed l r => exact hxn hx
    | upTo q =>
      obtain ⟨y, h1, _, h3⟩ := near m hlt
      exact absurd (hy y (lt_of_lt_of_le h1 hx)) (not_le.2 h3)
    | upFrom q => exact hxn (lt_trans hp (lt_of_le_of_lt hpm hlt))
    | «to» q => exact hxn hx
    | frm q => exact hxn hx
    | full => exact hxn hx
  cases j with
  | empty => exact absurd (h hp) id
  | point q =>
    exact le_antisymm (hi q fun y hy => (h hy : y = q).le) (lo q fun y hy => (h hy : y = q).ge)
  | opn l r => simp [RawInterval.lowerBound, Bound.isExclusive] at hl
  | leftOpen l r => simp [RawInterval.lowerBound, Bound.isExclusive] at hl
  | rightOpen l r => simp [RawInterval.upperBound, Bound.isExclusive] at hu
  | closed l r => exact ⟨lo l fun y hy => (h hy).1, hi r fun y hy => (h hy).2⟩
  | upTo q => simp [RawInterval.upperBound, Bound.isExclusive] at hu
  | upFrom q => simp [RawInterval.lowerBound, Bound.isExclusive] at hl
  | «to» q => exact hi q fun y hy => h hy
  | frm q => exact lo q fun y hy => h hy
  | full => trivial

example : (RawInterval.opn (0 : ℚ) 1).closure = .closed 0 1 ∧ (RawInterval.opn (0 : ℚ) 1).WF ∧
    (RawInterval.upTo (1 : ℚ)).closure = .to 1 := by decide

/-! ## C10 -/

/-- `intersect_all` contains exactly the points common to all its arguments. -/
theorem C10_intersect_all (is : List (RawInterval α)) (x : α) :
    x ∈ (RawInterval.intersectAll is).pts ↔ ∀ i ∈ is, x ∈ i.pts := by
  have : ∀ (acc : RawInterval α), x ∈ (is.foldl (fun acc i => acc.intersect i) acc).pts ↔
      x ∈ acc.pts ∧ ∀ i ∈ is, x ∈ i.pts := by
    induction is with
    | nil => simp
    | cons i is ih =>
      intro acc
      rw [List.foldl_cons, ih, C03_intersect]
      simp [and_assoc]
  rw [RawInterval.intersectAll, this]
  exact and_iff_right trivial

example : RawInterval.intersectAll [RawInterval.closed (0 : Int) 9, .opn 2 12, .upTo 7] =
    .opn 2 7 := by decide

/-! ## C11 -/

/-- `union_all` covers exactly the points of its arguments, with well formed intervals.
Missing from the full property: the returned intervals are pairwise disjoint. That part is false,
see `C11_counterexample`. -/
theorem C11_union_all_partial (is : List (RawInterval α)) (h : ∀ i ∈ is, i.WF) (x : α) :
    ((∃ j ∈ RawInterval.unionAll is, x ∈ j.pts) ↔ ∃ i ∈ is, x ∈ i.pts) ∧
    ∀ j ∈ RawInterval.unionAll is, j.WF := by
  -- one merge keeps the points
  have merge : ∀ (n : RawInterval α) (prev : List (RawInterval α)), n.WF → n ≠ .empty →
      (∀ j ∈ prev, j.WF ∧ j ≠ .empty) →
      (∀ j ∈ RawInterval.unionAllMerge n prev, j.WF ∧ j ≠ .empty) ∧
      ((∃ j ∈ RawInterval.unionAllMerge n prev, x ∈ j.pts) ↔
        x ∈ n.pts ∨ ∃ j ∈ prev, x ∈ j.pts) := by
    intro n prev hn hne
    induction prev with
    | nil => intro _; simp [RawInterval.unionAllMerge, hn, hne]
    | cons item prev ih =>
      intro hp
      obtain ⟨hi, hp'⟩ := List.forall_mem_cons.1 hp
      obtain ⟨ih1, ih2⟩ := ih hp'
      have e1 : item.isEmpty = false := by
        rw [Bool.eq_false_iff]; simpa [RawInterval.isEmpty_iff] using hi.2
      have e2 : n.isEmpty = false := by
        rw [Bool.eq_false_iff]; simpa [RawInterval.isEmpty_iff] using hne
      rw [RawInterval.unionAllMerge]
      split_ifs with hc
      · have hu := C05_union item n hi.1 hn x
        simp only [RawInterval.union, e1, e2, hc, if_true, List.mem_singleton,
          exists_eq_left] at hu
        refine ⟨?_, ?_⟩
        · rw [List.forall_mem_cons]
          refine ⟨⟨RawInterval.enclose_wf _ _, ?_⟩, hp'⟩
          obtain ⟨_, _⟩ | ⟨la, ua, h1, h2, _⟩ := item.bounds_cases
          · exact absurd ‹_› hi.2
          obtain ⟨_, _⟩ | ⟨lb, ub, h3, h4, _⟩ := n.bounds_cases
          · exact absurd ‹_› hne
          rw [RawInterval.enclose_of_bounds h1 h2 h3 h4]
          exact (RawInterval.new_of_compat
            (Bound.compat_lu _ _ _ _ (RawInterval.wf_compat hi.1 h1 h2))).2.2
        · rw [exists_mem_cons, exists_mem_cons, hu]; rw [← eq_iff_iff]; ac_rfl
      · refine ⟨?_, ?_⟩
        · rw [List.forall_mem_cons]; exact ⟨hi, ih1⟩
        · rw [exists_mem_cons, exists_mem_cons, ih2]; rw [← eq_iff_iff]; ac_rfl
  -- one fold step
  have step : ∀ (prev : List (RawInterval α)) (n : RawInterval α), n.WF → n ≠ .empty →
      (∀ j ∈ prev, j.WF ∧ j ≠ .empty) →
      (∀ j ∈ RawInterval.unionAllStep prev n, j.WF ∧ j ≠ .empty) ∧
      ((∃ j ∈ RawInterval.unionAllStep prev n, x ∈ j.pts) ↔
        x ∈ n.pts ∨ ∃ j ∈ prev, x ∈ j.pts) := by
    intro prev n hn hne hp
    rw [RawInterval.unionAllStep]
    split_ifs with hf
    · subst hf
      refine ⟨by simp [RawInterval.WF], ?_⟩
      exact ⟨fun _ => .inl trivial, fun _ => ⟨_, List.mem_singleton_self _, trivial⟩⟩
    · exact merge n prev hn hne hp
  have fold : ∀ (it : List (RawInterval α)) (prev : List (RawInterval α)),
      (∀ j ∈ it, j.WF ∧ j ≠ .empty) → (∀ j ∈ prev, j.WF ∧ j ≠ .empty) →
      (∀ j ∈ it.foldl RawInterval.unionAllStep prev, j.WF ∧ j ≠ .empty) ∧
      ((∃ j ∈ it.foldl RawInterval.unionAllStep prev, x ∈ j.pts) ↔
        (∃ j ∈ it, x ∈ j.pts) ∨ ∃ j ∈ prev, x ∈ j.pts) := by
    intro it
    induction it with
    | nil => intro prev _ hp; exact ⟨hp, by simp⟩
    | cons n it ih =>
      intro prev hit hp
      obtain ⟨hn, hit'⟩ := List.forall_mem_cons.1 hit
      obtain ⟨s1, s2⟩ := step prev n hn.1 hn.2 hp
      obtain ⟨r1, r2⟩ := ih _ hit' s1
      refine ⟨r1, ?_⟩
      rw [List.foldl_cons, r2, s2, exists_mem_cons]; rw [← eq_iff_iff]; ac_rfl
  have hfil : (∃ i ∈ is, x ∈ i.pts) ↔ ∃ i ∈ is.filter (fun i => !i.isEmpty), x ∈ i.pts := by
    constructor
    · rintro ⟨i, hi, hx⟩
      refine ⟨i, List.mem_filter.2 ⟨hi, ?_⟩, hx⟩
      rw [Bool.not_eq_true', Bool.eq_false_iff, ne_eq, RawInterval.isEmpty_iff]
      rintro rfl; exact hx
    · rintro ⟨i, hi, hx⟩; exact ⟨i, (List.mem_filter.1 hi).1, hx⟩
  have hgood : ∀ i ∈ is.filter (fun i => !i.isEmpty), i.WF ∧ i ≠ .empty := by
    intro i hi
    obtain ⟨hi, h2⟩ := List.mem_filter.1 hi
    rw [Bool.not_eq_true', Bool.eq_false_iff, ne_eq, RawInterval.isEmpty_iff] at h2
    exact ⟨h i hi, h2⟩
  rw [hfil, RawInterval.unionAll]
  cases hl : is.filter (fun i => !i.isEmpty) with
  | nil => simp
  | cons st it =>
    rw [hl] at hgood
    obtain ⟨g1, g2⟩ := List.forall_mem_cons.1 hgood
    obtain ⟨r1, r2⟩ := fold it [st] g2 (by simpa using g1)
    refine ⟨?_, fun j hj => (r1 j hj).1⟩
    rw [r2, exists_mem_cons, exists_mem_cons, or_comm]
    simp

example : RawInterval.unionAll [RawInterval.closed (0 : Int) 2, .empty, .opn 5 7, .rightOpen 2 3] =
    [.rightOpen 0 3, .opn 5 7] := by decide

/-- The intervals returned by `union_all` are not always disjoint: `[0,1], [4,5], [1,4]` gives
`[0,4], [4,5]`, which share the point 4. -/
theorem C11_counterexample :
    ¬ ∀ is : List (RawInterval Int), (∀ i ∈ is, i.WF) →
      (RawInterval.unionAll is).Pairwise fun i j => Disjoint i.pts j.pts := by
  intro h
  have := h [.closed 0 1, .closed 4 5, .closed 1 4] (by decide)
  have e : RawInterval.unionAll [RawInterval.closed (0 : Int) 1, .closed 4 5, .closed 1 4] =
    [.closed 0 4, .closed 4 5] := by decide
  rw [e] at this
  simp only [List.pairwise_cons, List.mem_singleton, forall_eq] at this
  exact Set.disjoint_left.1 this.1 (show (4 : Int) ∈ Set.Icc (0 : Int) 4 from ⟨by decide, by decide⟩)
    ⟨by decide, by decide⟩

/-! ## C12 -/

/-- `enclose_all` starts its fold from `Full`, so it returns `Full` for every argument. -/
theorem C12_always_full (is : List (RawInterval α)) : RawInterval.encloseAll is = .full := by
  have hf : ∀ i : RawInterval α, RawInterval.full.enclose i = .full := by intro i; cases i <;> rfl
  rw [RawInterval.encloseAll]
  induction is with
  | nil => rfl
  | cons i is ih => rw [List.foldl_cons, hf, ih]

example : RawInterval.encloseAll [RawInterval.closed (0 : Int) 3, .point 5] = .full := by decide

/-- `enclose_all` contains every point of every argument.
Missing from the full property: minimality, which is false, see `C12_counterexample`. -/
theorem C12_enclose_all_partial (is : List (RawInterval α)) :
    ∀ i ∈ is, i.pts ⊆ (RawInterval.encloseAll is).pts := by
  intro i _
  rw [C12_always_full]
  exact Set.subset_univ _

example : RawInterval.encloseAll [RawInterval.closed (0 : Int) 2, .opn 5 7] = .full := by decide

/-- `enclose_all` is not the smallest enclosing interval: for the single argument `[0,1]` it returns
`(-∞,∞)` although `[0,1]` encloses the argument. -/
theorem C12_counterexample :
    ¬ ∀ (is : List (RawInterval Int)) (j : RawInterval Int), (∀ i ∈ is, i.WF) →
      (∀ i ∈ is, i.pts ⊆ j.pts) → (RawInterval.encloseAll is).pts ⊆ j.pts := by
  intro h
  have := h [.closed 0 1] (.closed 0 1) (by decide) (by simp)
  rw [C12_always_full] at this
  have h2 := this (a := 7) trivial
  simp [RawInterval.pts] at h2

end NI
