import Verif.SpecDense
import Verif.Props.Kth
import Verif.Props.Lattice
import Verif.Props.Minus

/-!
# C136: trees over dense orders asked whether one lies within another, or whether they are apart
-/

set_option linter.unusedVariables false
set_option linter.unusedSectionVars false

namespace NI
open TT

variable {α : Type} [LinearOrder α] [DenselyOrdered α] [NoMinOrder α] [NoMaxOrder α] [Nonempty α]

theorem TineTree.contains_cases (dbg : Bool) {t : TineTree α} (h : t.Reachable) (x : α) :
    t.contains dbg x = .ok true ∨ t.contains dbg x = .ok false := by
  rw [TT.contains_ok dbg (TT.reachable_valid h)]
  cases tcov t false (.fin x) <;> simp

theorem TineTree.not_contains (dbg : Bool) {t : TineTree α} (h : t.Reachable) (x : α) :
    ¬ t.contains dbg x = .ok true ↔ t.contains dbg x = .ok false := by
  rcases TineTree.contains_cases dbg h x with e | e <;> rw [e] <;> simp

theorem TineTree.eq_iff_contains (dbg : Bool) {a b : TineTree α} (ha : a.Reachable) (hb : b.Reachable) :
    a = b ↔ ∀ x, a.contains dbg x = .ok true ↔ b.contains dbg x = .ok true := by
  rw [C44_eq_iff dbg a b ha hb]
  refine forall_congr' fun x => ?_
  rcases TineTree.contains_cases dbg ha x with e | e <;> rcases TineTree.contains_cases dbg hb x with e' | e' <;>
    rw [e, e'] <;> simp

/-- Three ways to ask whether `a` lies within `b`, all right. -/
theorem C136_within (dbg : Bool) (a b : TineTree α) (ha : a.Reachable) (hb : b.Reachable) :
    ∃ r, a.withinByUnion dbg b = .ok r ∧ a.withinByComplement dbg b = .ok r ∧ a.withinByIntervals dbg b = .ok r ∧
      (r = true ↔ a.Within dbg b) := by
  classical
  obtain ⟨u, eu, ru, hu⟩ := C40_union dbg a b ha hb
  obtain ⟨n, en, rn, hn, -⟩ := C39_complement dbg a ha
  obtain ⟨v, ev, rv, hv⟩ := C40_union dbg n b rn hb
  obtain ⟨as, ea, wa, -, ca, -⟩ := C45_iteration dbg a ha
  obtain ⟨bs, eb, wb, -, cb, -⟩ := C45_iteration dbg b hb
  have h1 : u = b ↔ a.Within dbg b := by
    rw [TineTree.eq_iff_contains dbg ru hb]
    constructor
    · intro h x hx; exact (h x).1 ((hu x).2 (.inl hx))
    · intro h x; rw [hu x]; exact ⟨fun g => g.elim (h x) id, .inr⟩
  have h2 : v.isFull = true ↔ a.Within dbg b := by
    rw [(C44_empty_full dbg v rv).2]
    refine forall_congr' fun x => ?_
    rw [hv x, hn x, ← TineTree.not_contains dbg ha x]
    tauto
  have h3 : (as.all fun i => bs.any fun j => decide (i.intersect j = i)) = true ↔ a.Within dbg b := by
    simp only [List.all_eq_true, List.any_eq_true, decide_eq_true_eq]
    constructor
    · intro h x hx
      obtain ⟨i, hi, hxi⟩ := (ca x).1 hx
      obtain ⟨j, hj, e⟩ := h i hi
      exact (cb x).2 ⟨j, hj, (C110_raw_inclusion i j (wa i hi).1 (wb j hj).1).1 e hxi⟩
    · intro h i hi
      obtain ⟨y, hy⟩ := i.exists_point (wa i hi).1 (wa i hi).2
      obtain ⟨j, hj, hs⟩ := C45_maximal dbg b hb bs eb i ⟨y, hy⟩ fun x hx => h x ((ca x).2 ⟨i, hi, hx⟩)
      exact ⟨j, hj, (C110_raw_inclusion i j (wa i hi).1 (wb j hj).1).2 hs⟩
  refine ⟨decide (a.Within dbg b), ?_, ?_, ?_, decide_eq_true_iff⟩
  · rw [TineTree.withinByUnion, eu]
    show Except.ok _ = Except.ok _
    rw [Except.ok.injEq, Bool.eq_iff_iff, decide_eq_true_iff, decide_eq_true_iff, h1]
  · rw [TineTree.withinByComplement, en]
    simp only [bind, Except.bind, ev]
    show Except.ok _ = Except.ok _
    rw [Except.ok.injEq, Bool.eq_iff_iff, decide_eq_true_iff, h2]
  · rw [TineTree.withinByIntervals, eb]
    simp only [bind, Except.bind, ea]
    show Except.ok _ = Except.ok _
    rw [Except.ok.injEq, Bool.eq_iff_iff, decide_eq_true_iff, h3]

/-- `[0, 1]` lies within `[0, 2)`, not the other way round. -/
example : (TineTree.fromRawInterval (.closed (0 : ℚ) 1)).Reachable ∧
    (TineTree.fromRawInterval (.closed (0 : ℚ) 1)).withinByUnion true (TineTree.fromRawInterval (.rightOpen 0 2)) =
      .ok true ∧
    (TineTree.fromRawInterval (.rightOpen (0 : ℚ) 2)).withinByIntervals true (TineTree.fromRawInterval (.closed 0 1)) =
      .ok false :=
  ⟨.fromRaw (by decide), by decide, by decide⟩

/-- Three ways to ask whether `a` and `b` are apart, all right. -/
theorem C136_apart (dbg : Bool) (a b : TineTree α) (ha : a.Reachable) (hb : b.Reachable) :
    ∃ r, a.apartByUnion dbg b = .ok r ∧ a.apartByComplements dbg b = .ok r ∧ a.apartByIntervals dbg b = .ok r ∧
      (r = true ↔ a.Disjoint dbg b) := by
  classical
  obtain ⟨n, en, rn, hn, -⟩ := C39_complement dbg b hb
  obtain ⟨r, h1, h2, -, h4⟩ := C136_within dbg a n ha rn
  have hd : a.Within dbg n ↔ a.Disjoint dbg b := forall_congr' fun x => by rw [hn x]
  obtain ⟨as, ea, wa, -, ca, -⟩ := C45_iteration dbg a ha
  obtain ⟨bs, eb, wb, -, cb, -⟩ := C45_iteration dbg b hb
  refine ⟨r, ?_, ?_, ?_, h4.trans hd⟩
  · rw [TineTree.withinByUnion] at h1
    rw [TineTree.apartByUnion, en]; exact h1
  · rw [TineTree.withinByComplement] at h2
    rw [TineTree.apartByComplements]
    obtain ⟨m, em, -⟩ := C39_complement dbg a ha
    rw [em] at h2 ⊢
    simp only [bind, Except.bind, en] at h2 ⊢
    exact h2
  · rw [TineTree.apartByIntervals, eb]
    simp only [bind, Except.bind, ea]
    show Except.ok _ = Except.ok _
    rw [Except.ok.injEq, Bool.eq_iff_iff, h4, hd, Bool.not_eq_true', ← Bool.not_eq_true]
    simp only [List.any_eq_true, C08_intersects]
    constructor
    · intro h x hx
      rw [← TineTree.not_contains dbg hb]
      intro hy
      obtain ⟨i, hi, h1⟩ := (ca x).1 hx
      obtain ⟨j, hj, h2⟩ := (cb x).1 hy
      exact h ⟨i, hi, j, hj, x, h1, h2⟩
    · rintro h ⟨i, hi, j, hj, x, h1, h2⟩
      have := h x ((ca x).2 ⟨i, hi, h1⟩)
      rw [(cb x).2 ⟨j, hj, h2⟩] at this
      cases this

/-- `[0, 1)` and `[1, 2]` are apart, though there is nothing between them. -/
example : (TineTree.fromRawInterval (.rightOpen (0 : ℚ) 1)).Reachable ∧
    (TineTree.fromRawInterval (.rightOpen (0 : ℚ) 1)).apartByUnion true (TineTree.fromRawInterval (.closed 1 2)) =
      .ok true ∧
    (TineTree.fromRawInterval (.closed (0 : ℚ) 1)).apartByComplements true (TineTree.fromRawInterval (.closed 1 2)) =
      .ok false :=
  ⟨.fromRaw (by decide), by decide, by decide⟩

/-- The ways by `minus` are right if no interval of `b` ends at a single point missing in `a`, and no point of `b` is
one. -/
theorem C136_minus (dbg : Bool) (a b : TineTree α) (ha : a.Reachable) (hb : b.Reachable) (as bs : List (RawInterval α))
    (has : a.intervals dbg = .ok as) (hbs : b.intervals dbg = .ok bs) (hs : ∀ o ∈ bs, RawInterval.RemovalSafe as o) :
    (∃ r, a.withinByMinus dbg b = .ok r ∧ (r = true ↔ a.Within dbg b)) ∧
      ∃ r, a.apartByMinus dbg b = .ok r ∧ (r = true ↔ a.Disjoint dbg b) := by
  obtain ⟨t, e, r, h⟩ := C42_minus_partial dbg a b ha hb as bs has hbs hs
  refine ⟨⟨_, by rw [TineTree.withinByMinus, e]; rfl, ?_⟩, _, by rw [TineTree.apartByMinus, e]; rfl, ?_⟩
  · rw [(C44_empty_full dbg t r).1]
    refine forall_congr' fun x => ?_
    rw [← TineTree.not_contains dbg r, h x, ← TineTree.not_contains dbg hb]
    tauto
  · rw [decide_eq_true_iff, TineTree.eq_iff_contains dbg r ha]
    refine forall_congr' fun x => ?_
    rw [h x]
    tauto

example : RawInterval.RemovalSafe [.rightOpen (0 : ℚ) 1] (.closed 1 2) ∧
    TineTree.intervals true (TineTree.fromRawInterval (.rightOpen (0 : ℚ) 1)) = .ok [.rightOpen 0 1] ∧
    (TineTree.fromRawInterval (.rightOpen (0 : ℚ) 1)).apartByMinus true (TineTree.fromRawInterval (.closed 1 2)) =
      .ok true :=
  ⟨by simp [RawInterval.RemovalSafe, RawInterval.Hole, RawInterval.OpenStart, RawInterval.lowerBound], by decide, by decide⟩

/-- `a.intersect(&b).is_empty()` is true exactly if for no `k` the `k`-th intervals of the two have a common point. -/
theorem C136_intersect (dbg : Bool) (a b : TineTree α) (ha : a.Reachable) (hb : b.Reachable) (as bs : List (RawInterval α))
    (has : a.intervals dbg = .ok as) (hbs : b.intervals dbg = .ok bs) :
    ∃ r, a.apartByIntersect dbg b = .ok r ∧
      (r = true ↔ ∀ (k : Nat) (i j : RawInterval α), as[k]? = some i → bs[k]? = some j → ¬ ∃ x, x ∈ i.pts ∧ x ∈ j.pts) := by
  obtain ⟨t, e, -, -, h⟩ := C41_formula dbg a b ha hb as bs has hbs
  refine ⟨_, by rw [TineTree.apartByIntersect, e]; rfl, ?_⟩
  rw [h]
  have key := together_kth RawInterval.intersects as bs
  simp only [C08_intersects] at key
  constructor
  · intro g k i j hi hj hx
    obtain ⟨i, j, ht, hx⟩ := key.2 ⟨k, i, j, hi, hj, hx⟩
    have := g i j ht
    rw [(C08_intersects i j).2 hx] at this
    cases this
  · intro g s o ht
    by_contra hc
    rw [Bool.not_eq_false, C08_intersects] at hc
    obtain ⟨k, i, j, hi, hj, hx⟩ := key.1 ⟨s, o, ht, hc⟩
    exact g k i j hi hj hx

/-- `[0, 1]` and `[4, 5]` against `[2, 3]` and `[5, 6]`: the second ones have a common point. -/
example : TineTree.apartByIntersect true [.lower (.incl (0 : ℚ)), .upper (.incl 1), .lower (.incl 4), .upper (.incl 5)]
    [.lower (.incl 2), .upper (.incl 3), .lower (.incl 5), .upper (.incl 6)] = .ok false := by decide

/-- A tree with a single missing point is not empty after it is taken from itself; taking away the point it does not
have anyway changes it; and `intersect` finds two trees apart that share an interval. -/
theorem C136_counterexample :
    (∃ a : TineTree ℚ, a.Reachable ∧ a.Within true a ∧ a.withinByMinus true a = .ok false) ∧
    (∃ a b : TineTree ℚ, a.Reachable ∧ b.Reachable ∧ a.apartByIntervals true b = .ok true ∧
      a.apartByMinus true b = .ok false) ∧
    ∃ a b : TineTree ℚ, a.Reachable ∧ b.Reachable ∧ a.apartByIntersect true b = .ok true ∧
      a.apartByIntervals true b = .ok false := by
  have h1 : TineTree.Reachable [.lower (.incl (0 : ℚ)), .point (.excl 1), .upper (.incl 2)] :=
    TineTree.fromIter_reachable (dbg := true) (is := [.rightOpen 0 1, .leftOpen 1 2]) (by decide) (by decide)
  have h2 : TineTree.Reachable [.lower (.incl (0 : ℚ)), .upper (.incl 1), .lower (.incl 4), .upper (.incl 5)] :=
    TineTree.fromIter_reachable (dbg := true) (is := [.closed 0 1, .closed 4 5]) (by decide) (by decide)
  exact ⟨⟨[.lower (.incl 0), .point (.excl 1), .upper (.incl 2)], h1, fun x h => h, by decide⟩,
    ⟨[.lower (.incl 0), .point (.excl 1), .upper (.incl 2)], TineTree.fromRawInterval (.point 1), h1, .fromRaw (by decide),
      by decide, by decide⟩,
    [.lower (.incl 0), .upper (.incl 1), .lower (.incl 4), .upper (.incl 5)], TineTree.fromRawInterval (.closed 4 5), h2,
    .fromRaw (by decide), by decide, by decide⟩

end NI
