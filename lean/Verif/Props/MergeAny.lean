import Verif.Props.Merge

/-! # Merging a sorted list of any intervals (C151) -/

namespace NI
open _root_.NI.Finite TT
variable {α : Type} [LinearOrder α] [Finite α] [LawfulFinite α]

/-- **C151.**  Of the intervals a user can obtain, those with an infimum that is at most the supremum are exactly those with values. -/
theorem C151_with_values (is : List (Interval α)) (h : ∀ i ∈ is, i.Obtainable) (i : Interval α) :
    i ∈ Interval.withValues is ↔ i ∈ is ∧ ∃ x, i.contains x = true := by
  rw [Interval.withValues, List.mem_filter]
  refine and_congr_right fun hi => ?_
  rcases Interval.obtainable_cases (h i hi) with rfl | ⟨p, rfl⟩ | ⟨l, u, rfl, -⟩
  · constructor
    · intro e
      cases e
    · rintro ⟨x, hx⟩
      cases hx
  · exact ⟨fun _ => ⟨p, by simp [Interval.contains, RawInterval.contains]⟩,
      fun _ => by simp [Interval.infimum, Interval.supremum, RawInterval.infimum, RawInterval.supremum, RawInterval.lowerBound,
        RawInterval.upperBound]⟩
  · change decide (l ≤ u) = true ↔ _
    rw [decide_eq_true_iff]
    constructor
    · exact fun g => ⟨l, by simp [Interval.contains, RawInterval.contains, g]⟩
    · rintro ⟨x, hx⟩
      simp only [Interval.contains, RawInterval.contains, Bool.and_eq_true, decide_eq_true_eq] at hx
      exact hx.1.trans hx.2

/-- **C151.**  So when the others are thrown away first, sorting and merging gives the maximal runs of the values of any
intervals. -/
theorem C151_any (is js : List (Interval α)) (h : ∀ i ∈ is, i.Obtainable)
    (hs : Interval.SortedFrom (Interval.withValues is) js) :
    MaximalRuns {x | ∃ i ∈ is, i.contains x = true} ((Interval.merge Interval.touch js).map Interval.pts) := by
  have hw := C151_with_values is h
  have e : {x | ∃ i ∈ is, i.contains x = true} = {x | ∃ i ∈ Interval.withValues is, i.contains x = true} := by
    ext x
    exact ⟨fun ⟨i, hi, hx⟩ => ⟨i, (hw i).2 ⟨hi, x, hx⟩, hx⟩, fun ⟨i, hi, hx⟩ => ⟨i, ((hw i).1 hi).1, hx⟩⟩
  rw [e]
  exact (C151_touch true _ js (fun i hi => ⟨h i ((hw i).1 hi).1, ((hw i).1 hi).2⟩) hs).1

example : Interval.withValues [Interval.mkClosed (u8 1) (u8 6), .mkOpen (u8 3) (u8 4), .empty, .mkClosed (u8 5) (u8 9)] =
      [.mkClosed (u8 1) (u8 6), .mkClosed (u8 5) (u8 9)] ∧
    Interval.merge Interval.touch [Interval.mkClosed (u8 1) (u8 6), .mkClosed (u8 5) (u8 9)] = [.mkClosed (u8 1) (u8 9)] := by decide

/-- **C151.**  If they are not thrown away, an interval without values can come between two that overlap, and they are not merged;
`into_non_empty` does not help.  `[1,6]`, `]3,4[` and `[5,9]`: -/
theorem C151_any_counterexample :
    Interval.SortedFrom [Interval.mkClosed (u8 5) (u8 9), .mkOpen (u8 3) (u8 4), .mkClosed (u8 1) (u8 6)]
      [Interval.mkClosed (u8 1) (u8 6), .mkOpen (u8 3) (u8 4), .mkClosed (u8 5) (u8 9)] ∧
    [Interval.mkClosed (u8 1) (u8 6), .mkOpen (u8 3) (u8 4), .mkClosed (u8 5) (u8 9)].filterMap Interval.intoNonEmpty =
      [Interval.mkClosed (u8 1) (u8 6), .mkOpen (u8 3) (u8 4), .mkClosed (u8 5) (u8 9)] ∧
    Interval.merge Interval.touch [Interval.mkClosed (u8 1) (u8 6), .mkOpen (u8 3) (u8 4), .mkClosed (u8 5) (u8 9)] =
      [Interval.mkClosed (u8 1) (u8 6), .mkOpen (u8 3) (u8 4), .mkClosed (u8 5) (u8 9)] ∧
    (Interval.mkClosed (u8 1) (u8 6)).intersects (.mkClosed (u8 5) (u8 9)) = true := by
  refine ⟨⟨by decide, ?_⟩, by decide, by decide, by decide⟩
  simp only [List.pairwise_cons, List.mem_cons, List.not_mem_nil, or_false, false_implies, implies_true, List.Pairwise.nil, and_true]
  refine ⟨?_, ?_⟩
  · rintro j (rfl | rfl) a b h1 h2 <;> cases h1 <;> cases h2 <;> decide
  · rintro j rfl a b h1 h2
    cases h1; cases h2; decide

end NI
