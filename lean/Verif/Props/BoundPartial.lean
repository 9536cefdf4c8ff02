import Verif.SpecPartial
import Verif.Spec

/-!
# Bounds over partially ordered points: C92
-/

set_option linter.unusedSimpArgs false
set_option linter.unusedVariables false

namespace NI
open PartialCmp
variable {α : Type _}

instance : LawfulPartialCmp Float' where
  dual a b := by
    simp only [partialCmp]
    cases a.val <;> cases b.val <;> simp
  lt_trans a b c h1 h2 := by
    simp only [partialCmp] at h1 h2 ⊢
    revert h1 h2
    cases a.val <;> cases b.val <;> cases c.val <;> simp
    exact fun h1 h2 => lt_trans h1 h2
  eq_left a b c h := by
    simp only [partialCmp] at h ⊢
    revert h
    cases a.val <;> cases b.val <;> cases c.val <;> simp
    rintro rfl; rfl

/-- On a total order these are the functions of C01. -/
theorem C92_total [LinearOrder α] (a b : Bound α) :
    letI := PartialCmp.ofLinear α
    a.leastUnionP b = a.leastUnion b ∧ a.leastIntersectP b = a.leastIntersect b ∧
    a.greatestUnionP b = a.greatestUnion b ∧ a.greatestIntersectP b = a.greatestIntersect b := by
  have e1 : ∀ x y : α, @PartialCmp.lt α (.ofLinear α) x y = decide (x < y) := fun x y => by
    rw [Bool.eq_iff_iff]; simp [PartialCmp.lt, PartialCmp.ofLinear, partialCmp]
  have e2 : ∀ x y : α, @PartialCmp.le α (.ofLinear α) x y = decide (x ≤ y) := fun x y => by
    rw [Bool.eq_iff_iff]; simp [PartialCmp.le, PartialCmp.ofLinear, partialCmp, le_iff_lt_or_eq]
  have e3 : ∀ x y : α, @PartialCmp.gt α (.ofLinear α) x y = decide (x > y) := fun x y => by
    rw [Bool.eq_iff_iff]; simp [PartialCmp.gt, PartialCmp.ofLinear, partialCmp]
  have e4 : ∀ x y : α, @PartialCmp.ge α (.ofLinear α) x y = decide (x ≥ y) := fun x y => by
    rw [Bool.eq_iff_iff]; simp [PartialCmp.ge, PartialCmp.ofLinear, partialCmp]; grind
  rcases a with a | a | _ <;> rcases b with b | b | _ <;>
    simp [Bound.leastUnionP, Bound.leastUnion, Bound.leastIntersectP, Bound.leastIntersect,
      Bound.greatestUnionP, Bound.greatestUnion, Bound.greatestIntersectP, Bound.greatestIntersect,
      e1, e2, e3, e4]

example : letI := PartialCmp.ofLinear Int
    (Bound.excl (3 : Int)).leastUnionP (.incl 3) = .incl 3 := by decide

section Lawful
variable [PartialCmp α] [LawfulPartialCmp α]

theorem PartialCmp.cases {p q : α} (h : partialCmp p q ≠ none) (x : α) :
    (partialCmp p q = some .lt ∧ (partialCmp x q = some .gt ∨ partialCmp x q = some .eq → partialCmp x p = some .gt) ∧
      (partialCmp x p = some .lt ∨ partialCmp x p = some .eq → partialCmp x q = some .lt)) ∨
    (partialCmp p q = some .eq ∧ partialCmp x p = partialCmp x q) ∨
    (partialCmp p q = some .gt ∧ (partialCmp x p = some .gt ∨ partialCmp x p = some .eq → partialCmp x q = some .gt) ∧
      (partialCmp x q = some .lt ∨ partialCmp x q = some .eq → partialCmp x p = some .lt)) := by
  have key : ∀ p q : α, partialCmp p q = some .lt →
      (partialCmp x q = some .gt ∨ partialCmp x q = some .eq → partialCmp x p = some .gt) ∧
      (partialCmp x p = some .lt ∨ partialCmp x p = some .eq → partialCmp x q = some .lt) := by
    intro p q hlt
    refine ⟨fun hx => ?_, fun hx => ?_⟩
    · rcases hx with hx | hx
      · have h2 : partialCmp q x = some .lt := by rw [LawfulPartialCmp.dual x q, hx]; rfl
        rw [LawfulPartialCmp.dual p x, LawfulPartialCmp.lt_trans p q x hlt h2]; rfl
      · rw [LawfulPartialCmp.eq_left x q p hx, LawfulPartialCmp.dual p q, hlt]; rfl
    · rcases hx with hx | hx
      · exact LawfulPartialCmp.lt_trans x p q hx hlt
      · rw [LawfulPartialCmp.eq_left x p q hx, hlt]
  cases hc : partialCmp p q with
  | none => exact absurd hc h
  | some o =>
    cases o with
    | lt => exact .inl ⟨rfl, key p q hc⟩
    | eq =>
      refine .inr (.inl ⟨rfl, ?_⟩)
      rw [LawfulPartialCmp.dual p x, LawfulPartialCmp.dual q x, LawfulPartialCmp.eq_left p q x hc]
    | gt =>
      refine .inr (.inr ⟨rfl, key q p ?_⟩)
      rw [LawfulPartialCmp.dual p q, hc]; rfl

/-- If the points of the two bounds can be compared, the functions give union and intersection of half-lines.
For points that cannot be compared see `C92_incomparable`; there they do not,
see `C92_nan`. -/
theorem C92_comparable (a b : Bound α) (h : a.Comparable b) (x : α) :
    ((a.leastUnionP b).above x ↔ a.above x ∨ b.above x) ∧
    ((a.greatestIntersectP b).above x ↔ a.above x ∧ b.above x) ∧
    ((a.greatestUnionP b).below x ↔ a.below x ∨ b.below x) ∧
    ((a.leastIntersectP b).below x ↔ a.below x ∧ b.below x) := by
  rcases a with p | p | _ <;> rcases b with q | q | _
  all_goals first
    | (have h := h p rfl q rfl
       rcases PartialCmp.cases h x with ⟨h1, h2, h3⟩ | ⟨h1, h2⟩ | ⟨h1, h2, h3⟩ <;>
         simp [Bound.leastUnionP, Bound.leastIntersectP, Bound.greatestUnionP, Bound.greatestIntersectP,
           PartialCmp.lt, PartialCmp.le, PartialCmp.gt, PartialCmp.ge, Bound.above, Bound.below, h1] <;> grind)
    | simp [Bound.leastUnionP, Bound.leastIntersectP, Bound.greatestUnionP, Bound.greatestIntersectP,
        Bound.above, Bound.below]

example : (Bound.incl (Float'.num 0)).Comparable (.excl .negZero) ∧
    (Bound.incl (Float'.num 0)).leastUnionP (.excl .negZero) = .incl (.num 0) ∧
    (Bound.excl (Float'.num 0)).leastUnionP (.incl .negZero) = .incl .negZero := by
  refine ⟨?_, by decide, by decide⟩
  rintro p ⟨⟩ q ⟨⟩; decide

omit [LawfulPartialCmp α] in
/-- If they cannot, every function gives its second argument. -/
theorem C92_incomparable (a b : Bound α) (h : ¬ a.Comparable b) :
    a.leastUnionP b = b ∧ a.leastIntersectP b = b ∧ a.greatestUnionP b = b ∧ a.greatestIntersectP b = b := by
  simp only [Bound.Comparable] at h
  push Not at h
  obtain ⟨p, hp, q, hq, h⟩ := h
  rcases a with a | a | _ <;> rcases b with b | b | _ <;> cases hp <;> cases hq <;>
    simp [Bound.leastUnionP, Bound.leastIntersectP, Bound.greatestUnionP, Bound.greatestIntersectP,
      PartialCmp.lt, PartialCmp.le, PartialCmp.gt, PartialCmp.ge, h]

example : ¬ (Bound.incl Float'.nan).Comparable (.incl (.num 1)) := fun h => h _ rfl _ rfl rfl

/-- Exactly when the four functions are right, over bounds with points that cannot be compared: the second
half-line contains the first for unions, is contained in it for intersections. -/
theorem C92_exact_iff (a b : Bound α) :
    ((∀ x, (a.leastUnionP b).above x ↔ a.above x ∨ b.above x) ↔
      (a.Comparable b ∨ ∀ x, a.above x → b.above x)) ∧
    ((∀ x, (a.greatestIntersectP b).above x ↔ a.above x ∧ b.above x) ↔
      (a.Comparable b ∨ ∀ x, b.above x → a.above x)) ∧
    ((∀ x, (a.greatestUnionP b).below x ↔ a.below x ∨ b.below x) ↔
      (a.Comparable b ∨ ∀ x, a.below x → b.below x)) ∧
    ((∀ x, (a.leastIntersectP b).below x ↔ a.below x ∧ b.below x) ↔
      (a.Comparable b ∨ ∀ x, b.below x → a.below x)) := by
  by_cases h : a.Comparable b
  · have k := C92_comparable a b h
    exact ⟨iff_of_true (fun x => (k x).1) (.inl h), iff_of_true (fun x => (k x).2.1) (.inl h),
      iff_of_true (fun x => (k x).2.2.1) (.inl h), iff_of_true (fun x => (k x).2.2.2) (.inl h)⟩
  · obtain ⟨e1, e2, e3, e4⟩ := C92_incomparable a b h
    rw [e1, e2, e3, e4]
    grind

example : ¬ (Bound.incl Float'.nan).Comparable (.incl (.num 1)) ∧
    (∀ x, (Bound.incl Float'.nan).above x → (Bound.incl (Float'.num 1)).above x) ∧
    (Bound.incl Float'.nan).leastUnionP (.incl (.num 1)) = .incl (.num 1) := by
  refine ⟨fun h => h _ rfl _ rfl rfl, fun x h => ?_, by decide⟩
  cases x <;> exact absurd (show PartialCmp.ge _ _ = true from h) (by simp [PartialCmp.ge, PartialCmp.partialCmp, Float'.val])

end Lawful

/-- With not-a-number as one of the points, the half-line from 1 is lost by `least_union`, and
`greatest_intersect` with the empty half-line from not-a-number contains 1; the order of the arguments
matters. -/
theorem C92_nan :
    ∃ a b : Bound Float', (a.leastUnionP b ≠ b.leastUnionP a) ∧
      (b.above (.num 1) ∧ ¬ (b.leastUnionP a).above (.num 1)) ∧
      ((a.greatestIntersectP b).above (.num 1) ∧ ¬ a.above (.num 1)) :=
  ⟨.incl .nan, .incl (.num 1), by decide, ⟨show PartialCmp.ge _ _ = true by decide,
    show ¬ PartialCmp.ge _ _ = true by decide⟩, show PartialCmp.ge _ _ = true by decide,
    show ¬ PartialCmp.ge _ _ = true by decide⟩

end NI
