import Verif.Lemmas.Lattice
import Verif.Lemmas.Norm

/-! # `intersect` and `enclose` of normalized intervals -/

namespace NI

variable {α : Type} [LinearOrder α] [Finite α] [LawfulFinite α]
open _root_.NI.Finite

namespace Interval

/-- Operations on normalized intervals do not need to normalize again. -/
theorem meet_join_raw {a b : Interval α} (ha : a.Obtainable) (hb : b.Obtainable) :
    (a.intersect b).raw = a.raw.intersect b.raw ∧ (a.enclose b).raw = a.raw.enclose b.raw := by
  have nf : ∀ l u : α, (RawInterval.mkClosed l u).normalized = RawInterval.mkClosed l u := by
    intro l u
    rw [RawInterval.mkClosed]
    split_ifs <;> rfl
  have ends : ∀ {i : Interval α}, i.Obtainable → i = ⟨.empty⟩ ∨ ∃ l u, i.raw.lowerBound = some (.incl l) ∧
      i.raw.upperBound = some (.incl u) ∧ i.raw.normalized = i.raw := by
    intro i hi
    rcases obtainable_cases hi with rfl | ⟨p, rfl⟩ | ⟨l, u, rfl, -⟩
    · exact .inl rfl
    · exact .inr ⟨p, p, rfl, rfl, rfl⟩
    · exact .inr ⟨l, u, rfl, rfl, rfl⟩
  have gi : ∀ x y : α, ∃ z, (Bound.incl x).greatestIntersect (.incl y) = .incl z := fun x y => by
    simp only [Bound.greatestIntersect]; split_ifs <;> exact ⟨_, rfl⟩
  have li : ∀ x y : α, ∃ z, (Bound.incl x).leastIntersect (.incl y) = .incl z := fun x y => by
    simp only [Bound.leastIntersect]; split_ifs <;> exact ⟨_, rfl⟩
  have gu : ∀ x y : α, ∃ z, (Bound.incl x).greatestUnion (.incl y) = .incl z := fun x y => by
    simp only [Bound.greatestUnion]; split_ifs <;> exact ⟨_, rfl⟩
  have lu : ∀ x y : α, ∃ z, (Bound.incl x).leastUnion (.incl y) = .incl z := fun x y => by
    simp only [Bound.leastUnion]; split_ifs <;> exact ⟨_, rfl⟩
  simp only [intersect, enclose, ofRaw, RawInterval.normalized_idem]
  rcases ends ha with rfl | ⟨la, ua, a1, a2, a3⟩
  · rcases ends hb with rfl | ⟨lb, ub, b1, b2, b3⟩
    · exact ⟨rfl, rfl⟩
    · rw [RawInterval.intersect_empty_left]
      refine ⟨rfl, ?_⟩
      have e1 : (RawInterval.empty : RawInterval α).lowerBound = none := rfl
      have e2 : (RawInterval.empty : RawInterval α).upperBound = none := rfl
      simp only [RawInterval.enclose, e1, e2, b1, b2]
      exact nf _ _
  · rcases ends hb with rfl | ⟨lb, ub, b1, b2, b3⟩
    · rw [RawInterval.intersect_empty_right]
      refine ⟨rfl, ?_⟩
      have e1 : (RawInterval.empty : RawInterval α).lowerBound = none := rfl
      have e2 : (RawInterval.empty : RawInterval α).upperBound = none := rfl
      simp only [RawInterval.enclose, e1, e2, a1, a2]
      exact nf _ _
    · obtain ⟨z1, e1⟩ := gi la lb
      obtain ⟨z2, e2⟩ := li ua ub
      obtain ⟨z3, e3⟩ := lu la lb
      obtain ⟨z4, e4⟩ := gu ua ub
      rw [RawInterval.intersect_of_bounds a1 a2 b1 b2, RawInterval.enclose_of_bounds a1 a2 b1 b2, e1, e2, e3, e4]
      refine ⟨?_, nf _ _⟩
      split_ifs
      · exact nf _ _
      · rfl

/-- An obtainable interval is its own intersection exactly when its raw form is well formed. -/
theorem tidy_iff {a : Interval α} (ha : a.Obtainable) : a.intersect a = a ↔ a.raw.WF := by
  constructor
  · intro h
    rw [← h, (meet_join_raw ha ha).1]
    exact RawInterval.intersect_wf _ _
  · intro h
    have := (meet_join_raw ha ha).1
    rw [RawInterval.intersect_self h] at this
    generalize a.intersect a = b at this
    cases a; cases b; simpa using this

omit [LinearOrder α] [Finite α] [LawfulFinite α] in
theorem raw_inj {a b : Interval α} (h : a.raw = b.raw) : a = b := by
  cases a; cases b; simpa using h

end Interval

end NI
