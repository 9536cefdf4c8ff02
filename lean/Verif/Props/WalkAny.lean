import Verif.Props.Walk

/-! # Intersection of selections of any history, exactly (C52) -/

set_option linter.unusedVariables false
set_option linter.unusedSectionVars false

namespace NI
variable {α : Type} [LinearOrder α] [Finite α] [LawfulFinite α]
open TT

/-- Whatever the histories of two selections, `intersect` gives a sound selection holding exactly the common
points of the intervals kept in them that come to stand side by side in its walk, and `intersects` reports
whether two such intervals overlap. -/
theorem C52_formula_any (dbg : Bool) (a b : Selection α) (ha : a.Reachable) (hb : b.Reachable)
    (as bs : List (RawInterval α)) (has : a.tree.intervals dbg = .ok as) (hbs : b.tree.intervals dbg = .ok bs) :
    (∃ s, a.intersect dbg b = .ok s ∧ s.Reachable ∧
      ∀ x, x ∈ s.pts dbg ↔ ∃ i j, Together RawInterval.intersects as bs i j ∧ x ∈ i.pts ∧ x ∈ j.pts) ∧
    ∃ r, a.intersects dbg b = .ok r ∧
      (r = true ↔ ∃ i j, Together RawInterval.intersects as bs i j ∧ i.intersects j = true) := by
  have va := Selection.reachable_valid ha
  have vb := Selection.reachable_valid hb
  obtain ⟨t, e, hr, hx, hne⟩ := C41_formula dbg a.tree b.tree (valid_reachable va) (valid_reachable vb) _ _ has hbs
  have he : a.intersect dbg b = .ok ⟨t⟩ := by rw [Selection.intersect, e]; rfl
  refine ⟨⟨⟨t⟩, he, .intersect ha hb he, hx⟩, !t.isEmpty, ?_, ?_⟩
  · rw [Selection.intersects, e]; rfl
  · rw [Bool.not_eq_true', ← Bool.not_eq_true, hne]
    constructor
    · intro h
      by_contra hc
      exact h fun s o hso => by
        rw [← Bool.not_eq_true]; exact fun h' => hc ⟨s, o, hso, h'⟩
    · rintro ⟨s, o, h1, h2⟩ h
      rw [h s o h1] at h2; cases h2

example : Selection.cut.Reachable ∧
    Selection.cut.tree.intervals true = .ok [.to (u8 4), .frm (u8 5)] ∧
    Selection.cut.intersect true (Selection.demo [(u8 3, u8 7)]) >>= (Selection.intervals true ·) =
      .ok [Interval.mkClosed (u8 3) (u8 4)] :=
  ⟨Selection.cut_solid.reachable, by decide, by decide⟩

/-- Whatever the histories, the intersection of two selections holds exactly the common points if and only if
any two intervals kept in them that have a common point come to stand side by side in the walk. -/
theorem C52_exact_any (dbg : Bool) (a b : Selection α) (ha : a.Reachable) (hb : b.Reachable)
    (as bs : List (RawInterval α)) (has : a.tree.intervals dbg = .ok as) (hbs : b.tree.intervals dbg = .ok bs) :
    (∃ s, a.intersect dbg b = .ok s ∧ s.pts dbg = a.pts dbg ∩ b.pts dbg) ↔
      ∀ i ∈ as, ∀ j ∈ bs, (∃ x, x ∈ i.pts ∧ x ∈ j.pts) → Together RawInterval.intersects as bs i j := by
  have va := Selection.reachable_valid ha
  have vb := Selection.reachable_valid hb
  rw [← C41_exact_iff_together dbg a.tree b.tree (valid_reachable va) (valid_reachable vb) _ _ has hbs]
  obtain ⟨t, e, hr, -, -⟩ := C41_formula dbg a.tree b.tree (valid_reachable va) (valid_reachable vb) _ _ has hbs
  constructor
  · rintro ⟨s, e', h⟩
    rw [Selection.intersect, e] at e'
    cases e'
    exact ⟨t, e, fun x => Set.ext_iff.1 h x⟩
  · rintro ⟨t', e', h⟩
    rw [e] at e'; cases e'
    exact ⟨⟨t⟩, by rw [Selection.intersect, e]; rfl, Set.ext fun x => h x⟩

/-- `[2,9]` without 5, met with `[4,7]`: the walk lets go of `[4,7]` after the first part, so `[6,7]` is
lost. -/
example : ∃ a s : Selection U8, a.Reachable ∧ a.tree.intervals true = .ok [.leftOpen (u8 1) (u8 4), .rightOpen (u8 6) (u8 10)] ∧
    (Selection.demo [(u8 4, u8 7)]).Reachable ∧
    (Selection.demo [(u8 4, u8 7)]).tree.intervals true = .ok [.opn (u8 3) (u8 8)] ∧
    a.intersect true (Selection.demo [(u8 4, u8 7)]) = .ok s ∧ s.contains true (u8 4) = .ok true ∧
    s.contains true (u8 6) = .ok false ∧
    Together RawInterval.intersects [.leftOpen (u8 1) (u8 4), .rightOpen (u8 6) (u8 10)] [.opn (u8 3) (u8 8)]
      (.leftOpen (u8 1) (u8 4)) (.opn (u8 3) (u8 8)) ∧
    ¬ Together RawInterval.intersects [.leftOpen (u8 1) (u8 4), .rightOpen (u8 6) (u8 10)] [.opn (u8 3) (u8 8)]
      (.rightOpen (u8 6) (u8 10)) (.opn (u8 3) (u8 8)) := by
  refine ⟨⟨[.lower (.excl (u8 1)), .upper (.incl (u8 4)), .lower (.incl (u8 6)), .upper (.excl (u8 10))]⟩,
    ⟨[.lower (.excl (u8 3)), .upper (.incl (u8 4))]⟩,
    .minusInPlace (dbg := true) (i := Interval.point (u8 5)) (Selection.demo_built [(u8 2, u8 9)] (by decide)).reachable
      (.point _) (by decide), by decide, (Selection.demo_built _ (by decide)).reachable, by decide, by decide,
    by decide, by decide, ⟨0, rfl, by decide⟩, ?_⟩
  rintro ⟨k, h1, h2⟩
  rcases k with _ | k
  · exact absurd h2 (by decide)
  · simp at h1

end NI
