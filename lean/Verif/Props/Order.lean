import Verif.Props.Pinhole
import Verif.Props.Steps
import Verif.Props.SharpSel
import Verif.Props.Tree

/-! # More in, more out (C118) -/

namespace NI
open _root_.NI.Finite TT

variable {α : Type} [LinearOrder α] [Finite α] [LawfulFinite α]

theorem Selection.demo_mem (is : List (U8 × U8)) (x : U8) :
    x ∈ (Selection.demo is).pts true ↔ ∃ p ∈ is, p.1 ≤ x ∧ x ≤ p.2 := by
  obtain ⟨s, e, -, c⟩ := C48_from_intervals true (is.map fun p => Interval.mkClosed p.1 p.2) (by
    intro i hi
    obtain ⟨p, -, rfl⟩ := List.mem_map.1 hi
    exact .mkClosed _ _)
  have : Selection.demo is = s := by rw [Selection.demo, e]; rfl
  rw [this, c]
  constructor
  · rintro ⟨i, hi, hx⟩
    obtain ⟨p, hp, rfl⟩ := List.mem_map.1 hi
    exact ⟨p, hp, (C21_bounded _ _ _).2.2.2.1.1 hx⟩
  · rintro ⟨p, hp, hx⟩
    exact ⟨_, List.mem_map.2 ⟨p, hp, rfl⟩, (C21_bounded _ _ _).2.2.2.1.2 hx⟩

/-- `demo is` is below `demo js`. -/
theorem Selection.demo_le {is js : List (U8 × U8)} (h : ∀ p ∈ is, ∃ q ∈ js, q.1 ≤ p.1 ∧ p.2 ≤ q.2) :
    (Selection.demo is).pts true ⊆ (Selection.demo js).pts true := by
  intro x hx
  rw [Selection.demo_mem] at hx ⊢
  obtain ⟨p, hp, h1, h2⟩ := hx
  obtain ⟨q, hq, k1, k2⟩ := h p hp
  exact ⟨q, hq, k1.trans h1, h2.trans k2⟩

/-- `union` of bigger selections is bigger, `complement` of a bigger selection is smaller, and so with
`union_in_place`; selections of any history. -/
theorem C118_union_complement (dbg : Bool) (a a' b b' : Selection α) (ha : a.Reachable) (ha' : a'.Reachable)
    (hb : b.Reachable) (hb' : b'.Reachable) (h1 : a.pts dbg ⊆ a'.pts dbg) (h2 : b.pts dbg ⊆ b'.pts dbg) :
    (∃ u u', a.union dbg b = .ok u ∧ a'.union dbg b' = .ok u' ∧ u.pts dbg ⊆ u'.pts dbg) ∧
    (∃ c c', a.complement dbg = .ok c ∧ a'.complement dbg = .ok c' ∧ c'.pts dbg ⊆ c.pts dbg) ∧
    ∀ i j : Interval α, i.Obtainable → j.Obtainable → i.pts ⊆ j.pts →
      ∃ u u', a.unionInPlace dbg i = .ok u ∧ a'.unionInPlace dbg j = .ok u' ∧ u.pts dbg ⊆ u'.pts dbg := by
  refine ⟨?_, ?_, fun i j hi hj h => ?_⟩
  · obtain ⟨u, e, -, c⟩ := Selection.union_right dbg a b ha hb
    obtain ⟨u', e', -, c'⟩ := Selection.union_right dbg a' b' ha' hb'
    exact ⟨u, u', e, e', by rw [c, c']; exact Set.union_subset_union h1 h2⟩
  · obtain ⟨u, e, -, c, -⟩ := C62_complement dbg a ha
    obtain ⟨u', e', -, c', -⟩ := C62_complement dbg a' ha'
    exact ⟨u, u', e, e', by rw [c, c']; exact Set.compl_subset_compl.2 h1⟩
  · obtain ⟨u, e, -, c⟩ := C48_union_in_place dbg a ha i hi
    obtain ⟨u', e', -, c'⟩ := C48_union_in_place dbg a' ha' j hj
    exact ⟨u, u', e, e', by rw [c, c']; exact Set.union_subset_union h1 h⟩

example : (Selection.demo [(u8 2, u8 2), (u8 4, u8 4)]).Reachable ∧ (Selection.demo [(u8 2, u8 2), (u8 4, u8 6)]).Reachable ∧ (Selection.demo [(u8 2, u8 2), (u8 4, u8 4)]).pts true ⊆ (Selection.demo [(u8 2, u8 2), (u8 4, u8 6)]).pts true ∧ ¬ (Selection.demo [(u8 2, u8 2), (u8 4, u8 6)]).pts true ⊆ (Selection.demo [(u8 2, u8 2), (u8 4, u8 4)]).pts true :=
  ⟨(Selection.demo_built _ (by decide)).reachable, (Selection.demo_built _ (by decide)).reachable,
    Selection.demo_le (by decide), fun h =>
      absurd (h (show Selection.contains true _ (u8 5) = .ok true by decide)) (by
        intro h; exact absurd (show Selection.contains true _ _ = .ok true from h) (by decide))⟩

/-- Removing the same from a bigger selection leaves a bigger one, for selections built by union, though the
results need not be the right ones. -/
theorem C118_minus_left_partial (dbg : Bool) (a a' : Selection α) (ha : a.UnionBuilt) (ha' : a'.UnionBuilt)
    (h : a.pts dbg ⊆ a'.pts dbg) :
    (∀ i : Interval α, i.Obtainable → i.Real →
      ∃ r r', a.minusInPlace dbg i = .ok r ∧ a'.minusInPlace dbg i = .ok r' ∧ r.pts dbg ⊆ r'.pts dbg) ∧
    ∀ b : Selection α, b.UnionBuilt →
      ∃ r r', a.minus dbg b = .ok r ∧ a'.minus dbg b = .ok r' ∧ r.pts dbg ⊆ r'.pts dbg := by
  refine ⟨fun i hi hr => ?_, fun b hb => ?_⟩
  · obtain ⟨r, e, c⟩ := C50_formula_partial dbg a ha i hi hr
    obtain ⟨r', e', c'⟩ := C50_formula_partial dbg a' ha' i hi hr
    refine ⟨r, r', e, e', fun x hx => ?_⟩
    rw [c']
    rcases (c x).1 hx with ⟨g1, g2⟩ | ⟨g1, ⟨p, g2, g3⟩, ⟨q, g4, g5⟩, g6⟩
    · exact .inl ⟨h g1, g2⟩
    · by_cases hx : x ∈ a'.pts dbg
      · refine .inl ⟨hx, fun hi => ?_⟩
        rcases g6 with ⟨l, k1, k2⟩ | ⟨u, k1, k2⟩
        · exact absurd (k1.2 hi) (not_le.2 (LawfulFinite.pred_some _ _ k2).1)
        · exact absurd (k1.2 hi) (not_le.2 (LawfulFinite.succ_some _ _ k2).1)
      · exact .inr ⟨hx, ⟨p, h g2, g3⟩, ⟨q, h g4, g5⟩, g6⟩
  · obtain ⟨r, e, c⟩ := C53_formula_partial dbg a b ha hb
    obtain ⟨r', e', c'⟩ := C53_formula_partial dbg a' b ha' hb
    refine ⟨r, r', e, e', fun x hx => ?_⟩
    rw [c']
    rcases (c x).1 hx with ⟨g1, g2⟩ | ⟨g1, g0, ⟨p, g2, g3⟩, ⟨q, g4, g5⟩, g6⟩
    · exact .inl ⟨h g1, g2⟩
    · by_cases hx : x ∈ a'.pts dbg
      · exact .inl ⟨hx, g0⟩
      · exact .inr ⟨hx, g0, ⟨p, h g2, g3⟩, ⟨q, h g4, g5⟩, g6⟩

/-- The hypotheses hold where `minus_in_place` puts in a value: `3` appears in both results. -/
example : (Selection.demo [(u8 2, u8 2), (u8 4, u8 4)]).UnionBuilt ∧ (Selection.demo [(u8 2, u8 2), (u8 4, u8 6)]).UnionBuilt ∧ (Selection.demo [(u8 2, u8 2), (u8 4, u8 4)]).pts true ⊆ (Selection.demo [(u8 2, u8 2), (u8 4, u8 6)]).pts true ∧
    (Interval.mkClosed (u8 4) (u8 10)).Real ∧
    (Selection.demo [(u8 2, u8 2), (u8 4, u8 4)]).minusInPlace true (.mkClosed (u8 4) (u8 10)) = .ok ⟨[.lower (.excl (u8 1)), .upper (.incl (u8 3))]⟩ ∧
    (Selection.demo [(u8 2, u8 2), (u8 4, u8 6)]).minusInPlace true (.mkClosed (u8 4) (u8 10)) = .ok ⟨[.lower (.excl (u8 1)), .upper (.incl (u8 3))]⟩ :=
  ⟨Selection.demo_built _ (by decide), Selection.demo_built _ (by decide), Selection.demo_le (by decide),
    Interval.closed_real (by decide), by decide, by decide⟩

/-- Not so for selections of any history: all but `3`, taken as a complement, has more than `{2, 4}`, but
less is left of it. -/
theorem C118_minus_left_counterexample :
    ∃ (a a' r r' : Selection U8) (i : Interval U8), a.UnionBuilt ∧ a'.Reachable ∧ i.Obtainable ∧ i.Real ∧
      a.pts true ⊆ a'.pts true ∧ a.minusInPlace true i = .ok r ∧ a'.minusInPlace true i = .ok r' ∧
      u8 3 ∈ r.pts true ∧ u8 3 ∉ r'.pts true :=
  ⟨(Selection.demo [(u8 2, u8 2), (u8 4, u8 4)]), ⟨[.lower .inf, .upper (.incl (u8 2)), .lower (.incl (u8 4)), .upper .inf]⟩,
    ⟨[.lower (.excl (u8 1)), .upper (.incl (u8 3))]⟩,
    ⟨[.lower .inf, .upper (.incl (u8 2)), .lower (.incl (u8 11)), .upper .inf]⟩,
    Interval.mkClosed (u8 4) (u8 10), Selection.demo_built _ (by decide),
    .complement (s := Selection.demo [(u8 3, u8 3)]) (dbg := true) (Selection.demo_built _ (by decide)).reachable (by decide),
    .mkClosed _ _, Interval.closed_real (by decide),
    by
      obtain ⟨c, e, -, k, -⟩ := C62_complement true (Selection.demo [(u8 3, u8 3)])
        (Selection.demo_built _ (by decide)).reachable
      rw [show (Selection.demo [(u8 3, u8 3)]).complement true =
        .ok ⟨[.lower .inf, .upper (.incl (u8 2)), .lower (.incl (u8 4)), .upper .inf]⟩ by decide] at e
      cases e
      rw [k]
      intro x hx h3
      rw [Selection.demo_mem] at hx h3
      obtain ⟨p, hp, h1, h2⟩ := hx
      obtain ⟨q, hq, h4, h5⟩ := h3
      cases List.mem_singleton.1 hq
      have e3 : x = u8 3 := le_antisymm h5 h4
      subst e3
      revert h1 h2 hp
      revert p
      decide,
    by decide, by decide,
    show Selection.contains true _ _ = .ok true by decide,
    fun h => absurd (show Selection.contains true _ _ = .ok true from h) (by decide)⟩

/-- Removing a bigger interval leaves less exactly if every single missing value beside the bigger interval is
beside the smaller one too. -/
theorem C118_minus_right_iff (dbg : Bool) (s : Selection α) (hs : s.UnionBuilt) (i j : Interval α)
    (hi : i.Obtainable) (hir : i.Real) (hj : j.Obtainable) (hjr : j.Real) (h : i.pts ⊆ j.pts) :
    (∃ r r', s.minusInPlace dbg i = .ok r ∧ s.minusInPlace dbg j = .ok r' ∧ r'.pts dbg ⊆ r.pts dbg) ↔
      ∀ p x q, pred x = some p → succ x = some q → p ∈ s.pts dbg → q ∈ s.pts dbg → x ∉ s.pts dbg →
        (IsLeast j.pts q ∨ IsGreatest j.pts p) → IsLeast i.pts q ∨ IsGreatest i.pts p := by
  obtain ⟨r, e, c⟩ := C50_formula_partial dbg s hs i hi hir
  obtain ⟨r', e', c'⟩ := C50_formula_partial dbg s hs j hj hjr
  have side : ∀ (k : Interval α) (p x q : α), pred x = some p → succ x = some q →
      (((∃ l, IsLeast k.pts l ∧ pred l = some x) ∨ ∃ u, IsGreatest k.pts u ∧ succ u = some x) ↔
        (IsLeast k.pts q ∨ IsGreatest k.pts p)) := by
    intro k p x q hp hq
    constructor
    · rintro (⟨l, k1, k2⟩ | ⟨u, k1, k2⟩)
      · rw [succ_of_pred k2] at hq; cases hq; exact .inl k1
      · rw [pred_of_succ k2] at hp; cases hp; exact .inr k1
    · rintro (k1 | k1)
      · exact .inl ⟨q, k1, pred_of_succ hq⟩
      · exact .inr ⟨p, k1, succ_of_pred hp⟩
  constructor
  · rintro ⟨r1, r2, h1, h2, hh⟩ p x q hp hq m1 m2 m3 m4
    rw [e] at h1; rw [e'] at h2; cases h1; cases h2
    have := (c x).1 (hh ((c' x).2 (.inr ⟨m3, ⟨p, m1, hp⟩, ⟨q, m2, hq⟩, (side j p x q hp hq).2 m4⟩)))
    rcases this with g | g
    · exact absurd g.1 m3
    · exact (side i p x q hp hq).1 g.2.2.2
  · intro g
    refine ⟨r, r', e, e', fun x hx => ?_⟩
    rw [c]
    rcases (c' x).1 hx with ⟨g1, g2⟩ | ⟨g1, ⟨p, g2, g3⟩, ⟨q, g4, g5⟩, g6⟩
    · exact .inl ⟨g1, fun hh => g2 (h hh)⟩
    · exact .inr ⟨g1, ⟨p, g2, g3⟩, ⟨q, g4, g5⟩,
        (side i p x q g3 g5).2 (g p x q g3 g5 g2 g4 g1 ((side j p x q g3 g5).1 g6))⟩

/-- The condition holds with `[4,10]` and `[4,12]`, both beside the missing `3`. -/
example : (Selection.demo [(u8 2, u8 2), (u8 4, u8 4)]).UnionBuilt ∧ (Interval.mkClosed (u8 4) (u8 10)).Real ∧ (Interval.mkClosed (u8 4) (u8 12)).Real ∧
    (Selection.demo [(u8 2, u8 2), (u8 4, u8 4)]).minusInPlace true (.mkClosed (u8 4) (u8 10)) = .ok ⟨[.lower (.excl (u8 1)), .upper (.incl (u8 3))]⟩ ∧
    (Selection.demo [(u8 2, u8 2), (u8 4, u8 4)]).minusInPlace true (.mkClosed (u8 4) (u8 12)) = .ok ⟨[.lower (.excl (u8 1)), .upper (.incl (u8 3))]⟩ :=
  ⟨Selection.demo_built _ (by decide), Interval.closed_real (by decide), Interval.closed_real (by decide),
    by decide, by decide⟩

/-- It fails for `[5,10]` and `[4,10]`, the latter beside the missing `3`. -/
theorem C118_minus_right_counterexample :
    ∃ (s r r' : Selection U8) (i j : Interval U8), s.UnionBuilt ∧ i.Obtainable ∧ i.Real ∧ j.Obtainable ∧ j.Real ∧
      i.pts ⊆ j.pts ∧ s.minusInPlace true i = .ok r ∧ s.minusInPlace true j = .ok r' ∧
      u8 3 ∉ r.pts true ∧ u8 3 ∈ r'.pts true :=
  ⟨(Selection.demo [(u8 2, u8 2), (u8 4, u8 4)]), ⟨[.lower (.excl (u8 1)), .point (.excl (u8 3)), .upper (.incl (u8 4))]⟩, ⟨[.lower (.excl (u8 1)), .upper (.incl (u8 3))]⟩,
    Interval.mkClosed (u8 5) (u8 10), Interval.mkClosed (u8 4) (u8 10), Selection.demo_built _ (by decide),
    .mkClosed _ _, Interval.closed_real (by decide), .mkClosed _ _, Interval.closed_real (by decide),
    fun x hx => (C21_bounded _ _ x).2.2.2.1.2
      ((C21_bounded _ _ x).2.2.2.1.1 hx |>.imp_left (le_trans (by decide : u8 4 ≤ u8 5))),
    by decide, by decide,
    fun h => absurd (show Selection.contains true _ _ = .ok true from h) (by decide),
    show Selection.contains true _ _ = .ok true by decide⟩

/-- The same of `minus` with a bigger selection on the right. -/
theorem C118_minus_right_selection_iff (dbg : Bool) (a b b' : Selection α) (ha : a.UnionBuilt)
    (hb : b.UnionBuilt) (hb' : b'.UnionBuilt) (h : b.pts dbg ⊆ b'.pts dbg) :
    (∃ r r', a.minus dbg b = .ok r ∧ a.minus dbg b' = .ok r' ∧ r'.pts dbg ⊆ r.pts dbg) ↔
      ∀ p x q, pred x = some p → succ x = some q → p ∈ a.pts dbg → q ∈ a.pts dbg → x ∉ a.pts dbg →
        x ∉ b'.pts dbg → (p ∈ b'.pts dbg ∨ q ∈ b'.pts dbg) → p ∈ b.pts dbg ∨ q ∈ b.pts dbg := by
  obtain ⟨r, e, c⟩ := C53_formula_partial dbg a b ha hb
  obtain ⟨r', e', c'⟩ := C53_formula_partial dbg a b' ha hb'
  have side : ∀ (k : Selection α) (p x q : α), pred x = some p → succ x = some q →
      (((∃ p ∈ k.pts dbg, pred x = some p) ∨ ∃ q ∈ k.pts dbg, succ x = some q) ↔
        (p ∈ k.pts dbg ∨ q ∈ k.pts dbg)) := by
    intro k p x q hp hq
    rw [hp, hq]
    simp
  constructor
  · rintro ⟨r1, r2, h1, h2, hh⟩ p x q hp hq m1 m2 m3 m0 m4
    rw [e] at h1; rw [e'] at h2; cases h1; cases h2
    have := (c x).1 (hh ((c' x).2 (.inr ⟨m3, m0, ⟨p, m1, hp⟩, ⟨q, m2, hq⟩, (side b' p x q hp hq).2 m4⟩)))
    rcases this with g | g
    · exact absurd g.1 m3
    · exact (side b p x q hp hq).1 g.2.2.2.2
  · intro g
    refine ⟨r, r', e, e', fun x hx => ?_⟩
    rw [c]
    rcases (c' x).1 hx with ⟨g1, g2⟩ | ⟨g1, g0, ⟨p, g2, g3⟩, ⟨q, g4, g5⟩, g6⟩
    · exact .inl ⟨g1, fun hh => g2 (h hh)⟩
    · exact .inr ⟨g1, fun hh => g0 (h hh), ⟨p, g2, g3⟩, ⟨q, g4, g5⟩,
        (side b p x q g3 g5).2 (g p x q g3 g5 g2 g4 g1 g0 ((side b' p x q g3 g5).1 g6))⟩

example : (Selection.demo [(u8 2, u8 2), (u8 4, u8 4)]).UnionBuilt ∧ (Selection.demo [(u8 5, u8 10)]).UnionBuilt ∧ (Selection.demo [(u8 4, u8 10)]).UnionBuilt ∧
    (Selection.demo [(u8 5, u8 10)]).pts true ⊆ (Selection.demo [(u8 4, u8 10)]).pts true ∧
    (Selection.demo [(u8 2, u8 2), (u8 4, u8 4)]).minus true (Selection.demo [(u8 5, u8 10)]) = .ok ⟨[.lower (.excl (u8 1)), .point (.excl (u8 3)), .upper (.incl (u8 4))]⟩ ∧
    (Selection.demo [(u8 2, u8 2), (u8 4, u8 4)]).minus true (Selection.demo [(u8 4, u8 10)]) = .ok ⟨[.lower (.excl (u8 1)), .upper (.incl (u8 3))]⟩ :=
  ⟨Selection.demo_built _ (by decide), Selection.demo_built _ (by decide), Selection.demo_built _ (by decide),
    Selection.demo_le (by decide), by decide, by decide⟩

/-- A right intersection of bigger selections has all there is in the intersection of smaller ones, right or
not. -/
theorem C118_intersect_partial (dbg : Bool) (a a' b b' : Selection α) (ha : a.Reachable) (hb : b.Reachable)
    (h1 : a.pts dbg ⊆ a'.pts dbg) (h2 : b.pts dbg ⊆ b'.pts dbg) (r' : Selection α)
    (_e' : a'.intersect dbg b' = .ok r') (hr : r'.pts dbg = a'.pts dbg ∩ b'.pts dbg) :
    ∃ r, a.intersect dbg b = .ok r ∧ r.pts dbg ⊆ r'.pts dbg := by
  obtain ⟨r, e, -, c, -⟩ := C52_subset_partial dbg a b ha hb
  exact ⟨r, e, hr ▸ c.trans (Set.inter_subset_inter h1 h2)⟩

example : (Selection.demo [(u8 4, u8 5)]).pts true ⊆ (Selection.demo [(u8 4, u8 9)]).pts true ∧
    (Selection.demo [(u8 4, u8 5)]).intersect true (Selection.demo [(u8 5, u8 6)]) = .ok (Selection.demo [(u8 5, u8 5)]) ∧
    (Selection.demo [(u8 4, u8 9)]).intersect true (Selection.demo [(u8 5, u8 6)]) = .ok (Selection.demo [(u8 5, u8 6)]) :=
  ⟨Selection.demo_le (by decide), by decide, by decide⟩

/-- Without it the intersection of a bigger selection can even be disjoint: `[4,5]` and `[0,1] ∪ [4,5]`
with `[0,5]`. -/
theorem C118_intersect_counterexample :
    ∃ a a' b r r' : Selection U8, a.UnionBuilt ∧ a'.UnionBuilt ∧ b.UnionBuilt ∧ a.pts true ⊆ a'.pts true ∧
      a.intersect true b = .ok r ∧ a'.intersect true b = .ok r' ∧ u8 4 ∈ r.pts true ∧ u8 4 ∉ r'.pts true :=
  ⟨Selection.demo [(u8 4, u8 5)], Selection.demo [(u8 0, u8 1), (u8 4, u8 5)], Selection.demo [(u8 0, u8 5)],
    Selection.demo [(u8 4, u8 5)], Selection.demo [(u8 0, u8 1)],
    Selection.demo_built _ (by decide), Selection.demo_built _ (by decide), Selection.demo_built _ (by decide),
    Selection.demo_le (by decide), by decide, by decide,
    show Selection.contains true _ _ = .ok true by decide,
    fun h => absurd (show Selection.contains true _ _ = .ok true from h) (by decide)⟩

/-- Of selections of any history, more is left of the bigger one exactly if each pinhole of the smaller one beside
the interval is in the bigger one, or a pinhole of it as well. -/
theorem C118_minus_left_iff (dbg : Bool) (a a' : Selection α) (ha : a.Reachable) (ha' : a'.Reachable)
    (i : Interval α) (hi : i.Obtainable) (h : a.pts dbg ⊆ a'.pts dbg) :
    (∃ r r', a.minusInPlace dbg i = .ok r ∧ a'.minusInPlace dbg i = .ok r' ∧ r.pts dbg ⊆ r'.pts dbg) ↔
      ∀ x, a.Pinhole dbg x → ((∃ l, i.lowerBound = some (.incl l) ∧ pred l = some x) ∨
        ∃ u, i.upperBound = some (.incl u) ∧ succ u = some x) → x ∈ a'.pts dbg ∧ x ∉ i.pts ∨ a'.Pinhole dbg x := by
  obtain ⟨r, e, -, c⟩ := C50_formula_any dbg a ha i hi
  obtain ⟨r', e', -, c'⟩ := C50_formula_any dbg a' ha' i hi
  constructor
  · rintro ⟨r1, r2, h1, h2, hh⟩ x hx hb
    rw [e] at h1; rw [e'] at h2; cases h1; cases h2
    rcases (c' x).1 (hh ((c x).2 (.inr ⟨hx, hb⟩))) with k | ⟨k, -⟩
    · exact .inl k
    · exact .inr k
  · intro hh
    refine ⟨r, r', e, e', fun x hx => (c' x).2 ?_⟩
    rcases (c x).1 hx with ⟨k1, k2⟩ | ⟨k1, k2⟩
    · exact .inl ⟨h k1, k2⟩
    · rcases hh x k1 k2 with k | k
      · exact .inl k
      · exact .inr ⟨k, k2⟩

/-- The condition is met where nothing is missing singly, and `minus_in_place` splits both selections. -/
example : (Selection.demo [(u8 2, u8 5), (u8 9, u8 12)]).Reachable ∧
    (∀ x, ¬ (Selection.demo [(u8 2, u8 5), (u8 9, u8 12)]).Pinhole true x) ∧
    (Selection.demo [(u8 2, u8 5), (u8 9, u8 12)]).pts true ⊆ (Selection.demo [(u8 2, u8 14)]).pts true ∧
    (Selection.demo [(u8 2, u8 5), (u8 9, u8 12)]).minusInPlace true (.mkClosed (u8 4) (u8 10)) >>=
      (Selection.intervals true ·) = .ok [.mkClosed (u8 2) (u8 3), .mkClosed (u8 11) (u8 12)] ∧
    (Selection.demo [(u8 2, u8 14)]).minusInPlace true (.mkClosed (u8 4) (u8 10)) >>=
      (Selection.intervals true ·) = .ok [.mkClosed (u8 2) (u8 3), .mkClosed (u8 11) (u8 14)] :=
  ⟨(Selection.demo_built _ (by decide)).reachable, Selection.two_runs_no_pinhole, Selection.demo_le (by decide),
    by decide, by decide⟩

/-- The same for `minus` of a union-built selection. -/
theorem C118_minus_left_selection_iff (dbg : Bool) (a a' b : Selection α) (ha : a.Reachable) (ha' : a'.Reachable)
    (hb : b.UnionBuilt) (h : a.pts dbg ⊆ a'.pts dbg) :
    (∃ r r', a.minus dbg b = .ok r ∧ a'.minus dbg b = .ok r' ∧ r.pts dbg ⊆ r'.pts dbg) ↔
      ∀ x, a.Pinhole dbg x → x ∉ b.pts dbg →
        ((∃ p ∈ b.pts dbg, pred x = some p) ∨ ∃ q ∈ b.pts dbg, succ x = some q) →
        x ∈ a'.pts dbg ∨ a'.Pinhole dbg x := by
  obtain ⟨r, e, c⟩ := C53_formula_any dbg a b ha hb
  obtain ⟨r', e', c'⟩ := C53_formula_any dbg a' b ha' hb
  constructor
  · rintro ⟨r1, r2, h1, h2, hh⟩ x hx hn hb
    rw [e] at h1; rw [e'] at h2; cases h1; cases h2
    exact ((c' x).1 (hh ((c x).2 ⟨hn, .inr ⟨hx, hb⟩⟩))).2.imp_right And.left
  · intro hh
    refine ⟨r, r', e, e', fun x hx => (c' x).2 ?_⟩
    obtain ⟨k0, k⟩ := (c x).1 hx
    refine ⟨k0, ?_⟩
    rcases k with k1 | ⟨k1, k2⟩
    · exact .inl (h k1)
    · exact (hh x k1 k0 k2).imp_right fun k => ⟨k, k2⟩

example : (Selection.demo [(u8 2, u8 5), (u8 9, u8 12)]).Reachable ∧
    (∀ x, ¬ (Selection.demo [(u8 2, u8 5), (u8 9, u8 12)]).Pinhole true x) ∧
    (Selection.demo [(u8 2, u8 5), (u8 9, u8 12)]).pts true ⊆ (Selection.demo [(u8 2, u8 14)]).pts true ∧
    (Selection.demo [(u8 4, u8 10)]).UnionBuilt ∧
    (Selection.demo [(u8 2, u8 5), (u8 9, u8 12)]).minus true (Selection.demo [(u8 4, u8 10)]) >>=
      (Selection.intervals true ·) = .ok [.mkClosed (u8 2) (u8 3), .mkClosed (u8 11) (u8 12)] ∧
    (Selection.demo [(u8 2, u8 14)]).minus true (Selection.demo [(u8 4, u8 10)]) >>=
      (Selection.intervals true ·) = .ok [.mkClosed (u8 2) (u8 3), .mkClosed (u8 11) (u8 14)] :=
  ⟨(Selection.demo_built _ (by decide)).reachable, Selection.two_runs_no_pinhole, Selection.demo_le (by decide),
    Selection.demo_built _ (by decide), by decide, by decide⟩

/-- And for the removed interval, of a selection of any history: removing the bigger one leaves less exactly if each
pinhole beside it is beside the smaller one as well. -/
theorem C118_minus_right_any_iff (dbg : Bool) (s : Selection α) (hs : s.Reachable) (i j : Interval α)
    (hi : i.Obtainable) (hj : j.Obtainable) (h : i.pts ⊆ j.pts) :
    (∃ r r', s.minusInPlace dbg i = .ok r ∧ s.minusInPlace dbg j = .ok r' ∧ r'.pts dbg ⊆ r.pts dbg) ↔
      ∀ x, s.Pinhole dbg x → ((∃ l, j.lowerBound = some (.incl l) ∧ pred l = some x) ∨
        ∃ u, j.upperBound = some (.incl u) ∧ succ u = some x) →
        (∃ l, i.lowerBound = some (.incl l) ∧ pred l = some x) ∨
        ∃ u, i.upperBound = some (.incl u) ∧ succ u = some x := by
  obtain ⟨r, e, -, c⟩ := C50_formula_any dbg s hs i hi
  obtain ⟨r', e', -, c'⟩ := C50_formula_any dbg s hs j hj
  constructor
  · rintro ⟨r1, r2, h1, h2, hh⟩ x hx hb
    rw [e] at h1; rw [e'] at h2; cases h1; cases h2
    rcases (c x).1 (hh ((c' x).2 (.inr ⟨hx, hb⟩))) with ⟨k, -⟩ | ⟨-, k⟩
    · exact absurd k (C73_pinhole dbg s hs x hx)
    · exact k
  · intro hh
    refine ⟨r, r', e, e', fun x hx => (c x).2 ?_⟩
    rcases (c' x).1 hx with ⟨k1, k2⟩ | ⟨k1, k2⟩
    · exact .inl ⟨k1, fun k => k2 (h k)⟩
    · exact .inr ⟨k1, hh x k1 k2⟩

example : (Selection.demo [(u8 2, u8 5), (u8 9, u8 12)]).Reachable ∧
    (∀ x, ¬ (Selection.demo [(u8 2, u8 5), (u8 9, u8 12)]).Pinhole true x) ∧
    (Interval.mkClosed (u8 4) (u8 10)).pts ⊆ (Interval.mkClosed (u8 3) (u8 10)).pts ∧
    (Selection.demo [(u8 2, u8 5), (u8 9, u8 12)]).minusInPlace true (.mkClosed (u8 3) (u8 10)) >>=
      (Selection.intervals true ·) = .ok [⟨.closed (u8 2) (u8 2)⟩, .mkClosed (u8 11) (u8 12)] :=
  ⟨(Selection.demo_built _ (by decide)).reachable, Selection.two_runs_no_pinhole,
    fun x hx => (C21_bounded _ _ x).2.2.2.1.2
      ((C21_bounded _ _ x).2.2.2.1.1 hx |>.imp_left (le_trans (by decide : u8 3 ≤ u8 4))), by decide⟩

/-- If the interval is rightly removed from the smaller selection, then more is left of the bigger one; if the
bigger interval is rightly removed, then more is left after removing the smaller one; of any history. -/
theorem C118_minus_right_result (dbg : Bool) (a a' r r' : Selection α) (i j : Interval α) (ha : a.Reachable)
    (ha' : a'.Reachable) (hi : i.Obtainable) (hj : j.Obtainable) (h : a.pts dbg ⊆ a'.pts dbg) (hij : i.pts ⊆ j.pts)
    (e : a.minusInPlace dbg j = .ok r) (hr : r.pts dbg ⊆ a.pts dbg) (e' : a'.minusInPlace dbg i = .ok r') :
    r.pts dbg ⊆ r'.pts dbg := by
  obtain ⟨r1, e1, -, c1, c2⟩ := C50_removes_partial dbg a ha j hj
  obtain ⟨r2, e2, -, d1, d2⟩ := C50_removes_partial dbg a' ha' i hi
  rw [e] at e1; rw [e'] at e2; cases e1; cases e2
  exact fun x hx => d2 x (h (hr hx)) fun hxi => c1 x (hij hxi) hx

example : (Selection.demo [(u8 2, u8 6)]).Reachable ∧ (Selection.demo [(u8 2, u8 9)]).Reachable ∧
    (Selection.demo [(u8 2, u8 6)]).pts true ⊆ (Selection.demo [(u8 2, u8 9)]).pts true ∧
    (Selection.demo [(u8 2, u8 6)]).minusInPlace true (.mkClosed (u8 5) (u8 8)) =
      .ok ⟨[.lower (.excl (u8 1)), .upper (.incl (u8 4))]⟩ ∧
    (Selection.demo [(u8 2, u8 9)]).minusInPlace true (.mkClosed (u8 5) (u8 7)) =
      .ok ⟨[.lower (.excl (u8 1)), .upper (.incl (u8 4)), .lower (.incl (u8 8)), .upper (.excl (u8 10))]⟩ :=
  ⟨(Selection.demo_built _ (by decide)).reachable, (Selection.demo_built _ (by decide)).reachable,
    Selection.demo_le (by decide), by decide, by decide⟩

/-- `enclose` of a bigger selection is bigger, if the smaller one is of a history that leaves no intervals
without values. -/
theorem C118_enclose_partial (dbg : Bool) (a a' : Selection α) (ha : a.Solid) (ha' : a'.Reachable)
    (h : a.pts dbg ⊆ a'.pts dbg) :
    ∃ e e', a.enclose dbg = .ok e ∧ a'.enclose dbg = .ok e' ∧ e.pts ⊆ e'.pts := by
  obtain ⟨e, e1, -, e2⟩ := C61_enclose_partial dbg a ha
  obtain ⟨e', -, e1', -, e2', -⟩ := C61_superset_partial dbg a' ha'
  refine ⟨e, e', e1, e1', ?_⟩
  rcases e2 with ⟨-, k⟩ | ⟨l, u, k1, k2, k3⟩
  · rw [k]; exact Set.empty_subset _
  · rw [k3]
    exact fun x hx => (RawInterval.contains_iff _ _).2 (RawInterval.convex e'.raw
      ((RawInterval.contains_iff _ _).1 (e2' (h k1.1))) ((RawInterval.contains_iff _ _).1 (e2' (h k2.1))) hx.1 hx.2)

example : (Selection.demo [(u8 2, u8 2), (u8 4, u8 4)]).Solid ∧ (Selection.demo [(u8 2, u8 2), (u8 4, u8 6)]).Reachable ∧ (Selection.demo [(u8 2, u8 2), (u8 4, u8 4)]).pts true ⊆ (Selection.demo [(u8 2, u8 2), (u8 4, u8 6)]).pts true ∧
    (Selection.demo [(u8 2, u8 2), (u8 4, u8 4)]).enclose true = .ok (.mkClosed (u8 2) (u8 4)) ∧ (Selection.demo [(u8 2, u8 2), (u8 4, u8 6)]).enclose true = .ok (.mkClosed (u8 2) (u8 6)) :=
  ⟨.tidy (.inl (Selection.demo_built _ (by decide))), (Selection.demo_built _ (by decide)).reachable,
    Selection.demo_le (by decide), by decide, by decide⟩

/-- Without this it is not: `{10}` with an interval without values before it. -/
theorem C118_enclose_counterexample :
    ∃ (a a' : Selection U8) (e e' : Interval U8), a.Reachable ∧ a'.UnionBuilt ∧ a.pts true = a'.pts true ∧
      a.enclose true = .ok e ∧ a'.enclose true = .ok e' ∧ ¬ e.pts ⊆ e'.pts := by
  obtain ⟨s, e, r, c⟩ := C48_union_in_place true (Selection.demo [(u8 10, u8 10)])
    (Selection.demo_built _ (by decide)).reachable (.mkOpen (u8 3) (u8 4)) (.mkOpen _ _)
  have e0 : (Selection.demo [(u8 10, u8 10)]).unionInPlace true (.mkOpen (u8 3) (u8 4)) =
      .ok ⟨[.lower (.excl (u8 3)), .upper (.excl (u8 4)), .lower (.excl (u8 9)), .upper (.excl (u8 11))]⟩ := by
    decide
  rw [e0] at e; cases e
  refine ⟨_, Selection.demo [(u8 10, u8 10)], .mkClosed (u8 4) (u8 10), ⟨.closed (u8 10) (u8 10)⟩, r,
    Selection.demo_built _ (by decide), ?_, by decide, by decide, fun h => ?_⟩
  · rw [c]
    ext x
    refine ⟨fun h => h.resolve_right fun hx => ?_, .inl⟩
    have := (C21_bounded (u8 3) (u8 4) x).2.2.1.1 hx
    obtain ⟨x, h1, h2⟩ := x
    simp [u8] at this
    omega
  · have : u8 5 ∈ (⟨.closed (u8 10) (u8 10)⟩ : Interval U8).pts := h ((C21_bounded _ _ _).2.2.2.1.2 (by decide))
    exact absurd (show Interval.contains _ _ = true from this) (by decide)

/-- `closure` of a bigger selection is bigger. -/
theorem C118_closure_partial (dbg : Bool) (a a' : Selection α) (ha : a.UnionBuilt) (ha' : a'.UnionBuilt)
    (h : a.pts dbg ⊆ a'.pts dbg) :
    ∃ c c', a.closure dbg = .ok c ∧ a'.closure dbg = .ok c' ∧ c.pts ⊆ c'.pts := by
  obtain ⟨e, e1, -, e2⟩ := C61_closure_formula dbg a ha
  obtain ⟨e', e1', -, e2'⟩ := C61_closure_formula dbg a' ha'
  refine ⟨e, e', e1, e1', ?_⟩
  rcases e2 with ⟨-, k⟩ | ⟨l, u, k1, k2, k3⟩
  · rw [k]; exact Set.empty_subset _
  · rcases e2' with ⟨k, -⟩ | ⟨l', u', k1', k2', k3'⟩
    · rw [k] at h; exact absurd (h k1.1) (Set.notMem_empty _)
    · have hl := k1'.2 (h k1.1)
      have hu := k2'.2 (h k2.1)
      have lu : l ≤ u := k1.2 k2.1
      intro x hx
      rw [k3']
      rcases (k3 x).1 hx with g | g | g
      · exact .inl ⟨hl.trans g.1, g.2.trans hu⟩
      · rcases hl.eq_or_lt with rfl | hl
        · exact .inr (.inl g)
        · exact .inl ⟨(le_pred_iff g _).2 hl, (LawfulFinite.pred_some _ _ g).1.le.trans (lu.trans hu)⟩
      · rcases hu.eq_or_lt with rfl | hu
        · exact .inr (.inr g)
        · exact .inl ⟨hl.trans (lu.trans (LawfulFinite.succ_some _ _ g).1.le), (succ_le_iff g _).2 hu⟩

example : (Selection.demo [(u8 2, u8 2), (u8 4, u8 4)]).UnionBuilt ∧ (Selection.demo [(u8 2, u8 2), (u8 4, u8 6)]).UnionBuilt ∧ (Selection.demo [(u8 2, u8 2), (u8 4, u8 4)]).pts true ⊆ (Selection.demo [(u8 2, u8 2), (u8 4, u8 6)]).pts true ∧
    (Selection.demo [(u8 2, u8 2), (u8 4, u8 4)]).closure true = .ok (.mkClosed (u8 1) (u8 5)) ∧ (Selection.demo [(u8 2, u8 2), (u8 4, u8 6)]).closure true = .ok (.mkClosed (u8 1) (u8 7)) :=
  ⟨Selection.demo_built _ (by decide), Selection.demo_built _ (by decide), Selection.demo_le (by decide),
    by decide, by decide⟩

/-- Not so of any history: `{2}` as the complement of the rest is closed already. -/
theorem C118_closure_counterexample :
    ∃ (a a' : Selection U8) (c c' : Interval U8), a.UnionBuilt ∧ a'.Reachable ∧ a.pts true = a'.pts true ∧
      a.closure true = .ok c ∧ a'.closure true = .ok c' ∧ ¬ c.pts ⊆ c'.pts := by
  obtain ⟨s, e, r, k, -⟩ := C62_complement true (Selection.demo [(u8 0, u8 1), (u8 3, u8 255)])
    (Selection.demo_built _ (by decide)).reachable
  have e0 : (Selection.demo [(u8 0, u8 1), (u8 3, u8 255)]).complement true =
      .ok ⟨[.point (.incl (u8 2))]⟩ := by decide
  rw [e0] at e; cases e
  refine ⟨Selection.demo [(u8 2, u8 2)], _, .mkClosed (u8 1) (u8 3), .mkClosed (u8 2) (u8 2),
    Selection.demo_built _ (by decide), r, ?_, by decide, by decide, fun h => ?_⟩
  · rw [k]
    ext x
    rw [Set.mem_compl_iff, Selection.demo_mem, Selection.demo_mem]
    obtain ⟨x, h1, h2⟩ := x
    simp [u8]
    omega
  · have : u8 1 ∈ (Interval.mkClosed (u8 2) (u8 2)).pts := h ((C21_bounded _ _ _).2.2.2.1.2 (by decide))
    exact absurd ((C21_bounded _ _ _).2.2.2.1.1 this) (by decide)

/-- Trees: `union` of bigger trees is bigger, `complement` of a bigger tree is smaller. -/
theorem C118_tree {β : Type _} [LinearOrder β] (dbg : Bool) (a a' b b' : TineTree β) (ha : a.Reachable)
    (ha' : a'.Reachable) (hb : b.Reachable) (hb' : b'.Reachable)
    (h1 : ∀ x, TineTree.contains dbg a x = .ok true → TineTree.contains dbg a' x = .ok true)
    (h2 : ∀ x, TineTree.contains dbg b x = .ok true → TineTree.contains dbg b' x = .ok true) :
    (∃ u u', TineTree.union dbg a b = .ok u ∧ TineTree.union dbg a' b' = .ok u' ∧
      ∀ x, TineTree.contains dbg u x = .ok true → TineTree.contains dbg u' x = .ok true) ∧
    ∃ c c', TineTree.complement dbg a = .ok c ∧ TineTree.complement dbg a' = .ok c' ∧
      ∀ x, TineTree.contains dbg c' x = .ok true → TineTree.contains dbg c x = .ok true := by
  constructor
  · obtain ⟨u, e, -, c⟩ := C40_union dbg a b ha hb
    obtain ⟨u', e', -, c'⟩ := C40_union dbg a' b' ha' hb'
    exact ⟨u, u', e, e', fun x hx => (c' x).2 (((c x).1 hx).imp (h1 x) (h2 x))⟩
  · obtain ⟨u, e, -, c, -⟩ := C39_complement dbg a ha
    obtain ⟨u', e', -, c', -⟩ := C39_complement dbg a' ha'
    refine ⟨u, u', e, e', fun x hx => (c x).2 ?_⟩
    have k := (c' x).1 hx
    have va := TT.reachable_valid ha
    have := TT.contains_ok dbg va x
    rw [this]
    by_contra hne
    have ht : TineTree.contains dbg a x = .ok true := by
      rw [this]; congr 1; simpa using hne
    rw [h1 x ht] at k
    cases k

example : (TineTree.fromRawInterval (.closed (3 : Int) 5)).Reachable ∧
    (TineTree.fromRawInterval (.closed (0 : Int) 9)).Reachable ∧
    ∀ x, TineTree.contains true (TineTree.fromRawInterval (.closed (3 : Int) 5)) x = .ok true →
      TineTree.contains true (TineTree.fromRawInterval (.closed (0 : Int) 9)) x = .ok true := by
  refine ⟨.fromRaw (by decide), .fromRaw (by decide), fun x hx => ?_⟩
  rw [(C35_from_raw true _ (by decide)).2.1] at hx ⊢
  simp [RawInterval.contains_iff, RawInterval.pts] at hx ⊢
  omega

end NI
