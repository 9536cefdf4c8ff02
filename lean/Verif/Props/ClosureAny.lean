import Verif.Props.Pinhole

/-! # `closure` of selections of any history (C61) -/

set_option linter.unusedSimpArgs false
set_option linter.unusedVariables false
set_option linter.unusedSectionVars false

namespace NI
open _root_.NI.Finite TT
variable {α : Type} [LinearOrder α] [Finite α] [LawfulFinite α]

/-- What `closure` of a selection of any history is: all values from its infimum to its supremum. -/
theorem C61_closure_any (dbg : Bool) (s : Selection α) (hs : s.Reachable) :
    ∃ c, s.closure dbg = .ok c ∧ c.Obtainable ∧ ∀ x, x ∈ c.pts ↔
      s.isEmpty = false ∧ (∀ l, s.infimum = some l → l ≤ x) ∧ ∀ u, s.supremum = some u → x ≤ u := by
  have v := Selection.reachable_valid hs
  obtain ⟨e, h, hw, b1, b2, hc⟩ := enclose_ok dbg v
  have hp : (⟨e.closure.normalized⟩ : Interval α).pts = {x | e.closure.contains x = true} :=
    Selection.run_pts e.closure
  refine ⟨⟨e.closure.normalized⟩, by rw [Selection.closure, TineTree.closure, h]; rfl,
    .ofRaw _ (C09_closure e hw).2.1, fun x => ?_⟩
  have he : s.isEmpty = true ↔ e = .empty := by
    rw [Selection.isEmpty_iff]
    constructor
    · rintro rfl; cases h; rfl
    · rintro rfl
      rcases s with ⟨_ | ⟨t, ts⟩⟩
      · rfl
      · exfalso
        cases t <;> simp [TineTree.lowerBound, RawInterval.lowerBound] at b1
  rw [hp, Selection.infimum, Selection.supremum, ← b1, ← b2, ← Bool.not_eq_true, he, Set.mem_ofPred_eq]
  cases e <;> simp [RawInterval.closure, RawInterval.contains, RawInterval.lowerBound, RawInterval.upperBound,
    Bound.asRef, and_comm]
  exact le_antisymm_iff

example : (Selection.demo [(u8 3, u8 5), (u8 9, u8 12)]).closure true = .ok (Interval.mkClosed (u8 2) (u8 13)) := by decide

/-- How the bounds of a reported interval come from those kept in the tree. -/
theorem Selection.run_ends' {s : Selection α} (hs : s.Reachable) {i : RawInterval α} (hi : i ∈ pieces none s.tree) :
    ∃ l u lb ub, (run i).lowerBound = some (.incl l) ∧ (run i).upperBound = some (.incl u) ∧
      i.lowerBound = some lb ∧ i.upperBound = some ub ∧
      (lb = .incl l ∨ (∃ p, pred l = some p ∧ lb = .excl p) ∨ (lb = .inf ∧ l = minimum)) ∧
      (ub = .incl u ∨ (∃ p, succ u = some p ∧ ub = .excl p) ∨ (ub = .inf ∧ u = maximum)) := by
  have h6 : (run i).isEmpty = false := by
    rcases hs.run_cases hi with g | ⟨p, q, -, -, e, -⟩
    · obtain ⟨_, _, _, _, _, _, g⟩ := g.cases
      exact g
    · rw [e]; rfl
  rw [run] at h6 ⊢
  cases i <;> simp only [RawInterval.normalized] at h6 ⊢
  case empty => cases h6
  case point p => exact ⟨p, p, _, _, rfl, rfl, rfl, rfl, .inl rfl, .inl rfl⟩
  case opn a b =>
    cases h1 : succ a <;> cases h2 : pred b <;> rw [h1, h2] at h6 <;>
      first | (cases h6; done) | exact ⟨_, _, _, _, rfl, rfl, rfl, rfl, .inr (.inl ⟨_, pred_of_succ h1, rfl⟩),
        .inr (.inl ⟨_, succ_of_pred h2, rfl⟩)⟩
  case leftOpen a b =>
    cases h1 : succ a <;> rw [h1] at h6 <;>
      first | (cases h6; done) | exact ⟨_, _, _, _, rfl, rfl, rfl, rfl, .inr (.inl ⟨_, pred_of_succ h1, rfl⟩), .inl rfl⟩
  case rightOpen a b =>
    cases h1 : pred b <;> rw [h1] at h6 <;>
      first | (cases h6; done) | exact ⟨_, _, _, _, rfl, rfl, rfl, rfl, .inl rfl, .inr (.inl ⟨_, succ_of_pred h1, rfl⟩)⟩
  case closed a b => exact ⟨_, _, _, _, rfl, rfl, rfl, rfl, .inl rfl, .inl rfl⟩
  case upTo b =>
    cases h1 : pred b <;> rw [h1] at h6 <;>
      first | (cases h6; done) | exact ⟨_, _, _, _, rfl, rfl, rfl, rfl, .inr (.inr ⟨rfl, rfl⟩), .inr (.inl ⟨_, succ_of_pred h1, rfl⟩)⟩
  case upFrom a =>
    cases h1 : succ a <;> rw [h1] at h6 <;>
      first | (cases h6; done) | exact ⟨_, _, _, _, rfl, rfl, rfl, rfl, .inr (.inl ⟨_, pred_of_succ h1, rfl⟩), .inr (.inr ⟨rfl, rfl⟩)⟩
  case «to» b => exact ⟨_, _, _, _, rfl, rfl, rfl, rfl, .inr (.inr ⟨rfl, rfl⟩), .inl rfl⟩
  case frm a => exact ⟨_, _, _, _, rfl, rfl, rfl, rfl, .inl rfl, .inr (.inr ⟨rfl, rfl⟩)⟩
  case full => exact ⟨_, _, _, _, rfl, rfl, rfl, rfl, .inr (.inr ⟨rfl, rfl⟩), .inr (.inr ⟨rfl, rfl⟩)⟩

/-- What `enclose` of a selection of any history is: all values from its lower to its upper bound. -/
theorem C61_enclose_any (dbg : Bool) (s : Selection α) (hs : s.Reachable) :
    ∃ e, s.enclose dbg = .ok e ∧ e.Obtainable ∧
      ((s.isEmpty = true ∧ s.lowerBound dbg = .ok none ∧ s.upperBound dbg = .ok none ∧ e.pts = ∅) ∨
        ∃ l u, s.isEmpty = false ∧ s.lowerBound dbg = .ok (some (.incl l)) ∧ s.upperBound dbg = .ok (some (.incl u)) ∧
          e.pts = Set.Icc l u) := by
  have v := Selection.reachable_valid hs
  obtain ⟨e, h, hw, b1, b2, hc⟩ := enclose_ok dbg v
  have hp' : (⟨e.normalized⟩ : Interval α).pts = {x | e.contains x = true} := Selection.run_pts e
  refine ⟨⟨e.normalized⟩, by rw [Selection.enclose, h]; rfl, .ofRaw _ hw, ?_⟩
  rw [hp', Selection.lowerBound_eq dbg v, Selection.upperBound_eq dbg v]
  obtain ⟨t1, t2⟩ := Selection.tree_bounds v
  cases hh : (pieces none s.tree).head? with
  | none =>
    have : pieces none s.tree = [] := by cases h : pieces none s.tree <;> simp_all
    have hn := Selection.tree_nil v this
    rw [this]
    refine .inl ⟨?_, by simp, by simp, ?_⟩
    · rw [Selection.isEmpty_iff]
      cases s; cases hn; rfl
    · rw [hn] at h; cases h
      ext x; simp [RawInterval.contains]
  | some r =>
    have hr := List.mem_of_head? hh
    obtain ⟨r', hr'⟩ : ∃ j, (pieces none s.tree).getLast? = some j := by
      cases h : pieces none s.tree with
      | nil => rw [h] at hh; cases hh
      | cons a L => exact ⟨_, List.getLast?_cons⟩
    have hne : s.isEmpty = false := by
      rw [← Bool.not_eq_true, Selection.isEmpty_iff]
      rintro rfl
      cases hh
    obtain ⟨l, -, lb, -, h1, -, h2, -, h3, -⟩ := Selection.run_ends' hs hr
    obtain ⟨-, u, -, ub, -, h4, -, h5, -, h6⟩ := Selection.run_ends' hs (List.mem_of_getLast? hr')
    rw [hr']
    refine .inr ⟨l, u, hne, by simp [h1], by simp [h4], ?_⟩
    rw [t1, hh] at b1
    rw [t2, hr'] at b2
    ext x
    rw [Set.mem_ofPred_eq, RawInterval.contains_iff_bounds, b1, b2]
    simp only [Option.bind_some, h2, h5, Option.some.injEq, exists_and_left, exists_eq_left']
    refine and_congr ?_ ?_
    · rcases h3 with rfl | ⟨p, hp, rfl⟩ | ⟨rfl, rfl⟩
      · exact Iff.rfl
      · exact ⟨fun hx => not_lt.1 fun g => absurd ((LawfulFinite.pred_some l p hp).2 x g) (not_le.2 hx),
          fun hx => lt_of_lt_of_le (LawfulFinite.pred_some l p hp).1 hx⟩
      · exact iff_of_true trivial (LawfulFinite.min_le x)
    · rcases h6 with rfl | ⟨p, hp, rfl⟩ | ⟨rfl, rfl⟩
      · exact Iff.rfl
      · exact ⟨fun hx => not_lt.1 fun g => absurd ((LawfulFinite.succ_some u p hp).2 x g) (not_le.2 hx),
          fun hx => lt_of_le_of_lt hx (LawfulFinite.succ_some u p hp).1⟩
      · exact iff_of_true trivial (LawfulFinite.le_max x)

example : (Selection.demo [(u8 3, u8 5), (u8 9, u8 12)]).Reachable ∧
    (Selection.demo [(u8 3, u8 5), (u8 9, u8 12)]).enclose true = .ok (Interval.mkClosed (u8 3) (u8 12)) :=
  ⟨(Selection.demo_built _ (by decide)).reachable, by decide⟩

/-- The infimum of a selection is not above its supremum. -/
theorem Selection.inf_le_sup {s : Selection α} (hs : s.Reachable) {l u : α} (hl : s.infimum = some l)
    (hu : s.supremum = some u) : l ≤ u := by
  have v := Selection.reachable_valid hs
  obtain ⟨e, h, hw, b1, b2, hc⟩ := enclose_ok true v
  rw [Selection.infimum, ← b1] at hl
  rw [Selection.supremum, ← b2] at hu
  cases e <;> simp [RawInterval.lowerBound, RawInterval.upperBound, Bound.asRef] at hl hu <;> subst hl hu <;>
    first | exact le_rfl | exact le_of_lt hw

/-- So it adds no value to `enclose` exactly if the selection is empty or its infimum and supremum are its own
bounds. -/
theorem C61_closure_any_iff (dbg : Bool) (s : Selection α) (hs : s.Reachable) :
    (∃ e c, s.enclose dbg = .ok e ∧ s.closure dbg = .ok c ∧ e.pts = c.pts) ↔
      s.isEmpty = true ∨ ((∀ l, s.infimum = some l → s.lowerBound dbg = .ok (some (.incl l))) ∧
        ∀ u, s.supremum = some u → s.upperBound dbg = .ok (some (.incl u))) := by
  have v := Selection.reachable_valid hs
  obtain ⟨e, h, hw, b1, b2, hc⟩ := enclose_ok dbg v
  have hp : (⟨e.closure.normalized⟩ : Interval α).pts = {x | e.closure.contains x = true} :=
    Selection.run_pts e.closure
  have hp' : (⟨e.normalized⟩ : Interval α).pts = {x | e.contains x = true} := Selection.run_pts e
  have hen : s.enclose dbg = .ok ⟨e.normalized⟩ := by rw [Selection.enclose, h]; rfl
  have hcl : s.closure dbg = .ok ⟨e.closure.normalized⟩ := by
    rw [Selection.closure, TineTree.closure, h]; rfl
  rw [hen, hcl]
  simp only [Except.ok.injEq, exists_and_left, exists_eq_left', hp, hp']
  have hcl : ({x | e.contains x = true} : Set α) = {x | e.closure.contains x = true} ↔
      (∀ p, e.lowerBound ≠ some (.excl p)) ∧ ∀ p, e.upperBound ≠ some (.excl p) := by
    rw [Set.ext_iff]
    simp only [Set.mem_ofPred_eq]
    constructor
    · intro H
      constructor <;> intro p hp
      · have := H p
        cases e <;> cases hp <;> simp [RawInterval.closure, RawInterval.contains] at this <;>
          exact absurd this (not_lt.2 (le_of_lt hw))
      · have := H p
        cases e <;> cases hp <;> simp [RawInterval.closure, RawInterval.contains] at this <;>
          exact absurd this (not_lt.2 (le_of_lt hw))
    · rintro ⟨g1, g2⟩ x
      cases e <;> first | rfl | exact absurd rfl (g1 _) | exact absurd rfl (g2 _)
  rw [hcl, b1, b2, Selection.lowerBound_eq dbg v, Selection.upperBound_eq dbg v, Selection.infimum, Selection.supremum]
  obtain ⟨t1, t2⟩ := Selection.tree_bounds v
  rw [t1, t2]
  cases hh : (pieces none s.tree).head? with
  | none =>
    have : pieces none s.tree = [] := by cases h : pieces none s.tree <;> simp_all
    rw [this]
    have := Selection.tree_nil v this
    refine iff_of_true (by simp) (.inl ?_)
    rw [Selection.isEmpty_iff]
    cases s; cases this; rfl
  | some r =>
    have hr := List.mem_of_head? hh
    obtain ⟨r', hr'⟩ : ∃ j, (pieces none s.tree).getLast? = some j := by
      cases h : pieces none s.tree with
      | nil => rw [h] at hh; cases hh
      | cons a L => exact ⟨_, List.getLast?_cons⟩
    have hne : s.isEmpty = false := by
      rw [← Bool.not_eq_true, Selection.isEmpty_iff]
      rintro rfl
      cases hh
    obtain ⟨l, -, lb, -, h1, -, h2, -, h3, -⟩ := Selection.run_ends' hs hr
    obtain ⟨-, u, -, ub, -, h4, -, h5, -, h6⟩ := Selection.run_ends' hs (List.mem_of_getLast? hr')
    rw [hr']
    simp only [Option.bind_some, h2, h5, Option.map_some, hne, Bool.false_eq_true, false_or, h1, h4]
    have A : (∀ p, some lb ≠ some (.excl p)) ↔
        ∀ p, lb.asRef = some p → (Except.ok (some (Bound.incl l)) : Except Panic _) = .ok (some (.incl p)) := by
      rcases h3 with rfl | ⟨p, hp, rfl⟩ | ⟨rfl, -⟩
      · simp [Bound.asRef]
      · have := (LawfulFinite.pred_some l p hp).1
        simp [Bound.asRef, this.ne']
      · simp [Bound.asRef]
    have B : (∀ p, some ub ≠ some (.excl p)) ↔
        ∀ p, ub.asRef = some p → (Except.ok (some (Bound.incl u)) : Except Panic _) = .ok (some (.incl p)) := by
      rcases h6 with rfl | ⟨p, hp, rfl⟩ | ⟨rfl, -⟩
      · simp [Bound.asRef]
      · have := (LawfulFinite.succ_some u p hp).1
        simp [Bound.asRef, this.ne]
      · simp [Bound.asRef]
    exact and_congr A B

/-- As the complement of 0..2 and 9..255 the selection 3..8 has the closure 3..8, and 2..9 if made from an interval. -/
example : ((Selection.demo [(u8 0, u8 2), (u8 9, u8 255)]).complement true >>= (Selection.closure true ·)) =
      .ok (Interval.mkClosed (u8 3) (u8 8)) ∧
    (Selection.demo [(u8 3, u8 8)]).closure true = .ok (Interval.mkClosed (u8 2) (u8 9)) := by decide

end NI
