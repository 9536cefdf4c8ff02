import Verif.Lemmas.Backward
import Verif.Props.Pinhole

/-! # Reverse iteration of selections of any history -/

set_option linter.unusedSimpArgs false
set_option linter.unusedVariables false
set_option linter.unusedSectionVars false

namespace NI
open _root_.NI.Finite TT

variable {α : Type} [LinearOrder α] [Finite α] [LawfulFinite α]

/-- One value is missing between the run `b` and `a`, which follows it, and that as `Interval::point` in the intervals of the
complement (C73). -/
def Selection.ApartBy (dbg : Bool) (s : Selection α) (a b : Interval α) : Prop :=
  ∃ x, s.Pinhole dbg x ∧ (∃ l, succ x = some l ∧ a.lowerBound = some (.incl l)) ∧
    ∃ u, pred x = some u ∧ b.upperBound = some (.incl u)

theorem Selection.good_lower {i : RawInterval α} (g : Selection.Good i) {x : α} (h : i.lowerBound = some (.excl x)) :
    ∃ l, succ x = some l ∧ i.contains l = true ∧ (Selection.run i).lowerBound = some (.incl l) := by
  obtain ⟨l', u', hlu, hp, h1, h2, h3⟩ := g.cases
  obtain ⟨hw, y, hy⟩ := g
  obtain ⟨lo, up, e1, e2, g1, g2⟩ := (RawInterval.contains_iff_bounds _ y).1 hy
  rw [h] at e1; cases e1
  obtain ⟨l, hl⟩ := succ_some_of_lt (show x < y from g1)
  have hs := LawfulFinite.succ_some _ _ hl
  have hly := hs.2 y g1
  have mem : ∀ z, i.contains z = true ↔ l' ≤ z ∧ z ≤ u' := fun z => by
    have := Set.ext_iff.1 hp z
    rw [Selection.run_pts] at this
    exact this
  have hy' := (mem y).1 hy
  have hl' := (mem l').2 ⟨le_refl _, hlu⟩
  obtain ⟨lo', up', e1', e2', g1', g2'⟩ := (RawInterval.contains_iff_bounds _ l').1 hl'
  rw [h] at e1'; cases e1'
  have e : l' = l := by
    refine le_antisymm ?_ (hs.2 _ g1')
    by_contra hc
    have hlt : l < l' := not_le.1 hc
    have : i.contains l = true := by
      rw [RawInterval.contains_iff_bounds]
      refine ⟨_, _, h, e2, hs.1, ?_⟩
      cases up with
      | incl v => exact le_trans hly g2
      | excl v => exact lt_of_le_of_lt hly g2
      | inf => trivial
    exact absurd ((mem l).1 this).1 (not_le.2 hlt)
  subst e
  exact ⟨_, hl, hl', h1⟩

theorem Selection.good_upper {i : RawInterval α} (g : Selection.Good i) {x : α} (h : i.upperBound = some (.excl x)) :
    ∃ u, pred x = some u ∧ i.contains u = true ∧ (Selection.run i).upperBound = some (.incl u) := by
  obtain ⟨l', u', hlu, hp, h1, h2, h3⟩ := g.cases
  obtain ⟨hw, y, hy⟩ := g
  obtain ⟨lo, up, e1, e2, g1, g2⟩ := (RawInterval.contains_iff_bounds _ y).1 hy
  rw [h] at e2; cases e2
  obtain ⟨l, hl⟩ := pred_some_of_lt (show y < x from g2)
  have hs := LawfulFinite.pred_some _ _ hl
  have hly := hs.2 y g2
  have mem : ∀ z, i.contains z = true ↔ l' ≤ z ∧ z ≤ u' := fun z => by
    have := Set.ext_iff.1 hp z
    rw [Selection.run_pts] at this
    exact this
  have hy' := (mem y).1 hy
  have hl' := (mem u').2 ⟨hlu, le_refl _⟩
  obtain ⟨lo', up', e1', e2', g1', g2'⟩ := (RawInterval.contains_iff_bounds _ u').1 hl'
  rw [h] at e2'; cases e2'
  have e : u' = l := by
    refine le_antisymm (hs.2 _ g2') ?_
    by_contra hc
    have hlt : u' < l := not_le.1 hc
    have : i.contains l = true := by
      rw [RawInterval.contains_iff_bounds]
      refine ⟨_, _, e1, h, ?_, hs.1⟩
      cases lo with
      | incl v => exact le_trans g1 hly
      | excl v => exact lt_of_lt_of_le g1 hly
      | inf => trivial
    exact absurd ((mem l).1 this).2 (not_le.2 hlt)
  subst e
  exact ⟨_, hl, hl', h2⟩

theorem Selection.inc_unique : ∀ {l : List (RawInterval α)}, Selection.Inc l → ∀ {i j : RawInterval α}, i ∈ l → j ∈ l →
    ∀ {x : α}, i.contains x = true → j.contains x = true → i = j
  | [], _, _, _, h, _, _, _, _ => by cases h
  | a :: l, hl, i, j, hi, hj, x, h1, h2 => by
    obtain ⟨p1, p2⟩ := List.pairwise_cons.1 hl
    rcases List.mem_cons.1 hi with rfl | hi' <;> rcases List.mem_cons.1 hj with rfl | hj'
    · rfl
    · exact absurd (p1 j hj' x x h1 h2) (lt_irrefl _)
    · exact absurd (p1 i hi' x x h2 h1) (lt_irrefl _)
    · exact Selection.inc_unique p2 hi' hj' h1 h2

theorem Selection.same_piece {t : TineTree α} (v : Valid t) {i j : RawInterval α} (hi : i ∈ pieces none t)
    (hj : j ∈ pieces none t) {x : α} (h1 : i.contains x = true) (h2 : j.contains x = true) : i = j :=
  Selection.inc_unique (Selection.pieces_inc v) hi hj h1 h2

theorem Selection.apartBy_run (dbg : Bool) {s : Selection α} (v : Valid s.tree)
    (hg : ∀ i ∈ pieces none s.tree, Selection.Good i) {i j : RawInterval α} (hi : i ∈ pieces none s.tree)
    (hj : j ∈ pieces none s.tree) : s.ApartBy dbg (Selection.run i) (Selection.run j) ↔ i.joined j = true := by
  have hjo : i.joined j = true ↔ ∃ x, j.upperBound = some (.excl x) ∧ i.lowerBound = some (.excl x) := by
    rw [RawInterval.joined]
    split
    · rename_i x y e1 e2
      rw [e1, e2]
      simp
      exact eq_comm
    · rename_i h
      simp only [Bool.false_eq_true, false_iff, not_exists, not_and]
      intro x h1 h2
      exact h x x h1 h2
  rw [hjo]
  constructor
  · rintro ⟨x, hx, ⟨l, hl, h1⟩, u, hu, h2⟩
    rw [Selection.pinhole_iff dbg v, holeAt] at hx
    simp only [Bool.and_eq_true, Bool.not_eq_true'] at hx
    obtain ⟨j', hj', e1⟩ := (open_upper_iff v x).2 ⟨by tauto, by tauto⟩
    obtain ⟨i', hi', e2⟩ := (open_lower_iff v x).2 ⟨by tauto, by tauto⟩
    obtain ⟨l2, k1, k2, k3⟩ := Selection.good_lower (hg i' hi') e2
    obtain ⟨u2, m1, m2, m3⟩ := Selection.good_upper (hg j' hj') e1
    rw [hl] at k1; cases k1
    rw [hu] at m1; cases m1
    refine ⟨x, ?_, ?_⟩
    · obtain ⟨a, b, hab, hp, q1, q2, q3⟩ := (hg j hj).cases
      rw [h2] at q2; cases q2
      have : j.contains u = true := by
        have := (Set.ext_iff.1 hp u).2 ⟨hab, le_refl _⟩
        rw [Selection.run_pts] at this; exact this
      rw [Selection.same_piece v hj hj' this m2, e1]
    · obtain ⟨a, b, hab, hp, q1, q2, q3⟩ := (hg i hi).cases
      rw [h1] at q1; cases q1
      have : i.contains l = true := by
        have := (Set.ext_iff.1 hp l).2 ⟨le_refl _, hab⟩
        rw [Selection.run_pts] at this; exact this
      rw [Selection.same_piece v hi hi' this k2, e2]
  · rintro ⟨x, h1, h2⟩
    obtain ⟨l2, k1, k2, k3⟩ := Selection.good_lower (hg i hi) h2
    obtain ⟨u2, m1, m2, m3⟩ := Selection.good_upper (hg j hj) h1
    refine ⟨x, ?_, ⟨_, k1, k3⟩, _, m1, m3⟩
    rw [Selection.pinhole_iff dbg v, holeAt]
    have a1 := (open_upper_iff v x).1 ⟨j, hj, h1⟩
    have a2 := (open_lower_iff v x).1 ⟨i, hi, h2⟩
    rw [a1.1, a1.2, a2.2]; rfl

end NI
