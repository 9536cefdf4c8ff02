import Verif.Props.StripSwap

/-!
# C53: `minus` of two selections of any history, in terms of what a caller can see
-/

set_option linter.unusedVariables false
set_option linter.unusedSectionVars false

namespace NI
open _root_.NI.Finite TT
variable {α : Type} [LinearOrder α] [Finite α] [LawfulFinite α]

theorem Strip.remove_val (p : Strip α) (i : Interval α) (x : α) : (p.remove i).val x = (p.val x && !i.contains x || p.hole x && i.beside x) := rfl
theorem Strip.remove_joint (p : Strip α) (i : Interval α) (x : α) : (p.remove i).joint x = (p.joint x && !i.joins x) := rfl
theorem Strip.add_val (p : Strip α) (i : Interval α) (x : α) : (p.add i).val x = (p.val x || i.contains x) := rfl
theorem Strip.add_joint (p : Strip α) (i : Interval α) (x : α) : (p.add i).joint x = (p.joint x || i.joins x) := rfl

/-- Two selections are the same exactly if their strips are. -/
theorem Strip.Of.eq_iff {p q : Strip α} {s t : Selection α} (h : p.Of s) (g : q.Of t) : s = t ↔
    (∀ x, p.val x = q.val x) ∧ ∀ x, p.joint x = q.joint x := by
  constructor
  · rintro rfl
    rw [h.unique g]; exact ⟨fun _ => rfl, fun _ => rfl⟩
  · rintro ⟨h1, h2⟩
    have : p = q := congrArg₂ Strip.mk (funext h1) (funext h2)
    subst this
    exact h.determines g

theorem Interval.point_joins (x z : α) : (Interval.point x).joins z = true ↔ (z = x ∧ (succ x).isSome = true) ∨ succ z = some x := by
  rw [Interval.joins]
  cases hs : succ z with
  | none =>
    simp only [Bool.false_eq_true, reduceCtorEq, or_false, false_iff]
    rintro ⟨rfl, h⟩
    rw [hs] at h; cases h
  | some y =>
    have hy := (LawfulFinite.succ_some z y hs).1
    simp only [Interval.contains, Interval.point, RawInterval.contains, Interval.lowerBound, Interval.upperBound, RawInterval.lowerBound,
      RawInterval.upperBound, Option.some.injEq, Bound.incl.injEq, Bool.or_eq_true, Bool.and_eq_true, decide_eq_true_eq]
    constructor
    · rintro ((h | h) | ⟨h1, h2⟩)
      · subst h; exact .inl ⟨rfl, by rw [hs]; rfl⟩
      · exact .inr h
      · exact .inr h1.symm
    · rintro (⟨rfl, -⟩ | rfl)
      · exact .inl (.inl rfl)
      · exact .inl (.inr rfl)

theorem Interval.point_beside (x z : α) : (Interval.point x).beside z = true ↔ succ z = some x ∨ pred z = some x := by
  simp only [Interval.beside, Interval.point, Interval.lowerBound, Interval.upperBound, RawInterval.lowerBound,
      RawInterval.upperBound, Option.some.injEq, Bound.incl.injEq, Bool.or_eq_true, Option.any_eq_true, decide_eq_true_eq]
  grind

theorem Interval.point_contains (x z : α) : (Interval.point x).contains z = true ↔ z = x := by
  simp [Interval.contains, Interval.point, RawInterval.contains, eq_comm]

/-- Removing a value changes nothing exactly if it is not in and not joined to its neighbours. -/
theorem Strip.Of.remove_point (dbg : Bool) {p : Strip α} {s : Selection α} (h : p.Of s) (x : α) :
    s.minusInPlace dbg (.point x) = .ok s ↔ p.val x = false ∧ p.joint x = false ∧ (pred x).any p.joint = false := by
  obtain ⟨s', e, h'⟩ := h.remove dbg (.point x)
  rw [e, Except.ok.injEq, h'.eq_iff h]
  constructor
  · rintro ⟨h1, h2⟩
    have hv : p.val x = false := by
      have := h1 x
      cases hv : p.val x with
      | false => rfl
      | true => simp [Strip.remove_val, Strip.hole, hv, (Interval.point_contains x x).2 rfl] at this
    refine ⟨hv, ?_, ?_⟩
    · cases hs : succ x with
      | none => exact h.2.2.2 x hs
      | some y =>
        have := h2 x
        rw [Strip.remove_joint, (Interval.point_joins x x).2 (.inl ⟨rfl, by rw [hs]; rfl⟩)] at this
        rw [← this]; simp
    · cases hp : pred x with
      | none => rfl
      | some y =>
        have := h2 y
        rw [Strip.remove_joint, (Interval.point_joins x y).2 (.inr (pred_eq_iff.1 hp))] at this
        rw [Option.any_some, ← this]; simp
  · rintro ⟨hv, hj, hq⟩
    have kj : ∀ z, (Interval.point x).joins z = true → p.joint z = false := fun z hz => by
      rcases (Interval.point_joins x z).1 hz with ⟨rfl, -⟩ | hz
      · exact hj
      · rw [pred_eq_iff.2 hz] at hq; exact hq
    refine ⟨fun z => ?_, fun z => ?_⟩
    · have hh : (p.hole z && (Interval.point x).beside z) = false := by
        cases hb : (Interval.point x).beside z with
        | false => simp
        | true =>
          rcases (Interval.point_beside x z).1 hb with hz | hz
          · simp [Strip.hole, kj z ((Interval.point_joins x z).2 (.inr hz))]
          · simp [Strip.hole, hz, hj]
      rw [Strip.remove_val, hh, Bool.or_false]
      cases hc : (Interval.point x).contains z with
      | false => simp
      | true => rw [(Interval.point_contains x z).1 hc, hv]; rfl
    · rw [Strip.remove_joint]
      cases hc : (Interval.point x).joins z with
      | false => simp
      | true => rw [kj z hc]; rfl

/-- Adding a value changes nothing exactly if it is in and joined to its neighbours. -/
theorem Strip.Of.add_point (dbg : Bool) {p : Strip α} {s : Selection α} (h : p.Of s) (x : α) :
    s.unionInPlace dbg (.point x) = .ok s ↔
      p.val x = true ∧ ((succ x).isSome = true → p.joint x = true) ∧ ∀ y, pred x = some y → p.joint y = true := by
  obtain ⟨s', e, h'⟩ := h.add dbg (.point x)
  rw [e, Except.ok.injEq, h'.eq_iff h]
  constructor
  · rintro ⟨h1, h2⟩
    refine ⟨?_, fun hs => ?_, fun y hy => ?_⟩
    · rw [← h1 x, Strip.add_val, (Interval.point_contains x x).2 rfl]; simp
    · rw [← h2 x, Strip.add_joint, (Interval.point_joins x x).2 (.inl ⟨rfl, hs⟩)]; simp
    · rw [← h2 y, Strip.add_joint, (Interval.point_joins x y).2 (.inr (pred_eq_iff.1 hy))]; simp
  · rintro ⟨hv, hj, hq⟩
    refine ⟨fun z => ?_, fun z => ?_⟩
    · rw [Strip.add_val]
      cases hc : (Interval.point x).contains z with
      | false => simp
      | true => rw [(Interval.point_contains x z).1 hc, hv]; rfl
    · rw [Strip.add_joint]
      cases hc : (Interval.point x).joins z with
      | false => simp
      | true =>
        rcases (Interval.point_joins x z).1 hc with ⟨rfl, hs⟩ | hz
        · rw [hj hs]; rfl
        · rw [hq z (pred_eq_iff.2 hz)]; rfl

/-- A value is an edge exactly if both removing and adding it changes the selection. -/
theorem Strip.Of.edge_point (dbg : Bool) {p : Strip α} {s : Selection α} (h : p.Of s) (x : α) :
    p.edge x = true ↔ s.minusInPlace dbg (.point x) ≠ .ok s ∧ s.unionInPlace dbg (.point x) ≠ .ok s := by
  rw [Ne, Ne, h.remove_point, h.add_point, Strip.edge]
  have := h.2.2.2 x
  cases hs : succ x <;> cases hp : pred x <;> cases hv : p.val x <;> cases hj : p.joint x <;> simp_all

/-- A value is listed as a point exactly if it is in and joined to neither side. -/
theorem Strip.Of.lone {q : Strip α} {t : Selection α} (dbg : Bool) (g : q.Of t) (x : α) (is : List (Interval α))
    (e : t.intervals dbg = .ok is) : Interval.point x ∈ is ↔ q.flip.hole x = true := by
  obtain ⟨c, e1, g1⟩ := g.flip dbg
  obtain ⟨t', e2, g2⟩ := g1.flip dbg
  have : t' = t := (g2.eq_iff g).2 ⟨fun x => by simp [Strip.flip], fun x => by
    have := g.2.2.2 x
    cases hs : succ x <;> simp_all [Strip.flip]⟩
  subst this
  rw [← g1.hole, ← Selection.pinhole_iff dbg (Selection.reachable_valid g1.1)]
  constructor
  · exact fun h => ⟨t', is, e2, e, h⟩
  · rintro ⟨d, ds, h1, h2, h3⟩
    rw [e2] at h1; cases h1
    rw [e] at h2; cases h2; exact h3

/-- **C53.**  What `minus` does for selections of any history, in what a caller can see: suppose each value the right one lists as
a point is in the left one, or removing it from the left one changes nothing.  Then `minus` does not panic, and besides the values
that should stay it has those that the complement of the left one lists as points and that the right one is changed by both adding
and removing. -/
theorem C53_formula_every (dbg : Bool) (a b : Selection α) (ha : a.Reachable) (hb : b.Reachable) (bs : List (Interval α))
    (eb : b.intervals dbg = .ok bs)
    (hc : ∀ x, Interval.point x ∈ bs → x ∈ a.pts dbg ∨ a.minusInPlace dbg (.point x) = .ok a) :
    ∃ s, a.minus dbg b = .ok s ∧ s.Reachable ∧ ∀ x, x ∈ s.pts dbg ↔ (x ∈ a.pts dbg ∧ x ∉ b.pts dbg) ∨
      (a.Pinhole dbg x ∧ b.minusInPlace dbg (.point x) ≠ .ok b ∧ b.unionInPlace dbg (.point x) ≠ .ok b) := by
  have h := Strip.ofTree_of ha
  have g := Strip.ofTree_of hb
  generalize Strip.ofTree a = p at h
  generalize Strip.ofTree b = q at g
  have va := Selection.reachable_valid ha
  have vb := Selection.reachable_valid hb
  obtain ⟨s, e, k⟩ := h.minus dbg g fun x hx => by
    rcases hc x ((g.lone dbg x bs eb).2 hx) with hx | hx
    · rw [Selection.mem_pts dbg va, h.2.1] at hx; exact .inl hx
    · exact .inr ((h.remove_point dbg x).1 hx).2
  refine ⟨s, e, k.1, fun x => ?_⟩
  rw [Selection.mem_pts dbg (Selection.reachable_valid k.1), Selection.mem_pts dbg va, Selection.mem_pts dbg vb, k.2.1, h.2.1, g.2.1,
    Selection.pinhole_iff dbg va, h.hole, ← g.edge_point, Strip.minus]
  simp

/-- The complement of `{2, 4}` lists 3 as a point; it is removed from everything. -/
example : ∃ b bs, (Selection.demo [(u8 2, u8 2), (u8 4, u8 4)]).complement true = .ok b ∧ b.Reachable ∧ b.intervals true = .ok bs ∧
    Interval.point (u8 3) ∈ bs ∧
    (∀ x, Interval.point x ∈ bs → x ∈ (Selection.full : Selection U8).pts true ∨ (Selection.full : Selection U8).minusInPlace true (.point x) = .ok .full) ∧
    (do (← (Selection.full : Selection U8).minus true b).intervals true) = .ok [⟨.closed (u8 2) (u8 2)⟩, ⟨.closed (u8 4) (u8 4)⟩] := by
  refine ⟨_, _, rfl, .complement (dbg := true) (Selection.demo_built [(u8 2, u8 2), (u8 4, u8 4)] (by decide)).reachable rfl, rfl, by decide, fun x _ => .inl ?_, by decide⟩
  rw [Selection.mem_pts true (Selection.reachable_valid Strip.of_full.1)]
  exact Strip.of_full.2.1 x

/-- **C53.**  So it is right exactly if no value that the complement of the left one lists as a point changes the right one both
when added and when removed. -/
theorem C53_exact_every (dbg : Bool) (a b : Selection α) (ha : a.Reachable) (hb : b.Reachable) (bs : List (Interval α))
    (eb : b.intervals dbg = .ok bs)
    (hc : ∀ x, Interval.point x ∈ bs → x ∈ a.pts dbg ∨ a.minusInPlace dbg (.point x) = .ok a) :
    (∃ s, a.minus dbg b = .ok s ∧ s.pts dbg = a.pts dbg \ b.pts dbg) ↔
      ∀ x, a.Pinhole dbg x → b.minusInPlace dbg (.point x) = .ok b ∨ b.unionInPlace dbg (.point x) = .ok b := by
  obtain ⟨s, e, -, k⟩ := C53_formula_every dbg a b ha hb bs eb hc
  constructor
  · rintro ⟨s', e', h⟩ x hx
    rw [e] at e'; cases e'
    have hn := C73_pinhole dbg a ha x hx
    have := k x
    rw [h, Set.mem_sdiff] at this
    by_contra hh
    rw [not_or] at hh
    exact hn (this.2 (.inr ⟨hx, hh⟩)).1
  · refine fun h => ⟨s, e, Set.ext fun x => ?_⟩
    rw [k, Set.mem_sdiff]
    have := h x
    constructor
    · rintro (h | ⟨h1, h2, h3⟩)
      · exact h
      · rcases this h1 with h | h <;> contradiction
    · exact .inl

end NI
