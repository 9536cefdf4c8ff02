import Verif.SpecApart
import Verif.Props.Within

/-! # Asking whether two selections have no value in common (C128) -/

namespace NI
open _root_.NI.Finite TT
variable {α : Type} [LinearOrder α] [Finite α] [LawfulFinite α]

omit [LawfulFinite α] in
/-- Trees that look alike around each value are equal. -/
theorem TT.looks_ext {t t' : TineTree α} (v : Valid t) (v' : Valid t') {f g : α → Spot} (h : ∀ x, Looks t x (f x))
    (h' : ∀ x, Looks t' x (g x)) (hb : ∀ x, (f x).before ↔ (g x).before) (hh : ∀ x, (f x).here ↔ (g x).here)
    (ha : ∀ x, (f x).after ↔ (g x).after) : t = t' := by
  have : Nonempty α := ⟨minimum⟩
  refine valid_ext_views v v' (fun x => ?_) (fun x => ?_) (fun x => ?_) <;> rw [Bool.eq_iff_iff]
  exacts [(h x).2.1.trans ((hh x).trans (h' x).2.1.symm), (h x).1.trans ((hb x).trans (h' x).1.symm),
    (h x).2.2.trans ((ha x).trans (h' x).2.2.symm)]

omit [LinearOrder α] [LawfulFinite α] in
theorem Touching.symm {A B : Set α} (h : Touching A B) : Touching B A := by
  obtain ⟨x, hx, y, hy, h⟩ := h
  exact ⟨y, hy, x, hx, h.elim (fun h => .inl h.symm) fun h => h.elim (fun h => .inr (.inr h)) fun h => .inr (.inl h)⟩

/-- Around each value at most one of two sets is found exactly if they do not touch. -/
theorem Spot.apart {A B : Set α} : ¬ Touching A B ↔ ∀ x,
    ¬ ((Spot.of A x).before ∧ (Spot.of B x).before) ∧ ¬ ((Spot.of A x).here ∧ (Spot.of B x).here) ∧
      ¬ ((Spot.of A x).after ∧ (Spot.of B x).after) := by
  constructor
  · intro ht x
    have no : ∀ x ∈ A, ∀ y ∈ B, ¬ (x = y ∨ succ x = some y ∨ succ y = some x) := fun x hx y hy h => ht ⟨x, hx, y, hy, h⟩
    refine ⟨?_, fun h => no x h.1 x h.2 (.inl rfl), ?_⟩
    · rintro ⟨h | ⟨p, h, e⟩, h' | ⟨p', h', e'⟩⟩
      · exact no x h x h' (.inl rfl)
      · exact no x h p' h' (.inr (.inr (pred_eq_iff.1 e')))
      · exact no p h x h' (.inr (.inl (pred_eq_iff.1 e)))
      · rw [e] at e'; cases e'
        exact no p h p h' (.inl rfl)
    · rintro ⟨h | ⟨p, h, e⟩, h' | ⟨p', h', e'⟩⟩
      · exact no x h x h' (.inl rfl)
      · exact no x h p' h' (.inr (.inl e'))
      · exact no p h x h' (.inr (.inr e))
      · rw [e] at e'; cases e'
        exact no p h p h' (.inl rfl)
  · rintro h ⟨x, hx, y, hy, e⟩
    rcases e with rfl | e | e
    · exact (h x).2.1 ⟨hx, hy⟩
    · exact (h x).2.2 ⟨.inl hx, .inr ⟨y, hy, e⟩⟩
    · exact (h x).1 ⟨.inl hx, .inr ⟨y, hy, pred_eq_iff.2 e⟩⟩

theorem Selection.built_looks (dbg : Bool) {a : Selection α} (ha : a.UnionBuilt) (x : α) :
    Looks a.tree x (Spot.of (a.pts dbg) x) :=
  DO.looks ha.do x fun y => (Selection.mem_pts dbg (Selection.reachable_valid ha.reachable) y).symm

/-- Interval by interval: right for selections of any history. -/
theorem C128_intervals (dbg : Bool) (a b : Selection α) (ha : a.Reachable) (hb : b.Reachable) :
    ∃ r, a.apartByIntervals dbg b = .ok r ∧ (r = true ↔ ¬ Overlapping (a.pts dbg) (b.pts dbg)) := by
  obtain ⟨as, e1, o1, -, c1⟩ := C56_cover_partial dbg a ha
  obtain ⟨bs, e2, o2, -, c2⟩ := C56_cover_partial dbg b hb
  refine ⟨_, by rw [Selection.apartByIntervals, e1, e2]; rfl, ?_⟩
  rw [Bool.not_eq_true', ← Bool.not_eq_true, not_iff_not, List.any_eq_true]
  constructor
  · rintro ⟨i, hi, h⟩
    obtain ⟨j, hj, h⟩ := List.any_eq_true.1 h
    obtain ⟨x, h1, h2⟩ := (C29_intersects i j (o1 i hi) (o2 j hj)).1 h
    exact ⟨x, (c1 x).2 ⟨i, hi, h1⟩, (c2 x).2 ⟨j, hj, h2⟩⟩
  · rintro ⟨x, h1, h2⟩
    obtain ⟨i, hi, h1⟩ := (c1 x).1 h1
    obtain ⟨j, hj, h2⟩ := (c2 x).1 h2
    exact ⟨i, hi, List.any_eq_true.2 ⟨j, hj, (C29_intersects i j (o1 i hi) (o2 j hj)).2 ⟨x, h1, h2⟩⟩⟩

example : (Selection.demo [(u8 0, u8 1), (u8 5, u8 5)]).Reachable ∧ (Selection.demo [(u8 6, u8 7)]).Reachable ∧
    (Selection.demo [(u8 0, u8 1), (u8 5, u8 5)]).apartByIntervals true (Selection.demo [(u8 6, u8 7)]) = .ok true ∧
    (Selection.demo [(u8 0, u8 1), (u8 6, u8 6)]).apartByIntervals true (Selection.demo [(u8 6, u8 7)]) = .ok false :=
  ⟨(Selection.demo_built _ (by decide)).reachable, (Selection.demo_built _ (by decide)).reachable, by decide, by decide⟩

/-- `a.minus(&b) == a`: for selections built by unions, true exactly if there is a gap between any value of the one and
any of the other. -/
theorem C128_minus (dbg : Bool) (a b : Selection α) (ha : a.UnionBuilt) (hb : b.UnionBuilt) :
    ∃ r, a.apartByMinus dbg b = .ok r ∧ (r = true ↔ ¬ Touching (a.pts dbg) (b.pts dbg)) := by
  have va := Selection.reachable_valid ha.reachable
  obtain ⟨s', e, v', k⟩ := Selection.step_looks dbg va (c := .minus b) hb
  have e' : a.minus dbg b = .ok s' := by simpa [Selection.steps] using e
  refine ⟨_, by rw [Selection.apartByMinus, e']; rfl, ?_⟩
  have la := Selection.built_looks dbg ha
  have l1 := fun x => k x _ (la x)
  simp only [Spot.step] at l1
  rw [decide_eq_true_eq, Spot.apart]
  constructor
  · rintro rfl x
    have a1 := l1 x
    have a0 := la x
    exact ⟨fun h => (a1.1.1 (a0.1.2 h.1)).2 h.2, fun h => (a1.2.1.1 (a0.2.1.2 h.1)).1 h.2,
      fun h => (a1.2.2.1 (a0.2.2.2 h.1)).2 h.2⟩
  · intro h
    have : s'.tree = a.tree := by
      refine TT.looks_ext v' va l1 la (fun x => ?_) (fun x => ?_) (fun x => ?_)
      · exact ⟨fun g => g.1, fun g => ⟨g, fun g' => (h x).1 ⟨g, g'⟩⟩⟩
      · refine ⟨?_, fun g => ⟨fun g' => (h x).2.1 ⟨g, g'⟩, .inl g⟩⟩
        rintro ⟨-, g | ⟨g1, g2, g | g⟩⟩
        exacts [g, absurd ⟨g1, g⟩ (h x).1, absurd ⟨g2, g⟩ (h x).2.2]
      · exact ⟨fun g => g.1, fun g => ⟨g, fun g' => (h x).2.2 ⟨g, g'⟩⟩⟩
    cases s'; cases a; exact congrArg Selection.mk this

/-- 0 to 1 and 4 are apart from 6 to 7, and so are 0 to 1 and 5, but that is denied. -/
example : (Selection.demo [(u8 0, u8 1), (u8 4, u8 4)]).UnionBuilt ∧ (Selection.demo [(u8 6, u8 7)]).UnionBuilt ∧
    (Selection.demo [(u8 0, u8 1), (u8 4, u8 4)]).apartByMinus true (Selection.demo [(u8 6, u8 7)]) = .ok true ∧
    (Selection.demo [(u8 0, u8 1), (u8 5, u8 5)]).apartByMinus true (Selection.demo [(u8 6, u8 7)]) = .ok false ∧
    (Selection.demo [(u8 0, u8 1), (u8 6, u8 6)]).apartByMinus true (Selection.demo [(u8 6, u8 7)]) = .ok false :=
  ⟨Selection.demo_built _ (by decide), Selection.demo_built _ (by decide), by decide, by decide, by decide⟩

/-- `a.union(&b.complement()) == b.complement()`: true only if there is no value in both, whatever the history; for
selections built by unions, exactly if they do not touch. -/
theorem C128_union (dbg : Bool) (a b : Selection α) (ha : a.Reachable) (hb : b.Reachable) :
    ∃ r, a.apartByUnion dbg b = .ok r ∧ (r = true → ¬ Overlapping (a.pts dbg) (b.pts dbg)) ∧
      (a.UnionBuilt → b.UnionBuilt → (r = true ↔ ¬ Touching (a.pts dbg) (b.pts dbg))) := by
  have va := Selection.reachable_valid ha
  have vb := Selection.reachable_valid hb
  obtain ⟨c, ec, vc, kc⟩ := Selection.complement_ok dbg vb
  obtain ⟨u, eu, vu, ku⟩ := Selection.union_ok dbg va vc
  refine ⟨_, by rw [Selection.apartByUnion, ec]; simp only [bind, Except.bind]; rw [eu]; rfl, fun h => ?_,
    fun ua ub => ?_⟩
  · rw [decide_eq_true_eq] at h
    rintro ⟨x, hx, hx'⟩
    rw [Selection.mem_pts dbg va] at hx
    rw [Selection.mem_pts dbg vb] at hx'
    have := ku false (.fin x)
    rw [h, show tcov a.tree false (.fin x) = true from hx, Bool.true_or, kc _ _ ⟨by simp, by simp⟩,
      show tcov b.tree false (.fin x) = true from hx'] at this
    cases this
  · have la := Selection.built_looks dbg ua
    have lc := fun x => (Selection.built_looks dbg ub x).not kc
    have lu := fun x => (la x).add (lc x) ku
    rw [decide_eq_true_eq, Spot.apart]
    constructor
    · rintro rfl x
      exact ⟨fun h => (lc x).1.1 ((lu x).1.2 (.inl h.1)) h.2, fun h => (lc x).2.1.1 ((lu x).2.1.2 (.inl h.1)) h.2,
        fun h => (lc x).2.2.1 ((lu x).2.2.2 (.inl h.1)) h.2⟩
    · intro h
      have : u.tree = c.tree := TT.looks_ext vu vc lu lc
        (fun x => ⟨fun g => g.elim (fun g g' => (h x).1 ⟨g, g'⟩) id, .inr⟩)
        (fun x => ⟨fun g => g.elim (fun g g' => (h x).2.1 ⟨g, g'⟩) id, .inr⟩)
        (fun x => ⟨fun g => g.elim (fun g g' => (h x).2.2 ⟨g, g'⟩) id, .inr⟩)
      cases u; cases c; exact congrArg Selection.mk this

/-- 0 to 1 and 4 are apart from 6 to 7, and so are 0 to 1 and 5, but that is denied. -/
example : (Selection.demo [(u8 0, u8 1), (u8 4, u8 4)]).UnionBuilt ∧ (Selection.demo [(u8 6, u8 7)]).UnionBuilt ∧
    (Selection.demo [(u8 0, u8 1), (u8 4, u8 4)]).apartByUnion true (Selection.demo [(u8 6, u8 7)]) = .ok true ∧
    (Selection.demo [(u8 0, u8 1), (u8 5, u8 5)]).apartByUnion true (Selection.demo [(u8 6, u8 7)]) = .ok false ∧
    (Selection.demo [(u8 0, u8 1), (u8 6, u8 6)]).apartByUnion true (Selection.demo [(u8 6, u8 7)]) = .ok false :=
  ⟨Selection.demo_built _ (by decide), Selection.demo_built _ (by decide), by decide, by decide, by decide⟩

/-- `a.complement().union(&b.complement()).is_full()`: likewise. -/
theorem C128_complements (dbg : Bool) (a b : Selection α) (ha : a.Reachable) (hb : b.Reachable) :
    ∃ r, a.apartByComplements dbg b = .ok r ∧ (r = true → ¬ Overlapping (a.pts dbg) (b.pts dbg)) ∧
      (a.UnionBuilt → b.UnionBuilt → (r = true ↔ ¬ Touching (a.pts dbg) (b.pts dbg))) := by
  have va := Selection.reachable_valid ha
  have vb := Selection.reachable_valid hb
  obtain ⟨d, ed, vd, kd⟩ := Selection.complement_ok dbg va
  obtain ⟨c, ec, vc, kc⟩ := Selection.complement_ok dbg vb
  obtain ⟨u, eu, vu, ku⟩ := Selection.union_ok dbg vd vc
  have ufull : (Selection.full : Selection α).UnionBuilt := .full
  have vfull := Selection.reachable_valid ufull.reachable
  have lf : ∀ x, Looks (Selection.full : Selection α).tree x ⟨True, True, True⟩ := fun x => by
    have := Selection.built_looks dbg ufull x
    rw [(C48_start dbg .empty .empty).2.1] at this
    simpa [Spot.of] using this
  refine ⟨_, by
    rw [Selection.apartByComplements, ed, ec]; simp only [bind, Except.bind]; rw [eu]; rfl, fun h => ?_, fun ua ub => ?_⟩
  · rw [Selection.isFull_iff] at h
    rintro ⟨x, hx, hx'⟩
    rw [Selection.mem_pts dbg va] at hx
    rw [Selection.mem_pts dbg vb] at hx'
    have := ku false (.fin x)
    rw [h, kd _ _ ⟨by simp, by simp⟩, kc _ _ ⟨by simp, by simp⟩, show tcov a.tree false (.fin x) = true from hx,
      show tcov b.tree false (.fin x) = true from hx'] at this
    have g : tcov (Selection.full : Selection α).tree false (.fin x) = true := (lf x).2.1.2 trivial
    rw [g] at this
    cases this
  · have ld := fun x => (Selection.built_looks dbg ua x).not kd
    have lc := fun x => (Selection.built_looks dbg ub x).not kc
    have lu := fun x => (ld x).add (lc x) ku
    rw [Selection.isFull_iff, Spot.apart]
    constructor
    · rintro rfl x
      exact ⟨fun h => ((lu x).1.1 ((lf x).1.2 trivial)).elim (· h.1) (· h.2),
        fun h => ((lu x).2.1.1 ((lf x).2.1.2 trivial)).elim (· h.1) (· h.2),
        fun h => ((lu x).2.2.1 ((lf x).2.2.2 trivial)).elim (· h.1) (· h.2)⟩
    · intro h
      have : u.tree = (Selection.full : Selection α).tree := TT.looks_ext vu vfull lu lf
        (fun x => iff_true_intro (not_and_or.1 (h x).1)) (fun x => iff_true_intro (not_and_or.1 (h x).2.1))
        (fun x => iff_true_intro (not_and_or.1 (h x).2.2))
      cases u; exact congrArg Selection.mk this

/-- 0 to 1 and 4 are apart from 6 to 7, and so are 0 to 1 and 5, but that is denied. -/
example : (Selection.demo [(u8 0, u8 1), (u8 4, u8 4)]).UnionBuilt ∧ (Selection.demo [(u8 6, u8 7)]).UnionBuilt ∧
    (Selection.demo [(u8 0, u8 1), (u8 4, u8 4)]).apartByComplements true (Selection.demo [(u8 6, u8 7)]) = .ok true ∧
    (Selection.demo [(u8 0, u8 1), (u8 5, u8 5)]).apartByComplements true (Selection.demo [(u8 6, u8 7)]) = .ok false ∧
    (Selection.demo [(u8 0, u8 1), (u8 6, u8 6)]).apartByComplements true (Selection.demo [(u8 6, u8 7)]) = .ok false :=
  ⟨Selection.demo_built _ (by decide), Selection.demo_built _ (by decide), by decide, by decide, by decide⟩

/-- `!a.intersects(&b)` and `a.intersect(&b).is_empty()` are the same, and true if the two do not touch.  Missing from
the full property: that they are true exactly if there is no value in both; false, see `C128_counterexample`. -/
theorem C128_intersects_partial (dbg : Bool) (a b : Selection α) :
    a.apartByIntersects dbg b = a.apartByIntersect dbg b ∧
    (a.UnionBuilt → b.UnionBuilt → ¬ Touching (a.pts dbg) (b.pts dbg) → a.apartByIntersects dbg b = .ok true) := by
  constructor
  · rw [Selection.apartByIntersects, Selection.apartByIntersect, Selection.intersects, Selection.intersect]
    cases a.tree.intersect dbg b.tree with
    | error e => rfl
    | ok t => cases t <;> rfl
  · intro ua ub ht
    obtain ⟨as, e1, o1, -, c1⟩ := C56_cover_partial dbg a ua.reachable
    obtain ⟨bs, e2, o2, -, c2⟩ := C56_cover_partial dbg b ub.reachable
    classical
    obtain ⟨-, r, er, hr⟩ := C52_formula dbg a b ua ub as bs e1 e2 (fun i j => decide (i.Near j)) fun i j => by simp
    rw [Selection.apartByIntersects, er]
    have : r = false := by
      rw [← Bool.not_eq_true, hr]
      rintro ⟨i, j, hT, x, hx, y, hy, h⟩
      exact ht ⟨x, (c1 x).2 ⟨i, hT.mem.1, hx⟩, y, (c2 y).2 ⟨j, hT.mem.2, hy⟩, h⟩
    rw [this]; rfl

example : (Selection.demo [(u8 0, u8 1), (u8 4, u8 4)]).UnionBuilt ∧ (Selection.demo [(u8 6, u8 7)]).UnionBuilt ∧
    (Selection.demo [(u8 0, u8 1), (u8 4, u8 4)]).apartByIntersects true (Selection.demo [(u8 6, u8 7)]) = .ok true ∧
    (Selection.demo [(u8 0, u8 1), (u8 4, u8 6)]).apartByIntersects true (Selection.demo [(u8 0, u8 1), (u8 6, u8 7)]) =
      .ok false :=
  ⟨Selection.demo_built _ (by decide), Selection.demo_built _ (by decide), by decide, by decide⟩

/-- Every way but the one interval by interval denies that 1 to 2 and 3 to 4 are apart; and `intersects` finds 0 and 2
apart from 2. -/
theorem C128_counterexample :
    (∃ a b : Selection U8, a.UnionBuilt ∧ b.UnionBuilt ∧ a.apartByIntervals true b = .ok true ∧
      a.apartByMinus true b = .ok false ∧ a.apartByUnion true b = .ok false ∧
      a.apartByComplements true b = .ok false ∧ a.apartByIntersects true b = .ok false) ∧
    ∃ a b : Selection U8, a.UnionBuilt ∧ b.UnionBuilt ∧ a.apartByIntersects true b = .ok true ∧
      a.apartByIntervals true b = .ok false :=
  ⟨⟨Selection.demo [(u8 1, u8 2)], Selection.demo [(u8 3, u8 4)], Selection.demo_built _ (by decide),
      Selection.demo_built _ (by decide), by decide, by decide, by decide, by decide, by decide⟩,
    Selection.demo [(u8 0, u8 0), (u8 2, u8 2)], Selection.demo [(u8 2, u8 2)], Selection.demo_built _ (by decide),
    Selection.demo_built _ (by decide), by decide, by decide⟩

end NI
