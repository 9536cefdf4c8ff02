import Verif.Props.StripPlain

/-!
# More and less (C118) and a selection minus itself (C112), after any program
-/

set_option linter.unusedVariables false
set_option linter.unusedSectionVars false

namespace NI
open _root_.NI.Finite TT
variable {α : Type} [LinearOrder α] [Finite α] [LawfulFinite α]

/-- **C118.**  The same is removed from less and from more, after any programs where both differences are as the machine says: less
is left exactly if each hole of the one that is an edge of what is removed is a value of the other that stays, or a hole of it. -/
theorem C118_minus_left_any (dbg : Bool) (p p' q : StripProg α) (h1 : (StripProg.minus p q).Legal) (h2 : (StripProg.minus p' q).Legal)
    (hs : ∀ x, p.strip.val x = true → p'.strip.val x = true) :
    ∃ r r', (StripProg.minus p q).run dbg = .ok r ∧ (StripProg.minus p' q).run dbg = .ok r' ∧ (r.pts dbg ⊆ r'.pts dbg ↔
      ∀ x, p.strip.hole x = true → q.strip.edge x = true → (p'.strip.val x = true ∧ q.strip.val x = false) ∨ p'.strip.hole x = true) := by
  obtain ⟨r, e, k⟩ := C154_values dbg _ h1
  obtain ⟨r', e', k'⟩ := C154_values dbg _ h2
  refine ⟨r, r', e, e', forall_congr' fun x => ?_⟩
  have m : ∀ {t : Selection α} {v : Bool}, t.contains dbg x = .ok v → (x ∈ t.pts dbg ↔ v = true) := fun {t v} h => by
    show t.contains dbg x = .ok true ↔ _
    rw [h, Except.ok.injEq]
  rw [m (k x), m (k' x)]
  show (p.strip.val x && !q.strip.val x || p.strip.hole x && q.strip.edge x) = true →
    (p'.strip.val x && !q.strip.val x || p'.strip.hole x && q.strip.edge x) = true ↔ _
  have := hs x
  generalize p.strip.hole x = a at *
  generalize p'.strip.hole x = b at *
  generalize p.strip.val x = c at *
  generalize p'.strip.val x = d at *
  clear * - this
  cases a <;> cases b <;> cases c <;> cases d <;> cases q.strip.edge x <;> cases q.strip.val x <;> simp_all

/-- **C118.**  Less and more is removed from the same: what more is removed from has less exactly if each hole of it that is an edge of
the bigger one is an edge of the smaller one. -/
theorem C118_minus_right_any (dbg : Bool) (p q q' : StripProg α) (h1 : (StripProg.minus p q).Legal) (h2 : (StripProg.minus p q').Legal)
    (hs : ∀ x, q.strip.val x = true → q'.strip.val x = true) :
    ∃ r r', (StripProg.minus p q).run dbg = .ok r ∧ (StripProg.minus p q').run dbg = .ok r' ∧ (r'.pts dbg ⊆ r.pts dbg ↔
      ∀ x, p.strip.hole x = true → q'.strip.edge x = true → q.strip.edge x = true) := by
  obtain ⟨r, e, k⟩ := C154_values dbg _ h1
  obtain ⟨r', e', k'⟩ := C154_values dbg _ h2
  refine ⟨r, r', e, e', forall_congr' fun x => ?_⟩
  have m : ∀ {t : Selection α} {v : Bool}, t.contains dbg x = .ok v → (x ∈ t.pts dbg ↔ v = true) := fun {t v} h => by
    show t.contains dbg x = .ok true ↔ _
    rw [h, Except.ok.injEq]
  rw [m (k x), m (k' x)]
  show (p.strip.val x && !q'.strip.val x || p.strip.hole x && q'.strip.edge x) = true →
    (p.strip.val x && !q.strip.val x || p.strip.hole x && q.strip.edge x) = true ↔ _
  have := hs x
  have hh : p.strip.hole x = true → p.strip.val x = false := fun h => by
    simp only [Strip.hole, Bool.and_eq_true, Bool.not_eq_true'] at h
    exact h.1.1
  generalize p.strip.hole x = a at *
  generalize p.strip.val x = c at *
  generalize q.strip.val x = b at *
  generalize q'.strip.val x = d at *
  clear * - this hh
  cases a <;> cases b <;> cases c <;> cases d <;> cases q.strip.edge x <;> cases q'.strip.edge x <;> simp_all

/-- 3 is a hole of `{2, 4}`; taking 9 leaves it out, taking 4 and 9 puts it in.  And everything has what both have. -/
example : (StripProg.points [u8 2, u8 4]).strip.hole (u8 3) = true ∧ (StripProg.points [u8 4, u8 9]).strip.edge (u8 3) = true ∧
    (StripProg.points [u8 9]).strip.edge (u8 3) = false ∧ (StripProg.full : StripProg U8).strip.val (u8 3) = true ∧
    (StripProg.points [u8 4, u8 9]).strip.val (u8 3) = false ∧
    (do (← (StripProg.minus (.points [u8 2, u8 4]) (.points [u8 4, u8 9])).run true).contains true (u8 3)) = .ok true ∧
    (do (← (StripProg.minus (.points [u8 2, u8 4]) (.points [u8 9])).run true).contains true (u8 3)) = .ok false := by
  decide

/-- `{2, 4}` without `{4, 9}` and without `{9}`. -/
example : (StripProg.minus (.points [u8 2, u8 4]) (.points [u8 4, u8 9])).Legal ∧ (StripProg.minus (.points [u8 2, u8 4]) (.points [u8 9])).Legal ∧
    ∀ x, (StripProg.points [u8 9]).strip.val x = true → (StripProg.points [u8 4, u8 9]).strip.val x = true := by
  have no : ∀ is : List (Interval U8), ∀ x, (is.foldl Strip.add .nothing).flip.hole x = true → False := fun is x hx =>
    absurd hx (Bool.eq_false_iff.1 (Strip.no_lone (Strip.adds_joined is .nothing fun x h => by cases h) x))
  refine ⟨⟨trivial, trivial, fun x hx => (no [.point (u8 4), .point (u8 9)] x hx).elim⟩, ⟨trivial, trivial, fun x hx => (no [.point (u8 9)] x hx).elim⟩, fun x hx => ?_⟩
  simp only [StripProg.strip, List.foldl, Strip.add, Strip.nothing, Bool.false_or, Bool.or_eq_true] at hx ⊢
  exact .inr hx

/-- **C112.**  Of a selection of any history without itself just those values are left that its complement lists as points, so nothing
exactly if it lists none. -/
theorem C112_minus_any (dbg : Bool) (a : Selection α) (ha : a.Reachable) :
    ∃ s, a.minus dbg a = .ok s ∧ s.Reachable ∧ (∀ x, x ∈ s.pts dbg ↔ a.Pinhole dbg x) ∧ (s = .new ↔ ∀ x, ¬ a.Pinhole dbg x) := by
  have h := Strip.ofTree_of ha
  generalize Strip.ofTree a = p at h
  have va := Selection.reachable_valid ha
  obtain ⟨s, e, k⟩ := h.minus dbg h fun x hx => .inl (by
    simp only [Strip.hole, Strip.flip, Bool.and_eq_true, Bool.not_not] at hx
    exact hx.1.1)
  have hv : ∀ x, (p.minus p).val x = p.hole x := fun x => by
    show (p.val x && !p.val x || p.hole x && p.edge x) = p.hole x
    cases hp : pred x <;> cases hs : succ x <;> cases hv : p.val x <;> cases hj : p.joint x <;>
      simp_all [Strip.hole, Strip.edge, h.2.2.2]
  have hh : ∀ x, a.Pinhole dbg x ↔ p.hole x = true := fun x => by rw [Selection.pinhole_iff dbg va, h.hole]
  refine ⟨s, e, k.1, fun x => ?_, ?_⟩
  · rw [Selection.mem_pts dbg (Selection.reachable_valid k.1), k.2.1, hv, hh]
  · rw [k.eq_iff Strip.of_new]
    simp only [hh, Strip.nothing, hv, Bool.not_eq_true]
    refine and_iff_left fun x => ?_
    show (p.joint x && !p.joint x) = false
    simp

/-- Of `{2, 4}` 3 is left; of the same values left of 2 to 4 nothing. -/
example : (do (← (Selection.demo [(u8 2, u8 2), (u8 4, u8 4)]).minus true (Selection.demo [(u8 2, u8 2), (u8 4, u8 4)])).intervals true) = .ok [.point (u8 3)] ∧
    (StripProg.minus (.remove (.collect [.mkClosed (u8 2) (u8 4)]) (.point (u8 3))) (.remove (.collect [.mkClosed (u8 2) (u8 4)]) (.point (u8 3)))).run true =
      .ok .new := by decide

end NI
