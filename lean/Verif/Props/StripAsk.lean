import Verif.Props.StripMinus

/-!
# C127, C128: what the ways to ask about inclusion and overlap answer after any program
-/

set_option linter.unusedVariables false
set_option linter.unusedSectionVars false

namespace NI
open _root_.NI.Finite TT
variable {α : Type} [LinearOrder α] [Finite α] [LawfulFinite α]

theorem StripProg.last (p : StripProg α) (hp : p.Legal) (x : α) (hx : succ x = none) : p.strip.joint x = false := by
  obtain ⟨s, -, h⟩ := StripProg.of true p hp
  exact h.2.2.2 x hx

theorem StripProg.same_iff (dbg : Bool) (p q : StripProg α) (hp : p.Legal) (hq : q.Legal) : p.run dbg = q.run dbg ↔
    (∀ x, p.strip.val x = q.strip.val x) ∧ ∀ x, p.strip.joint x = q.strip.joint x := by
  obtain ⟨s, t, e1, e2, h⟩ := C154_equal dbg p q hp hq
  rw [e1, e2, Except.ok.injEq, h]

/-- **C127.**  `a.union(&b) == b` answers whether all flags of `a` are flags of `b`. -/
theorem C127_union_any (dbg : Bool) (p q : StripProg α) (hp : p.Legal) (hq : q.Legal) :
    (StripProg.union p q).run dbg = q.run dbg ↔ p.strip.Within q.strip := by
  rw [StripProg.same_iff dbg (.union p q) q ⟨hp, hq⟩ hq]
  refine and_congr (forall_congr' fun x => ?_) (forall_congr' fun x => ?_)
  · show (p.strip.val x || q.strip.val x) = _ ↔ _
    cases p.strip.val x <;> cases q.strip.val x <;> simp
  · show (p.strip.joint x || q.strip.joint x) = _ ↔ _
    cases p.strip.joint x <;> cases q.strip.joint x <;> simp

/-- **C127.**  So does `a.complement().union(&b).is_full()`. -/
theorem C127_complement_any (dbg : Bool) (p q : StripProg α) (hp : p.Legal) (hq : q.Legal) :
    ∃ s, (StripProg.union (.complement p) q).run dbg = .ok s ∧ (s.isFull = true ↔ p.strip.Within q.strip) := by
  obtain ⟨s, e, -, h⟩ := C154_empty_full dbg (.union (.complement p) q) ⟨hp, hq⟩
  refine ⟨s, e, h.trans (forall_and.trans (and_congr (forall_congr' fun x => ?_) (forall_congr' fun x => ?_)))⟩
  · show (!p.strip.val x || q.strip.val x) = true ↔ _
    cases p.strip.val x <;> cases q.strip.val x <;> simp
  · show (_ → ((succ x).isSome && !p.strip.joint x || q.strip.joint x) = true) ↔ _
    cases hs : succ x with
    | none => simp [StripProg.last p hp x hs]
    | some y => cases p.strip.joint x <;> cases q.strip.joint x <;> simp

/-- **C127.**  `a.minus(&b).is_empty()` answers whether moreover no hole of `a` is at an edge of `b`. -/
theorem C127_minus_any (dbg : Bool) (p q : StripProg α) (h : (StripProg.minus p q).Legal) :
    ∃ s, (StripProg.minus p q).run dbg = .ok s ∧ (s.isEmpty = true ↔
      p.strip.Within q.strip ∧ ∀ x, p.strip.hole x = true → q.strip.edge x = false) := by
  obtain ⟨s, e, h, -⟩ := C154_empty_full dbg _ h
  refine ⟨s, e, h.trans ?_⟩
  rw [Strip.Within, and_right_comm, ← forall_and]
  refine forall_and.trans (and_congr (forall_congr' fun x => ?_) (forall_congr' fun x => ?_))
  · show (p.strip.val x && !q.strip.val x || p.strip.hole x && q.strip.edge x) = false ↔ _
    cases p.strip.val x <;> cases q.strip.val x <;> cases p.strip.hole x <;> cases q.strip.edge x <;> simp
  · show (p.strip.joint x && !q.strip.joint x) = false ↔ _
    cases p.strip.joint x <;> cases q.strip.joint x <;> simp

/-- The same values, but the second is not joined at 3: only the one way round the answer is yes. -/
example : (StripProg.points [u8 2, u8 4]).Legal ∧ (StripProg.remove (.collect [.mkClosed (u8 2) (u8 4)]) (.point (u8 3))).Legal ∧
    (StripProg.union (.points [u8 2, u8 4]) (.remove (.collect [.mkClosed (u8 2) (u8 4)]) (.point (u8 3)))).run true ≠
      (StripProg.remove (.collect [.mkClosed (u8 2) (u8 4)]) (.point (u8 3))).run true ∧
    (StripProg.union (.remove (.collect [.mkClosed (u8 2) (u8 4)]) (.point (u8 3))) (.points [u8 2, u8 4])).run true =
      (StripProg.points [u8 2, u8 4]).run true :=
  ⟨trivial, ⟨fun i hi => by rw [List.mem_singleton.1 hi]; exact .mkClosed _ _, .point _⟩, by decide, by decide⟩

/-- **C128.**  `a.minus(&b) == a` answers whether no flag is one of both, no hole of `a` is at an edge of `b`, and no value of
`b` that is not joined to its neighbours has a joint of `a` beside it. -/
theorem C128_minus_any (dbg : Bool) (p q : StripProg α) (hp : p.Legal) (hq : q.Legal) :
    (StripProg.minus p q).run dbg = p.run dbg ↔ p.strip.Apart q.strip ∧
      (∀ x, p.strip.hole x = true → q.strip.edge x = false) ∧
      ∀ x, q.strip.flip.hole x = true → p.strip.joint x = false ∧ (pred x).any p.strip.joint = false := by
  obtain ⟨s, e1, h1⟩ := StripProg.of dbg p hp
  obtain ⟨t, e2, h2⟩ := StripProg.of dbg q hq
  have run : (StripProg.minus p q).run dbg = s.minus dbg t := by rw [StripProg.run, e1, e2]; rfl
  have lone : ∀ x, q.strip.flip.hole x = true → q.strip.val x = true := fun x hx => by
    simp only [Strip.hole, Strip.flip, Bool.and_eq_true, Bool.not_not] at hx
    exact hx.1.1
  have flags : p.strip.minus q.strip = p.strip ↔
      p.strip.Apart q.strip ∧ ∀ x, p.strip.hole x = true → q.strip.edge x = false := by
    rw [Strip.Apart, and_right_comm, ← forall_and]
    constructor
    · intro h
      refine ⟨fun x => ?_, fun x => ?_⟩
      · have := congrFun (congrArg Strip.val h) x
        simp only [Strip.minus, Strip.hole] at this ⊢
        cases hv : p.strip.val x <;> simp_all
      · have := congrFun (congrArg Strip.joint h) x
        simp only [Strip.minus] at this
        cases hv : p.strip.joint x <;> simp_all
    · rintro ⟨h1, h2⟩
      refine congrArg₂ Strip.mk (funext fun x => ?_) (funext fun x => ?_)
      · have := h1 x
        cases hv : p.strip.val x <;> cases hh : p.strip.hole x <;> simp_all
      · have := h2 x
        cases hv : p.strip.joint x <;> simp_all
  rw [run, e1]
  constructor
  · intro e
    have hc := h1.minus_clear dbg h2 e h1 (fun x _ hx => hx) fun x _ => rfl
    obtain ⟨r, er, k⟩ := h1.minus dbg h2 hc
    rw [e] at er; cases er
    obtain ⟨g1, g2⟩ := flags.1 (k.unique h1)
    refine ⟨g1, g2, fun x hx => ?_⟩
    rcases hc x hx with h | h
    · exact absurd (lone x hx) (by simp [g1.1 x h])
    · exact h
  · rintro ⟨g1, g2, g3⟩
    obtain ⟨r, er, k⟩ := h1.minus dbg h2 fun x hx => .inr (g3 x hx)
    rw [flags.2 ⟨g1, g2⟩] at k
    rw [er, k.determines h1]

/-- **C128.**  `a.union(&b.complement()) == b.complement()` answers whether no flag is one of both. -/
theorem C128_union_any (dbg : Bool) (p q : StripProg α) (hp : p.Legal) (hq : q.Legal) :
    (StripProg.union p (.complement q)).run dbg = (StripProg.complement q).run dbg ↔ p.strip.Apart q.strip := by
  rw [C127_union_any dbg p (.complement q) hp hq]
  refine and_congr (forall_congr' fun x => imp_congr_right fun hx => ?_) (forall_congr' fun x => imp_congr_right fun hx => ?_)
  · show (!q.strip.val x) = true ↔ _
    simp
  · show ((succ x).isSome && !q.strip.joint x) = true ↔ _
    cases hs : succ x with
    | none => rw [StripProg.last p hp x hs] at hx; cases hx
    | some y => simp

/-- **C128.**  So does `a.complement().union(&b.complement()).is_full()`. -/
theorem C128_complements_any (dbg : Bool) (p q : StripProg α) (hp : p.Legal) (hq : q.Legal) :
    ∃ s, (StripProg.union (.complement p) (.complement q)).run dbg = .ok s ∧ (s.isFull = true ↔ p.strip.Apart q.strip) := by
  obtain ⟨s, e, h⟩ := C127_complement_any dbg p (.complement q) hp hq
  refine ⟨s, e, h.trans ?_⟩
  rw [← C128_union_any dbg p q hp hq, C127_union_any dbg p (.complement q) hp hq]

/-- 2 to 4 and 5 to 9: built by unions they are joined, not so if the one is left by removing the other. -/
example : (StripProg.minus (.collect [.mkClosed (u8 2) (u8 4)]) (.collect [.mkClosed (u8 5) (u8 9)])).run true ≠
      (StripProg.collect [.mkClosed (u8 2) (u8 4)]).run true ∧
    (StripProg.minus (.remove (.collect [.mkClosed (u8 2) (u8 9)]) (.mkClosed (u8 5) (u8 9))) (.collect [.mkClosed (u8 5) (u8 9)])).run true =
      (StripProg.remove (.collect [.mkClosed (u8 2) (u8 9)]) (.mkClosed (u8 5) (u8 9))).run true := by
  decide

end NI
