import Verif.Props.StripMinus

/-!
# C111: removing a selection twice
-/

set_option linter.unusedVariables false
set_option linter.unusedSectionVars false

namespace NI
open _root_.NI.Finite TT
variable {α : Type} [LinearOrder α] [Finite α] [LawfulFinite α]

/-- **C111.**  Removing any selection a second time changes nothing exactly if the first had no joint beside a value of the
second that is not joined to its neighbours, and no hole of the first is a value at an edge of the second. -/
theorem C111_selection_minus_iff (dbg : Bool) (p q : StripProg α) (hp : (StripProg.minus p q).Legal) :
    (StripProg.minus (.minus p q) q).run dbg = (StripProg.minus p q).run dbg ↔
      (∀ x, q.strip.flip.hole x = true → p.strip.joint x = false ∧ (pred x).any p.strip.joint = false) ∧
      ∀ x, p.strip.hole x = true → q.strip.edge x = true → q.strip.val x = false := by
  obtain ⟨hp1, hq, hc⟩ := hp
  obtain ⟨t, e2, h2⟩ := StripProg.of dbg q hq
  obtain ⟨m, e3, h3⟩ := StripProg.of dbg (.minus p q) ⟨hp1, hq, hc⟩
  have h3 : (p.strip.minus q.strip).Of m := h3
  have run : (StripProg.minus (.minus p q) q).run dbg = m.minus dbg t := by rw [StripProg.run, e3, e2]; rfl
  rw [run, e3]
  -- a value joined to neither side
  have lone : ∀ x, q.strip.flip.hole x = true → q.strip.val x = true ∧ q.strip.joint x = false ∧
      (pred x).any q.strip.joint = false ∧ (succ x).isSome = true ∧ (pred x).isSome = true := fun x hx => by
    simp only [Strip.hole, Strip.flip] at hx
    cases hp : pred x with
    | none => simp [hp] at hx
    | some a =>
      cases hs : succ x with
      | none => simp [hs] at hx
      | some b =>
        simp only [hp, hs, Bool.and_eq_true, Bool.not_eq_true', Bool.not_not, Option.isSome_some, Option.any_some] at hx
        exact ⟨hx.1.1, hx.1.2.2, hx.2.2, rfl, rfl⟩
  have alone : ∀ x, q.strip.flip.hole x = true → (p.strip.minus q.strip).val x = false := fun x hx => by
    obtain ⟨l1, -⟩ := lone x hx
    have : p.strip.hole x = false := by
      rcases hc x hx with h | ⟨h, -⟩ <;> simp [Strip.hole, h]
    simp [Strip.minus, l1, this]
  have clear : (p.strip.minus q.strip).Clear q.strip ↔
      ∀ x, q.strip.flip.hole x = true → p.strip.joint x = false ∧ (pred x).any p.strip.joint = false := by
    refine forall_congr' fun x => imp_congr_right fun hx => ?_
    obtain ⟨-, l2, l3, l4, l5⟩ := lone x hx
    rw [alone x hx]
    obtain ⟨a, ha⟩ := Option.isSome_iff_exists.1 l5
    rw [ha] at l3 ⊢
    have l3 : q.strip.joint a = false := l3
    simp [Strip.minus, l2, l3]
  have same : (∀ x, q.strip.flip.hole x = true → p.strip.joint x = false ∧ (pred x).any p.strip.joint = false) →
      ((p.strip.minus q.strip).minus q.strip = p.strip.minus q.strip ↔
        ∀ x, p.strip.hole x = true → q.strip.edge x = true → q.strip.val x = false) := fun hl => by
    constructor
    · intro h x h1 h2
      have := congrFun (congrArg Strip.val h) x
      have hm : (p.strip.minus q.strip).val x = true := by simp [Strip.minus, h1, h2]
      rw [hm, Strip.minus] at this
      simpa [Strip.hole, hm] using this
    · intro h
      refine congrArg₂ Strip.mk (funext fun x => ?_) (funext fun x => ?_)
      · show ((p.strip.minus q.strip).val x && !q.strip.val x || (p.strip.minus q.strip).hole x && q.strip.edge x) =
          (p.strip.minus q.strip).val x
        cases hm : (p.strip.minus q.strip).val x
        · -- no hole of the result at an edge
          rw [Bool.false_and, Bool.false_or, Bool.eq_false_iff]
          intro hh
          rw [Bool.and_eq_true] at hh
          obtain ⟨h1, h2⟩ := hh
          simp only [Strip.hole, Strip.minus, Bool.and_eq_true] at h1
          obtain ⟨⟨-, j1, j2⟩, h1⟩ := h1
          cases ha : pred x with
          | none => rw [ha] at h1; cases h1
          | some a =>
            rw [ha] at h1
            simp only [Option.any_some, Bool.and_eq_true, Bool.not_eq_true'] at h1 j2
            cases hv : p.strip.val x
            · have : p.strip.hole x = true := by simp [Strip.hole, hv, j1, ha, h1.1]
              simp [Strip.minus, this, h2] at hm
            · cases hw : q.strip.val x
              · simp [Strip.minus, hv, hw] at hm
              · have hs : (succ x).isSome = true := by
                  cases hs : succ x with
                  | none =>
                    obtain ⟨s, -, g⟩ := StripProg.of dbg p hp1
                    rw [g.2.2.2 x hs] at j1; cases j1
                  | some b => rfl
                have hx : q.strip.flip.hole x = true := by
                  simp [Strip.hole, Strip.flip, hw, hs, j2, ha, h1.2, pred_eq_iff.1 ha]
                rw [(hl x hx).1] at j1; cases j1
        · have hw : q.strip.val x = false := by
            simp only [Strip.minus, Bool.or_eq_true, Bool.and_eq_true, Bool.not_eq_true'] at hm
            rcases hm with hm | hm
            · exact hm.2
            · exact h x hm.1 hm.2
          rw [hw]; rfl
      · show ((p.strip.minus q.strip).joint x && !q.strip.joint x) = _
        show ((p.strip.joint x && !q.strip.joint x) && !q.strip.joint x) = (p.strip.joint x && !q.strip.joint x)
        rw [Bool.and_assoc, Bool.and_self]
  constructor
  · intro e
    have hm := h3.minus_clear dbg h2 e h3 (fun x _ hv => hv) fun x _ => rfl
    have hl := clear.1 hm
    refine ⟨hl, (same hl).1 ?_⟩
    obtain ⟨m', e', h'⟩ := h3.minus dbg h2 hm
    rw [e] at e'; cases e'
    exact h'.unique h3
  · rintro ⟨hl, hh⟩
    obtain ⟨m', e', h'⟩ := h3.minus dbg h2 (clear.2 hl)
    rw [(same hl).2 hh] at h'
    rw [e', h'.determines h3]

/-- 3 is joined to neither side in the complement of `{2, 4}`; taking it from 1 to 9 a second time goes wrong, from `{3, 9}`
it does not. -/
example : (StripProg.minus (.minus (.collect [.mkClosed (u8 1) (u8 9)]) (.complement (.points [u8 2, u8 4])))
      (.complement (.points [u8 2, u8 4]))).run true ≠
      (StripProg.minus (.collect [.mkClosed (u8 1) (u8 9)]) (.complement (.points [u8 2, u8 4]))).run true ∧
    (StripProg.minus (.minus (.complement (.collect [.mkClosed (u8 0) (u8 2), .mkClosed (u8 4) (u8 8)]))
      (.complement (.points [u8 2, u8 4]))) (.complement (.points [u8 2, u8 4]))).run true =
      (StripProg.minus (.complement (.collect [.mkClosed (u8 0) (u8 2), .mkClosed (u8 4) (u8 8)]))
        (.complement (.points [u8 2, u8 4]))).run true := by
  decide

/-- Everything without all but 2 and 4, where 3 is such a value. -/
example : (StripProg.minus .full (.complement (.points [u8 2, u8 4]))).Legal ∧
    (StripProg.complement (.points [u8 2, u8 4])).strip.flip.hole (u8 3) = true ∧
    (StripProg.minus (.minus .full (.complement (.points [u8 2, u8 4]))) (.complement (.points [u8 2, u8 4]))).run true ≠
      (StripProg.minus .full (.complement (.points [u8 2, u8 4]))).run true :=
  ⟨⟨trivial, trivial, fun _ _ => .inl rfl⟩, by decide, by decide⟩

end NI
