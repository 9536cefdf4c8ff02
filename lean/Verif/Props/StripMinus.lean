import Verif.Props.Strip
import Verif.Lemmas.Frame

/-!
# C154: where `minus` does what the machine says
-/

set_option linter.unusedVariables false
set_option linter.unusedSectionVars false

namespace NI
open _root_.NI.Finite TT
variable {α : Type} [LinearOrder α] [Finite α] [LawfulFinite α]

/-- If `minus` gives the flags of the difference, but for the holes, no value of the right selection stands in the way. -/
theorem Strip.Of.minus_clear (dbg : Bool) {p q m : Strip α} {s t r : Selection α} (h : p.Of s) (g : q.Of t)
    (e : s.minus dbg t = .ok r) (k : m.Of r) (mv : ∀ x, p.hole x = false → p.val x = false → m.val x = false)
    (mj : ∀ x, q.joint x = false → m.joint x = p.joint x) : p.Clear q := by
  by_contra hn
  simp only [Strip.Clear, not_forall] at hn
  obtain ⟨x, hx, hn⟩ := hn
  have v := Selection.reachable_valid h.1
  have w := Selection.reachable_valid g.1
  -- a value joined to neither side
  have lone : ∀ y, RawInterval.point y ∈ pieces none t.tree →
      q.val y = true ∧ q.joint y = false ∧ (pred y).any q.joint = false ∧ (succ y).isSome = true ∧ (pred y).isSome = true := by
    intro y hy
    obtain ⟨h1, h2, h3⟩ := (point_iff w y).1 hy
    have h2 : at' t.tree y = true := h2
    rw [g.2.1] at h2
    rw [g.before] at h1
    rw [g.after] at h3
    cases hp : pred y with
    | none => rw [hp] at h1; exact absurd (h1.symm.trans h2) (by simp)
    | some a =>
      cases hs : succ y with
      | none => rw [hs] at h3; exact absurd (h3.symm.trans h2) (by simp)
      | some b =>
        rw [hp] at h1
        rw [hs] at h3
        exact ⟨h2, h3, h1, rfl, rfl⟩
  obtain ⟨t', e', er⟩ : ∃ t', TineTree.minus dbg s.tree t.tree = .ok t' ∧ r = ⟨t'⟩ := by
    rw [Selection.minus] at e
    cases h1 : TineTree.minus dbg s.tree t.tree with
    | error z => rw [h1] at e; cases e
    | ok t' => rw [h1] at e; cases e; exact ⟨t', rfl, rfl⟩
  subst er
  rw [TineTree.minus, fold_eq dbg _ w] at e'
  have hp : RawInterval.point x ∈ pieces none t.tree := by
    rw [point_iff w]
    change _ ∧ at' t.tree x = true ∧ _
    rw [g.before, g.2.1, g.after]
    simp only [Strip.hole, Strip.flip] at hx
    cases hp : pred x with
    | none => simp [hp] at hx
    | some a =>
      cases hs : succ x with
      | none => simp [hs] at hx
      | some b =>
        simp only [hp, hs, Bool.and_eq_true, Bool.not_eq_true', Bool.not_not, Option.isSome_some, Option.any_some] at hx
        exact ⟨hx.2.2, hx.1.1, hx.1.2.2⟩
  obtain ⟨y, hy, h1, h2, h3⟩ := foldMinus_bad dbg v (Selection.reachable_valid k.1) _ (pieces_wf w.1).1
    (pieces_sep w.1).1 e' ⟨x, hp, fun hm => hn (by
      obtain ⟨-, -, -, l4, l5⟩ := lone x hp
      obtain ⟨b, hs⟩ := Option.isSome_iff_exists.1 l4
      obtain ⟨a, ha⟩ := Option.isSome_iff_exists.1 l5
      simp only [MinusOk] at hm
      change at' s.tree x = true ∨ _ at hm
      rw [h.2.1, h.before, h.after, ha, hs] at hm
      rw [ha]
      exact hm.imp id fun m => ⟨m.2, m.1⟩)⟩
  obtain ⟨l1, l2, l3, l4, l5⟩ := lone y hy
  obtain ⟨b, hs⟩ := Option.isSome_iff_exists.1 l4
  obtain ⟨a, ha⟩ := Option.isSome_iff_exists.1 l5
  have h1 : at' s.tree y = false := h1
  rw [h.2.1] at h1
  rw [h.before, h.after, ha, hs] at h2
  have h2 : (p.joint a && p.joint y) = false := h2
  rw [h.after, hs] at h3
  have ka := k.after y
  have kv : at' t' y = _ := k.2.1 y
  rw [hs] at ka
  change tcov t' true (.fin y) = _ at ka
  change tcov t' false (.fin y) = _ at kv
  have hh : p.hole y = false := by
    rw [Strip.hole, ha, Option.any_some, Bool.and_assoc, Bool.and_comm (p.joint y), h2, Bool.and_false]
  rw [ka, kv, mv y hh h1, mj y l2] at h3
  simp at h3

/-- **C154.**  `minus` of what two programs make gives what the machine says exactly if each value of the right that is not
joined to its neighbours is a value of the left, or the left has no joint there. -/
theorem C154_minus_iff (dbg : Bool) (p q : StripProg α) (hp : p.Legal) (hq : q.Legal) :
    (∃ r : StripProg α, r.Legal ∧ r.strip = p.strip.minus q.strip ∧ (StripProg.minus p q).run dbg = r.run dbg) ↔
      p.strip.Clear q.strip := by
  constructor
  · rintro ⟨r, hr, e, er⟩
    obtain ⟨s, e1, h1⟩ := StripProg.of dbg p hp
    obtain ⟨t, e2, h2⟩ := StripProg.of dbg q hq
    obtain ⟨u, e3, h3⟩ := StripProg.of dbg r hr
    rw [e] at h3
    refine h1.minus_clear dbg h2 ?_ h3 (fun x hx hv => by simp [Strip.minus, hx, hv]) fun x hj => by simp [Strip.minus, hj]
    rw [StripProg.run, e1, e2, e3] at er
    exact er
  · exact fun h => ⟨.minus p q, ⟨hp, hq, h⟩, rfl, rfl⟩

/-- 3 is joined to neither side in the complement of `{2, 4}`, and joined to 4 in `{4}`, where it is not in. -/
example : (StripProg.points [u8 4]).Legal ∧ (StripProg.complement (.points [u8 2, u8 4])).Legal ∧
    ¬ (StripProg.points [u8 4]).strip.Clear (StripProg.complement (.points [u8 2, u8 4])).strip :=
  ⟨trivial, trivial, fun h => absurd (h (u8 3) (by decide)) (by decide)⟩

/-- Not so in `{3, 9}`. -/
example : (StripProg.points [u8 3, u8 9]).strip.val (u8 3) = true ∧
    (StripProg.complement (.points [u8 2, u8 4])).strip.flip.hole (u8 3) = true := by decide

end NI
