import Verif.Props.StripUndo
import Verif.Props.StripEvery
import Verif.Props.Clip
import Verif.Props.Toggle

/-!
# Exchanging calls, switching and cutting down after any program (C119, C129, C135)
-/

set_option linter.unusedVariables false
set_option linter.unusedSectionVars false

namespace NI
open _root_.NI.Finite TT
variable {α : Type} [LinearOrder α] [Finite α] [LawfulFinite α]

/-- **C119.**  What two programs made can be removed from what a third made in either order exactly if the two agree at each
hole of the third where both have an edge, and if each value of the third, joined on both sides, that is joined to neither side
in the one is so in the other, too, or no edge of it. -/
theorem C119_minus_any (dbg : Bool) (p q r : StripProg α) (h1 : (StripProg.minus (.minus p q) r).Legal)
    (h2 : (StripProg.minus (.minus p r) q).Legal) :
    (StripProg.minus (.minus p q) r).run dbg = (StripProg.minus (.minus p r) q).run dbg ↔
      (∀ x, p.strip.hole x = true → q.strip.edge x = true → r.strip.edge x = true → q.strip.val x = r.strip.val x) ∧
      ∀ x, p.strip.val x = true → p.strip.joint x = true → (pred x).any p.strip.joint = true →
        (q.strip.flip.hole x = true → r.strip.edge x = true → r.strip.flip.hole x = true) ∧
        (r.strip.flip.hole x = true → q.strip.edge x = true → q.strip.flip.hole x = true) := by
  obtain ⟨s, -, h⟩ := StripProg.of dbg p h1.1.1
  have last := h.2.2.2
  have cq := h1.1.2.2
  have cr := h2.1.2.2
  refine (StripProg.same_iff dbg _ _ h1 h2).trans ?_
  have hj : ∀ x, (StripProg.minus (.minus p q) r).strip.joint x = (StripProg.minus (.minus p r) q).strip.joint x := fun x => by
    show (p.strip.joint x && !q.strip.joint x && !r.strip.joint x) = (p.strip.joint x && !r.strip.joint x && !q.strip.joint x)
    rw [Bool.and_right_comm]
  rw [and_iff_left hj, ← forall_and]
  refine forall_congr' fun x => ?_
  have cqx := cq x
  have crx := cr x
  have lx := last x
  simp only [StripProg.strip, Strip.minus, Strip.hole, Strip.edge, Strip.flip] at cqx crx ⊢
  cases hp : pred x with
  | none => simp; grind
  | some y =>
    have hy := pred_eq_iff.1 hp
    cases hs : succ x with
    | none => simp [hy, lx hs, Bool.and_right_comm]
    | some z =>
      simp only [hp, hs, hy, Option.any_some, Option.isSome_some, Bool.true_and] at cqx crx ⊢
      generalize p.strip.val x = a1 at *
      generalize p.strip.joint x = a2 at *
      generalize p.strip.joint y = a3 at *
      generalize q.strip.val x = b1 at *
      generalize q.strip.joint x = b2 at *
      generalize q.strip.joint y = b3 at *
      generalize r.strip.val x = c1 at *
      generalize r.strip.joint x = c2 at *
      generalize r.strip.joint y = c3 at *
      clear * - cqx crx
      cases a1 <;> cases a2 <;> cases a3 <;> cases b1 <;> cases c1 <;>
        simp_all <;> cases b2 <;> cases b3 <;> cases c2 <;> cases c3 <;> simp_all

/-- 3, joined to neither side, and 4 to 9 are removed from everything: 3 comes in again in the one order. -/
example : (StripProg.minus (.minus .full (.lone (u8 3))) (.collect [.mkClosed (u8 4) (u8 9)])).Legal ∧
    (StripProg.minus (.minus .full (.collect [.mkClosed (u8 4) (u8 9)])) (.lone (u8 3))).Legal ∧
    (StripProg.minus (.minus .full (.lone (u8 3))) (.collect [.mkClosed (u8 4) (u8 9)])).run true ≠
      (StripProg.minus (.minus .full (.collect [.mkClosed (u8 4) (u8 9)])) (.lone (u8 3))).run true := by
  have l : (StripProg.lone (u8 3)).Legal := (StripProg.lones_legal [u8 3]).1
  have c : (StripProg.collect [.mkClosed (u8 4) (u8 9)] : StripProg U8).Legal := fun i hi => by
    rw [List.mem_singleton.1 hi]; exact .mkClosed _ _
  have no : ∀ x, (StripProg.collect [.mkClosed (u8 4) (u8 9)] : StripProg U8).strip.flip.hole x = true → False := fun x hx =>
    absurd hx (Bool.eq_false_iff.1 (Strip.no_lone (Strip.adds_joined [.mkClosed (u8 4) (u8 9)] .nothing (fun x h => absurd h (by simp [Strip.nothing]))) x))
  refine ⟨⟨⟨trivial, l, fun _ _ => .inl rfl⟩, c, fun x hx => (no x hx).elim⟩, ⟨⟨trivial, c, fun x hx => (no x hx).elim⟩, l, fun x hx => ?_⟩, by decide⟩
  have : x = u8 3 := by
    simp only [StripProg.lone_strip, Strip.hole, Strip.flip, Bool.not_not, Bool.and_eq_true, decide_eq_true_eq] at hx
    exact hx.1.1
  subst this
  exact .inl (by decide)

/-- **C119.**  Adding one interval and removing another can be exchanged after any program exactly if they have no value and no
joint in common, and each hole beside the second that there is after the addition was there before. -/
theorem C119_add_remove_any (dbg : Bool) (p : StripProg α) (hp : p.Legal) (i j : Interval α) (hi : i.Obtainable) (hj : j.Obtainable) :
    (StripProg.remove (.add p i) j).run dbg = (StripProg.add (.remove p j) i).run dbg ↔
      (∀ x, i.contains x = true → j.contains x = false) ∧ (∀ x, i.joins x = true → j.joins x = false) ∧
      ∀ x, (p.strip.add i).hole x = true → j.beside x = true → p.strip.hole x = true := by
  have h1 : (StripProg.remove (.add p i) j).Legal := ⟨⟨hp, hi⟩, hj⟩
  have h2 : (StripProg.add (.remove p j) i).Legal := ⟨⟨hp, hj⟩, hi⟩
  refine (StripProg.same_iff dbg _ _ h1 h2).trans ?_
  simp only [← forall_and]
  refine forall_congr' fun x => ?_
  show ((p.strip.val x || i.contains x) && !j.contains x || (p.strip.add i).hole x && j.beside x) =
      (p.strip.val x && !j.contains x || p.strip.hole x && j.beside x || i.contains x) ∧
    ((p.strip.joint x || i.joins x) && !j.joins x) = (p.strip.joint x && !j.joins x || i.joins x) ↔ _
  have k1 : (p.strip.add i).hole x = true → p.strip.val x = false ∧ i.contains x = false := fun h => by
    simp only [Strip.hole, Strip.add, Bool.and_eq_true, Bool.not_eq_true', Bool.or_eq_false_iff] at h
    exact h.1.1
  have k2 : p.strip.hole x = true → i.contains x = false → (p.strip.add i).hole x = true := fun h hc => by
    simp only [Strip.hole, Strip.add, Bool.and_eq_true, Bool.not_eq_true', Bool.or_eq_false_iff] at h ⊢
    refine ⟨⟨⟨h.1.1, hc⟩, by simp [h.1.2]⟩, ?_⟩
    obtain ⟨y, hy, h3⟩ := (Option.any_eq_true ..).1 h.2
    exact (Option.any_eq_true ..).2 ⟨y, hy, by simp [h3]⟩
  generalize (p.strip.add i).hole x = a at *
  generalize p.strip.hole x = b at *
  generalize p.strip.val x = v at *
  generalize i.contains x = c at *
  clear * - k1 k2
  cases v <;> cases c <;> cases j.contains x <;> cases j.beside x <;>
    cases p.strip.joint x <;> cases i.joins x <;> cases j.joins x <;> cases a <;> cases b <;> simp_all

/-- 2 is added to what is left of 4 to 9 without 5: then 5 to 9 removed or before makes no difference. -/
example : (StripProg.remove (.collect [.mkClosed (u8 4) (u8 9)]) (.point (u8 5))).Legal ∧
    (StripProg.remove (.add (.remove (.collect [.mkClosed (u8 4) (u8 9)]) (.point (u8 5))) (.point (u8 2))) (.mkClosed (u8 5) (u8 9))).run true =
      (StripProg.add (.remove (.remove (.collect [.mkClosed (u8 4) (u8 9)]) (.point (u8 5))) (.mkClosed (u8 5) (u8 9))) (.point (u8 2))).run true ∧
    (StripProg.remove (.add (.collect [.mkClosed (u8 4) (u8 9)]) (.point (u8 2))) (.mkClosed (u8 4) (u8 9))).run true ≠
      (StripProg.add (.remove (.collect [.mkClosed (u8 4) (u8 9)]) (.mkClosed (u8 4) (u8 9))) (.point (u8 2))).run true :=
  ⟨⟨fun i hi => by rw [List.mem_singleton.1 hi]; exact .mkClosed _ _, .point _⟩, by decide, by decide⟩

/-- **C135.**  `a.minus(&b).union(&b.minus(&a))` after any programs, where both differences are as the machine says: the values are
those in exactly one of the two, exactly if each hole of the one at an edge of the other is a value of the other. -/
theorem C135_minus_any (dbg : Bool) (p q : StripProg α) (h1 : (StripProg.minus p q).Legal) (h2 : (StripProg.minus q p).Legal) :
    ∃ a b s, p.run dbg = .ok a ∧ q.run dbg = .ok b ∧ a.eitherByMinus dbg b = .ok s ∧ (s.pts dbg = InOne (a.pts dbg) (b.pts dbg) ↔
      (∀ x, p.strip.hole x = true → q.strip.edge x = true → q.strip.val x = true) ∧
      ∀ x, q.strip.hole x = true → p.strip.edge x = true → p.strip.val x = true) := by
  have hl : (StripProg.union (.minus p q) (.minus q p)).Legal := ⟨h1, h2⟩
  obtain ⟨a, ea, ha⟩ := C154_values dbg p h1.1
  obtain ⟨b, eb, hb⟩ := C154_values dbg q h1.2.1
  obtain ⟨s, es, hs⟩ := C154_values dbg _ hl
  have e : a.eitherByMinus dbg b = .ok s := by
    simp only [StripProg.run, ea, eb, bind, Except.bind] at es
    exact es
  refine ⟨a, b, s, ea, eb, e, Set.ext_iff.trans ?_⟩
  rw [← forall_and]
  refine forall_congr' fun x => ?_
  have m : ∀ {t : Selection α} {v : Bool}, t.contains dbg x = .ok v → (x ∈ t.pts dbg ↔ v = true) := fun {t v} h => by
    show t.contains dbg x = .ok true ↔ _
    rw [h, Except.ok.injEq]
  rw [m (hs x), InOne, Set.mem_ofPred_eq, m (ha x), m (hb x)]
  show ((((p.strip.val x && !q.strip.val x || p.strip.hole x && q.strip.edge x) ||
    (q.strip.val x && !p.strip.val x || q.strip.hole x && p.strip.edge x)) = true) ↔ _) ↔ _
  have k1 : p.strip.hole x = true → p.strip.val x = false := fun h => by
    simp only [Strip.hole, Bool.and_eq_true, Bool.not_eq_true'] at h
    exact h.1.1
  have k2 : q.strip.hole x = true → q.strip.val x = false := fun h => by
    simp only [Strip.hole, Bool.and_eq_true, Bool.not_eq_true'] at h
    exact h.1.1
  generalize p.strip.hole x = a at *
  generalize q.strip.hole x = b at *
  generalize p.strip.val x = c at *
  generalize q.strip.val x = d at *
  clear * - k1 k2
  cases a <;> cases b <;> cases c <;> cases d <;> cases q.strip.edge x <;> cases p.strip.edge x <;> simp_all

/-- `{2, 4}` with everything: 3 is a hole of the one, but no edge of the other. -/
example : (StripProg.minus (.points [u8 2, u8 4]) .full).Legal ∧ (StripProg.minus .full (.points [u8 2, u8 4])).Legal ∧
    (StripProg.points [u8 2, u8 4]).strip.hole (u8 3) = true ∧
    (do (← (← (StripProg.points [u8 2, u8 4]).run true).eitherByMinus true (← StripProg.full.run true)).contains true (u8 3)) = .ok true := by
  refine ⟨⟨trivial, trivial, fun x hx => ?_⟩, ⟨trivial, trivial, fun _ _ => .inl rfl⟩, by decide, by decide⟩
  simp only [StripProg.strip, Strip.everything, Strip.hole, Strip.flip] at hx
  cases hs : succ x <;> simp [hs] at hx

theorem Interval.upTo_joins (l z : α) (hz : (Interval.unboundedUpTo l).joins z = true) : z < l := by
  rw [Interval.joins] at hz
  cases hs : succ z with
  | none => rw [hs] at hz; cases hz
  | some y =>
    have hy := (LawfulFinite.succ_some z y hs).1
    rw [hs] at hz
    simp only [Interval.upTo_contains, Bool.or_eq_true, decide_eq_true_eq, Bool.and_eq_true] at hz
    rcases hz with (h | h) | ⟨h1, h2⟩
    · exact h
    · exact hy.trans h
    · cases e : pred l with
      | none => simp [Interval.unboundedUpTo, RawInterval.normalized, e, Option.elim, Interval.lowerBound, RawInterval.lowerBound] at h1
      | some q =>
        simp only [Interval.unboundedUpTo, RawInterval.normalized, e, Option.elim, Interval.lowerBound, RawInterval.lowerBound, Interval.upperBound,
          RawInterval.upperBound, Option.some.injEq, Bound.incl.injEq] at h1 h2
        subst h2
        exact (LawfulFinite.pred_some l q e).1

theorem Interval.upTo_beside (l x : α) : (Interval.unboundedUpTo l).beside x = true ↔ x = l ∧ (pred x).isSome = true := by
  rw [Interval.beside_iff]
  cases e : pred l with
  | none =>
    simp only [Interval.unboundedUpTo, RawInterval.normalized, e, Option.elim, Interval.lowerBound, RawInterval.lowerBound, Interval.upperBound,
      RawInterval.upperBound, reduceCtorEq, false_and, exists_false, false_or, false_iff]
    rintro ⟨rfl, h⟩
    rw [e] at h; cases h
  | some q =>
    simp only [Interval.unboundedUpTo, RawInterval.normalized, e, Option.elim, Interval.lowerBound, RawInterval.lowerBound, Interval.upperBound,
      RawInterval.upperBound, Option.some.injEq, Bound.incl.injEq, exists_eq_left']
    rw [(LawfulFinite.pred_none _).2 rfl, pred_eq_iff.1 e]
    constructor
    · rintro (h | h)
      · cases h
      · cases h; exact ⟨rfl, by rw [e]; rfl⟩
    · rintro ⟨rfl, -⟩; exact .inr rfl

theorem Interval.upFrom_beside (u x : α) : (Interval.unboundedUpFrom u).beside x = true ↔ x = u ∧ (succ x).isSome = true := by
  rw [Interval.beside_iff]
  cases e : succ u with
  | none =>
    simp only [Interval.unboundedUpFrom, RawInterval.normalized, e, Option.elim, Interval.lowerBound, RawInterval.lowerBound, Interval.upperBound,
      RawInterval.upperBound, reduceCtorEq, false_and, exists_false, false_or, false_iff]
    rintro ⟨rfl, h⟩
    rw [e] at h; cases h
  | some q =>
    simp only [Interval.unboundedUpFrom, RawInterval.normalized, e, Option.elim, Interval.lowerBound, RawInterval.lowerBound, Interval.upperBound,
      RawInterval.upperBound, Option.some.injEq, Bound.incl.injEq, exists_eq_left']
    rw [(LawfulFinite.succ_none _).2 rfl, pred_eq_iff.2 e]
    constructor
    · rintro (h | h)
      · cases h; exact ⟨rfl, by rw [e]; rfl⟩
      · cases h
    · rintro ⟨rfl, -⟩; exact .inl rfl

/-- **C129.**  Cutting down by removing what is below and what is above, whatever the history of the selection: the values from
`l` to `u`, and an end of the window in addition if the complement lists it as a point. -/
theorem C129_minus_any (dbg : Bool) (s : Selection α) (hs : s.Reachable) (l u : α) (hlu : l ≤ u) :
    ∃ s', s.clipByMinus dbg l u = .ok s' ∧ s'.Reachable ∧
      s'.pts dbg = (s.pts dbg ∩ Set.Icc l u) ∪ {x | (x = l ∨ x = u) ∧ s.Pinhole dbg x} := by
  have h := Strip.ofTree_of hs
  have v := Selection.reachable_valid hs
  generalize Strip.ofTree s = p at h
  obtain ⟨s1, e1, h1⟩ := h.remove dbg (.unboundedUpTo l)
  obtain ⟨s2, e2, h2⟩ := h1.remove dbg (.unboundedUpFrom u)
  refine ⟨s2, by simp only [Selection.clipByMinus, e1, bind, Except.bind, e2], h2.1, Set.ext fun x => ?_⟩
  rw [Selection.mem_pts dbg (Selection.reachable_valid h2.1), Set.mem_union, Set.mem_inter_iff, Selection.mem_pts dbg v, Set.mem_ofPred_eq,
    Selection.pinhole_iff dbg v, h.hole, h.2.1, h2.2.1, Set.mem_Icc]
  have k : ∀ x, p.hole x = true → (pred x).isSome = true ∧ (succ x).isSome = true ∧ p.val x = false := fun x hx => by
    simp only [Strip.hole, Bool.and_eq_true, Bool.not_eq_true'] at hx
    refine ⟨?_, ?_, hx.1.1⟩
    · cases hp : pred x
      · rw [hp] at hx; exact hx.2
      · rfl
    · cases hp : succ x
      · rw [h.2.2.2 x hp] at hx; exact hx.1.2
      · rfl
  have k1 : ∀ x, (p.remove (.unboundedUpTo l)).val x = true ↔ (p.val x = true ∧ l ≤ x) ∨ (p.hole x = true ∧ x = l) := fun x => by
    simp only [Strip.remove, Bool.or_eq_true, Bool.and_eq_true, Interval.upTo_contains, Interval.upTo_beside, Bool.not_eq_true', decide_eq_false_iff_not, not_lt]
    exact or_congr_right (and_congr_right fun h => and_iff_left (k x h).1)
  have k2 : (p.remove (.unboundedUpTo l)).hole u = true → p.hole u = true := fun hu => by
    have h0 := k1 u
    simp only [Strip.hole, Strip.remove, Bool.and_eq_true, Bool.not_eq_true'] at hu h0 ⊢
    refine ⟨⟨?_, hu.1.2.1⟩, ?_⟩
    · cases hv : p.val u with
      | false => rfl
      | true => exact absurd (h0.2 (.inl ⟨hv, hlu⟩)) (by rw [hu.1.1]; decide)
    · obtain ⟨y, hy, h3⟩ := (Option.any_eq_true ..).1 hu.2
      exact (Option.any_eq_true ..).2 ⟨y, hy, (Bool.and_eq_true .. ▸ h3).1⟩
  have k3 : l < u → p.hole u = true → (p.remove (.unboundedUpTo l)).hole u = true := fun hl hu => by
    have h0 := k1 u
    have kj : ∀ z, l ≤ z → (Interval.unboundedUpTo l).joins z = false := fun z hz => by
      cases hj : (Interval.unboundedUpTo l).joins z with
      | false => rfl
      | true => exact absurd (Interval.upTo_joins l z hj) (not_lt.2 hz)
    have hv := (k u hu).2.2
    have hn : (p.remove (.unboundedUpTo l)).val u = false := by
      cases h' : (p.remove (.unboundedUpTo l)).val u with
      | false => rfl
      | true => rcases h0.1 h' with h' | h'
                · rw [hv] at h'; exact absurd h'.1 (by decide)
                · exact absurd h'.2 hl.ne'
    simp only [Strip.hole, Bool.and_eq_true, Bool.not_eq_true'] at hu ⊢
    refine ⟨⟨hn, by simp [Strip.remove, hu.1.2, kj u hlu]⟩, ?_⟩
    obtain ⟨y, hy, h3⟩ := (Option.any_eq_true ..).1 hu.2
    exact (Option.any_eq_true ..).2 ⟨y, hy, by simp [Strip.remove, h3, kj y ((LawfulFinite.pred_some u y hy).2 l hl)]⟩
  rw [Strip.remove, Bool.or_eq_true, Bool.and_eq_true, Bool.and_eq_true, k1, Interval.upFrom_contains, Interval.upFrom_beside, Bool.not_eq_true',
    decide_eq_false_iff_not, not_lt]
  clear h1 h2
  constructor
  · rintro (⟨⟨h1, h2⟩ | ⟨h1, rfl⟩, h3⟩ | ⟨h1, rfl, h2⟩)
    · exact .inl ⟨h1, h2, h3⟩
    · exact .inr ⟨.inl rfl, h1⟩
    · exact .inr ⟨.inr rfl, k2 h1⟩
  · rintro (⟨h1, h2, h3⟩ | ⟨rfl | rfl, h1⟩)
    · exact .inl ⟨.inl ⟨h1, h2⟩, h3⟩
    · exact .inl ⟨.inr ⟨h1, rfl⟩, hlu⟩
    · rcases hlu.lt_or_eq with hl | rfl
      · exact .inr ⟨k3 hl h1, rfl, (k _ h1).2.1⟩
      · exact .inl ⟨.inr ⟨h1, rfl⟩, le_rfl⟩

/-- What is left of 2 to 9 without 5, cut down to 5 to 7: 5 stays out, as it is no point of the complement any more. -/
example : ∃ s, (StripProg.remove (.collect [.mkClosed (u8 2) (u8 9)]) (.point (u8 5))).run true = .ok s ∧ s.Reachable ∧
    (do (← s.clipByMinus true (u8 5) (u8 7)).intervals true) = .ok [.mkClosed (u8 6) (u8 7)] := by
  obtain ⟨s, e, h⟩ := StripProg.of true (.remove (.collect [.mkClosed (u8 2) (u8 9)]) (.point (u8 5)))
    ⟨fun i hi => by rw [List.mem_singleton.1 hi]; exact .mkClosed _ _, .point _⟩
  refine ⟨s, e, h.1, ?_⟩
  have : (do (← (← (StripProg.remove (.collect [.mkClosed (u8 2) (u8 9)]) (.point (u8 5))).run true).clipByMinus true (u8 5) (u8 7)).intervals true) =
    .ok [.mkClosed (u8 6) (u8 7)] := by decide
  rwa [e] at this

end NI
