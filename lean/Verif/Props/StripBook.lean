import Verif.Props.StripMinus
import Verif.Props.Calendar

/-!
# C125: asking by `minus` what was booked by any program
-/

set_option linter.unusedVariables false
set_option linter.unusedSectionVars false

namespace NI
open _root_.NI.Finite TT
variable {α : Type} [LinearOrder α] [Finite α] [LawfulFinite α]

theorem Strip.of_interval {i : Interval α} (hi : i.Obtainable) : (Strip.nothing.add i : Strip α).Of (.ofInterval i) := by
  refine ⟨.ofInterval hi, fun x => ?_, fun x y hy => ?_, fun x hx => ?_⟩
  · have := Selection.ic_fin hi x
    rw [Selection.ic, show icov i.raw.denormalized = fun aft k => tcov (Tine.fromRawInterval i.raw.denormalized) aft k from rfl,
      ← Selection.ofInterval_tree hi] at this
    exact this.trans (by simp [Strip.add, Strip.nothing])
  · have := Selection.ic_joins hi hy
    rw [Selection.ic, show icov i.raw.denormalized = fun aft k => tcov (Tine.fromRawInterval i.raw.denormalized) aft k from rfl,
      ← Selection.ofInterval_tree hi] at this
    exact this.trans (by simp [Strip.add, Strip.nothing])
  · simp [Strip.add, Strip.nothing, Strip.joins_last i hx]

/-- An interval has no hole. -/
theorem Strip.interval_hole {i : Interval α} (hi : i.Obtainable) (x : α) : (Strip.nothing.add i : Strip α).hole x = false := by
  rw [Bool.eq_false_iff]
  intro hh
  simp only [Strip.hole, Strip.add, Strip.nothing, Bool.false_or, Bool.and_eq_true, Bool.not_eq_true'] at hh
  obtain ⟨⟨h1, h2⟩, h3⟩ := hh
  cases ha : pred x with
  | none => rw [ha] at h3; cases h3
  | some a =>
    rw [ha] at h3
    have hs := pred_eq_iff.1 ha
    have la := (LawfulFinite.pred_some x a ha).1
    cases hb : succ x with
    | none => simp [Interval.joins, hb] at h2
    | some b =>
      have lb := (LawfulFinite.succ_some x b hb).1
      simp only [Option.any_some, Interval.joins, hs, hb, h1, Bool.or_false, Bool.false_or, Bool.or_eq_true, Bool.and_eq_true,
        decide_eq_true_eq] at h2 h3
      clear hi hs hb ha
      obtain ⟨r⟩ := i
      cases r <;> simp [Interval.contains, RawInterval.contains, Interval.lowerBound, RawInterval.lowerBound, Interval.upperBound,
        RawInterval.upperBound] at h1 h2 h3 <;> grind

/-- **C125.**  Against what any program has booked, `Selection::from(i).minus(&booked)` equals `Selection::from(i)` exactly if
no value of `i` is booked, no two neighbours that `i` joins are joined in `booked`, and no booked value that is not joined to
its neighbours is beside `i`. -/
theorem C125_minus_any (dbg : Bool) (q : StripProg α) (hq : q.Legal) (i : Interval α) (hi : i.Obtainable) :
    ∃ t, q.run dbg = .ok t ∧ ((Selection.ofInterval i).minus dbg t = .ok (Selection.ofInterval i) ↔
      (∀ x, i.contains x = true → q.strip.val x = false) ∧ (∀ x, i.joins x = true → q.strip.joint x = false) ∧
      ∀ x, q.strip.flip.hole x = true → i.joins x = false ∧ (pred x).any i.joins = false) := by
  obtain ⟨t, e, g⟩ := StripProg.of dbg q hq
  have h := Strip.of_interval hi
  refine ⟨t, e, ?_⟩
  have hv : ∀ x, (Strip.nothing.add i : Strip α).val x = i.contains x := fun x => by simp [Strip.add, Strip.nothing]
  have hj : ∀ x, (Strip.nothing.add i : Strip α).joint x = i.joins x := fun x => by simp [Strip.add, Strip.nothing]
  have hj' : (Strip.nothing.add i : Strip α).joint = i.joins := funext hj
  have lone : ∀ x, q.strip.flip.hole x = true → q.strip.val x = true := fun x hx => by
    simp only [Strip.hole, Strip.flip, Bool.and_eq_true, Bool.not_not] at hx
    exact hx.1.1
  constructor
  · intro em
    have hc := h.minus_clear dbg g em h (fun x _ hx => hx) fun x _ => rfl
    obtain ⟨r, er, k⟩ := h.minus dbg g hc
    rw [em] at er; cases er
    have same := k.unique h
    have cv : ∀ x, i.contains x = true → q.strip.val x = false := fun x hx => by
      have := congrFun (congrArg Strip.val same) x
      simp only [Strip.minus, Strip.interval_hole hi, Bool.false_and, Bool.or_false, hv, hx, Bool.true_and] at this
      simpa using this
    refine ⟨cv, fun x hx => ?_, fun x hx => ?_⟩
    · have := congrFun (congrArg Strip.joint same) x
      simp only [Strip.minus, hj, hx, Bool.true_and] at this
      simpa using this
    · rcases hc x hx with h1 | h1
      · rw [hv] at h1
        exact absurd (lone x hx) (by simp [cv x h1])
      · rw [hj] at h1
        rwa [hj'] at h1
  · rintro ⟨h1, h2, h3⟩
    obtain ⟨r, er, k⟩ := h.minus dbg g fun x hx => .inr (by rw [hj, hj']; exact h3 x hx)
    have same : (Strip.nothing.add i : Strip α).minus q.strip = Strip.nothing.add i := by
      refine congrArg₂ Strip.mk (funext fun x => ?_) (funext fun x => ?_)
      · show ((Strip.nothing.add i : Strip α).val x && !q.strip.val x || (Strip.nothing.add i : Strip α).hole x && _) = _
        rw [Strip.interval_hole hi, hv, Bool.false_and, Bool.or_false]
        cases hx : i.contains x
        · simp [Strip.nothing]
        · simp [Strip.nothing, h1 x hx]
      · rw [hj]
        cases hx : i.joins x
        · simp [Strip.nothing]
        · simp [Strip.nothing, h2 x hx]
    rw [same] at k
    rw [er, k.determines h]

/-- 5 is booked and cancelled within 2 to 9, and can be booked again although 4 and 6 are booked; 10 cannot, nor can 4 beside
the lone 3 of the complement of `{2, 4}`. -/
example : (StripProg.remove (.collect [.mkClosed (u8 2) (u8 9)]) (.point (u8 5))).Legal ∧
    (do Selection.takenByMinus true (← (StripProg.remove (.collect [.mkClosed (u8 2) (u8 9)]) (.point (u8 5))).run true) (.point (u8 5))) = .ok false ∧
    (do Selection.takenByMinus true (← (StripProg.remove (.collect [.mkClosed (u8 2) (u8 9)]) (.point (u8 5))).run true) (.point (u8 10))) = .ok true ∧
    (do (Selection.ofInterval (.point (u8 4))).minus true (← (StripProg.complement (.points [u8 2, u8 4])).run true)) ≠
      .ok (Selection.ofInterval (.point (u8 4))) :=
  ⟨⟨fun i hi => by rw [List.mem_singleton.1 hi]; exact .mkClosed _ _, .point _⟩, by decide, by decide, by decide⟩

/-- **C125.**  So whatever was booked, a request that is let through by `minus` has no value that is booked. -/
theorem C125_minus_safe (dbg : Bool) (q : StripProg α) (hq : q.Legal) (i : Interval α) (hi : i.Obtainable) :
    ∃ t, q.run dbg = .ok t ∧ (t.takenByMinus dbg i = .ok false → ∀ x ∈ i.pts, x ∉ t.pts dbg) := by
  obtain ⟨t, e, h⟩ := C125_minus_any dbg q hq i hi
  obtain ⟨t', e', hv⟩ := C154_values dbg q hq
  rw [e] at e'; cases e'
  refine ⟨t, e, fun ht x hx hm => ?_⟩
  rw [Selection.takenByMinus] at ht
  cases hr : (Selection.ofInterval i).minus dbg t with
  | error z => rw [hr] at ht; cases ht
  | ok r =>
    rw [hr] at ht
    have : r = Selection.ofInterval i := by
      by_contra hn
      have : (Except.ok (decide (r ≠ Selection.ofInterval i)) : Except Panic Bool) = .ok false := ht
      rw [decide_eq_true hn] at this
      cases this
    subst this
    have h1 := (h.1 hr).1 x hx
    have h2 : t.contains dbg x = .ok true := hm
    rw [hv, h1] at h2
    cases h2

end NI
