import Verif.SpecWindow
import Verif.Props.StripPool
import Verif.Props.Clip

/-! # A window of received numbers (C155) -/

set_option linter.unusedVariables false
set_option linter.unusedSectionVars false

namespace NI
open _root_.NI.Finite TT
variable {α : Type} [LinearOrder α] [Finite α] [LawfulFinite α]

theorem Interval.to_contains (x y : α) : (Interval.unboundedTo x).contains y = true ↔ y ≤ x := by
  simp [Interval.unboundedTo, RawInterval.normalized, Interval.contains, RawInterval.contains, minimum_le]

theorem Interval.to_joins (x y : α) : (Interval.unboundedTo x).joins y = true ↔ y ≤ x ∧ (succ y).isSome = true := by
  rw [Interval.joins]
  cases hs : succ y with
  | none => simp
  | some z =>
    have hz := (LawfulFinite.succ_some y z hs).1
    simp only [Bool.or_eq_true, Bool.and_eq_true, decide_eq_true_eq, Interval.to_contains, Option.isSome_some, and_true]
    simp only [Interval.unboundedTo, RawInterval.normalized, Interval.lowerBound, RawInterval.lowerBound, Interval.upperBound,
      RawInterval.upperBound, Option.some.injEq, Bound.incl.injEq]
    constructor
    · rintro ((h | h) | ⟨h, -⟩)
      · exact h
      · exact hz.le.trans h
      · exact absurd (minimum_le y) (not_le.2 (h ▸ hz))
    · exact fun h => .inl (.inl h)

theorem Interval.to_beside (x y : α) : (Interval.unboundedTo x).beside y = true ↔ succ x = some y := by
  rw [Interval.beside_iff]
  simp only [Interval.unboundedTo, RawInterval.normalized, Interval.lowerBound, RawInterval.lowerBound, Interval.upperBound,
      RawInterval.upperBound, Option.some.injEq, Bound.incl.injEq, exists_eq_left']
  rw [(LawfulFinite.pred_none _).2 rfl]
  simp

/-- What holds of a window: nothing is joined that is not in on one side; a number is joined to the next, and, beyond the mark, to the
one before. -/
structure Strip.Windowed (m : Option α) (p : Strip α) : Prop where
  one : ∀ x, p.joint x = true → ∃ y, succ x = some y ∧ (p.val x = true ∨ p.val y = true)
  fwd : ∀ x y, succ x = some y → p.val x = true → p.joint x = true
  bwd : ∀ x y, succ x = some y → p.val y = true → (∀ d ∈ m, d < x) → p.joint x = true

theorem Strip.windowed_new (m : Option α) : (Strip.nothing : Strip α).Windowed m :=
  ⟨fun x h => (nomatch h), fun x y _ h => (nomatch h), fun x y _ h => (nomatch h)⟩

theorem Strip.Windowed.receive {m : Option α} {p : Strip α} (h : p.Windowed m) {i : Interval α} (hi : i.Obtainable) (hr : i.Real) :
    (p.add i).Windowed m := by
  refine ⟨fun x hx => ?_, fun x y hy hx => ?_, fun x y hy hx hd => ?_⟩
  · rw [Strip.add_joint, Bool.or_eq_true] at hx
    simp only [Strip.add_val, Bool.or_eq_true]
    rcases hx with hx | hx
    · obtain ⟨y, hy, a⟩ := h.one x hx
      exact ⟨y, hy, a.imp .inl .inl⟩
    · obtain ⟨y, hy, a⟩ := (Strip.stacked_interval hi hr).joint x (by simpa [Strip.add_joint, Strip.nothing] using hx)
      simp only [Strip.add_val, Strip.nothing, Bool.false_or] at a
      exact ⟨y, hy, a.imp .inr .inr⟩
  · rw [Strip.add_joint, Bool.or_eq_true]
    rw [Strip.add_val, Bool.or_eq_true] at hx
    exact hx.imp (h.fwd x y hy) fun c => by rw [Interval.joins, hy]; simp [c]
  · rw [Strip.add_joint, Bool.or_eq_true]
    rw [Strip.add_val, Bool.or_eq_true] at hx
    exact hx.imp (fun c => h.bwd x y hy c hd) fun c => by rw [Interval.joins, hy]; simp [c]

/-- The number that comes in wrongly. -/
theorem Strip.Windowed.gap {m : Option α} {p : Strip α} (h : p.Windowed m) {x : α} (hm : ∀ d ∈ m, d ≤ x) :
    (∀ y, (p.hole y && (Interval.unboundedTo x).beside y) = false) ↔ ¬ LoneGapAfter {x | p.val x = true} x := by
  constructor
  · rintro hh ⟨hx, y, z, hy, hz, vy, vz⟩
    have vy : p.val y = false := by rw [← Bool.not_eq_true]; exact vy
    have l := (LawfulFinite.succ_some x y hy).1
    have := hh y
    rw [(Interval.to_beside x y).2 hy, Bool.and_true, Strip.hole, vy, h.bwd y z hz vz fun d hd => (hm d hd).trans_lt l,
      pred_eq_iff.2 hy, Option.any_some, h.fwd x y hy hx] at this
    cases this
  · intro hn y
    rw [Bool.eq_false_iff]
    intro hc
    rw [Bool.and_eq_true, Interval.to_beside] at hc
    obtain ⟨hh, hy⟩ := hc
    rw [Strip.hole, pred_eq_iff.2 hy, Option.any_some] at hh
    simp only [Bool.and_eq_true, Bool.not_eq_true'] at hh
    obtain ⟨⟨v, j2⟩, j1⟩ := hh
    obtain ⟨y', e, a⟩ := h.one x j1
    rw [hy] at e; cases e
    obtain ⟨z, hz, b⟩ := h.one y j2
    rw [v] at a b
    simp only [Bool.false_eq_true, or_false, false_or] at a b
    exact hn ⟨a, y, z, hy, hz, by simp [v], b⟩

theorem Strip.Windowed.drop {m : Option α} {p : Strip α} (h : p.Windowed m) {x : α} (hm : ∀ d ∈ m, d ≤ x)
    (hh : ∀ y, (p.hole y && (Interval.unboundedTo x).beside y) = false) : (p.remove (.unboundedTo x)).Windowed (some x) := by
  have hv : ∀ y, (p.remove (.unboundedTo x)).val y = true ↔ p.val y = true ∧ x < y := fun y => by
    rw [Strip.remove_val, hh, Bool.or_false, Bool.and_eq_true, Bool.not_eq_true', ← Bool.not_eq_true, Interval.to_contains, not_le]
  have hj : ∀ y, (p.remove (.unboundedTo x)).joint y = true ↔ p.joint y = true ∧ ¬ (y ≤ x ∧ (succ y).isSome = true) := fun y => by
    rw [Strip.remove_joint, Bool.and_eq_true, Bool.not_eq_true', ← Bool.not_eq_true, Interval.to_joins]
  refine ⟨fun y hy => ?_, fun y z hz hy => ?_, fun y z hz hy hd => ?_⟩
  · obtain ⟨a, b⟩ := (hj y).1 hy
    obtain ⟨z, hz, c⟩ := h.one y a
    have l := (LawfulFinite.succ_some y z hz).1
    have b : x < y := by
      by_contra hc
      exact b ⟨not_lt.1 hc, by rw [hz]; rfl⟩
    exact ⟨z, hz, c.imp (fun c => (hv y).2 ⟨c, b⟩) fun c => (hv z).2 ⟨c, b.trans l⟩⟩
  · obtain ⟨a, b⟩ := (hv y).1 hy
    exact (hj y).2 ⟨h.fwd y z hz a, fun c => absurd b (not_lt.2 c.1)⟩
  · have hx := hd x rfl
    exact (hj y).2 ⟨h.bwd y z hz ((hv z).1 hy).1 fun d hd' => (hm d hd').trans_lt hx, fun c => absurd hx (not_lt.2 c.1)⟩

/-- **C155.**  With `minus_in_place` the window never panics, and has exactly the numbers it should have as long as drops do not go back
and no drop is up to a received number after which exactly one is missing; the first drop that is goes wrong. -/
theorem C155_exact (dbg : Bool) (cs : List (WindowCall α)) (hc : ∀ i, .receive i ∈ cs → i.Obtainable ∧ i.Real) :
    ∃ s, (Selection.new : Selection α).window (Selection.dropInPlace dbg) dbg cs = .ok s ∧ (CarefulWindow none ∅ cs →
      s.pts dbg = windowSet ∅ cs ∧ ∀ x, (∀ d ∈ windowMark none cs, d ≤ x) →
        ((∃ s1, s.dropInPlace dbg x = .ok s1 ∧ s1.pts dbg = s.pts dbg \ Set.Iic x) ↔ ¬ LoneGapAfter (s.pts dbg) x)) := by
  have mem : ∀ {s : Selection α} {p : Strip α}, p.Of s → s.pts dbg = {x | p.val x = true} := fun {s p} h => by
    ext x; rw [Selection.mem_pts dbg (Selection.reachable_valid h.1), h.2.1]; rfl
  have rem : ∀ {p : Strip α} {x : α}, (∀ y, (p.hole y && (Interval.unboundedTo x).beside y) = false) ↔
      {y | (p.remove (.unboundedTo x)).val y = true} = {y | p.val y = true} \ Set.Iic x := fun {p x} => by
    rw [Set.ext_iff]
    refine forall_congr' fun y => ?_
    have h1 := Interval.to_contains x y
    have h2 : p.hole y = true → p.val y = false := fun h => by
      simp only [Strip.hole, Bool.and_eq_true, Bool.not_eq_true'] at h
      exact h.1.1
    have h3 : (Interval.unboundedTo x).beside y = true → (Interval.unboundedTo x).contains y = false := fun h => by
      rw [← Bool.not_eq_true, h1, not_le]
      exact (LawfulFinite.succ_some x y ((Interval.to_beside x y).1 h)).1
    simp only [Set.mem_ofPred_eq, Set.mem_sdiff, Set.mem_Iic, ← h1, Strip.remove_val]
    generalize p.hole y = a at *
    generalize p.val y = b at *
    generalize (Interval.unboundedTo x).contains y = c at *
    generalize (Interval.unboundedTo x).beside y = d at *
    clear * - h2 h3
    cases a <;> cases b <;> cases c <;> cases d <;> simp_all
  have hu : ∀ x : α, (Interval.unboundedTo x).Obtainable := fun x => .unboundedTo x
  have main : ∀ (cs : List (WindowCall α)), (∀ i, .receive i ∈ cs → i.Obtainable ∧ i.Real) → ∀ (s : Selection α) (p : Strip α)
      (m : Option α), p.Of s → ∃ s', s.window (Selection.dropInPlace dbg) dbg cs = .ok s' ∧ (p.Windowed m → CarefulWindow m (s.pts dbg) cs →
      s'.pts dbg = windowSet (s.pts dbg) cs ∧ ∀ x, (∀ d ∈ windowMark m cs, d ≤ x) →
        ((∃ s1, s'.dropInPlace dbg x = .ok s1 ∧ s1.pts dbg = s'.pts dbg \ Set.Iic x) ↔ ¬ LoneGapAfter (s'.pts dbg) x)) := by
    intro cs
    induction cs with
    | nil =>
      refine fun _ s p m hp => ⟨s, rfl, fun k _ => ⟨rfl, fun x hm => ?_⟩⟩
      rw [mem hp, ← k.gap hm, rem]
      obtain ⟨s1, e1, h1⟩ := hp.remove dbg (hu x)
      rw [Selection.dropInPlace, e1]
      simp only [Except.ok.injEq, exists_eq_left', mem h1]
    | cons c cs ih =>
      intro hc s p m hp
      have ih := ih fun i h => hc i (.tail _ h)
      cases c with
      | receive i =>
        obtain ⟨hi, hr⟩ := hc i (.head _)
        obtain ⟨s1, e1, h1⟩ := hp.add dbg hi
        obtain ⟨s', e', r⟩ := ih s1 _ m h1
        refine ⟨s', by simp only [Selection.window, e1, e', bind, Except.bind], fun k hu => ?_⟩
        have hpt : s1.pts dbg = s.pts dbg ∪ i.pts := by
          ext y
          rw [mem h1, mem hp]
          simp only [Set.mem_ofPred_eq, Set.mem_union, Strip.add_val, Bool.or_eq_true]; rfl
        rw [hpt] at r
        cases hu with
        | receive hu => exact r (k.receive hi hr) hu
      | drop x =>
        obtain ⟨s1, e1, h1⟩ := hp.remove dbg (hu x)
        obtain ⟨s', e', r⟩ := ih s1 _ (some x) h1
        refine ⟨s', by simp only [Selection.window, Selection.dropInPlace, e1, e', bind, Except.bind], fun k hu => ?_⟩
        cases hu with
        | drop hm hg hu =>
          have hh := (k.gap hm).2 (by rw [← mem hp]; exact hg)
          have hpt : s1.pts dbg = s.pts dbg \ Set.Iic x := by rw [mem h1, mem hp]; exact rem.1 hh
          rw [hpt] at r
          exact r (k.drop hm hh) hu
  obtain ⟨s, e, r⟩ := main cs hc .new _ none Strip.of_new
  refine ⟨s, e, fun hu => ?_⟩
  have hn : (Selection.new : Selection α).pts dbg = ∅ := by
    rw [mem Strip.of_new]; ext x; simp [Strip.nothing]
  rw [hn] at r
  exact r (Strip.windowed_new _) hu

/-- 1 to 3 and 6 received, then dropped up to 3, then 5 received. -/
example : CarefulWindow none ∅ [.receive (.mkClosed (u8 1) (u8 3)), .receive (.point (u8 6)), .drop (u8 3), .receive (.point (u8 5))] ∧
    (do (← (Selection.new : Selection U8).window (Selection.dropInPlace true) true
      [.receive (.mkClosed (u8 1) (u8 3)), .receive (.point (u8 6)), .drop (u8 3), .receive (.point (u8 5))]).intervals true) =
      .ok [.mkClosed (u8 5) (u8 6)] := by
  refine ⟨.receive (.receive (.drop (by simp) ?_ (.receive (.nil _ _)))), by decide⟩
  rintro ⟨-, y, z, hy, hz, -, h⟩
  have : succ (u8 3) = some (u8 4) := by decide
  rw [this] at hy; cases hy
  have : succ (u8 4) = some (u8 5) := by decide
  rw [this] at hz; cases hz
  have : ∀ x : U8, x ∈ (∅ ∪ (Interval.mkClosed (u8 1) (u8 3)).pts ∪ (Interval.point (u8 6)).pts : Set U8) ↔
    (Interval.mkClosed (u8 1) (u8 3)).contains x = true ∨ (Interval.point (u8 6)).contains x = true := fun x => by
      simp only [Set.empty_union, Set.mem_union]; rfl
  rw [this] at h
  revert h; decide

/-- **C155.**  By complements the window is always right, also if drops go back. -/
theorem C155_by_complement (dbg : Bool) (cs : List (WindowCall α)) (hc : ∀ i, .receive i ∈ cs → i.Obtainable) (s : Selection α)
    (hs : s.Reachable) : ∃ s', s.window (Selection.dropByComplement dbg) dbg cs = .ok s' ∧ s'.Reachable ∧
      s'.pts dbg = windowSet (s.pts dbg) cs := by
  induction cs generalizing s with
  | nil => exact ⟨s, rfl, hs, rfl⟩
  | cons c cs ih =>
    have ih := ih fun i h => hc i (.tail _ h)
    cases c with
    | receive i =>
      obtain ⟨s1, e1, r1, p1⟩ := C48_union_in_place dbg s hs i (hc i (.head _))
      obtain ⟨s', e, r, p⟩ := ih s1 r1
      rw [p1] at p
      exact ⟨s', by simp only [Selection.window, e1, e, bind, Except.bind], r, p⟩
    | drop x =>
      obtain ⟨c1, e1, r1, p1⟩ := Selection.complement_right dbg s hs
      obtain ⟨c2, e2, r2, p2⟩ := C48_union_in_place dbg c1 r1 (.unboundedTo x) (.unboundedTo x)
      obtain ⟨c3, e3, r3, p3⟩ := Selection.complement_right dbg c2 r2
      obtain ⟨s', e, r, p⟩ := ih c3 r3
      have : c3.pts dbg = s.pts dbg \ Set.Iic x := by
        rw [p3, p2, p1]
        ext y
        have := Interval.to_contains x y
        simp only [Set.mem_compl_iff, Set.mem_union, Set.mem_sdiff, Set.mem_Iic, ← this, not_or, not_not]
        rfl
      rw [this] at p
      exact ⟨s', by simp only [Selection.window, Selection.dropByComplement, e1, e2, e3, e, bind, Except.bind], r, p⟩

example : (do (← (Selection.new : Selection U8).window (Selection.dropByComplement true) true
      [.receive (.mkClosed (u8 1) (u8 3)), .receive (.point (u8 5)), .drop (u8 3)]).intervals true) = .ok [⟨.closed (u8 5) (u8 5)⟩] ∧
    (Selection.new : Selection U8).Reachable := ⟨by decide, .new⟩

/-- **C155.**  1 to 3 and 5 have come and are dropped up to 3, as all before the gap has been dealt with: then 4 counts as received. -/
theorem C155_counterexample (dbg : Bool) :
    (do (← (Selection.new : Selection U8).window (Selection.dropInPlace dbg) dbg
      [.receive (.mkClosed (u8 1) (u8 3)), .receive (.point (u8 5)), .drop (u8 3)]).contains dbg (u8 4)) = .ok true := by
  cases dbg <;> decide

/-- **C155.**  If drops may go back, the condition is no longer the same: 4 to 6 come and are dropped up to 5, and 4 comes once more.
Then 5 alone is missing between 4 and 6, but dropping up to 4 is right. -/
theorem C155_back_counterexample (dbg : Bool) :
    (do (← (Selection.new : Selection U8).window (Selection.dropInPlace dbg) dbg
      [.receive (.mkClosed (u8 4) (u8 6)), .drop (u8 5), .receive (.point (u8 4))]).intervals dbg) =
      .ok [⟨.closed (u8 4) (u8 4)⟩, ⟨.closed (u8 6) (u8 6)⟩] ∧
    (do (← (Selection.new : Selection U8).window (Selection.dropInPlace dbg) dbg
      [.receive (.mkClosed (u8 4) (u8 6)), .drop (u8 5), .receive (.point (u8 4)), .drop (u8 4)]).contains dbg (u8 5)) = .ok false := by
  cases dbg <;> decide

end NI
