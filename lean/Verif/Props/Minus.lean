import Verif.Lemmas.Frame
import Verif.Props.Canon

/-!
# What `minus` gives: more on C42
-/

set_option linter.unusedSimpArgs false
set_option linter.unusedVariables false
set_option linter.unusedSectionVars false

namespace NI
open TT
variable {α : Type} [LinearOrder α]

theorem TT.endAt_iff (i : RawInterval α) (x : α) : EndAt i (.fin x) ↔ i.IsBound x := by
  cases i <;> simp [EndAt, Tine.fromRawInterval, RawInterval.IsBound, RawInterval.lowerBound,
    RawInterval.upperBound, Bound.asRef, Tine.key]

/-! ## C42 -/

/-- What `minus` gives if the single points of the right tree are not excluded ends of the left one: the
difference, and in addition every single missing point of the left tree at which an interval of the right
one starts or ends. -/
theorem C42_formula (dbg : Bool) (a b : TineTree α) (ha : a.Reachable) (hb : b.Reachable)
    (as bs : List (RawInterval α)) (has : TineTree.intervals dbg a = .ok as)
    (hbs : TineTree.intervals dbg b = .ok bs)
    (hp : ∀ p, .point p ∈ bs → ¬ RawInterval.OpenEnd as p ∧ ¬ RawInterval.OpenStart as p) :
    ∃ t, TineTree.minus dbg a b = .ok t ∧ t.Reachable ∧
      ∀ x, TineTree.contains dbg t x = .ok true ↔
        ((TineTree.contains dbg a x = .ok true ∧ TineTree.contains dbg b x = .ok false) ∨
          (RawInterval.Hole as x ∧ ∃ o ∈ bs, o.IsBound x)) := by
  have va := TT.reachable_valid ha
  have vb := TT.reachable_valid hb
  rw [TT.intervals_eq dbg va] at has
  rw [TT.intervals_eq dbg vb] at hbs
  cases has; cases hbs
  obtain ⟨t, e, v, c⟩ := TT.minus_eq dbg va vb fun p h => TT.minusOk_of_safe va (i := .point p) trivial
    ⟨fun q hq => by cases hq; exact hp p h, fun h2 => absurd rfl (h2.2 p)⟩
  refine ⟨t, e, TT.valid_reachable v, fun x => ?_⟩
  rw [TT.contains_iff dbg v, TT.contains_iff dbg va, TT.contains_ok dbg vb, c,
    show RawInterval.Hole (TT.pieces none a) x ↔ TT.holeAt a (.fin x) = true from (TT.hole_iff va x).symm]
  simp only [TT.endAt_iff, Bool.or_eq_true, Bool.and_eq_true, Bool.not_eq_true', Bool.not_false, true_and,
    decide_eq_true_eq, Except.ok.injEq]

example : (TineTree.demo [.closed (0 : Int) 9]).Reachable ∧
    TineTree.intervals true (TineTree.demo [.closed (0 : Int) 9]) = .ok [.closed 0 9] ∧
    TineTree.intervals true (TineTree.demo [.point (4 : Int), .closed 6 20]) = .ok [.point 4, .closed 6 20] ∧
    (∀ p, RawInterval.point p ∈ [.point (4 : Int), .closed 6 20] →
      ¬ RawInterval.OpenEnd [.closed 0 9] p ∧ ¬ RawInterval.OpenStart [.closed 0 9] p) ∧
    TineTree.minus true (TineTree.demo [.closed (0 : Int) 9]) (TineTree.demo [.point 4, .closed 6 20]) =
      .ok (TineTree.demo [.rightOpen 0 4, .opn 4 6]) := by
  refine ⟨TineTree.fromIter_reachable (dbg := true) (is := [.closed 0 9]) (by simp [RawInterval.WF]) rfl, by decide,
    by decide, ?_, by decide⟩
  rintro p -
  constructor <;> rintro ⟨i, hi, h⟩ <;> simp only [List.mem_singleton] at hi <;> subst hi <;> cases h

/-- Under the same condition `minus` is right if and only if no interval of the right tree starts or ends
at a single missing point of the left one. -/
theorem C42_exact_iff (dbg : Bool) (a b : TineTree α) (ha : a.Reachable) (hb : b.Reachable)
    (as bs : List (RawInterval α)) (has : TineTree.intervals dbg a = .ok as)
    (hbs : TineTree.intervals dbg b = .ok bs)
    (hp : ∀ p, .point p ∈ bs → ¬ RawInterval.OpenEnd as p ∧ ¬ RawInterval.OpenStart as p) :
    (∃ t, TineTree.minus dbg a b = .ok t ∧
      ∀ x, TineTree.contains dbg t x = .ok true ↔
        (TineTree.contains dbg a x = .ok true ∧ TineTree.contains dbg b x = .ok false)) ↔
    ∀ o ∈ bs, RawInterval.RemovalSafe as o := by
  constructor
  · rintro ⟨t, e, h⟩ o ho
    obtain ⟨t', e', -, c⟩ := C42_formula dbg a b ha hb as bs has hbs hp
    rw [e] at e'; cases e'
    refine ⟨fun p hq => hp p (hq ▸ ho), fun _ p hb hh => ?_⟩
    have h1 := ((h p).1 ((c p).2 (.inr ⟨hh, o, ho, hb⟩))).1
    have va := TT.reachable_valid ha
    rw [TT.intervals_eq dbg va] at has
    cases has
    have h2 := ((TT.open_upper_iff va p).1 hh.1).2
    rw [TT.contains_iff dbg va, h2] at h1
    cases h1
  · intro h
    obtain ⟨t, e, -, c⟩ := C42_minus_partial dbg a b ha hb as bs has hbs h
    exact ⟨t, e, c⟩

example : RawInterval.RemovalSafe [.opn (0 : Int) 3, .opn 4 9] (.closed 2 5) ∧
    TineTree.minus true (TineTree.demo [.opn (0 : Int) 3, .opn 4 9]) (TineTree.demo [.closed 2 5]) =
      .ok (TineTree.demo [.opn 0 2, .opn 5 9]) := by
  refine ⟨⟨fun p h => (by cases h), fun _ p h => ?_⟩, by decide⟩
  rintro ⟨⟨i, hi, h1⟩, ⟨j, hj, h2⟩⟩
  simp only [List.mem_cons, List.not_mem_nil, or_false] at hi hj
  rcases hi with rfl | rfl <;> rcases hj with rfl | rfl <;> cases h1 <;> cases h2

/-- On dense unbounded orders, without any condition: `minus` is right and leaves a proper tree if and only
if every interval of the right tree can be removed safely from the left one. -/
theorem C42_dense_iff [DenselyOrdered α] [NoMinOrder α] [NoMaxOrder α] [Nonempty α] (dbg : Bool)
    (a b : TineTree α) (ha : a.Reachable) (hb : b.Reachable) (as bs : List (RawInterval α))
    (has : TineTree.intervals dbg a = .ok as) (hbs : TineTree.intervals dbg b = .ok bs) :
    (∃ t, TineTree.minus dbg a b = .ok t ∧ t.Reachable ∧
      ∀ x, TineTree.contains dbg t x = .ok true ↔
        (TineTree.contains dbg a x = .ok true ∧ TineTree.contains dbg b x = .ok false)) ↔
    ∀ o ∈ bs, RawInterval.RemovalSafe as o := by
  refine ⟨?_, C42_minus_partial dbg a b ha hb as bs has hbs⟩
  rintro ⟨t, e, r, h⟩
  refine (C42_exact_iff dbg a b ha hb as bs has hbs fun p hp => ?_).1 ⟨t, e, h⟩
  have va := TT.reachable_valid ha
  have vb := TT.reachable_valid hb
  have v := TT.reachable_valid r
  rw [TT.intervals_eq dbg va] at has
  rw [TT.intervals_eq dbg vb] at hbs
  cases has; cases hbs
  refine TT.safe_of_minusOk va (TT.minus_dense dbg va vb v e (fun x => ?_) hp)
  have := h x
  rw [TT.contains_iff dbg v, TT.contains_iff dbg va, TT.contains_ok dbg vb, Except.ok.injEq] at this
  rw [Bool.eq_iff_iff, this, Bool.and_eq_true, Bool.not_eq_true']

/-- Without density a removal that goes wrong on the way can end well: taking `3` from `(3,5)` breaks the
tree, and taking `4..9` mends it. -/
example : TineTree.minus true (TineTree.demo [.opn (3 : Int) 5]) (TineTree.demo [.point 3, .closed 4 9]) =
      .ok TineTree.new ∧
    ¬ RawInterval.RemovalSafe [.opn (3 : Int) 5] (.point 3) :=
  ⟨by decide, fun h => (h.1 3 rfl).2 ⟨.opn 3 5, by simp, rfl⟩⟩

/-- A hole at the end of one of the two intervals taken away. -/
example : TineTree.minus true (TineTree.demo [.opn (0 : Int) 3, .opn 3 9]) (TineTree.demo [.closed 3 5, .closed 7 8]) =
    .ok (TineTree.demo [.leftOpen 0 3, .opn 5 7, .opn 8 9]) := by decide
example : TineTree.intervals true (TineTree.demo [.opn (0 : Int) 3, .opn 3 9]) = .ok [.opn 0 3, .opn 3 9] ∧
    RawInterval.Hole [.opn (0 : Int) 3, .opn 3 9] 3 ∧ (RawInterval.closed (3 : Int) 5).IsBound 3 :=
  ⟨by decide, ⟨⟨.opn 0 3, by simp, rfl⟩, .opn 3 9, by simp, rfl⟩, .inl ⟨.incl 3, rfl, rfl⟩⟩
example : ∀ p, RawInterval.point p ∈ [.closed (3 : Int) 5, .closed 7 8] →
    ¬ RawInterval.OpenEnd [.opn 0 3, .opn 3 9] p ∧ ¬ RawInterval.OpenStart [.opn 0 3, .opn 3 9] p := by
  intro p h
  simp at h

end NI
