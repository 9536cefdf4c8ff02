import Verif.Lemmas.TreeEnc
import Verif.Props.Raw
import Mathlib.Data.Int.Order.Basic
import Mathlib.Algebra.Order.Field.Rat

/-!
# Properties C34–C47: the tine tree

`dbg` says whether debug assertions are compiled in; every statement is for both builds.  A result
`.ok _` means that no panic happened.
-/

set_option linter.unusedSimpArgs false
set_option linter.unusedVariables false
set_option linter.unusedSectionVars false
set_option linter.unusedTactic false
set_option linter.unreachableTactic false

namespace NI
variable {α : Type} [LinearOrder α]

/-- Trees used in the examples. -/
def TineTree.demo (is : List (RawInterval Int)) : TineTree Int :=
  (TineTree.fromIter true is).toOption.getD []

theorem TineTree.fromIter_reachable {dbg : Bool} {is : List (RawInterval α)} (h : ∀ i ∈ is, i.WF)
    {t : TineTree α} (e : TineTree.fromIter dbg is = .ok t) : t.Reachable :=
  TT.fold_reachable .new h e

/-! ## C34 -/

theorem Tine.Occurs.ok {x : Tine α} (h : x.Occurs) : x.Ok := by
  rcases h with ⟨i, hi, hx⟩ | ⟨t, ht, hx⟩
  · exact (TT.fromRaw_valid hi).1.1 x hx
  · exact (TT.reachable_valid ht).1.1 x hx

theorem Tine.pos_eq (x : Tine α) : x.pos = x.key.toW := by
  rcases x with (a | a | _) | (a | a | _) | (a | a | _) <;> rfl

/-- Comparing two tines that occur never reaches the `unreachable!` branch, and compares where they
sit on the extended line.  In particular it is a total preorder. -/
theorem C34_cmp (s o : Tine α) (hs : s.Occurs) (ho : o.Occurs) :
    (s.cmp? o).isSome = true ∧ (s.cmp o = .lt ↔ s.pos < o.pos) ∧
    (s.cmp o = .eq ↔ s.pos = o.pos) ∧ (s.cmp o = .gt ↔ o.pos < s.pos) := by
  rw [Tine.pos_eq, Tine.pos_eq, Key.toW_inj.eq_iff, ← Key.lt_def, ← Key.lt_def, Tine.cmp,
    Tine.cmp?_eq hs.ok ho.ok]
  rcases lt_trichotomy s.key o.key with h | h | h
  · simp [h, h.ne, h.not_gt]
  · simp [h]
  · simp [h, h.ne', h.not_gt]

example : (Tine.lower (.excl (3 : Int))).Occurs := .inl ⟨.opn 3 5, by decide, by decide⟩
example : (Tine.point (.excl (3 : Int))).Occurs :=
  .inr ⟨[.lower .inf, .point (.excl 3), .upper .inf],
    .complement (dbg := true) (.fromRaw (i := .point 3) trivial) (by decide), by decide⟩

/-- A tree never holds two tines at the same place, and is sorted by the comparison. -/
theorem C34_sorted (t : TineTree α) (ht : t.Reachable) :
    t.Pairwise fun a b => a.cmp b = .lt := by
  have h := TT.reachable_valid ht
  refine h.1.2.imp_of_mem fun ha hb hab => Tine.cmp_lt (h.1.1 _ ha) (h.1.1 _ hb) hab

example : (TineTree.demo [.opn 5 9, .closed 0 2, .point 4]).Reachable ∧
    TineTree.demo [.opn 5 9, .closed 0 2, .point 4] =
      [.lower (.incl 0), .upper (.incl 2), .point (.incl 4), .lower (.excl 5), .upper (.excl 9)] :=
  ⟨TineTree.fromIter_reachable (dbg := true) (is := [.opn 5 9, .closed 0 2, .point 4]) (by simp [RawInterval.WF]) rfl,
    by decide⟩

/-! ## C35 -/

/-- A tree made from one interval contains that interval's points and iterates over that
interval. -/
theorem C35_from_raw (dbg : Bool) (i : RawInterval α) (hi : i.WF) :
    (TineTree.fromRawInterval i).Reachable ∧
    (∀ x, TineTree.contains dbg (TineTree.fromRawInterval i) x = .ok (i.contains x)) ∧
    TineTree.intervals dbg (TineTree.fromRawInterval i) =
      .ok (if i = .empty then [] else [i]) := by
  have hv := TT.fromRaw_valid hi
  refine ⟨.fromRaw hi, fun x => ?_, ?_⟩
  · rw [TT.tree_fromRaw hi, TT.contains_ok dbg hv, ← TT.icov_fin hi]; rfl
  · rw [TT.tree_fromRaw hi, TT.intervals_eq dbg hv]
    cases i <;> first
      | rfl
      | (simp only [RawInterval.WF] at hi
         simp [Tine.fromRawInterval, TT.pieces, RawInterval.new, RawInterval.mkClosed,
           RawInterval.mkOpen, RawInterval.mkLeftOpen, RawInterval.mkRightOpen, hi])

example : (RawInterval.leftOpen (2 : Int) 7).WF := by decide

/-- `contains` never panics, and gives the same answer in both builds. -/
theorem C35_contains_total (dbg : Bool) (t : TineTree α) (ht : t.Reachable) (x : α) :
    ∃ b, TineTree.contains dbg t x = .ok b ∧ TineTree.contains (!dbg) t x = .ok b := by
  have h := TT.reachable_valid ht
  exact ⟨_, TT.contains_ok dbg h x, TT.contains_ok _ h x⟩

example : TineTree.contains true (TineTree.demo [.closed 0 9, .upFrom 20]) 20 = .ok false ∧
    TineTree.contains true (TineTree.demo [.closed 0 9, .upFrom 20]) 21 = .ok true := by decide

theorem TT.contains_iff (dbg : Bool) {t : TineTree α} (h : TT.Valid t) (x : α) :
    TineTree.contains dbg t x = .ok true ↔ TT.tcov t false (.fin x) = true := by
  rw [TT.contains_ok dbg h, Except.ok.injEq]

/-! ## C36 -/

/-- `union_in_place` never panics and adds exactly the interval's points. -/
theorem C36_union_in_place (dbg : Bool) (t : TineTree α) (ht : t.Reachable) (i : RawInterval α)
    (hi : i.WF) : ∃ t', TineTree.unionInPlace dbg t i = .ok t' ∧ t'.Reachable ∧
      ∀ x, TineTree.contains dbg t' x = .ok true ↔
        (TineTree.contains dbg t x = .ok true ∨ i.contains x = true) := by
  have h := TT.reachable_valid ht
  obtain ⟨t', e, v, c⟩ := TT.unionInPlace_ok dbg h hi
  refine ⟨t', e, TT.valid_reachable v, fun x => ?_⟩
  rw [TT.contains_iff dbg v, TT.contains_iff dbg h, c, TT.icov_fin hi, Bool.or_eq_true]

example : TineTree.unionInPlace true (TineTree.demo [.closed 0 2, .closed 5 9]) (.opn 1 5) =
    .ok (TineTree.demo [.closed 0 9]) := by decide

/-! ## C37 -/

theorem TT.minusOk_of_safe {t : TineTree α} (h : TT.Valid t) {i : RawInterval α} (hi : i.WF)
    (hs : RawInterval.RemovalSafe (TT.pieces none t) i) : TT.MinusOk t i := by
  obtain ⟨h1, h2⟩ := hs
  have hpt : ∀ p, i = .point p → TT.MinusOk t i := by
    rintro p rfl
    obtain ⟨g1, g2⟩ := h1 p rfl
    rw [RawInterval.OpenEnd, TT.open_upper_iff h] at g1
    rw [RawInterval.OpenStart, TT.open_lower_iff h] at g2
    simp only [TT.MinusOk]
    cases e1 : TT.tcov t false (.fin p) with
    | true => exact .inl rfl
    | false =>
      rw [e1] at g1 g2
      refine .inr ⟨?_, ?_⟩ <;> simp_all
  by_cases hp : ∃ p, i = .point p
  · exact hpt _ hp.choose_spec
  · have hne : ∀ p, i ≠ .point p := fun p hpp => hp ⟨p, hpp⟩
    have key : ∀ x ∈ Tine.fromRawInterval i, TT.holeAt t x.key = false := by
      intro x hx
      have hemp : i ≠ .empty := by rintro rfl; simp [Tine.fromRawInterval] at hx
      have h3 := h2 ⟨hemp, hne⟩
      have : ∀ p, x.key = .fin p → i.IsBound p := by
        intro p hp
        cases i <;> simp [Tine.fromRawInterval] at hx <;>
          (try rcases hx with rfl | rfl) <;> (try subst hx) <;>
          simp [Tine.key] at hp <;>
          simp [RawInterval.IsBound, RawInterval.lowerBound, RawInterval.upperBound, Bound.asRef, hp]
      cases hk : x.key with
      | bot => exact (TT.hole_inf h).1
      | top => exact (TT.hole_inf h).2
      | fin p =>
        rw [Bool.eq_false_iff, ne_eq, TT.hole_iff h]
        exact h3 p (this p hk)
    cases i <;> first
      | exact absurd rfl (hne _)
      | exact key

/-- `minus_in_place` never panics and removes exactly the interval's points, provided the removed
interval does not touch an excluded point of the tree (see `RemovalSafe`; `is` are the intervals the
tree iterates over).
Missing from the full property: the remaining cases, in which it is wrong, see
`C37_counterexample`. -/
theorem C37_minus_in_place_partial (dbg : Bool) (t : TineTree α) (ht : t.Reachable)
    (i : RawInterval α) (hi : i.WF) (is : List (RawInterval α))
    (his : TineTree.intervals dbg t = .ok is) (hs : RawInterval.RemovalSafe is i) :
    ∃ t', TineTree.minusInPlace dbg t i = .ok t' ∧ t'.Reachable ∧
      ∀ x, TineTree.contains dbg t' x = .ok true ↔
        (TineTree.contains dbg t x = .ok true ∧ i.contains x = false) := by
  have h := TT.reachable_valid ht
  rw [TT.intervals_eq dbg h] at his
  cases his
  obtain ⟨t', e, v, c, -⟩ := TT.minusInPlace_ok dbg h hi (TT.minusOk_of_safe h hi hs)
  refine ⟨t', e, TT.valid_reachable v, fun x => ?_⟩
  rw [TT.contains_iff dbg v, TT.contains_iff dbg h, c, TT.icov_fin hi, Bool.and_eq_true,
    Bool.not_eq_true']

example : TineTree.minusInPlace true (TineTree.demo [.closed 0 9, .opn 20 30]) (.leftOpen 4 25) =
    .ok (TineTree.demo [.closed 0 4, .opn 25 30]) := by decide
example : RawInterval.RemovalSafe [.closed (0 : Int) 9, .opn 20 30] (.leftOpen 4 25) := by
  refine ⟨fun p h => (by cases h), fun _ p hp => ?_⟩
  simp [RawInterval.IsBound, RawInterval.lowerBound, RawInterval.upperBound, Bound.asRef] at hp
  rintro ⟨h1, h2⟩
  simp [RawInterval.OpenEnd, RawInterval.upperBound] at h1
  omega

/-- Exactly what removing a two-ended interval does: it removes the interval's points, and it *adds*
those bounds of the interval that are holes of the tree. -/
theorem C37_minus_proper_exact (dbg : Bool) (t : TineTree α) (ht : t.Reachable)
    (i : RawInterval α) (hi : i.WF) (h2 : i.TwoEnded) (is : List (RawInterval α))
    (his : TineTree.intervals dbg t = .ok is) :
    ∃ t', TineTree.minusInPlace dbg t i = .ok t' ∧ t'.Reachable ∧
      ∀ x, TineTree.contains dbg t' x = .ok true ↔
        ((TineTree.contains dbg t x = .ok true ∧ i.contains x = false) ∨
          (i.IsBound x ∧ RawInterval.Hole is x)) := by
  have h := TT.reachable_valid ht
  rw [TT.intervals_eq dbg h] at his
  cases his
  by_cases hsafe : RawInterval.RemovalSafe (TT.pieces none t) i
  · obtain ⟨t', e, r, c⟩ :=
      C37_minus_in_place_partial dbg t ht i hi _ (TT.intervals_eq dbg h) hsafe
    refine ⟨t', e, r, fun x => ?_⟩
    rw [c]
    constructor
    · exact .inl
    · rintro (g | ⟨g1, g2⟩)
      · exact g
      · exact absurd g2 (hsafe.2 h2 x g1)
  · rcases TT.fromRaw_cases hi with ⟨e0, e⟩ | ⟨p, e0, e⟩ | ⟨lb, ub, e, hk⟩
    · exact absurd e0 h2.1
    · exact absurd e0 (h2.2 p)
    · obtain ⟨t', e1, v, c, -⟩ := TT.minusProper_ok dbg h hk
      have ht0 : TineTree.isEmpty t = false := by
        rcases t with _ | ⟨a, t⟩
        · exact absurd ⟨fun p hp => absurd hp (h2.2 p), fun _ p _ hh => by
            obtain ⟨⟨j, hj, _⟩, _⟩ := hh
            simp [TT.pieces] at hj⟩ hsafe
        · rfl
      have he : i.isEmpty = false := by
        rw [Bool.eq_false_iff, ne_eq, RawInterval.isEmpty_iff]; exact h2.1
      have hf : i.isFull = false := by
        rw [Bool.eq_false_iff]
        intro hf
        have : i = .full := by cases i <;> simp_all [RawInterval.isFull]
        subst this
        exact hsafe ⟨fun p hp => absurd hp (h2.2 p), fun _ p hp => by
          simp [RawInterval.IsBound, RawInterval.lowerBound, RawInterval.upperBound,
            Bound.asRef] at hp⟩
      refine ⟨t', ?_, TT.valid_reachable v, fun x => ?_⟩
      · simp only [TineTree.minusInPlace, ht0, he, hf, e]; exact e1
      · have hb : i.IsBound x ↔ (Key.fin x = (Tine.lower lb).key ∨ Key.fin x = (Tine.upper ub).key) := by
          cases i <;> simp [Tine.fromRawInterval] at e <;> obtain ⟨rfl, rfl⟩ := e <;>
            simp [RawInterval.IsBound, RawInterval.lowerBound, RawInterval.upperBound, Bound.asRef,
              Tine.key, eq_comm]
        have hci : TT.cov false false [.lower lb, .upper ub] (.fin x) = i.contains x := by
          rw [← TT.icov_fin hi, TT.icov, e]
        rw [TT.contains_iff dbg v, TT.contains_iff dbg h, c, hci, hb]
        have hh : RawInterval.Hole (TT.pieces none t) x ↔ TT.holeAt t (.fin x) = true :=
          (TT.hole_iff h x).symm
        rw [hh]
        simp only [Bool.or_eq_true, Bool.and_eq_true, Bool.not_eq_true', decide_eq_true_eq,
          Bool.not_false, true_and]
        tauto

example : (RawInterval.closed (3 : Int) 5).TwoEnded := ⟨by decide, by intro p h; cases h⟩

/-- Removing `[3,5]` from `(-∞,3) ∪ (3,∞)` makes the tree contain 3; removing the point 3 from
`(0,3)` leaves a tree on which `contains` panics. -/
theorem C37_counterexample :
    (∃ t t' : TineTree Int, t.Reachable ∧ TineTree.minusInPlace true t (.closed 3 5) = .ok t' ∧
      TineTree.contains true t 3 = .ok false ∧ TineTree.contains true t' 3 = .ok true) ∧
    (∃ t t' : TineTree Int, t.Reachable ∧ TineTree.minusInPlace true t (.point 3) = .ok t' ∧
      TineTree.contains true t 1 = .ok true ∧
      TineTree.contains true t' 1 = .error .expect) :=
  ⟨⟨[.lower .inf, .point (.excl 3), .upper .inf],
    [.lower .inf, .upper (.incl 3), .lower (.excl 5), .upper .inf],
    .complement (dbg := true) (.fromRaw (i := .point 3) trivial) (by decide),
    by decide, by decide, by decide⟩,
   ⟨_, _, .fromRaw (i := .opn 0 3) (by decide), rfl, by decide, by decide⟩⟩

/-! ## C38 -/

/-- `intersect_in_place` never panics and keeps exactly the interval's points, if the tree is empty,
the interval is `Empty`, `Full` or a single point, or both ends of the interval lie inside intervals
of the tree.
Missing from the full property: the remaining cases, in which it may be wrong or panic, see
`C38_counterexample`. -/
theorem C38_intersect_in_place_partial (dbg : Bool) (t : TineTree α) (ht : t.Reachable)
    (i : RawInterval α) (hi : i.WF) (is : List (RawInterval α))
    (his : TineTree.intervals dbg t = .ok is)
    (hs : is = [] ∨ ¬ i.TwoEnded ∨ i = .full ∨ RawInterval.EndsInside is i) :
    ∃ t', TineTree.intersectInPlace dbg t i = .ok t' ∧ t'.Reachable ∧
      ∀ x, TineTree.contains dbg t' x = .ok true ↔
        (TineTree.contains dbg t x = .ok true ∧ i.contains x = true) := by
  have h := TT.reachable_valid ht
  rw [TT.intervals_eq dbg h] at his
  cases his
  have hs' : t = [] ∨ ¬ i.TwoEnded ∨ i = .full ∨ RawInterval.EndsInside (TT.pieces none t) i := by
    rcases hs with hs | hs
    · left
      have := TT.fromIter_pieces dbg h
      rw [hs] at this
      cases this; rfl
    · exact .inr hs
  obtain ⟨t', e, v, c⟩ := TT.intersectInPlace_ok dbg h hi hs'
  refine ⟨t', e, TT.valid_reachable v, fun x => ?_⟩
  rw [TT.contains_iff dbg v, TT.contains_iff dbg h, c false (.fin x) ⟨by simp, by simp⟩,
    TT.icov_fin hi, Bool.and_eq_true]

example : TineTree.intersectInPlace true (TineTree.demo [.closed 0 4, .point 6, .opn 7 9])
    (.closed 2 8) = .ok (TineTree.demo [.closed 2 4, .point 6, .leftOpen 7 8]) := by decide
example : RawInterval.EndsInside [.closed (0 : Int) 4, .point 6, .opn 7 9] (.closed 2 8) := by
  refine ⟨⟨.closed 0 4, by simp, ⟨by decide, ?_⟩, by decide⟩, ⟨.opn 7 9, by simp, ⟨by decide, ?_⟩, by decide⟩⟩
  · intro p
    have : (RawInterval.closed (0 : Int) 4).intersect (.closed 2 8) = .closed 2 4 := by decide
    rw [this]; intro h; cases h
  · intro p
    have : (RawInterval.opn (7 : Int) 9).intersect (.closed 2 8) = .leftOpen 7 8 := by decide
    rw [this]; intro h; cases h

/-- Intersecting `[0,1]` with the disjoint `[5,6]` gives `[5,6]`; intersecting `[0,2]` with `[0,5]`
panics. -/
theorem C38_counterexample :
    (∃ t t' : TineTree Int, t.Reachable ∧ TineTree.intersectInPlace true t (.closed 5 6) = .ok t' ∧
      TineTree.contains true t 5 = .ok false ∧ TineTree.contains true t' 5 = .ok true) ∧
    (∃ t : TineTree Int, t.Reachable ∧ ∀ dbg,
      TineTree.intersectInPlace dbg t (.closed 0 5) = .error .unreachable) :=
  ⟨⟨_, _, .fromRaw (i := .closed 0 1) (by decide), rfl, by decide, by decide⟩,
   ⟨_, .fromRaw (i := .closed 0 2) (by decide), by decide⟩⟩

/-! ## C39 -/

/-- `complement` never panics, is set complement, and an involution. -/
theorem C39_complement (dbg : Bool) (t : TineTree α) (ht : t.Reachable) :
    ∃ t', TineTree.complement dbg t = .ok t' ∧ t'.Reachable ∧
      (∀ x, TineTree.contains dbg t' x = .ok true ↔ TineTree.contains dbg t x = .ok false) ∧
      TineTree.complement dbg t' = .ok t := by
  have h := TT.reachable_valid ht
  obtain ⟨t', e, v, c⟩ := TT.complement_ok dbg h
  obtain ⟨t2, e2, v2, c2⟩ := TT.complement_ok dbg v
  refine ⟨t', e, .complement ht e, fun x => ?_, ?_⟩
  · rw [TT.contains_iff dbg v, TT.contains_ok dbg h, c false (.fin x) ⟨by simp, by simp⟩,
      Except.ok.injEq, Bool.not_eq_true']
  · rw [e2]
    congr 1
    refine TT.valid_ext v2 h fun aft k hr => ?_
    change TT.tcov t2 aft k = TT.tcov t aft k
    rw [c2 aft k hr, c aft k hr, Bool.not_not]

example : TineTree.complement true (TineTree.demo [.point 3, .upFrom 8]) =
    .ok (TineTree.demo [.upTo 3, .leftOpen 3 8]) := by decide

/-! ## C40 -/

/-- `union` never panics and is set union. -/
theorem C40_union (dbg : Bool) (a b : TineTree α) (ha : a.Reachable) (hb : b.Reachable) :
    ∃ t, TineTree.union dbg a b = .ok t ∧ t.Reachable ∧
      ∀ x, TineTree.contains dbg t x = .ok true ↔
        (TineTree.contains dbg a x = .ok true ∨ TineTree.contains dbg b x = .ok true) := by
  have va := TT.reachable_valid ha
  have vb := TT.reachable_valid hb
  obtain ⟨t, e, v, c⟩ := TT.union_ok dbg va vb
  refine ⟨t, e, .union ha hb e, fun x => ?_⟩
  rw [TT.contains_iff dbg v, TT.contains_iff dbg va, TT.contains_iff dbg vb, c, Bool.or_eq_true]

example : TineTree.union true (TineTree.demo [.closed 0 9]) (TineTree.demo [.opn 9 20]) =
    .ok (TineTree.demo [.rightOpen 0 20]) := by decide

/-- As values, `union` is commutative, associative and idempotent. -/
theorem C40_union_laws (dbg : Bool) (a b c : TineTree α) (ha : a.Reachable) (hb : b.Reachable)
    (hc : c.Reachable) :
    TineTree.union dbg a b = TineTree.union dbg b a ∧
    (TineTree.union dbg a b >>= fun ab => TineTree.union dbg ab c) =
      (TineTree.union dbg b c >>= fun bc => TineTree.union dbg a bc) ∧
    TineTree.union dbg a a = .ok a := by
  have va := TT.reachable_valid ha
  have vb := TT.reachable_valid hb
  have vc := TT.reachable_valid hc
  obtain ⟨t1, e1, v1, c1⟩ := TT.union_ok dbg va vb
  obtain ⟨t2, e2, v2, c2⟩ := TT.union_ok dbg vb va
  obtain ⟨t3, e3, v3, c3⟩ := TT.union_ok dbg vb vc
  obtain ⟨t4, e4, v4, c4⟩ := TT.union_ok dbg v1 vc
  obtain ⟨t5, e5, v5, c5⟩ := TT.union_ok dbg va v3
  obtain ⟨t6, e6, v6, c6⟩ := TT.union_ok dbg va va
  refine ⟨?_, ?_, ?_⟩
  · rw [e1, e2]
    congr 1
    refine TT.valid_ext v1 v2 fun aft k _ => ?_
    change TT.tcov t1 aft k = TT.tcov t2 aft k
    rw [c1, c2, Bool.or_comm]
  · rw [e1, e3]
    change TineTree.union dbg t1 c = TineTree.union dbg a t3
    rw [e4, e5]
    congr 1
    refine TT.valid_ext v4 v5 fun aft k _ => ?_
    change TT.tcov t4 aft k = TT.tcov t5 aft k
    rw [c4, c5, c1, c3, Bool.or_assoc]
  · rw [e6]
    congr 1
    refine TT.valid_ext v6 va fun aft k _ => ?_
    change TT.tcov t6 aft k = TT.tcov a aft k
    rw [c6, Bool.or_self]

example : TineTree.union true (TineTree.demo [.closed 0 2, .opn 5 9]) (TineTree.demo [.leftOpen 2 5]) =
    .ok (TineTree.demo [.rightOpen 0 9]) := by decide

/-! ## C41 -/

/-- `intersect` never panics, and only yields common points. -/
theorem C41_intersect_subset_partial (dbg : Bool) (a b : TineTree α) (ha : a.Reachable)
    (hb : b.Reachable) :
    ∃ t, TineTree.intersect dbg a b = .ok t ∧ t.Reachable ∧
      ∀ x, TineTree.contains dbg t x = .ok true →
        (TineTree.contains dbg a x = .ok true ∧ TineTree.contains dbg b x = .ok true) := by
  have va := TT.reachable_valid ha
  have vb := TT.reachable_valid hb
  obtain ⟨t, e, v, e2⟩ := TT.intersect_eq dbg va vb
  have hwf : ∀ i ∈ TT.isectList (TT.pieces none a) (TT.pieces none b), i.WF := by
    intro i hi
    obtain ⟨s, _, o, _, rfl⟩ := TT.isectList_mem hi
    exact RawInterval.intersect_wf s o
  obtain ⟨t', e', v', c'⟩ := TT.fromIter_ok dbg _ hwf
  rw [e2] at e'; cases e'
  refine ⟨t, e, .intersect ha hb e, fun x => ?_⟩
  rw [TT.contains_iff dbg v, c', List.any_eq_true, TT.contains_eq dbg va, TT.contains_eq dbg vb,
    Except.ok.injEq, Except.ok.injEq, List.any_eq_true, List.any_eq_true]
  rintro ⟨i, hi, hx⟩
  rw [TT.icov_fin (hwf i hi)] at hx
  obtain ⟨s, hs, o, ho, rfl⟩ := TT.isectList_mem hi
  have := (RawInterval.intersect_contains s o x).1 hx
  exact ⟨⟨s, hs, this.1⟩, ⟨o, ho, this.2⟩⟩

example : TineTree.intersect true (TineTree.demo [.closed 0 4, .opn 6 9]) (TineTree.demo [.closed 2 8]) =
    .ok (TineTree.demo [.closed 2 4]) := by decide

theorem TT.compat_sep {a u l v : Bound α} (h1 : a.Compat u) (h2 : TT.Sep u l) (h3 : l.Compat v) :
    a.Compat v := by
  rcases h2 with h2 | ⟨p, rfl, rfl⟩
  · rcases a with a | a | _ <;> rcases u with u | u | _ <;> rcases l with l | l | _ <;>
      rcases v with v | v | _ <;> simp [Tine.key, Bound.Compat] at h1 h2 h3 ⊢ <;> grind
  · rcases a with a | a | _ <;> rcases v with v | v | _ <;>
      simp [Tine.key, Bound.Compat] at h1 h3 ⊢ <;> grind

/-- If the left tree is a single interval that meets the first interval of the right tree, `intersect`
is exact.
Missing from the full property: the general case, which is wrong, see `C41_counterexample`. -/
theorem C41_intersect_single_partial (dbg : Bool) (s : RawInterval α) (hs : s.WF) (b : TineTree α)
    (hb : b.Reachable) (o : RawInterval α) (os : List (RawInterval α))
    (ho : TineTree.intervals dbg b = .ok (o :: os)) (hso : s.intersects o = true) :
    ∃ t, TineTree.intersect dbg (TineTree.fromRawInterval s) b = .ok t ∧ t.Reachable ∧
      ∀ x, TineTree.contains dbg t x = .ok true ↔
        (s.contains x = true ∧ TineTree.contains dbg b x = .ok true) := by
  have ha : (TineTree.fromRawInterval s).Reachable := .fromRaw hs
  have va := TT.reachable_valid ha
  have vb := TT.reachable_valid hb
  obtain ⟨t, e, r, hsub⟩ := C41_intersect_subset_partial dbg _ b ha hb
  refine ⟨t, e, r, fun x => ⟨fun hx => ?_, fun hx => ?_⟩⟩
  · obtain ⟨h1, h2⟩ := hsub x hx
    rw [(C35_from_raw dbg s hs).2.1, Except.ok.injEq] at h1
    exact ⟨h1, h2⟩
  · obtain ⟨h1, h2⟩ := hx
    rw [TT.intervals_eq dbg vb, Except.ok.injEq] at ho
    have hse : s ≠ .empty := by rintro rfl; simp [RawInterval.contains] at h1
    have hps : TT.pieces none (TineTree.fromRawInterval s) = [s] := by
      have := (C35_from_raw dbg s hs).2.2
      rw [TT.intervals_eq dbg va, if_neg hse, Except.ok.injEq] at this
      exact this
    obtain ⟨t', e', v, e2⟩ := TT.intersect_eq dbg va vb
    rw [e] at e'; cases e'
    have hwf : ∀ i ∈ TT.isectList (TT.pieces none (TineTree.fromRawInterval s)) (TT.pieces none b),
        i.WF := by
      intro i hi
      obtain ⟨s, _, o, _, rfl⟩ := TT.isectList_mem hi
      exact RawInterval.intersect_wf s o
    obtain ⟨t', e', v', c'⟩ := TT.fromIter_ok dbg _ hwf
    rw [e2] at e'; cases e'
    rw [TT.contains_iff dbg v, c', List.any_eq_true]
    rw [TT.contains_eq dbg vb, Except.ok.injEq, List.any_eq_true] at h2
    obtain ⟨q, hq, hqx⟩ := h2
    refine ⟨s.intersect q, ?_, ?_⟩
    · rw [hps, TT.isectList, List.mem_append]
      left
      refine List.mem_map.2 ⟨q, ?_, rfl⟩
      have hsep := (TT.pieces_sep vb.1).1
      have hwfb := fun i hi => (TT.pieces_wf vb.1).1 i hi
      rw [ho] at hq hsep hwfb ⊢
      -- everything up to `q` meets `s`
      obtain ⟨ls, us, b1, b2, -⟩ : ∃ l u, s.lowerBound = some l ∧ s.upperBound = some u ∧ s ≠ .empty := by
        rcases s.bounds_cases with ⟨z, _⟩ | z
        · exact absurd z hse
        · exact z
      have hbd : ∀ i ∈ o :: os, ∃ l u, i.lowerBound = some l ∧ i.upperBound = some u ∧
          l.Compat u := by
        intro i hi
        rcases i.bounds_cases with ⟨z, _⟩ | ⟨l, u, z1, z2, _⟩
        · exact absurd z (hwfb i hi).2
        · exact ⟨l, u, z1, z2, RawInterval.wf_compat (hwfb i hi).1 z1 z2⟩
      have meets : ∀ i ∈ o :: os, (i = o ∨ i = q ∨ ((∃ u l, o.upperBound = some u ∧
          i.lowerBound = some l ∧ TT.Sep u l) ∧ (∃ u l, i.upperBound = some u ∧
          q.lowerBound = some l ∧ TT.Sep u l))) → (!(s.intersect i).isEmpty) = true := by
        intro i hi hc
        change s.intersects i = true
        have hsc := RawInterval.wf_compat hs b1 b2
        have hq1 : s.intersects q = true := by
          obtain ⟨lq, uq, z1, z2, z3⟩ := hbd q hq
          rw [RawInterval.intersect_isEmpty b1 b2 z1 z2]
          rw [RawInterval.contains_iff_bounds] at h1 hqx
          obtain ⟨_, _, y1, y2, y3, y4⟩ := h1
          obtain ⟨_, _, w1, w2, w3, w4⟩ := hqx
          rw [b1] at y1; rw [b2] at y2; rw [z1] at w1; rw [z2] at w2
          cases y1; cases y2; cases w1; cases w2
          refine ⟨⟨hsc, z3⟩, ?_, ?_⟩
          · rcases ls with x | x | _ <;> rcases uq with y | y | _ <;>
              simp [Bound.AdmitsAbove, Bound.AdmitsBelow, Bound.Compat] at y3 w4 ⊢ <;> grind
          · rcases lq with x | x | _ <;> rcases us with y | y | _ <;>
              simp [Bound.AdmitsAbove, Bound.AdmitsBelow, Bound.Compat] at w3 y4 ⊢ <;> grind
        rcases hc with rfl | rfl | ⟨⟨u, l, g1, g2, g3⟩, u', l', g4, g5, g6⟩
        · exact hso
        · exact hq1
        · obtain ⟨li, ui, z1, z2, z3⟩ := hbd i hi
          obtain ⟨lo, uo, z4, z5, z6⟩ := hbd o (by simp)
          obtain ⟨lq, uq, z7, z8, z9⟩ := hbd q hq
          rw [z5] at g1; rw [z1] at g2; rw [z2] at g4; rw [z7] at g5
          cases g1; cases g2; cases g4; cases g5
          rw [RawInterval.intersect_isEmpty b1 b2 z1 z2]
          rw [RawInterval.intersect_isEmpty b1 b2 z4 z5] at hso
          rw [RawInterval.intersect_isEmpty b1 b2 z7 z8] at hq1
          exact ⟨⟨hsc, z3⟩, TT.compat_sep hso.2.1 g3 z3, TT.compat_sep z3 g6 hq1.2.2⟩
      obtain ⟨P, R, hPR⟩ := List.append_of_mem hq
      rw [hPR]
      have hP : ∀ i ∈ P ++ [q], (!(s.intersect i).isEmpty) = true := by
        intro i hi
        refine meets i ?_ ?_
        · rw [hPR]; simp at hi ⊢; tauto
        · rcases List.mem_append.1 hi with hi | hi
          · rw [hPR] at hsep
            have hiq := (List.pairwise_append.1 hsep).2.2 i hi q (by simp)
            rcases P with _ | ⟨p0, P⟩
            · simp at hi
            · have : o = p0 := by simpa using (List.cons.inj hPR).1
              subst this
              rcases List.mem_cons.1 hi with rfl | hi
              · exact .inl rfl
              · refine .inr (.inr ⟨?_, hiq⟩)
                rw [List.cons_append, List.pairwise_cons] at hsep
                exact hsep.1 i (by simp [hi])
          · rw [List.mem_singleton] at hi; exact .inr (.inl hi)
      have e3 : P ++ q :: R = (P ++ [q]) ++ R := by simp
      rw [e3, List.takeWhile_append_of_pos hP]
      simp
    · rw [TT.icov_fin (RawInterval.intersect_wf s q)]
      exact (RawInterval.intersect_contains s q x).2 ⟨h1, hqx⟩

example : TineTree.intersect true (TineTree.fromRawInterval (.closed (1 : Int) 6))
    (TineTree.demo [.closed 0 2, .opn 5 9]) =
    .ok (TineTree.demo [.closed 1 2, .leftOpen 5 6]) := by decide
example : (RawInterval.closed (1 : Int) 6).intersects (.closed 0 2) = true := by decide

/-- `([0,1] ∪ [4,5]) ∩ [0,5]` misses `[4,5]`. -/
theorem C41_counterexample :
    ∃ a b t : TineTree Int, a.Reachable ∧ b.Reachable ∧ TineTree.intersect true a b = .ok t ∧
      TineTree.contains true a 4 = .ok true ∧ TineTree.contains true b 4 = .ok true ∧
      TineTree.contains true t 4 = .ok false :=
  ⟨TineTree.demo [.closed 0 1, .closed 4 5], _, TineTree.demo [.closed 0 1],
    TineTree.fromIter_reachable (dbg := true) (is := [.closed 0 1, .closed 4 5]) (by decide) (by decide),
    .fromRaw (i := .closed 0 5) (by decide), by decide, by decide, by decide, by decide⟩

/-! ## C42 -/

/-- `minus` never panics and is set difference, provided every interval of the right tree can be
removed safely from the left one (see `RemovalSafe`).
Missing from the full property: the remaining cases, in which it is wrong, see
`C42_counterexample`. -/
theorem C42_minus_partial (dbg : Bool) (a b : TineTree α) (ha : a.Reachable) (hb : b.Reachable)
    (as bs : List (RawInterval α)) (has : TineTree.intervals dbg a = .ok as)
    (hbs : TineTree.intervals dbg b = .ok bs) (hs : ∀ i ∈ bs, RawInterval.RemovalSafe as i) :
    ∃ t, TineTree.minus dbg a b = .ok t ∧ t.Reachable ∧
      ∀ x, TineTree.contains dbg t x = .ok true ↔
        (TineTree.contains dbg a x = .ok true ∧ TineTree.contains dbg b x = .ok false) := by
  have va := TT.reachable_valid ha
  have vb := TT.reachable_valid hb
  rw [TT.intervals_eq dbg va] at has
  rw [TT.intervals_eq dbg vb] at hbs
  cases has; cases hbs
  obtain ⟨t, e, v, c⟩ := TT.minus_ok dbg va vb fun i hi =>
    TT.minusOk_of_safe va ((TT.pieces_wf vb.1).1 i hi).1 (hs i hi)
  refine ⟨t, e, TT.valid_reachable v, fun x => ?_⟩
  rw [TT.contains_iff dbg v, TT.contains_iff dbg va, TT.contains_ok dbg vb, c, Bool.and_eq_true,
    Bool.not_eq_true', Except.ok.injEq]

example : TineTree.minus true (TineTree.demo [.closed 0 9]) (TineTree.demo [.point 3, .opn 5 7]) =
    .ok (TineTree.demo [.rightOpen 0 3, .leftOpen 3 5, .closed 7 9]) := by decide
example : ∀ i ∈ [RawInterval.point (3 : Int), .opn 5 7],
    RawInterval.RemovalSafe [.closed 0 9] i := by
  intro i _
  have h1 : ∀ p, ¬ RawInterval.OpenEnd [RawInterval.closed (0 : Int) 9] p := by
    simp [RawInterval.OpenEnd, RawInterval.upperBound]
  have h2 : ∀ p, ¬ RawInterval.OpenStart [RawInterval.closed (0 : Int) 9] p := by
    simp [RawInterval.OpenStart, RawInterval.lowerBound]
  exact ⟨fun p _ => ⟨h1 p, h2 p⟩, fun _ p _ h => h1 p h.1⟩

/-- `((-∞,3) ∪ (3,∞)) \ [3,5]` contains 3. -/
theorem C42_counterexample :
    ∃ a b t : TineTree Int, a.Reachable ∧ b.Reachable ∧ TineTree.minus true a b = .ok t ∧
      TineTree.contains true a 3 = .ok false ∧ TineTree.contains true t 3 = .ok true :=
  ⟨[.lower .inf, .point (.excl 3), .upper .inf], _,
    [.lower .inf, .upper (.incl 3), .lower (.excl 5), .upper .inf],
    .complement (dbg := true) (.fromRaw (i := .point 3) trivial) (by decide),
    .fromRaw (i := .closed 3 5) (by decide), by decide, by decide, by decide⟩

/-! ## C43 -/

/-- Collecting intervals never panics, gives a tree with exactly their points, and does not depend on
their order. -/
theorem C43_collect (dbg : Bool) (is js : List (RawInterval α)) (hi : ∀ i ∈ is, i.WF)
    (hp : is.Perm js) :
    ∃ t, TineTree.fromIter dbg is = .ok t ∧ TineTree.fromIter dbg js = .ok t ∧ t.Reachable ∧
      ∀ x, TineTree.contains dbg t x = .ok true ↔ ∃ i ∈ is, x ∈ i.pts := by
  have hj : ∀ i ∈ js, i.WF := fun i h => hi i (hp.mem_iff.2 h)
  obtain ⟨t, e, v, c⟩ := TT.fromIter_ok dbg is hi
  obtain ⟨t', e', v', c'⟩ := TT.fromIter_ok dbg js hj
  have : t' = t := by
    refine TT.valid_ext v' v fun aft k _ => ?_
    change TT.tcov t' aft k = TT.tcov t aft k
    rw [c, c', Bool.eq_iff_iff, List.any_eq_true, List.any_eq_true]
    exact ⟨fun ⟨i, h, g⟩ => ⟨i, hp.mem_iff.2 h, g⟩, fun ⟨i, h, g⟩ => ⟨i, hp.mem_iff.1 h, g⟩⟩
  subst this
  refine ⟨t', e, e', TT.valid_reachable v, fun x => ?_⟩
  rw [TT.contains_iff dbg v, c, List.any_eq_true]
  refine exists_congr fun i => and_congr_right fun h => ?_
  rw [TT.icov_fin (hi i h), RawInterval.contains_iff]

example : (∀ i ∈ [RawInterval.closed (0 : Int) 3, .point 3, .opn 3 8], i.WF) ∧
    [RawInterval.closed (0 : Int) 3, .point 3, .opn 3 8].Perm
      [.opn 3 8, .closed 0 3, .point 3] := by decide

/-! ## C44 -/

section Dense
variable [DenselyOrdered α] [NoMinOrder α] [NoMaxOrder α] [Nonempty α]

/-- Over a dense order without end points, trees are equal iff they contain the same points. -/
theorem C44_eq_iff (dbg : Bool) (a b : TineTree α) (ha : a.Reachable) (hb : b.Reachable) :
    a = b ↔ ∀ x, TineTree.contains dbg a x = TineTree.contains dbg b x := by
  have va := TT.reachable_valid ha
  have vb := TT.reachable_valid hb
  refine ⟨fun h x => h ▸ rfl, fun h => TT.dense_ext va vb fun x => ?_⟩
  have := h x
  rw [TT.contains_ok dbg va, TT.contains_ok dbg vb, Except.ok.injEq] at this
  exact this

example : TineTree.demo [.closed 0 4, .leftOpen 4 9] = TineTree.demo [.closed 0 9] ∧
    TineTree.demo [.rightOpen 0 4, .leftOpen 4 9] ≠ TineTree.demo [.closed 0 9] := by decide

/-- Over a dense order without end points, `is_empty` and `is_full` decide emptiness and
fullness. -/
theorem C44_empty_full (dbg : Bool) (t : TineTree α) (ht : t.Reachable) :
    (TineTree.isEmpty t = true ↔ ∀ x, TineTree.contains dbg t x = .ok false) ∧
    (TineTree.isFull t = true ↔ ∀ x, TineTree.contains dbg t x = .ok true) := by
  have hfull : TineTree.fromRawInterval (.full : RawInterval α) = [.lower .inf, .upper .inf] :=
    TT.tree_fromRaw trivial
  refine ⟨?_, ?_⟩
  · have e : TineTree.isEmpty t = true ↔ t = TineTree.new := by
      simp [TineTree.isEmpty, TineTree.new]
    rw [e, C44_eq_iff dbg t _ ht .new]
    exact forall_congr' fun x => by
      rw [show TineTree.contains dbg (TineTree.new : TineTree α) x = .ok false from rfl]
  · have e : TineTree.isFull t = true ↔ t = TineTree.fromRawInterval .full := by
      rw [hfull]; simp [TineTree.isFull]
    rw [e, C44_eq_iff dbg t _ ht (.fromRaw (i := .full) trivial)]
    exact forall_congr' fun x => by
      rw [(C35_from_raw dbg .full trivial).2.1 x]; rfl

end Dense

example : (TineTree.fromRawInterval (RawInterval.opn (0 : ℚ) 1)).Reachable :=
  .fromRaw (by simp [RawInterval.WF])

/-! ## C45 -/

/-- Forward iteration never panics, and yields well formed non-`Empty` intervals, in increasing order,
disjoint, not touching (uniting two of them does not merge them), whose union is the tree, and from
which an equal tree can be rebuilt. -/
theorem C45_iteration (dbg : Bool) (t : TineTree α) (ht : t.Reachable) :
    ∃ is, TineTree.intervals dbg t = .ok is ∧ (∀ i ∈ is, i.WF ∧ i ≠ .empty) ∧
      is.Pairwise (fun i j => (∀ x ∈ i.pts, ∀ y ∈ j.pts, x < y) ∧ i.union j = [i, j]) ∧
      (∀ x, TineTree.contains dbg t x = .ok true ↔ ∃ i ∈ is, x ∈ i.pts) ∧
      TineTree.fromIter dbg is = .ok t := by
  have h := TT.reachable_valid ht
  have hw := (TT.pieces_wf h.1).1
  refine ⟨_, TT.intervals_eq dbg h, hw, ?_, fun x => ?_, TT.fromIter_pieces dbg h⟩
  · refine (TT.pieces_sep h.1).1.imp_of_mem ?_
    rintro i j hi hj ⟨u, l, h1, h2, h3⟩
    refine ⟨fun x hx y hy => ?_, TT.sep_union (hw i hi).1 (hw j hj).1 h1 h2 h3⟩
    rw [← RawInterval.contains_iff, RawInterval.contains_iff_bounds] at hx hy
    obtain ⟨_, _, _, g1, _, g2⟩ := hx
    obtain ⟨_, _, g3, _, g4, _⟩ := hy
    rw [h1] at g1; rw [h2] at g3
    cases g1; cases g3
    exact TT.sep_lt h3 g2 g4
  · rw [TT.contains_eq dbg h, Except.ok.injEq, List.any_eq_true]
    exact exists_congr fun i => and_congr_right fun _ => RawInterval.contains_iff i x

example : TineTree.intervals true (TineTree.demo [.opn 5 9, .closed 0 2, .upTo 0]) =
    .ok [.to 2, .opn 5 9] := by decide

/-- A point outside the tree right behind a piece. -/
theorem TT.gap_after [DenselyOrdered α] {is : List (RawInterval α)} {u : Bound α} {x y : α}
    (hx : u.AdmitsBelow x)
    (hl : ∀ k ∈ is, ∃ l, k.lowerBound = some l ∧ TT.Sep u l) {k0 : RawInterval α} (hk0 : k0 ∈ is)
    (hy : k0.contains y = true) :
    ∃ z, x < z ∧ z < y ∧ ¬ u.AdmitsBelow z ∧ ∀ k ∈ is, k.contains z = false := by
  have hlow : ∀ k ∈ is, ∀ w, k.contains w = true → ∃ l, k.lowerBound = some l ∧ TT.Sep u l ∧
      l.AdmitsAbove w := by
    intro k hk w hw
    obtain ⟨l, h1, h2⟩ := hl k hk
    rw [RawInterval.contains_iff_bounds] at hw
    obtain ⟨_, _, h3, _, h4, _⟩ := hw
    rw [h1] at h3; cases h3
    exact ⟨l, h1, h2, h4⟩
  rcases u with p | p | _
  · -- included end: look for a point before the next piece
    have hgt : ∀ k ∈ is, ∀ w, k.contains w = true → p < w := by
      intro k hk w hw
      obtain ⟨l, -, h2, h3⟩ := hlow k hk w hw
      exact TT.sep_lt h2 (le_refl p) h3
    have hmin : ∃ m, p < m ∧ m ≤ y ∧ ∀ k ∈ is, ∀ w, k.contains w = true → m ≤ w := by
      have hpy : p < y := hgt k0 hk0 y hy
      clear hk0 hlow hgt
      induction is with
      | nil => exact ⟨y, hpy, le_refl _, by simp⟩
      | cons k is ih =>
        obtain ⟨m, m1, m2, m3⟩ := ih fun k hk => hl k (by simp [hk])
        obtain ⟨l, h1, h2⟩ := hl k (by simp)
        have : ∃ q, p < q ∧ ∀ w, k.contains w = true → q ≤ w := by
          rcases h2 with h2 | ⟨q, h2, _⟩
          · rcases l with q | q | _ <;> simp [Tine.key] at h2
            all_goals
              refine ⟨q, h2, fun w hw => ?_⟩
              rw [RawInterval.contains_iff_bounds] at hw
              obtain ⟨_, _, h3, _, h4, _⟩ := hw
              rw [h1] at h3; cases h3
              first | exact h4 | exact le_of_lt h4
          · cases h2
        obtain ⟨q, q1, q2⟩ := this
        refine ⟨min m q, lt_min m1 q1, (min_le_left _ _).trans m2, ?_⟩
        intro j hj w hw
        rcases List.mem_cons.1 hj with rfl | hj
        · exact (min_le_right _ _).trans (q2 w hw)
        · exact (min_le_left _ _).trans (m3 j hj w hw)
    obtain ⟨m, m1, m2, m3⟩ := hmin
    obtain ⟨z, z1, z2⟩ := exists_between m1
    refine ⟨z, lt_of_le_of_lt hx z1, lt_of_lt_of_le z2 m2, not_le.2 z1, fun k hk => ?_⟩
    rw [Bool.eq_false_iff]
    intro hz
    exact absurd (m3 k hk z hz) (not_le.2 z2)
  · refine ⟨p, hx, ?_, lt_irrefl p, fun k hk => ?_⟩
    · obtain ⟨l, -, h2, h3⟩ := hlow k0 hk0 y hy
      rcases h2 with h2 | ⟨q, h2, rfl⟩
      · rcases l with q | q | _ <;> simp [Tine.key] at h2
        · exact lt_of_lt_of_le h2 h3
        · exact lt_trans h2 h3
      · cases h2; exact h3
    · rw [Bool.eq_false_iff]
      intro hz
      obtain ⟨l, -, h2, h3⟩ := hlow k hk p hz
      rcases h2 with h2 | ⟨q, h2, rfl⟩
      · rcases l with q | q | _ <;> simp [Tine.key] at h2
        · exact absurd h3 (not_le.2 h2)
        · exact absurd h2 (not_lt.2 (le_of_lt h3))
      · cases h2; exact lt_irrefl _ h3
  · obtain ⟨l, _, h2, _⟩ := hlow k0 hk0 y hy
    rcases h2 with h2 | ⟨q, h2, _⟩
    · exact absurd h2 (Key.not_top_lt _)
    · cases h2

/-- Over a dense order the intervals yielded by iteration are maximal: every interval inside the tree
lies inside one of them. -/
theorem C45_maximal [DenselyOrdered α] (dbg : Bool) (t : TineTree α) (ht : t.Reachable)
    (is : List (RawInterval α)) (his : TineTree.intervals dbg t = .ok is)
    (j : RawInterval α) (hne : j.pts.Nonempty)
    (hj : ∀ x ∈ j.pts, TineTree.contains dbg t x = .ok true) :
    ∃ i ∈ is, ∀ x ∈ j.pts, x ∈ i.pts := by
  have h := TT.reachable_valid ht
  rw [TT.intervals_eq dbg h] at his
  cases his
  have hcov : ∀ x ∈ j.pts, ∃ i ∈ TT.pieces none t, i.contains x = true := by
    intro x hx
    have := hj x hx
    rwa [TT.contains_eq dbg h, Except.ok.injEq, List.any_eq_true] at this
  -- two points of `j` lie in the same piece
  have same : ∀ x ∈ j.pts, ∀ y ∈ j.pts, x < y → ∀ i ∈ TT.pieces none t, i.contains x = true →
      i.contains y = true := by
    intro x hx y hy hxy i hi hix
    obtain ⟨i', hi', hiy⟩ := hcov y hy
    obtain ⟨P, R, hPR⟩ := List.append_of_mem hi
    have hsep := (TT.pieces_sep h.1).1
    rw [hPR, List.pairwise_append, List.pairwise_cons] at hsep
    obtain ⟨-, ⟨s1, -⟩, s2⟩ := hsep
    rw [hPR] at hi'
    rcases List.mem_append.1 hi' with hP | hP
    · -- an earlier piece cannot hold the later point
      obtain ⟨u, l, g1, g2, g3⟩ := s2 i' hP i (by simp)
      rw [RawInterval.contains_iff_bounds] at hix hiy
      obtain ⟨_, _, k1, _, k2, _⟩ := hix
      obtain ⟨_, _, _, k3, _, k4⟩ := hiy
      rw [g2] at k1; rw [g1] at k3; cases k1; cases k3
      exact absurd (TT.sep_lt g3 k4 k2) hxy.not_gt
    · rcases List.mem_cons.1 hP with rfl | hP
      · exact hiy
      · have hix' := hix
        rw [RawInterval.contains_iff_bounds] at hix'
        obtain ⟨_, u, _, k3, _, k4⟩ := hix'
        have hl : ∀ k ∈ R, ∃ l, k.lowerBound = some l ∧ TT.Sep u l := by
          intro k hk
          obtain ⟨u', l, g1, g2, g3⟩ := s1 k hk
          rw [k3] at g1; cases g1
          exact ⟨l, g2, g3⟩
        obtain ⟨z, z1, z2, z3, z4⟩ := TT.gap_after k4 hl hP hiy
        have hz : z ∈ j.pts := RawInterval.convex j hx hy z1.le z2.le
        obtain ⟨k, hk, hkz⟩ := hcov z hz
        rw [hPR] at hk
        rcases List.mem_append.1 hk with hk | hk
        · obtain ⟨u', l, g1, g2, g3⟩ := s2 k hk i (by simp)
          rw [RawInterval.contains_iff_bounds] at hix hkz
          obtain ⟨_, _, k1, _, k2, _⟩ := hix
          obtain ⟨_, _, _, k3, _, k4⟩ := hkz
          rw [g2] at k1; rw [g1] at k3; cases k1; cases k3
          exact absurd (TT.sep_lt g3 k4 k2) z1.not_gt
        · rcases List.mem_cons.1 hk with rfl | hk
          · rw [RawInterval.contains_iff_bounds] at hkz
            obtain ⟨_, _, _, m1, _, m2⟩ := hkz
            rw [k3] at m1; cases m1
            exact absurd m2 z3
          · rw [z4 k hk] at hkz; cases hkz
  obtain ⟨x0, hx0⟩ := hne
  obtain ⟨i, hi, hix⟩ := hcov x0 hx0
  refine ⟨i, hi, fun y hy => ?_⟩
  rw [← RawInterval.contains_iff]
  rcases lt_trichotomy x0 y with hlt | rfl | hgt
  · exact same x0 hx0 y hy hlt i hi hix
  · exact hix
  · obtain ⟨i', hi', hiy⟩ := hcov y hy
    have := same y hy x0 hx0 hgt i' hi' hiy
    -- `x0` is in both `i` and `i'`, so they are the same piece
    by_cases e : i' = i
    · exact e ▸ hiy
    · have hpw : (TT.pieces none t).Pairwise fun a b => ∀ w, a.contains w = true →
          b.contains w = true → False := by
        refine (TT.pieces_sep h.1).1.imp ?_
        rintro a b ⟨u, l, g1, g2, g3⟩ w ha hb
        rw [RawInterval.contains_iff_bounds] at ha hb
        obtain ⟨_, _, _, k3, _, k4⟩ := ha
        obtain ⟨_, _, k1, _, k2, _⟩ := hb
        rw [g1] at k3; rw [g2] at k1; cases k1; cases k3
        exact absurd (TT.sep_lt g3 k4 k2) (lt_irrefl _)
      obtain ⟨P, R, hPR⟩ := List.append_of_mem hi
      rw [hPR, List.pairwise_append, List.pairwise_cons] at hpw
      rw [hPR] at hi'
      rcases List.mem_append.1 hi' with hP | hP
      · exact (hpw.2.2 i' hP i (by simp) x0 this hix).elim
      · rcases List.mem_cons.1 hP with rfl | hP
        · exact absurd rfl e
        · exact (hpw.2.1.1 i' hP x0 hix this).elim

example : (RawInterval.leftOpen (0 : ℚ) 1).pts.Nonempty := ⟨1, by simp [RawInterval.pts, Set.Ioc]⟩

/-! ## C46 -/

theorem TT.holeFree_of {t : TineTree α} (h : TT.Valid t)
    (hh : ∀ p, ¬ RawInterval.Hole (TT.pieces none t) p) : TT.HoleFree t := by
  intro x hx
  rw [Bool.eq_false_iff]
  intro he
  rcases x with b | (p | p | _) | b <;> simp [Tine.isPointExclude] at he
  exact hh p ⟨((TT.pieces_open_upper h.1 p).1 h.2).2 (.inr hx),
    ((TT.pieces_open_lower h.1 p).1 h.2).2 (.inr hx)⟩

/-- Reverse iteration never panics and is the reverse of forward iteration, for trees without
holes.
Missing from the full property: trees with holes, for which it is wrong, see
`C46_counterexample`. -/
theorem C46_reverse_partial (dbg : Bool) (t : TineTree α) (ht : t.Reachable)
    (is : List (RawInterval α)) (his : TineTree.intervals dbg t = .ok is)
    (hh : ∀ p, ¬ RawInterval.Hole is p) :
    TineTree.intervalsBack dbg t = .ok is.reverse := by
  have h := TT.reachable_valid ht
  rw [TT.intervals_eq dbg h] at his
  cases his
  exact TT.intervalsBack_eq dbg h (TT.holeFree_of h hh)

example : TineTree.intervalsBack true (TineTree.demo [.opn 5 9, .closed 0 2, .point 4]) =
    .ok [.opn 5 9, .point 4, .closed 0 2] := by decide
example : ∀ p : Int, ¬ RawInterval.Hole [.closed 0 2, .point 4, .opn 5 9] p := by
  rintro p ⟨h1, h2⟩
  simp [RawInterval.OpenEnd, RawInterval.OpenStart, RawInterval.upperBound,
    RawInterval.lowerBound] at h1 h2
  omega

/-- Iterating backwards over `(0,2) ∪ (2,4)` panics in a debug build, and yields `(2,4)` and `Empty`
in a release build. -/
theorem C46_counterexample :
    ∃ t : TineTree Int, t.Reachable ∧
      TineTree.intervals true t = .ok [.opn 0 2, .opn 2 4] ∧
      TineTree.intervalsBack true t = .error .debugAssert ∧
      TineTree.intervalsBack false t = .ok [.opn 2 4, .empty] :=
  ⟨TineTree.demo [.opn 0 2, .opn 2 4],
    TineTree.fromIter_reachable (dbg := true) (is := [.opn 0 2, .opn 2 4]) (by decide) (by decide),
    by decide, by decide, by decide⟩

/-! ## C47 -/

/-- `enclose` never panics; the enclosing interval has the tree's bounds and contains the tree; the
closure is its closure. -/
theorem C47_enclose (dbg : Bool) (t : TineTree α) (ht : t.Reachable) :
    ∃ e, TineTree.enclose dbg t = .ok e ∧ e.WF ∧ e.lowerBound = TineTree.lowerBound t ∧
      e.upperBound = TineTree.upperBound t ∧
      (∀ x, TineTree.contains dbg t x = .ok true → x ∈ e.pts) ∧
      TineTree.closure dbg t = .ok e.closure := by
  have h := TT.reachable_valid ht
  obtain ⟨e, h1, h2, h3, h4, h5⟩ := TT.enclose_ok dbg h
  refine ⟨e, h1, h2, h3, h4, fun x hx => ?_, by rw [TineTree.closure, h1]; rfl⟩
  rw [TT.contains_iff dbg h] at hx
  exact (RawInterval.contains_iff e x).1 (h5 x hx)

example : TineTree.enclose true (TineTree.demo [.leftOpen 0 9, .opn 12 20]) = .ok (.opn 0 20) ∧
    TineTree.closure true (TineTree.demo [.leftOpen 0 9, .opn 12 20]) = .ok (.closed 0 20) := by decide

/-- The tree's bounds are those of its first and last interval. -/
theorem C47_bounds (dbg : Bool) (t : TineTree α) (ht : t.Reachable) (is : List (RawInterval α))
    (his : TineTree.intervals dbg t = .ok is) :
    TineTree.lowerBound t = is.head?.bind RawInterval.lowerBound ∧
    TineTree.upperBound t = is.getLast?.bind RawInterval.upperBound := by
  have h := TT.reachable_valid ht
  rw [TT.intervals_eq dbg h] at his
  cases his
  have low : ∀ {ts : List (Tine α)}, TT.Sorted ts →
      (TT.Chain false ts false → TineTree.lowerBound ts =
        (TT.pieces none ts).head?.bind RawInterval.lowerBound) ∧
      (∀ b, TT.Chain true ts false → BSet.Gt ts (Tine.lower b).key →
        some b = (TT.pieces (some b) ts).head?.bind RawInterval.lowerBound) := by
    intro ts hs
    induction ts with
    | nil => exact ⟨fun _ => rfl, fun b hc => absurd hc (by simp [TT.Chain])⟩
    | cons x ts ih =>
      obtain ⟨h1, h2, h3⟩ := TT.sorted_cons.1 hs
      obtain ⟨ih1, ih2⟩ := ih h3
      constructor
      · rintro ⟨c1, c2⟩
        rcases x with b | (p | p | _) | b <;>
          simp [Tine.isUpperBound, Tine.isLowerBound] at c1 c2
        · rw [TT.pieces, ← ih2 b c2 h2]; rfl
        · rfl
        · exact absurd rfl h1
      · rintro b ⟨c1, c2⟩ hgt
        have hbk := (hgt x (List.mem_cons_self)).2
        rcases x with u | (p | p | _) | u <;>
          simp [Tine.isUpperBound, Tine.isLowerBound] at c1 c2
        · exact (TT.new_bounds (u := .excl p) (show (Tine.lower b).key < _ from hbk)).1.symm
        · exact (TT.new_bounds hbk).1.symm
  have up : ∀ {ts : List (Tine α)}, TT.Sorted ts →
      (TT.Chain false ts false → TineTree.upperBound ts =
        (TT.pieces none ts).getLast?.bind RawInterval.upperBound) ∧
      (∀ b, TT.Chain true ts false → BSet.Gt ts (Tine.lower b).key →
        TineTree.upperBound ts = (TT.pieces (some b) ts).getLast?.bind RawInterval.upperBound) := by
    intro ts hs
    induction ts with
    | nil => exact ⟨fun _ => rfl, fun b hc => absurd hc (by simp [TT.Chain])⟩
    | cons x ts ih =>
      obtain ⟨h1, h2, h3⟩ := TT.sorted_cons.1 hs
      obtain ⟨ih1, ih2⟩ := ih h3
      have ub : ∀ y ys, TineTree.upperBound (x :: y :: ys) = TineTree.upperBound (y :: ys) := by
        intro y ys; simp [TineTree.upperBound, List.getLast?_cons_cons]
      constructor
      · rintro ⟨c1, c2⟩
        rcases x with b | (p | p | _) | b <;>
          simp [Tine.isUpperBound, Tine.isLowerBound] at c1 c2
        · rw [TT.pieces, ← ih2 b c2 h2]
          rcases ts with _ | ⟨y, ys⟩
          · simp [TT.Chain] at c2
          · exact ub y ys
        · rcases ts with _ | ⟨y, ys⟩
          · rfl
          · rw [ub, ih1 c2, TT.pieces]
            rcases hq : TT.pieces none (y :: ys) with _ | ⟨q, qs⟩
            · have := ih1 c2
              rw [hq] at this
              simp [TineTree.upperBound, List.getLast?_cons] at this
            · rw [List.getLast?_cons_cons]
        · exact absurd rfl h1
      · rintro b ⟨c1, c2⟩ hgt
        have hbk := (hgt x (List.mem_cons_self)).2
        rcases x with u | (p | p | _) | u <;>
          simp [Tine.isUpperBound, Tine.isLowerBound] at c1 c2
        · rcases ts with _ | ⟨y, ys⟩
          · simp [TT.Chain] at c2
          · rw [ub, ih2 (.excl p) c2 h2, TT.pieces]
            rcases hq : TT.pieces (some (.excl p)) (y :: ys) with _ | ⟨q, qs⟩
            · have := ih2 (.excl p) c2 h2
              rw [hq] at this
              simp [TineTree.upperBound, List.getLast?_cons] at this
            · rw [List.getLast?_cons_cons]
        · rcases ts with _ | ⟨y, ys⟩
          · simp only [TT.pieces, List.getLast?_singleton, Option.bind_some, (TT.new_bounds hbk).2]
            rfl
          · rw [ub, ih1 c2, TT.pieces]
            rcases hq : TT.pieces none (y :: ys) with _ | ⟨q, qs⟩
            · have := ih1 c2
              rw [hq] at this
              simp [TineTree.upperBound, List.getLast?_cons] at this
            · rw [List.getLast?_cons_cons]
  exact ⟨(low h.1).1 h.2, (up h.1).1 h.2⟩

example : TineTree.enclose true (TineTree.demo [.opn 5 9, .closed 0 2]) = .ok (.rightOpen 0 9) := by
  decide

/-- Over a dense order without end points the enclosing interval is the smallest: it lies inside
every interval that contains the tree. -/
theorem C47_minimal [DenselyOrdered α] [NoMinOrder α] [NoMaxOrder α] (dbg : Bool) (t : TineTree α)
    (ht : t.Reachable) (e : RawInterval α) (he : TineTree.enclose dbg t = .ok e)
    (j : RawInterval α) (hj : ∀ x, TineTree.contains dbg t x = .ok true → x ∈ j.pts) :
    ∀ x ∈ e.pts, x ∈ j.pts := by
  have h := TT.reachable_valid ht
  intro x hx
  rw [← RawInterval.contains_iff] at hx
  obtain ⟨y, w, h1, h2, h3, h4⟩ := TT.enclose_between dbg h he hx
  exact RawInterval.convex j (hj y ((TT.contains_iff dbg h y).2 h3))
    (hj w ((TT.contains_iff dbg h w).2 h4)) h1 h2

example (dbg : Bool) : TineTree.enclose dbg (TineTree.fromRawInterval (RawInterval.opn (0 : ℚ) 1)) =
    .ok (.opn 0 1) := by
  rw [TT.tree_fromRaw (by simp [RawInterval.WF])]
  simp [TineTree.enclose, Tine.fromRawInterval, RawInterval.new, RawInterval.mkOpen, Tine.intoInner]

end NI
