import Verif.Lemmas.Canon
import Verif.Props.Tree
import Verif.SpecMore

/-!
# Canonical interval lists: C71, agreement of trees and intervals: C72, and exactly when C37 holds
-/

set_option linter.unusedSimpArgs false
set_option linter.unusedVariables false
set_option linter.unusedSectionVars false

namespace NI
variable {α : Type} [LinearOrder α]

namespace TT

theorem apart_iff (i j : RawInterval α) : i.Apart j ↔ SepI i j := by
  unfold RawInterval.Apart SepI
  refine exists_congr fun u => exists_congr fun l => and_congr_right fun _ => and_congr_right fun _ => ?_
  rcases u with x | x | _ <;> rcases l with y | y | _ <;> simp [Sep, Tine.key, Bound.asRef]

theorem canonical_iff (is : List (RawInterval α)) :
    RawInterval.Canonical is ↔ (∀ i ∈ is, i.WF ∧ i ≠ .empty) ∧ is.Pairwise SepI := by
  unfold RawInterval.Canonical
  rw [show (RawInterval.Apart : RawInterval α → RawInterval α → Prop) = SepI from
    funext fun i => funext fun j => propext (apart_iff i j)]

theorem safe_of_minusOk {t : TineTree α} (h : Valid t) {p : α} (hm : MinusOk t (.point p)) :
    ¬ RawInterval.OpenEnd (pieces none t) p ∧ ¬ RawInterval.OpenStart (pieces none t) p := by
  unfold RawInterval.OpenEnd RawInterval.OpenStart
  rw [open_upper_iff h, open_lower_iff h]
  rcases hm with hm | ⟨h1, h2⟩
  · simp [hm]
  · simp [h1, h2]

/-- A single interval as a tree has that interval as its only piece. -/
theorem pieces_single {a : RawInterval α} (ha : a.WF) :
    pieces none (Tine.fromRawInterval a) = if a.isEmpty then [] else [a] := by
  cases h : a.isEmpty
  · rw [Bool.eq_false_iff, ne_eq, RawInterval.isEmpty_iff] at h
    exact pieces_unique (fromRaw_valid ha) (by simpa using ⟨ha, h⟩) (by simp)
      fun aft k _ => by simp; rfl
  · rw [RawInterval.isEmpty_iff] at h
    subst h
    rfl

end TT

/-! ## C37: exactly when `minus_in_place` works -/

/-- `minus_in_place` removes the points of the interval and leaves a proper tree exactly if the
interval does not touch excluded points of the tree as described by `RemovalSafe`. -/
theorem C37_exact_iff (dbg : Bool) (t : TineTree α) (ht : t.Reachable) (i : RawInterval α) (hi : i.WF)
    (is : List (RawInterval α)) (his : TineTree.intervals dbg t = .ok is) :
    (∃ t', TineTree.minusInPlace dbg t i = .ok t' ∧ t'.Reachable ∧
      ∀ x, TineTree.contains dbg t' x = .ok true ↔
        (TineTree.contains dbg t x = .ok true ∧ i.contains x = false)) ↔
    RawInterval.RemovalSafe is i := by
  refine ⟨?_, C37_minus_in_place_partial dbg t ht i hi is his⟩
  rintro ⟨t', e, r, c⟩
  have h := TT.reachable_valid ht
  refine ⟨fun p hp => ?_, fun h2 p hp hh => ?_⟩
  · subst hp
    rw [TT.intervals_eq dbg h] at his
    cases his
    exact TT.safe_of_minusOk h ((TT.minusPoint_iff dbg h p).1 ⟨t', e, TT.reachable_valid r⟩)
  · obtain ⟨t1, e1, -, c1⟩ := C37_minus_proper_exact dbg t ht i hi h2 is his
    rw [e] at e1
    cases e1
    have h3 := ((c p).1 ((c1 p).2 (.inr ⟨hp, hh⟩))).1
    rw [TT.contains_iff dbg h] at h3
    rw [TT.intervals_eq dbg h] at his
    cases his
    have := (TT.open_upper_iff h p).1 hh.1
    rw [h3] at this
    simp at this

example : RawInterval.RemovalSafe [.opn (0 : Int) 9, .opn 20 30] (.point 4) ∧
    ¬ RawInterval.RemovalSafe [.opn (0 : Int) 9, .opn 20 30] (.point 9) := by
  refine ⟨⟨fun p h => ?_, fun h => absurd rfl (h.2 4)⟩, fun h => (h.1 9 rfl).1 ⟨.opn 0 9, by simp, rfl⟩⟩
  cases h
  simp [RawInterval.OpenEnd, RawInterval.OpenStart, RawInterval.upperBound, RawInterval.lowerBound]

/-! ## C71 -/

/-- Collecting a canonical list and iterating over the tree gives the list back. -/
theorem C71_collect_canonical (dbg : Bool) (is : List (RawInterval α)) (h : RawInterval.Canonical is) :
    ∃ t, TineTree.fromIter dbg is = .ok t ∧ t.Reachable ∧ TineTree.intervals dbg t = .ok is := by
  obtain ⟨hw, hp⟩ := (TT.canonical_iff is).1 h
  obtain ⟨t, e, v, c⟩ := TT.fromIter_ok dbg is fun i hi => (hw i hi).1
  exact ⟨t, e, TT.valid_reachable v, by
    rw [TT.intervals_eq dbg v, TT.pieces_unique v hw hp fun aft k _ => c aft k]⟩

example : RawInterval.Canonical [.leftOpen (0 : Int) 3, .opn 4 5, .leftOpen 5 6, .point 7, .frm 9] := by
  simp [RawInterval.Canonical, RawInterval.Apart, RawInterval.WF, RawInterval.upperBound,
    RawInterval.lowerBound, Bound.asRef]

/-- Iterating over a tree gives a canonical list, and it is the only canonical list that collects to
this tree. -/
theorem C71_intervals_canonical (dbg : Bool) (t : TineTree α) (ht : t.Reachable) :
    ∃ is, TineTree.intervals dbg t = .ok is ∧ RawInterval.Canonical is ∧
      ∀ js, RawInterval.Canonical js → (TineTree.fromIter dbg js = .ok t ↔ js = is) := by
  have h := TT.reachable_valid ht
  refine ⟨_, TT.intervals_eq dbg h, (TT.canonical_iff _).2 ⟨(TT.pieces_wf h.1).1, (TT.pieces_sep h.1).1⟩,
    fun js hj => ⟨fun e => ?_, ?_⟩⟩
  · obtain ⟨t1, e1, -, e2⟩ := C71_collect_canonical dbg js hj
    rw [e] at e1
    cases e1
    rw [TT.intervals_eq dbg h] at e2
    cases e2
    rfl
  · rintro rfl
    exact TT.fromIter_pieces dbg h

example : TineTree.intervals true (TineTree.demo [.closed 3 9, .opn 0 3, .point 12]) =
    .ok [.leftOpen 0 9, .point 12] := by decide

/-- Over dense orders without end points a canonical list is determined by its points. -/
theorem C71_points_determine [DenselyOrdered α] [NoMinOrder α] [NoMaxOrder α] [Nonempty α]
    (is js : List (RawInterval α)) (hi : RawInterval.Canonical is) (hj : RawInterval.Canonical js)
    (h : ∀ x, (∃ i ∈ is, x ∈ i.pts) ↔ ∃ j ∈ js, x ∈ j.pts) : is = js := by
  obtain ⟨a, ea, ra, ia⟩ := C71_collect_canonical true is hi
  obtain ⟨b, eb, rb, ib⟩ := C71_collect_canonical true js hj
  have hab : a = b := by
    refine TT.dense_ext (TT.reachable_valid ra) (TT.reachable_valid rb) fun x => ?_
    obtain ⟨a1, e1, -, -, c1⟩ := C43_collect true is is (fun i h => (hi.1 i h).1) (.refl _)
    obtain ⟨b1, e2, -, -, c2⟩ := C43_collect true js js (fun i h => (hj.1 i h).1) (.refl _)
    rw [ea] at e1
    cases e1
    rw [eb] at e2
    cases e2
    rw [Bool.eq_iff_iff, ← TT.contains_iff true (TT.reachable_valid ra),
      ← TT.contains_iff true (TT.reachable_valid rb), c1, c2]
    exact h x
  subst hab
  rw [ia] at ib
  cases ib
  rfl

example : RawInterval.Canonical [.opn (0 : ℚ) 3, .upFrom 3] ∧
    ¬ RawInterval.Canonical [.opn (0 : ℚ) 3, .frm 3] := by
  refine ⟨?_, ?_⟩ <;>
  simp [RawInterval.Canonical, RawInterval.Apart, RawInterval.WF, RawInterval.upperBound,
    RawInterval.lowerBound, Bound.asRef]

/-! ## C72 -/

/-- The union of two intervals, as a tree, has the intervals that `RawInterval::union` returns. -/
theorem C72_union (dbg : Bool) (a b : RawInterval α) (ha : a.WF) (hb : b.WF) :
    ∃ t is, TineTree.unionInPlace dbg (TineTree.fromRawInterval a) b = .ok t ∧ t.Reachable ∧
      TineTree.intervals dbg t = .ok is ∧ is.Perm (a.union b) := by
  obtain ⟨t, e, v, c⟩ := TT.unionInPlace_ok dbg (TT.fromRaw_valid ha) hb
  rw [TT.tree_fromRaw ha]
  refine ⟨t, _, e, TT.valid_reachable v, TT.intervals_eq dbg v, ?_⟩
  have one : ∀ i : RawInterval α, i.WF → i ≠ .empty →
      (∀ aft k, TT.RealPos aft k → TT.tcov t aft k = TT.icov i aft k) → TT.pieces none t = [i] :=
    fun i wi ni h => TT.pieces_unique v (by simpa using ⟨wi, ni⟩) (by simp)
      fun aft k hr => by rw [h aft k hr]; simp
  change ∀ aft k, TT.tcov t aft k = (TT.icov a aft k || TT.icov b aft k) at c
  have ie : ∀ aft k, TT.icov (.empty : RawInterval α) aft k = false := fun _ _ => rfl
  by_cases na : a = .empty
  · subst na
    by_cases nb : b = .empty
    · subst nb
      rw [TT.pieces_unique v (is := []) (by simp) (by simp) fun aft k hr => by rw [c, ie]; rfl]
      exact .refl _
    · rw [one b hb nb fun aft k hr => by rw [c, ie, Bool.false_or]]
      have : b.isEmpty = false := by
        rw [Bool.eq_false_iff, ne_eq, RawInterval.isEmpty_iff]; exact nb
      simp [RawInterval.union, this, RawInterval.isEmpty]
  have ea : a.isEmpty = false := by
    rw [Bool.eq_false_iff, ne_eq, RawInterval.isEmpty_iff]; exact na
  by_cases nb : b = .empty
  · subst nb
    rw [one a ha na fun aft k hr => by rw [c, ie, Bool.or_false]]
    simp [RawInterval.union, ea, RawInterval.isEmpty]
  rcases TT.union_cases ha hb na nb with ⟨g1, g2 | g2⟩ | ⟨g1, g2, g3⟩
  · rw [g1, TT.pieces_unique v (is := [a, b]) (by simp [*]) (by simpa using g2)
      fun aft k hr => by rw [c]; simp]
  · rw [g1, TT.pieces_unique v (is := [b, a]) (by simp [*]) (by simpa using g2)
      fun aft k hr => by rw [c]; simp [Bool.or_comm]]
    exact List.Perm.swap _ _ _
  · rw [g1, one _ (RawInterval.enclose_wf _ _) g2 fun aft k hr => by rw [c, g3 aft k hr]]

example : (RawInterval.closed (4 : Int) 9).union (.opn 0 4) = [.leftOpen 0 9].map id ∧
    (RawInterval.closed (5 : Int) 9).union (.opn 0 4) = [.closed 5 9, .opn 0 4] := by decide

/-- The complement of an interval, as a tree, has the intervals that `RawInterval::complement`
returns. -/
theorem C72_complement (dbg : Bool) (a : RawInterval α) (ha : a.WF) :
    ∃ t, TineTree.complement dbg (TineTree.fromRawInterval a) = .ok t ∧ t.Reachable ∧
      TineTree.intervals dbg t = .ok a.complement := by
  obtain ⟨t, e, v, c⟩ := TT.complement_ok dbg (TT.fromRaw_valid ha)
  rw [TT.tree_fromRaw ha]
  obtain ⟨hw, hp⟩ := TT.complement_wf a ha
  refine ⟨t, e, TT.valid_reachable v, ?_⟩
  rw [TT.intervals_eq dbg v, TT.pieces_unique v hw hp fun aft k hr => by
    rw [c aft k hr, TT.complement_icov ha hr]; rfl]

example : TineTree.complement true (TineTree.demo [.leftOpen 3 9]) = .ok (TineTree.demo [.to 3, .upFrom 9]) ∧
    (RawInterval.leftOpen (3 : Int) 9).complement = [.to 3, .upFrom 9] := by decide

/-- The intersection of two intervals as trees has the interval that `RawInterval::intersect` returns,
if that is not empty, and no interval otherwise. -/
theorem C72_intersect (dbg : Bool) (a b : RawInterval α) (ha : a.WF) (hb : b.WF) :
    ∃ t, TineTree.intersect dbg (TineTree.fromRawInterval a) (TineTree.fromRawInterval b) = .ok t ∧
      t.Reachable ∧
      TineTree.intervals dbg t = .ok (if a.intersects b then [a.intersect b] else []) := by
  rw [TT.tree_fromRaw ha, TT.tree_fromRaw hb]
  obtain ⟨t, e, -, e'⟩ := TT.intersect_eq dbg (TT.fromRaw_valid ha) (TT.fromRaw_valid hb)
  rw [TT.pieces_single ha, TT.pieces_single hb] at e'
  have hl : TT.isectList (if a.isEmpty then [] else [a]) (if b.isEmpty then [] else [b]) =
      if a.intersects b then [a.intersect b] else [] := by
    have ea : a.isEmpty = true → a.intersect b = .empty := by
      rw [RawInterval.isEmpty_iff]; rintro rfl; rfl
    have eb : b.isEmpty = true → a.intersect b = .empty := by
      rw [RawInterval.isEmpty_iff]; rintro rfl; cases a <;> rfl
    have ei : ∀ h : a.intersect b = .empty, a.intersects b = false := fun h => by
      simp [RawInterval.intersects, h, RawInterval.isEmpty]
    cases ha : a.isEmpty
    · cases hb : b.isEmpty
      · cases hi : a.intersects b
        · simp [TT.isectList_miss hi, TT.isectList]
        · simp [TT.isectList_meet hi, TT.isectList]
      · simp [ei (eb hb), TT.isectList]
    · simp [ei (ea ha), TT.isectList]
  rw [hl] at e'
  obtain ⟨t1, e1, r, h1⟩ := C71_collect_canonical dbg (if a.intersects b then [a.intersect b] else [])
    (by
      split_ifs with h
      · refine ⟨?_, by simp⟩
        simp only [List.mem_singleton, forall_eq]
        exact ⟨RawInterval.intersect_wf _ _, fun g => by
          simp [RawInterval.intersects, g, RawInterval.isEmpty] at h⟩
      · exact ⟨by simp, by simp⟩)
  rw [e'] at e1
  cases e1
  exact ⟨t, e, r, h1⟩

example : (RawInterval.closed (0 : Int) 4).intersects (.opn 3 9) = true ∧
    (RawInterval.closed (0 : Int) 4).intersect (.opn 3 9) = .leftOpen 3 4 := by decide

/-- The difference of two intervals, as a tree, has the intervals that `RawInterval::minus` returns,
unless the interval taken away is a point that is an excluded end of the first one; and in that case
the result is not a proper tree.
Missing from the full property: that case, see `C72_counterexample`. -/
theorem C72_minus_partial (dbg : Bool) (a b : RawInterval α) (ha : a.WF) (hb : b.WF) :
    (∃ t, TineTree.minusInPlace dbg (TineTree.fromRawInterval a) b = .ok t ∧ t.Reachable ∧
      TineTree.intervals dbg t = .ok (a.minus b)) ↔
    ¬ ∃ p, b = .point p ∧ (a.lowerBound = some (.excl p) ∨ a.upperBound = some (.excl p)) := by
  have v0 := TT.fromRaw_valid ha
  have ps := TT.pieces_single ha
  have bnd : ∀ p : α, (RawInterval.OpenEnd (TT.pieces none (Tine.fromRawInterval a)) p ↔
      a.upperBound = some (.excl p)) ∧
      (RawInterval.OpenStart (TT.pieces none (Tine.fromRawInterval a)) p ↔
      a.lowerBound = some (.excl p)) := by
    intro p
    rw [ps]
    cases h : a.isEmpty
    · simp [RawInterval.OpenEnd, RawInterval.OpenStart]
    · rw [RawInterval.isEmpty_iff] at h
      subst h
      simp [RawInterval.OpenEnd, RawInterval.OpenStart, RawInterval.upperBound,
        RawInterval.lowerBound]
  rw [TT.tree_fromRaw ha]
  constructor
  · rintro ⟨t, e, r, -⟩ ⟨p, rfl, hp⟩
    have := TT.safe_of_minusOk v0 ((TT.minusPoint_iff dbg v0 p).1 ⟨t, e, TT.reachable_valid r⟩)
    rw [(bnd p).1, (bnd p).2] at this
    tauto
  · intro hn
    have safe : RawInterval.RemovalSafe (TT.pieces none (Tine.fromRawInterval a)) b := by
      refine ⟨fun p hp => ?_, fun _ p _ hh => ?_⟩
      · rw [(bnd p).1, (bnd p).2]
        exact ⟨fun h => hn ⟨p, hp, .inr h⟩, fun h => hn ⟨p, hp, .inl h⟩⟩
      · obtain ⟨h1, h2⟩ := hh
        rw [(bnd p).1] at h1
        rw [(bnd p).2] at h2
        cases a <;> simp [RawInterval.upperBound, RawInterval.lowerBound, RawInterval.WF] at h1 h2 ha
        exact absurd ha (by rw [h1, h2]; exact lt_irrefl _)
    obtain ⟨t, e, v, c, -⟩ := TT.minusInPlace_ok dbg v0 hb (TT.minusOk_of_safe v0 hb safe)
    obtain ⟨hw, hp, hc⟩ := TT.minus_list ha hb
    refine ⟨t, e, TT.valid_reachable v, ?_⟩
    rw [TT.intervals_eq dbg v, TT.pieces_unique v hw hp fun aft k hr => by
      rw [c, hc aft k hr]; rfl]

example : TineTree.minusInPlace true (TineTree.demo [.leftOpen 3 9]) (.opn 5 7) =
      .ok (TineTree.demo [.leftOpen 3 5, .closed 7 9]) ∧
    (RawInterval.leftOpen (3 : Int) 9).minus (.opn 5 7) = [.leftOpen 3 5, .closed 7 9] := by decide

/-- Removing the excluded end `3` from `(0, 3)` as an interval leaves `(0, 3)`; as a tree it leaves
something over which iteration panics. -/
theorem C72_counterexample :
    (RawInterval.opn (0 : Int) 3).minus (.point 3) = [.opn 0 3] ∧
    ∀ dbg, ∃ t, TineTree.minusInPlace dbg (TineTree.fromRawInterval (.opn (0 : Int) 3)) (.point 3) = .ok t ∧
      TineTree.intervals dbg t = .error .expect := by
  refine ⟨by decide, fun dbg => ⟨[.lower (.excl 0)], ?_⟩⟩
  cases dbg <;> decide

end NI
