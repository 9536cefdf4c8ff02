import Verif.Props.Steps
import Verif.Props.Histories

/-!
# Collecting what a selection yields (C102)

`selection.interval_iter().collect::<Selection<_>>()` and `selection.iter().collect::<Selection<_>>()` make a
selection with the same points.  Whatever the history of the original was, the copy is one that was built from
intervals only, provided that no listed interval is void; so copies can be compared with `==`, and the copy equals
the original exactly if the original was built that way too.
-/

set_option linter.unusedVariables false
set_option linter.unusedSectionVars false

namespace NI
open _root_.NI.Finite TT

variable {α : Type} [LinearOrder α] [Finite α] [LawfulFinite α]

/-- What a user can ask of an interval: does it contain its own lower bound? -/
def Interval.HoldsStart (i : Interval α) : Bool :=
  match i.lowerBound with
  | some (.incl l) => i.contains l
  | _ => false

theorem Interval.holdsStart_iff {i : Interval α} (hi : i.Obtainable) : i.HoldsStart = true ↔ i.pts.Nonempty := by
  rcases (C23_normal_form i hi).1 with h | ⟨p, h⟩ | ⟨l, u, h⟩
  · obtain ⟨r⟩ := i; simp only at h; subst h
    simp [HoldsStart, Interval.lowerBound, RawInterval.lowerBound, Interval.pts, Interval.contains,
      RawInterval.contains]
  · obtain ⟨r⟩ := i; simp only at h; subst h
    simp [HoldsStart, Interval.lowerBound, RawInterval.lowerBound, Interval.pts, Interval.contains,
      RawInterval.contains, Set.Nonempty]
  · obtain ⟨r⟩ := i; simp only at h; subst h
    simp only [HoldsStart, Interval.lowerBound, RawInterval.lowerBound, Interval.pts, Interval.contains,
      RawInterval.contains, Set.Nonempty, Set.mem_ofPred_eq]
    constructor
    · intro h; exact ⟨l, h⟩
    · rintro ⟨x, hx⟩
      simp only [Bool.and_eq_true, decide_eq_true_eq] at hx ⊢
      exact ⟨le_rfl, hx.1.trans hx.2⟩

/-- Collecting the listed intervals of any selection gives a selection with the same points. -/
theorem C102_same_points (dbg : Bool) (s : Selection α) (hs : s.Reachable) :
    ∃ is r, s.intervals dbg = .ok is ∧ Selection.fromIntervals dbg is = .ok r ∧ r.Reachable ∧
      r.pts dbg = s.pts dbg := by
  obtain ⟨is, e, ho, -, c⟩ := C56_cover_partial dbg s hs
  obtain ⟨r, e2, hr, c2⟩ := C48_from_intervals dbg is ho
  exact ⟨is, r, e, e2, hr, Set.ext fun x => by rw [c2, c]⟩

example : (Selection.demo [(u8 2, u8 5), (u8 9, u8 12)]).Reachable ∧
    Selection.fromIntervals true [Interval.mkClosed (u8 2) (u8 5), Interval.mkClosed (u8 9) (u8 12)] =
      .ok (Selection.demo [(u8 2, u8 5), (u8 9, u8 12)]) :=
  ⟨(Selection.demo_built _ (by decide)).reachable, by decide⟩

/-- The copy counts as built from intervals exactly if no listed interval is void. -/
theorem C102_canonical_iff (dbg : Bool) (s r : Selection α) (hs : s.Reachable) (is : List (Interval α))
    (he : s.intervals dbg = .ok is) (hr : Selection.fromIntervals dbg is = .ok r) :
    r.UnionBuilt ↔ ∀ i ∈ is, i.pts.Nonempty := by
  obtain ⟨is', r', e1, e2, hr', hp⟩ := C102_same_points dbg s hs
  rw [he] at e1; cases e1
  rw [hr] at e2; cases e2
  obtain ⟨is', e1, ho, -⟩ := C56_cover_partial dbg s hs
  rw [he] at e1; cases e1
  refine ⟨fun hu => ?_, fun hg => .fromIntervals (fun i hi => ⟨ho i hi, .inr (hg i hi)⟩) hr⟩
  have v := Selection.reachable_valid hs
  have vr := Selection.reachable_valid hr'
  intro i hi
  have hi0 := hi
  rw [Selection.intervals_eq dbg v] at he
  cases he
  obtain ⟨j, hj, rfl⟩ := List.mem_map.1 hi
  rcases hs.run_cases hj with hg | ⟨p, q, hpq, rfl, h3, h1, h2⟩
  · exact (Selection.good_iff hs hj).1 hg
  · exfalso
    have hat : ∀ x, at' r.tree x = at' s.tree x := fun x => by
      have := Set.ext_iff.1 hp x
      rw [Selection.mem_pts dbg vr, Selection.mem_pts dbg v] at this
      exact Bool.eq_iff_iff.2 this
    have hd := hu.do.1 p
    rw [hat, h1, hpq, Option.elim_some, hat, h2] at hd
    obtain ⟨r2, e2, v2, c2⟩ := Selection.extend_ok dbg (s := .new) (Selection.reachable_valid .new) ho
    rw [show Selection.extend dbg .new _ = Selection.fromIntervals dbg _ from rfl, hr] at e2
    cases e2
    rw [c2, Bool.or_false, Bool.or_eq_false_iff, List.any_eq_false] at hd
    have := hd.2 _ hi0
    have hlt : p < q := (LawfulFinite.succ_some _ _ hpq).1
    rw [h3, Selection.ic, RawInterval.denormalized, pred_of_succ hpq, hpq, (icov_opn hlt p).1] at this
    simp [hlt] at this

/-- `gapped` lists the void interval `(1,2)`: its copy keeps it, and is not canonical. -/
example : Selection.gapped.Reachable ∧ ∃ is, Selection.gapped.intervals true = .ok is ∧
    is.map Interval.HoldsStart = [false, true] ∧
    Selection.fromIntervals true is = .ok Selection.gapped :=
  ⟨Selection.gapped_reachable, _, rfl, by decide, by decide⟩

/-- The copies of two selections are equal exactly if the selections have the same points. -/
theorem C102_compare (dbg : Bool) (a b ra rb : Selection α) (ha : a.Reachable) (hb : b.Reachable)
    (as bs : List (Interval α)) (has : a.intervals dbg = .ok as) (hbs : b.intervals dbg = .ok bs)
    (hna : ∀ i ∈ as, i.pts.Nonempty) (hnb : ∀ i ∈ bs, i.pts.Nonempty)
    (hra : Selection.fromIntervals dbg as = .ok ra) (hrb : Selection.fromIntervals dbg bs = .ok rb) :
    ra = rb ↔ a.pts dbg = b.pts dbg := by
  obtain ⟨is, r, e1, e2, -, hp⟩ := C102_same_points dbg a ha
  rw [has] at e1; cases e1
  rw [hra] at e2; cases e2
  obtain ⟨is, r, e1, e2, -, hq⟩ := C102_same_points dbg b hb
  rw [hbs] at e1; cases e1
  rw [hrb] at e2; cases e2
  rw [C55_union_built_partial dbg ra rb ((C102_canonical_iff dbg a ra ha as has hra).2 hna)
    ((C102_canonical_iff dbg b rb hb bs hbs hrb).2 hnb), hp, hq]

example : Selection.cut ≠ Selection.full ∧
    ∃ as bs, Selection.cut.intervals true = .ok as ∧ Selection.full.intervals true = .ok bs ∧
      as.length = 2 ∧ bs.length = 1 ∧ (∀ i ∈ as ++ bs, i.HoldsStart = true) ∧
      Selection.fromIntervals true as = Selection.fromIntervals true bs :=
  ⟨by decide, _, _, rfl, rfl, by decide, by decide, by decide, by decide⟩

/-- The copy equals the original exactly if the original can be made by uniting intervals. -/
theorem C102_fixed_iff (dbg : Bool) (s r : Selection α) (hs : s.Reachable) (is : List (Interval α))
    (he : s.intervals dbg = .ok is) (hn : ∀ i ∈ is, i.pts.Nonempty)
    (hr : Selection.fromIntervals dbg is = .ok r) : r = s ↔ s.UnionBuilt := by
  have hu := (C102_canonical_iff dbg s r hs is he hr).2 hn
  refine ⟨fun h => h ▸ hu, fun h => ?_⟩
  obtain ⟨is, r, e1, e2, -, hp⟩ := C102_same_points dbg s hs
  rw [he] at e1; cases e1
  rw [hr] at e2; cases e2
  exact (C55_union_built_partial dbg r s hu h).2 hp

example : (Selection.demo [(u8 2, u8 5), (u8 9, u8 12)]).UnionBuilt ∧
    ∃ is, (Selection.demo [(u8 2, u8 5), (u8 9, u8 12)]).intervals true = .ok is ∧ (∀ i ∈ is, i.HoldsStart = true) ∧
      Selection.fromIntervals true is = .ok (Selection.demo [(u8 2, u8 5), (u8 9, u8 12)]) :=
  ⟨Selection.demo_built _ (by decide), _, rfl, by decide, by decide⟩

/-- Leaving out the intervals that do not contain their own lower bound makes the copy canonical for selections of
any history. -/
theorem C102_filtered (dbg : Bool) (s : Selection α) (hs : s.Reachable) :
    ∃ is r, s.intervals dbg = .ok is ∧ Selection.fromIntervals dbg (is.filter Interval.HoldsStart) = .ok r ∧
      r.UnionBuilt ∧ r.pts dbg = s.pts dbg := by
  obtain ⟨is, e, ho, -, c⟩ := C56_cover_partial dbg s hs
  obtain ⟨r, e2, hr, c2⟩ := C48_from_intervals dbg (is.filter Interval.HoldsStart)
    fun i hi => ho i (List.mem_filter.1 hi).1
  refine ⟨is, r, e, e2, .fromIntervals (fun i hi => ?_) e2, Set.ext fun x => ?_⟩
  · obtain ⟨h1, h2⟩ := List.mem_filter.1 hi
    exact ⟨ho i h1, .inr ((Interval.holdsStart_iff (ho i h1)).1 h2)⟩
  · rw [c2, c]
    constructor
    · rintro ⟨i, hi, hx⟩; exact ⟨i, (List.mem_filter.1 hi).1, hx⟩
    · rintro ⟨i, hi, hx⟩
      exact ⟨i, List.mem_filter.2 ⟨hi, (Interval.holdsStart_iff (ho i hi)).2 ⟨x, hx⟩⟩, hx⟩

example : Selection.gapped.Reachable ∧ ∃ is, Selection.gapped.intervals true = .ok is ∧
    Selection.fromIntervals true (is.filter Interval.HoldsStart) = .ok (Selection.demo [(u8 3, u8 255)]) :=
  ⟨Selection.gapped_reachable, _, rfl, by decide⟩

/-- If point iteration comes to its end, collecting the points gives the same copy. -/
theorem C102_points (dbg : Bool) (s r : Selection α) (hs : s.Reachable) (is : List (Interval α))
    (he : s.intervals dbg = .ok is) (hn : ∀ i ∈ is, i.pts.Nonempty)
    (hr : Selection.fromIntervals dbg is = .ok r) (n : Nat) (os : List (Option α))
    (ho : drive (PointIter.next dbg) (PointIter.nextBack dbg) (PointIter.start s) (List.replicate n .next) = .ok os)
    (hend : none ∈ os) : Selection.fromPoints dbg (os.filterMap id) = .ok r := by
  obtain ⟨os', e, w⟩ := C57_forward_runs dbg s hs is he hn n
  rw [ho] at e; cases e
  obtain ⟨xs, rfl, h1, h2, h3, h4⟩ := w.forward
  have hlt : xs.length < n := by
    by_contra h
    rw [show n - xs.length = 0 by omega] at hend
    simp at hend
  rw [List.filterMap_append, List.filterMap_map, List.filterMap_replicate_of_none rfl, List.append_nil]
  rw [show (id ∘ some : α → Option α) = some from rfl, List.filterMap_some]
  obtain ⟨r', e', hr', c⟩ := C48_from_points dbg xs
  rw [e']
  congr 1
  obtain ⟨is, r, e1, e2, -, hp⟩ := C102_same_points dbg s hs
  rw [he] at e1; cases e1
  rw [hr] at e2; cases e2
  refine (C55_union_built_partial dbg r' r (.fromPoints e') ((C102_canonical_iff dbg s r hs is he hr).2 hn)).2 ?_
  rw [hp]
  exact Set.ext fun x => (c x).trans ⟨h3 x, h4 hlt x⟩

/-- The selection `[0,4] ∪ [5,255]` kept in two pieces is not the full selection, but its copy is. -/
example : Selection.cut.Reachable ∧ (∃ is, Selection.cut.intervals true = .ok is ∧ (∀ i ∈ is, i.HoldsStart = true) ∧
      Selection.fromIntervals true is = .ok Selection.full) ∧ Selection.cut ≠ Selection.full :=
  ⟨Selection.cut_solid.reachable, ⟨_, rfl, by decide, by decide⟩, by decide⟩

end NI
