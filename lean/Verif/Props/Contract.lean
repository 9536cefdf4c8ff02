import Verif.Props.Back
import Verif.Props.Strong
import Verif.Props.Exact
import Verif.Props.Programs

/-!
# Contracts: what can be relied on although the plain property fails (C74–C82)

The properties C11, C24, C31, C32, C37, C38, C41, C42, C46, C50–C58 are false as they stand.  The
theorems here say, without reference to how the operations work, which uses of the API are right.
-/

set_option linter.unusedSimpArgs false
set_option linter.unusedVariables false
set_option linter.unusedSectionVars false

namespace NI
open Finite TT

section Sel
variable {α : Type} [LinearOrder α] [Finite α] [LawfulFinite α]

/-! ## C74: selections built from intervals and points -/

/-- Two selections built by uniting intervals and points are equal values exactly if they contain the
same points, and their emptiness and fullness are those of the point sets. -/
theorem C74_identity (dbg : Bool) (a b : Selection α) (ha : a.UnionBuilt) (hb : b.UnionBuilt) :
    (a = b ↔ a.pts dbg = b.pts dbg) ∧ (a.isEmpty = true ↔ a.pts dbg = ∅) ∧
    (a.isFull = true ↔ a.pts dbg = Set.univ) :=
  ⟨C55_union_built_partial dbg a b ha hb, C54_is_empty_partial dbg a (.tidy (.inl ha)),
    C54_is_full_partial dbg a (.inl ha)⟩

example : (Selection.demo [(u8 2, u8 5), (u8 9, u8 12)]).UnionBuilt := Selection.demo_built _ (by decide)

/-- Iterating the intervals of such a selection yields its maximal runs, in ascending order. -/
theorem C74_runs (dbg : Bool) (s : Selection α) (hs : s.UnionBuilt) :
    ∃ is, s.intervals dbg = .ok is ∧
      (∀ i ∈ is, ∃ l u, l ≤ u ∧ i.pts = Set.Icc l u ∧ i.lowerBound = some (.incl l) ∧
        i.upperBound = some (.incl u) ∧ (∀ p, pred l = some p → p ∉ s.pts dbg) ∧
        ∀ q, succ u = some q → q ∉ s.pts dbg) ∧
      is.Pairwise (fun i j => ∃ z, z ∉ s.pts dbg ∧ (∀ x ∈ i.pts, x < z) ∧ ∀ y ∈ j.pts, z < y) ∧
      ∀ x, x ∈ s.pts dbg ↔ ∃ i ∈ is, x ∈ i.pts := by
  obtain ⟨is, h1, -, -, h2⟩ := C56_cover_partial dbg s hs.reachable
  refine ⟨is, h1, fun i hi => ?_, C56_separated_partial dbg s (.inl hs) is h1, h2⟩
  obtain ⟨l, u, a1, a2, a3, a4, -⟩ := C56_nonempty_partial dbg s (.tidy (.inl hs)) is h1 i hi
  obtain ⟨l', u', b1, b2, b3, b4⟩ := C56_maximal_partial dbg s (.inl hs) is h1 i hi
  have e1 : l = l' := (isLeast_Icc a1).unique (a2 ▸ b2 ▸ isLeast_Icc b1)
  have e2 : u = u' := (isGreatest_Icc a1).unique (a2 ▸ b2 ▸ isGreatest_Icc b1)
  subst e1 e2
  exact ⟨l, u, a1, a2, a3, a4, b3, b4⟩

example : (Selection.demo [(u8 0, u8 2), (u8 5, u8 5)]).UnionBuilt ∧
    (Selection.demo [(u8 0, u8 2), (u8 5, u8 5)]).intervals true =
      .ok [Interval.mkClosed (u8 0) (u8 2), ⟨.closed (u8 5) (u8 5)⟩] :=
  ⟨Selection.demo_built _ (by decide), by decide⟩

/-- Its bounds and its enclosure are those of the point set, and iterating its points upwards yields
each of them once, in ascending order. -/
theorem C74_extremes (dbg : Bool) (s : Selection α) (hs : s.UnionBuilt) :
    ((s.pts dbg = ∅ ∧ s.lowerBound dbg = .ok none ∧ s.upperBound dbg = .ok none) ∨
      ∃ l u e, IsLeast (s.pts dbg) l ∧ IsGreatest (s.pts dbg) u ∧
        s.lowerBound dbg = .ok (some (.incl l)) ∧ s.upperBound dbg = .ok (some (.incl u)) ∧
        s.enclose dbg = .ok e ∧ e.pts = Set.Icc l u) ∧
    ∀ n, ∃ os, drive (PointIter.next dbg) (PointIter.nextBack dbg) (PointIter.start s)
      (List.replicate n .next) = .ok os ∧ Walk (s.pts dbg) (List.replicate n .next) os := by
  have hS : s.Solid := .tidy (.inl hs)
  refine ⟨?_, C57_forward_partial dbg s hS⟩
  rcases C59_bounds_partial dbg s hS with h | ⟨l, u, h1, h2, h3, h4⟩
  · exact .inl h
  · obtain ⟨e, he, -, hp | ⟨l', u', g1, g2, g3⟩⟩ := C61_enclose_partial dbg s hS
    · have := h1.1; rw [hp.1] at this; exact absurd this id
    · rw [g1.unique h1, g2.unique h2] at g3
      exact .inr ⟨l, u, e, h1, h2, h3, h4, he, g3⟩

example : (Selection.demo [(u8 0, u8 2), (u8 5, u8 5)]).enclose true = .ok (Interval.mkClosed (u8 0) (u8 5)) ∧
    drive (PointIter.next true) (PointIter.nextBack true) (PointIter.start (Selection.demo [(u8 0, u8 2), (u8 5, u8 5)]))
      [.next, .next, .next, .next, .next] = .ok [some (u8 0), some (u8 1), some (u8 2), some (u8 5), none] := by decide

/-! ## C75: removing intervals -/

/-- Remove one interval after the other. -/
def Selection.removeAll (dbg : Bool) (s : Selection α) : List (Interval α) → Except Panic (Selection α)
  | [] => .ok s
  | i :: is => do (← s.minusInPlace dbg i).removeAll dbg is

/-- From a selection built by uniting intervals and points in which no single value is missing between
two of its values, any sequence of intervals can be removed in place: the result contains exactly
the remaining points, and its intervals can be iterated in both directions. -/
theorem C75_remove (dbg : Bool) (s : Selection α) (hs : s.UnionBuilt)
    (hm : ¬ OneMissing (s.pts true)) (is : List (Interval α)) (hi : ∀ i ∈ is, i.Obtainable) :
    ∃ s', s.removeAll dbg is = .ok s' ∧ (∀ x, x ∈ s'.pts dbg ↔ x ∈ s.pts dbg ∧ ∀ i ∈ is, x ∉ i.pts) ∧
      ∃ js, s'.intervals dbg = .ok js ∧ s'.intervalsBack dbg = .ok js.reverse := by
  have hc : s.Carved := .built hs fun p x q h1 h2 h3 h4 => by
    by_contra h5; exact hm ⟨p, x, q, h1, h2, h3, h4, h5⟩
  clear hm hs
  induction is generalizing s with
  | nil =>
    obtain ⟨v, -⟩ := hc.valid_noHole
    exact ⟨s, rfl, by simp, _, Selection.intervals_eq dbg v,
      C56_reverse_partial dbg s hc _ (Selection.intervals_eq dbg v)⟩
  | cons i is ih =>
    obtain ⟨s1, e1, c1, p1⟩ := C50_carved_partial dbg s hc i (hi i (by simp))
    obtain ⟨s2, e2, p2, h2⟩ := ih s1 (fun j hj => hi j (by simp [hj])) c1
    refine ⟨s2, by simp [Selection.removeAll, e1, e2, bind, Except.bind], fun x => ?_, h2⟩
    rw [p2, p1]
    simp only [Set.mem_sdiff, List.forall_mem_cons, and_assoc]

example : ¬ OneMissing (Selection.pts true (Selection.full : Selection U8)) := by
  rintro ⟨_, x, _, -, -, -, -, h⟩
  rw [(C48_start true .empty .empty).2.1] at h
  exact h trivial

/-! ## C77: intervals -/

/-- The only interval whose emptiness, extreme points or iteration are wrong is the open interval
between two neighbouring values: every other one that the API can produce is right in all of them. -/
theorem C77_interval (i : Interval α) (h : i.Obtainable) (hn : ∀ l u, succ l = some u → i ≠ .mkOpen l u) :
    (i.isEmpty = true ↔ i.pts = ∅) ∧ (i.intoNonEmpty = none ↔ i.pts = ∅) ∧
    (∀ m, i.infimum = some m ↔ IsLeast i.pts m) ∧ (∀ m, i.supremum = some m ↔ IsGreatest i.pts m) ∧
    ∀ cs, ∃ os, drive Interval.next Interval.nextBack i cs = .ok os ∧ Walk i.pts cs os := by
  have e : i.pts = ∅ ↔ ∀ x, i.contains x = false := by
    constructor
    · intro hp x
      rw [Bool.eq_false_iff]
      intro hx
      have : x ∈ i.pts := hx
      rw [hp] at this; exact this
    · intro hx
      ext x
      simp [Interval.pts, hx x]
  rw [e]
  exact ⟨(C24_exact_iff i h).2 hn, (C65_exact_iff i h).2 hn, (C31_exact_iff i h).1.2 hn,
    (C31_exact_iff i h).2.2 hn, (C32_exact_iff i h).2 hn⟩

example : (Interval.mkOpen (u8 3) (u8 7)).Obtainable ∧
    (∀ l u, succ l = some u → Interval.mkOpen (u8 3) (u8 7) ≠ .mkOpen l u) ∧
    (Interval.mkOpen (u8 3) (u8 7)).infimum = some (u8 4) := by
  refine ⟨.mkOpen _ _, fun l u h e => ?_, by decide⟩
  have h1 : u8 4 ∈ (Interval.mkOpen l u).pts := e ▸ show Interval.contains _ _ = true by decide
  have := (C21_bounded l u (u8 4)).2.2.1.1 h1
  exact absurd ((LawfulFinite.succ_some _ _ h).2 _ this.1) (not_le.2 this.2)

/-- That interval is wrong in all of them. -/
theorem C77_phantom (l u : α) (hu : succ l = some u) :
    let i : Interval α := .mkOpen l u
    i.pts = ∅ ∧ i.isEmpty = false ∧ i.intoNonEmpty = some i ∧ i.infimum = some u ∧
      i.supremum = some l ∧ (drive Interval.next Interval.nextBack i [.next] = .ok [some u]) ∧
      (drive Interval.next Interval.nextBack i [.nextBack] = .ok [some l]) := by
  have h1 := (LawfulFinite.succ_some l u hu)
  have e : (Interval.mkOpen l u : Interval α) = ⟨.closed u l⟩ := Interval.mkOpen_succ hu
  refine ⟨?_, ?_⟩
  · ext x
    have := (C21_bounded l u x).2.2.1
    simp only [Interval.pts, Set.mem_ofPred_eq, this, Set.mem_empty_iff_false, iff_false, not_and, not_lt]
    exact h1.2 x
  · rw [e]
    refine ⟨rfl, rfl, rfl, rfl, ?_, ?_⟩ <;> rfl

example : succ (u8 3) = some (u8 4) := by decide

/-! ## C81: intersections and differences from unions and complements -/

/-- Intersection by De Morgan's law is exact for all selections built by the operations that keep
selections usable. -/
theorem C81_selection (dbg : Bool) (a b : Selection α) (ha : a.Reachable) (hb : b.Reachable) :
    (∃ s, (do (← (← a.complement dbg).union dbg (← b.complement dbg)).complement dbg) = .ok s ∧
      s.Reachable ∧ s.pts dbg = a.pts dbg ∩ b.pts dbg) ∧
    ∃ s, (do (← (← a.complement dbg).union dbg b).complement dbg) = .ok s ∧
      s.Reachable ∧ s.pts dbg = a.pts dbg \ b.pts dbg := by
  have hu : ∀ a b : Selection α, a.Reachable → b.Reachable →
      ∃ s, a.union dbg b = .ok s ∧ s.Reachable ∧ s.pts dbg = a.pts dbg ∪ b.pts dbg := by
    intro a b ha hb
    obtain ⟨s, e, v, c⟩ := Selection.union_ok dbg (Selection.reachable_valid ha)
      (Selection.reachable_valid hb)
    refine ⟨s, e, .union ha hb e, ?_⟩
    ext x
    rw [Set.mem_union, Selection.mem_pts dbg v, Selection.mem_pts dbg (Selection.reachable_valid ha),
      Selection.mem_pts dbg (Selection.reachable_valid hb)]
    simp [at', c]
  obtain ⟨a', e1, r1, p1, -⟩ := C62_complement dbg a ha
  obtain ⟨b', e2, r2, p2, -⟩ := C62_complement dbg b hb
  constructor
  · obtain ⟨c, e3, r3, p3⟩ := hu a' b' r1 r2
    obtain ⟨d, e4, r4, p4, -⟩ := C62_complement dbg c r3
    refine ⟨d, by simp [e1, e2, e3, e4, bind, Except.bind], r4, ?_⟩
    rw [p4, p3, p1, p2]
    ext x; simp
  · obtain ⟨c, e3, r3, p3⟩ := hu a' b r1 hb
    obtain ⟨d, e4, r4, p4, -⟩ := C62_complement dbg c r3
    refine ⟨d, by simp [e1, e3, e4, bind, Except.bind], r4, ?_⟩
    rw [p4, p3, p1]
    ext x; simp

example : (do (← (← (← (Selection.demo [(u8 2, u8 4), (u8 7, u8 7)]).complement true).union true
    (Selection.demo [(u8 3, u8 3), (u8 6, u8 6)])).complement true).intervals true) =
    .ok [⟨.closed (u8 2) (u8 2)⟩, ⟨.closed (u8 4) (u8 4)⟩, ⟨.closed (u8 7) (u8 7)⟩] := by decide

end Sel

section Tree
variable {α : Type} [LinearOrder α]

/-- The same for trees, over any order. -/
theorem C81_tree (dbg : Bool) (a b : TineTree α) (ha : a.Reachable) (hb : b.Reachable) :
    (∃ t, (do (← (← a.complement dbg).union dbg (← b.complement dbg)).complement dbg) = .ok t ∧
      t.Reachable ∧ ∀ x, t.contains dbg x = .ok true ↔
        a.contains dbg x = .ok true ∧ b.contains dbg x = .ok true) ∧
    ∃ t, (do (← (← a.complement dbg).union dbg b).complement dbg) = .ok t ∧
      t.Reachable ∧ ∀ x, t.contains dbg x = .ok true ↔
        a.contains dbg x = .ok true ∧ b.contains dbg x = .ok false := by
  have nt : ∀ (t : TineTree α), t.Reachable → ∀ x, ¬ t.contains dbg x = .ok true ↔
      t.contains dbg x = .ok false := by
    intro t ht x
    obtain ⟨b, e, -⟩ := C35_contains_total dbg t ht x
    rw [e]; cases b <;> simp
  obtain ⟨a', e1, r1, p1, -⟩ := C39_complement dbg a ha
  obtain ⟨b', e2, r2, p2, -⟩ := C39_complement dbg b hb
  constructor
  · obtain ⟨c, e3, r3, p3⟩ := C40_union dbg a' b' r1 r2
    obtain ⟨d, e4, r4, p4, -⟩ := C39_complement dbg c r3
    refine ⟨d, by simp [e1, e2, e3, e4, bind, Except.bind], r4, fun x => ?_⟩
    rw [p4, ← nt c r3, p3, p1, p2, ← nt a ha, ← nt b hb]
    tauto
  · obtain ⟨c, e3, r3, p3⟩ := C40_union dbg a' b r1 hb
    obtain ⟨d, e4, r4, p4, -⟩ := C39_complement dbg c r3
    refine ⟨d, by simp [e1, e3, e4, bind, Except.bind], r4, fun x => ?_⟩
    rw [p4, ← nt c r3, p3, p1, ← nt a ha, ← nt b hb]
    tauto

example : (do
    let a ← (TineTree.demo [.closed 0 4, .closed 6 9]).complement true
    let b ← (TineTree.demo [.closed 3 7]).complement true
    (← a.union true b).complement true) = .ok (TineTree.demo [.closed 3 4, .closed 6 7]) := by decide

/-! ## C76: `union_all` -/

/-- `union_all` of intervals given in the order of their lower bounds is the canonical list: sorted,
with gaps between its members, and containing the points of the arguments. -/
theorem C76_union_all (is : List (RawInterval α)) (hw : ∀ i ∈ is, i.WF)
    (hs : is.Pairwise RawInterval.StartsBefore) :
    RawInterval.Canonical (RawInterval.unionAll is) ∧
    ∀ x, (∃ i ∈ RawInterval.unionAll is, x ∈ i.pts) ↔ ∃ i ∈ is, x ∈ i.pts := by
  obtain ⟨h1, t, h2, h3⟩ := C11_ascending_partial true is hw hs
  refine ⟨h1, fun x => ?_⟩
  obtain ⟨t', e1, -, r, c⟩ := C43_collect true is is hw (.refl _)
  rw [h2] at e1; cases e1
  obtain ⟨js, e2, -, -, c2, -⟩ := C45_iteration true t r
  rw [h3] at e2; cases e2
  rw [← c2, c]

example : [RawInterval.closed (0 : Int) 2, .opn 1 4, .point 4, .frm 6].Pairwise
    RawInterval.StartsBefore := by
  simp [RawInterval.StartsBefore, RawInterval.lowerBound, Bound.NotBehind]
example : RawInterval.unionAll [RawInterval.closed (0 : Int) 2, .opn 1 4, .point 4, .frm 6] =
    [.closed 0 4, .frm 6] := by decide

/-! ## C78–C80: in-place difference and the intersections of trees -/

/-- `minus_in_place` is right exactly if the removed interval is safe to remove: a single point must
not be an excluded bound of the tree, and a bound of a proper interval must not be a single missing
point of the tree. -/
theorem C78_minus_iff (dbg : Bool) (t : TineTree α) (ht : t.Reachable) (i : RawInterval α) (hi : i.WF)
    (is : List (RawInterval α)) (his : t.intervals dbg = .ok is) :
    (∃ t', t.minusInPlace dbg i = .ok t' ∧ t'.Reachable ∧
      ∀ x, t'.contains dbg x = .ok true ↔ (t.contains dbg x = .ok true ∧ i.contains x = false)) ↔
    RawInterval.RemovalSafe is i :=
  C37_exact_iff dbg t ht i hi is his

example : ¬ RawInterval.RemovalSafe [RawInterval.opn (0 : Int) 3] (.point 3) := fun h =>
  (h.1 3 rfl).1 ⟨.opn 0 3, by simp, rfl⟩

end Tree

section Dense
variable {α : Type} [LinearOrder α] [DenselyOrdered α] [NoMinOrder α] [NoMaxOrder α] [Nonempty α]

/-- Over dense orders, `intersect` is right exactly if the two lists of intervals meet in lock step. -/
theorem C79_intersect_iff (dbg : Bool) (a b : TineTree α) (ha : a.Reachable) (hb : b.Reachable)
    (as bs : List (RawInterval α)) (has : a.intervals dbg = .ok as) (hbs : b.intervals dbg = .ok bs) :
    (∃ t, a.intersect dbg b = .ok t ∧ ∀ x, t.contains dbg x = .ok true ↔
      (a.contains dbg x = .ok true ∧ b.contains dbg x = .ok true)) ↔
    LockStep RawInterval.intersects as bs :=
  C41_exact_iff dbg a b ha hb as bs has hbs

example : (TineTree.fromRawInterval (.opn (0 : ℚ) 1)).Reachable ∧
    TineTree.intervals true (TineTree.fromRawInterval (.opn (0 : ℚ) 1)) = .ok [.opn 0 1] ∧
    LockStep RawInterval.intersects [.opn (0 : ℚ) 1] [.opn (0 : ℚ) 1] :=
  ⟨.fromRaw (by show (0 : ℚ) < 1; decide), by decide, by decide⟩

/-- Over dense orders, `intersect_in_place` is right exactly if the interval cuts the tree cleanly. -/
theorem C80_intersect_in_place_iff (dbg : Bool) (t : TineTree α) (ht : t.Reachable)
    (i : RawInterval α) (hi : i.WF) (is : List (RawInterval α)) (his : t.intervals dbg = .ok is) :
    (∃ t', t.intersectInPlace dbg i = .ok t' ∧ t'.Reachable ∧ ∀ x, t'.contains dbg x = .ok true ↔
      (t.contains dbg x = .ok true ∧ i.contains x = true)) ↔
    (is = [] ∨ ¬ i.TwoEnded ∨ i = .full ∨ RawInterval.CutClean dbg is i) := by
  by_cases h1 : is = []
  · exact ⟨fun _ => .inl h1, fun _ => C38_intersect_in_place_partial dbg t ht i hi is his (.inl h1)⟩
  by_cases h2 : i.TwoEnded
  · by_cases h3 : i = .full
    · exact ⟨fun _ => .inr (.inr (.inl h3)),
        fun _ => C38_intersect_in_place_partial dbg t ht i hi is his (.inr (.inr (.inl h3)))⟩
    · rw [C38_exact_iff dbg t ht i hi is his h1 h2 h3]
      tauto
  · exact ⟨fun _ => .inr (.inl h2),
      fun _ => C38_intersect_in_place_partial dbg t ht i hi is his (.inr (.inl h2))⟩

example : (TineTree.fromRawInterval (.opn (0 : ℚ) 3)).Reachable ∧
    RawInterval.CutClean true [.opn (0 : ℚ) 3] (.closed 1 2) := by
  refine ⟨.fromRaw (by show (0 : ℚ) < 3; decide), _, _, rfl, rfl, .inl ⟨?_, ?_⟩⟩ <;>
    refine ⟨.opn 0 3, by simp, _, _, rfl, rfl, ?_, ?_⟩ <;> decide

end Dense

section Programs
variable {α : Type} [LinearOrder α] [Finite α] [LawfulFinite α]

/-! ## C82: programs that do not panic -/

/-- Programs that use constructors, `union`, `extend`, `complement`, `intersect`, `minus_in_place`, and
`minus` with a selection built from intervals and points, run without a panic, and so does every
question put to the result except iteration from the back.  Debug and release builds have the same
results. -/
theorem C82_no_panic (p : SelProg α) (hp : p.Safe) :
    ∃ s, (∀ dbg, p.eval dbg = .ok s) ∧
      ∀ q : SelQuery α, q.Safe → ∃ a, ∀ dbg, q.ask dbg s = .ok a :=
  C69_no_panic_partial p hp

example : SelProg.Safe (α := U8) (.minus (.complement (.minusIn .full (.mkClosed (u8 3) (u8 6))))
    (.points [u8 4])) ∧ SelQuery.Safe (α := U8) (.points [.next, .next]) :=
  ⟨⟨⟨trivial, .mkClosed _ _⟩, trivial⟩, by simp [SelQuery.Safe]⟩

end Programs
end NI
