import Verif.Props.Selection

/-!
# Properties C54–C62: selections, queries and iteration
-/

set_option linter.unusedSimpArgs false
set_option linter.unusedVariables false
set_option linter.unusedSectionVars false
set_option linter.unusedTactic false
set_option linter.unreachableTactic false

namespace NI
open Finite TT
variable {α : Type} [LinearOrder α] [Finite α] [LawfulFinite α]

namespace Selection

/-- No runs, no tines. -/
theorem tree_nil {s : Selection α} (h : Valid s.tree) (hp : pieces none s.tree = []) :
    s.tree = [] := by
  have := fromIter_pieces true h
  rw [hp] at this
  exact (Except.ok.inj this).symm

theorem isEmpty_iff {s : Selection α} : s.isEmpty = true ↔ s = new := by
  rcases s with ⟨_ | _⟩ <;> simp [isEmpty, TineTree.isEmpty, new, TineTree.new]

/-- All of a tidy tree is covered if all points are. -/
theorem cov_all {t : TineTree α} (h : DO t ∨ CO t) (hp : ∀ x, at' t x = true) (aft : Bool) (k : Key α)
    (hr : RealPos aft k) : tcov t aft k = true := by
  rcases key_cases k with rfl | ⟨x, rfl⟩ | rfl
  · rw [hr.2 rfl]
    rcases h with h | h <;> rw [h.2, hp]
  · cases aft
    · exact hp x
    · rcases h with h | h <;> rw [h.1, hp]
      · rfl
      · cases succ x <;> simp [hp]
  · exact absurd rfl hr.1

theorem full_at (x : α) : at' (full : Selection α).tree x = true := by
  rw [← mem_pts true (reachable_valid .full), (C48_start true .empty .empty).2.1]; trivial

theorem full_iff (dbg : Bool) {s : Selection α} (v : Valid s.tree) (h : DO s.tree ∨ CO s.tree) :
    s = full ↔ s.pts dbg = Set.univ := by
  refine ⟨?_, fun hu => ?_⟩
  · rintro rfl; exact (C48_start dbg .empty .empty).2.1
  have hp : ∀ x, at' s.tree x = true := fun x => by
    rw [← mem_pts dbg v, hu]; trivial
  have : s.tree = (full : Selection α).tree := valid_ext v (reachable_valid .full) fun aft k hr => by
    refine (cov_all h hp aft k hr).trans (Eq.symm ?_)
    exact cov_all (.inl (UnionBuilt.do .full)) full_at aft k hr
  cases s; simp only at this; subst this; rfl

theorem isFull_iff {s : Selection α} : s.isFull = true ↔ s = full := by
  rw [isFull, TineTree.isFull, decide_eq_true_iff, ← full_tree]
  rcases s with ⟨t⟩
  exact ⟨fun h => by rw [show t = _ from h], fun h => by rw [h]⟩

end Selection

/-! ## C54 -/

/-- An empty selection has no point and a full one every point, whatever its history.
Missing from the full property: the converses, which are false in general, see `C54_counterexample`;
they hold for the histories in `C54_is_empty_partial` and `C54_is_full_partial`. -/
theorem C54_sound_partial (dbg : Bool) (s : Selection α) :
    (s.isEmpty = true → s.pts dbg = ∅) ∧ (s.isFull = true → s.pts dbg = Set.univ) := by
  rw [Selection.isEmpty_iff, Selection.isFull_iff]
  constructor <;> rintro rfl
  exacts [(C48_start dbg .empty .empty).1, (C48_start dbg .empty .empty).2.1]

example : (Selection.demo [(u8 0, u8 99), (u8 100, u8 255)]).isFull = true ∧ (Selection.demo []).isEmpty = true := by decide

/-- `is_empty` is exact for selections built by unions of intervals with a point, complement of such,
and removal of intervals. -/
theorem C54_is_empty_partial (dbg : Bool) (s : Selection α) (hs : s.Solid) :
    s.isEmpty = true ↔ s.pts dbg = ∅ := by
  refine ⟨(C54_sound_partial dbg s).1, fun h => ?_⟩
  have v := Selection.reachable_valid hs.reachable
  have hp : pieces none s.tree = [] := by
    rcases Selection.first_last dbg v (Selection.np_good v hs.np) with ⟨h1, -⟩ |
      ⟨i, j, l, u, -, -, -, -, -, -, h1, -⟩
    · exact h1
    · exact absurd h1.1 (by rw [h]; exact id)
  rw [Selection.isEmpty, Selection.tree_nil v hp]; rfl

example : (Selection.demo [(u8 3, u8 5)]).isEmpty = false ∧ (Selection.demo []).isEmpty = true := by decide

/-- `is_full` is exact for union-built selections and their complements. -/
theorem C54_is_full_partial (dbg : Bool) (s : Selection α) (hs : s.Tidy) :
    s.isFull = true ↔ s.pts dbg = Set.univ := by
  rw [Selection.isFull_iff]
  exact Selection.full_iff dbg (Selection.reachable_valid hs.reachable) hs.cases

example : (Selection.demo [(u8 0, u8 99), (u8 100, u8 255)]).Tidy ∧
    (Selection.demo [(u8 0, u8 99), (u8 100, u8 255)]).isFull = true :=
  ⟨.inl (Selection.demo_built _ (by decide)), by decide⟩

/-- `(-∞,4]` united with `[5,∞)`, as trees. -/
def Selection.cut : Selection U8 :=
  ⟨[.lower .inf, .upper (.incl (u8 4)), .lower (.incl (u8 5)), .upper .inf]⟩

theorem Selection.cut_solid : Selection.cut.Solid := by
  refine .union (dbg := true) (a := ⟨[.lower .inf, .upper (.incl (u8 4))]⟩)
    (b := ⟨[.lower (.incl (u8 5)), .upper .inf]⟩) (.tidy (.inr ⟨true, Selection.demo [(u8 5, u8 255)],
      Selection.demo_built _ (by decide), by decide⟩)) (.tidy (.inr ⟨true,
      Selection.demo [(u8 0, u8 4)], Selection.demo_built _ (by decide), by decide⟩)) (by decide)

theorem Selection.cut_pts (dbg : Bool) : Selection.cut.pts dbg = Set.univ := by
  obtain ⟨s, e, -, c⟩ := C49_expressions (α := U8) dbg
    (.union (.complement (.ofInterval (Interval.mkClosed (u8 5) (u8 255))))
      (.complement (.ofInterval (Interval.mkClosed (u8 0) (u8 4)))))
    ⟨.mkClosed _ _, .mkClosed _ _⟩
  have e' : SelExpr.eval dbg (.union (.complement (.ofInterval (Interval.mkClosed (u8 5) (u8 255))))
      (.complement (.ofInterval (Interval.mkClosed (u8 0) (u8 4))))) = .ok Selection.cut := by
    cases dbg <;> decide
  rw [e'] at e; cases e
  ext x
  refine ⟨fun _ => trivial, fun _ => (c x).1.2 ?_⟩
  simp only [SelExpr.denote]
  by_cases hx : u8 5 ≤ x
  · right
    intro h
    have := ((C21_bounded (u8 0) (u8 4) x).2.2.2.1).1 h
    exact absurd (le_trans hx this.2) (by decide)
  · left
    intro h
    exact hx (((C21_bounded (u8 5) (u8 255) x).2.2.2.1).1 h).1

/-- A selection made from `(3,4)` has no point but is not empty.  The union of the complements of
`[5,255]` and `[0,4]` has every byte but is not full. -/
theorem C54_counterexample :
    (∃ s : Selection U8, s.Reachable ∧ s.pts true = ∅ ∧ s.isEmpty = false) ∧
    (∃ s : Selection U8, s.Solid ∧ s.pts true = Set.univ ∧ s.isFull = false) := by
  refine ⟨⟨.ofInterval (.mkOpen (MInt.lit 3) (MInt.lit 4)), .ofInterval (.mkOpen _ _), ?_, by decide⟩,
    ⟨Selection.cut, Selection.cut_solid, Selection.cut_pts true, by decide⟩⟩
  rw [(C48_start true _ (.mkOpen _ _)).2.2]
  ext x
  exact ⟨fun h => absurd (Interval.phantom_no_point x) (by rw [show _ = true from h]; simp),
    fun h => absurd h id⟩

/-! ## C55 -/

/-- Union-built selections are equal iff they have the same points.
Missing from the full property: other histories; false in general, see `C55_counterexample`. -/
theorem C55_union_built_partial (dbg : Bool) (a b : Selection α) (ha : a.UnionBuilt)
    (hb : b.UnionBuilt) : a = b ↔ a.pts dbg = b.pts dbg := by
  refine ⟨fun h => h ▸ rfl, fun h => ?_⟩
  have va := Selection.reachable_valid ha.reachable
  have vb := Selection.reachable_valid hb.reachable
  have : a.tree = b.tree := DO.ext va vb ha.do hb.do fun x => by
    rw [Bool.eq_iff_iff, ← Selection.mem_pts dbg va, ← Selection.mem_pts dbg vb, h]
  cases a; cases b; simp only at this; rw [this]

example : (Selection.demo [(u8 3, u8 5), (u8 6, u8 9)]).UnionBuilt ∧ (Selection.demo [(u8 3, u8 9)]).UnionBuilt ∧
    Selection.demo [(u8 3, u8 5), (u8 6, u8 9)] = Selection.demo [(u8 3, u8 9)] :=
  ⟨Selection.demo_built _ (by decide), Selection.demo_built _ (by decide), by decide⟩

/-- So are the complements of union-built selections. -/
theorem C55_complements_partial (dbg : Bool) (a b a' b' : Selection α) (ha : a.UnionBuilt)
    (hb : b.UnionBuilt) (ea : a.complement dbg = .ok a') (eb : b.complement dbg = .ok b') :
    a' = b' ↔ a'.pts dbg = b'.pts dbg := by
  refine ⟨fun h => h ▸ rfl, fun h => ?_⟩
  have va := Selection.reachable_valid (.complement ha.reachable ea)
  have vb := Selection.reachable_valid (.complement hb.reachable eb)
  have : a'.tree = b'.tree := CO.ext va vb (Selection.compl_co ha ea) (Selection.compl_co hb eb)
    fun x => by rw [Bool.eq_iff_iff, ← Selection.mem_pts dbg va, ← Selection.mem_pts dbg vb, h]
  cases a'; cases b'; simp only at this; rw [this]

example : (Selection.demo [(u8 3, u8 5), (u8 6, u8 9)]).UnionBuilt ∧
    ∃ c, (Selection.demo [(u8 3, u8 5), (u8 6, u8 9)]).complement true = .ok c ∧
      (Selection.demo [(u8 3, u8 9)]).complement true = .ok c ∧ c.contains true (u8 2) = .ok true :=
  ⟨Selection.demo_built _ (by decide), _, rfl, by decide, by decide⟩

/-- Collecting intervals does not depend on order and duplicates. -/
theorem C55_collect_intervals (dbg : Bool) (is js : List (Interval α)) (hi : ∀ i ∈ is, i.Obtainable)
    (h : ∀ i, i ∈ is ↔ i ∈ js) : Selection.fromIntervals dbg is = Selection.fromIntervals dbg js := by
  have hj : ∀ i ∈ js, i.Obtainable := fun i hm => hi i ((h i).2 hm)
  obtain ⟨s, e, v, c⟩ := Selection.extend_ok dbg Selection.new_valid hi
  obtain ⟨s', e', v', c'⟩ := Selection.extend_ok dbg Selection.new_valid hj
  rw [Selection.fromIntervals_eq, Selection.fromIntervals_eq, e, e']
  have : s.tree = s'.tree := valid_ext v v' fun aft k _ => by
    change tcov _ _ _ = tcov _ _ _
    rw [c, c']
    congr 1
    rw [Bool.eq_iff_iff, List.any_eq_true, List.any_eq_true]
    simp only [h]
  cases s; cases s'; simp only at this; rw [this]

example : Selection.fromIntervals true [Interval.mkClosed (u8 2) (u8 5), .mkClosed (u8 9) (u8 12), .mkClosed (u8 2) (u8 5)] =
    Selection.fromIntervals true [Interval.mkClosed (u8 9) (u8 12), .mkClosed (u8 2) (u8 5)] := by decide

/-- Nor on how the points are grouped into intervals: only the points matter. -/
theorem C55_grouping (dbg : Bool) (is js : List (Interval α))
    (hi : ∀ i ∈ is, i.Obtainable ∧ i.Real) (hj : ∀ i ∈ js, i.Obtainable ∧ i.Real) :
    Selection.fromIntervals dbg is = Selection.fromIntervals dbg js ↔
      ∀ x, (∃ i ∈ is, x ∈ i.pts) ↔ ∃ i ∈ js, x ∈ i.pts := by
  obtain ⟨s, e, -, c⟩ := C48_from_intervals dbg is fun i h => (hi i h).1
  obtain ⟨s', e', -, c'⟩ := C48_from_intervals dbg js fun i h => (hj i h).1
  rw [e, e', Except.ok.injEq, C55_union_built_partial dbg s s' (.fromIntervals hi e)
    (.fromIntervals hj e'), Set.ext_iff]
  exact forall_congr' fun x => by rw [c, c']

example : Selection.fromIntervals true [Interval.mkClosed (u8 2) (u8 5), .mkClosed (u8 6) (u8 12)] =
      Selection.fromIntervals true [Interval.mkClosed (u8 4) (u8 12), .mkClosed (u8 2) (u8 8)] ∧
    (Interval.mkClosed (u8 2) (u8 5)).Obtainable ∧ (Interval.mkClosed (u8 2) (u8 5)).Real :=
  ⟨by decide, .mkClosed _ _, .inr ⟨u8 2, by decide⟩⟩

/-- Collecting points gives equal selections iff the points are the same. -/
theorem C55_collect_points (dbg : Bool) (xs ys : List α) :
    Selection.fromPoints dbg xs = Selection.fromPoints dbg ys ↔ ∀ x, x ∈ xs ↔ x ∈ ys := by
  obtain ⟨s, e, -, c⟩ := C48_from_points dbg xs
  obtain ⟨s', e', -, c'⟩ := C48_from_points dbg ys
  rw [e, e', Except.ok.injEq, C55_union_built_partial dbg s s' (.fromPoints e) (.fromPoints e'),
    Set.ext_iff]
  exact forall_congr' fun x => by rw [c, c']

example : Selection.fromPoints true [u8 2, u8 5, u8 2, u8 3] = Selection.fromPoints true [u8 5, u8 3, u8 2] ∧
    Selection.fromPoints true [u8 2, u8 5] ≠ Selection.fromPoints true [u8 2, u8 4] := by decide

/-- `union` is commutative, associative and idempotent as an operation on values. -/
theorem C55_union_laws (dbg : Bool) (a b c : Selection α) (ha : a.Reachable) (hb : b.Reachable)
    (hc : c.Reachable) :
    a.union dbg b = b.union dbg a ∧
    (a.union dbg b >>= fun ab => ab.union dbg c) = (b.union dbg c >>= fun bc => a.union dbg bc) ∧
    a.union dbg a = .ok a ∧ a.union dbg .new = .ok a := by
  have ext : ∀ {s s' : Selection α}, Valid s.tree → Valid s'.tree →
      (∀ aft k, tcov s.tree aft k = tcov s'.tree aft k) → s = s' := by
    intro s s' v v' h
    have : s.tree = s'.tree := valid_ext v v' fun aft k _ => h aft k
    cases s; cases s'; simp only at this; rw [this]
  have va := Selection.reachable_valid ha
  have vb := Selection.reachable_valid hb
  have vc := Selection.reachable_valid hc
  obtain ⟨s1, e1, v1, c1⟩ := Selection.union_ok dbg va vb
  obtain ⟨s2, e2, v2, c2⟩ := Selection.union_ok dbg vb va
  obtain ⟨s3, e3, v3, c3⟩ := Selection.union_ok dbg v1 vc
  obtain ⟨s4, e4, v4, c4⟩ := Selection.union_ok dbg vb vc
  obtain ⟨s5, e5, v5, c5⟩ := Selection.union_ok dbg va v4
  obtain ⟨s6, e6, v6, c6⟩ := Selection.union_ok dbg va va
  obtain ⟨s7, e7, v7, c7⟩ := Selection.union_ok dbg va Selection.new_valid
  refine ⟨?_, ?_, ?_, ?_⟩
  · rw [e1, e2, ext v1 v2 fun aft k => by rw [c1, c2, Bool.or_comm]]
  · rw [e1, e4]
    change s1.union dbg c = a.union dbg s4
    rw [e3, e5, ext v3 v5 fun aft k => by rw [c3, c1, c5, c4, Bool.or_assoc]]
  · rw [e6, ext v6 va fun aft k => by rw [c6, Bool.or_self]]
  · rw [e7, ext v7 va fun aft k => by
      rw [c7]; change (_ || false) = _; rw [Bool.or_false]]

example : Selection.fromPoints true [u8 3, u8 9, u8 4] = Selection.fromPoints true [u8 9, u8 4, u8 3, u8 4] ∧
    Selection.fromPoints true [u8 3, u8 9, u8 4] = .ok (Selection.demo [(u8 3, u8 4), (u8 9, u8 9)]) := by
  decide

/-- Same points, but not equal. -/
theorem C55_counterexample :
    ∃ a b : Selection U8, a.Solid ∧ b.UnionBuilt ∧ a.pts true = b.pts true ∧ a ≠ b :=
  ⟨Selection.cut, .full, Selection.cut_solid, .full,
    by rw [Selection.cut_pts, (C48_start true .empty .empty).2.1], by decide⟩

/-! ## C56 -/

/-- Iterating over the intervals of a selection never panics; they come in increasing order and have
exactly the points of the selection.
Missing from the full property: that they are non-empty and separated, see `C56_nonempty_partial`,
`C56_separated_partial` and `C56_counterexample`. -/
theorem C56_cover_partial (dbg : Bool) (s : Selection α) (hs : s.Reachable) :
    ∃ is, s.intervals dbg = .ok is ∧ (∀ i ∈ is, i.Obtainable) ∧
      is.Pairwise (fun i j => ∀ x ∈ i.pts, ∀ y ∈ j.pts, x < y) ∧
      ∀ x, x ∈ s.pts dbg ↔ ∃ i ∈ is, x ∈ i.pts := by
  have v := Selection.reachable_valid hs
  refine ⟨_, Selection.intervals_eq dbg v, ?_, ?_, fun x => ?_⟩
  · intro i hi
    obtain ⟨r, hr, rfl⟩ := List.mem_map.1 hi
    exact .ofRaw r ((pieces_wf v.1).1 r hr).1
  · rw [List.pairwise_map]
    refine (Selection.pieces_inc v).imp fun {i j} h x hx y hy => ?_
    rw [Selection.run_pts] at hx hy
    exact h x y hx hy
  · rw [← Selection.rest_pieces dbg v]
    constructor
    · rintro ⟨i, hi, hx⟩
      exact ⟨_, List.mem_map.2 ⟨i, hi, rfl⟩, by rw [Selection.run_pts]; exact hx⟩
    · rintro ⟨j, hj, hx⟩
      obtain ⟨i, hi, rfl⟩ := List.mem_map.1 hj
      rw [Selection.run_pts] at hx
      exact ⟨i, hi, hx⟩

example : (Selection.demo [(u8 3, u8 5), (u8 9, u8 9)]).Reachable ∧
    (Selection.demo [(u8 3, u8 5), (u8 9, u8 9)]).intervals true =
      .ok [Interval.mkClosed (u8 3) (u8 5), ⟨.closed (u8 9) (u8 9)⟩] :=
  ⟨(Selection.demo_built _ (by decide)).reachable, by decide⟩

/-- For selections built from intervals that contain a point each interval is `[l,u]` with
`l ≤ u`. -/
theorem C56_nonempty_partial (dbg : Bool) (s : Selection α) (hs : s.Solid) (is : List (Interval α))
    (he : s.intervals dbg = .ok is) (i : Interval α) (hi : i ∈ is) :
    ∃ l u, l ≤ u ∧ i.pts = Set.Icc l u ∧ i.lowerBound = some (.incl l) ∧
      i.upperBound = some (.incl u) ∧ i.isEmpty = false := by
  have v := Selection.reachable_valid hs.reachable
  rw [Selection.intervals_eq dbg v] at he
  cases he
  obtain ⟨r, hr, rfl⟩ := List.mem_map.1 hi
  exact (Selection.np_good v hs.np r hr).cases

example : (Selection.demo [(u8 2, u8 5), (u8 9, u8 9)]).Solid ∧
    (Selection.demo [(u8 2, u8 5), (u8 9, u8 9)]).intervals true = .ok [Interval.mkClosed (u8 2) (u8 5), ⟨.closed (u8 9) (u8 9)⟩] :=
  ⟨.tidy (.inl (Selection.demo_built _ (by decide))), by decide⟩

/-- For union-built selections and their complements any two intervals are separated by a point
outside the selection. -/
theorem C56_separated_partial (dbg : Bool) (s : Selection α) (hs : s.Tidy) (is : List (Interval α))
    (he : s.intervals dbg = .ok is) :
    is.Pairwise (fun i j => ∃ z, z ∉ s.pts dbg ∧ (∀ x ∈ i.pts, x < z) ∧ ∀ y ∈ j.pts, z < y) := by
  have v := Selection.reachable_valid hs.reachable
  rw [Selection.intervals_eq dbg v] at he
  cases he
  rw [List.pairwise_map]
  have hg : (pieces none s.tree).Pairwise fun i j => ∃ z, at' s.tree z = false ∧
      (∀ x, i.contains x = true → x < z) ∧ ∀ y, j.contains y = true → z < y := by
    rcases hs.cases with h | h
    exacts [h.gap v, h.gap v]
  refine hg.imp ?_
  rintro i j ⟨z, h1, h2, h3⟩
  refine ⟨z, by rw [Selection.mem_pts dbg v, h1]; simp, fun x hx => ?_, fun y hy => ?_⟩
  · rw [Selection.run_pts] at hx; exact h2 x hx
  · rw [Selection.run_pts] at hy; exact h3 y hy

example : (Selection.demo [(u8 2, u8 5), (u8 7, u8 9)]).Tidy ∧
    (Selection.demo [(u8 2, u8 5), (u8 7, u8 9)]).intervals true = .ok [Interval.mkClosed (u8 2) (u8 5), Interval.mkClosed (u8 7) (u8 9)] :=
  ⟨.inl (Selection.demo_built _ (by decide)), by decide⟩

theorem pairwise_mem {β : Type} {R : β → β → Prop} (hs : ∀ a b, R a b → R b a) {l : List β}
    (h : l.Pairwise R) : ∀ a ∈ l, ∀ b ∈ l, a ≠ b → R a b := by
  induction h with
  | nil => simp
  | cons h1 _ ih =>
    intro a ha b hb hne
    rcases List.mem_cons.1 ha with rfl | ha' <;> rcases List.mem_cons.1 hb with rfl | hb
    · exact absurd rfl hne
    · exact h1 b hb
    · exact hs _ _ (h1 a ha')
    · exact ih a ha' b hb hne

/-- So they are the maximal runs: the values just outside an interval are not in the selection. -/
theorem C56_maximal_partial (dbg : Bool) (s : Selection α) (hs : s.Tidy) (is : List (Interval α))
    (he : s.intervals dbg = .ok is) (i : Interval α) (hi : i ∈ is) :
    ∃ l u, l ≤ u ∧ i.pts = Set.Icc l u ∧ (∀ p, pred l = some p → p ∉ s.pts dbg) ∧
      ∀ q, succ u = some q → q ∉ s.pts dbg := by
  obtain ⟨l, u, hlu, hp, -⟩ := C56_nonempty_partial dbg s (.tidy hs) is he i hi
  obtain ⟨is', he', -, -, hc⟩ := C56_cover_partial dbg s hs.reachable
  rw [he] at he'; cases he'
  have hsep := C56_separated_partial dbg s hs is he
  have hsep : is.Pairwise fun i j =>
      (∃ z, z ∉ s.pts dbg ∧ (∀ x ∈ i.pts, x < z) ∧ ∀ y ∈ j.pts, z < y) ∨
      ∃ z, z ∉ s.pts dbg ∧ (∀ x ∈ j.pts, x < z) ∧ ∀ y ∈ i.pts, z < y := hsep.imp .inl
  have hall := pairwise_mem (fun a b h => h.symm) hsep i hi
  have hl : l ∈ i.pts := by rw [hp]; exact ⟨le_rfl, hlu⟩
  have hu : u ∈ i.pts := by rw [hp]; exact ⟨hlu, le_rfl⟩
  refine ⟨l, u, hlu, hp, fun p hpl hm => ?_, fun q hq hm => ?_⟩
  · obtain ⟨h1, h2⟩ := LawfulFinite.pred_some l p hpl
    obtain ⟨j, hj, hx⟩ := (hc p).1 hm
    have hne : i ≠ j := by rintro rfl; rw [hp] at hx; exact absurd h1 (not_lt.2 hx.1)
    rcases hall j hj hne with ⟨z, -, g1, g2⟩ | ⟨z, -, g1, g2⟩
    · exact absurd ((g1 l hl).trans (g2 p hx)) (not_lt.2 h1.le)
    · exact absurd (h2 z (g2 l hl)) (not_le.2 (g1 p hx))
  · obtain ⟨h1, h2⟩ := LawfulFinite.succ_some u q hq
    obtain ⟨j, hj, hx⟩ := (hc q).1 hm
    have hne : i ≠ j := by rintro rfl; rw [hp] at hx; exact absurd h1 (not_lt.2 hx.2)
    rcases hall j hj hne with ⟨z, -, g1, g2⟩ | ⟨z, -, g1, g2⟩
    · exact absurd (h2 z (g1 u hu)) (not_le.2 (g2 q hx))
    · exact absurd ((g1 q hx).trans (g2 u hu)) (not_lt.2 h1.le)

example : (Selection.demo [(u8 2, u8 5), (u8 6, u8 9)]).Tidy ∧
    (Selection.demo [(u8 2, u8 5), (u8 6, u8 9)]).intervals true = .ok [Interval.mkClosed (u8 2) (u8 9)] :=
  ⟨.inl (Selection.demo_built _ (by decide)), by decide⟩

/-- Reverse iteration over the intervals of a carved selection is the forward one reversed. -/
theorem C56_reverse_partial (dbg : Bool) (s : Selection α) (hs : s.Carved) (is : List (Interval α))
    (he : s.intervals dbg = .ok is) : s.intervalsBack dbg = .ok is.reverse := by
  obtain ⟨v, hn⟩ := hs.valid_noHole
  rw [Selection.intervals_eq dbg v] at he
  cases he
  exact Selection.intervalsBack_eq dbg v (noHole_holeFree v hn)

example : (Selection.demo [(u8 2, u8 5), (u8 9, u8 12), (u8 6, u8 6)]).intervals true =
    .ok [Interval.mkClosed (u8 2) (u8 6), Interval.mkClosed (u8 9) (u8 12)] := by decide

/-- The intervals `[0,4]` and `[5,255]` are not separated; the only interval of the selection made
from `(3,4)` has no point; and reverse iteration over `{2,4}` panics, or in release builds yields
other intervals. -/
theorem C56_counterexample :
    (∃ s : Selection U8, s.Solid ∧
      s.intervals true = .ok [Interval.mkClosed (u8 0) (u8 4), Interval.mkClosed (u8 5) (u8 255)]) ∧
    (∃ (s : Selection U8) (i : Interval U8), s.Reachable ∧ s.intervals true = .ok [i] ∧
      ∀ x, i.contains x = false) ∧
    (∃ s : Selection U8, s.UnionBuilt ∧ s.intervals true = .ok [⟨.closed (u8 2) (u8 2)⟩, ⟨.closed (u8 4) (u8 4)⟩] ∧
      s.intervalsBack true = .error .debugAssert ∧
      s.intervalsBack false = .ok [⟨.closed (u8 4) (u8 4)⟩, .empty]) :=
  ⟨⟨Selection.cut, Selection.cut_solid, by decide⟩,
    ⟨.ofInterval (.mkOpen (MInt.lit 3) (MInt.lit 4)), _, .ofInterval (.mkOpen _ _), by decide,
      Interval.phantom_no_point⟩,
    ⟨Selection.demo [(u8 2, u8 2), (u8 4, u8 4)], Selection.demo_built _ (by decide), by decide,
      by decide, by decide⟩⟩

/-! ## C57 -/

/-- Forward iteration over points yields them in increasing order, each once, then `None`.
Missing from the full property: selections with a run without points, for which it is false, see
`C57_phantom_counterexample`. -/
theorem C57_forward_partial (dbg : Bool) (s : Selection α) (hs : s.Solid) (n : Nat) :
    ∃ os, drive (PointIter.next dbg) (PointIter.nextBack dbg) (PointIter.start s)
        (List.replicate n .next) = .ok os ∧ Walk (s.pts dbg) (List.replicate n .next) os := by
  have v := Selection.reachable_valid hs.reachable
  obtain ⟨os, h1, h2⟩ := Selection.fwd_walk dbg n (ts := s.tree) (saved := none) (cur := .empty)
    v.1.1 v.2 .empty (.inl rfl) (Selection.np_good v hs.np) (Selection.pieces_inc v)
    (fun x hx => absurd hx (by intro h; cases h))
  refine ⟨os, h1, ?_⟩
  have e : (Interval.empty : Interval α).pts ∪ Selection.rest (pieces (Option.map Bound.excl none) s.tree)
      = s.pts dbg := by
    rw [← Selection.rest_pieces dbg v]
    ext x
    exact ⟨fun h => h.elim (fun h => by cases h) id, .inr⟩
  rwa [e] at h2

example : (Selection.demo [(u8 2, u8 3), (u8 5, u8 5)]).Solid ∧
    drive (PointIter.next true) (PointIter.nextBack true) (PointIter.start (Selection.demo [(u8 2, u8 3), (u8 5, u8 5)]))
      (List.replicate 4 .next) = .ok [some (u8 2), some (u8 3), some (u8 5), none] :=
  ⟨.tidy (.inl (Selection.demo_built _ (by decide))), by decide⟩

/-- Reverse iteration over points yields them in decreasing order, provided no single value is missing
between two neighbours.
Missing from the full property: selections that lack a single value; `rev()` panics on them, or in
release builds yields wrong points, see `C57_counterexample`. -/
theorem C57_reverse_partial (dbg : Bool) (s : Selection α) (hs : s.Solid) (hc : s.Carved) (n : Nat) :
    ∃ os, drive (PointIter.next dbg) (PointIter.nextBack dbg) (PointIter.start s)
        (List.replicate n .nextBack) = .ok os ∧
      Walk (s.pts dbg) (List.replicate n .nextBack) os := by
  obtain ⟨v, hn⟩ := hc.valid_noHole
  obtain ⟨os, h1, h2⟩ := Selection.bwd_walk dbg n (t := s.tree) (cur := .empty)
    v.1.1 (noHole_holeFree v hn) v.2 .empty (.inl rfl) (Selection.np_good v hs.np)
    (Selection.pieces_inc v) (fun x hx => absurd hx (by intro h; cases h))
  refine ⟨os, h1, ?_⟩
  have e : (Interval.empty : Interval α).pts ∪ Selection.rest (pieces none s.tree) = s.pts dbg := by
    rw [← Selection.rest_pieces dbg v]
    ext x
    exact ⟨fun h => h.elim (fun h => by cases h) id, .inr⟩
  rwa [e] at h2

example : (Selection.ofInterval (Interval.mkClosed (u8 2) (u8 4))).Solid ∧
    (Selection.ofInterval (Interval.mkClosed (u8 2) (u8 4))).Carved ∧
    drive (PointIter.next true) (PointIter.nextBack true)
      (PointIter.start (Selection.ofInterval (Interval.mkClosed (u8 2) (u8 4)))) (List.replicate 4 .nextBack) =
      .ok [some (u8 4), some (u8 3), some (u8 2), none] :=
  ⟨.tidy (.inl (.ofInterval (.mkClosed _ _) (Interval.closed_real (by decide)))), .ofInterval (.mkClosed _ _), by decide⟩

/-- A forward walk spelled out: a strictly increasing list of members, followed by nothing else than
`None`, complete as soon as there is one `None`. -/
theorem Walk.forward {S : Set α} {n : Nat} {os : List (Option α)}
    (h : Walk S (List.replicate n .next) os) :
    ∃ xs : List α, os = xs.map some ++ List.replicate (n - xs.length) none ∧ xs.length ≤ n ∧
      xs.Pairwise (· < ·) ∧ (∀ x ∈ xs, x ∈ S) ∧ (xs.length < n → ∀ x ∈ S, x ∈ xs) := by
  induction n generalizing S os with
  | zero =>
    cases h
    exact ⟨[], rfl, by simp, by simp, by simp, by simp⟩
  | succ n ih =>
    rw [List.replicate_succ] at h
    cases h with
    | @next _ m _ os hm h =>
      obtain ⟨xs, rfl, h1, h2, h3, h4⟩ := ih h
      refine ⟨m :: xs, by simp, by simpa using h1, ?_, ?_, ?_⟩
      · refine List.pairwise_cons.2 ⟨fun x hx => lt_of_le_of_ne (hm.2 (h3 x hx).1) ?_, h2⟩
        exact fun e => (h3 x hx).2 e.symm
      · intro x hx
        rcases List.mem_cons.1 hx with rfl | hx
        exacts [hm.1, (h3 x hx).1]
      · intro hlt x hx
        by_cases e : x = m
        · simp [e]
        · exact List.mem_cons_of_mem _ (h4 (by simpa using hlt) x ⟨hx, e⟩)
    | @done _ _ _ os hS h =>
      obtain ⟨xs, rfl, h1, h2, h3, h4⟩ := ih h
      have : xs = [] := by
        cases xs with
        | nil => rfl
        | cons x xs => exact absurd (h3 x (by simp)) (by rw [hS]; exact id)
      subst this
      exact ⟨[], by simp [List.replicate_succ], by simp, by simp, by simp, fun _ x hx => by
        rw [hS] at hx; exact absurd hx id⟩

/-- Over an integer type `iter().collect()` stops and gives the increasing list of all points: after
`hi - lo + 2` calls of `next` the last one has returned `None`. -/
theorem C57_collect_partial {lo hi : Int} [Fact (lo ≤ hi)] (dbg : Bool) (s : Selection (MInt lo hi))
    (hs : s.Solid) (n : Nat) (hn : (n : Int) = hi - lo + 2) :
    ∃ xs : List (MInt lo hi), xs.length < n ∧
      drive (PointIter.next dbg) (PointIter.nextBack dbg) (PointIter.start s)
        (List.replicate n .next) = .ok (xs.map some ++ List.replicate (n - xs.length) none) ∧
      xs.Pairwise (· < ·) ∧ ∀ x, x ∈ xs ↔ x ∈ s.pts dbg := by
  obtain ⟨os, h1, h2⟩ := C57_forward_partial dbg s hs n
  obtain ⟨xs, rfl, h3, h4, h5, h6⟩ := h2.forward
  have key : ∀ (l : List (MInt lo hi)) (m : Int), l.Pairwise (· < ·) → (∀ x ∈ l, m ≤ x.1) →
      m ≤ hi + 1 → m + l.length ≤ hi + 1 := by
    intro l
    induction l with
    | nil => intro m _ _ h; simpa using h
    | cons a l ih =>
      intro m hp hm _
      obtain ⟨g1, g2⟩ := List.pairwise_cons.1 hp
      have ha := hm a (by simp)
      have hb := a.2.2
      have := ih (a.1 + 1) g2 (fun x hx => by
        have : a.1 < x.1 := g1 x hx
        omega) (by omega)
      simp only [List.length_cons]
      push_cast
      omega
  have hl : lo ≤ hi := Fact.out
  have := key xs lo h4 (fun x _ => x.2.1) (by omega)
  have hlt : xs.length < n := by omega
  exact ⟨xs, hlt, h1, h4, fun x => ⟨h5 x, h6 hlt x⟩⟩

example : drive (PointIter.next true) (PointIter.nextBack true)
    (PointIter.start (Selection.demo [(u8 2, u8 3), (u8 9, u8 10)])) (List.replicate 5 .next) =
    .ok [some (u8 2), some (u8 3), some (u8 9), some (u8 10), none] := by decide
example : drive (PointIter.next true) (PointIter.nextBack true)
    (PointIter.start (Selection.demo [(u8 2, u8 3), (u8 9, u8 10)])) (List.replicate 5 .nextBack) =
    .ok [some (u8 10), some (u8 9), some (u8 3), some (u8 2), none] := by decide

example : ∃ s : Selection U8, s.Solid ∧ s.Carved ∧
    s.intervals true = .ok [Interval.mkClosed (u8 2) (u8 3), Interval.mkClosed (u8 9) (u8 10)] := by
  have e : (Selection.ofInterval (Interval.mkClosed (u8 2) (u8 10))).minusInPlace true
      (Interval.mkClosed (u8 4) (u8 8)) = .ok
      ⟨[.lower (.excl (u8 1)), .upper (.incl (u8 3)), .lower (.incl (u8 9)), .upper (.excl (u8 11))]⟩ := by
    decide
  exact ⟨_, .minusInPlace (.tidy (.inl (.ofInterval (.mkClosed _ _)
    (Interval.closed_real (by decide))))) (.mkClosed _ _) e,
    .minusInPlace (.ofInterval (.mkClosed _ _)) (.mkClosed _ _) e, by decide⟩

/-- `{2,4}` in reverse: the second call panics in debug builds; in release builds 2 is lost. -/
theorem C57_counterexample :
    ∃ s : Selection U8, s.UnionBuilt ∧ u8 2 ∈ s.pts true ∧
      drive (PointIter.next true) (PointIter.nextBack true) (PointIter.start s)
        [.nextBack, .nextBack] = .error .debugAssert ∧
      drive (PointIter.next false) (PointIter.nextBack false) (PointIter.start s)
        [.nextBack, .nextBack, .nextBack] = .ok [some (u8 4), none, none] :=
  ⟨Selection.demo [(u8 2, u8 2), (u8 4, u8 4)], Selection.demo_built _ (by decide),
    show Selection.contains true _ _ = .ok true by decide, by decide, by decide⟩

/-- The selection made from `(3,4)` has no point, but iteration yields 4 going up. -/
theorem C57_phantom_counterexample :
    ∃ s : Selection U8, s.Reachable ∧ s.pts true = ∅ ∧
      drive (PointIter.next true) (PointIter.nextBack true) (PointIter.start s) [.next] =
        .ok [some (MInt.lit 4)] := by
  refine ⟨.ofInterval (.mkOpen (MInt.lit 3) (MInt.lit 4)), .ofInterval (.mkOpen _ _), ?_, by decide⟩
  rw [(C48_start true _ (.mkOpen _ _)).2.2]
  ext x
  exact ⟨fun h => absurd (Interval.phantom_no_point x) (by rw [show _ = true from h]; simp),
    fun h => absurd h id⟩

/-! ## C58 -/

/-- A selection with at most one run can be iterated from both ends at will.
Missing from the full property: two and more runs.  For them it is false, see
`C58_counterexample`: `next` and `next_back` share one current run. -/
theorem C58_single_partial (dbg : Bool) (s : Selection α) (hs : s.Solid) (is : List (Interval α))
    (he : s.intervals dbg = .ok is) (h1 : is.length ≤ 1) (cs : List IterCall) :
    ∃ os, drive (PointIter.next dbg) (PointIter.nextBack dbg) (PointIter.start s) cs = .ok os ∧
      Walk (s.pts dbg) cs os := by
  have v := Selection.reachable_valid hs.reachable
  rw [Selection.intervals_eq dbg v] at he
  cases he
  rw [List.length_map] at h1
  rw [← Selection.rest_pieces dbg v]
  exact Selection.single_walk dbg v h1 (Selection.np_good v hs.np) cs

example : (Selection.demo [(u8 2, u8 4)]).Solid ∧ (Selection.demo [(u8 2, u8 4)]).intervals true = .ok [Interval.mkClosed (u8 2) (u8 4)] ∧
    drive (PointIter.next true) (PointIter.nextBack true) (PointIter.start (Selection.demo [(u8 2, u8 4)]))
      [.next, .nextBack, .next, .next] = .ok [some (u8 2), some (u8 4), some (u8 3), none] :=
  ⟨.tidy (.inl (Selection.demo_built _ (by decide))), by decide, by decide⟩

/-- For other selections in which no single value is missing between two neighbours, mixed iteration
still never panics and yields each point once, then `None`, though not in the promised order. -/
theorem C58_drain_partial (dbg : Bool) (s : Selection α) (hs : s.Solid) (hc : s.Carved)
    (cs : List IterCall) :
    ∃ os, drive (PointIter.next dbg) (PointIter.nextBack dbg) (PointIter.start s) cs = .ok os ∧
      Drain (s.pts dbg) os := by
  obtain ⟨v, hn⟩ := hc.valid_noHole
  obtain ⟨os, h1, h2⟩ := Selection.mix_drain dbg cs (t := s.tree) (cur := .empty)
    v.1.1 (noHole_holeFree v hn) v.2 .empty (.inl rfl) (Selection.np_good v hs.np)
    (Selection.pieces_inc v) (fun x hx => absurd hx (by intro h; cases h))
  refine ⟨os, h1, ?_⟩
  have e : (Interval.empty : Interval α).pts ∪ Selection.rest (pieces none s.tree) = s.pts dbg := by
    rw [← Selection.rest_pieces dbg v]
    ext x
    exact ⟨fun h => h.elim (fun h => by cases h) id, .inr⟩
  rwa [e] at h2

example : drive (PointIter.next true) (PointIter.nextBack true)
    (PointIter.start (Selection.demo [(u8 2, u8 5)])) [.next, .nextBack, .nextBack, .next, .next] =
    .ok [some (u8 2), some (u8 5), some (u8 4), some (u8 3), none] := by decide

/-- After `next`, `next_back` on `[0,2] ∪ [5,7]` returns 2 although 7 is the greatest point. -/
theorem C58_counterexample :
    ∃ s : Selection U8, s.UnionBuilt ∧ u8 7 ∈ s.pts true ∧
      drive (PointIter.next true) (PointIter.nextBack true) (PointIter.start s) [.next, .nextBack] =
        .ok [some (u8 0), some (u8 2)] :=
  ⟨Selection.demo [(u8 0, u8 2), (u8 5, u8 7)], Selection.demo_built _ (by decide),
    show Selection.contains true _ _ = .ok true by decide, by decide⟩

/-! ## C59 -/

theorem Selection.lowerBound_eq (dbg : Bool) {s : Selection α} (v : Valid s.tree) :
    s.lowerBound dbg = .ok ((pieces none s.tree).head?.bind fun i => (Selection.run i).lowerBound) := by
  obtain ⟨it, e⟩ := next_first dbg v
  rw [Selection.lowerBound, Selection.intervalNext, e]
  simp only [bind, Except.bind, Except.ok.injEq]
  cases (pieces none s.tree).head? <;> simp [Selection.run_eq]

theorem Selection.upperBound_eq (dbg : Bool) {s : Selection α} (v : Valid s.tree) :
    s.upperBound dbg = .ok ((pieces none s.tree).getLast?.bind fun i => (Selection.run i).upperBound) := by
  obtain ⟨it, e⟩ := nextBack_first dbg v
  rw [Selection.upperBound, Selection.intervalNextBack, e]
  simp only [bind, Except.bind, Except.ok.injEq]
  cases (pieces none s.tree).getLast? <;> simp [Selection.run_eq]

/-- `lower_bound` and `upper_bound` are the inclusive bounds at the least and greatest point, and
`None` iff there is no point; they never panic.
Missing from the full property: `infimum` and `supremum`, see `C59_infimum_partial`, and selections
with a run without points. -/
theorem C59_bounds_partial (dbg : Bool) (s : Selection α) (hs : s.Solid) :
    (s.pts dbg = ∅ ∧ s.lowerBound dbg = .ok none ∧ s.upperBound dbg = .ok none) ∨
    ∃ l u, IsLeast (s.pts dbg) l ∧ IsGreatest (s.pts dbg) u ∧
      s.lowerBound dbg = .ok (some (.incl l)) ∧ s.upperBound dbg = .ok (some (.incl u)) := by
  have v := Selection.reachable_valid hs.reachable
  rw [Selection.lowerBound_eq dbg v, Selection.upperBound_eq dbg v]
  rcases Selection.first_last dbg v (Selection.np_good v hs.np) with ⟨h1, h2⟩ |
    ⟨i, j, l, u, h1, h2, g1, g2, h3, h4, h5, h6⟩
  · left; rw [h1]; exact ⟨h2, rfl, rfl⟩
  · refine .inr ⟨l, u, h5, h6, ?_, ?_⟩
    · obtain ⟨l', u', hlu, e1, e2, -⟩ := g1.cases
      rw [h1]
      rw [e1] at h3
      rw [Option.bind_some, e2, h3.unique (isLeast_Icc hlu)]
    · obtain ⟨l', u', hlu, e1, -, e2, -⟩ := g2.cases
      rw [h2]
      rw [e1] at h4
      rw [Option.bind_some, e2, h4.unique (isGreatest_Icc hlu)]

example : (Selection.demo [(u8 3, u8 5), (u8 9, u8 12)]).lowerBound true = .ok (some (.incl (u8 3))) ∧
    (Selection.demo [(u8 3, u8 5), (u8 9, u8 12)]).upperBound true = .ok (some (.incl (u8 12))) := by decide

/-- What `infimum` and `supremum` do return for a union-built selection: the value just below the
least and just above the greatest point, or `None` if there is no such value. -/
theorem C59_infimum_partial (dbg : Bool) (s : Selection α) (hs : s.UnionBuilt) :
    (s.pts dbg = ∅ ∧ s.infimum = none ∧ s.supremum = none) ∨
    ∃ l u, IsLeast (s.pts dbg) l ∧ IsGreatest (s.pts dbg) u ∧
      s.infimum = pred l ∧ s.supremum = succ u := by
  have v := Selection.reachable_valid hs.reachable
  have hd := hs.do
  obtain ⟨b1, b2⟩ := Selection.tree_bounds v
  rw [Selection.infimum, Selection.supremum, b1, b2]
  rcases Selection.first_last dbg v (Selection.np_good v hd.np) with ⟨h1, h2⟩ |
    ⟨i, j, l, u, h1, h2, g1, g2, h3, h4, h5, h6⟩
  · left; rw [h1]; exact ⟨h2, rfl, rfl⟩
  rw [Selection.run_pts] at h3 h4
  have hi := List.mem_of_head? h1
  have hj := List.mem_of_getLast? h2
  refine .inr ⟨l, u, h5, h6, ?_, ?_⟩
  · rw [h1, Option.bind_some]
    obtain ⟨lb, ub, e1, e2, -⟩ := piece_bounds v hi
    obtain ⟨_, _, f1, f2, a1, a2⟩ := (RawInterval.contains_iff_bounds i l).1 h3.1
    rw [e1] at f1; rw [e2] at f2; cases f1; cases f2
    have below : ∀ p, p < l → ¬ lb.AdmitsAbove p := fun p hp ha => by
      refine absurd (h3.2 (show i.contains p = true from ?_)) (not_le.2 hp)
      refine (RawInterval.contains_iff_bounds i p).2 ⟨lb, ub, e1, e2, ha, ?_⟩
      rcases ub with b | b | _
      exacts [hp.le.trans a2, hp.trans a2, trivial]
    rw [e1]
    rcases lb with p | p | _
    · exact absurd e1 ((hd.open v hi p).1)
    · have a1 : p < l := a1
      cases hq : pred l with
      | none => exact absurd (not_lt_of_pred hq p) (not_le.2 a1)
      | some q =>
        obtain ⟨k1, k2⟩ := LawfulFinite.pred_some l q hq
        have : ¬ p < q := below q k1
        simp only [Option.bind_some, Bound.asRef, Option.some.injEq]
        exact le_antisymm (k2 p a1) (not_lt.1 this)
    · cases hq : pred l with
      | none => rfl
      | some q => exact absurd trivial (below q (LawfulFinite.pred_some l q hq).1)
  · rw [h2, Option.bind_some]
    obtain ⟨lb, ub, e1, e2, -⟩ := piece_bounds v hj
    obtain ⟨_, _, f1, f2, a1, a2⟩ := (RawInterval.contains_iff_bounds j u).1 h4.1
    rw [e1] at f1; rw [e2] at f2; cases f1; cases f2
    have above : ∀ p, u < p → ¬ ub.AdmitsBelow p := fun p hp ha => by
      refine absurd (h4.2 (show j.contains p = true from ?_)) (not_le.2 hp)
      refine (RawInterval.contains_iff_bounds j p).2 ⟨lb, ub, e1, e2, ?_, ha⟩
      rcases lb with b | b | _
      exacts [le_trans a1 hp.le, lt_trans a1 hp, trivial]
    rw [e2]
    rcases ub with p | p | _
    · exact absurd e2 ((hd.open v hj p).2)
    · have a2 : u < p := a2
      cases hq : succ u with
      | none =>
        rw [LawfulFinite.succ_none] at hq
        exact absurd (hq ▸ le_maximum p) (not_le.2 a2)
      | some q =>
        obtain ⟨k1, k2⟩ := LawfulFinite.succ_some u q hq
        have : ¬ q < p := above q k1
        simp only [Option.bind_some, Bound.asRef, Option.some.injEq]
        exact le_antisymm (not_lt.1 this) (k2 p a2)
    · cases hq : succ u with
      | none => rfl
      | some q => exact absurd trivial (above q (LawfulFinite.succ_some u q hq).1)

example : (Selection.demo [(u8 2, u8 5), (u8 9, u8 12)]).lowerBound true = .ok (some (.incl (u8 2))) ∧
    (Selection.demo [(u8 2, u8 5), (u8 9, u8 12)]).upperBound true = .ok (some (.incl (u8 12))) := by
  decide

/-- The infimum and supremum of `[3,5]` are 2 and 6; `[0,255]` has neither. -/
theorem C59_counterexample :
    (∃ s : Selection U8, s.UnionBuilt ∧ s.pts true = Set.Icc (u8 3) (u8 5) ∧
      s.infimum = some (u8 2) ∧ s.supremum = some (u8 6)) ∧
    (∃ s : Selection U8, s.UnionBuilt ∧ s.pts true = Set.univ ∧ s.infimum = none ∧ s.supremum = none) := by
  refine ⟨⟨.ofInterval (Interval.mkClosed (u8 3) (u8 5)),
    .ofInterval (.mkClosed _ _) (Interval.closed_real (by decide)), ?_, by decide, by decide⟩,
    ⟨.full, .full, (C48_start true .empty .empty).2.1, by decide, by decide⟩⟩
  rw [(C48_start true _ (.mkClosed _ _)).2.2]
  ext x
  exact (C21_bounded (u8 3) (u8 5) x).2.2.2.1

/-! ## C60 -/

/-- Every selection is left- and right-bounded and not half-bounded.
Missing from the full property: that `is_bounded` is true, see `C60_is_bounded_partial` and
`C60_counterexample`. -/
theorem C60_sides_partial (dbg : Bool) (s : Selection α) (hs : s.Reachable) :
    s.isLeftBounded dbg = .ok true ∧ s.isRightBounded dbg = .ok true ∧
    s.isHalfBounded dbg = .ok false := by
  have v := Selection.reachable_valid hs
  have hb : ∀ i ∈ pieces none s.tree, (Selection.run i).lowerBound ≠ some .inf ∧
      (Selection.run i).upperBound ≠ some .inf := by
    intro i hi
    rcases (C23_normal_form (Selection.run i) (.ofRaw i ((pieces_wf v.1).1 i hi).1)).2.1 with
      ⟨h1, h2, -⟩ | ⟨l, u, h1, h2, -⟩ <;> rw [h1, h2] <;> simp
  have h1 : s.isLeftBounded dbg = .ok true := by
    rw [Selection.isLeftBounded, Selection.lowerBound_eq dbg v]
    simp only [bind, Except.bind, Except.ok.injEq]
    cases hh : (pieces none s.tree).head? with
    | none => rfl
    | some i =>
      have := (hb i (List.mem_of_head? hh)).1
      simp only [Option.bind_some]
      revert this
      rcases (Selection.run i).lowerBound with _ | _ | _ | _ <;> simp
  have h2 : s.isRightBounded dbg = .ok true := by
    rw [Selection.isRightBounded, Selection.upperBound_eq dbg v]
    simp only [bind, Except.bind, Except.ok.injEq]
    cases hh : (pieces none s.tree).getLast? with
    | none => rfl
    | some i =>
      have := (hb i (List.mem_of_getLast? hh)).2
      simp only [Option.bind_some]
      revert this
      rcases (Selection.run i).upperBound with _ | _ | _ | _ <;> simp
  exact ⟨h1, h2, by rw [Selection.isHalfBounded, h1, h2]; rfl⟩

example : (Selection.demo [(u8 0, u8 4)]).Reachable ∧ (Selection.demo [(u8 0, u8 4)]).isLeftBounded true = .ok true :=
  ⟨(Selection.demo_built _ (by decide)).reachable, by decide⟩

/-- `is_bounded` says whether there is a point. -/
theorem C60_is_bounded_partial (dbg : Bool) (s : Selection α) (hs : s.Solid) :
    (s.isBounded dbg = .ok true ∧ (s.pts dbg).Nonempty) ∨
    (s.isBounded dbg = .ok false ∧ s.pts dbg = ∅) := by
  rcases C59_bounds_partial dbg s hs with ⟨h, e1, e2⟩ | ⟨l, u, h, -, e1, e2⟩
  · right; rw [Selection.isBounded, e1, e2]; exact ⟨rfl, h⟩
  · left; rw [Selection.isBounded, e1]; exact ⟨rfl, l, h.1⟩

example : (Selection.full : Selection U8).isBounded true = .ok true := by decide

/-- The empty selection is reported as not bounded. -/
theorem C60_counterexample : (Selection.new : Selection U8).isBounded true = .ok false := by decide

/-! ## C61 -/

/-- `enclose` is the smallest interval with the points of the selection: from its least to its
greatest point.
Missing from the full property: selections with a run without points, for which it only holds that
no point is lost (`C61_superset_partial`); and `closure`, see `C61_counterexample`. -/
theorem C61_enclose_partial (dbg : Bool) (s : Selection α) (hs : s.Solid) :
    ∃ e, s.enclose dbg = .ok e ∧ e.Obtainable ∧
      ((s.pts dbg = ∅ ∧ e.pts = ∅) ∨
        ∃ l u, IsLeast (s.pts dbg) l ∧ IsGreatest (s.pts dbg) u ∧ e.pts = Set.Icc l u) := by
  have v := Selection.reachable_valid hs.reachable
  obtain ⟨e, h, hw, b1, b2, hc⟩ := enclose_ok dbg v
  have hp : (⟨e.normalized⟩ : Interval α).pts = {x | e.contains x = true} := Selection.run_pts e
  refine ⟨⟨e.normalized⟩, by rw [Selection.enclose, h]; rfl, .ofRaw e hw, ?_⟩
  rw [hp]
  obtain ⟨t1, t2⟩ := Selection.tree_bounds v
  rcases Selection.first_last dbg v (Selection.np_good v hs.np) with ⟨h1, h2⟩ |
    ⟨i, j, l, u, h1, h2, g1, g2, h3, h4, h5, h6⟩
  · left
    refine ⟨h2, ?_⟩
    have := Selection.tree_nil v h1
    rw [this] at h
    cases h
    ext x
    simp [RawInterval.contains]
  · refine .inr ⟨l, u, h5, h6, ?_⟩
    rw [h1, Option.bind_some] at t1
    rw [h2, Option.bind_some] at t2
    rw [Selection.run_pts] at h3 h4
    obtain ⟨la, ua, i1, i2, a1, a2⟩ := (RawInterval.contains_iff_bounds i l).1 h3.1
    obtain ⟨lb, ub, j1, j2, c1, c2⟩ := (RawInterval.contains_iff_bounds j u).1 h4.1
    have e1 : e.lowerBound = some la := by rw [b1, t1, i1]
    have e2 : e.upperBound = some ub := by rw [b2, t2, j2]
    ext x
    rw [Set.mem_ofPred_eq, RawInterval.contains_iff_bounds]
    constructor
    · rintro ⟨l', u', f1, f2, k1, k2⟩
      rw [e1] at f1; rw [e2] at f2; cases f1; cases f2
      constructor
      · by_contra hx
        have hx := not_le.1 hx
        refine hx.not_ge (h3.2 (show i.contains x = true from (RawInterval.contains_iff_bounds i x).2
          ⟨la, ua, i1, i2, k1, ?_⟩))
        rcases ua with b | b | _
        exacts [hx.le.trans a2, hx.trans a2, trivial]
      · by_contra hx
        have hx := not_le.1 hx
        refine hx.not_ge (h4.2 (show j.contains x = true from (RawInterval.contains_iff_bounds j x).2
          ⟨lb, ub, j1, j2, ?_, k2⟩))
        rcases lb with b | b | _
        exacts [le_trans c1 hx.le, lt_trans c1 hx, trivial]
    · rintro ⟨k1, k2⟩
      refine ⟨la, ub, e1, e2, ?_, ?_⟩
      · rcases la with b | b | _
        exacts [le_trans a1 k1, lt_of_lt_of_le a1 k1, trivial]
      · rcases ub with b | b | _
        exacts [le_trans k2 c2, lt_of_le_of_lt k2 c2, trivial]

example : (Selection.demo [(u8 3, u8 5), (u8 9, u8 12)]).enclose true = .ok (Interval.mkClosed (u8 3) (u8 12)) := by
  decide

/-- `enclose` and `closure` never panic and lose no point, whatever the history. -/
theorem C61_superset_partial (dbg : Bool) (s : Selection α) (hs : s.Reachable) :
    ∃ e c, s.enclose dbg = .ok e ∧ s.closure dbg = .ok c ∧ s.pts dbg ⊆ e.pts ∧ e.pts ⊆ c.pts := by
  have v := Selection.reachable_valid hs
  obtain ⟨e, h, hw, b1, b2, hc⟩ := enclose_ok dbg v
  have hp : ∀ e : RawInterval α, (⟨e.normalized⟩ : Interval α).pts = {x | e.contains x = true} :=
    fun e => Selection.run_pts e
  refine ⟨⟨e.normalized⟩, ⟨e.closure.normalized⟩, by rw [Selection.enclose, h]; rfl,
    by rw [Selection.closure, TineTree.closure, h]; rfl, fun x hx => ?_, fun x hx => ?_⟩
  · rw [hp]; exact hc x ((Selection.mem_pts dbg v x).1 hx)
  · rw [hp] at hx ⊢
    rw [Set.mem_ofPred_eq, RawInterval.contains_iff] at hx ⊢
    exact (C09_closure e hw).1 hx

example : (Selection.demo [(u8 2, u8 5), (u8 9, u8 12)]).enclose true =
    .ok (Interval.mkClosed (u8 2) (u8 12)) := by decide

/-- The closure of `[3,5]` contains 2. -/
theorem C61_counterexample :
    ∃ (s : Selection U8) (c : Interval U8), s.UnionBuilt ∧ s.closure true = .ok c ∧
      u8 2 ∉ s.pts true ∧ c.contains (u8 2) = true :=
  ⟨.ofInterval (Interval.mkClosed (u8 3) (u8 5)), ⟨.closed (u8 2) (u8 6)⟩,
    .ofInterval (.mkClosed _ _) (Interval.closed_real (by decide)), by decide,
    fun h => absurd (show Selection.contains true _ _ = .ok true from h) (by decide), by decide⟩

/-! ## C62 -/

/-- `complement` never panics, has exactly the other points, and undoes itself. -/
theorem C62_complement (dbg : Bool) (s : Selection α) (hs : s.Reachable) :
    ∃ s', s.complement dbg = .ok s' ∧ s'.Reachable ∧ s'.pts dbg = (s.pts dbg)ᶜ ∧
      s'.complement dbg = .ok s := by
  have v := Selection.reachable_valid hs
  obtain ⟨s1, e1, v1, c1⟩ := Selection.complement_ok dbg v
  obtain ⟨s2, e2, v2, c2⟩ := Selection.complement_ok dbg v1
  refine ⟨s1, e1, .complement hs e1, ?_, ?_⟩
  · ext x
    rw [Set.mem_compl_iff, Selection.mem_pts dbg v1, Selection.mem_pts dbg v, at',
      c1 _ _ ⟨by simp, by simp⟩, Bool.not_eq_true', Bool.not_eq_true]
  · rw [e2]
    have : s2.tree = s.tree := valid_ext v2 v fun aft k hr => by
      change tcov _ _ _ = tcov _ _ _
      rw [c2 _ _ hr, c1 _ _ hr, Bool.not_not]
    cases s2; cases s; simp only at this; rw [this]

example : (Selection.demo [(u8 2, u8 5), (u8 9, u8 255)]).complement true >>= (Selection.intervals true ·) =
    .ok [Interval.mkClosed (u8 0) (u8 1), Interval.mkClosed (u8 6) (u8 8)] := by decide

end NI
