import Verif.Lemmas.SelMore
import Verif.Props.Interval

/-!
# Properties C48–C62: selections

`s.pts dbg` is the set of points for which `s.contains` returns true, in a debug (`dbg = true`) or
release build.  `Reachable`, `UnionBuilt`, `Tidy`, `Solid` and `Carved` (in `Verif.Spec`) name ever
smaller or different classes of histories of API calls.
-/

set_option linter.unusedSimpArgs false
set_option linter.unusedVariables false
set_option linter.unusedSectionVars false
set_option linter.unusedTactic false
set_option linter.unreachableTactic false

namespace NI
open Finite TT
variable {α : Type} [LinearOrder α] [Finite α] [LawfulFinite α]

theorem Selection.mem_pts (dbg : Bool) {s : Selection α} (h : Valid s.tree) (x : α) :
    x ∈ s.pts dbg ↔ at' s.tree x = true := Selection.contains_iff dbg h x

/-- Selections used in the examples: the union of closed intervals of bytes. -/
def Selection.demo (is : List (U8 × U8)) : Selection U8 :=
  (Selection.fromIntervals true (is.map fun p => Interval.mkClosed p.1 p.2)).toOption.getD Selection.new

/-- Bytes. -/
def u8 (x : Int) (h : 0 ≤ x ∧ x ≤ 255 := by decide) : U8 := ⟨x, h⟩

theorem Interval.closed_real {a b : α} (h : a ≤ b) : (Interval.mkClosed a b).Real :=
  .inr ⟨a, (C21_bounded a b a).2.2.2.1.2 ⟨le_refl _, h⟩⟩

theorem Selection.demo_built (is : List (U8 × U8)) (h : ∀ p ∈ is, p.1 ≤ p.2) :
    (Selection.demo is).UnionBuilt := by
  have h1 : ∀ i ∈ is.map fun p => Interval.mkClosed p.1 p.2, i.Obtainable ∧ i.Real := by
    intro i hi
    obtain ⟨p, hp, rfl⟩ := List.mem_map.1 hi
    exact ⟨.mkClosed _ _, Interval.closed_real (h p hp)⟩
  obtain ⟨s, e, -⟩ := Selection.extend_ok true Selection.new_valid fun i hi => (h1 i hi).1
  have e : Selection.fromIntervals true (is.map fun p => Interval.mkClosed p.1 p.2) = .ok s := e
  rw [Selection.demo, e]
  exact .fromIntervals h1 e

/-! ## C48 -/

/-- `contains` never panics and gives the same answer in debug and release builds. -/
theorem C48_contains_total (s : Selection α) (hs : s.Reachable) (x : α) :
    ∃ b, ∀ dbg, s.contains dbg x = .ok b :=
  ⟨_, fun dbg => Selection.contains_ok dbg (Selection.reachable_valid hs) x⟩

example : (Selection.demo [(u8 3, u8 5)]).Reachable ∧ (Selection.demo [(u8 3, u8 5)]).contains true (u8 4) = .ok true ∧
    (Selection.demo [(u8 3, u8 5)]).contains true (u8 9) = .ok false :=
  ⟨(Selection.demo_built _ (by decide)).reachable, by decide, by decide⟩

/-- `new` is empty, `full` has every point, a converted interval has the interval's points. -/
theorem C48_start (dbg : Bool) (i : Interval α) (hi : i.Obtainable) :
    (Selection.new : Selection α).pts dbg = ∅ ∧ (Selection.full : Selection α).pts dbg = Set.univ ∧
    (Selection.ofInterval i).pts dbg = i.pts := by
  have of : ∀ i : Interval α, i.Obtainable → (Selection.ofInterval i).pts dbg = i.pts := by
    intro i hi
    ext x
    rw [Selection.mem_pts dbg (Selection.reachable_valid (.ofInterval hi)), at',
      Selection.ofInterval_tree hi]
    change Selection.ic i false (.fin x) = true ↔ _
    rw [Selection.ic_fin hi]; rfl
  refine ⟨?_, ?_, of i hi⟩
  · ext x
    rw [Selection.mem_pts dbg Selection.new_valid]
    exact ⟨fun h => (by cases h), fun h => absurd h id⟩
  · rw [Selection.full, of _ .full]
    ext x
    exact ⟨fun _ => trivial, fun _ => (C21_unbounded x x).2.2.2.2⟩

example : (Interval.mkClosed (u8 3) (u8 5)).Obtainable ∧
    (Selection.ofInterval (Interval.mkClosed (u8 3) (u8 5))).contains true (u8 4) = .ok true :=
  ⟨.ofRaw (.closed (u8 3) (u8 5)) (by decide), by decide⟩

/-- `union_in_place` adds exactly the points of the interval. -/
theorem C48_union_in_place (dbg : Bool) (s : Selection α) (hs : s.Reachable) (i : Interval α)
    (hi : i.Obtainable) :
    ∃ s', s.unionInPlace dbg i = .ok s' ∧ s'.Reachable ∧ s'.pts dbg = s.pts dbg ∪ i.pts := by
  have v := Selection.reachable_valid hs
  obtain ⟨s', e, v', c⟩ := Selection.unionInPlace_ok dbg v hi
  refine ⟨s', e, .unionInPlace hs hi e, ?_⟩
  ext x
  rw [Set.mem_union, Selection.mem_pts dbg v', Selection.mem_pts dbg v, at', c, Selection.ic_fin hi,
    Bool.or_eq_true]; rfl

example : (Selection.demo [(u8 3, u8 5)]).unionInPlace true (Interval.mkClosed (u8 5) (u8 8)) =
    .ok (Selection.demo [(u8 3, u8 8)]) := by decide

/-- `extend` adds exactly the points of the intervals. -/
theorem C48_extend (dbg : Bool) (s : Selection α) (hs : s.Reachable) (is : List (Interval α))
    (hi : ∀ i ∈ is, i.Obtainable) :
    ∃ s', s.extend dbg is = .ok s' ∧ s'.Reachable ∧
      ∀ x, x ∈ s'.pts dbg ↔ x ∈ s.pts dbg ∨ ∃ i ∈ is, x ∈ i.pts := by
  have v := Selection.reachable_valid hs
  obtain ⟨s', e, v', c⟩ := Selection.extend_ok dbg v hi
  refine ⟨s', e, .extend hs hi e, fun x => ?_⟩
  rw [Selection.mem_pts dbg v', Selection.mem_pts dbg v, at', c, Bool.or_eq_true, List.any_eq_true]
  refine or_congr_right ⟨?_, ?_⟩
  · rintro ⟨i, h1, h2⟩; rw [Selection.ic_fin (hi i h1)] at h2; exact ⟨i, h1, h2⟩
  · rintro ⟨i, h1, h2⟩; refine ⟨i, h1, ?_⟩; rw [Selection.ic_fin (hi i h1)]; exact h2

example : (Selection.demo [(u8 3, u8 5)]).extend true [Interval.mkClosed (u8 6) (u8 8), .point (u8 20)] =
    .ok (Selection.demo [(u8 3, u8 8), (u8 20, u8 20)]) := by decide

/-- Collecting intervals gives exactly their points. -/
theorem C48_from_intervals (dbg : Bool) (is : List (Interval α)) (hi : ∀ i ∈ is, i.Obtainable) :
    ∃ s', Selection.fromIntervals dbg is = .ok s' ∧ s'.Reachable ∧
      ∀ x, x ∈ s'.pts dbg ↔ ∃ i ∈ is, x ∈ i.pts := by
  obtain ⟨s', e, -, c⟩ := C48_extend dbg .new .new is hi
  refine ⟨s', e, .fromIntervals hi e, fun x => ?_⟩
  rw [c, (C48_start dbg .empty .empty).1]
  simp

example : Selection.fromIntervals true [Interval.mkClosed (u8 6) (u8 8), .point (u8 9)] =
    .ok (Selection.demo [(u8 6, u8 9)]) ∧ (Interval.mkClosed (u8 6) (u8 8)).Obtainable := ⟨by decide, .mkClosed _ _⟩

/-- Collecting points gives exactly these points. -/
theorem C48_from_points (dbg : Bool) (xs : List α) :
    ∃ s', Selection.fromPoints dbg xs = .ok s' ∧ s'.Reachable ∧ ∀ x, x ∈ s'.pts dbg ↔ x ∈ xs := by
  obtain ⟨s', e, -, c⟩ := C48_from_intervals dbg (xs.map Interval.point) (by
    intro i hi
    obtain ⟨p, -, rfl⟩ := List.mem_map.1 hi
    exact .point p)
  rw [← Selection.fromPoints_eq] at e
  refine ⟨s', e, .fromPoints e, fun x => ?_⟩
  rw [c]
  constructor
  · rintro ⟨i, hi, hx⟩
    obtain ⟨p, hp, rfl⟩ := List.mem_map.1 hi
    rwa [((C21_bounded p p x).2.1).1 hx]
  · intro hx
    exact ⟨_, List.mem_map.2 ⟨x, hx, rfl⟩, ((C21_bounded x x x).2.1).2 rfl⟩

example : (Selection.demo [(u8 2, u8 5), (u8 9, u8 12)]).Reachable :=
  (Selection.demo_built _ (by decide)).reachable
example : Selection.unionInPlace true (Selection.demo [(u8 2, u8 5), (u8 9, u8 12)])
    (Interval.mkClosed (u8 4) (u8 9)) = .ok (Selection.demo [(u8 2, u8 12)]) := by decide
example : Selection.contains true (Selection.demo [(u8 2, u8 5), (u8 9, u8 12)]) (u8 9) = .ok true ∧
    Selection.contains true (Selection.demo [(u8 2, u8 5), (u8 9, u8 12)]) (u8 6) = .ok false := by
  decide

/-! ## C49 -/

/-- Any expression over the constructors, union and complement evaluates without panic to the set it
denotes. -/
theorem C49_expressions (dbg : Bool) (e : SelExpr α) (h : e.Legal) :
    ∃ s, e.eval dbg = .ok s ∧ s.Reachable ∧
      ∀ x, (s.contains dbg x = .ok true ↔ e.denote x) ∧ (s.contains dbg x = .ok false ↔ ¬ e.denote x) := by
  have main : ∃ s, e.eval dbg = .ok s ∧ s.Reachable ∧ ∀ x, x ∈ s.pts dbg ↔ e.denote x := by
    induction e with
    | empty => exact ⟨_, rfl, .new, fun x => by rw [(C48_start dbg .empty .empty).1]; rfl⟩
    | full => exact ⟨_, rfl, .full, fun x => by rw [(C48_start dbg .empty .empty).2.1]; rfl⟩
    | ofInterval i => exact ⟨_, rfl, .ofInterval h, fun x => by rw [(C48_start dbg i h).2.2]; rfl⟩
    | collectIntervals is => exact C48_from_intervals dbg is h
    | collectPoints xs => exact C48_from_points dbg xs
    | unionInPlace e i ih =>
      obtain ⟨s, h1, h2, h3⟩ := ih h.1
      obtain ⟨s', k1, k2, k3⟩ := C48_union_in_place dbg s h2 i h.2
      refine ⟨s', by rw [SelExpr.eval, h1]; exact k1, k2, fun x => ?_⟩
      rw [k3, Set.mem_union, h3]; rfl
    | extend e is ih =>
      obtain ⟨s, h1, h2, h3⟩ := ih h.1
      obtain ⟨s', k1, k2, k3⟩ := C48_extend dbg s h2 is h.2
      refine ⟨s', by rw [SelExpr.eval, h1]; exact k1, k2, fun x => ?_⟩
      rw [k3, h3]; rfl
    | union a b iha ihb =>
      obtain ⟨s, h1, h2, h3⟩ := iha h.1
      obtain ⟨r, h4, h5, h6⟩ := ihb h.2
      have vs := Selection.reachable_valid h2
      have vr := Selection.reachable_valid h5
      obtain ⟨s', k1, k2, k3⟩ := Selection.union_ok dbg vs vr
      refine ⟨s', by rw [SelExpr.eval, h1, h4]; exact k1, .union h2 h5 k1, fun x => ?_⟩
      rw [Selection.mem_pts dbg k2, at', k3, Bool.or_eq_true]
      change (at' s.tree x = true ∨ at' r.tree x = true) ↔ _
      rw [← Selection.mem_pts dbg vs, ← Selection.mem_pts dbg vr, h3, h6]; rfl
    | complement e ih =>
      obtain ⟨s, h1, h2, h3⟩ := ih h
      have vs := Selection.reachable_valid h2
      obtain ⟨s', k1, k2, k3⟩ := Selection.complement_ok dbg vs
      refine ⟨s', by rw [SelExpr.eval, h1]; exact k1, .complement h2 k1, fun x => ?_⟩
      rw [Selection.mem_pts dbg k2, at', k3 _ _ ⟨by simp, by simp⟩]
      change (!at' s.tree x) = true ↔ ¬ e.denote x
      rw [← h3, Selection.mem_pts dbg vs]; simp
  obtain ⟨s, h1, h2, h3⟩ := main
  refine ⟨s, h1, h2, fun x => ⟨h3 x, ?_⟩⟩
  rw [← h3, Selection.mem_pts dbg (Selection.reachable_valid h2),
    Selection.contains_ok dbg (Selection.reachable_valid h2)]
  simp

example : (SelExpr.complement (.union (.collectPoints [u8 3, u8 7])
      (.ofInterval (Interval.mkClosed (u8 5) (u8 9))))).Legal ∧
    (SelExpr.eval true (SelExpr.complement (.union (.collectPoints [u8 3, u8 7])
      (.ofInterval (Interval.mkClosed (u8 5) (u8 9)))))).toOption.map
        (fun s => (s.contains true (u8 4), s.contains true (u8 3))) =
      some (.ok true, .ok false) := ⟨⟨trivial, .mkClosed _ _⟩, by decide⟩

/-! ## C50 -/

/-- `minus_in_place` never panics, removes every point of the interval, and no other point.
Missing from the full property: that no point is added.  This is false, see
`C50_counterexample`; `C50_formula_partial` says precisely which points are added. -/
theorem C50_removes_partial (dbg : Bool) (s : Selection α) (hs : s.Reachable) (i : Interval α)
    (hi : i.Obtainable) :
    ∃ s', s.minusInPlace dbg i = .ok s' ∧ s'.Reachable ∧
      (∀ x ∈ i.pts, x ∉ s'.pts dbg) ∧ (∀ x ∈ s.pts dbg, x ∉ i.pts → x ∈ s'.pts dbg) := by
  have v := Selection.reachable_valid hs
  obtain ⟨s', e, v', c⟩ := Selection.minusInPlace_ok dbg v hi
  refine ⟨s', e, .minusInPlace hs hi e, fun x hx => ?_, fun x hx hn => ?_⟩
  · rw [Selection.mem_pts dbg v', at', c, Selection.ic_fin hi, show i.contains x = true from hx]
    intro hh
    simp only [Bool.not_true, Bool.and_false, Bool.false_or, Bool.not_false, Bool.true_and,
      Bool.and_eq_true, decide_eq_true_eq] at hh
    obtain ⟨-, y, hy, hk⟩ := hh
    have hx : i.raw.denormalized.contains x = true := by
      rw [RawInterval.denorm_contains (Interval.obtainable_nf hi)]; exact hx
    rcases RawInterval.denorm_open (Interval.obtainable_nf hi) with e | ⟨a, b, e⟩ | ⟨a, e⟩ | ⟨b, e⟩ | e <;>
      rw [e] at hx hy <;> simp [Tine.fromRawInterval] at hy <;>
      (try rcases hy with rfl | rfl) <;> simp [Tine.key, RawInterval.contains] at hk hx <;>
      (try subst hk) <;> simp at hx
  · rw [Selection.mem_pts dbg v] at hx
    have hn : i.contains x = false := Bool.eq_false_iff.2 hn
    have hx : tcov s.tree false (.fin x) = true := hx
    rw [Selection.mem_pts dbg v', at', c, Selection.ic_fin hi, hn, hx]; rfl

example : (Selection.demo [(u8 3, u8 9)]).minusInPlace true (Interval.mkClosed (u8 5) (u8 6)) >>= (Selection.intervals true ·) =
    .ok [Interval.mkClosed (u8 3) (u8 4), Interval.mkClosed (u8 7) (u8 9)] := by decide

/-- For union-built selections the result of `minus_in_place` is the difference together with the
points that are missing between two neighbours of the selection and adjacent to the interval. -/
theorem C50_formula_partial (dbg : Bool) (s : Selection α) (hs : s.UnionBuilt) (i : Interval α)
    (hi : i.Obtainable) (hr : i.Real) :
    ∃ s', s.minusInPlace dbg i = .ok s' ∧ ∀ x, x ∈ s'.pts dbg ↔
      (x ∈ s.pts dbg ∧ x ∉ i.pts) ∨
      (x ∉ s.pts dbg ∧ (∃ p ∈ s.pts dbg, pred x = some p) ∧ (∃ q ∈ s.pts dbg, succ x = some q) ∧
        ((∃ l, IsLeast i.pts l ∧ pred l = some x) ∨ (∃ u, IsGreatest i.pts u ∧ succ u = some x))) := by
  have v := Selection.reachable_valid hs.reachable
  obtain ⟨s', e, v', c⟩ := Selection.minusInPlace_ok dbg v hi
  refine ⟨s', e, fun x => ?_⟩
  have hole : holeAt s.tree (.fin x) = true ↔
      (x ∉ s.pts dbg ∧ (∃ p ∈ s.pts dbg, pred x = some p) ∧ (∃ q ∈ s.pts dbg, succ x = some q)) := by
    rw [hs.do.hole]
    simp only [Bool.and_eq_true, Bool.not_eq_true', Selection.mem_pts dbg v, Bool.not_eq_true]
    rw [and_assoc]
    refine and_congr_right fun _ => and_congr ?_ ?_
    · cases pred x <;> simp
    · cases succ x <;> simp
  have key : (∃ y ∈ Tine.fromRawInterval i.raw.denormalized, y.key = Key.fin x) ↔
      ((∃ l, IsLeast i.pts l ∧ pred l = some x) ∨ (∃ u, IsGreatest i.pts u ∧ succ u = some x)) := by
    have cl : ∀ l u : α, l ≤ u → (⟨.closed l u⟩ : Interval α).pts = Set.Icc l u := fun l u _ =>
      Interval.pts_eq _
    have go : ∀ l u : α, l ≤ u → ∀ r : RawInterval α,
        r.denormalized = (RawInterval.closed l u).denormalized → (⟨r⟩ : Interval α).pts = Set.Icc l u →
        ((∃ y ∈ Tine.fromRawInterval r.denormalized, y.key = Key.fin x) ↔
        ((∃ l, IsLeast (⟨r⟩ : Interval α).pts l ∧ pred l = some x) ∨
          (∃ u, IsGreatest (⟨r⟩ : Interval α).pts u ∧ succ u = some x))) := by
      intro l u hlu r hd hp
      have e1 : (∃ y, IsLeast (⟨r⟩ : Interval α).pts y ∧ pred y = some x) ↔ pred l = some x := by
        rw [hp]
        constructor
        · rintro ⟨y, hy, h⟩; rwa [hy.unique (isLeast_Icc hlu)] at h
        · intro h; exact ⟨l, isLeast_Icc hlu, h⟩
      have e2 : (∃ y, IsGreatest (⟨r⟩ : Interval α).pts y ∧ succ y = some x) ↔ succ u = some x := by
        rw [hp]
        constructor
        · rintro ⟨y, hy, h⟩; rwa [hy.unique (isGreatest_Icc hlu)] at h
        · intro h; exact ⟨u, isGreatest_Icc hlu, h⟩
      rw [e1, e2, hd]
      simp only [RawInterval.denormalized]
      cases pred l <;> cases succ u <;> simp [Tine.fromRawInterval, Tine.key]
    rcases Interval.real_cases hi hr with rfl | ⟨p, rfl⟩ | ⟨l, u, rfl, hlu⟩
    · have : (⟨.empty⟩ : Interval α).pts = ∅ := Interval.pts_eq _
      rw [this]
      simp [RawInterval.denormalized, Tine.fromRawInterval, IsLeast, IsGreatest]
    · refine go p p le_rfl _ ?_ ?_
      · simp only [RawInterval.denormalized]
      · rw [Interval.pts_eq, Set.Icc_self]; rfl
    · exact go l u hlu _ rfl (cl l u hlu)
  rw [Selection.mem_pts dbg v', at', c, Selection.ic_fin hi, Bool.or_eq_true, Bool.and_eq_true,
    Bool.and_eq_true, Bool.not_false, Bool.true_and, decide_eq_true_eq, hole, key,
    Selection.mem_pts dbg v]
  simp only [and_assoc, Bool.not_eq_true']
  refine or_congr_left (and_congr_right fun _ => ?_)
  change i.contains x = false ↔ ¬ (i.contains x = true)
  simp

example : (Selection.demo [(u8 3, u8 5), (u8 7, u8 9)]).UnionBuilt ∧ (Interval.mkClosed (u8 7) (u8 8)).Real ∧
    (Selection.demo [(u8 3, u8 5), (u8 7, u8 9)]).minusInPlace true (Interval.mkClosed (u8 7) (u8 8)) >>=
      (Selection.intervals true ·) = .ok [Interval.mkClosed (u8 3) (u8 6), ⟨.closed (u8 9) (u8 9)⟩] :=
  ⟨Selection.demo_built _ (by decide), .inr ⟨u8 7, by decide⟩, by decide⟩

/-- `minus_in_place` is exact on carved selections, in particular on union-built selections in which
no single point is missing between two neighbours, and on complements.
Missing from the full property: other selections, see `C50_counterexample`. -/
theorem C50_carved_partial (dbg : Bool) (s : Selection α) (hs : s.Carved) (i : Interval α)
    (hi : i.Obtainable) :
    ∃ s', s.minusInPlace dbg i = .ok s' ∧ s'.Carved ∧ s'.pts dbg = s.pts dbg \ i.pts := by
  obtain ⟨v, hn⟩ := hs.valid_noHole
  obtain ⟨s', e, v', c⟩ := Selection.minusInPlace_ok dbg v hi
  refine ⟨s', e, .minusInPlace hs hi e, ?_⟩
  ext x
  rw [Selection.mem_pts dbg v', at', c, Selection.ic_fin hi, hn x, Set.mem_sdiff,
    Selection.mem_pts dbg v]
  simp only [Bool.and_false, Bool.false_and, Bool.or_false, Bool.and_eq_true, Bool.not_eq_true']
  refine and_congr_right fun _ => ?_
  change i.contains x = false ↔ ¬ (i.contains x = true)
  simp

example : Selection.minusInPlace true (Selection.demo [(u8 2, u8 5), (u8 9, u8 12)])
    (Interval.mkClosed (u8 4) (u8 10)) >>= (Selection.intervals true ·) =
    .ok [Interval.mkClosed (u8 2) (u8 3), Interval.mkClosed (u8 11) (u8 12)] := by decide

/-- `{2,4}` without `[4,10]` contains 3. -/
theorem C50_counterexample :
    ∃ (s s' : Selection U8) (i : Interval U8), s.UnionBuilt ∧ i.Obtainable ∧ i.Real ∧
      s.minusInPlace true i = .ok s' ∧ u8 3 ∉ s.pts true ∧ u8 3 ∈ s'.pts true :=
  ⟨Selection.demo [(u8 2, u8 2), (u8 4, u8 4)],
    ⟨[.lower (.excl (u8 1)), .upper (.incl (u8 3))]⟩,
    Interval.mkClosed (u8 4) (u8 10), Selection.demo_built _ (by decide), .mkClosed _ _,
    Interval.closed_real (by decide), by decide,
    fun h => absurd (show Selection.contains true _ _ = .ok true from h) (by decide),
    show Selection.contains true _ _ = .ok true by decide⟩

/-! ## C51 -/

/-- The interval `[l,u]` as it is inserted. -/
theorem Selection.closed_denorm {l u : α} (h : l ≤ u) :
    (Interval.mkClosed l u).raw.denormalized = (RawInterval.closed l u).denormalized := by
  rcases lt_or_eq_of_le h with h | rfl
  · simp only [Interval.mkClosed, RawInterval.mkClosed]
    simp [h, RawInterval.normalized]
  · simp only [Interval.mkClosed, RawInterval.mkClosed]
    simp [RawInterval.normalized, RawInterval.denormalized]

/-- `intersect_in_place` with `[l,u]` is exact on a union-built selection if the selection reaches
both ends of the interval, or crosses one end of the interval and stays clear of the other.
Missing from the full property: all other cases.  There it panics, leaves a corrupt tree or answers
the interval itself, see `C51_counterexample`. -/
theorem C51_intersect_in_place_partial (dbg : Bool) (s : Selection α) (hs : s.UnionBuilt) (l u : α)
    (hlu : l ≤ u)
    (h : (s.TouchesBelow dbg l ∧ s.TouchesAbove dbg u) ∨
      (s.TouchesBelow dbg l ∧ (∃ p, pred l = some p ∧ s.TouchesBelow dbg p) ∧
        ¬ s.TouchesAbove dbg u ∧ ∀ q, succ u = some q → ¬ s.TouchesAbove dbg q) ∨
      (s.TouchesAbove dbg u ∧ (∃ q, succ u = some q ∧ s.TouchesAbove dbg q) ∧
        ¬ s.TouchesBelow dbg l ∧ ∀ p, pred l = some p → ¬ s.TouchesBelow dbg p)) :
    ∃ s', s.intersectInPlace dbg (Interval.mkClosed l u) = .ok s' ∧
      s'.pts dbg = s.pts dbg ∩ Set.Icc l u := by
  have v := Selection.reachable_valid hs.reachable
  have hd := hs.do
  have hi : (Interval.mkClosed l u).Obtainable := .mkClosed _ _
  have hw := RawInterval.denorm_wf (Interval.obtainable_nf hi)
  -- the three views of the tree at the two ends
  have tb : ∀ x y, succ x = some y →
      (s.TouchesBelow dbg y ↔ tcov s.tree true (.fin x) = true) := by
    intro x y hy
    rw [hd.1, hy, Selection.TouchesBelow]
    simp only [Selection.mem_pts dbg v, pred_of_succ hy, Option.some.injEq, Option.elim,
      Bool.or_eq_true]
    constructor
    · rintro (h | ⟨p, h, rfl⟩); exacts [.inr h, .inl h]
    · rintro (h | h); exacts [.inr ⟨x, h, rfl⟩, .inl h]
  have tb0 : ∀ x, pred x = none → (s.TouchesBelow dbg x ↔ tcov s.tree true .bot = true) := by
    intro x hx
    rw [hd.2, Selection.TouchesBelow, hx, (LawfulFinite.pred_none x).1 hx]
    simp [Selection.mem_pts dbg v]
  have bb : ∀ x, (s.TouchesBelow dbg x ↔ bef false s.tree (.fin x) = true) := by
    intro x
    cases hp : pred x with
    | none => rw [tb0 x hp, bef_min hp]
    | some p => rw [tb p x (succ_of_pred hp), bef_pred hp]
  have ta : ∀ x, (s.TouchesAbove dbg x ↔ tcov s.tree true (.fin x) = true) := by
    intro x
    rw [hd.1, Selection.TouchesAbove]
    simp only [Selection.mem_pts dbg v, Bool.or_eq_true]
    cases succ x <;> simp
  have ba : ∀ x y, succ x = some y → (s.TouchesAbove dbg x ↔ bef false s.tree (.fin y) = true) := by
    intro x y hy
    rw [ta, bef_pred (pred_of_succ hy)]
  have ba0 : ∀ x, succ x = none → (s.TouchesAbove dbg x ↔ bef false s.tree .top = true) := by
    intro x hx
    rw [ta, bef_top, (LawfulFinite.succ_none x).1 hx]
  have b0 : bef false s.tree .bot = false := bef_ge fun t _ => not_lt.1 (Key.not_lt_bot _)
  have e0 : tcov s.tree true .top = false := cov_unreal v (by simp [RealPos])
  obtain ⟨t', e, v', c⟩ := intersectInPlace_core dbg v hw (by
    refine .inr (.inr (.inr fun lb ub hf => ?_))
    rw [Selection.closed_denorm hlu] at hf
    simp only [RawInterval.denormalized] at hf
    revert h
    cases hp : pred l with
    | none =>
      rw [tb0 l hp]
      cases hq : succ u with
      | none =>
        rw [ba0 u hq]
        rw [hp, hq] at hf
        simp [Tine.fromRawInterval] at hf
        obtain ⟨rfl, rfl⟩ := hf
        simp only [Tine.key, Tine.inclAt, b0, e0, IsectGood]
        cases tcov s.tree true .bot <;> cases bef false s.tree .top <;> simp
      | some q =>
        rw [ba u q hq]
        rw [hp, hq] at hf
        simp [Tine.fromRawInterval] at hf
        obtain ⟨rfl, rfl⟩ := hf
        simp only [Tine.key, Tine.inclAt, b0, IsectGood, Option.some.injEq, exists_eq_left', ta,
          forall_eq']
        cases tcov s.tree true .bot <;> cases bef false s.tree (.fin q) <;>
          cases tcov s.tree true (.fin q) <;> simp
    | some p =>
      rw [tb p l (succ_of_pred hp)]
      cases hq : succ u with
      | none =>
        rw [ba0 u hq]
        rw [hp, hq] at hf
        simp [Tine.fromRawInterval] at hf
        obtain ⟨rfl, rfl⟩ := hf
        simp only [Tine.key, Tine.inclAt, e0, IsectGood, Option.some.injEq, exists_eq_left', bb,
          forall_eq']
        cases tcov s.tree true (.fin p) <;> cases bef false s.tree .top <;>
          cases bef false s.tree (.fin p) <;> simp
      | some q =>
        rw [ba u q hq]
        rw [hp, hq] at hf
        simp [Tine.fromRawInterval] at hf
        obtain ⟨rfl, rfl⟩ := hf
        simp only [Tine.key, Tine.inclAt, IsectGood, Option.some.injEq, exists_eq_left', bb, ta,
          forall_eq']
        cases tcov s.tree true (.fin p) <;> cases bef false s.tree (.fin q) <;>
          cases bef false s.tree (.fin p) <;> cases tcov s.tree true (.fin q) <;> simp)
  refine ⟨⟨t'⟩, by rw [Selection.intersectInPlace, e]; rfl, ?_⟩
  ext x
  rw [Selection.mem_pts dbg (s := ⟨t'⟩) v', at', c _ _ ⟨by simp, by simp⟩]
  change (_ && Selection.ic _ _ _) = true ↔ _
  rw [Selection.ic_fin hi, Bool.and_eq_true, (C21_bounded l u x).2.2.2.1, Set.mem_inter_iff,
    Selection.mem_pts dbg v]
  rfl

example : Selection.intersectInPlace true (Selection.demo [(u8 2, u8 5), (u8 9, u8 12)])
    (Interval.mkClosed (u8 4) (u8 10)) =
      .ok (Selection.demo [(u8 4, u8 5), (u8 9, u8 10)]) := by decide
example : Selection.TouchesBelow true (Selection.demo [(u8 2, u8 5), (u8 9, u8 12)]) (u8 4) ∧
    Selection.TouchesAbove true (Selection.demo [(u8 2, u8 5), (u8 9, u8 12)]) (u8 10) :=
  ⟨.inl (show Selection.contains true _ _ = .ok true by decide),
    .inl (show Selection.contains true _ _ = .ok true by decide)⟩

/-- Intersecting with the empty interval empties the selection, and with the full one keeps it. -/
theorem C51_trivial_partial (dbg : Bool) (s : Selection α) (hs : s.Reachable) :
    s.intersectInPlace dbg .empty = .ok .new ∧ s.intersectInPlace dbg .full = .ok s := by
  have hf : (Interval.full : Interval α).raw.denormalized = .full := by
    simp only [Interval.full, RawInterval.normalized, RawInterval.denormalized]
    rw [(LawfulFinite.pred_none (minimum : α)).2 rfl, (LawfulFinite.succ_none (maximum : α)).2 rfl]
  rcases s with ⟨t⟩
  constructor
  · simp only [Selection.intersectInPlace, Interval.empty, RawInterval.denormalized,
      TineTree.intersectInPlace, RawInterval.isFull, RawInterval.isEmpty, Bool.or_false, if_true]
    cases t <;> rfl
  · rw [Selection.intersectInPlace, hf]
    simp [TineTree.intersectInPlace, RawInterval.isFull, bind, Except.bind]

example : (Selection.demo [(u8 3, u8 5)]).Reachable ∧
    (Selection.demo [(u8 3, u8 5)]).intersectInPlace true .full = .ok (Selection.demo [(u8 3, u8 5)]) :=
  ⟨(Selection.demo_built _ (by decide)).reachable, by decide⟩

/-- `[2,5]` intersected with the disjoint `[10,20]` is `[10,20]`; intersected with `[1,10]` it is a
corrupt tree; and `[2,5] ∪ [17,19]` intersected with `[2,12]` panics, in release builds too. -/
theorem C51_counterexample :
    (∃ s s' : Selection U8, s.UnionBuilt ∧
      s.intersectInPlace true (Interval.mkClosed (u8 10) (u8 20)) = .ok s' ∧
      u8 15 ∉ s.pts true ∧ u8 15 ∈ s'.pts true) ∧
    (∃ s s' : Selection U8, s.UnionBuilt ∧
      s.intersectInPlace true (Interval.mkClosed (u8 1) (u8 10)) = .ok s' ∧
      s'.contains true (u8 3) = .error .debugAssert) ∧
    (∃ s : Selection U8, s.UnionBuilt ∧
      s.intersectInPlace false (Interval.mkClosed (u8 2) (u8 12)) = .error .unreachable) :=
  ⟨⟨Selection.demo [(u8 2, u8 5)], ⟨[.lower (.excl (u8 9)), .upper (.excl (u8 21))]⟩,
      Selection.demo_built _ (by decide), by decide,
      fun h => absurd (show Selection.contains true _ _ = .ok true from h) (by decide),
      show Selection.contains true _ _ = .ok true by decide⟩,
    ⟨Selection.demo [(u8 2, u8 5)], ⟨[.lower (.excl (u8 0)), .lower (.excl (u8 1)),
      .upper (.excl (u8 6)), .upper (.excl (u8 11))]⟩,
      Selection.demo_built _ (by decide), by decide, by decide⟩,
    ⟨Selection.demo [(u8 2, u8 5), (u8 17, u8 19)], Selection.demo_built _ (by decide), by decide⟩⟩

/-! ## C52 -/

/-- `intersect` never panics and yields common points only; `intersects` never panics.
Missing from the full property: every common point.  This is false in general, see
`C52_counterexample`. -/
theorem C52_subset_partial (dbg : Bool) (a b : Selection α) (ha : a.Reachable) (hb : b.Reachable) :
    ∃ s, a.intersect dbg b = .ok s ∧ s.Reachable ∧ s.pts dbg ⊆ a.pts dbg ∩ b.pts dbg ∧
      a.intersects dbg b = .ok !s.isEmpty := by
  have va := Selection.reachable_valid ha
  have vb := Selection.reachable_valid hb
  obtain ⟨t, e, r, hsub⟩ := C41_intersect_subset_partial dbg a.tree b.tree (valid_reachable va)
    (valid_reachable vb)
  have e' : a.intersect dbg b = .ok ⟨t⟩ := by rw [Selection.intersect, e]; rfl
  refine ⟨⟨t⟩, e', .intersect ha hb e', fun x hx => hsub x hx, ?_⟩
  rw [Selection.intersects, e]; rfl

example : (Selection.demo [(u8 3, u8 5), (u8 8, u8 12)]).intersect true (Selection.demo [(u8 4, u8 9)]) =
    .ok (Selection.demo [(u8 4, u8 5)]) := by decide

/-- A selection made from one interval is intersected exactly with a selection whose first interval
it meets. -/
theorem C52_first_partial (dbg : Bool) (i : Interval α) (hi : i.Obtainable) (b : Selection α)
    (hb : b.Reachable) (j : Interval α) (js : List (Interval α))
    (hj : b.intervals dbg = .ok (j :: js)) (hij : ∃ x, x ∈ i.pts ∧ x ∈ j.pts) :
    ∃ s, (Selection.ofInterval i).intersect dbg b = .ok s ∧ s.Reachable ∧
      s.pts dbg = i.pts ∩ b.pts dbg ∧ (Selection.ofInterval i).intersects dbg b = .ok true := by
  have vb := Selection.reachable_valid hb
  rw [Selection.intervals_eq dbg vb] at hj
  rcases hp : pieces none b.tree with _ | ⟨o, os⟩
  · rw [hp] at hj; cases hj
  rw [hp, Except.ok.injEq, List.map_cons, List.cons.injEq] at hj
  obtain ⟨x, hxi, hxj⟩ := hij
  rw [← hj.1, Selection.run_pts] at hxj
  have hn := Interval.obtainable_nf hi
  have hso : i.raw.denormalized.intersects o = true := by
    refine (C08_symm _ _).1 ⟨x, ?_, (RawInterval.contains_iff o x).1 hxj⟩
    rw [← RawInterval.contains_iff, RawInterval.denorm_contains hn]; exact hxi
  obtain ⟨t, e, r, ht⟩ := C41_intersect_single_partial dbg i.raw.denormalized (RawInterval.denorm_wf hn)
    b.tree (valid_reachable vb) o os (by rw [TT.intervals_eq dbg vb, hp]) hso
  have e' : (Selection.ofInterval i).intersect dbg b = .ok ⟨t⟩ := by
    rw [Selection.intersect, Selection.ofInterval, e]; rfl
  have hpt : (⟨t⟩ : Selection α).pts dbg = i.pts ∩ b.pts dbg := by
    ext y
    refine (ht y).trans ?_
    rw [RawInterval.denorm_contains hn]; rfl
  refine ⟨⟨t⟩, e', .intersect (.ofInterval hi) hb e', hpt, ?_⟩
  rw [Selection.intersects, Selection.ofInterval, e]
  have hx : x ∈ (⟨t⟩ : Selection α).pts dbg := by
    rw [hpt]
    refine ⟨hxi, ?_⟩
    rw [← Selection.rest_pieces dbg vb, hp]
    exact ⟨o, by simp, hxj⟩
  cases t with
  | nil => cases hx
  | cons y ys => rfl

example : (Selection.demo [(u8 4, u8 9), (u8 20, u8 22)]).Reachable ∧
    (Selection.demo [(u8 4, u8 9), (u8 20, u8 22)]).intervals true =
      .ok [Interval.mkClosed (u8 4) (u8 9), Interval.mkClosed (u8 20) (u8 22)] ∧
    (Interval.mkClosed (u8 7) (u8 21)).contains (u8 8) = true ∧ (Interval.mkClosed (u8 4) (u8 9)).contains (u8 8) = true ∧
    (Selection.ofInterval (Interval.mkClosed (u8 7) (u8 21))).intersect true
      (Selection.demo [(u8 4, u8 9), (u8 20, u8 22)]) = .ok (Selection.demo [(u8 7, u8 9), (u8 20, u8 21)]) :=
  ⟨(Selection.demo_built _ (by decide)).reachable, by decide⟩

/-- Two selections made from one interval each are intersected exactly.
Missing from the full property: the general case, and that `intersects` is false without a common
point; both are false, see `C52_counterexample` and `C52_intersects_counterexample`. -/
theorem C52_intervals_partial (dbg : Bool) (i j : Interval α) (hi : i.Obtainable) (hj : j.Obtainable) :
    ∃ s, (Selection.ofInterval i).intersect dbg (.ofInterval j) = .ok s ∧ s.Reachable ∧
      s.pts dbg = i.pts ∩ j.pts ∧
      ((∃ x, x ∈ i.pts ∧ x ∈ j.pts) → (Selection.ofInterval i).intersects dbg (.ofInterval j) = .ok true) := by
  have pi := (C48_start dbg i hi).2.2
  have pj := (C48_start dbg j hj).2.2
  by_cases h : ∃ x, x ∈ i.pts ∧ x ∈ j.pts
  · obtain ⟨x, hx1, hx2⟩ := h
    have hn := Interval.obtainable_nf hj
    have vb := Selection.reachable_valid (Selection.Reachable.ofInterval hj)
    have hx2' : j.raw.denormalized.contains x = true := by
      rw [RawInterval.denorm_contains hn]; exact hx2
    have hp : pieces none (Selection.ofInterval j).tree = [j.raw.denormalized] := by
      rw [Selection.ofInterval_tree hj]
      exact pieces_fromRaw (RawInterval.denorm_wf hn)
        (by intro e; rw [e] at hx2'; cases hx2')
    obtain ⟨s, h1, h2, h3, h4⟩ := C52_first_partial dbg i hi (.ofInterval j) (.ofInterval hj)
      (Selection.run j.raw.denormalized) [] (by rw [Selection.intervals_eq dbg vb, hp]; rfl)
      ⟨x, hx1, by rw [Selection.run_pts]; exact hx2'⟩
    exact ⟨s, h1, h2, by rw [h3, pj], fun _ => h4⟩
  · obtain ⟨s, h1, h2, h3, h4⟩ := C52_subset_partial dbg (.ofInterval i) (.ofInterval j)
      (.ofInterval hi) (.ofInterval hj)
    refine ⟨s, h1, h2, ?_, fun hh => absurd hh h⟩
    rw [pi, pj] at h3
    ext x
    exact ⟨fun hx => h3 hx, fun hx => absurd ⟨x, hx.1, hx.2⟩ h⟩

example : Selection.intersect true (.ofInterval (Interval.mkClosed (u8 4) (u8 10)))
    (Selection.demo [(u8 2, u8 5), (u8 9, u8 12)]) =
      .ok (Selection.demo [(u8 4, u8 5), (u8 9, u8 10)]) := by decide

/-- `([0,1] ∪ [4,5]) ∩ [0,5]` misses 4. -/
theorem C52_counterexample :
    ∃ a b s : Selection U8, a.UnionBuilt ∧ b.UnionBuilt ∧ a.intersect true b = .ok s ∧
      u8 4 ∈ a.pts true ∧ u8 4 ∈ b.pts true ∧ u8 4 ∉ s.pts true :=
  ⟨Selection.demo [(u8 0, u8 1), (u8 4, u8 5)], Selection.demo [(u8 0, u8 5)],
    Selection.demo [(u8 0, u8 1)], Selection.demo_built _ (by decide),
    Selection.demo_built _ (by decide), by decide,
    show Selection.contains true _ _ = .ok true by decide,
    show Selection.contains true _ _ = .ok true by decide,
    fun h => absurd (show Selection.contains true _ _ = .ok true from h) (by decide)⟩

/-- `[0,4]` and `[5,9]` are reported to intersect. -/
theorem C52_intersects_counterexample :
    ∃ a b : Selection U8, a.UnionBuilt ∧ b.UnionBuilt ∧ a.intersects true b = .ok true ∧
      ∀ x, ¬ (x ∈ a.pts true ∧ x ∈ b.pts true) := by
  refine ⟨.ofInterval (Interval.mkClosed (u8 0) (u8 4)), .ofInterval (Interval.mkClosed (u8 5) (u8 9)),
    .ofInterval (.mkClosed _ _) (Interval.closed_real (by decide)),
    .ofInterval (.mkClosed _ _) (Interval.closed_real (by decide)), by decide, fun x => ?_⟩
  rw [(C48_start true _ (.mkClosed _ _)).2.2, (C48_start true _ (.mkClosed _ _)).2.2]
  rintro ⟨h1, h2⟩
  have h1 := ((C21_bounded (u8 0) (u8 4) x).2.2.2.1).1 h1
  have h2 := ((C21_bounded (u8 5) (u8 9) x).2.2.2.1).1 h2
  exact absurd (le_trans h2.1 h1.2) (by decide)

/-! ## C53 -/

/-- Subtracting a union-built selection never panics, removes each of its points, and no other point.
Missing from the full property: that no point is added, which is false, see `C53_counterexample`. -/
theorem C53_removes_partial (dbg : Bool) (a b : Selection α) (ha : a.Reachable) (hb : b.UnionBuilt) :
    ∃ s, a.minus dbg b = .ok s ∧ (∀ x ∈ b.pts dbg, x ∉ s.pts dbg) ∧
      ∀ x ∈ a.pts dbg, x ∉ b.pts dbg → x ∈ s.pts dbg := by
  have va := Selection.reachable_valid ha
  have vb := Selection.reachable_valid hb.reachable
  obtain ⟨s, e, v, k1, k2⟩ := Selection.minusOpen_ok dbg va vb hb.do
  refine ⟨s, e, fun x hx => ?_, fun x hx hn => ?_⟩
  · rw [Selection.mem_pts dbg vb] at hx
    rw [Selection.mem_pts dbg v, k2 x hx]; simp
  · rw [Selection.mem_pts dbg va] at hx
    rw [Selection.mem_pts dbg vb, Bool.not_eq_true] at hn
    rw [Selection.mem_pts dbg v]; exact k1 x hx hn

example : (Selection.demo [(u8 4, u8 9)]).UnionBuilt ∧
    (Selection.demo [(u8 2, u8 12)]).minus true (Selection.demo [(u8 4, u8 9)]) >>= (Selection.intervals true ·) =
      .ok [Interval.mkClosed (u8 2) (u8 3), Interval.mkClosed (u8 10) (u8 12)] :=
  ⟨Selection.demo_built _ (by decide), by decide⟩

/-- Subtracting a union-built selection from a carved one is exact. -/
theorem C53_carved_partial (dbg : Bool) (a b : Selection α) (ha : a.Carved) (hb : b.UnionBuilt) :
    ∃ s, a.minus dbg b = .ok s ∧ s.Carved ∧ s.pts dbg = a.pts dbg \ b.pts dbg := by
  obtain ⟨va, hn⟩ := ha.valid_noHole
  have vb := Selection.reachable_valid hb.reachable
  obtain ⟨s, e, v, -, c⟩ := Selection.minus_ok dbg va hn vb hb.do
  refine ⟨s, e, .minus ha hb e, ?_⟩
  ext x
  rw [Set.mem_sdiff, Selection.mem_pts dbg v, Selection.mem_pts dbg va, Selection.mem_pts dbg vb,
    at', c, Bool.and_eq_true, Bool.not_eq_true', Bool.not_eq_true]

example : (Selection.demo [(u8 2, u8 9)]).Carved := by
  have : Selection.demo [(u8 2, u8 9)] = .ofInterval (Interval.mkClosed (u8 2) (u8 9)) := by decide
  rw [this]; exact .ofInterval (.mkClosed _ _)
example : Selection.minus true (Selection.demo [(u8 2, u8 9)])
    (Selection.demo [(u8 0, u8 3), (u8 5, u8 6)]) >>= (Selection.intervals true ·) =
      .ok [Interval.point (u8 4), Interval.mkClosed (u8 7) (u8 9)] := by decide

/-- `{2,4}` without `[4,10]` contains 3. -/
theorem C53_counterexample :
    ∃ a b s : Selection U8, a.UnionBuilt ∧ b.UnionBuilt ∧ a.minus true b = .ok s ∧
      u8 3 ∉ a.pts true ∧ u8 3 ∈ s.pts true :=
  ⟨Selection.demo [(u8 2, u8 2), (u8 4, u8 4)], Selection.demo [(u8 4, u8 10)],
    ⟨[.lower (.excl (u8 1)), .upper (.incl (u8 3))]⟩, Selection.demo_built _ (by decide),
    Selection.demo_built _ (by decide), by decide,
    fun h => absurd (show Selection.contains true _ _ = .ok true from h) (by decide),
    show Selection.contains true _ _ = .ok true by decide⟩

end NI
