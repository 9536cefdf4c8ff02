import Verif.SpecWithin
import Verif.Props.Calendar
import Verif.Props.Lattice
import Verif.Props.Strong
import Verif.Props.Algebra
import Verif.Props.WalkAny

/-! # Asking whether one selection, or one interval, lies within another (C127) -/

namespace NI
open _root_.NI.Finite TT
variable {α : Type} [LinearOrder α] [Finite α] [LawfulFinite α]

/-- `a.union(&b) == b`: for selections of any history, true only if `a` lies within `b`; exact for those built by
unions. -/
theorem C127_union (dbg : Bool) (a b : Selection α) (ha : a.Reachable) (hb : b.Reachable) :
    ∃ r, a.withinByUnion dbg b = .ok r ∧ (r = true → a.pts dbg ⊆ b.pts dbg) ∧
      (a.UnionBuilt → b.UnionBuilt → a.pts dbg ⊆ b.pts dbg → r = true) := by
  obtain ⟨c, e, -, h⟩ := Selection.union_right dbg a b ha hb
  refine ⟨_, by rw [Selection.withinByUnion, e]; rfl, ?_, fun ua ub hs => ?_⟩
  · rw [decide_eq_true_eq]
    rintro rfl
    exact Set.union_eq_right.1 h.symm
  · rw [decide_eq_true_eq, C55_union_built_partial dbg c b (.union ua ub e) ub, h]
    exact Set.union_eq_right.2 hs

example : (Selection.demo [(u8 3, u8 5), (u8 8, u8 8)]).UnionBuilt ∧ (Selection.demo [(u8 3, u8 6), (u8 8, u8 9)]).UnionBuilt ∧
    Selection.withinByUnion true (Selection.demo [(u8 3, u8 5), (u8 8, u8 8)]) (Selection.demo [(u8 3, u8 6), (u8 8, u8 9)]) =
      .ok true ∧
    Selection.withinByUnion true (Selection.demo [(u8 3, u8 6), (u8 8, u8 9)]) (Selection.demo [(u8 3, u8 5), (u8 8, u8 8)]) =
      .ok false :=
  ⟨Selection.demo_built _ (by decide), Selection.demo_built _ (by decide), by decide, by decide⟩

/-- For other histories the answers may be false though `a` lies within `b`: 2 to 6 in the complement of the rest. -/
theorem C127_history_counterexample : ∃ a b : Selection U8, a.UnionBuilt ∧ b.Tidy ∧ a.pts true ⊆ b.pts true ∧
    a.withinByUnion true b = .ok false ∧ a.withinByComplement true b = .ok false ∧
    a.withinByIntersects true b = .ok false := by
  obtain ⟨b, e, -, hb⟩ := Selection.complement_right true (Selection.demo [(u8 0, u8 1), (u8 7, u8 255)])
    (Selection.demo_built _ (by decide)).reachable
  have eb : b = ⟨[.lower (.incl (u8 2)), .upper (.incl (u8 6))]⟩ := by
    have : Selection.complement true (Selection.demo [(u8 0, u8 1), (u8 7, u8 255)]) =
      .ok ⟨[.lower (.incl (u8 2)), .upper (.incl (u8 6))]⟩ := by decide
    rw [e] at this; exact Except.ok.inj this
  refine ⟨Selection.demo [(u8 2, u8 6)], b, Selection.demo_built _ (by decide),
    .inr ⟨true, _, Selection.demo_built _ (by decide), e⟩, ?_, ?_, ?_, ?_⟩
  · intro x hx
    rw [hb]
    intro h
    rw [Selection.demo_mem] at hx h
    obtain ⟨p, hp, h1, h2⟩ := hx
    obtain ⟨q, hq, h3, h4⟩ := h
    simp only [List.mem_cons, List.not_mem_nil, or_false] at hp hq
    subst hp
    rcases hq with rfl | rfl
    · exact absurd (h1.trans h4) (by decide)
    · exact absurd (h3.trans h2) (by decide)
  all_goals subst eb; decide

/-- `a.complement().union(&b).is_full()`, likewise. -/
theorem C127_complement (dbg : Bool) (a b : Selection α) (ha : a.Reachable) (hb : b.Reachable) :
    ∃ r, a.withinByComplement dbg b = .ok r ∧ (r = true → a.pts dbg ⊆ b.pts dbg) ∧
      (a.UnionBuilt → b.UnionBuilt → a.pts dbg ⊆ b.pts dbg → r = true) := by
  obtain ⟨n, en, rn, hn⟩ := Selection.complement_right dbg a ha
  obtain ⟨c, e, rc, h⟩ := Selection.union_right dbg n b rn hb
  refine ⟨_, by rw [Selection.withinByComplement, en]; simp only [bind, Except.bind]; rw [e]; rfl, fun k => ?_,
    fun ua ub hs => ?_⟩
  · have := (C54_sound_partial dbg c).2 k
    rw [h, hn] at this
    intro x hx
    rcases this.symm ▸ Set.mem_univ x with hx' | hx'
    exacts [absurd hx hx', hx']
  · have va := Selection.reachable_valid ha
    have vb := Selection.reachable_valid hb
    obtain ⟨c', e', v', k⟩ := Selection.steps_looks dbg va (cs := [.complement, .union b]) fun d hd => by
      simp only [List.mem_cons, List.not_mem_nil, or_false] at hd
      rcases hd with rfl | rfl
      exacts [trivial, ub]
    have : c' = c := by
      simp only [Selection.steps, List.foldlM, en, bind, Except.bind, e] at e'
      exact (Except.ok.inj e').symm
    subst this
    have : Nonempty α := ⟨minimum⟩
    have full : ∀ x, Looks c'.tree x ⟨True, True, True⟩ := fun x => by
      have l := k x _ (DO.looks ua.do x fun y => (Selection.mem_pts dbg va y).symm)
      simp only [Spot.steps, List.foldl, Spot.step, Spot.not, Spot.add, Spot.of] at l
      refine ⟨l.1.trans (iff_true_intro ?_), l.2.1.trans (iff_true_intro ?_), l.2.2.trans (iff_true_intro ?_)⟩
      · by_contra g
        rw [not_or, not_not] at g
        obtain ⟨g | ⟨p, g, gp⟩, g2⟩ := g
        exacts [g2 (.inl (hs g)), g2 (.inr ⟨p, hs g, gp⟩)]
      · by_contra g
        rw [not_or, not_not] at g
        exact g.2 (hs g.1)
      · by_contra g
        rw [not_or, not_not] at g
        obtain ⟨g | ⟨p, g, gp⟩, g2⟩ := g
        exacts [g2 (.inl (hs g)), g2 (.inr ⟨p, hs g, gp⟩)]
    have ufull : (Selection.full : Selection α).UnionBuilt := .full
    have vfull := Selection.reachable_valid ufull.reachable
    have lf : ∀ x, Looks (Selection.full : Selection α).tree x ⟨True, True, True⟩ := fun x => by
      have := DO.looks ufull.do x (X := Set.univ) fun y => by
        rw [← Selection.mem_pts dbg vfull, (C48_start dbg .empty .empty).2.1]
      simpa [Spot.of] using this
    rw [Selection.isFull_iff]
    have : c'.tree = (Selection.full : Selection α).tree := by
      refine valid_ext_views v' vfull (fun x => ?_) (fun x => ?_) (fun x => ?_) <;> rw [Bool.eq_iff_iff]
      exacts [(full x).2.1.trans (lf x).2.1.symm, (full x).1.trans (lf x).1.symm, (full x).2.2.trans (lf x).2.2.symm]
    cases c'; exact congrArg Selection.mk this

example : (Selection.demo [(u8 3, u8 5), (u8 8, u8 8)]).UnionBuilt ∧ (Selection.demo [(u8 3, u8 6), (u8 8, u8 9)]).UnionBuilt ∧
    Selection.withinByComplement true (Selection.demo [(u8 3, u8 5), (u8 8, u8 8)])
      (Selection.demo [(u8 3, u8 6), (u8 8, u8 9)]) = .ok true ∧
    Selection.withinByComplement true (Selection.demo [(u8 3, u8 6), (u8 8, u8 9)])
      (Selection.demo [(u8 3, u8 5), (u8 8, u8 8)]) = .ok false :=
  ⟨Selection.demo_built _ (by decide), Selection.demo_built _ (by decide), by decide, by decide⟩

/-- `a.minus(&b).is_empty()` for selections built by unions: true exactly if `a` lies within `b` and each value that `a`
misses alone is in `b`, too. -/
theorem C127_minus (dbg : Bool) (a b : Selection α) (ha : a.UnionBuilt) (hb : b.UnionBuilt) :
    ∃ r, a.withinByMinus dbg b = .ok r ∧ (r = true ↔ a.pts dbg ⊆ b.pts dbg ∧
      ∀ p x q, p ∈ a.pts dbg → q ∈ a.pts dbg → succ p = some x → succ x = some q → x ∈ b.pts dbg) := by
  have va := Selection.reachable_valid ha.reachable
  obtain ⟨s', e, v', k⟩ := Selection.step_looks dbg va (c := .minus b) hb
  have e' : a.minus dbg b = .ok s' := by simpa [Selection.steps] using e
  refine ⟨_, by rw [Selection.withinByMinus, e']; rfl, ?_⟩
  have l1 := fun x => k x _ (DO.looks ha.do x fun y => (Selection.mem_pts dbg va y).symm)
  simp only [Spot.step] at l1
  have un : (Selection.new : Selection α).UnionBuilt := .new
  have vn := Selection.reachable_valid un.reachable
  have ln : ∀ x, Looks (Selection.new : Selection α).tree x ⟨False, False, False⟩ := fun x => by
    have := DO.looks un.do x (X := ∅) fun y => by
      rw [← Selection.mem_pts dbg vn, (C48_start dbg .empty .empty).1]
    simpa [Spot.of] using this
  rw [Selection.isEmpty_iff]
  constructor
  · rintro rfl
    have key : ∀ x, ¬ ((Spot.of (a.pts dbg) x).remove (Spot.of (b.pts dbg) x)).here := fun x h =>
      (ln x).2.1.1 ((l1 x).2.1.2 h)
    have sub : a.pts dbg ⊆ b.pts dbg := fun x hx => by
      by_contra g
      exact key x ⟨g, .inl hx⟩
    refine ⟨sub, fun p x q hp hq e1 e2 => ?_⟩
    by_contra g
    exact key x ⟨g, .inr ⟨.inr ⟨p, hp, pred_eq_iff.2 e1⟩, .inr ⟨q, hq, e2⟩,
      .inl (.inr ⟨p, sub hp, pred_eq_iff.2 e1⟩)⟩⟩
  · rintro ⟨sub, gap⟩
    have : Nonempty α := ⟨minimum⟩
    have bf : ∀ x, (Spot.of (a.pts dbg) x).before → (Spot.of (b.pts dbg) x).before := by
      rintro x (h | ⟨p, h, hp⟩)
      exacts [.inl (sub h), .inr ⟨p, sub h, hp⟩]
    have af : ∀ x, (Spot.of (a.pts dbg) x).after → (Spot.of (b.pts dbg) x).after := by
      rintro x (h | ⟨p, h, hp⟩)
      exacts [.inl (sub h), .inr ⟨p, sub h, hp⟩]
    have : s'.tree = (Selection.new : Selection α).tree := by
      refine valid_ext_views v' vn (fun x => ?_) (fun x => ?_) (fun x => ?_) <;> rw [Bool.eq_iff_iff]
      · refine ((l1 x).2.1.trans (iff_false_intro ?_)).trans (ln x).2.1.symm
        rintro ⟨g, h | ⟨h1, h2, -⟩⟩
        · exact g (sub h)
        · rcases h1 with h1 | ⟨p, h1, e1⟩
          · exact g (sub h1)
          rcases h2 with h2 | ⟨q, h2, e2⟩
          · exact g (sub h2)
          exact g (gap p x q h1 h2 (pred_eq_iff.1 e1) e2)
      · exact ((l1 x).1.trans (iff_false_intro fun h => h.2 (bf x h.1))).trans (ln x).1.symm
      · exact ((l1 x).2.2.trans (iff_false_intro fun h => h.2 (af x h.1))).trans (ln x).2.2.symm
    cases s'; exact congrArg Selection.mk this

/-- 2 and 4 in 2 and 4: `a.minus(&a)` is not empty. -/
example : (Selection.demo [(u8 2, u8 2), (u8 4, u8 4)]).UnionBuilt ∧
    Selection.withinByMinus true (Selection.demo [(u8 2, u8 2), (u8 4, u8 4)])
      (Selection.demo [(u8 2, u8 2), (u8 4, u8 4)]) = .ok false ∧
    Selection.withinByMinus true (Selection.demo [(u8 2, u8 2), (u8 4, u8 4)]) (Selection.demo [(u8 2, u8 4)]) = .ok true ∧
    Selection.withinByMinus true (Selection.demo [(u8 2, u8 2), (u8 5, u8 5)])
      (Selection.demo [(u8 2, u8 2), (u8 5, u8 5)]) = .ok true :=
  ⟨Selection.demo_built _ (by decide), by decide, by decide, by decide⟩

/-- Each interval that `minus` lists has a value. -/
theorem Interval.minus_piece {a b : Interval α} (ha : a.Obtainable) (hb : b.Obtainable) {r : RawInterval α}
    (hr : r ∈ a.raw.minus b.raw) : ∃ x, r.contains x = true := by
  have key : ∀ k : RawInterval α, (k = .full ∨ (∃ q, k = .upTo q) ∨ ∃ q, k = .upFrom q) →
      a.raw.intersects k = true → ∃ x, (a.raw.intersect k).contains x = true := by
    intro k hk he
    simp only [RawInterval.intersect_contains]
    rcases Interval.incl_bounds ha with rfl | ⟨l, u, h1, h2, -, -, -, h3⟩
    · rw [RawInterval.intersects, RawInterval.intersect_empty_left] at he; cases he
    rcases hk with rfl | ⟨q, rfl⟩ | ⟨q, rfl⟩ <;> rw [RawInterval.intersect_isEmpty h1 h2 rfl rfl] at he
    · exact ⟨l, (h3 l).2 ⟨le_rfl, he.1.1⟩, rfl⟩
    · exact ⟨l, (h3 l).2 ⟨le_rfl, he.1.1⟩, by simpa [RawInterval.contains, Bound.Compat] using he.2.1⟩
    · exact ⟨u, (h3 u).2 ⟨he.1.1, le_rfl⟩, by simpa [RawInterval.contains, Bound.Compat] using he.2.2⟩
  rw [RawInterval.minus, List.mem_filter, List.mem_map] at hr
  obtain ⟨⟨k, hk, rfl⟩, he⟩ := hr
  refine key k ?_ he
  rcases Interval.obtainable_cases hb with rfl | ⟨p, rfl⟩ | ⟨l, u, rfl, -⟩ <;>
    simp only [RawInterval.complement, List.mem_cons, List.not_mem_nil, or_false] at hk
  · exact .inl hk
  · rcases hk with rfl | rfl
    exacts [.inr (.inl ⟨_, rfl⟩), .inr (.inr ⟨_, rfl⟩)]
  · rcases hk with rfl | rfl
    exacts [.inr (.inl ⟨_, rfl⟩), .inr (.inr ⟨_, rfl⟩)]

/-- Intervals: nothing is left by `a.minus(&b)` exactly if `a` lies within `b`; `a.intersect(&b) == a` and
`a.enclose(&b) == b` say that only for intervals in the form in which `intersect` and `enclose` leave them. -/
theorem C127_interval (a b : Interval α) (ha : a.Obtainable) (hb : b.Obtainable) :
    (a.minus b = [] ↔ a.pts ⊆ b.pts) ∧
    (a.intersect b = a ↔ a.pts ⊆ b.pts ∧ a.intersect a = a) ∧
    (a.Real → b.Real → (a.enclose b = b ↔ a.pts ⊆ b.pts ∧ b.enclose b = b)) := by
  have hM := fun x => (C27_set_operations a b x).2.1
  have hI : ∀ a b : Interval α, (a.intersect b).pts = a.pts ∩ b.pts := Interval.pts_intersect
  refine ⟨⟨fun h x hx => ?_, fun h => ?_⟩, ⟨fun h => ⟨?_, ?_⟩, fun h => ?_⟩, fun ra rb => ⟨fun h => ⟨?_, ?_⟩, fun h => ?_⟩⟩
  · by_contra g
    obtain ⟨c, hc, -⟩ := (hM x).2 ⟨hx, by rw [← Bool.not_eq_true]; exact g⟩
    rw [h] at hc; cases hc
  · rw [Interval.minus, List.map_eq_nil_iff, List.eq_nil_iff_forall_not_mem]
    intro r hr
    obtain ⟨x, hx⟩ := Interval.minus_piece ha hb hr
    rw [RawInterval.minus, List.mem_filter, List.mem_map] at hr
    have hm : ∃ c ∈ a.minus b, c.contains x = true := by
      refine ⟨⟨r.normalized⟩, List.mem_map.2 ⟨r, ?_, rfl⟩, ?_⟩
      · rw [RawInterval.minus, List.mem_filter, List.mem_map]; exact hr
      · have : x ∈ (r.normalized).pts := by
          rw [RawInterval.normalized_pts]; exact (RawInterval.contains_iff r x).1 hx
        exact (RawInterval.contains_iff _ x).2 this
    have := (hM x).1 hm
    have k : b.contains x = true := h this.1
    rw [k] at this; cases this.2
  · exact Set.inter_eq_left.1 ((hI a b).symm.trans (by rw [h]))
  · rw [← h]; exact (C110_interval_iff a b ha hb).2.2.2.1
  · refine Eq.trans ?_ h.2
    refine Interval.tight_ext (Interval.tight_intersect ha hb) (Interval.tight_intersect ha ha) fun x => ?_
    rw [Bool.eq_iff_iff]
    show x ∈ (a.intersect b).pts ↔ x ∈ (a.intersect a).pts
    rw [hI, hI, Set.inter_eq_left.2 h.1, Set.inter_self]
  · have := (C30_enclose_partial a b ha hb).1.1
    rwa [h] at this
  · have := (C110_interval_iff a b ha hb).2.2.2.2
    rw [h] at this
    exact ((C110_interval_iff b b hb hb).1).1 this
  · have o : (a.enclose b).Obtainable := .enclose ha hb
    have g1 := (C110_interval_iff a b ha hb).2.2.2.2
    have g2 := ((C110_interval_iff b b hb hb).1).2 h.2
    refine g1.symm.trans (Eq.trans ?_ g2)
    refine Interval.tight_ext (Interval.tight_intersect o o) (Interval.tight_intersect hb hb) fun x => ?_
    rw [Bool.eq_iff_iff]
    show x ∈ ((a.enclose b).intersect (a.enclose b)).pts ↔ x ∈ (b.intersect b).pts
    rw [hI, hI, Set.inter_self, Set.inter_self]
    have k := C30_enclose_partial a b ha hb
    exact ⟨fun hx => k.2.1 ra rb b h.1 le_rfl hx, fun hx => k.1.2 hx⟩

/-- 3 alone, made by `open(2, 4)`, is not what it is after `intersect` with 0 to 9. -/
example : (Interval.mkOpen (u8 2) (u8 4)).Obtainable ∧ (Interval.mkClosed (u8 0) (u8 9)).Obtainable ∧
    (Interval.mkOpen (u8 2) (u8 4)).minus (.mkClosed (u8 0) (u8 9)) = [] ∧
    (Interval.mkOpen (u8 2) (u8 4)).intersect (.mkClosed (u8 0) (u8 9)) ≠ .mkOpen (u8 2) (u8 4) ∧
    (Interval.mkOpen (u8 2) (u8 4)).enclose (.mkClosed (u8 0) (u8 9)) = .mkClosed (u8 0) (u8 9) ∧
    (Interval.mkOpen (u8 2) (u8 5)).intersect (.mkClosed (u8 0) (u8 9)) = .mkOpen (u8 2) (u8 5) :=
  ⟨.mkOpen _ _, .mkClosed _ _, by decide, by decide, by decide, by decide⟩

/-- Each listed interval lies within one of those of a selection that lists the longest ones. -/
theorem Selection.run_within (dbg : Bool) {a b : Selection α} (sa : a.Solid) (tb : b.Tidy) {as bs : List (Interval α)}
    (e1 : a.intervals dbg = .ok as) (e2 : b.intervals dbg = .ok bs) (h : a.pts dbg ⊆ b.pts dbg) {i : Interval α}
    (hi : i ∈ as) : ∃ j ∈ bs, i.pts ⊆ j.pts := by
  obtain ⟨as', e1', -, -, c1⟩ := C56_cover_partial dbg a sa.reachable
  obtain ⟨bs', e2', -, -, c2⟩ := C56_cover_partial dbg b tb.reachable
  rw [e1] at e1'; cases e1'
  rw [e2] at e2'; cases e2'
  obtain ⟨l, u, hlu, hp, -⟩ := C56_nonempty_partial dbg a sa as e1 i hi
  have mem : ∀ z, l ≤ z → z ≤ u → z ∈ b.pts dbg := fun z g1 g2 => h ((c1 z).2 ⟨i, hi, hp ▸ ⟨g1, g2⟩⟩)
  obtain ⟨j, hj, hl⟩ := (c2 l).1 (mem l le_rfl hlu)
  obtain ⟨l', u', -, hp', -, hmax⟩ := C56_maximal_partial dbg b tb bs e2 j hj
  refine ⟨j, hj, ?_⟩
  rw [hp'] at hl ⊢
  rw [hp]
  rintro x ⟨g1, g2⟩
  refine ⟨hl.1.trans g1, g2.trans ?_⟩
  by_contra g
  rw [not_le] at g
  cases hq : succ u' with
  | none => exact absurd ((LawfulFinite.succ_none u').1 hq ▸ g) (not_lt.2 (LawfulFinite.le_max u))
  | some q =>
    exact hmax q hq (mem q (hl.2.trans (LawfulFinite.succ_some u' q hq).1.le) ((LawfulFinite.succ_some u' q hq).2 u g))

/-- Interval by interval, with `i.minus(&j)`: true only if `a` lies within `b`, and exact unless `b` is neither built by
unions nor the complement of such. -/
theorem C127_intervals (dbg : Bool) (a b : Selection α) (ha : a.Reachable) (hb : b.Reachable) :
    ∃ r, a.withinByIntervals dbg b = .ok r ∧ (r = true → a.pts dbg ⊆ b.pts dbg) ∧
      (a.Solid → b.Tidy → a.pts dbg ⊆ b.pts dbg → r = true) := by
  obtain ⟨as, e1, o1, -, c1⟩ := C56_cover_partial dbg a ha
  obtain ⟨bs, e2, o2, -, c2⟩ := C56_cover_partial dbg b hb
  refine ⟨_, by rw [Selection.withinByIntervals, e1, e2]; rfl, fun h x hx => ?_, fun sa tb h => ?_⟩
  · obtain ⟨i, hi, hxi⟩ := (c1 x).1 hx
    obtain ⟨j, hj, hm⟩ := List.any_eq_true.1 (List.all_eq_true.1 h i hi)
    exact (c2 x).2 ⟨j, hj, (C127_interval i j (o1 i hi) (o2 j hj)).1.1 (List.isEmpty_iff.1 hm) hxi⟩
  · rw [List.all_eq_true]
    intro i hi
    rw [List.any_eq_true]
    obtain ⟨j, hj, hs⟩ := Selection.run_within dbg sa tb e1 e2 h hi
    exact ⟨j, hj, List.isEmpty_iff.2 ((C127_interval i j (o1 i hi) (o2 j hj)).1.2 hs)⟩

example : (Selection.demo [(u8 3, u8 5), (u8 8, u8 8)]).Solid ∧ (Selection.demo [(u8 3, u8 6), (u8 8, u8 9)]).Tidy ∧
    Selection.withinByIntervals true (Selection.demo [(u8 3, u8 5), (u8 8, u8 8)])
      (Selection.demo [(u8 3, u8 6), (u8 8, u8 9)]) = .ok true ∧
    Selection.withinByIntervals true (Selection.demo [(u8 3, u8 6), (u8 8, u8 9)])
      (Selection.demo [(u8 3, u8 5), (u8 8, u8 8)]) = .ok false :=
  ⟨.tidy (.inl (Selection.demo_built _ (by decide))), .inl (Selection.demo_built _ (by decide)), by decide, by decide⟩

/-- The union of 2 to 3 and 4 to 5, each left by `complement`, lists them apart: 2 to 5 lies within it, but in no listed
interval. -/
theorem C127_intervals_counterexample : ∃ a b : Selection U8, a.UnionBuilt ∧ b.Solid ∧ a.pts true ⊆ b.pts true ∧
    a.withinByIntervals true b = .ok false := by
  have u1 : (Selection.demo [(u8 0, u8 1), (u8 4, u8 255)]).UnionBuilt := Selection.demo_built _ (by decide)
  have u2 : (Selection.demo [(u8 0, u8 3), (u8 6, u8 255)]).UnionBuilt := Selection.demo_built _ (by decide)
  obtain ⟨c, ec, rc, hc⟩ := Selection.complement_right true _ u1.reachable
  obtain ⟨d, ed, rd, hd⟩ := Selection.complement_right true _ u2.reachable
  obtain ⟨b, eb, -, hb⟩ := Selection.union_right true c d rc rd
  have e : b = ⟨[.lower (.incl (u8 2)), .upper (.incl (u8 3)), .lower (.incl (u8 4)), .upper (.incl (u8 5))]⟩ := by
    have h : ((Selection.demo [(u8 0, u8 1), (u8 4, u8 255)]).complement true >>= fun c =>
        (Selection.demo [(u8 0, u8 3), (u8 6, u8 255)]).complement true >>= fun d => c.union true d) =
      .ok ⟨[.lower (.incl (u8 2)), .upper (.incl (u8 3)), .lower (.incl (u8 4)), .upper (.incl (u8 5))]⟩ := by decide
    rw [ec, ed] at h
    simp only [bind, Except.bind] at h
    rw [eb] at h
    exact Except.ok.inj h
  refine ⟨Selection.demo [(u8 2, u8 5)], b, Selection.demo_built _ (by decide),
    .union (.tidy (.inr ⟨true, _, u1, ec⟩)) (.tidy (.inr ⟨true, _, u2, ed⟩)) eb, fun x hx => ?_, by subst e; decide⟩
  rw [hb, hc, hd, ← Set.compl_inter]
  rintro ⟨h, h'⟩
  rw [Selection.demo_mem] at hx h h'
  obtain ⟨p, hp, h1, h2⟩ := hx
  obtain ⟨q, hq, h3, h4⟩ := h
  obtain ⟨r, hr, h5, h6⟩ := h'
  simp only [List.mem_cons, List.not_mem_nil, or_false] at hp hq hr
  subst hp
  rcases hq with rfl | rfl <;> rcases hr with rfl | rfl
  exacts [absurd (h1.trans h4) (by decide), absurd (h1.trans h4) (by decide), absurd (h3.trans h6) (by decide),
    absurd (h5.trans h2) (by decide)]

/-- Interval by interval, with `i.intersect(&j) == i`: for selections built by unions, true exactly if `a` lies within
`b` and has no value alone. -/
theorem C127_overlaps (dbg : Bool) (a b : Selection α) (ha : a.UnionBuilt) (hb : b.UnionBuilt) :
    ∃ r, a.withinByOverlaps dbg b = .ok r ∧ (r = true ↔ a.pts dbg ⊆ b.pts dbg ∧
      ∀ x ∈ a.pts dbg, ∃ y ∈ a.pts dbg, succ x = some y ∨ succ y = some x) := by
  have va := Selection.reachable_valid ha.reachable
  obtain ⟨as, e1, o1, -, c1⟩ := C56_cover_partial dbg a ha.reachable
  obtain ⟨bs, e2, o2, -, c2⟩ := C56_cover_partial dbg b hb.reachable
  refine ⟨_, by rw [Selection.withinByOverlaps, e1, e2]; rfl, ?_⟩
  have hrun := fun i hi => C56_maximal_partial dbg a (.inl ha) as e1 i hi
  have hidem : ∀ i ∈ as, (i.intersect i = i ↔ ∃ l u, l < u ∧ i.pts = Set.Icc l u) := by
    intro i hi
    obtain ⟨l, u, hlu, hp, -⟩ := hrun i hi
    have hi' := hi
    rw [Selection.intervals_eq dbg va, Except.ok.injEq] at e1
    rw [← e1] at hi'
    obtain ⟨r, hr, rfl⟩ := List.mem_map.1 hi'
    have ho := ha.do.open va hr
    obtain ⟨l', u', hraw⟩ : ∃ l' u', Selection.run r = ⟨.closed l' u'⟩ := by
      rcases Interval.obtainable_cases (o1 _ hi) with h | ⟨p, h⟩ | ⟨l', u', h, -⟩
      · rw [h] at hp
        have : l ∈ (⟨.empty⟩ : Interval α).pts := by rw [hp]; exact ⟨le_rfl, hlu⟩
        exact absurd this (by simp [Interval.pts, Interval.contains, RawInterval.contains])
      · exfalso
        have : r.normalized = .point p := congrArg Interval.raw h
        rcases ho.cases with rfl | ⟨c, d, rfl⟩ | ⟨c, rfl⟩ | ⟨d, rfl⟩ | rfl <;> simp only [RawInterval.normalized] at this
        · cases this
        · cases hc : succ c <;> cases hd : pred d <;> rw [hc, hd] at this <;> cases this
        · cases hc : succ c <;> rw [hc] at this <;> cases this
        · cases hd : pred d <;> rw [hd] at this <;> cases this
        · cases this
      · exact ⟨l', u', h⟩
    rw [hraw] at hp ⊢
    have hm : ∀ x, x ∈ (⟨.closed l' u'⟩ : Interval α).pts ↔ l' ≤ x ∧ x ≤ u' := fun x => by
      simp [Interval.pts, Interval.contains, RawInterval.contains]
    have hlu' : l' ≤ u' := by
      have := (hm l).1 (by rw [hp]; exact ⟨le_rfl, hlu⟩)
      exact this.1.trans this.2
    rcases hlu'.lt_or_eq with g | rfl
    · refine iff_of_true ?_ ⟨l', u', g, Set.ext hm⟩
      have := (C112_raw (RawInterval.closed l' u') g).1
      rw [Interval.intersect, this]; rfl
    · refine iff_of_false ?_ ?_
      · simp [Interval.intersect, RawInterval.intersect, RawInterval.lowerBound, RawInterval.upperBound,
          Bound.greatestIntersect, Bound.leastIntersect, Bound.asRef, Bound.isInclusive, Bound.isExclusive,
          RawInterval.new, RawInterval.mkClosed, Interval.ofRaw, RawInterval.normalized]
      · rintro ⟨l2, u2, g, h⟩
        have h1 := (hm l2).1 (by rw [h]; exact ⟨le_rfl, g.le⟩)
        have h2 := (hm u2).1 (by rw [h]; exact ⟨g.le, le_rfl⟩)
        exact absurd (h2.2.trans h1.1) (not_le.2 g)
  rw [List.all_eq_true]
  simp only [List.any_eq_true, decide_eq_true_eq]
  constructor
  · intro h
    refine ⟨fun x hx => ?_, fun x hx => ?_⟩ <;> obtain ⟨i, hi, hxi⟩ := (c1 x).1 hx <;> obtain ⟨j, hj, hm⟩ := h i hi <;>
      have hs := (C127_interval i j (o1 i hi) (o2 j hj)).2.1.1 hm
    · exact (c2 x).2 ⟨j, hj, hs.1 hxi⟩
    · obtain ⟨l, u, hlu, hp⟩ := (hidem i hi).1 hs.2
      rw [hp] at hxi
      rcases hxi.2.lt_or_eq with g | rfl
      · cases hq : succ x with
        | none => exact absurd ((LawfulFinite.succ_none x).1 hq ▸ g) (not_lt.2 (LawfulFinite.le_max u))
        | some q =>
          have := LawfulFinite.succ_some x q hq
          exact ⟨q, (c1 q).2 ⟨i, hi, hp ▸ ⟨hxi.1.trans this.1.le, this.2 u g⟩⟩, .inl rfl⟩
      · cases hq : pred x with
        | none => exact absurd ((LawfulFinite.pred_none x).1 hq ▸ hlu) (not_lt.2 (LawfulFinite.min_le l))
        | some q =>
          have := LawfulFinite.pred_some x q hq
          exact ⟨q, (c1 q).2 ⟨i, hi, hp ▸ ⟨this.2 l hlu, this.1.le⟩⟩, .inr (pred_eq_iff.1 hq)⟩
  · rintro ⟨h, alone⟩ i hi
    obtain ⟨j, hj, hs⟩ := Selection.run_within dbg (.tidy (.inl ha)) (.inl hb) e1 e2 h hi
    refine ⟨j, hj, (C127_interval i j (o1 i hi) (o2 j hj)).2.1.2 ⟨hs, (hidem i hi).2 ?_⟩⟩
    obtain ⟨l, u, hlu, hp, h1, h2⟩ := hrun i hi
    refine ⟨l, u, lt_of_le_of_ne hlu ?_, hp⟩
    rintro rfl
    obtain ⟨y, hy, g | g⟩ := alone l ((c1 l).2 ⟨i, hi, hp ▸ ⟨le_rfl, le_rfl⟩⟩)
    exacts [h2 y g hy, h1 y (pred_eq_iff.2 g) hy]

example : (Selection.demo [(u8 3, u8 5), (u8 8, u8 8)]).UnionBuilt ∧ (Selection.demo [(u8 3, u8 6), (u8 8, u8 9)]).UnionBuilt ∧
    Selection.withinByOverlaps true (Selection.demo [(u8 3, u8 5)]) (Selection.demo [(u8 3, u8 6), (u8 8, u8 9)]) =
      .ok true ∧
    Selection.withinByOverlaps true (Selection.demo [(u8 3, u8 5), (u8 8, u8 8)])
      (Selection.demo [(u8 3, u8 6), (u8 8, u8 9)]) = .ok false :=
  ⟨Selection.demo_built _ (by decide), Selection.demo_built _ (by decide), by decide, by decide⟩

/-- If `a.union(&b) == b` then `!a.intersects(&b.complement())`.  Missing from the full property: that the answer is
true only if `a` lies within `b`; false, see `C127_intersects_counterexample`. -/
theorem C127_intersects_partial (dbg : Bool) (a b : Selection α) (ha : a.Reachable) (hb : b.Reachable) :
    ∃ r, a.withinByIntersects dbg b = .ok r ∧ (a.withinByUnion dbg b = .ok true → r = true) := by
  have va := Selection.reachable_valid ha
  have vb := Selection.reachable_valid hb
  obtain ⟨n, en, vn, hn⟩ := Selection.complement_ok dbg vb
  have rn : n.Reachable := .complement hb en
  obtain ⟨-, r, er, hr⟩ := C52_formula_any dbg a n ha rn _ _ (TT.intervals_eq dbg va) (TT.intervals_eq dbg vn)
  refine ⟨!r, by rw [Selection.withinByIntersects, en]; simp only [bind, Except.bind]; rw [er]; rfl, fun h => ?_⟩
  obtain ⟨u, eu, -, hu⟩ := Selection.union_ok dbg va vb
  have : u = b := by
    rw [Selection.withinByUnion, eu] at h
    simpa [bind, Except.bind, pure, Except.pure] using h
  subst this
  rw [Bool.not_eq_true', ← Bool.not_eq_true, hr]
  rintro ⟨i, j, ht, hm⟩
  have wi := ((pieces_wf va.1).1 i ht.mem.1).1
  have wj := ((pieces_wf vn.1).1 j ht.mem.2).1
  have ne : i.intersect j ≠ .empty := fun h => by
    rw [RawInterval.intersects, h] at hm; cases hm
  obtain ⟨aft, k, hr, hk⟩ := icov_some_real ne (RawInterval.intersect_wf i j)
  rw [icov_intersect wi wj hr, Bool.and_eq_true] at hk
  have h1 : tcov a.tree aft k = true := by
    rw [tcov, ← (pieces_cov aft k va.1).1 va.2, List.any_eq_true]; exact ⟨i, ht.mem.1, hk.1⟩
  have h2 : tcov n.tree aft k = true := by
    rw [tcov, ← (pieces_cov aft k vn.1).1 vn.2, List.any_eq_true]; exact ⟨j, ht.mem.2, hk.2⟩
  rw [hn _ _ hr, hu, h1] at h2
  cases h2

example : (Selection.demo [(u8 3, u8 5), (u8 8, u8 8)]).Reachable ∧ (Selection.demo [(u8 3, u8 6), (u8 8, u8 9)]).Reachable ∧
    Selection.withinByUnion true (Selection.demo [(u8 3, u8 5), (u8 8, u8 8)]) (Selection.demo [(u8 3, u8 6), (u8 8, u8 9)]) =
      .ok true ∧
    Selection.withinByIntersects true (Selection.demo [(u8 3, u8 5), (u8 8, u8 8)])
      (Selection.demo [(u8 3, u8 6), (u8 8, u8 9)]) = .ok true :=
  ⟨(Selection.demo_built _ (by decide)).reachable, (Selection.demo_built _ (by decide)).reachable, by decide, by decide⟩

/-- `!a.intersects(&b.complement())` is true of 0 and 2 in 0. -/
theorem C127_intersects_counterexample : ∃ a b : Selection U8, a.UnionBuilt ∧ b.UnionBuilt ∧
    a.withinByIntersects true b = .ok true ∧ ¬ a.pts true ⊆ b.pts true :=
  ⟨Selection.demo [(u8 0, u8 0), (u8 2, u8 2)], Selection.demo [(u8 0, u8 0)], Selection.demo_built _ (by decide),
    Selection.demo_built _ (by decide), by decide, fun h =>
      absurd (show Selection.contains true _ _ = .ok true from
        h (show u8 2 ∈ (Selection.demo [(u8 0, u8 0), (u8 2, u8 2)]).pts true from
          (by decide : Selection.contains true (Selection.demo [(u8 0, u8 0), (u8 2, u8 2)]) (u8 2) = .ok true)))
        (by decide)⟩

end NI
