import Verif.Props.Piecewise
import Verif.Props.Agree
import Verif.Props.Pinhole

/-!
# C113 for selections

Selections are made by unions here, so that the intervals they list are the runs of values.  Lists of intervals
are compared by the values of each, in order, as in C105.
-/

set_option linter.unusedSectionVars false

namespace NI
open _root_.NI.Finite TT

section
variable {α : Type} [LinearOrder α] [Finite α] [LawfulFinite α]

/-- A piece of a selection made by unions is a denormalized interval with a least and a greatest value. -/
theorem OpenIv.denorm {r : RawInterval α} (ho : OpenIv r) (hx : ∃ x, r.contains x = true) :
    ∃ l u, l ≤ u ∧ r = (RawInterval.closed l u).denormalized ∧ (Selection.run r).raw = .closed l u := by
  obtain ⟨x, hx⟩ := hx
  have up : ∀ a, a < x → ∃ l, succ a = some l ∧ pred l = some a ∧ l ≤ x := by
    intro a ha
    cases e : succ a with
    | none => exact absurd ha (not_lt.2 (not_gt_of_succ e x))
    | some l =>
      have h1 := LawfulFinite.succ_some _ _ e
      refine ⟨l, rfl, ?_, h1.2 x ha⟩
      cases e2 : pred l with
      | none => exact absurd h1.1 (not_lt.2 (not_lt_of_pred e2 a))
      | some a' =>
        have h2 := LawfulFinite.pred_some _ _ e2
        have h3 := h2.2 a h1.1
        rcases lt_or_eq_of_le h3 with h | h
        · exact absurd (h1.2 a' h) (not_le.2 h2.1)
        · rw [h]
  have down : ∀ b, x < b → ∃ u, pred b = some u ∧ succ u = some b ∧ x ≤ u := by
    intro b hb
    cases e : pred b with
    | none => exact absurd hb (not_lt.2 (not_lt_of_pred e x))
    | some u =>
      have h1 := LawfulFinite.pred_some _ _ e
      refine ⟨u, rfl, ?_, h1.2 x hb⟩
      cases e2 : succ u with
      | none => exact absurd h1.1 (not_lt.2 (not_gt_of_succ e2 b))
      | some b' =>
        have h2 := LawfulFinite.succ_some _ _ e2
        have h3 := h2.2 b h1.1
        rcases lt_or_eq_of_le h3 with h | h
        · exact absurd (h1.2 b' h) (not_le.2 h2.1)
        · rw [h]
  have pm : pred (minimum : α) = none := (LawfulFinite.pred_none _).2 rfl
  have sm : succ (maximum : α) = none := (LawfulFinite.succ_none _).2 rfl
  rcases ho.cases with rfl | ⟨a, b, rfl⟩ | ⟨a, rfl⟩ | ⟨b, rfl⟩ | rfl
  · cases hx
  · simp only [RawInterval.contains, Bool.and_eq_true, decide_eq_true_eq] at hx
    obtain ⟨l, h1, h2, h3⟩ := up a hx.1
    obtain ⟨u, h4, h5, h6⟩ := down b hx.2
    exact ⟨l, u, h3.trans h6, by simp [RawInterval.denormalized, h2, h5],
      by simp [Selection.run, RawInterval.normalized, h1, h4]⟩
  · simp only [RawInterval.contains, decide_eq_true_eq] at hx
    obtain ⟨l, h1, h2, h3⟩ := up a hx
    exact ⟨l, maximum, le_maximum l, by simp [RawInterval.denormalized, h2, sm],
      by simp [Selection.run, RawInterval.normalized, h1]⟩
  · simp only [RawInterval.contains, decide_eq_true_eq] at hx
    obtain ⟨u, h4, h5, h6⟩ := down b hx
    exact ⟨minimum, u, minimum_le u, by simp [RawInterval.denormalized, h5, pm],
      by simp [Selection.run, RawInterval.normalized, h4]⟩
  · exact ⟨minimum, maximum, minimum_le _, by simp [RawInterval.denormalized, pm, sm],
      by simp [Selection.run, RawInterval.normalized]⟩

/-- An interval of the API that holds a value. -/
def Interval.Holds (a : Interval α) : Prop := a.Obtainable ∧ a.Real ∧ a.isEmpty = false

theorem Selection.UnionBuilt.runs {s : Selection α} (h : s.UnionBuilt) {r : RawInterval α}
    (hr : r ∈ pieces none s.tree) : (Selection.run r).Holds ∧ (Selection.run r).raw.denormalized = r := by
  have v := Selection.reachable_valid h.reachable
  obtain ⟨l, u, hlu, h1, h2⟩ := OpenIv.denorm (DO.open v h.do hr) (h.do.np.piece v hr)
  refine ⟨⟨Interval.obtainable_iff.2 (by rw [h2]; exact .inl hlu), .inr ⟨l, ?_⟩, ?_⟩, by rw [h2, h1]⟩
  · rw [Interval.contains, h2]; simp [RawInterval.contains, hlu]
  · rw [Interval.isEmpty, h2]

/-- The bounds of a denormalized interval. -/
def Bound.beside (x : Option α) : Bound α := x.elim .inf .excl

theorem RawInterval.denorm_bounds (l u : α) :
    (closed l u).denormalized.lowerBound = some (Bound.beside (pred l)) ∧
    (closed l u).denormalized.upperBound = some (Bound.beside (succ u)) ∧
    (l ≤ u → (closed l u).denormalized = new (Bound.beside (pred l)) (Bound.beside (succ u))) := by
  have h : l ≤ u → ∀ a b, pred l = some a → succ u = some b → a < b := fun h a b ha hb =>
    ((LawfulFinite.pred_some _ _ ha).1.trans_le h).trans (LawfulFinite.succ_some _ _ hb).1
  simp only [denormalized]
  cases e1 : pred l <;> cases e2 : succ u <;>
    simp only [lowerBound, upperBound, new, Bound.beside, Option.elim, implies_true, and_self]
  refine ⟨trivial, trivial, fun hlu => ?_⟩
  simp [mkOpen, h hlu _ _ e1 e2]

theorem RawInterval.denorm_enclose {l u l' u' : α} (h : l ≤ u) :
    (closed l u).denormalized.enclose (closed l' u').denormalized =
      (closed (min l l') (max u u')).denormalized := by
  have p : ∀ {a b : α}, a ≤ b → (pred b = none → pred a = none) ∧
      ∀ x y, pred a = some x → pred b = some y → x ≤ y := by
    intro a b hab
    refine ⟨fun h => ?_, fun x y hx hy => ?_⟩
    · rw [LawfulFinite.pred_none] at h ⊢
      exact le_antisymm (h ▸ hab) (minimum_le a)
    · exact (le_pred_iff hy x).2 (lt_of_lt_of_le (LawfulFinite.pred_some _ _ hx).1 hab)
  have q : ∀ {a b : α}, a ≤ b → (succ a = none → succ b = none) ∧
      ∀ x y, succ a = some x → succ b = some y → x ≤ y := by
    intro a b hab
    refine ⟨fun h => ?_, fun x y hx hy => ?_⟩
    · rw [LawfulFinite.succ_none] at h ⊢
      exact le_antisymm (le_maximum b) (h ▸ hab)
    · exact (succ_le_iff hx y).2 (lt_of_le_of_lt hab (LawfulFinite.succ_some _ _ hy).1)
  have lo : ∀ a b : α, (Bound.beside (pred a)).leastUnion (Bound.beside (pred b)) = Bound.beside (pred (min a b)) := by
    intro a b
    rcases le_total a b with hab | hab
    · rw [min_eq_left hab]
      obtain ⟨h1, h2⟩ := p hab
      cases e1 : pred a <;> cases e2 : pred b <;> simp_all [Bound.beside, Bound.leastUnion]
      exact fun h => le_antisymm h h2
    · rw [min_eq_right hab]
      obtain ⟨h1, h2⟩ := p hab
      cases e1 : pred a <;> cases e2 : pred b <;> simp_all [Bound.beside, Bound.leastUnion]
  have hi : ∀ a b : α, (Bound.beside (succ a)).greatestUnion (Bound.beside (succ b)) =
      Bound.beside (succ (max a b)) := by
    intro a b
    rcases le_total a b with hab | hab
    · rw [max_eq_right hab]
      obtain ⟨h1, h2⟩ := q hab
      cases e1 : succ a <;> cases e2 : succ b <;> simp_all [Bound.beside, Bound.greatestUnion]
    · rw [max_eq_left hab]
      obtain ⟨h1, h2⟩ := q hab
      cases e1 : succ a <;> cases e2 : succ b <;> simp_all [Bound.beside, Bound.greatestUnion]
      exact fun h => le_antisymm h2 h
  obtain ⟨a1, a2, -⟩ := denorm_bounds l u
  obtain ⟨b1, b2, -⟩ := denorm_bounds l' u'
  rw [(denorm_bounds (min l l') (max u u')).2.2 ((min_le_left _ _).trans (h.trans (le_max_left _ _)))]
  rw [enclose, a1, a2, b1, b2]
  simp only [lo, hi]

theorem Interval.holds_enclose {a b : Interval α} (ha : a.Holds) (hb : b.Holds) :
    (a.enclose b).Holds ∧
      (a.enclose b).raw.denormalized = a.raw.denormalized.enclose b.raw.denormalized := by
  obtain ⟨a0, a1, a2⟩ := ha
  obtain ⟨b0, b1, b2⟩ := hb
  rcases Interval.single' a0 a1 with rfl | ⟨l, u, h, -, -, -, a4, a5, a6⟩
  · cases a2
  rcases Interval.single' b0 b1 with rfl | ⟨l', u', h', -, -, -, b4, b5, b6⟩
  · cases b2
  have c2 := (RawInterval.intersect_by_bounds (a := a.raw) (a' := .closed l u) (b := b.raw)
    (b' := .closed l' u') a5 a6 b5 b6).2.1
  have hm : min l l' ≤ max u u' := (min_le_left _ _).trans (h.trans (le_max_left _ _))
  have e : (RawInterval.closed l u).enclose (.closed l' u') = .mkClosed (min l l') (max u u') := by
    simp only [RawInterval.enclose, RawInterval.lowerBound, RawInterval.upperBound, Bound.leastUnion,
      Bound.greatestUnion]
    grind [RawInterval.new]
  have e' : (a.enclose b).raw = .mkClosed (min l l') (max u u') := by
    rw [Interval.enclose, Interval.ofRaw, c2, e]
    rcases lt_or_eq_of_le hm with hm | hm <;> simp [RawInterval.mkClosed, hm, RawInterval.normalized]
  refine ⟨⟨.enclose a0 b0, .inr ⟨min l l', ?_⟩, ?_⟩, ?_⟩
  · rw [Interval.contains, e']
    rcases lt_or_eq_of_le hm with hm | hm <;> simp [RawInterval.mkClosed, hm, hm.le, RawInterval.contains]
  · rw [Interval.isEmpty, e']
    rcases lt_or_eq_of_le hm with hm | hm <;> simp [RawInterval.mkClosed, hm]
  · rw [e', a4, b4, RawInterval.denorm_enclose h]
    rcases lt_or_eq_of_le hm with hm | hm <;> simp [RawInterval.mkClosed, hm, RawInterval.denormalized]

theorem Interval.holds_fold : ∀ (B : List (Interval α)) {i : Interval α}, i.Holds → (∀ b ∈ B, b.Holds) →
    (B.foldl Interval.enclose i).Holds ∧ (B.foldl Interval.enclose i).raw.denormalized =
      (B.map fun b => b.raw.denormalized).foldl RawInterval.enclose i.raw.denormalized
  | [], i, hi, _ => ⟨hi, rfl⟩
  | b :: B, i, hi, hB => by
    obtain ⟨h1, h2⟩ := Interval.holds_enclose hi (hB b (.head _))
    obtain ⟨h3, h4⟩ := Interval.holds_fold B h1 fun c hc => hB c (.tail _ hc)
    exact ⟨h3, by rw [List.map_cons, List.foldl_cons, List.foldl_cons, ← h2, h4]⟩

theorem Interval.holds_touch {a b : Interval α} (ha : a.Holds) (hb : b.Holds) :
    (a.raw.denormalized.intersects b.raw.denormalized = true ↔ a.Near b) ∧
      a.raw.denormalized.isAdjacentTo b.raw.denormalized = false := by
  obtain ⟨a0, a1, a2⟩ := ha
  obtain ⟨b0, b1, b2⟩ := hb
  rcases Interval.single' a0 a1 with rfl | ⟨l, u, h, a3, -, -, a4, -⟩
  · cases a2
  rcases Interval.single' b0 b1 with rfl | ⟨l', u', h', b3, -, -, b4, -⟩
  · cases b2
  rw [a4, b4, (Interval.near_closed h h' a3 b3).1]
  exact ⟨RawInterval.denorm_meet h h', RawInterval.denorm_not_adjacent⟩

/-- **C113.**  For selections: uniting with an interval leaves the intervals that have no value in common with it and
no value next to one of it, and puts the interval that encloses it and all others in their place. -/
theorem C113_selection_union_in_place (dbg : Bool) (s : Selection α) (hs : s.UnionBuilt) (is : List (Interval α))
    (his : s.intervals dbg = .ok is) (i : Interval α) (hi : i.Obtainable) (hr : i.Real) (ni : i.isEmpty = false) :
    ∃ s' A B C js, s.unionInPlace dbg i = .ok s' ∧ s'.UnionBuilt ∧ is = A ++ B ++ C ∧
      (∀ p ∈ A ++ C, ¬ p.Near i) ∧ (∀ p ∈ B, p.Near i) ∧ s'.intervals dbg = .ok js ∧
      js.map Interval.pts = (A ++ [B.foldl Interval.enclose i] ++ C).map Interval.pts := by
  have v := Selection.reachable_valid hs.reachable
  have hh : i.Holds := ⟨hi, hr, ni⟩
  have hd : i.raw.denormalized ≠ .empty := by
    rcases Interval.single' hi hr with rfl | ⟨l, u, h, a3, -, -, a4, -⟩
    · cases ni
    · rw [a4]; simp only [RawInterval.denormalized]; split <;> simp
  obtain ⟨t', A, B, C, e, r, hl, h1, h2, h3⟩ := C113_union_in_place dbg s.tree (valid_reachable v) _
    (TT.intervals_eq dbg v) i.raw.denormalized (Interval.denorm_wf hi) hd
  have e' : s.unionInPlace dbg i = .ok ⟨t'⟩ := by rw [Selection.unionInPlace, e]; rfl
  have ub : (⟨t'⟩ : Selection α).UnionBuilt := .unionInPlace hs hi hr e'
  obtain ⟨g1, g2⟩ := Selection.list_of_tree dbg (s := ⟨t'⟩) ub.reachable h3
  rw [Selection.intervals_eq dbg v, hl, Except.ok.injEq] at his
  have hm : ∀ p ∈ A ++ B ++ C, (Selection.run p).Holds ∧ (Selection.run p).raw.denormalized = p :=
    fun p hp => hs.runs (hl ▸ hp)
  refine ⟨_, A.map Selection.run, B.map Selection.run, C.map Selection.run, _, e', ub, ?_, ?_, ?_, g1, ?_⟩
  · rw [← his, List.map_append, List.map_append]
  · intro q hq
    rw [← List.map_append, List.mem_map] at hq
    obtain ⟨p, hp, rfl⟩ := hq
    obtain ⟨m1, m2⟩ := hm p (by simp at hp ⊢; tauto)
    rw [← (Interval.holds_touch m1 hh).1, m2, (h1 p hp).1]
    simp
  · intro q hq
    obtain ⟨p, hp, rfl⟩ := List.mem_map.1 hq
    obtain ⟨m1, m2⟩ := hm p (by simp [hp])
    obtain ⟨n1, n2⟩ := Interval.holds_touch m1 hh
    rw [← n1]
    rw [m2] at n2 ⊢
    rcases h2 p hp with h | h
    · exact h
    · rw [n2] at h; cases h
  · have hB : ∀ b ∈ B.map Selection.run, b.Holds := fun b hb => by
      obtain ⟨p, hp, rfl⟩ := List.mem_map.1 hb
      exact (hm p (by simp [hp])).1
    obtain ⟨f1, f2⟩ := Interval.holds_fold (B.map Selection.run) hh hB
    have : ((B.map Selection.run).map fun b : Interval α => b.raw.denormalized) = B := by
      rw [List.map_map]
      conv_rhs => rw [← List.map_id B]
      exact List.map_congr_left fun p hp => (hm p (by simp [hp])).2
    rw [this] at f2
    rw [g2]
    simp only [List.map_append, List.map_cons, List.map_nil, List.map_map]
    rw [← f2, Interval.denorm_pts f1.1]
    congr 1
    · congr 1
      exact List.map_congr_left fun p _ => by
        rw [Function.comp_apply, Selection.run_pts]; ext x; exact (RawInterval.contains_iff p x).symm
    · exact List.map_congr_left fun p _ => by
        rw [Function.comp_apply, Selection.run_pts]; ext x; exact (RawInterval.contains_iff p x).symm

example : (Selection.demo [(u8 1, u8 2), (u8 5, u8 5), (u8 9, u8 11)]).UnionBuilt ∧
    (Selection.demo [(u8 1, u8 2), (u8 5, u8 5), (u8 9, u8 11)]).intervals true =
      .ok [.mkClosed (u8 1) (u8 2), ⟨.closed (u8 5) (u8 5)⟩, .mkClosed (u8 9) (u8 11)] ∧
    (do Selection.intervals true (← (Selection.demo [(u8 1, u8 2), (u8 5, u8 5), (u8 9, u8 11)]).unionInPlace true
      (.mkClosed (u8 6) (u8 8)))) = .ok [.mkClosed (u8 1) (u8 2), .mkClosed (u8 5) (u8 11)] :=
  ⟨Selection.demo_built _ (by decide), by decide, by decide⟩

/-- **C113.**  Removing an interval from a selection leaves of every interval what `Interval::minus` gives, exactly if
the removed interval does not begin or end next to a single missing value (C50). -/
theorem C113_selection_minus_in_place_iff (dbg : Bool) (s : Selection α) (hs : s.UnionBuilt)
    (is : List (Interval α)) (his : s.intervals dbg = .ok is) (i : Interval α) (hi : i.Obtainable) (hr : i.Real) :
    (∃ s' js, s.minusInPlace dbg i = .ok s' ∧ s'.intervals dbg = .ok js ∧
      js.map Interval.pts = (is.flatMap fun p => p.minus i).map Interval.pts) ↔
    ∀ x, s.Pinhole dbg x → (∀ l, i.lowerBound = some (.incl l) → pred l ≠ some x) ∧
      ∀ u, i.upperBound = some (.incl u) → succ u ≠ some x := by
  have v := Selection.reachable_valid hs.reachable
  have wd := Interval.denorm_wf hi
  rw [Selection.intervals_eq dbg v, Except.ok.injEq] at his
  subst his
  have key : (((pieces none s.tree).map Selection.run).flatMap fun p => p.minus i).map Interval.pts =
      ((pieces none s.tree).flatMap fun p => p.minus i.raw.denormalized).map RawInterval.pts := by
    rw [List.flatMap_map, List.map_flatMap, List.map_flatMap]
    refine List.flatMap_congr fun p hp => ?_
    obtain ⟨⟨m1, m2, -⟩, m3⟩ := hs.runs hp
    rw [← Interval.minus_agree m1 m2 hi hr, m3]
  rw [key, ← C50_exact_any dbg s hs.reachable i hi]
  have tree : ∀ {s' : Selection α}, s.minusInPlace dbg i = .ok s' ↔
      s.tree.minusInPlace dbg i.raw.denormalized = .ok s'.tree := by
    intro s'
    rw [Selection.minusInPlace]
    cases s.tree.minusInPlace dbg i.raw.denormalized with
    | error p => simp [Bind.bind, Except.bind]
    | ok t => rcases s' with ⟨t'⟩; simp [Bind.bind, Except.bind]
  constructor
  · rintro ⟨s', js, e, h1, h2⟩
    refine ⟨s', e, ?_⟩
    have hr' : s'.Reachable := .minusInPlace hs.reachable hi e
    have v' := Selection.reachable_valid hr'
    obtain ⟨rs, k1, -, -, k2, -⟩ := C45_iteration dbg s'.tree (valid_reachable v')
    obtain ⟨rs0, k3, -, -, k4, -⟩ := C45_iteration dbg s.tree (valid_reachable v)
    rw [TT.intervals_eq dbg v, Except.ok.injEq] at k3
    subst k3
    obtain ⟨g1, g2⟩ := Selection.list_of_tree dbg hr' k1
    rw [h1, Except.ok.injEq] at g1
    rw [← g1, h2] at g2
    ext x
    have c1 : x ∈ s'.pts dbg ↔ ∃ P ∈ rs.map RawInterval.pts, x ∈ P := (k2 x).trans (by simp)
    have c2 : x ∈ s.pts dbg ↔ ∃ p ∈ pieces none s.tree, x ∈ p.pts := k4 x
    rw [c1, ← g2, Set.mem_sdiff, c2, ← Interval.denorm_pts hi]
    constructor
    · rintro ⟨P, hP, hx⟩
      obtain ⟨q, hq, rfl⟩ := List.mem_map.1 hP
      obtain ⟨p, hp, hq⟩ := List.mem_flatMap.1 hq
      have := (C06_minus p i.raw.denormalized x).1 ⟨q, hq, hx⟩
      exact ⟨⟨p, hp, this.1⟩, this.2⟩
    · rintro ⟨⟨p, hp, hx⟩, hn⟩
      obtain ⟨q, hq, hx⟩ := (C06_minus p i.raw.denormalized x).2 ⟨hx, hn⟩
      exact ⟨_, List.mem_map_of_mem (List.mem_flatMap.2 ⟨p, hp, hq⟩), hx⟩
  · rintro ⟨s', e, h⟩
    have hr' : s'.Reachable := .minusInPlace hs.reachable hi e
    have v' := Selection.reachable_valid hr'
    have safe := (C37_exact_iff dbg s.tree (valid_reachable v) i.raw.denormalized wd _
        (TT.intervals_eq dbg v)).1 ⟨s'.tree, tree.1 e, valid_reachable v', fun x => by
      have := Set.ext_iff.1 h x
      rw [Set.mem_sdiff, ← Interval.denorm_pts hi, ← RawInterval.contains_iff] at this
      rw [← Bool.not_eq_true]
      exact this⟩
    obtain ⟨t', e1, r1, h1⟩ := (C113_minus_in_place_iff dbg s.tree (valid_reachable v) _ (TT.intervals_eq dbg v)
      i.raw.denormalized wd).2 safe
    rw [tree.1 e, Except.ok.injEq] at e1
    obtain ⟨g1, g2⟩ := Selection.list_of_tree dbg hr' (e1 ▸ h1)
    exact ⟨s', _, e, g1, g2⟩

example : (Selection.demo [(u8 1, u8 3), (u8 6, u8 9)]).UnionBuilt ∧ (Interval.mkClosed (u8 2) (u8 6)).Real ∧
    (Selection.demo [(u8 1, u8 3), (u8 6, u8 9)]).intervals true =
      .ok [.mkClosed (u8 1) (u8 3), .mkClosed (u8 6) (u8 9)] ∧
    (do Selection.intervals true (← (Selection.demo [(u8 1, u8 3), (u8 6, u8 9)]).minusInPlace true
      (.mkClosed (u8 2) (u8 6)))) = .ok [⟨.closed (u8 1) (u8 1)⟩, .mkClosed (u8 7) (u8 9)] :=
  ⟨Selection.demo_built _ (by decide), Interval.closed_real (by decide), by decide, by decide⟩

end
end NI
