import Verif.Lemmas.Swap

/-! # Removals and additions in another order (C119) -/

namespace NI
open _root_.NI.Finite TT

section Tree
variable {α : Type} [LinearOrder α]

/-- Two intervals, neither of them a point, can be removed in either order, with equal results, exactly if no
single missing point of the tree is an end of both that belongs to only one of them. -/
theorem C119_tree_removals (dbg : Bool) (t : TineTree α) (ht : t.Reachable) (i j : RawInterval α) (hi : i.WF)
    (hj : j.WF) (pi : ∀ p, i ≠ .point p) (pj : ∀ p, j ≠ .point p) (is : List (RawInterval α))
    (his : t.intervals dbg = .ok is) :
    (do TineTree.minusInPlace dbg (← TineTree.minusInPlace dbg t i) j) =
      (do TineTree.minusInPlace dbg (← TineTree.minusInPlace dbg t j) i) ↔
    ∀ x, RawInterval.Hole is x → i.IsBound x → j.IsBound x → i.contains x = j.contains x := by
  have v := TT.reachable_valid ht
  rw [TT.intervals_eq dbg v] at his; cases his
  rw [minus_comm_iff dbg v hi hj pi pj]
  simp only [TT.hole_iff v, TT.endAt_iff, TT.icov_fin hi, TT.icov_fin hj]
  rfl

example : (TineTree.demo [.opn 0 5, .opn 5 9]).Reachable ∧
    (TineTree.demo [.opn 0 5, .opn 5 9]).intervals true = .ok [.opn 0 5, .opn 5 9] ∧
    -- `[3,5)` and `(5,7)`: 5 comes in, in either order
    (do TineTree.minusInPlace true (← TineTree.minusInPlace true (TineTree.demo [.opn 0 5, .opn 5 9]) (.rightOpen 3 5)) (.opn 5 7)) =
      .ok [.lower (.excl 0), .upper (.excl 3), .point (.incl 5), .lower (.incl 7), .upper (.excl 9)] ∧
    (do TineTree.minusInPlace true (← TineTree.minusInPlace true (TineTree.demo [.opn 0 5, .opn 5 9]) (.opn 5 7)) (.rightOpen 3 5)) =
      .ok [.lower (.excl 0), .upper (.excl 3), .point (.incl 5), .lower (.incl 7), .upper (.excl 9)] :=
  ⟨TineTree.fromIter_reachable (dbg := true) (is := [.opn 0 5, .opn 5 9]) (by simp [RawInterval.WF]) rfl,
    by decide, by decide, by decide⟩

/-- `[3,5]` and `(5,7)` from `(0,5) ∪ (5,9)`: 5 is in or not, depending on the order. -/
theorem C119_tree_counterexample : ∃ (t a b : TineTree Int) (i j : RawInterval Int), t.Reachable ∧ i.WF ∧ j.WF ∧
    i.TwoEnded ∧ j.TwoEnded ∧
    (do TineTree.minusInPlace true (← TineTree.minusInPlace true t i) j) = .ok a ∧
    (do TineTree.minusInPlace true (← TineTree.minusInPlace true t j) i) = .ok b ∧
    a.contains true 5 = .ok true ∧ b.contains true 5 = .ok false :=
  ⟨TineTree.demo [.opn 0 5, .opn 5 9], _, _, .closed 3 5, .opn 5 7,
    TineTree.fromIter_reachable (dbg := true) (is := [.opn 0 5, .opn 5 9]) (by simp [RawInterval.WF]) rfl,
    by decide, by decide, ⟨by simp, by simp⟩, ⟨by simp, by simp⟩, rfl, rfl, by decide, by decide⟩

/-- Nor can single points be removed before or after: 5 and `(5,7)` from `[0,9]`, 5 comes back. -/
theorem C119_point_counterexample : ∃ (t a b : TineTree Int) (i : RawInterval Int), t.Reachable ∧ i.WF ∧
    (do TineTree.minusInPlace true (← TineTree.minusInPlace true t (.point 5)) i) = .ok a ∧
    (do TineTree.minusInPlace true (← TineTree.minusInPlace true t i) (.point 5)) = .ok b ∧
    a.contains true 5 = .ok true ∧ b.contains true 5 = .ok false :=
  ⟨TineTree.fromRawInterval (.closed 0 9), _, _, .opn 5 7, .fromRaw (by decide), by decide, rfl, rfl, by decide, by decide⟩

/-- Any number of intervals without ends of their own can be removed in any order. -/
theorem C119_tree_open (dbg : Bool) (t : TineTree α) (ht : t.Reachable) (is js : List (RawInterval α))
    (h : ∀ i ∈ is, i.WF ∧ ∀ p, i.IsBound p → i.contains p = false) (hp : is.Perm js) :
    ∃ t', is.foldlM (TineTree.minusInPlace dbg) t = .ok t' ∧ js.foldlM (TineTree.minusInPlace dbg) t = .ok t' ∧
      t'.Reachable := by
  have v := TT.reachable_valid ht
  have hn : ∀ i ∈ is, NoEnds i := fun i hi => by
    obtain ⟨hw, hb⟩ := h i hi
    refine ⟨hw, ?_, fun x hx => ?_⟩
    · rintro p rfl
      exact absurd (hb p (.inl ⟨_, rfl, rfl⟩)) (by simp [RawInterval.contains])
    · rw [TT.icov_fin hw]; exact hb x ((TT.endAt_iff _ _).1 hx)
  have ok : ∀ (is : List (RawInterval α)) {t : TineTree α}, Valid t → (∀ i ∈ is, NoEnds i) →
      ∃ t', is.foldlM (TineTree.minusInPlace dbg) t = .ok t' ∧ Valid t' := by
    intro is
    induction is with
    | nil => exact fun {t} v _ => ⟨t, rfl, v⟩
    | cons d ds ih =>
      intro t v h
      obtain ⟨hw, hn, -⟩ := h d (by simp)
      obtain ⟨t', e, v, -⟩ := minusTwo_ok dbg v hw hn
      rw [List.foldlM_cons, e]
      exact ih v fun d hd => h d (by simp [hd])
  obtain ⟨t', e, v'⟩ := ok is v hn
  exact ⟨t', e, by rw [← foldMinus_perm dbg hp v hn, e], valid_reachable v'⟩

example : ∀ i ∈ [RawInterval.opn (0 : Int) 3, .upFrom 8, .opn 2 5], i.WF ∧ ∀ p, i.IsBound p → i.contains p = false := by
  simp [RawInterval.WF, RawInterval.IsBound, RawInterval.lowerBound, RawInterval.upperBound, Bound.asRef, RawInterval.contains]
  exact ⟨by omega, by omega⟩

/-- An interval is added and another one, not a point, removed, in either order with equal results, exactly if they
do not overlap and each end of the removed one that is a single missing point after the addition is one before. -/
theorem C119_tree_add_remove (dbg : Bool) (t u : TineTree α) (ht : t.Reachable) (i j : RawInterval α) (hi : i.WF)
    (hj : j.WF) (pj : ∀ p, j ≠ .point p) (hu : TineTree.unionInPlace dbg t i = .ok u) (is us : List (RawInterval α))
    (his : t.intervals dbg = .ok is) (hus : u.intervals dbg = .ok us) :
    TineTree.minusInPlace dbg u j = (do TineTree.unionInPlace dbg (← TineTree.minusInPlace dbg t j) i) ↔
      i.intersects j = false ∧ ∀ x, j.IsBound x → RawInterval.Hole us x → RawInterval.Hole is x := by
  have v := TT.reachable_valid ht
  obtain ⟨u', e, vu, -⟩ := TT.unionInPlace_ok dbg v hi
  rw [hu] at e; cases e
  rw [TT.intervals_eq dbg v] at his; cases his
  rw [TT.intervals_eq dbg vu] at hus; cases hus
  rw [add_minus_iff dbg v hi hj pj hu]
  refine and_congr ⟨fun h => ?_, fun h aft k hr => ?_⟩ ?_
  · rw [RawInterval.intersects, Bool.not_eq_false']
    by_contra hn
    have ne : i.intersect j ≠ .empty := by rintro e; rw [e] at hn; exact hn rfl
    obtain ⟨aft, k, hr, hk⟩ := icov_some_real ne (RawInterval.intersect_wf i j)
    rw [icov_intersect hi hj hr, h aft k hr] at hk
    cases hk
  · rw [RawInterval.intersects, Bool.not_eq_false'] at h
    have e : i.intersect j = .empty := by cases hh : i.intersect j <;> simp [hh, RawInterval.isEmpty] at h ⊢
    rw [← icov_intersect hi hj hr, e]
    simp [icov, cov, Tine.fromRawInterval]
  · simp only [TT.hole_iff v, TT.hole_iff vu, TT.endAt_iff]
    rfl

/-- `(5,9)` is added to `(0,5)`, so that 5 is missing alone.  Removing `[9,12)` can come before or after, removing
`[3,5]` not. -/
example : (TineTree.fromRawInterval (.opn (0 : Int) 5)).Reachable ∧
    (do TineTree.minusInPlace true (← TineTree.unionInPlace true (TineTree.fromRawInterval (.opn (0 : Int) 5)) (.opn 5 9)) (.rightOpen 9 12)) =
      (do TineTree.unionInPlace true (← TineTree.minusInPlace true (TineTree.fromRawInterval (.opn (0 : Int) 5)) (.rightOpen 9 12)) (.opn 5 9)) ∧
    (do TineTree.minusInPlace true (← TineTree.unionInPlace true (TineTree.fromRawInterval (.opn (0 : Int) 5)) (.opn 5 9)) (.closed 3 5)) ≠
      (do TineTree.unionInPlace true (← TineTree.minusInPlace true (TineTree.fromRawInterval (.opn (0 : Int) 5)) (.closed 3 5)) (.opn 5 9)) :=
  ⟨.fromRaw (by decide), by decide, by decide⟩

end Tree

section Sel
variable {α : Type} [LinearOrder α] [Finite α] [LawfulFinite α]

omit [LawfulFinite α] in
theorem Selection.foldMinus_eq (dbg : Bool) (is : List (Interval α)) (s : Selection α) :
    is.foldlM (fun s i => s.minusInPlace dbg i) s =
      ((is.map fun i => i.raw.denormalized).foldlM (TineTree.minusInPlace dbg) s.tree).map Selection.mk := by
  induction is generalizing s with
  | nil => rfl
  | cons i is ih =>
    rw [List.foldlM_cons, List.map_cons, List.foldlM_cons, Selection.minusInPlace]
    cases h : TineTree.minusInPlace dbg s.tree i.raw.denormalized with
    | error e => rfl
    | ok t => exact ih ⟨t⟩

theorem Interval.denorm_openIv {i : Interval α} (hi : i.Obtainable) : OpenIv i.raw.denormalized := by
  intro p
  rcases RawInterval.denorm_open (Interval.obtainable_nf hi) with e | ⟨a, b, e⟩ | ⟨a, e⟩ | ⟨b, e⟩ | e <;> rw [e] <;>
    simp [RawInterval.lowerBound, RawInterval.upperBound]

/-- Any number of intervals can be removed from a selection of any history in any order: the results are equal. -/
theorem C119_selection_removals (dbg : Bool) (s : Selection α) (hs : s.Reachable) (is js : List (Interval α))
    (hi : ∀ i ∈ is, i.Obtainable) (hp : is.Perm js) :
    ∃ s', is.foldlM (fun s i => s.minusInPlace dbg i) s = .ok s' ∧
      js.foldlM (fun s i => s.minusInPlace dbg i) s = .ok s' ∧ s'.Reachable := by
  have ok : ∀ (is : List (Interval α)) (s : Selection α), s.Reachable → (∀ i ∈ is, i.Obtainable) →
      ∃ s', is.foldlM (fun s i => s.minusInPlace dbg i) s = .ok s' ∧ s'.Reachable := by
    intro is
    induction is with
    | nil => exact fun s hs _ => ⟨s, rfl, hs⟩
    | cons i is ih =>
      intro s hs h
      obtain ⟨s', e, -⟩ := Selection.minusInPlace_ok dbg (Selection.reachable_valid hs) (h i (by simp))
      rw [List.foldlM_cons, e]
      exact ih s' (.minusInPlace hs (h i (by simp)) e) fun i hi => h i (by simp [hi])
  obtain ⟨s', e, r⟩ := ok is s hs hi
  refine ⟨s', e, ?_, r⟩
  rw [← e, Selection.foldMinus_eq, Selection.foldMinus_eq, foldMinus_perm dbg (hp.map _) (Selection.reachable_valid hs)]
  intro d hd
  obtain ⟨i, h, rfl⟩ := List.mem_map.1 hd
  exact OpenIv.noEnds (RawInterval.denorm_wf (Interval.obtainable_nf (hi i h))) (Interval.denorm_openIv (hi i h))

/-- `[4,4]` and `[3,3]` from `{2} ∪ [4,9]`; 3 comes in where nothing else removes it. -/
example : (Selection.demo [(u8 2, u8 2), (u8 4, u8 9)]).Reachable ∧
    [Interval.mkClosed (u8 4) (u8 4), .mkClosed (u8 3) (u8 3)].foldlM (fun s i => s.minusInPlace true i)
      (Selection.demo [(u8 2, u8 2), (u8 4, u8 9)]) =
    [Interval.mkClosed (u8 3) (u8 3), .mkClosed (u8 4) (u8 4)].foldlM (fun s i => s.minusInPlace true i)
      (Selection.demo [(u8 2, u8 2), (u8 4, u8 9)]) ∧
    ([Interval.mkClosed (u8 4) (u8 4), .mkClosed (u8 7) (u8 7)].foldlM (fun s i => s.minusInPlace true i)
      (Selection.demo [(u8 2, u8 2), (u8 4, u8 9)]) >>= (Selection.intervals true ·)) =
      .ok [.mkClosed (u8 2) (u8 3), .mkClosed (u8 5) (u8 6), .mkClosed (u8 8) (u8 9)] :=
  ⟨(Selection.demo_built _ (by decide)).reachable, by decide, by decide⟩

/-- Two selections built by unions can be removed in either order. -/
theorem C119_selection_minus (dbg : Bool) (a b c : Selection α) (ha : a.Reachable) (hb : b.UnionBuilt)
    (hc : c.UnionBuilt) :
    ∃ r, (do (← a.minus dbg b).minus dbg c) = .ok r ∧ (do (← a.minus dbg c).minus dbg b) = .ok r ∧ r.Reachable := by
  have va := Selection.reachable_valid ha
  have vb := Selection.reachable_valid hb.reachable
  have vc := Selection.reachable_valid hc.reachable
  have ob : ∀ d ∈ pieces none b.tree, d.WF ∧ OpenIv d := fun d hd => ⟨((pieces_wf vb.1).1 d hd).1, hb.do.open vb hd⟩
  have oc : ∀ d ∈ pieces none c.tree, d.WF ∧ OpenIv d := fun d hd => ⟨((pieces_wf vc.1).1 d hd).1, hc.do.open vc hd⟩
  have eq : ∀ a b : Selection α, Valid b.tree →
      a.minus dbg b = ((pieces none b.tree).foldlM (TineTree.minusInPlace dbg) a.tree).map Selection.mk := by
    intro a b vb
    rw [Selection.minus, TineTree.minus, fold_eq dbg _ vb]
    cases (pieces none b.tree).foldlM (TineTree.minusInPlace dbg) a.tree <;> rfl
  have two : ∀ b c : Selection α, Valid b.tree → Valid c.tree → (do (← a.minus dbg b).minus dbg c) =
      ((pieces none b.tree ++ pieces none c.tree).foldlM (TineTree.minusInPlace dbg) a.tree).map Selection.mk := by
    intro b c vb vc
    rw [eq a b vb, List.foldlM_append]
    cases (pieces none b.tree).foldlM (TineTree.minusInPlace dbg) a.tree with
    | error e => rfl
    | ok t => exact eq ⟨t⟩ c vc
  have ho : ∀ d ∈ pieces none b.tree ++ pieces none c.tree, d.WF ∧ OpenIv d := fun d hd =>
    (List.mem_append.1 hd).elim (ob d) (oc d)
  obtain ⟨t, e, v, -⟩ := foldMinusOpen dbg _ va ho
  refine ⟨⟨t⟩, by rw [two b c vb vc, e]; rfl, ?_, ?_⟩
  · rw [two c b vc vb, ← foldMinus_perm dbg List.perm_append_comm va fun d hd => OpenIv.noEnds (ho d hd).1 (ho d hd).2, e]
    rfl
  · have e0 := two b c vb vc
    rw [e] at e0
    obtain ⟨m, em, vm, -⟩ := Selection.minusOpen_ok dbg va vb hb.do
    rw [em] at e0
    exact .minus (.minus ha hb.reachable em (valid_reachable vm)) hc.reachable e0 (valid_reachable v)

example : (Selection.demo [(u8 2, u8 2), (u8 4, u8 9)]).Reachable ∧ (Selection.demo [(u8 4, u8 4)]).UnionBuilt ∧
    (Selection.demo [(u8 3, u8 3), (u8 7, u8 7)]).UnionBuilt ∧
    (do (← (Selection.demo [(u8 2, u8 2), (u8 4, u8 9)]).minus true (Selection.demo [(u8 4, u8 4)])).minus true (Selection.demo [(u8 6, u8 7)])) =
      .ok ⟨[.lower (.excl (u8 1)), .upper (.incl (u8 3)), .point (.incl (u8 5)), .lower (.incl (u8 8)), .upper (.excl (u8 10))]⟩ :=
  ⟨(Selection.demo_built _ (by decide)).reachable, Selection.demo_built _ (by decide),
    Selection.demo_built _ (by decide), by decide⟩

/-- An interval is added to a selection built by unions and another one removed, in either order with the same
values, exactly if they have no value in common and each single value missing in the union beside the removed
interval is missing alone in the selection already. -/
theorem C119_selection_add_remove (dbg : Bool) (s : Selection α) (hs : s.UnionBuilt) (i j : Interval α)
    (hi : i.Obtainable) (hir : i.Real) (hj : j.Obtainable) (hjr : j.Real) :
    ∃ a b, (do (← s.unionInPlace dbg i).minusInPlace dbg j) = .ok a ∧
      (do (← s.minusInPlace dbg j).unionInPlace dbg i) = .ok b ∧
      (a.pts dbg = b.pts dbg ↔ (∀ x ∈ i.pts, x ∉ j.pts) ∧
        ∀ p x q, pred x = some p → succ x = some q → p ∈ s.pts dbg ∪ i.pts → q ∈ s.pts dbg ∪ i.pts →
          x ∉ s.pts dbg ∪ i.pts → (IsLeast j.pts q ∨ IsGreatest j.pts p) → p ∈ s.pts dbg ∧ q ∈ s.pts dbg) := by
  obtain ⟨u, e1, r1, c1⟩ := C48_union_in_place dbg s hs.reachable i hi
  obtain ⟨a, e2, c2⟩ := C50_formula_partial dbg u (.unionInPlace hs hi hir e1) j hj hjr
  obtain ⟨m, e3, c3⟩ := C50_formula_partial dbg s hs j hj hjr
  obtain ⟨b, e4, r4, c4⟩ := C48_union_in_place dbg m (.minusInPlace hs.reachable hj e3) i hi
  refine ⟨a, b, by rw [e1]; exact e2, by rw [e3]; exact e4, ?_⟩
  rw [c1] at c2
  have out : ∀ x, ((∃ l, IsLeast j.pts l ∧ pred l = some x) ∨ ∃ u, IsGreatest j.pts u ∧ succ u = some x) → x ∉ j.pts := by
    rintro x (⟨l, k1, k2⟩ | ⟨l, k1, k2⟩) hx
    · exact absurd (k1.2 hx) (not_le.2 (LawfulFinite.pred_some _ _ k2).1)
    · exact absurd (k1.2 hx) (not_le.2 (LawfulFinite.succ_some _ _ k2).1)
  have side : ∀ p x q : α, pred x = some p → succ x = some q →
      (((∃ l, IsLeast j.pts l ∧ pred l = some x) ∨ ∃ u, IsGreatest j.pts u ∧ succ u = some x) ↔
        (IsLeast j.pts q ∨ IsGreatest j.pts p)) := by
    intro p x q hp hq
    constructor
    · rintro (⟨l, k1, k2⟩ | ⟨u, k1, k2⟩)
      · rw [succ_of_pred k2] at hq; cases hq; exact .inl k1
      · rw [pred_of_succ k2] at hp; cases hp; exact .inr k1
    · rintro (k1 | k1)
      · exact .inl ⟨q, k1, pred_of_succ hq⟩
      · exact .inr ⟨p, k1, succ_of_pred hp⟩
  rw [Set.ext_iff]
  simp only [c4, Set.mem_union, c2, c3]
  constructor
  · intro h
    refine ⟨fun x h1 h2 => ?_, fun p x q hp hq h1 h2 h3 h4 => ?_⟩
    · rcases (h x).2 (.inr h1) with g | g
      · exact g.2 h2
      · exact g.1 (.inr h1)
    · rcases (h x).1 (.inr ⟨h3, ⟨p, h1, hp⟩, ⟨q, h2, hq⟩, (side p x q hp hq).2 h4⟩) with (g | g) | g
      · exact absurd (.inl g.1) h3
      · obtain ⟨-, ⟨p', g1, g2⟩, ⟨q', g3, g4⟩, -⟩ := g
        rw [hp] at g2; rw [hq] at g4; cases g2; cases g4
        exact ⟨g1, g3⟩
      · exact absurd (.inr g) h3
  · rintro ⟨h1, h2⟩ x
    constructor
    · rintro (⟨g1 | g1, g2⟩ | ⟨g1, ⟨p, g2, g3⟩, ⟨q, g4, g5⟩, g6⟩)
      · exact .inl (.inl ⟨g1, g2⟩)
      · exact .inr g1
      · obtain ⟨k1, k2⟩ := h2 p x q g3 g5 g2 g4 g1 ((side p x q g3 g5).1 g6)
        exact .inl (.inr ⟨fun h => g1 (.inl h), ⟨p, k1, g3⟩, ⟨q, k2, g5⟩, g6⟩)
    · rintro ((g | ⟨g1, ⟨p, g2, g3⟩, ⟨q, g4, g5⟩, g6⟩) | g)
      · exact .inl ⟨.inl g.1, g.2⟩
      · by_cases hx : x ∈ i.pts
        · exact .inl ⟨.inr hx, h1 x hx⟩
        · exact .inr ⟨fun h => h.elim g1 hx, ⟨p, .inl g2, g3⟩, ⟨q, .inl g4, g5⟩, g6⟩
      · exact .inl ⟨.inr g, h1 x g⟩

/-- `[5,9]` is added to `[1,3]`, so that 4 is missing alone; removing `[20,30]` can come before or after, removing
`[2,3]` not. -/
example : (Selection.demo [(u8 1, u8 3)]).UnionBuilt ∧ (Interval.mkClosed (u8 5) (u8 9)).Real ∧
    (Interval.mkClosed (u8 2) (u8 3)).Real ∧
    (do (← (Selection.demo [(u8 1, u8 3)]).unionInPlace true (.mkClosed (u8 5) (u8 9))).minusInPlace true (.mkClosed (u8 20) (u8 30))) =
      (do (← (Selection.demo [(u8 1, u8 3)]).minusInPlace true (.mkClosed (u8 20) (u8 30))).unionInPlace true (.mkClosed (u8 5) (u8 9))) ∧
    (do (← (← (Selection.demo [(u8 1, u8 3)]).unionInPlace true (.mkClosed (u8 5) (u8 9))).minusInPlace true (.mkClosed (u8 2) (u8 3))).contains true (u8 4)) =
      .ok true ∧
    (do (← (← (Selection.demo [(u8 1, u8 3)]).minusInPlace true (.mkClosed (u8 2) (u8 3))).unionInPlace true (.mkClosed (u8 5) (u8 9))).contains true (u8 4)) =
      .ok false :=
  ⟨Selection.demo_built _ (by decide), Interval.closed_real (by decide), Interval.closed_real (by decide),
    by decide, by decide, by decide⟩

/-- The results are equal exactly if moreover no value of one interval is the neighbour of a value of the other. -/
theorem C119_selection_add_remove_eq (dbg : Bool) (s : Selection α) (hs : s.UnionBuilt) (i j : Interval α)
    (hi : i.Obtainable) (hir : i.Real) (hj : j.Obtainable) (hjr : j.Real) :
    (do (← s.unionInPlace dbg i).minusInPlace dbg j) = (do (← s.minusInPlace dbg j).unionInPlace dbg i) ↔
      (∀ x ∈ i.pts, ∀ y ∈ j.pts, x ≠ y ∧ succ x ≠ some y ∧ succ y ≠ some x) ∧
        ∀ p x q, pred x = some p → succ x = some q → p ∈ s.pts dbg ∪ i.pts → q ∈ s.pts dbg ∪ i.pts →
          x ∉ s.pts dbg ∪ i.pts → (IsLeast j.pts q ∨ IsGreatest j.pts p) → p ∈ s.pts dbg ∧ q ∈ s.pts dbg := by
  have v := Selection.reachable_valid hs.reachable
  have wi := RawInterval.denorm_wf (Interval.obtainable_nf hi)
  have wj := RawInterval.denorm_wf (Interval.obtainable_nf hj)
  obtain ⟨u, l, r, e1, v1, e2, v2, e3, v3, c1, c2⟩ := add_minus_cov dbg v wi wj
    (RawInterval.denorm_not_point (Interval.obtainable_nf hj))
  obtain ⟨a, b, ea, eb, hab⟩ := C119_selection_add_remove dbg s hs i j hi hir hj hjr
  have ea' : (do (← s.unionInPlace dbg i).minusInPlace dbg j) = .ok ⟨l⟩ := by
    simp only [Selection.unionInPlace, e1, Selection.minusInPlace, bind, Except.bind, e2]
  have eb' : (do (← s.minusInPlace dbg j).unionInPlace dbg i) = .ok ⟨r⟩ := by
    cases hm : TineTree.minusInPlace dbg s.tree j.raw.denormalized with
    | error e => rw [hm] at e3; cases e3
    | ok m =>
      rw [hm] at e3
      have e3 : TineTree.unionInPlace dbg m i.raw.denormalized = .ok r := e3
      simp only [Selection.unionInPlace, Selection.minusInPlace, bind, Except.bind, hm, e3]
  rw [ea'] at ea; rw [eb'] at eb; cases ea; cases eb
  rw [ea', eb', Except.ok.injEq, Selection.mk.injEq]
  have di := TT.denorm_do hi hir
  have dj := TT.denorm_do hj hjr
  have fi : ∀ x, at' (Tine.fromRawInterval i.raw.denormalized) x = true ↔ x ∈ i.pts := fun x => by
    rw [show at' (Tine.fromRawInterval i.raw.denormalized) x = Selection.ic i false (.fin x) from rfl, Selection.ic_fin hi]; rfl
  have fj : ∀ x, at' (Tine.fromRawInterval j.raw.denormalized) x = true ↔ x ∈ j.pts := fun x => by
    rw [show at' (Tine.fromRawInterval j.raw.denormalized) x = Selection.ic j false (.fin x) from rfl, Selection.ic_fin hj]; rfl
  have near : ∀ (d : Interval α) (_ : ∀ x, at' (Tine.fromRawInterval d.raw.denormalized) x = true ↔ x ∈ d.pts)
      (_ : DO (Tine.fromRawInterval d.raw.denormalized)) (x : α),
      icov d.raw.denormalized true (.fin x) = true ↔ x ∈ d.pts ∨ ∃ y ∈ d.pts, succ x = some y := by
    intro d fd dd x
    have := dd.1 x
    rw [show icov d.raw.denormalized true (.fin x) = tcov (Tine.fromRawInterval d.raw.denormalized) true (.fin x) from rfl,
      this, Bool.or_eq_true, fd]
    refine or_congr_right ?_
    cases succ x with
    | none => simp
    | some y => simp [fd]
  constructor
  · rintro rfl
    obtain ⟨g1, g2⟩ := hab.1 rfl
    refine ⟨fun x hx y hy => ⟨?_, ?_, ?_⟩, g2⟩
    · rintro rfl; exact g1 x hx hy
    · intro h
      have := (c1 (.fin x)).1 rfl
      rw [(near i fi di x).2 (.inl hx), (near j fj dj x).2 (.inr ⟨y, hy, h⟩)] at this
      cases this
    · intro h
      have := (c1 (.fin y)).1 rfl
      rw [(near i fi di y).2 (.inr ⟨x, hx, h⟩), (near j fj dj y).2 (.inl hy)] at this
      cases this
  · rintro ⟨g1, g2⟩
    have hp := hab.2 ⟨fun x h1 h2 => (g1 x h1 x h2).1 rfl, g2⟩
    refine valid_ext v2 v3 fun aft k hr => ?_
    change tcov l aft k = tcov r aft k
    cases aft
    · cases k with
      | bot => exact absurd (hr.2 rfl) (by simp)
      | top => exact absurd rfl hr.1
      | fin x =>
        have := Set.ext_iff.1 hp x
        rw [Selection.mem_pts dbg (s := ⟨l⟩) v2, Selection.mem_pts dbg (s := ⟨r⟩) v3, ← Bool.eq_iff_iff] at this
        exact this
    · rw [c1]
      cases k with
      | top => exact absurd rfl hr.1
      | bot =>
        rw [Bool.eq_false_iff, ne_eq, Bool.and_eq_true]
        rintro ⟨k1, k2⟩
        exact (g1 _ ((fi _).1 (di.2.symm.trans k1)) _ ((fj _).1 (dj.2.symm.trans k2))).1 rfl
      | fin x =>
        rw [Bool.eq_false_iff, ne_eq, Bool.and_eq_true, near i fi di, near j fj dj]
        rintro ⟨k1 | ⟨y, k1, k2⟩, k3 | ⟨z, k3, k4⟩⟩
        · exact (g1 x k1 x k3).1 rfl
        · exact (g1 x k1 z k3).2.1 k4
        · exact (g1 y k1 x k3).2.2 k2
        · rw [k2] at k4; cases k4
          exact (g1 y k1 y k3).1 rfl

/-- `[4,5]` added, `[6,7]` removed: the same values, not the same selection. -/
example : (do (← (Selection.demo []).unionInPlace true (.mkClosed (u8 4) (u8 5))).minusInPlace true (.mkClosed (u8 6) (u8 7))) =
      .ok ⟨[.lower (.excl (u8 3)), .upper (.incl (u8 5))]⟩ ∧
    (do (← (Selection.demo []).minusInPlace true (.mkClosed (u8 6) (u8 7))).unionInPlace true (.mkClosed (u8 4) (u8 5))) =
      .ok ⟨[.lower (.excl (u8 3)), .upper (.excl (u8 6))]⟩ ∧
    (do (← (Selection.demo []).unionInPlace true (.mkClosed (u8 4) (u8 5))).minusInPlace true (.mkClosed (u8 7) (u8 8))) =
    (do (← (Selection.demo []).minusInPlace true (.mkClosed (u8 7) (u8 8))).unionInPlace true (.mkClosed (u8 4) (u8 5))) := by
  decide

end Sel

end NI
