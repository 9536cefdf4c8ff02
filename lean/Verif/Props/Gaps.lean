import Verif.Lemmas.Gaps
import Verif.Props.PiecewiseSel

/-!
# C114: the complement lists the gaps
-/

set_option linter.unusedSectionVars false

namespace NI
open TT

section Tree
variable {α : Type} [LinearOrder α]

/-- **C114.**  The complement of a tree lists what lies before, between and after its intervals, in this order. -/
theorem C114_complement (dbg : Bool) (t : TineTree α) (ht : t.Reachable) (is : List (RawInterval α))
    (his : t.intervals dbg = .ok is) :
    ∃ t', t.complement dbg = .ok t' ∧ t'.Reachable ∧ t'.intervals dbg = .ok (RawInterval.gaps is) := by
  have v := TT.reachable_valid ht
  rw [TT.intervals_eq dbg v] at his; cases his
  obtain ⟨t', e, v', c⟩ := TT.complement_ok dbg v
  have hlow : ∀ b : Bound α, some (.inf : Bound α) = some b → ∀ i ∈ TT.pieces none t, ∀ l, i.lowerBound = some l →
      (∀ w, l.turned = some w → b.Compat w) ∧ ∀ aft k, RealPos aft k → lowS l aft k → lowS b aft k := by
    rintro b hb i - l -
    cases hb
    exact ⟨fun w _ => by cases w <;> trivial, fun aft k hr _ => inf_low hr⟩
  obtain ⟨g1, g2, g3⟩ := gapsFrom_ok (TT.pieces none t) (TT.pieces_wf v.1).1 (TT.pieces_sep v.1).1 (some .inf)
    (by simp) hlow
  refine ⟨t', e, TT.valid_reachable v', ?_⟩
  rw [TT.intervals_eq dbg v', RawInterval.gaps, ← gapsFrom_eq, TT.pieces_unique v'
    (fun g hg => ⟨(g1 g hg).1, (g1 g hg).2.1⟩) g2 fun aft k hr => ?_]
  rw [c aft k hr, Bool.eq_iff_iff, g3 aft k hr, TT.tcov_any v, Bool.not_eq_true']
  simp [inf_low hr]

example : (TineTree.demo [.closed 0 3, .opn 4 6, .opn 6 9]).Reachable ∧
    TineTree.intervals true (TineTree.demo [.closed 0 3, .opn 4 6, .opn 6 9]) =
      .ok [.closed 0 3, .opn 4 6, .opn 6 9] ∧
    RawInterval.gaps [.closed (0 : Int) 3, .opn 4 6, .opn 6 9] = [.upTo 0, .leftOpen 3 4, .point 6, .frm 9] :=
  ⟨TineTree.fromIter_reachable (dbg := true) (is := [.closed 0 3, .opn 4 6, .opn 6 9])
    (by simp [RawInterval.WF]) rfl, by decide, by decide⟩

end Tree

section Sel
open _root_.NI.Finite
variable {α : Type} [LinearOrder α] [Finite α] [LawfulFinite α]

theorem gap_pts {lo hi : Option (Bound α)} {lo' hi' : Option α}
    (hl : lo = lo'.map .incl ∨ lo = some .inf ∧ lo' = some minimum)
    (hu : hi = hi'.map .incl ∨ hi = some .inf ∧ hi' = some maximum) :
    (gap lo hi).toList.map RawInterval.pts =
      (lo'.bind fun l => hi'.map fun u => Interval.mkClosed l u).toList.map Interval.pts := by
  have key : ∀ l u : α, (Interval.mkClosed l u).pts = Set.Icc l u := fun l u => by
    rw [Interval.mkClosed, Interval.pts_eq, RawInterval.normalized_pts]
    ext x
    rw [← RawInterval.contains_iff]
    rcases lt_trichotomy l u with h | h | h
    · simp [RawInterval.mkClosed, h, RawInterval.contains]
    · subst h; simp [RawInterval.mkClosed, RawInterval.contains, eq_comm]
    · simp only [RawInterval.mkClosed, h.not_gt, h.ne', if_false, RawInterval.contains, Set.mem_Icc]
      simp only [Bool.false_eq_true, false_iff, not_and, not_le]
      exact fun h' => h.trans_le h'
  have key' : ∀ l u : α, (RawInterval.mkClosed l u).pts = Set.Icc l u := fun l u => by
    rw [← key, Interval.mkClosed, Interval.pts_eq, RawInterval.normalized_pts]
  rcases hl with rfl | ⟨rfl, rfl⟩ <;> rcases hu with rfl | ⟨rfl, rfl⟩
  · cases lo' <;> cases hi' <;> simp [gap, RawInterval.new, key, key']
  · cases lo' with
    | none => rfl
    | some l =>
      simp only [gap, Option.map_some, Option.bind_some, RawInterval.new, Option.toList_some, List.map_cons,
        List.map_nil, key]
      congr 1
      ext x
      simp [RawInterval.pts, le_maximum]
  · cases hi' with
    | none => rfl
    | some u =>
      simp only [gap, Option.map_some, Option.bind_some, RawInterval.new, Option.toList_some, List.map_cons,
        List.map_nil, key]
      congr 1
      ext x
      simp [RawInterval.pts, minimum_le]
  · simp only [gap, Option.map_some, Option.bind_some, RawInterval.new, Option.toList_some, List.map_cons,
      List.map_nil, key]
    congr 1
    ext x
    simp [RawInterval.pts, minimum_le, le_maximum]

theorem gaps_pts (ps : List (RawInterval α)) (hp : ∀ p ∈ ps, ∃ l u, l ≤ u ∧
      p = (RawInterval.closed l u).denormalized ∧ (Selection.run p).raw = .closed l u) :
    ∀ {lo : Option (Bound α)} {lo' : Option α}, (lo = lo'.map .incl ∨ lo = some .inf ∧ lo' = some minimum) →
    (gapsFrom lo ps).map RawInterval.pts =
      (((lo' :: (ps.map Selection.run).map fun i => i.supremum.bind succ).zip
        (((ps.map Selection.run).map fun i => i.infimum.bind pred) ++ [some maximum])).filterMap fun p =>
          p.1.bind fun l => p.2.map fun u => Interval.mkClosed l u).map Interval.pts := by
  have cons : ∀ (a : Option α × Option α) (L : List (Option α × Option α)),
      ((a :: L).filterMap fun p => p.1.bind fun l => p.2.map fun u => Interval.mkClosed l u) =
      (a.1.bind fun l => a.2.map fun u => Interval.mkClosed l u).toList ++
        L.filterMap fun p => p.1.bind fun l => p.2.map fun u => Interval.mkClosed l u := by
    rintro ⟨a, b⟩ L
    cases a <;> cases b <;> simp
  induction ps with
  | nil =>
    intro lo lo' h
    simp only [gapsFrom, List.map_nil, List.nil_append, List.zip_cons_cons, List.zip_nil_right, cons,
      List.filterMap_nil, List.append_nil]
    exact gap_pts h (.inr ⟨rfl, rfl⟩)
  | cons p ps ih =>
    intro lo lo' h
    obtain ⟨l, u, hlu, e, e'⟩ := hp p (.head _)
    obtain ⟨b1, b2, -⟩ := RawInterval.denorm_bounds l u
    rw [← e] at b1 b2
    have s1 : (Selection.run p).infimum = some l := by
      simp [Interval.infimum, e', RawInterval.infimum, RawInterval.lowerBound]
    have s2 : (Selection.run p).supremum = some u := by
      simp [Interval.supremum, e', RawInterval.supremum, RawInterval.upperBound]
    have t1 : p.lowerBound.bind Bound.turned = (pred l).map .incl := by
      rw [b1]; cases pred l <;> rfl
    have t2 : p.upperBound.bind Bound.turned = (succ u).map .incl := by
      rw [b2]; cases succ u <;> rfl
    rw [gapsFrom, List.map_append, ih (fun q hq => hp q (.tail _ hq)) (lo' := succ u) (.inl t2),
      gap_pts h (hi' := pred l) (.inl t1)]
    simp only [List.map_cons, List.cons_append, List.zip_cons_cons, cons, List.map_append, s1, s2,
      Option.bind_some]

/-- **C114.**  The complement of a selection made by unions lists the runs of missing values: those less than the first
interval, between two intervals and greater than the last one. -/
theorem C114_selection_complement (dbg : Bool) (s : Selection α) (hs : s.UnionBuilt) (is : List (Interval α))
    (his : s.intervals dbg = .ok is) :
    ∃ s' js, s.complement dbg = .ok s' ∧ s'.Reachable ∧ s'.intervals dbg = .ok js ∧
      js.map Interval.pts = (Interval.gaps is).map Interval.pts := by
  have v := Selection.reachable_valid hs.reachable
  obtain ⟨t', e, r, h⟩ := C114_complement dbg s.tree (valid_reachable v) _ (TT.intervals_eq dbg v)
  have e' : s.complement dbg = .ok ⟨t'⟩ := by rw [Selection.complement, e]; rfl
  have hr : (⟨t'⟩ : Selection α).Reachable := .complement hs.reachable e'
  obtain ⟨g1, g2⟩ := Selection.list_of_tree dbg (s := ⟨t'⟩) hr h
  rw [Selection.intervals_eq dbg v, Except.ok.injEq] at his
  subst his
  refine ⟨_, _, e', hr, g1, g2.trans ?_⟩
  rw [RawInterval.gaps, ← gapsFrom_eq, gaps_pts (pieces none s.tree) (fun p hp =>
    OpenIv.denorm (DO.open v hs.do hp) (hs.do.np.piece v hp)) (.inr ⟨rfl, rfl⟩)]
  rfl

example : (Selection.demo [(u8 0, u8 2), (u8 5, u8 5), (u8 9, u8 11)]).UnionBuilt ∧
    (Selection.demo [(u8 0, u8 2), (u8 5, u8 5), (u8 9, u8 11)]).intervals true =
      .ok [.mkClosed (u8 0) (u8 2), ⟨.closed (u8 5) (u8 5)⟩, .mkClosed (u8 9) (u8 11)] ∧
    Interval.gaps [.mkClosed (u8 0) (u8 2), ⟨.closed (u8 5) (u8 5)⟩, .mkClosed (u8 9) (u8 11)] =
      [.mkClosed (u8 3) (u8 4), .mkClosed (u8 6) (u8 8), .mkClosed (u8 12) (u8 255)] :=
  ⟨Selection.demo_built _ (by decide), by decide, by decide⟩

end Sel
end NI
