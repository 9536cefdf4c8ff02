import Verif.Lemmas.BackwardAny

/-!
# C133: what iterating from the back gives
-/

set_option linter.unusedSimpArgs false
set_option linter.unusedVariables false
set_option linter.unusedSectionVars false

namespace NI
open _root_.NI.Finite TT

section Tree
variable {α : Type} [LinearOrder α]

/-- Iterating a tree from the back in a build with debug assertions: every other interval of each group of intervals
that single missing points join, if all groups are of odd length; otherwise an assertion fails. -/
theorem C133_tree_debug (dbg : Bool) (t : TineTree α) (ht : t.Reachable) (is : List (RawInterval α))
    (his : TineTree.intervals dbg t = .ok is) :
    TineTree.intervalsBack true t = (match backDebug is.reverse with
      | some l => .ok l
      | none => .error .debugAssert) := by
  have h := reachable_valid ht
  rw [TT.intervals_eq dbg h] at his
  cases his
  exact intervalsBack_debug h

example : (TineTree.demo [.opn 0 2, .opn 2 6, .opn 6 8, .closed 20 30]).Reachable ∧
    TineTree.intervals true (TineTree.demo [.opn 0 2, .opn 2 6, .opn 6 8, .closed 20 30]) =
      .ok [.opn 0 2, .opn 2 6, .opn 6 8, .closed 20 30] ∧
    backDebug [.closed 20 30, .opn 6 8, .opn 2 6, .opn (0 : Int) 2] = some [.closed 20 30, .opn 6 8, .opn 0 2] :=
  ⟨TineTree.fromIter_reachable (dbg := true) (is := [.opn 0 2, .opn 2 6, .opn 6 8, .closed 20 30]) (by decide)
    (by decide), by decide, by decide⟩

/-- In a build without debug assertions there is no panic, and the gaps between the intervals may be listed in the place of
the intervals. -/
theorem C133_tree_release (dbg : Bool) (t : TineTree α) (ht : t.Reachable) (is : List (RawInterval α))
    (his : TineTree.intervals dbg t = .ok is) :
    TineTree.intervalsBack false t = .ok (backRelease .list is.reverse) := by
  have h := reachable_valid ht
  rw [TT.intervals_eq dbg h] at his
  cases his
  exact intervalsBack_release h

example : (TineTree.demo [.opn 0 2, .opn 4 6, .opn 6 8]).Reachable ∧
    TineTree.intervals true (TineTree.demo [.opn 0 2, .opn 4 6, .opn 6 8]) = .ok [.opn 0 2, .opn 4 6, .opn 6 8] ∧
    backRelease .list [.opn 6 8, .opn 4 6, .opn (0 : Int) 2] = [.opn 6 8, .opn 2 4, .empty] :=
  ⟨TineTree.fromIter_reachable (dbg := true) (is := [.opn 0 2, .opn 4 6, .opn 6 8]) (by decide) (by decide), by decide,
    by decide⟩

/-- So the assertion fails exactly if an even number of intervals is joined somewhere. -/
theorem C133_tree_panic (dbg : Bool) (t : TineTree α) (ht : t.Reachable) (is : List (RawInterval α))
    (his : TineTree.intervals dbg t = .ok is) :
    (∃ p, TineTree.intervalsBack true t = .error p) ↔ ∃ g ∈ groups RawInterval.joined is.reverse, g.length % 2 = 0 := by
  rw [C133_tree_debug dbg t ht is his, backDebug]
  by_cases c : (groups RawInterval.joined is.reverse).all (fun g => g.length % 2 == 1) = true
  · rw [if_pos c]
    simp at c
    simp only [reduceCtorEq, exists_false, false_iff, not_exists, not_and]
    intro g hg
    have := c g hg
    omega
  · rw [if_neg c]
    simp at c
    obtain ⟨g, hg, h⟩ := c
    exact ⟨fun _ => ⟨g, hg, h⟩, fun _ => ⟨_, rfl⟩⟩

example : (TineTree.demo [.opn 0 2, .opn 4 6, .opn 6 8]).Reachable ∧
    (groups RawInterval.joined [.opn 6 8, .opn 4 6, .opn (0 : Int) 2]) = [[.opn 6 8, .opn 4 6], [.opn 0 2]] :=
  ⟨TineTree.fromIter_reachable (dbg := true) (is := [.opn 0 2, .opn 4 6, .opn 6 8]) (by decide) (by decide), by decide⟩

/-- Whatever is listed without a failed assertion is also listed without assertions. -/
theorem C133_tree_agree (t : TineTree α) (ht : t.Reachable) (l : List (RawInterval α))
    (h : TineTree.intervalsBack true t = .ok l) : TineTree.intervalsBack false t = .ok l := by
  have v := reachable_valid ht
  rw [intervalsBack_debug v] at h
  rw [intervalsBack_release v]
  rw [← (backD_groups _).1] at h
  cases hb : backD true (pieces none t).reverse with
  | none => rw [hb] at h; cases h
  | some l' => rw [hb] at h; cases h; rw [(backD_release _).1 _ hb]

example : (TineTree.demo [.opn 0 2, .opn 2 6, .opn 6 8]).Reachable ∧
    TineTree.intervalsBack true (TineTree.demo [.opn 0 2, .opn 2 6, .opn 6 8]) = .ok [.opn 6 8, .opn 0 2] :=
  ⟨TineTree.fromIter_reachable (dbg := true) (is := [.opn 0 2, .opn 2 6, .opn 6 8]) (by decide) (by decide), by decide⟩

/-- And it consists of intervals of the tree, in descending order. -/
theorem C133_tree_sublist (dbg : Bool) (t : TineTree α) (ht : t.Reachable) (is l : List (RawInterval α))
    (his : TineTree.intervals dbg t = .ok is) (h : TineTree.intervalsBack true t = .ok l) :
    l.Sublist is.reverse := by
  rw [C133_tree_debug dbg t ht is his, ← (backD_groups _).1] at h
  cases hb : backD true is.reverse with
  | none => rw [hb] at h; cases h
  | some l' => rw [hb] at h; cases h; exact (backD_sublist _).1 _ hb

example : (TineTree.demo [.opn 0 2, .opn 2 6, .opn 6 8]).Reachable ∧
    TineTree.intervalsBack true (TineTree.demo [.opn 0 2, .opn 2 6, .opn 6 8]) = .ok [.opn 6 8, .opn 0 2] :=
  ⟨TineTree.fromIter_reachable (dbg := true) (is := [.opn 0 2, .opn 2 6, .opn 6 8]) (by decide) (by decide), by decide⟩

/-- Without assertions intervals outside the tree are listed, with points that the tree does not contain, and an empty
one. With three intervals in the group no assertion fails and the one in the middle is lost. -/
theorem C133_tree_counterexample :
    (∃ t : TineTree Int, t.Reachable ∧
      TineTree.intervals true t = .ok [.opn 0 2, .opn 4 6, .opn 6 8] ∧
      TineTree.intervalsBack true t = .error .debugAssert ∧
      TineTree.intervalsBack false t = .ok [.opn 6 8, .opn 2 4, .empty]) ∧
    ∃ t : TineTree Int, t.Reachable ∧
      TineTree.intervals true t = .ok [.opn 0 2, .opn 2 6, .opn 6 8] ∧
      TineTree.intervalsBack true t = .ok [.opn 6 8, .opn 0 2] :=
  ⟨⟨TineTree.demo [.opn 0 2, .opn 4 6, .opn 6 8],
      TineTree.fromIter_reachable (dbg := true) (is := [.opn 0 2, .opn 4 6, .opn 6 8]) (by decide) (by decide),
      by decide, by decide, by decide⟩,
    TineTree.demo [.opn 0 2, .opn 2 6, .opn 6 8],
      TineTree.fromIter_reachable (dbg := true) (is := [.opn 0 2, .opn 2 6, .opn 6 8]) (by decide) (by decide),
      by decide, by decide⟩

end Tree

section Selection
variable {α : Type} [LinearOrder α] [Finite α] [LawfulFinite α]

/-- Selections built by unions, with debug assertions: the runs that single missing values keep apart form groups; of
each group every other run is listed; if a group has an even number of runs an assertion fails. -/
theorem C133_debug (dbg : Bool) (s : Selection α) (hs : s.UnionBuilt) (is : List (Interval α))
    (his : s.intervals dbg = .ok is) :
    s.intervalsBack true =
      if (groups Interval.oneApart is.reverse).all (fun g => g.length % 2 == 1) then
        .ok ((groups Interval.oneApart is.reverse).flatMap everyOther)
      else .error .debugAssert := by
  have v := Selection.reachable_valid hs.reachable
  rw [Selection.intervals_eq dbg v] at his
  cases his
  have hg := Selection.np_good v hs.do.np
  have e : groups Interval.oneApart ((pieces none s.tree).map Selection.run).reverse =
      (groups RawInterval.joined (pieces none s.tree).reverse).map (List.map Selection.run) := by
    rw [← List.map_reverse]
    refine groups_map _ _ _ _ fun a ha b hb => ?_
    rw [List.mem_reverse] at ha hb
    exact oneApart_run (hg a ha) (hs.do.open v ha) (hg b hb) (hs.do.open v hb)
  rw [Selection.intervalsBack_map, intervalsBack_debug v, backDebug, e]
  exact Selection.back_of_groups _

example : (Selection.demo [(u8 1, u8 3), (u8 5, u8 5), (u8 7, u8 9), (u8 20, u8 30)]).UnionBuilt ∧
    (Selection.demo [(u8 1, u8 3), (u8 5, u8 5), (u8 7, u8 9), (u8 20, u8 30)]).intervals true = .ok
      [⟨.closed (u8 1) (u8 3)⟩, ⟨.closed (u8 5) (u8 5)⟩, ⟨.closed (u8 7) (u8 9)⟩, ⟨.closed (u8 20) (u8 30)⟩] ∧
    (Selection.demo [(u8 1, u8 3), (u8 5, u8 5), (u8 7, u8 9), (u8 20, u8 30)]).intervalsBack true = .ok
      [⟨.closed (u8 20) (u8 30)⟩, ⟨.closed (u8 7) (u8 9)⟩, ⟨.closed (u8 1) (u8 3)⟩] :=
  ⟨Selection.demo_built _ (by decide), by decide, by decide⟩

/-- So the assertion fails exactly if an even number of runs is kept apart by single missing values somewhere. -/
theorem C133_panic (dbg : Bool) (s : Selection α) (hs : s.UnionBuilt) (is : List (Interval α))
    (his : s.intervals dbg = .ok is) :
    (∃ p, s.intervalsBack true = .error p) ↔ ∃ g ∈ groups Interval.oneApart is.reverse, g.length % 2 = 0 := by
  rw [C133_debug dbg s hs is his]
  by_cases c : (groups Interval.oneApart is.reverse).all (fun g => g.length % 2 == 1) = true
  · rw [if_pos c]
    simp at c
    simp only [reduceCtorEq, exists_false, false_iff, not_exists, not_and]
    intro g hg
    have := c g hg
    omega
  · rw [if_neg c]
    simp at c
    obtain ⟨g, hg, h⟩ := c
    exact ⟨fun _ => ⟨g, hg, h⟩, fun _ => ⟨_, rfl⟩⟩

example : (Selection.demo [(u8 1, u8 3), (u8 5, u8 5)]).UnionBuilt ∧
    (Selection.demo [(u8 1, u8 3), (u8 5, u8 5)]).intervals true = .ok [⟨.closed (u8 1) (u8 3)⟩, ⟨.closed (u8 5) (u8 5)⟩] ∧
    (Selection.demo [(u8 1, u8 3), (u8 5, u8 5)]).intervalsBack true = .error .debugAssert :=
  ⟨Selection.demo_built _ (by decide), by decide, by decide⟩

open Classical in
/-- The same for selections of any history, as long as every interval listed has a value: the missing values that count
are those that the complement lists as `Interval::point`. -/
theorem C133_any (dbg : Bool) (s : Selection α) (hs : s.Reachable) (is : List (Interval α))
    (his : s.intervals dbg = .ok is) (hne : ∀ i ∈ is, i.pts.Nonempty) :
    s.intervalsBack true =
      if (groups (fun a b => decide (s.ApartBy dbg a b)) is.reverse).all (fun g => g.length % 2 == 1) then
        .ok ((groups (fun a b => decide (s.ApartBy dbg a b)) is.reverse).flatMap everyOther)
      else .error .debugAssert := by
  have v := Selection.reachable_valid hs
  rw [Selection.intervals_eq dbg v] at his
  cases his
  have hg : ∀ i ∈ pieces none s.tree, Selection.Good i := fun i hi =>
    ⟨((pieces_wf v.1).1 i hi).1, by
      obtain ⟨x, hx⟩ := hne _ (List.mem_map.2 ⟨i, hi, rfl⟩)
      rw [Selection.run_pts] at hx
      exact ⟨x, hx⟩⟩
  have e : groups (fun a b => decide (s.ApartBy dbg a b)) ((pieces none s.tree).map Selection.run).reverse =
      (groups RawInterval.joined (pieces none s.tree).reverse).map (List.map Selection.run) := by
    rw [← List.map_reverse]
    refine groups_map _ _ _ _ fun a ha b hb => ?_
    rw [List.mem_reverse] at ha hb
    rw [Bool.eq_iff_iff, decide_eq_true_iff]
    exact Selection.apartBy_run dbg v hg ha hb
  rw [Selection.intervalsBack_map, intervalsBack_debug v, backDebug, e]
  exact Selection.back_of_groups _ 

/-- The complement of `{5}` lacks one value, but not in the way that disturbs `next_back`. -/
example : ∃ s : Selection U8, s.Reachable ∧ s.intervals true = .ok [⟨.closed (u8 0) (u8 4)⟩, ⟨.closed (u8 6) (u8 255)⟩] ∧
    s.intervalsBack true = .ok [⟨.closed (u8 6) (u8 255)⟩, ⟨.closed (u8 0) (u8 4)⟩] :=
  ⟨((Selection.demo [(u8 5, u8 5)]).complement true).toOption.getD .new,
    .complement (dbg := true) (Selection.demo_built [(u8 5, u8 5)] (by decide)).reachable (by decide), by decide, by decide⟩

/-- Without assertions no selection panics, whatever its history. -/
theorem C133_release (s : Selection α) (hs : s.Reachable) : ∃ l, s.intervalsBack false = .ok l := by
  rw [Selection.intervalsBack_map, intervalsBack_release (Selection.reachable_valid hs)]
  exact ⟨_, rfl⟩

/-- What is listed with assertions, for any history, are runs of the selection in descending order, and a build without
assertions lists the same. -/
theorem C133_sound (dbg : Bool) (s : Selection α) (hs : s.Reachable) (is l : List (Interval α))
    (his : s.intervals dbg = .ok is) (h : s.intervalsBack true = .ok l) :
    l.Sublist is.reverse ∧ s.intervalsBack false = .ok l := by
  have v := Selection.reachable_valid hs
  rw [Selection.intervals_eq dbg v] at his
  cases his
  rw [Selection.intervalsBack_map, intervalsBack_debug v, ← (backD_groups _).1] at h
  rw [Selection.intervalsBack_map, intervalsBack_release v]
  cases hb : backD true (pieces none s.tree).reverse with
  | none => rw [hb] at h; cases h
  | some l' =>
    rw [hb] at h; cases h
    rw [(backD_release _).1 _ hb]
    refine ⟨?_, rfl⟩
    rw [← List.map_reverse]
    exact ((backD_sublist _).1 _ hb).map _

example : (Selection.demo [(u8 1, u8 1), (u8 3, u8 3), (u8 5, u8 5)]).Reachable ∧
    (Selection.demo [(u8 1, u8 1), (u8 3, u8 3), (u8 5, u8 5)]).intervalsBack true = .ok
      [⟨.closed (u8 5) (u8 5)⟩, ⟨.closed (u8 1) (u8 1)⟩] :=
  ⟨(Selection.demo_built _ (by decide)).reachable, by decide⟩

/-- Without assertions, iterating `{1, 5, 7}` from the back lists `7`, then `3`, which is not in the selection, then an
empty interval. -/
theorem C133_counterexample :
    ∃ s : Selection U8, s.UnionBuilt ∧
      s.intervals false = .ok [⟨.closed (u8 1) (u8 1)⟩, ⟨.closed (u8 5) (u8 5)⟩, ⟨.closed (u8 7) (u8 7)⟩] ∧
      s.intervalsBack true = .error .debugAssert ∧
      s.intervalsBack false = .ok [⟨.closed (u8 7) (u8 7)⟩, ⟨.closed (u8 3) (u8 3)⟩, .empty] ∧
      s.contains false (u8 3) = .ok false :=
  ⟨Selection.demo [(u8 1, u8 1), (u8 5, u8 5), (u8 7, u8 7)], Selection.demo_built _ (by decide), by decide, by decide,
    by decide, by decide⟩

end Selection
end NI
