import Verif.Lemmas.BackPoints

/-!
# C134: what iterating the values from the back gives
-/

set_option linter.unusedVariables false
set_option linter.unusedSectionVars false

namespace NI
open _root_.NI.Finite TT

variable {α : Type} [LinearOrder α] [Finite α] [LawfulFinite α]

theorem Selection.built_groups (dbg : Bool) {s : Selection α} (hs : s.UnionBuilt) {is : List (Interval α)}
    (his : s.intervals dbg = .ok is) : groups Interval.oneApart is.reverse =
      (groups RawInterval.joined (pieces none s.tree).reverse).map (List.map Selection.run) := by
  have v := Selection.reachable_valid hs.reachable
  have hg := Selection.np_good v hs.do.np
  rw [Selection.intervals_eq dbg v] at his
  cases his
  rw [← List.map_reverse]
  refine groups_map _ _ _ _ fun a ha b hb => ?_
  rw [List.mem_reverse] at ha hb
  exact oneApart_run (hg a ha) (hs.do.open v ha) (hg b hb) (hs.do.open v hb)

/-- The values of a selection built by unions from the back, with debug assertions: every call gives the greatest value
not yet returned of those in every other run of each group, up to the first group with an even number of runs; after all
of them comes `None` for good if there is no such group, and otherwise a failed assertion. -/
theorem C134_debug (dbg : Bool) (s : Selection α) (hs : s.UnionBuilt) (is : List (Interval α))
    (his : s.intervals dbg = .ok is) (gs : List (List (Interval α))) (hgs : gs = groups Interval.oneApart is.reverse)
    (S : Set α) (hS : S = {x | ∃ i ∈ (throughEven gs).flatMap everyOther, x ∈ i.pts}) (n : Nat) :
    (∃ os, drive (PointIter.next true) (PointIter.nextBack true) (PointIter.start s) (List.replicate n .nextBack) = .ok os ∧
      Walk S (List.replicate n .nextBack) os ∧ ((∃ g ∈ gs, g.length % 2 = 0) → none ∉ os)) ∨
    ((∃ g ∈ gs, g.length % 2 = 0) ∧
      drive (PointIter.next true) (PointIter.nextBack true) (PointIter.start s) (List.replicate n .nextBack) =
        .error .debugAssert ∧
      ∃ m os, m < n ∧
        drive (PointIter.next true) (PointIter.nextBack true) (PointIter.start s) (List.replicate m .nextBack) = .ok os ∧
        ∀ x ∈ S, some x ∈ os) := by
  have v := Selection.reachable_valid hs.reachable
  subst hS
  exact (Selection.back_values n v (Selection.np_good v hs.do.np) (hgs.trans (Selection.built_groups dbg hs his))).1

/-- `{1, 2, 4, 9, 10}`: `10` and `9` make a group of their own, `4` is listed, then the assertion fails. -/
example : (Selection.demo [(u8 1, u8 2), (u8 4, u8 4), (u8 9, u8 10)]).UnionBuilt ∧
    (Selection.demo [(u8 1, u8 2), (u8 4, u8 4), (u8 9, u8 10)]).intervals true =
      .ok [⟨.closed (u8 1) (u8 2)⟩, ⟨.closed (u8 4) (u8 4)⟩, ⟨.closed (u8 9) (u8 10)⟩] ∧
    groups Interval.oneApart [⟨.closed (u8 9) (u8 10)⟩, ⟨.closed (u8 4) (u8 4)⟩, ⟨.closed (u8 1) (u8 2)⟩] =
      [[⟨.closed (u8 9) (u8 10)⟩], [⟨.closed (u8 4) (u8 4)⟩, ⟨.closed (u8 1) (u8 2)⟩]] ∧
    drive (PointIter.next true) (PointIter.nextBack true)
      (PointIter.start (Selection.demo [(u8 1, u8 2), (u8 4, u8 4), (u8 9, u8 10)])) (List.replicate 3 .nextBack) =
      .ok [some (u8 10), some (u8 9), some (u8 4)] ∧
    drive (PointIter.next true) (PointIter.nextBack true)
      (PointIter.start (Selection.demo [(u8 1, u8 2), (u8 4, u8 4), (u8 9, u8 10)])) (List.replicate 4 .nextBack) =
      .error .debugAssert :=
  ⟨Selection.demo_built _ (by decide), by decide, by decide, by decide, by decide⟩

/-- If all groups are odd, both kinds of build list every other run of each group. -/
theorem C134_odd (dbg : Bool) (s : Selection α) (hs : s.UnionBuilt) (is : List (Interval α))
    (his : s.intervals dbg = .ok is) (hodd : ∀ g ∈ groups Interval.oneApart is.reverse, g.length % 2 = 1) (dbg' : Bool)
    (n : Nat) :
    ∃ os, drive (PointIter.next dbg') (PointIter.nextBack dbg') (PointIter.start s) (List.replicate n .nextBack) = .ok os ∧
      Walk {x | ∃ i ∈ (groups Interval.oneApart is.reverse).flatMap everyOther, x ∈ i.pts}
        (List.replicate n .nextBack) os := by
  have v := Selection.reachable_valid hs.reachable
  have e : throughEven (groups Interval.oneApart is.reverse) = groups Interval.oneApart is.reverse :=
    throughEven_odd hodd
  have key := Selection.back_values n v (Selection.np_good v hs.do.np) (Selection.built_groups dbg hs his)
  rw [e] at key
  cases dbg' with
  | false => exact key.2 hodd
  | true =>
    rcases key.1 with ⟨os, h1, h2, _⟩ | ⟨⟨g, h1, h2⟩, _⟩
    · exact ⟨os, h1, h2⟩
    · have := hodd g h1; omega

example : (Selection.demo [(u8 1, u8 2), (u8 4, u8 4), (u8 6, u8 6)]).UnionBuilt ∧
    (groups Interval.oneApart [⟨.closed (u8 6) (u8 6)⟩, ⟨.closed (u8 4) (u8 4)⟩, ⟨.closed (u8 1) (u8 2)⟩]).length = 1 ∧
    drive (PointIter.next false) (PointIter.nextBack false)
      (PointIter.start (Selection.demo [(u8 1, u8 2), (u8 4, u8 4), (u8 6, u8 6)])) (List.replicate 5 .nextBack) =
      .ok [some (u8 6), some (u8 2), some (u8 1), none, none] :=
  ⟨Selection.demo_built _ (by decide), by decide, by decide⟩

open Classical in
/-- Selections of any history, as long as every interval listed has a value; grouped by the missing values that the
complement lists as `Interval::point`. -/
theorem C134_any (dbg : Bool) (s : Selection α) (hs : s.Reachable) (is : List (Interval α))
    (his : s.intervals dbg = .ok is) (hne : ∀ i ∈ is, i.pts.Nonempty) (gs : List (List (Interval α)))
    (hgs : gs = groups (fun a b => decide (s.ApartBy dbg a b)) is.reverse)
    (S : Set α) (hS : S = {x | ∃ i ∈ (throughEven gs).flatMap everyOther, x ∈ i.pts}) (n : Nat) :
    (∃ os, drive (PointIter.next true) (PointIter.nextBack true) (PointIter.start s) (List.replicate n .nextBack) = .ok os ∧
      Walk S (List.replicate n .nextBack) os ∧ ((∃ g ∈ gs, g.length % 2 = 0) → none ∉ os)) ∨
    ((∃ g ∈ gs, g.length % 2 = 0) ∧
      drive (PointIter.next true) (PointIter.nextBack true) (PointIter.start s) (List.replicate n .nextBack) =
        .error .debugAssert ∧
      ∃ m os, m < n ∧
        drive (PointIter.next true) (PointIter.nextBack true) (PointIter.start s) (List.replicate m .nextBack) = .ok os ∧
        ∀ x ∈ S, some x ∈ os) := by
  have v := Selection.reachable_valid hs
  have his' := his
  rw [Selection.intervals_eq dbg v] at his
  cases his
  have hg : ∀ i ∈ pieces none s.tree, Selection.Good i := fun i hi =>
    ⟨((pieces_wf v.1).1 i hi).1, by
      obtain ⟨x, hx⟩ := hne _ (List.mem_map.2 ⟨i, hi, rfl⟩)
      rw [Selection.run_pts] at hx
      exact ⟨x, hx⟩⟩
  have e : gs = (groups RawInterval.joined (pieces none s.tree).reverse).map (List.map Selection.run) := by
    rw [hgs, ← List.map_reverse]
    refine groups_map _ _ _ _ fun a ha b hb => ?_
    rw [List.mem_reverse] at ha hb
    rw [Bool.eq_iff_iff, decide_eq_true_iff]
    exact Selection.apartBy_run dbg v hg ha hb
  subst hS
  exact (Selection.back_values n v hg e).1

/-- The complement of `{5}` lists `5` not as `Interval::point`, so all its values come. -/
example : ∃ s : Selection U8, s.Reachable ∧ s.intervals true = .ok [⟨.closed (u8 0) (u8 4)⟩, ⟨.closed (u8 6) (u8 255)⟩] ∧
    drive (PointIter.next true) (PointIter.nextBack true) (PointIter.start s) (List.replicate 2 .nextBack) =
      .ok [some (u8 255), some (u8 254)] :=
  ⟨((Selection.demo [(u8 5, u8 5)]).complement true).toOption.getD .new,
    .complement (dbg := true) (Selection.demo_built [(u8 5, u8 5)] (by decide)).reachable (by decide), by decide, by decide⟩

/-- Without debug assertions the values of `{1, 5, 7}` from the back are `7`, then `3`, which is not in the selection, then
`None`; those of `{1, 3, 5}` in either build are `5` and `1`. -/
theorem C134_counterexample :
    (∃ s : Selection U8, s.UnionBuilt ∧ s.intervals true = .ok [⟨.closed (u8 1) (u8 1)⟩, ⟨.closed (u8 5) (u8 5)⟩,
        ⟨.closed (u8 7) (u8 7)⟩] ∧
      drive (PointIter.next false) (PointIter.nextBack false) (PointIter.start s) (List.replicate 3 .nextBack) =
        .ok [some (u8 7), some (u8 3), none]) ∧
    ∃ s : Selection U8, s.UnionBuilt ∧ s.intervals true = .ok [⟨.closed (u8 1) (u8 1)⟩, ⟨.closed (u8 3) (u8 3)⟩,
        ⟨.closed (u8 5) (u8 5)⟩] ∧
      ∀ dbg, drive (PointIter.next dbg) (PointIter.nextBack dbg) (PointIter.start s) (List.replicate 3 .nextBack) =
        .ok [some (u8 5), some (u8 1), none] :=
  ⟨⟨Selection.demo [(u8 1, u8 1), (u8 5, u8 5), (u8 7, u8 7)], Selection.demo_built _ (by decide), by decide, by decide⟩,
    Selection.demo [(u8 1, u8 1), (u8 3, u8 3), (u8 5, u8 5)], Selection.demo_built _ (by decide), by decide, by decide⟩

end NI
