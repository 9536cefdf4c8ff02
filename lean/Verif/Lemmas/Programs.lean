import Verif.Lemmas.Refine
import Verif.Lemmas.More
import Verif.Lemmas.SelMore
import Verif.Props.SelectionMore

/-!
# Programs that cannot panic: lemmas for C69
-/

set_option linter.unusedSimpArgs false
set_option linter.unusedVariables false
set_option linter.unusedSectionVars false

namespace NI
open Finite TT

variable {α : Type} [LinearOrder α] [Finite α] [LawfulFinite α]

theorem Interval.next_any {i : Interval α} (h : i.Obtainable) :
    ∃ o i', Interval.next i = .ok (o, i') ∧ i'.Obtainable := by
  by_cases hr : i.Real
  · rcases Interval.iter_step h hr with ⟨-, e, -⟩ | ⟨⟨m, i', -, e, h', -, -⟩, -⟩
    · exact ⟨_, _, e, h⟩
    · exact ⟨_, _, e, h'⟩
  · obtain ⟨l, u, -, -, e, -⟩ := Interval.not_real_step h hr
    exact ⟨_, _, e, .empty⟩

namespace Selection

/-- Forward iteration over the points never panics. -/
theorem fwd_points_ok (dbg : Bool) (cs : List IterCall) (hcs : ∀ c ∈ cs, c = .next) :
    ∀ {ts : List (Tine α)} {saved : Option α} {cur : Interval α},
    (∀ t ∈ ts, t.Ok) → Chain saved.isSome ts false → cur.Obtainable →
    (∀ i ∈ pieces (saved.map .excl) ts, i.WF) →
    ∃ os, drive (PointIter.next dbg) (PointIter.nextBack dbg) ⟨itState ts saved, cur⟩ cs = .ok os := by
  induction cs with
  | nil => intros; exact ⟨[], rfl⟩
  | cons c cs ih =>
    intro ts saved cur hok hc ho hw
    obtain rfl := hcs c (by simp)
    obtain ⟨o, cur', e1, ho'⟩ := Interval.next_any ho
    cases o with
    | some x =>
      obtain ⟨os, e⟩ := ih (fun c h => hcs c (by simp [h])) hok hc ho' hw
      refine ⟨some x :: os, ?_⟩
      simp only [drive, PointIter.next, e1, bind, Except.bind, e]; rfl
    | none =>
      rcases next_step dbg ts saved hok hc with ⟨k1, k2, k3, k4⟩ |
        ⟨i, ts', saved', k1, k2, k3, k4, k5⟩
      · subst k1 k2
        obtain ⟨os, e⟩ := ih (fun c h => hcs c (by simp [h])) (ts := []) (saved := none) (by simp) rfl
          ho' hw
        refine ⟨none :: os, ?_⟩
        simp only [drive, PointIter.next, e1, intervalNext, k4, bind, Except.bind, Option.map_none, e]
        rfl
      · rw [k1] at hw
        obtain ⟨o, i', e2, ho2⟩ := Interval.next_any (i := run i) (.ofRaw i (hw i (by simp)))
        obtain ⟨os, e⟩ := ih (fun c h => hcs c (by simp [h])) (fun t ht => hok t (k4 t ht)) k2 ho2
          (fun j hj => hw j (by simp [hj]))
        refine ⟨o :: os, ?_⟩
        simp only [drive, PointIter.next, e1, intervalNext, k5, bind, Except.bind, Option.map_some,
          run_eq, e2, e]
        rfl

/-- Forward iteration over the intervals never panics. -/
theorem fwd_walk_ok (dbg : Bool) (cs : List IterCall) (hcs : ∀ c ∈ cs, c = .next) :
    ∀ {ts : List (Tine α)} {saved : Option α},
    (∀ t ∈ ts, t.Ok) → Chain saved.isSome ts false →
    ∃ os, drive (intervalNext dbg) (intervalNextBack dbg) (itState ts saved) cs = .ok os := by
  induction cs with
  | nil => intros; exact ⟨[], rfl⟩
  | cons c cs ih =>
    intro ts saved hok hc
    obtain rfl := hcs c (by simp)
    rcases next_step dbg ts saved hok hc with ⟨k1, k2, k3, k4⟩ | ⟨i, ts', saved', k1, k2, k3, k4, k5⟩
    · subst k1 k2
      obtain ⟨os, e⟩ := ih (fun c h => hcs c (by simp [h])) (ts := []) (saved := none) (by simp) rfl
      refine ⟨none :: os, ?_⟩
      simp only [drive, intervalNext, k4, bind, Except.bind, Option.map_none, e]; rfl
    · obtain ⟨os, e⟩ := ih (fun c h => hcs c (by simp [h])) (fun t ht => hok t (k4 t ht)) k2
      refine ⟨some (run i) :: os, ?_⟩
      simp only [drive, intervalNext, k5, bind, Except.bind, Option.map_some, run_eq, e]; rfl

end Selection

theorem SelProg.plain_built (dbg : Bool) {p : SelProg α} (h : p.Plain) :
    ∃ s, p.eval dbg = .ok s ∧ s.UnionBuilt := by
  have ob {is : List (Interval α)} (h : ∀ i ∈ is, i.Obtainable ∧ i.Real) : ∀ i ∈ is, i.Obtainable :=
    fun i hi => (h i hi).1
  induction p with
  | empty => exact ⟨_, rfl, .new⟩
  | full => exact ⟨_, rfl, .full⟩
  | interval i => exact ⟨_, rfl, .ofInterval h.1 h.2⟩
  | intervals is =>
    obtain ⟨s, e, -⟩ := Selection.extend_ok dbg Selection.new_valid (ob h)
    rw [← Selection.fromIntervals_eq] at e
    exact ⟨s, e, .fromIntervals h e⟩
  | points xs =>
    obtain ⟨s, e, -⟩ := Selection.extend_ok dbg Selection.new_valid (is := xs.map Interval.point)
      (fun i hi => by obtain ⟨p, _, rfl⟩ := List.mem_map.1 hi; exact .point p)
    rw [← Selection.fromIntervals_eq, ← Selection.fromPoints_eq] at e
    exact ⟨s, e, .fromPoints e⟩
  | union p q ihp ihq =>
    obtain ⟨a, ea, ha⟩ := ihp h.1
    obtain ⟨b, eb, hb⟩ := ihq h.2
    obtain ⟨s, e, -⟩ := Selection.union_ok dbg (Selection.reachable_valid ha.reachable)
      (Selection.reachable_valid hb.reachable)
    exact ⟨s, by simp only [eval, ea, eb, bind, Except.bind, e], .union ha hb e⟩
  | unionIn p i ih =>
    obtain ⟨a, ea, ha⟩ := ih h.1
    obtain ⟨s, e, -⟩ := Selection.unionInPlace_ok dbg (Selection.reachable_valid ha.reachable) h.2.1
    exact ⟨s, by simp only [eval, ea, bind, Except.bind, e], .unionInPlace ha h.2.1 h.2.2 e⟩
  | extend p is ih =>
    obtain ⟨a, ea, ha⟩ := ih h.1
    obtain ⟨s, e, -⟩ := Selection.extend_ok dbg (Selection.reachable_valid ha.reachable) (ob h.2)
    exact ⟨s, by simp only [eval, ea, bind, Except.bind, e], .extend ha h.2 e⟩
  | _ => exact absurd h id

theorem SelProg.safe_valid (dbg : Bool) {p : SelProg α} (h : p.Safe) :
    ∃ s, p.eval dbg = .ok s ∧ Valid s.tree := by
  induction p with
  | empty => exact ⟨_, rfl, Selection.new_valid⟩
  | full => exact ⟨_, rfl, Selection.reachable_valid .full⟩
  | interval i => exact ⟨_, rfl, Selection.reachable_valid (.ofInterval h)⟩
  | intervals is =>
    obtain ⟨s, e, v, -⟩ := Selection.extend_ok dbg Selection.new_valid h
    rw [← Selection.fromIntervals_eq] at e
    exact ⟨s, e, v⟩
  | points xs =>
    obtain ⟨s, e, v⟩ := SelProg.plain_built (α := α) dbg (p := .points xs) trivial
    exact ⟨s, e, Selection.reachable_valid v.reachable⟩
  | complement p ih =>
    obtain ⟨a, ea, va⟩ := ih h
    obtain ⟨s, e, v, -⟩ := Selection.complement_ok dbg va
    exact ⟨s, by simp only [eval, ea, bind, Except.bind, e], v⟩
  | union p q ihp ihq =>
    obtain ⟨a, ea, va⟩ := ihp h.1
    obtain ⟨b, eb, vb⟩ := ihq h.2
    obtain ⟨s, e, v, -⟩ := Selection.union_ok dbg va vb
    exact ⟨s, by simp only [eval, ea, eb, bind, Except.bind, e], v⟩
  | intersect p q ihp ihq =>
    obtain ⟨a, ea, va⟩ := ihp h.1
    obtain ⟨b, eb, vb⟩ := ihq h.2
    obtain ⟨s, e, v, -⟩ := Selection.intersect_ok dbg va vb
    exact ⟨s, by simp only [eval, ea, eb, bind, Except.bind, e], v⟩
  | minus p q ihp ihq =>
    obtain ⟨a, ea, va⟩ := ihp h.1
    obtain ⟨b, eb, hb⟩ := SelProg.plain_built dbg h.2
    obtain ⟨s, e, v, -⟩ := Selection.minusOpen_ok dbg va (Selection.reachable_valid hb.reachable) hb.do
    exact ⟨s, by simp only [eval, ea, eb, bind, Except.bind, e], v⟩
  | unionIn p i ih =>
    obtain ⟨a, ea, va⟩ := ih h.1
    obtain ⟨s, e, v, -⟩ := Selection.unionInPlace_ok dbg va h.2
    exact ⟨s, by simp only [eval, ea, bind, Except.bind, e], v⟩
  | minusIn p i ih =>
    obtain ⟨a, ea, va⟩ := ih h.1
    obtain ⟨s, e, v, -⟩ := Selection.minusInPlace_ok dbg va h.2
    exact ⟨s, by simp only [eval, ea, bind, Except.bind, e], v⟩
  | extend p is ih =>
    obtain ⟨a, ea, va⟩ := ih h.1
    obtain ⟨s, e, v, -⟩ := Selection.extend_ok dbg va h.2
    exact ⟨s, by simp only [eval, ea, bind, Except.bind, e], v⟩
  | intersectIn p i => exact absurd h id

theorem SelQuery.safe_ok (dbg : Bool) {s : Selection α} (v : Valid s.tree) {q : SelQuery α}
    (h : q.Safe) : ∃ a, q.ask dbg s = .ok a := by
  have hlb := Selection.lowerBound_eq dbg v
  have hub := Selection.upperBound_eq dbg v
  obtain ⟨e, he, -⟩ := enclose_ok dbg v
  cases q with
  | contains x => exact ⟨_, by simp only [ask, Selection.contains_ok dbg v, bind, Except.bind]; rfl⟩
  | intersects p =>
    obtain ⟨b, eb, vb⟩ := SelProg.safe_valid dbg h
    obtain ⟨s', e', -⟩ := Selection.intersect_ok dbg v vb
    simp only [ask, eb, Selection.intersects, bind, Except.bind]
    simp only [Selection.intersect, bind, Except.bind] at e'
    revert e'
    cases hh : s.tree.intersect dbg b.tree with
    | error e => simp
    | ok r => exact fun _ => ⟨_, rfl⟩
  | isEmpty => exact ⟨_, rfl⟩
  | isFull => exact ⟨_, rfl⟩
  | infimum => exact ⟨_, rfl⟩
  | supremum => exact ⟨_, rfl⟩
  | lowerBound => exact ⟨_, by simp only [ask, hlb, bind, Except.bind]; rfl⟩
  | upperBound => exact ⟨_, by simp only [ask, hub, bind, Except.bind]; rfl⟩
  | isBounded =>
    simp only [ask, Selection.isBounded, hlb, hub, bind, Except.bind]
    split <;> simp_all
    all_goals split at * <;> simp_all
  | isLeftBounded =>
    exact ⟨_, by simp only [ask, Selection.isLeftBounded, hlb, bind, Except.bind]; rfl⟩
  | isRightBounded =>
    exact ⟨_, by simp only [ask, Selection.isRightBounded, hub, bind, Except.bind]; rfl⟩
  | isHalfBounded =>
    exact ⟨_, by simp only [ask, Selection.isHalfBounded, Selection.isLeftBounded,
      Selection.isRightBounded, hlb, hub, bind, Except.bind]; rfl⟩
  | enclose => exact ⟨_, by simp only [ask, Selection.enclose, he, bind, Except.bind]; rfl⟩
  | closure =>
    exact ⟨_, by simp only [ask, Selection.closure, TineTree.closure, he, bind, Except.bind]; rfl⟩
  | intervals => exact ⟨_, by simp only [ask, Selection.intervals_eq dbg v, bind, Except.bind]; rfl⟩
  | intervalsBack => exact absurd h id
  | points cs =>
    obtain ⟨os, e⟩ := Selection.fwd_points_ok dbg cs h (ts := s.tree) (saved := none)
      (cur := .empty) v.1.1 v.2 .empty (fun i hi => ((pieces_wf v.1).1 i hi).1)
    exact ⟨.points os, by simp only [ask]; rw [show PointIter.start s = ⟨itState s.tree none, .empty⟩ from rfl, e]; rfl⟩
  | walk cs =>
    obtain ⟨os, e⟩ := Selection.fwd_walk_ok dbg cs h (ts := s.tree) (saved := none) v.1.1 v.2
    exact ⟨.walk os, by simp only [ask]; rw [show TineIter.start s.tree = itState s.tree none from rfl, e]; rfl⟩

end NI
