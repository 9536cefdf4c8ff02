import Verif.Props.BackPoints
import Verif.Props.Backward
import Verif.Props.Stops

/-!
# C134: what iterating the values gives in every build, whatever the history
-/

set_option linter.unusedVariables false
set_option linter.unusedSectionVars false

namespace NI
open _root_.NI.Finite TT

variable {α : Type} [LinearOrder α] [Finite α] [LawfulFinite α]

/-- What an interval iterator returns call by call until it ends. -/
inductive Gives {σ : Type _} (step : σ → Except Panic (Option (Interval α) × σ)) : σ → List (Interval α) → Prop
  | stop {it} : step it = .ok (none, it) → Gives step it []
  | more {it i it' ls} : step it = .ok (some i, it') → i.Obtainable → Gives step it' ls → Gives step it (i :: ls)

theorem TineIter.nextBack_new {dbg : Bool} {it it' : TineIter α} {o : Option (RawInterval α)}
    (h : it.nextBack dbg = .ok (o, it')) : (o = none → it' = it) ∧ ∀ i ∈ o, i.WF := by
  have key : ∀ {x : Tine α} {it it' : TineIter α} {i}, TineIter.nextBackWith dbg x it = .ok (i, it') → i.WF := by
    intro x it it' i h
    unfold TineIter.nextBackWith at h
    split at h
    · cases h; trivial
    · simp only [bind, Except.bind] at h
      split at h
      · cases h
      · split at h
        · cases h
        · split at h
          · cases h
          · cases h; exact RawInterval.new_wf _ _
  unfold TineIter.nextBack at h
  split at h
  · rename_i x hx
    cases e : TineIter.nextBackWith dbg x { it with savedUpper := none } with
    | error p => rw [e] at h; cases h
    | ok r => rw [e] at h; cases h; exact ⟨fun h => (by cases h), fun i hi => by cases hi; exact key e⟩
  · split at h
    · rename_i x hx
      cases e : TineIter.nextBackWith dbg x { it with tines := it.tines.dropLast } with
      | error p => rw [e] at h; cases h
      | ok r => rw [e] at h; cases h; exact ⟨fun h => (by cases h), fun i hi => by cases hi; exact key e⟩
    · cases h; exact ⟨fun _ => rfl, fun i hi => by cases hi⟩

theorem TineIter.next_new {dbg : Bool} {it it' : TineIter α} {o : Option (RawInterval α)}
    (h : it.next dbg = .ok (o, it')) : (o = none → it' = it) ∧ ∀ i ∈ o, i.WF := by
  have key : ∀ {x : Tine α} {it it' : TineIter α} {i}, TineIter.nextWith dbg x it = .ok (i, it') → i.WF := by
    intro x it it' i h
    unfold TineIter.nextWith at h
    split at h
    · cases h; trivial
    · simp only [bind, Except.bind] at h
      split at h
      · cases h
      · split at h
        · cases h
        · split at h
          · cases h
          · cases h; exact RawInterval.new_wf _ _
  unfold TineIter.next at h
  split at h
  · rename_i x hx
    cases e : TineIter.nextWith dbg x { it with savedLower := none } with
    | error p => rw [e] at h; cases h
    | ok r => rw [e] at h; cases h; exact ⟨fun h => (by cases h), fun i hi => by cases hi; exact key e⟩
  · split at h
    · rename_i x rest hx
      cases e : TineIter.nextWith dbg x { it with tines := rest } with
      | error p => rw [e] at h; cases h
      | ok r => rw [e] at h; cases h; exact ⟨fun h => (by cases h), fun i hi => by cases hi; exact key e⟩
    · cases h; exact ⟨fun _ => rfl, fun i hi => by cases hi⟩

theorem Selection.gives_back (dbg : Bool) (n : Nat) : ∀ {it : TineIter α} {acc l : List (Interval α)},
    it.weight < n → Selection.intervalsBackAux dbg n it acc = .ok l →
    ∃ ls, l = acc ++ ls ∧ Gives (Selection.intervalNextBack dbg) it ls := by
  induction n with
  | zero => intro it acc l h; omega
  | succ n ih =>
    intro it acc l hw h
    rw [Selection.intervalsBackAux] at h
    cases e : it.nextBack dbg with
    | error p => simp only [Selection.intervalNextBack, e, bind, Except.bind] at h; cases h
    | ok r =>
      obtain ⟨o, it'⟩ := r
      obtain ⟨h1, h2⟩ := TineIter.nextBack_new e
      cases o with
      | none =>
        simp only [Selection.intervalNextBack, e, bind, Except.bind, Option.map_none] at h
        cases h
        cases h1 rfl
        exact ⟨[], by simp, .stop (by simp only [Selection.intervalNextBack, e, bind, Except.bind, Option.map_none])⟩
      | some i =>
        simp only [Selection.intervalNextBack, e, bind, Except.bind, Option.map_some] at h
        obtain ⟨ls, rfl, k⟩ := ih (by have := TineIter.weight_nextBack e; omega) h
        refine ⟨Interval.ofRaw i.normalized :: ls, by simp,
          .more (it' := it') ?_ (by rw [Selection.run_eq]; exact .ofRaw i (h2 i rfl)) k⟩
        simp only [Selection.intervalNextBack, e, bind, Except.bind, Option.map_some]

theorem Selection.gives_front (dbg : Bool) (n : Nat) : ∀ {it : TineIter α} {acc l : List (Interval α)},
    it.weight < n → Selection.intervalsAux dbg n it acc = .ok l →
    ∃ ls, l = acc ++ ls ∧ Gives (Selection.intervalNext dbg) it ls := by
  induction n with
  | zero => intro it acc l h; omega
  | succ n ih =>
    intro it acc l hw h
    rw [Selection.intervalsAux] at h
    cases e : it.next dbg with
    | error p => simp only [Selection.intervalNext, e, bind, Except.bind] at h; cases h
    | ok r =>
      obtain ⟨o, it'⟩ := r
      obtain ⟨h1, h2⟩ := TineIter.next_new e
      cases o with
      | none =>
        simp only [Selection.intervalNext, e, bind, Except.bind, Option.map_none] at h
        cases h
        cases h1 rfl
        exact ⟨[], by simp, .stop (by simp only [Selection.intervalNext, e, bind, Except.bind, Option.map_none])⟩
      | some i =>
        simp only [Selection.intervalNext, e, bind, Except.bind, Option.map_some] at h
        obtain ⟨ls, rfl, k⟩ := ih (by have := TineIter.weight_next e; omega) h
        refine ⟨Interval.ofRaw i.normalized :: ls, by simp,
          .more (it' := it') ?_ (by rw [Selection.run_eq]; exact .ofRaw i (h2 i rfl)) k⟩
        simp only [Selection.intervalNext, e, bind, Except.bind, Option.map_some]

theorem Interval.fromBack_real {i : Interval α} (hr : i.Real) : i.fromBack = i.pts ∧ i.fromFront = i.pts := by
  have key : (∀ y, i.contains y = false) → i.upperBound = none ∧ i.lowerBound = none := by
    intro h
    rcases hr with h' | ⟨x, hx⟩
    · obtain ⟨r⟩ := i
      cases r <;> first | exact ⟨rfl, rfl⟩ | (exact absurd h' (by simp [Interval.isEmpty]))
    · rw [h x] at hx; cases hx
  constructor <;> (ext x; constructor)
  · rintro (h | ⟨h, e⟩)
    · exact h
    · rw [(key h).1] at e; cases e
  · exact .inl
  · rintro (h | ⟨h, e⟩)
    · exact h
    · rw [(key h).2] at e; cases e
  · exact .inl

theorem Interval.fromBack_empty : (Interval.empty : Interval α).fromBack = ∅ ∧ (Interval.empty : Interval α).fromFront = ∅ := by
  have h : (Interval.empty : Interval α).pts = ∅ := by rw [Interval.pts_eq]; rfl
  have := Interval.fromBack_real (i := (Interval.empty : Interval α)) Interval.real_mk_empty
  rw [h] at this
  exact this

theorem Interval.fromBack_closed {l u : α} (h : u < l) :
    (⟨.closed l u⟩ : Interval α).fromBack = {u} ∧ (⟨.closed l u⟩ : Interval α).fromFront = {l} := by
  have no : ∀ y, (⟨.closed l u⟩ : Interval α).contains y = false := by
    intro y
    cases hc : (⟨.closed l u⟩ : Interval α).contains y with
    | false => rfl
    | true =>
      have : y ∈ (⟨.closed l u⟩ : Interval α).pts := hc
      rw [Interval.pts_eq] at this
      exact absurd (this.1.trans this.2) (not_le.2 h)
  constructor <;> (ext x; constructor)
  · rintro (h | ⟨h, e⟩)
    · rw [no] at h; cases h
    · cases e; rfl
  · rintro rfl; exact .inr ⟨no, rfl⟩
  · rintro (h | ⟨h, e⟩)
    · rw [no] at h; cases h
    · cases e; rfl
  · rintro rfl; exact .inr ⟨no, rfl⟩

theorem Interval.back_first {i : Interval α} (h : i.Obtainable) :
    (i.fromBack = ∅ ∧ i.nextBack = .ok (none, i)) ∨
    ∃ m j, IsGreatest i.fromBack m ∧ i.nextBack = .ok (some m, j) ∧ j.Obtainable ∧ j.fromBack = i.fromBack \ {m} := by
  by_cases hr : i.Real
  · rw [(Interval.fromBack_real hr).1]
    rcases Interval.iter_step h hr with ⟨e, -, e'⟩ | ⟨-, m, j, h1, h2, h3, h4, h5⟩
    · exact .inl ⟨e, e'⟩
    · exact .inr ⟨m, j, h1, h2, h3, by rw [(Interval.fromBack_real h4).1, h5]⟩
  · obtain ⟨l, u, hlt, rfl, -, e⟩ := Interval.not_real_step h hr
    refine .inr ⟨u, _, ?_, e, .empty, ?_⟩
    · rw [(Interval.fromBack_closed hlt).1]; exact isGreatest_singleton
    · rw [(Interval.fromBack_closed hlt).1, Interval.fromBack_empty.1]
      ext x; exact ⟨fun h => absurd h id, fun h => h.2 h.1⟩

theorem Interval.front_first {i : Interval α} (h : i.Obtainable) :
    (i.fromFront = ∅ ∧ i.next = .ok (none, i)) ∨
    ∃ m j, IsLeast i.fromFront m ∧ i.next = .ok (some m, j) ∧ j.Obtainable ∧ j.fromFront = i.fromFront \ {m} := by
  by_cases hr : i.Real
  · rw [(Interval.fromBack_real hr).2]
    rcases Interval.iter_step h hr with ⟨e, e', -⟩ | ⟨⟨m, j, h1, h2, h3, h4, h5⟩, -⟩
    · exact .inl ⟨e, e'⟩
    · exact .inr ⟨m, j, h1, h2, h3, by rw [(Interval.fromBack_real h4).2, h5]⟩
  · obtain ⟨l, u, hlt, rfl, e, -⟩ := Interval.not_real_step h hr
    refine .inr ⟨l, _, ?_, e, .empty, ?_⟩
    · rw [(Interval.fromBack_closed hlt).2]; exact isLeast_singleton
    · rw [(Interval.fromBack_closed hlt).2, Interval.fromBack_empty.2]
      ext x; exact ⟨fun h => absurd h id, fun h => h.2 h.1⟩

theorem Selection.turns_back (dbg : Bool) (n : Nat) : ∀ {it : TineIter α} {cur : Interval α} {ls : List (Interval α)},
    cur.Obtainable → Gives (Selection.intervalNextBack dbg) it ls →
    ∃ os, drive (PointIter.next dbg) (PointIter.nextBack dbg) ⟨it, cur⟩ (List.replicate n .nextBack) = .ok os ∧
      Turns IsGreatest cur.fromBack (ls.map Interval.fromBack) os := by
  induction n with
  | zero => intro it cur ls _ _; exact ⟨[], rfl, .nil⟩
  | succ n ih =>
    intro it cur ls ho hg
    rw [List.replicate_succ]
    rcases Interval.back_first ho with ⟨he, e⟩ | ⟨m, j, hm, e, hj, hd⟩
    · rw [he]
      cases hg with
      | stop hs =>
        obtain ⟨os, h1, h2⟩ := ih ho (.stop hs)
        rw [he] at h2
        refine ⟨none :: os, ?_, .done h2⟩
        simp only [drive, PointIter.nextBack, e, hs, h1, bind, Except.bind]; rfl
      | @more _ i it' ls hs hi hg =>
        rcases Interval.back_first hi with ⟨he', e'⟩ | ⟨m, j, hm, e', hj, hd⟩
        · obtain ⟨os, h1, h2⟩ := ih hi hg
          rw [he'] at h2
          refine ⟨none :: os, ?_, by rw [List.map_cons, he']; exact .skip h2⟩
          simp only [drive, PointIter.nextBack, e, e', hs, h1, bind, Except.bind]; rfl
        · obtain ⟨os, h1, h2⟩ := ih hj hg
          rw [hd] at h2
          refine ⟨some m :: os, ?_, .turn hm h2⟩
          simp only [drive, PointIter.nextBack, e, e', hs, h1, bind, Except.bind]; rfl
    · obtain ⟨os, h1, h2⟩ := ih hj hg
      rw [hd] at h2
      refine ⟨some m :: os, ?_, .take hm h2⟩
      simp only [drive, PointIter.nextBack, e, h1, bind, Except.bind]; rfl

theorem Selection.turns_front (dbg : Bool) (n : Nat) : ∀ {it : TineIter α} {cur : Interval α} {ls : List (Interval α)},
    cur.Obtainable → Gives (Selection.intervalNext dbg) it ls →
    ∃ os, drive (PointIter.next dbg) (PointIter.nextBack dbg) ⟨it, cur⟩ (List.replicate n .next) = .ok os ∧
      Turns IsLeast cur.fromFront (ls.map Interval.fromFront) os := by
  induction n with
  | zero => intro it cur ls _ _; exact ⟨[], rfl, .nil⟩
  | succ n ih =>
    intro it cur ls ho hg
    rw [List.replicate_succ]
    rcases Interval.front_first ho with ⟨he, e⟩ | ⟨m, j, hm, e, hj, hd⟩
    · rw [he]
      cases hg with
      | stop hs =>
        obtain ⟨os, h1, h2⟩ := ih ho (.stop hs)
        rw [he] at h2
        refine ⟨none :: os, ?_, .done h2⟩
        simp only [drive, PointIter.next, e, hs, h1, bind, Except.bind]; rfl
      | @more _ i it' ls hs hi hg =>
        rcases Interval.front_first hi with ⟨he', e'⟩ | ⟨m, j, hm, e', hj, hd⟩
        · obtain ⟨os, h1, h2⟩ := ih hi hg
          rw [he'] at h2
          refine ⟨none :: os, ?_, by rw [List.map_cons, he']; exact .skip h2⟩
          simp only [drive, PointIter.next, e, e', hs, h1, bind, Except.bind]; rfl
        · obtain ⟨os, h1, h2⟩ := ih hj hg
          rw [hd] at h2
          refine ⟨some m :: os, ?_, .turn hm h2⟩
          simp only [drive, PointIter.next, e, e', hs, h1, bind, Except.bind]; rfl
    · obtain ⟨os, h1, h2⟩ := ih hj hg
      rw [hd] at h2
      refine ⟨some m :: os, ?_, .take hm h2⟩
      simp only [drive, PointIter.next, e, h1, bind, Except.bind]; rfl

/-- In either kind of build and whatever the selection, the values from the back are those of the intervals that are
listed from the back, in turn, if listing them does not panic. -/
theorem C134_turns (dbg : Bool) (s : Selection α) (l : List (Interval α)) (h : s.intervalsBack dbg = .ok l) (n : Nat) :
    ∃ os, drive (PointIter.next dbg) (PointIter.nextBack dbg) (PointIter.start s) (List.replicate n .nextBack) = .ok os ∧
      Turns IsGreatest ∅ (l.map Interval.fromBack) os := by
  obtain ⟨ls, rfl, hg⟩ := Selection.gives_back dbg _
    (by simp [TineIter.weight, TineIter.size, TineIter.start]; omega) h
  obtain ⟨os, h1, h2⟩ := Selection.turns_back dbg n (cur := .empty) .empty hg
  rw [Interval.fromBack_empty.1] at h2
  exact ⟨os, h1, h2⟩

/-- `{1, 4, 6}`: after `6` a build without assertions lists `closed 3 2`, which has no value, and of it `2` comes. -/
example : (Selection.demo [(u8 1, u8 1), (u8 4, u8 4), (u8 6, u8 6)]).intervalsBack false =
      .ok [⟨.closed (u8 6) (u8 6)⟩, ⟨.closed (u8 3) (u8 2)⟩, ⟨.empty⟩] ∧
    drive (PointIter.next false) (PointIter.nextBack false)
      (PointIter.start (Selection.demo [(u8 1, u8 1), (u8 4, u8 4), (u8 6, u8 6)])) (List.replicate 4 .nextBack) =
      .ok [some (u8 6), some (u8 2), none, none] :=
  ⟨by decide, by decide⟩

/-- Without debug assertions that is always so. -/
theorem C134_release (s : Selection α) (hs : s.Reachable) :
    ∃ l, s.intervalsBack false = .ok l ∧ ∀ n, ∃ os,
      drive (PointIter.next false) (PointIter.nextBack false) (PointIter.start s) (List.replicate n .nextBack) = .ok os ∧
        Turns IsGreatest ∅ (l.map Interval.fromBack) os := by
  obtain ⟨l, h⟩ := C133_release s hs
  exact ⟨l, h, C134_turns false s l h⟩

/-- `{0, 2}`: after `2` come all the values from `255` down to `2` again. -/
theorem C134_release_counterexample : ∃ s : Selection U8, s.UnionBuilt ∧
    s.intervals false = .ok [⟨.closed (u8 0) (u8 0)⟩, ⟨.closed (u8 2) (u8 2)⟩] ∧
    s.intervalsBack false = .ok [⟨.closed (u8 2) (u8 2)⟩, ⟨.closed (u8 2) (u8 255)⟩] ∧
    drive (PointIter.next false) (PointIter.nextBack false) (PointIter.start s) (List.replicate 3 .nextBack) =
      .ok [some (u8 2), some (u8 255), some (u8 254)] :=
  ⟨Selection.demo [(u8 0, u8 0), (u8 2, u8 2)], Selection.demo_built _ (by decide), by decide, by decide, by decide⟩

/-- The same from the front. -/
theorem C134_front (dbg : Bool) (s : Selection α) (l : List (Interval α)) (h : s.intervals dbg = .ok l) (n : Nat) :
    ∃ os, drive (PointIter.next dbg) (PointIter.nextBack dbg) (PointIter.start s) (List.replicate n .next) = .ok os ∧
      Turns IsLeast ∅ (l.map Interval.fromFront) os := by
  obtain ⟨ls, rfl, hg⟩ := Selection.gives_front dbg _
    (by simp [TineIter.weight, TineIter.size, TineIter.start]; omega) h
  obtain ⟨os, h1, h2⟩ := Selection.turns_front dbg n (cur := .empty) .empty hg
  rw [Interval.fromBack_empty.2] at h2
  exact ⟨os, h1, h2⟩

/-- The selection made from `(3, 4)` has no value; `4` comes from the front. -/
example : (Selection.ofInterval (.mkOpen (u8 3) (u8 4))).intervals true = .ok [⟨.closed (u8 4) (u8 3)⟩] ∧
    drive (PointIter.next true) (PointIter.nextBack true)
      (PointIter.start (Selection.ofInterval (.mkOpen (u8 3) (u8 4)))) (List.replicate 2 .next) = .ok [some (u8 4), none] :=
  ⟨by decide, by decide⟩

end NI
