import Verif.SpecCalendar
import Verif.Props.Spot
import Verif.Props.Walk
import Verif.Props.Agree
import Verif.Props.Undo
import Verif.Props.Context
import Verif.Props.Order

/-! # A calendar of bookings (C125) -/

namespace NI
open _root_.NI.Finite TT
variable {α : Type} [LinearOrder α] [Finite α] [LawfulFinite α]

/-- A calendar does what is told of it if the test does. -/
theorem Selection.calendar_of (dbg : Bool) {clash : Set α → Set α → Prop}
    {taken : Selection α → Interval α → Except Panic Bool}
    (h : ∀ s i, s.UnionBuilt → i.Obtainable → i.Real → ∃ r, taken s i = .ok r ∧ (r = true ↔ clash (s.pts dbg) i.pts))
    (s : Selection α) (hs : s.UnionBuilt) (is : List (Interval α)) (hi : ∀ i ∈ is, i.Obtainable ∧ i.Real) :
    ∃ os s', s.calendar taken dbg is = .ok (os, s') ∧ s'.UnionBuilt ∧
      Bookings clash (s.pts dbg) (is.map Interval.pts) os (s'.pts dbg) := by
  induction is generalizing s with
  | nil => exact ⟨[], s, rfl, hs, .nil _⟩
  | cons i is ih =>
    obtain ⟨ho, hr⟩ := hi i (by simp)
    obtain ⟨r, e, hc⟩ := h s i hs ho hr
    cases r with
    | true =>
      obtain ⟨os, s', e', u', b⟩ := ih s hs fun j hj => hi j (by simp [hj])
      refine ⟨false :: os, s', ?_, u', .refuse (hc.1 rfl) b⟩
      simp only [Selection.calendar, e]
      change (Selection.calendar taken dbg s is).bind _ = _
      rw [e']; rfl
    | false =>
      obtain ⟨s1, e1, r1, p1⟩ := C48_union_in_place dbg s hs.reachable i ho
      obtain ⟨os, s', e', u', b⟩ := ih s1 (.unionInPlace hs ho hr e1) fun j hj => hi j (by simp [hj])
      refine ⟨true :: os, s', ?_, u', .accept (fun h => by simpa using hc.2 h) (p1 ▸ b)⟩
      simp only [Selection.calendar, e]
      change (s.unionInPlace dbg i).bind (fun s => (Selection.calendar taken dbg s is).bind _) = _
      rw [e1]
      change (Selection.calendar taken dbg s1 is).bind _ = _
      rw [e']; rfl

/-- Asking the booked intervals one by one: a request is refused exactly if it overlaps what is booked. -/
theorem C125_intervals (dbg : Bool) (s : Selection α) (hs : s.UnionBuilt) (is : List (Interval α))
    (hi : ∀ i ∈ is, i.Obtainable ∧ i.Real) :
    ∃ os s', s.calendar (Selection.takenByIntervals dbg) dbg is = .ok (os, s') ∧ s'.UnionBuilt ∧
      Bookings Overlapping (s.pts dbg) (is.map Interval.pts) os (s'.pts dbg) := by
  refine Selection.calendar_of dbg (fun s i hs ho _ => ?_) s hs is hi
  obtain ⟨js, e, hj, -, hx⟩ := C56_cover_partial dbg s hs.reachable
  refine ⟨_, by rw [Selection.takenByIntervals, e]; rfl, ?_⟩
  rw [List.any_eq_true]
  constructor
  · rintro ⟨j, hm, h⟩
    obtain ⟨x, h1, h2⟩ := (C29_intersects j i (hj j hm) ho).1 h
    exact ⟨x, (hx x).2 ⟨j, hm, h1⟩, h2⟩
  · rintro ⟨x, h1, h2⟩
    obtain ⟨j, hm, h⟩ := (hx x).1 h1
    exact ⟨j, hm, (C29_intersects j i (hj j hm) ho).2 ⟨x, h, h2⟩⟩

example : (∀ i ∈ [Interval.mkClosed (u8 0) (u8 1), .mkClosed (u8 4) (u8 5), .mkClosed (u8 5) (u8 9), .mkClosed (u8 6) (u8 7)],
      i.Obtainable ∧ i.Real) ∧
    (do return (← Selection.new.calendar (Selection.takenByIntervals true) true
      [Interval.mkClosed (u8 0) (u8 1), .mkClosed (u8 4) (u8 5), .mkClosed (u8 5) (u8 9), .mkClosed (u8 6) (u8 7)]).1) =
      .ok [true, true, false, true] := by
  refine ⟨?_, by decide⟩
  intro i hi
  simp only [List.mem_cons, List.not_mem_nil, or_false] at hi
  rcases hi with rfl | rfl | rfl | rfl <;> exact ⟨.mkClosed _ _, Interval.closed_real (by decide)⟩

/-- So whatever is booked to begin with, and whatever the intervals, also those without values. -/
theorem C125_intervals_any (dbg : Bool) (s : Selection α) (hs : s.Reachable) (is : List (Interval α))
    (hi : ∀ i ∈ is, i.Obtainable) :
    ∃ os s', s.calendar (Selection.takenByIntervals dbg) dbg is = .ok (os, s') ∧ s'.Reachable ∧
      Bookings Overlapping (s.pts dbg) (is.map Interval.pts) os (s'.pts dbg) := by
  induction is generalizing s with
  | nil => exact ⟨[], s, rfl, hs, .nil _⟩
  | cons i is ih =>
    have ho := hi i (by simp)
    obtain ⟨js, e, hj, -, hx⟩ := C56_cover_partial dbg s hs
    have hc : (js.any fun b => b.intersects i) = true ↔ Overlapping (s.pts dbg) i.pts := by
      rw [List.any_eq_true]
      constructor
      · rintro ⟨j, hm, h⟩
        obtain ⟨x, h1, h2⟩ := (C29_intersects j i (hj j hm) ho).1 h
        exact ⟨x, (hx x).2 ⟨j, hm, h1⟩, h2⟩
      · rintro ⟨x, h1, h2⟩
        obtain ⟨j, hm, h⟩ := (hx x).1 h1
        exact ⟨j, hm, (C29_intersects j i (hj j hm) ho).2 ⟨x, h, h2⟩⟩
    have e : s.takenByIntervals dbg i = .ok (js.any fun b => b.intersects i) := by
      rw [Selection.takenByIntervals, e]; rfl
    by_cases ht : Overlapping (s.pts dbg) i.pts
    · obtain ⟨os, s', e', u', b⟩ := ih s hs fun j hj => hi j (by simp [hj])
      refine ⟨false :: os, s', ?_, u', .refuse ht b⟩
      simp only [Selection.calendar, e, hc.2 ht, e', bind, Except.bind]; rfl
    · obtain ⟨s1, e1, r1, p1⟩ := C48_union_in_place dbg s hs i ho
      obtain ⟨os, s', e', u', b⟩ := ih s1 r1 fun j hj => hi j (by simp [hj])
      refine ⟨true :: os, s', ?_, u', .accept ht (p1 ▸ b)⟩
      simp only [Selection.calendar, e, Bool.eq_false_iff.2 fun h => ht (hc.1 h), e1, e', bind, Except.bind]; rfl

/-- What is between 4 and 5 is booked any number of times; it has no values. -/
example : (Interval.mkOpen (u8 4) (u8 5)).Obtainable ∧ (Interval.mkOpen (u8 4) (u8 5)).pts = ∅ ∧
    (do return (← (⟨[.lower .inf, .upper (.incl (u8 4))]⟩ : Selection U8).calendar (Selection.takenByIntervals true) true
      [Interval.mkOpen (u8 4) (u8 5), .mkClosed (u8 5) (u8 6), .mkOpen (u8 4) (u8 5), .mkClosed (u8 3) (u8 3)]).1) =
      .ok [true, true, true, false] :=
  ⟨.mkOpen _ _, Set.eq_empty_of_forall_notMem fun x h => by
    have e : Interval.mkOpen (u8 4) (u8 5) = ⟨.closed (u8 5) (u8 4)⟩ := by decide
    rw [e] at h
    have h : (decide (u8 5 ≤ x) && decide (x ≤ u8 4)) = true := h
    have h := Bool.and_eq_true_iff.1 h
    exact absurd ((of_decide_eq_true h.1).trans (of_decide_eq_true h.2)) (by decide), by decide⟩

/-- By `minus`: a request is refused exactly if it overlaps what is booked or follows on it or on which it follows. -/
theorem C125_minus (dbg : Bool) (s : Selection α) (hs : s.UnionBuilt) (is : List (Interval α))
    (hi : ∀ i ∈ is, i.Obtainable ∧ i.Real) :
    ∃ os s', s.calendar (Selection.takenByMinus dbg) dbg is = .ok (os, s') ∧ s'.UnionBuilt ∧
      Bookings Touching (s.pts dbg) (is.map Interval.pts) os (s'.pts dbg) := by
  refine Selection.calendar_of dbg (fun s i hs ho hr => ?_) s hs is hi
  have ui : (Selection.ofInterval i).UnionBuilt := .ofInterval ho hr
  have vi := Selection.reachable_valid ui.reachable
  obtain ⟨s', e, v', k⟩ := Selection.step_looks dbg vi (c := .minus s) hs
  have e' : (Selection.ofInterval i).minus dbg s = .ok s' := by
    simpa [Selection.steps] using e
  refine ⟨_, by rw [Selection.takenByMinus, e']; rfl, ?_⟩
  have l0 : ∀ x, Looks (Selection.ofInterval i).tree x (Spot.of i.pts x) := fun x =>
    DO.looks ui.do x fun y => by rw [← Selection.mem_pts dbg vi, Selection.ofInterval_pts dbg ho]
  have l1 := fun x => k x _ (l0 x)
  simp only [Spot.step] at l1
  rw [decide_eq_true_eq]
  constructor
  · intro hne
    by_contra ht
    apply hne
    have no : ∀ x ∈ s.pts dbg, ∀ y ∈ i.pts, ¬ (x = y ∨ succ x = some y ∨ succ y = some x) :=
      fun x hx y hy h => ht ⟨x, hx, y, hy, h⟩
    have nb : ∀ x, (Spot.of i.pts x).before → ¬ (Spot.of (s.pts dbg) x).before := by
      rintro x (h | ⟨p, h, e⟩) (h' | ⟨p', h', e'⟩)
      · exact no x h' x h (.inl rfl)
      · exact no p' h' x h (.inr (.inl (pred_eq_iff.1 e')))
      · exact no x h' p h (.inr (.inr (pred_eq_iff.1 e)))
      · rw [e] at e'; cases e'
        exact no p h' p h (.inl rfl)
    have na : ∀ x, (Spot.of i.pts x).after → ¬ (Spot.of (s.pts dbg) x).after := by
      rintro x (h | ⟨p, h, e⟩) (h' | ⟨p', h', e'⟩)
      · exact no x h' x h (.inl rfl)
      · exact no p' h' x h (.inr (.inr e'))
      · exact no x h' p h (.inr (.inl e))
      · rw [e] at e'; cases e'
        exact no p h' p h (.inl rfl)
    have : Nonempty α := ⟨minimum⟩
    have : s'.tree = (Selection.ofInterval i).tree := by
      refine valid_ext_views v' vi (fun x => ?_) (fun x => ?_) (fun x => ?_) <;> rw [Bool.eq_iff_iff]
      · refine (l1 x).2.1.trans (Iff.trans ?_ (l0 x).2.1.symm)
        constructor
        · rintro ⟨h1, h2 | ⟨h2, h3, h4 | h4⟩⟩
          exacts [h2, absurd h4 (nb x h2), absurd h4 (na x h3)]
        · exact fun h => ⟨fun h' => no x h' x h (.inl rfl), .inl h⟩
      · exact (l1 x).1.trans (Iff.trans ⟨fun h => h.1, fun h => ⟨h, nb x h⟩⟩ (l0 x).1.symm)
      · exact (l1 x).2.2.trans (Iff.trans ⟨fun h => h.1, fun h => ⟨h, na x h⟩⟩ (l0 x).2.2.symm)
    cases s'; exact congrArg Selection.mk this
  · rintro ⟨x, hx, y, hy, h⟩ rfl
    have a0 := l0 y
    have a1 := l1 y
    rcases h with rfl | h | h
    · exact ((a1.2.1.1 (a0.2.1.2 hy))).1 hx
    · exact (a1.1.1 (a0.1.2 (.inl hy))).2 (.inr ⟨x, hx, pred_eq_iff.2 h⟩)
    · exact (a1.2.2.1 (a0.2.2.2 (.inl hy))).2 (.inr ⟨x, hx, h⟩)

example : (Selection.demo [(u8 0, u8 1), (u8 4, u8 5)]).UnionBuilt ∧ (Interval.mkClosed (u8 6) (u8 7)).Obtainable ∧
    (Interval.mkClosed (u8 6) (u8 7)).Real ∧
    (Selection.demo [(u8 0, u8 1), (u8 4, u8 5)]).takenByMinus true (.mkClosed (u8 6) (u8 7)) = .ok true ∧
    (Selection.demo [(u8 0, u8 1), (u8 4, u8 5)]).takenByMinus true (.mkClosed (u8 7) (u8 7)) = .ok false :=
  ⟨Selection.demo_built _ (by decide), .mkClosed _ _, Interval.closed_real (by decide), by decide, by decide⟩

theorem Selection.first_run (dbg : Bool) {s : Selection α} (hs : s.UnionBuilt) {js : List (Interval α)}
    (e : s.intervals dbg = .ok js) {j : Interval α} (hj : j ∈ js.head?) : FirstRun (s.pts dbg) = j.pts := by
  cases js with
  | nil => simp at hj
  | cons j' js =>
    simp only [List.head?_cons, Option.mem_def, Option.some.injEq] at hj
    subst hj
    obtain ⟨l, u, hlu, hp, h1, h2⟩ := C56_maximal_partial dbg s (.inl hs) _ e j' (by simp)
    obtain ⟨js', e', -, hs', hx⟩ := C56_cover_partial dbg s hs.reachable
    rw [e] at e'; cases e'
    have hs' := (List.pairwise_cons.1 hs').1
    have mem : ∀ z, l ≤ z → z ≤ u → z ∈ s.pts dbg := fun z a b => (hx z).2 ⟨j', by simp, hp ▸ ⟨a, b⟩⟩
    rw [hp]
    ext x
    constructor
    · rintro ⟨hm, hz⟩
      obtain ⟨j, hj, hxj⟩ := (hx x).1 hm
      rw [List.mem_cons] at hj
      rcases hj with rfl | hj
      · exact hp ▸ hxj
      · exfalso
        have hux := hs' j hj u (hp ▸ ⟨hlu, le_refl _⟩) x hxj
        cases hq : succ u with
        | none => exact absurd (LawfulFinite.le_max x) (not_le.2 ((LawfulFinite.succ_none u).1 hq ▸ hux))
        | some q => 
          obtain ⟨q1, q2⟩ := LawfulFinite.succ_some u q hq
          exact h2 q hq (hz q (q2 x hux) ⟨u, mem u hlu (le_refl _), q1.le⟩)
    · rintro ⟨a, b⟩
      refine ⟨mem x a b, fun z hz ⟨m, hm, hmz⟩ => mem z (le_trans ?_ hmz) (hz.trans b)⟩
      obtain ⟨j, hj, hmj⟩ := (hx m).1 hm
      rw [List.mem_cons] at hj
      rcases hj with rfl | hj
      · rw [hp] at hmj; exact hmj.1
      · exact (hs' j hj l (hp ▸ ⟨le_refl _, hlu⟩) m hmj).le

/-- By `intersects`: a request is refused exactly if it overlaps the first run of what is booked, or follows on it or
on which it follows.  Missing: overlaps with what is booked later. -/
theorem C125_intersects_partial (dbg : Bool) (s : Selection α) (hs : s.UnionBuilt) (is : List (Interval α))
    (hi : ∀ i ∈ is, i.Obtainable ∧ i.Real) :
    ∃ os s', s.calendar (Selection.takenByIntersects dbg) dbg is = .ok (os, s') ∧ s'.UnionBuilt ∧
      Bookings (fun B i => Touching (FirstRun B) i) (s.pts dbg) (is.map Interval.pts) os (s'.pts dbg) := by
  classical
  refine Selection.calendar_of dbg (fun s i hs ho hr => ?_) s hs is hi
  obtain ⟨js, e, hj, hjs, hx⟩ := C56_cover_partial dbg s hs.reachable
  obtain ⟨bs, e', hb⟩ := C105_list dbg i ho
  obtain ⟨-, r, er, hr'⟩ := C52_formula dbg s (.ofInterval i) hs (.ofInterval ho hr) js bs e e'
    (fun i j => decide (i.Near j)) (by simp)
  refine ⟨r, er, hr'.trans ?_⟩
  have near : ∀ j : Interval α, j ∈ js.head? → (j.Near i ↔ Touching (FirstRun (s.pts dbg)) i.pts) := by
    intro j hj0
    rw [Interval.Near, Touching, Selection.first_run dbg hs e hj0]
  cases js with
  | nil =>
    constructor
    · rintro ⟨a, b, ⟨k, -, h⟩, -⟩; simp at h
    · rintro ⟨x, ⟨h, -⟩, -⟩
      obtain ⟨j, hj, -⟩ := (hx x).1 h; simp at hj
  | cons j js =>
    constructor
    · rintro ⟨a, b, ⟨k, hk, h⟩, hn⟩
      cases bs with
      | nil => simp at hk
      | cons b' bs =>
        split at hb
        · simp at hb
        simp only [List.map_cons, List.cons.injEq, List.map_eq_nil_iff] at hb
        obtain ⟨hb, rfl⟩ := hb
        cases k with
        | succ k => simp at hk
        | zero =>
          simp only [List.getElem?_cons_zero, Option.some.injEq] at hk
          subst hk
          simp only [List.take_zero, finger, List.getElem?_cons_zero, Option.some.injEq] at h
          subst h
          rw [← near j rfl, Interval.Near, ← hb]
          exact hn
    · intro h
      have hne : i.isEmpty = false := by
        obtain ⟨-, -, y, hy, -⟩ := h
        rcases Interval.obtainable_cases ho with rfl | ⟨p, rfl⟩ | ⟨l, u, rfl, -⟩
        · exact absurd hy (by simp [Interval.pts, Interval.contains, RawInterval.contains])
        · rfl
        · rfl
      rw [hne] at hb
      simp only [Bool.false_eq_true, if_false] at hb
      cases bs with
      | nil => simp at hb
      | cons b' bs =>
        simp only [List.map_cons, List.cons.injEq, List.map_eq_nil_iff] at hb
        refine ⟨j, b', ⟨0, rfl, rfl⟩, ?_⟩
        rw [Interval.Near, hb.1]
        exact (near j rfl).2 h

example : (Selection.demo [(u8 0, u8 1), (u8 4, u8 5)]).UnionBuilt ∧ (Interval.mkClosed (u8 6) (u8 7)).Obtainable ∧
    (Interval.mkClosed (u8 6) (u8 7)).Real ∧
    (Selection.demo [(u8 0, u8 1), (u8 4, u8 5)]).takenByIntersects true (.mkClosed (u8 6) (u8 7)) = .ok false ∧
    (Selection.demo [(u8 0, u8 1), (u8 4, u8 5)]).takenByIntersects true (.mkClosed (u8 7) (u8 7)) = .ok false :=
  ⟨Selection.demo_built _ (by decide), .mkClosed _ _, Interval.closed_real (by decide), by decide, by decide⟩

omit [LinearOrder α] [Finite α] [LawfulFinite α] in
/-- Whatever is refused besides overlaps, no time is booked twice. -/
theorem C125_no_double_booking {clash : Set α → Set α → Prop} (h : ∀ B i, Overlapping B i → clash B i)
    {B B' : Set α} {is : List (Set α)} {os : List Bool} (hb : Bookings clash B is os B') :
    is.length = os.length ∧ B' = B ∪ {x | ∃ i, (i, true) ∈ is.zip os ∧ x ∈ i} ∧
    (∀ i, (i, true) ∈ is.zip os → Disjoint B i) ∧
    ((is.zip os).filter (·.2)).Pairwise (fun a b => Disjoint a.1 b.1) := by
  induction hb with
  | nil B => simp
  | @accept B i is os B' hc _ ih =>
    obtain ⟨h1, h2, h3, h4⟩ := ih
    have hd : Disjoint B i := by
      rw [Set.disjoint_left]
      exact fun x hx hi => hc (h _ _ ⟨x, hx, hi⟩)
    refine ⟨by simp [h1], ?_, ?_, ?_⟩
    · rw [h2]
      ext x
      simp only [List.zip_cons_cons, List.mem_cons, Prod.mk.injEq, and_true, Set.mem_union, Set.mem_ofPred_eq]
      constructor
      · rintro ((h | h) | ⟨j, hj, hx⟩)
        exacts [.inl h, .inr ⟨i, .inl rfl, h⟩, .inr ⟨j, .inr hj, hx⟩]
      · rintro (h | ⟨j, rfl | hj, hx⟩)
        exacts [.inl (.inl h), .inl (.inr hx), .inr ⟨j, hj, hx⟩]
    · intro j hj
      simp only [List.zip_cons_cons, List.mem_cons, Prod.mk.injEq, and_true] at hj
      rcases hj with rfl | hj
      · exact hd
      · exact Set.disjoint_of_subset_left Set.subset_union_left (h3 j hj)
    · simp only [List.zip_cons_cons, List.filter_cons, if_true, List.pairwise_cons]
      refine ⟨?_, h4⟩
      rintro ⟨j, o⟩ hj
      obtain ⟨hj, ho⟩ := List.mem_filter.1 hj
      simp only at ho
      subst ho
      exact Set.disjoint_of_subset_left Set.subset_union_right (h3 j hj)
  | @refuse B i is os B' _ _ ih =>
    obtain ⟨h1, h2, h3, h4⟩ := ih
    refine ⟨by simp [h1], ?_, ?_, ?_⟩
    · rw [h2]; simp
    · intro j hj
      simp only [List.zip_cons_cons, List.mem_cons, Prod.mk.injEq, and_false, false_or, Bool.true_eq_false] at hj
      exact h3 j hj
    · simpa [List.filter_cons] using h4

example : Bookings (Overlapping (α := Nat)) ∅ [{1, 2}, {2}, {3}] [true, false, true] (∅ ∪ {1, 2} ∪ {3}) :=
  .accept (by simp [Overlapping]) (.refuse ⟨2, by simp, by simp⟩ (.accept (by simp [Overlapping]) (.nil _)))

/-- With `intersects` an interval beyond the first run can be booked any number of times. -/
theorem C125_booked_again (dbg : Bool) (s : Selection α) (hs : s.UnionBuilt) (i : Interval α) (hi : i.Obtainable)
    (hr : i.Real) (h0 : ∃ x ∈ s.pts dbg, ∀ y ∈ i.pts, x < y) (ht : ¬ Touching (FirstRun (s.pts dbg)) i.pts) (n : Nat) :
    ∃ s', s.calendar (Selection.takenByIntersects dbg) dbg (List.replicate n i) = .ok (List.replicate n true, s') := by
  obtain ⟨os, s', e, -, b⟩ := C125_intersects_partial dbg s hs (List.replicate n i)
    (fun j hj => by rw [List.eq_of_mem_replicate hj]; exact ⟨hi, hr⟩)
  refine ⟨s', ?_⟩
  rw [e]
  suffices os = List.replicate n true by rw [this]
  rw [List.map_replicate] at b
  clear e
  generalize s.pts dbg = B at *
  generalize s'.pts dbg = B' at *
  induction n generalizing B os with
  | zero => cases b; rfl
  | succ n ih =>
    rw [List.replicate_succ] at b
    cases b with
    | refuse hc _ => exact absurd hc ht
    | accept hc b =>
      rw [List.replicate_succ]
      congr 1
      obtain ⟨m, hm, hl⟩ := h0
      refine ih _ _ ⟨m, .inl hm, hl⟩ (fun ⟨x, ⟨hx, hz⟩, y, hy, h⟩ => ?_) b
      obtain ⟨l, hl1, hl2⟩ : ∃ l ∈ i.pts, ∀ z ∈ i.pts, l ≤ z := by
        rcases Interval.obtainable_cases hi with rfl | ⟨p, rfl⟩ | ⟨l, u, rfl, -⟩
        · simp [Interval.pts, Interval.contains, RawInterval.contains] at hy
        · exact ⟨p, by simp [Interval.pts, Interval.contains, RawInterval.contains], fun z hz => by
            simp [Interval.pts, Interval.contains, RawInterval.contains] at hz; exact hz.ge⟩
        · have c2 : ∀ z, z ∈ (⟨.closed l u⟩ : Interval α).pts ↔ l ≤ z ∧ z ≤ u := fun z => by
            simp [Interval.pts, Interval.contains, RawInterval.contains]
          exact ⟨l, (c2 l).2 ⟨le_refl _, ((c2 y).1 hy).1.trans ((c2 y).1 hy).2⟩, fun z hz => ((c2 z).1 hz).1⟩
      have hml := hl l hl1
      cases hp : pred l with
      | none => exact absurd (LawfulFinite.min_le m) (not_le.2 ((LawfulFinite.pred_none l).1 hp ▸ hml))
      | some p =>
        obtain ⟨p1, p2⟩ := LawfulFinite.pred_some l p hp
        have hly := hl2 y hy
        have hpx : p ≤ x := by
          rcases h with rfl | h | h
          · exact p1.le.trans hly
          · by_contra hc
            exact absurd ((LawfulFinite.succ_some x y h).2 p (not_le.1 hc)) (not_le.2 (p1.trans_le hly))
          · exact (p1.trans_le (hly.trans (LawfulFinite.succ_some y x h).1.le)).le
        have hB : ∀ z ≤ p, (∃ m ∈ B, m ≤ z) → z ∈ B := by
          rintro z hzp ⟨m', hm', hmz⟩
          rcases hz z (hzp.trans hpx) ⟨m', .inl hm', hmz⟩ with h' | h'
          · exact h'
          · exact absurd (hl2 z h') (not_le.2 (hzp.trans_lt p1))
        exact ht ⟨p, ⟨hB p (le_refl _) ⟨m, hm, p2 m hml⟩, hB⟩, l, hl1, .inr (.inl (pred_eq_iff.1 hp))⟩

/-- `[0,1]` and `[4,5]` being booked, `[4,5]` is booked again if the calendar asks `intersects`, and `[2,3]`, which is
free, is refused; asking by `minus` refuses both. -/
theorem C125_counterexample : ∀ dbg,
    (do return (← Selection.new.calendar (Selection.takenByIntersects dbg) dbg
      [Interval.mkClosed (u8 0) (u8 1), .mkClosed (u8 4) (u8 5), .mkClosed (u8 4) (u8 5), .mkClosed (u8 2) (u8 3)]).1) =
      .ok [true, true, true, false] ∧
    (do return (← Selection.new.calendar (Selection.takenByMinus dbg) dbg
      [Interval.mkClosed (u8 0) (u8 1), .mkClosed (u8 4) (u8 5), .mkClosed (u8 4) (u8 5), .mkClosed (u8 2) (u8 3)]).1) =
      .ok [true, true, false, false] ∧
    (do return (← Selection.new.calendar (Selection.takenByIntervals dbg) dbg
      [Interval.mkClosed (u8 0) (u8 1), .mkClosed (u8 4) (u8 5), .mkClosed (u8 4) (u8 5), .mkClosed (u8 2) (u8 3)]).1) =
      .ok [true, true, false, true] := by
  decide

/-- The conditions of `C125_booked_again` hold for `[4,5]` after `[0,1]`. -/
example : (Selection.demo [(u8 0, u8 1)]).UnionBuilt ∧
    (∃ x ∈ (Selection.demo [(u8 0, u8 1)]).pts true, ∀ y ∈ (Interval.mkClosed (u8 4) (u8 5)).pts, x < y) ∧
    ¬ Touching (FirstRun ((Selection.demo [(u8 0, u8 1)]).pts true)) (Interval.mkClosed (u8 4) (u8 5)).pts := by
  have le : ∀ y ∈ (Interval.mkClosed (u8 4) (u8 5)).pts, u8 4 ≤ y := fun y hy => ((C21_bounded (u8 4) (u8 5) y).2.2.2.1.1 hy).1
  refine ⟨Selection.demo_built _ (by decide), ⟨u8 0, (Selection.demo_mem _ _).2 ⟨(u8 0, u8 1), by simp, by decide⟩, fun y hy => lt_of_lt_of_le (by decide) (le y hy)⟩, ?_⟩
  rintro ⟨x, ⟨hx, -⟩, y, hy, h⟩
  obtain ⟨_, hp, -, hx⟩ := (Selection.demo_mem _ _).1 hx
  rw [List.mem_singleton.1 hp] at hx
  have h1 : x < u8 2 := lt_of_le_of_lt hx (by decide)
  have h2 : u8 2 < y := lt_of_lt_of_le (by decide) (le y hy)
  rcases h with rfl | h | h
  · exact absurd (h1.trans h2) (lt_irrefl _)
  · exact absurd ((LawfulFinite.succ_some x y h).2 _ h1) (not_le.2 h2)
  · exact absurd ((h1.trans h2).trans (LawfulFinite.succ_some y x h).1) (lt_irrefl _)

end NI
