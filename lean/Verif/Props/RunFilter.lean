import Verif.SpecRunFilter
import Verif.Props.Longest
import Verif.Props.Spot

/-! # C143: keeping some of the runs of a selection, closing some of its gaps -/

namespace NI
open _root_.NI.Finite TT

variable {α : Type} [LinearOrder α] [Finite α] [LawfulFinite α]

/-- Some of the maximal runs of a set are the maximal runs of what they make up. -/
theorem MaximalRuns.some_of {S : Set α} {A B : List (Set α)} (h : MaximalRuns S A) (hB : B.Sublist A) :
    MaximalRuns {x | ∃ r ∈ B, x ∈ r} B := by
  obtain ⟨m1, m2, m3⟩ := h
  have sub : ∀ x, (∃ r ∈ B, x ∈ r) → x ∈ S := fun x ⟨r, hr, hx⟩ => (m3 x).2 ⟨r, hB.subset hr, hx⟩
  refine ⟨fun r hr => ?_, m2.sublist hB, fun x => Iff.rfl⟩
  obtain ⟨l, u, hlu, e, e1, e2⟩ := m1 r (hB.subset hr)
  exact ⟨l, u, hlu, e, fun p hp h => e1 p hp (sub p h), fun q hq h => e2 q hq (sub q h)⟩

theorem Interval.real_of_run {S : Set α} {is : List (Interval α)} (m : MaximalRuns S (is.map Interval.pts)) {i : Interval α}
    (hi : i ∈ is) : i.Real := by
  obtain ⟨a, b, hab, e, -⟩ := m.1 _ (List.mem_map_of_mem hi)
  exact .inr ⟨a, (Set.ext_iff.1 e a).2 ⟨le_rfl, hab⟩⟩

/-- In a list of maximal runs a value lies in one only. -/
theorem MaximalRuns.filter_mem {S : Set α} {is : List (Interval α)} (m : MaximalRuns S (is.map Interval.pts))
    (p : Interval α → Bool) (x : α) :
    (x ∈ S ∧ ∀ i ∈ is.filter (!p ·), x ∉ i.pts) ↔ ∃ i ∈ is.filter p, x ∈ i.pts := by
  constructor
  · rintro ⟨hx, h⟩
    obtain ⟨r, hr, hxr⟩ := (m.2.2 x).1 hx
    obtain ⟨i, hi, rfl⟩ := List.mem_map.1 hr
    refine ⟨i, List.mem_filter.2 ⟨hi, ?_⟩, hxr⟩
    by_contra hp
    exact h i (List.mem_filter.2 ⟨hi, by simpa using hp⟩) hxr
  · rintro ⟨i, hi, hx⟩
    obtain ⟨hi, hp⟩ := List.mem_filter.1 hi
    refine ⟨(m.2.2 x).2 ⟨_, List.mem_map_of_mem hi, hx⟩, fun j hj hxj => ?_⟩
    obtain ⟨hj, hq⟩ := List.mem_filter.1 hj
    have hne : i ≠ j := by rintro rfl; simp [hp] at hq
    have pw := m.2.1
    rw [List.pairwise_map] at pw
    have : List.Pairwise (fun i j : Interval α => x ∉ i.pts ∨ x ∉ j.pts) is := pw.imp fun {i j} h => by
      by_cases h1 : x ∈ i.pts
      · exact .inr fun h2 => lt_irrefl _ (h x h1 x h2)
      · exact .inl h1
    have : Std.Symm (fun i j : Interval α => x ∉ i.pts ∨ x ∉ j.pts) := ⟨fun _ _ h => h.symm⟩
    rcases List.Pairwise.forall ‹_› hi hj hne with h | h
    exacts [h hx, h hxj]

/-- **C143.** Collecting the listed intervals that meet a condition gives a selection that lists just these. -/
theorem C143_keep (dbg : Bool) (p : Interval α → Bool) (s : Selection α) (hs : s.Edited) (is : List (Interval α))
    (his : s.intervals dbg = .ok is) :
    ∃ r js, s.keepRuns dbg p = .ok r ∧ r.UnionBuilt ∧ r.intervals dbg = .ok js ∧
      js.map Interval.pts = (is.filter p).map Interval.pts ∧ ∀ x, x ∈ r.pts dbg ↔ ∃ i ∈ is.filter p, x ∈ i.pts := by
  obtain ⟨is', e, ho, m⟩ := C120_runs dbg s hs
  rw [his] at e; cases e
  obtain ⟨r, hr, -, hp⟩ := C48_from_intervals dbg (is.filter p) fun i hi => (ho i (List.mem_filter.1 hi).1).1
  have u : r.UnionBuilt := .fromIntervals (fun i hi => ⟨(ho i (List.mem_filter.1 hi).1).1,
    Interval.real_of_run m (List.mem_filter.1 hi).1⟩) hr
  obtain ⟨js, hj, -, mj⟩ := C120_runs dbg r (.built u)
  refine ⟨r, js, by simp only [Selection.keepRuns, his, bind, Except.bind]; exact hr, u, hj, ?_, hp⟩
  refine mj.unique ?_
  have := m.some_of (B := (is.filter p).map Interval.pts) (List.filter_sublist.map _)
  convert this using 1
  ext x
  rw [hp x]
  simp

example : (Selection.demo [(u8 2, u8 5), (u8 7, u8 8), (u8 10, u8 10)]).Edited ∧
    ((Selection.demo [(u8 2, u8 5), (u8 7, u8 8), (u8 10, u8 10)]).keepRuns true (·.contains (u8 8)) >>= (·.intervals true)) =
      .ok [.mkClosed (u8 7) (u8 8)] :=
  ⟨.built (Selection.demo_built _ (by decide)), by decide⟩

/-- **C143.** Taking the other intervals out one by one leaves the same values, and those that were missing alone beside an
interval that is taken out. -/
theorem C143_drop (dbg : Bool) (p : Interval α → Bool) (s : Selection α) (hs : s.UnionBuilt) (is : List (Interval α))
    (his : s.intervals dbg = .ok is) :
    ∃ r, s.dropRuns dbg p = .ok r ∧ ∀ x, x ∈ r.pts dbg ↔ (∃ i ∈ is.filter p, x ∈ i.pts) ∨
      (x ∉ s.pts dbg ∧ (∃ y ∈ s.pts dbg, pred x = some y) ∧ (∃ z ∈ s.pts dbg, succ x = some z) ∧
        ∃ i ∈ is.filter (!p ·), ∃ y ∈ i.pts, pred x = some y ∨ succ x = some y) := by
  obtain ⟨is', e, ho, m⟩ := C120_runs dbg s (.built hs)
  rw [his] at e; cases e
  obtain ⟨r, hr, hp⟩ := C124_removals dbg s hs ((is.filter (!p ·)).map .remove) (by
    intro c hc
    obtain ⟨i, hi, rfl⟩ := List.mem_map.1 hc
    exact ⟨(ho i (List.mem_filter.1 hi).1).1, Interval.real_of_run m (List.mem_filter.1 hi).1⟩) (by
    intro c hc
    obtain ⟨i, hi, rfl⟩ := List.mem_map.1 hc
    rfl)
  refine ⟨r, ?_, fun x => ?_⟩
  · simp only [Selection.dropRuns, his, bind, Except.bind]
    rw [← hr, Selection.steps, List.foldlM_map]
  · rw [hp x]
    have hf := m.filter_mem p x
    have k1 : (∀ c ∈ (is.filter (!p ·)).map SelStep.remove, x ∉ c.pts dbg) ↔ ∀ i ∈ is.filter (!p ·), x ∉ i.pts := by
      rw [List.forall_mem_map]
      rfl
    rw [k1]
    constructor
    · rintro ⟨h1, h2⟩
      by_cases hx : x ∈ s.pts dbg
      · exact .inl (hf.1 ⟨hx, h1⟩)
      · obtain ⟨⟨a, ha, ha'⟩, ⟨b, hb, hb'⟩, c, hc, y, hy, hn⟩ := h2.resolve_left hx
        obtain ⟨i, hi, rfl⟩ := List.mem_map.1 hc
        refine .inr ⟨hx, ⟨a, ha, ha'⟩, ⟨b, hb, hb'⟩, i, hi, y, hy, ?_⟩
        rcases hn with rfl | hn | hn
        · exact absurd hy (h1 i hi)
        · exact .inl hn
        · exact .inr hn
    · rintro (h | ⟨hx, h1, h2, i, hi, y, hy, hn⟩)
      · exact ⟨(hf.2 h).2, .inl (hf.2 h).1⟩
      · refine ⟨fun j hj hxj => hx ((m.2.2 x).2 ⟨_, List.mem_map_of_mem (List.mem_filter.1 hj).1, hxj⟩), .inr ⟨h1, h2,
          _, List.mem_map_of_mem hi, y, hy, ?_⟩⟩
        rcases hn with hn | hn
        · exact .inr (.inl hn)
        · exact .inr (.inr hn)

example : (Selection.demo [(u8 2, u8 5), (u8 7, u8 8), (u8 12, u8 13)]).UnionBuilt ∧
    ((Selection.demo [(u8 2, u8 5), (u8 7, u8 8), (u8 12, u8 13)]).dropRuns true (·.contains (u8 12)) >>= (·.intervals true)) =
      .ok [.mkClosed (u8 6) (u8 6), .mkClosed (u8 12) (u8 13)] :=
  ⟨Selection.demo_built _ (by decide), by decide⟩

theorem Selection.Edited.extend {dbg : Bool} {is : List (Interval α)} : ∀ {s r : Selection α}, s.Edited →
    (∀ i ∈ is, i.Obtainable ∧ i.Real) → s.extend dbg is = .ok r → r.Edited := by
  induction is with
  | nil => intro s r hs _ h; cases h; exact hs
  | cons i is ih =>
    intro s r hs ho h
    rw [Selection.extend, List.foldlM_cons] at h
    obtain ⟨s', e, -⟩ := C48_union_in_place dbg s hs.reachable_crisp.1 i (ho i (.head _)).1
    have e' := e
    rw [Selection.unionInPlace] at e'
    rw [e'] at h
    exact ih (.unionInPlace hs (ho i (.head _)).1 (ho i (.head _)).2 e) (fun j hj => ho j (.tail _ hj)) h

/-- **C143.** Adding the listed intervals of the complement that meet a condition leaves just the others as gaps. -/
theorem C143_close (dbg : Bool) (p : Interval α → Bool) (s : Selection α) (hs : s.Edited) :
    ∃ c gs r, s.complement dbg = .ok c ∧ c.intervals dbg = .ok gs ∧ MaximalRuns (s.pts dbg)ᶜ (gs.map Interval.pts) ∧
      s.closeGaps dbg p = .ok r ∧ r.Edited ∧
      (∀ x, x ∈ r.pts dbg ↔ x ∈ s.pts dbg ∨ ∃ i ∈ gs.filter p, x ∈ i.pts) ∧
      ∃ c' gs', r.complement dbg = .ok c' ∧ c'.intervals dbg = .ok gs' ∧
        gs'.map Interval.pts = (gs.filter (!p ·)).map Interval.pts := by
  obtain ⟨c, hc, -, pc, -⟩ := C62_complement dbg s hs.reachable_crisp.1
  obtain ⟨gs, hg, ho, m⟩ := C120_runs dbg c (.complement hs hc)
  rw [pc] at m
  have ho' : ∀ i ∈ gs.filter p, i.Obtainable ∧ i.Real := fun i hi =>
    ⟨(ho i (List.mem_filter.1 hi).1).1, Interval.real_of_run m (List.mem_filter.1 hi).1⟩
  obtain ⟨r, hr, -, hp⟩ := C48_extend dbg s hs.reachable_crisp.1 (gs.filter p) fun i hi => (ho' i hi).1
  have ed : r.Edited := hs.extend ho' hr
  obtain ⟨c', hc', -, pc', -⟩ := C62_complement dbg r ed.reachable_crisp.1
  obtain ⟨gs', hg', -, m'⟩ := C120_runs dbg c' (.complement ed hc')
  refine ⟨c, gs, r, hc, hg, m, by simp only [Selection.closeGaps, hc, hg, bind, Except.bind]; exact hr, ed, hp, c', gs', hc',
    hg', ?_⟩
  rw [pc'] at m'
  refine m'.unique ?_
  have := m.some_of (B := (gs.filter (!p ·)).map Interval.pts) (List.filter_sublist.map _)
  convert this using 1
  ext x
  have hf := m.filter_mem (!p ·) x
  simp only [Bool.not_not] at hf
  rw [Set.mem_compl_iff, hp x, not_or]
  rw [Set.mem_compl_iff] at hf
  simp only [List.mem_map, exists_exists_and_eq_and, Set.mem_setOf_eq]
  rw [← hf]
  simp

example : (Selection.demo [(u8 2, u8 5), (u8 7, u8 8), (u8 12, u8 13)]).Edited ∧
    ((Selection.demo [(u8 2, u8 5), (u8 7, u8 8), (u8 12, u8 13)]).closeGaps true (·.contains (u8 9)) >>= (·.intervals true)) =
      .ok [.mkClosed (u8 2) (u8 5), .mkClosed (u8 7) (u8 13)] :=
  ⟨.built (Selection.demo_built _ (by decide)), by decide⟩

/-- The intervals chosen by size, where all sizes can be told. -/
theorem sizeFilter_ok {sub : α → α → Option α} {k : α} {long : Bool} {is : List (Interval α)} {d : Interval α → α}
    (h : ∀ i ∈ is, i.size sub = .ok (some (d i))) :
    sizeFilter sub k long is = .ok (is.filter fun i => decide (k ≤ d i) == long) := by
  rcases mapM_keys (fun i : Interval α => i.size sub) is (fun i hi => .inr ⟨_, h i hi⟩) with ⟨-, i, hi, e⟩ | ⟨ps, e, e1, e2⟩
  · rw [h i hi] at e; cases e
  · have run : sizeFilter sub k long is = (do
        let ps ← is.mapM fun i => do return ((← i.size sub), i)
        return (ps.filter fun p => decide (sizeKey (some k) ≤ sizeKey p.1) == long).map Prod.snd) := rfl
    rw [run, e]
    simp only [bind, Except.bind, pure, Except.pure]
    congr 1
    rw [← e1, List.filter_map]
    congr 1
    refine List.filter_congr fun q hq => ?_
    have h1 := e2 q hq
    simp only [h q.2 (e1 ▸ List.mem_map_of_mem hq), Except.ok.injEq] at h1
    simp only [← h1, Function.comp]
    congr 1
    exact decide_eq_decide.2 (WithBot.coe_le_coe (a := k) (b := d q.2))

section Unsigned
variable {hi : Int} [Fact (0 ≤ hi)]

/-- The sizes of the runs of unsigned numbers. -/
theorem Interval.run_sizes {sub : MInt 0 hi → MInt 0 hi → Option (MInt 0 hi)}
    (hsub : sub = MInt.sub ∨ sub = fun a b => some (MInt.wrapSub a b)) {S : Set (MInt 0 hi)} {is : List (Interval (MInt 0 hi))}
    (ho : ∀ i ∈ is, i.Obtainable) (m : MaximalRuns S (is.map Interval.pts)) :
    ∃ d : Interval (MInt 0 hi) → MInt 0 hi, ∀ i ∈ is, i.size sub = .ok (some (d i)) ∧
      ∃ l u : MInt 0 hi, i.pts = Set.Icc l u ∧ (d i).1 = u.1 - l.1 := by
  have key : ∀ i ∈ is, ∃ d, i.size sub = .ok (some d) ∧ ∃ l u : MInt 0 hi, i.pts = Set.Icc l u ∧ d.1 = u.1 - l.1 := by
    intro i hi'
    obtain ⟨a, b, hab, e1, -⟩ := m.1 _ (List.mem_map_of_mem hi')
    obtain ⟨x1, x2, -, -⟩ := C31_extrema_partial i (ho i hi') (Interval.real_of_run m hi')
    have h1 := (x1 a).2 (e1 ▸ ⟨⟨le_rfl, hab⟩, fun x hx => hx.1⟩)
    have h2 := (x2 b).2 (e1 ▸ ⟨⟨hab, le_rfl⟩, fun x hx => hx.2⟩)
    have hab' : a.1 ≤ b.1 := hab
    have small : b.1 - a.1 ≤ hi := by have := a.2.1; have := b.2.2; omega
    obtain ⟨d, hd, hv⟩ : ∃ d, sub b a = some d ∧ d.1 = b.1 - a.1 := by
      rcases hsub with rfl | rfl
      · exact ⟨⟨b.1 - a.1, by omega, small⟩, by rw [MInt.sub, MInt.checkedSub, dif_pos ⟨by omega, small⟩], rfl⟩
      · exact ⟨_, rfl, (MInt.wrapSub_val b a).2.2 ⟨by omega, small⟩⟩
    exact ⟨d, by rw [Interval.size, h1, h2]; simp only [hd], a, b, e1, hv⟩
  classical
  refine ⟨fun i => if h : i ∈ is then (key i h).choose else ⟨0, le_rfl, Fact.out⟩, fun i hi' => ?_⟩
  simp only [dif_pos hi']
  exact (key i hi').choose_spec

/-- The values of the runs chosen by size. -/
theorem MaximalRuns.long {S : Set (MInt 0 hi)} {is : List (Interval (MInt 0 hi))} (m : MaximalRuns S (is.map Interval.pts))
    {d : Interval (MInt 0 hi) → MInt 0 hi}
    (hd : ∀ i ∈ is, ∃ l u : MInt 0 hi, i.pts = Set.Icc l u ∧ (d i).1 = u.1 - l.1) (k x : MInt 0 hi) :
    (∃ i ∈ is.filter (fun i => decide (k ≤ d i) == true), x ∈ i.pts) ↔ x ∈ inLongBlock S k := by
  constructor
  · rintro ⟨i, hi', hx⟩
    obtain ⟨hi', hk⟩ := List.mem_filter.1 hi'
    obtain ⟨l, u, e, e'⟩ := hd i hi'
    have hk : k ≤ d i := by simpa using hk
    have hk : k.1 ≤ (d i).1 := hk
    exact ⟨l, u, e ▸ hx, fun y hy => (m.2.2 y).2 ⟨_, List.mem_map_of_mem hi', e ▸ hy⟩, e' ▸ hk⟩
  · rintro ⟨l, u, hx, hs, hk⟩
    obtain ⟨r, hr, hin⟩ := m.block (hx.1.trans hx.2) hs
    obtain ⟨i, hi', rfl⟩ := List.mem_map.1 hr
    obtain ⟨a, b, e, e'⟩ := hd i hi'
    refine ⟨i, List.mem_filter.2 ⟨hi', ?_⟩, hin hx⟩
    have h1 := hin ⟨le_rfl, hx.1.trans hx.2⟩
    have h2 := hin ⟨hx.1.trans hx.2, le_rfl⟩
    rw [e] at h1 h2
    have h1 : a.1 ≤ l.1 := h1.1
    have h2 : u.1 ≤ b.1 := h2.2
    have : k ≤ d i := show k.1 ≤ (d i).1 by omega
    simpa using this

/-- **C143.** `s.interval_iter().filter(|i| i.size() >= Some(k)).collect()` has the values that lie in a block of more than `k`
numbers of the selection, for unsigned types. -/
theorem C143_long (dbg : Bool) (sub : MInt 0 hi → MInt 0 hi → Option (MInt 0 hi))
    (hsub : sub = MInt.sub ∨ sub = fun a b => some (MInt.wrapSub a b)) (k : MInt 0 hi) (s : Selection (MInt 0 hi))
    (hs : s.Edited) : ∃ r, s.keepLong dbg sub k = .ok r ∧ r.UnionBuilt ∧ r.pts dbg = inLongBlock (s.pts dbg) k := by
  obtain ⟨is, e, ho, m⟩ := C120_runs dbg s hs
  obtain ⟨d, hd⟩ := Interval.run_sizes hsub (fun i hi => (ho i hi).1) m
  obtain ⟨r, -, hr, u, -, -, hp⟩ := C143_keep dbg (fun i => decide (k ≤ d i) == true) s hs is e
  refine ⟨r, ?_, u, Set.ext fun x => ?_⟩
  · simp only [Selection.keepLong, e, sizeFilter_ok fun i hi => (hd i hi).1, bind, Except.bind]
    simpa only [Selection.keepRuns, e, bind, Except.bind] using hr
  · rw [hp x, m.long fun i hi => (hd i hi).2]

/-- **C143.** `s.extend(s.complement().interval_iter().filter(|i| i.size() < Some(k)))` lacks the values that lie in a block of
more than `k` numbers missing from the selection, for unsigned types. -/
theorem C143_short (dbg : Bool) (sub : MInt 0 hi → MInt 0 hi → Option (MInt 0 hi))
    (hsub : sub = MInt.sub ∨ sub = fun a b => some (MInt.wrapSub a b)) (k : MInt 0 hi) (s : Selection (MInt 0 hi))
    (hs : s.Edited) : ∃ r, s.closeShort dbg sub k = .ok r ∧ r.Edited ∧ (r.pts dbg)ᶜ = inLongBlock (s.pts dbg)ᶜ k := by
  obtain ⟨c, hc, -, pc, -⟩ := C62_complement dbg s hs.reachable_crisp.1
  obtain ⟨gs', hg', ho, -⟩ := C120_runs dbg c (.complement hs hc)
  have gen := fun p => C143_close dbg p s hs
  obtain ⟨c', gs, -, hc', hg, m, -⟩ := gen fun _ => true
  rw [hc] at hc'; cases hc'
  rw [hg] at hg'; cases hg'
  obtain ⟨d, hd⟩ := Interval.run_sizes hsub (fun i hi => (ho i hi).1) m
  obtain ⟨c', gs', r, hc', hg', -, hr, ed, hp, -⟩ := gen fun i => decide (k ≤ d i) == false
  rw [hc] at hc'; cases hc'
  rw [hg] at hg'; cases hg'
  refine ⟨r, ?_, ed, Set.ext fun x => ?_⟩
  · simp only [Selection.closeShort, hc, hg, sizeFilter_ok fun i hi => (hd i hi).1, bind, Except.bind]
    simpa only [Selection.closeGaps, hc, hg, bind, Except.bind] using hr
  · rw [Set.mem_compl_iff, hp x, not_or, ← m.long fun i hi => (hd i hi).2, ← m.filter_mem fun i => decide (k ≤ d i) == true]
    refine and_congr_right fun _ => ?_
    simp only [List.mem_filter, not_exists, not_and]
    constructor
    · intro h i hi hx
      exact h i ⟨hi.1, by simpa using hi.2⟩ hx
    · intro h i hi hx
      exact h i ⟨hi.1, by simpa using hi.2⟩ hx

end Unsigned

example : (Selection.demo [(u8 2, u8 5), (u8 7, u8 8), (u8 20, u8 22)]).UnionBuilt ∧
    ((Selection.demo [(u8 2, u8 5), (u8 7, u8 8), (u8 20, u8 22)]).keepLong true MInt.sub (u8 2) >>= (·.intervals true)) =
      .ok [.mkClosed (u8 2) (u8 5), .mkClosed (u8 20) (u8 22)] ∧
    ((Selection.demo [(u8 2, u8 5), (u8 7, u8 8), (u8 20, u8 22)]).closeShort true MInt.sub (u8 5) >>= (·.intervals true)) =
      .ok [.mkClosed (u8 0) (u8 8), .mkClosed (u8 20) (u8 22)] :=
  ⟨Selection.demo_built _ (by decide), by decide, by decide⟩

/-- Taking the short interval out in place leaves the value 6 that was not there; with signed numbers a release build takes
the run from `-128` to `100` for a short one and a debug build panics. -/
theorem C143_counterexample :
    (∃ s : Selection U8, s.UnionBuilt ∧ ∀ dbg, s.contains dbg (u8 6) = .ok false ∧
      (s.dropRuns dbg (fun i => decide (i.size MInt.sub = .ok (some (u8 3)))) >>= (·.contains dbg (u8 6))) = .ok true) ∧
    ∃ s : Selection I8, s.UnionBuilt ∧ s.intervals true = .ok [.mkClosed (MInt.lit (-128)) (MInt.lit 100)] ∧
      s.keepLong true MInt.sub (MInt.lit 5) = .error .overflow ∧
      s.keepLong false (fun a b => some (MInt.wrapSub a b)) (MInt.lit 5) = .ok .new := by
  refine ⟨⟨_, Selection.demo_built [(u8 2, u8 5), (u8 7, u8 8)] (by decide), by decide⟩,
    ⟨_, .ofInterval (i := Interval.mkClosed (MInt.lit (-128)) (MInt.lit 100)) (.mkClosed _ _) (Interval.closed_real (by decide)),
      by decide, by decide, by decide⟩⟩

end NI
