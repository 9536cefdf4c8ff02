import Mathlib.Data.Set.Card
import Mathlib.Data.Fintype.Card
import Verif.Lemmas.Runs
import Verif.Props.SelectionMore

/-!
# Selections of any history: C54, C56, C57, C59, C60 and C61 by the reported intervals

What goes wrong with these properties, for selections of whatever history, is due to reported intervals
without points alone.
-/

set_option linter.unusedSimpArgs false
set_option linter.unusedVariables false
set_option linter.unusedSectionVars false

namespace NI
open _root_.NI.Finite TT
variable {α : Type} [LinearOrder α] [Finite α] [LawfulFinite α]

namespace Selection

theorem run_nonempty {i : RawInterval α} : (run i).pts.Nonempty ↔ ∃ x, i.contains x = true := by
  rw [run_pts]; rfl

theorem good_iff {s : Selection α} (h : s.Reachable) {i : RawInterval α} (hi : i ∈ pieces none s.tree) :
    Good i ↔ (run i).pts.Nonempty := by
  rw [run_nonempty]
  exact ⟨fun h => h.2, fun hx => ⟨((pieces_wf (reachable_valid h).1).1 i hi).1, hx⟩⟩

/-- Whatever comes before it, forward iteration gets to a run without points. -/
theorem fwd_phantom [Fintype α] (dbg : Bool) {p q : α} (hpq : succ p = some q) (k : Nat) :
    ∀ (n : Nat) {ts : List (Tine α)} {saved : Option α} {cur : Interval α},
    (∀ t ∈ ts, t.Ok) → Chain saved.isSome ts false → cur.Obtainable → cur.Real →
    (∀ i ∈ pieces (saved.map .excl) ts, Good i ∨ ∃ p q, succ p = some q ∧ i = .opn p q) →
    (pieces (saved.map .excl) ts).length < k → cur.pts.ncard < n →
    .opn p q ∈ pieces (saved.map .excl) ts →
    ∃ m os, drive (PointIter.next dbg) (PointIter.nextBack dbg) ⟨itState ts saved, cur⟩
        (List.replicate m .next) = .ok os ∧ some q ∈ os := by
  have key : ∀ {p q : α}, succ p = some q →
      (run (.opn p q)).next = .ok (some q, .empty) := fun {p q} h => by
    have hlt := (LawfulFinite.succ_some p q h).1
    have ho : (run (.opn p q)).Obtainable := .ofRaw _ hlt
    have e : run (.opn p q) = ⟨.closed q p⟩ := by
      rw [run]; simp only [RawInterval.normalized, h, pred_of_succ h]
    have hr : ¬ (run (.opn p q)).Real := by
      rw [e, Interval.real_mk_closed]; exact not_le.2 hlt
    obtain ⟨l, u, -, e', hn, -⟩ := Interval.not_real_step ho hr
    rw [e] at e'; cases e'
    exact hn
  induction k with
  | zero => intro n ts saved cur _ _ _ _ _ h; omega
  | succ k ihk =>
    intro n
    induction n with
    | zero => intro ts saved cur _ _ _ _ _ _ h; omega
    | succ n ihn =>
      intro ts saved cur hok hc ho hr hg hk hn hm
      rcases Interval.iter_step ho hr with ⟨he, h1, -⟩ | ⟨⟨m, c', hm', h1, h2, h3, h4⟩, -⟩
      · rcases next_step dbg ts saved hok hc with ⟨k1, k2, k3, k4⟩ | ⟨i, ts', saved', k1, k2, k3, k4, k5⟩
        · rw [k3] at hm; cases hm
        · rw [k1] at hg hk hm
          rcases List.mem_cons.1 hm with rfl | hmt
          · refine ⟨1, [some q], ?_, by simp⟩
            simp only [List.replicate, drive, PointIter.next, h1, intervalNext, k5, bind, Except.bind,
              Option.map_some, run_eq, key hpq]
            rfl
          · rcases hg i (by simp) with hgi | ⟨p', q', hpq', rfl⟩
            · obtain ⟨g1, g2, g3⟩ := hgi.run_ok
              rcases Interval.iter_step g1 g2 with ⟨z, -⟩ | ⟨⟨m, c', hm', j1, j2, j3, j4⟩, -⟩
              · rw [z] at g3; exact absurd g3 (by simp)
              obtain ⟨m', os, e, ho⟩ := ihk (c'.pts.ncard + 1) (ts := ts') (saved := saved') (cur := c')
                (fun t ht => hok t (k4 t ht)) k2 j2 j3 (fun j hj => hg j (by simp [hj]))
                (by simp at hk; omega) (by omega) hmt
              refine ⟨m' + 1, some m :: os, ?_, by simp [ho]⟩
              rw [List.replicate_succ]
              simp only [drive, PointIter.next, h1, intervalNext, k5, bind, Except.bind, Option.map_some,
                run_eq, j1, e]
              rfl
            · obtain ⟨m', os, e, ho⟩ := ihk ((Interval.empty : Interval α).pts.ncard + 1) (ts := ts')
                (saved := saved') (cur := .empty)
                (fun t ht => hok t (k4 t ht)) k2 .empty (.inl rfl) (fun j hj => hg j (by simp [hj]))
                (by simp at hk; omega) (by omega) hmt
              refine ⟨m' + 1, some q' :: os, ?_, by simp [ho]⟩
              rw [List.replicate_succ]
              simp only [drive, PointIter.next, h1, intervalNext, k5, bind, Except.bind, Option.map_some,
                run_eq, key hpq', e]
              rfl
      · have hlt : c'.pts.ncard < cur.pts.ncard := by
          rw [h4]
          exact Set.ncard_sdiff_singleton_lt_of_mem hm'.1 (Set.toFinite _)
        obtain ⟨m', os, e, ho⟩ := ihn (ts := ts) (saved := saved) (cur := c') hok hc h2 h3 hg hk
          (by omega) hm
        refine ⟨m' + 1, some m :: os, ?_, by simp [ho]⟩
        rw [List.replicate_succ]
        simp only [drive, PointIter.next, h1, bind, Except.bind, e]
        rfl

end Selection

theorem Walk.mem {β : Type} [LinearOrder β] {S : Set β} {cs : List IterCall} {os : List (Option β)}
    (h : Walk S cs os) {x : β} (hx : some x ∈ os) : x ∈ S := by
  induction h with
  | nil => cases hx
  | next hm _ ih =>
    rcases List.mem_cons.1 hx with h | h
    · cases h; exact hm.1
    · exact (ih h).1
  | nextBack hm _ ih =>
    rcases List.mem_cons.1 hx with h | h
    · cases h; exact hm.1
    · exact (ih h).1
  | done _ _ ih =>
    rcases List.mem_cons.1 hx with h | h
    · cases h
    · exact ih h

/-! ## A selection with an interval without points -/

/-- The union of `(3,4)` and `[7,9]`. -/
def Selection.mixed : Selection U8 :=
  ⟨[.lower (.excl (u8 3)), .upper (.excl (u8 4)), .lower (.excl (u8 6)), .upper (.excl (u8 10))]⟩

theorem Selection.mixed_reachable : Selection.mixed.Reachable :=
  .fromIntervals (dbg := true) (is := [Interval.mkOpen (u8 3) (u8 4), Interval.mkClosed (u8 7) (u8 9)])
    (by intro i hi; rcases List.mem_pair.1 hi with rfl | rfl; exacts [.mkOpen _ _, .mkClosed _ _])
    (by decide)

theorem Selection.mixed_intervals :
    Selection.mixed.intervals true = .ok [⟨.closed (u8 4) (u8 3)⟩, ⟨.closed (u8 7) (u8 9)⟩] := by decide

/-! ## C56 -/

/-- What `interval_iter` reports, whatever the history: no interval that says it is empty; each is `[l,u]`
with `l ≤ u`, or the open interval between two neighbours that are both missing. -/
theorem C56_shape (dbg : Bool) (s : Selection α) (hs : s.Reachable) (is : List (Interval α))
    (he : s.intervals dbg = .ok is) (i : Interval α) (hi : i ∈ is) :
    i.isEmpty = false ∧
    ((∃ l u, l ≤ u ∧ i.pts = Set.Icc l u ∧ i.lowerBound = some (.incl l) ∧ i.upperBound = some (.incl u)) ∨
      ∃ p q, succ p = some q ∧ p ∉ s.pts dbg ∧ q ∉ s.pts dbg ∧ i = Interval.mkOpen p q ∧ i.pts = ∅ ∧
        i.lowerBound = some (.incl q) ∧ i.upperBound = some (.incl p)) := by
  have v := Selection.reachable_valid hs
  rw [Selection.intervals_eq dbg v] at he
  cases he
  obtain ⟨r, hr, rfl⟩ := List.mem_map.1 hi
  rcases hs.run_cases hr with hg | ⟨p, q, hpq, rfl, e, h1, h2⟩
  · obtain ⟨l, u, h1, h2, h3, h4, h5⟩ := hg.cases
    exact ⟨h5, .inl ⟨l, u, h1, h2, h3, h4⟩⟩
  · have hlt := (LawfulFinite.succ_some p q hpq).1
    refine ⟨by rw [e]; rfl, .inr ⟨p, q, hpq, ?_, ?_, ?_, ?_, by rw [e]; rfl, by rw [e]; rfl⟩⟩
    · rw [Selection.mem_pts dbg v, h1]; simp
    · rw [Selection.mem_pts dbg v, h2]; simp
    · simp [Interval.mkOpen, RawInterval.mkOpen, hlt, Selection.run]
    · rw [e, Interval.pts_eq]; exact Set.Icc_eq_empty (not_le.2 hlt)

example : Selection.mixed.Reachable ∧ (⟨.closed (u8 4) (u8 3)⟩ : Interval U8) = Interval.mkOpen (u8 3) (u8 4) :=
  ⟨Selection.mixed_reachable, by decide⟩

/-! ## C54 -/

/-- `is_empty` is right, for a selection of any history, unless all of its reported intervals lack points. -/
theorem C54_exact_iff (dbg : Bool) (s : Selection α) (hs : s.Reachable) (is : List (Interval α))
    (he : s.intervals dbg = .ok is) :
    (s.isEmpty = true ↔ s.pts dbg = ∅) ↔ (is = [] ∨ ∃ i ∈ is, i.pts.Nonempty) := by
  have v := Selection.reachable_valid hs
  obtain ⟨is', e, -, -, hc⟩ := C56_cover_partial dbg s hs
  rw [he] at e; cases e
  have hempty : s.isEmpty = true ↔ is = [] := by
    rw [Selection.isEmpty_iff]
    rw [Selection.intervals_eq dbg v] at he
    cases he
    rw [List.map_eq_nil_iff]
    constructor
    · rintro rfl; rfl
    · intro h
      have := Selection.tree_nil v h
      cases s; cases this; rfl
  have hpts : s.pts dbg = ∅ ↔ ¬ ∃ i ∈ is, i.pts.Nonempty := by
    rw [Set.eq_empty_iff_forall_notMem]
    constructor
    · rintro h ⟨i, hi, x, hx⟩
      exact h x ((hc x).2 ⟨i, hi, hx⟩)
    · intro h x hx
      obtain ⟨i, hi, hx⟩ := (hc x).1 hx
      exact h ⟨i, hi, x, hx⟩
  rw [hempty, hpts]
  constructor
  · intro h
    by_cases hn : is = []
    · exact .inl hn
    · right; by_contra h'; exact hn (h.2 h')
  · rintro (rfl | h)
    · simp
    · constructor
      · rintro rfl; obtain ⟨i, hi, -⟩ := h; cases hi
      · exact fun h' => absurd h h'

example : Selection.mixed.Reachable ∧ ∃ i ∈ [(⟨.closed (u8 4) (u8 3)⟩ : Interval U8), ⟨.closed (u8 7) (u8 9)⟩],
    i.pts.Nonempty :=
  ⟨Selection.mixed_reachable, ⟨.closed (u8 7) (u8 9)⟩, by simp, u8 8, show Interval.contains _ _ = true by decide⟩

/-- `is_full` says whether a selection has every value, unless these are listed as more than one interval. -/
theorem C54_is_full_iff (dbg : Bool) (s : Selection α) (hs : s.Reachable) (is : List (Interval α))
    (he : s.intervals dbg = .ok is) :
    (s.isFull = true ↔ s.pts dbg = Set.univ) ↔ (s.pts dbg = Set.univ → is.length = 1) := by
  have v := Selection.reachable_valid hs
  have hf := (C54_sound_partial dbg s).2
  constructor
  · intro h hu
    have := Selection.isFull_iff.1 (h.2 hu)
    subst this
    rw [Selection.intervals_eq dbg v] at he
    cases he
    rw [Selection.full_tree]
    rfl
  · refine fun h => ⟨hf, fun hu => ?_⟩
    have h1 := h hu
    rw [Selection.intervals_eq dbg v] at he
    cases he
    rw [List.length_map, List.length_eq_one_iff] at h1
    obtain ⟨i, hi⟩ := h1
    have hm : i ∈ pieces none s.tree := by rw [hi]; simp
    have hw := ((pieces_wf v.1).1 i hm).1
    have hall : ∀ x, i.contains x = true := by
      intro x
      have hx : x ∈ s.pts dbg := hu ▸ trivial
      rw [← Selection.rest_pieces dbg v, hi] at hx
      obtain ⟨j, hj, hx⟩ := hx
      rw [List.mem_singleton] at hj; subst hj
      exact hx
    have hfull := (hs.fit.piece v hm).full hw hall
    subst hfull
    rw [Selection.isFull_iff]
    have v' := Selection.reachable_valid (.full : (Selection.full : Selection α).Reachable)
    have : s.tree = (Selection.full : Selection α).tree := by
      refine valid_ext v v' fun aft k hr => ?_
      rw [← (pieces_cov aft k v.1).1 v.2, ← (pieces_cov aft k v'.1).1 v'.2, hi, Selection.full_tree]
      rfl
    cases s; exact congrArg _ this

example : Selection.cut.Reachable ∧ (Selection.cut).intervals true = .ok [⟨.closed (u8 0) (u8 4)⟩,
    ⟨.closed (u8 5) (u8 255)⟩] := ⟨Selection.cut_solid.reachable, by decide⟩

/-! ## C57 -/

/-- Forward iteration over the points is right for a selection of any history whose reported intervals all
contain a point. -/
theorem C57_forward_runs (dbg : Bool) (s : Selection α) (hs : s.Reachable) (is : List (Interval α))
    (he : s.intervals dbg = .ok is) (hg : ∀ i ∈ is, i.pts.Nonempty) (n : Nat) :
    ∃ os, drive (PointIter.next dbg) (PointIter.nextBack dbg) (PointIter.start s)
        (List.replicate n .next) = .ok os ∧ Walk (s.pts dbg) (List.replicate n .next) os := by
  have v := Selection.reachable_valid hs
  rw [Selection.intervals_eq dbg v] at he
  cases he
  obtain ⟨os, h1, h2⟩ := Selection.fwd_walk dbg n (ts := s.tree) (saved := none) (cur := .empty)
    v.1.1 v.2 .empty (.inl rfl)
    (fun i hi => (Selection.good_iff hs hi).2 (hg _ (List.mem_map.2 ⟨i, hi, rfl⟩)))
    (Selection.pieces_inc v) (fun x hx => absurd hx (by intro h; cases h))
  refine ⟨os, h1, ?_⟩
  have e : (Interval.empty : Interval α).pts ∪ Selection.rest (pieces (Option.map Bound.excl none) s.tree)
      = s.pts dbg := by
    rw [← Selection.rest_pieces dbg v]
    ext x
    exact ⟨fun h => h.elim (fun h => by cases h) id, .inr⟩
  rwa [e] at h2

example : Selection.cut.Reachable ∧ ∀ i ∈ [(⟨.closed (u8 0) (u8 4)⟩ : Interval U8), ⟨.closed (u8 5) (u8 255)⟩],
    i.pts.Nonempty := by
  refine ⟨Selection.cut_solid.reachable, fun i hi => ?_⟩
  rcases List.mem_pair.1 hi with rfl | rfl
  exacts [⟨u8 2, show Interval.contains _ _ = true by decide⟩, ⟨u8 7, show Interval.contains _ _ = true by decide⟩]

/-- On types with finitely many values it is right for these selections only. -/
theorem C57_forward_iff [Fintype α] (dbg : Bool) (s : Selection α) (hs : s.Reachable)
    (is : List (Interval α)) (he : s.intervals dbg = .ok is) :
    (∀ n, ∃ os, drive (PointIter.next dbg) (PointIter.nextBack dbg) (PointIter.start s)
        (List.replicate n .next) = .ok os ∧ Walk (s.pts dbg) (List.replicate n .next) os) ↔
    ∀ i ∈ is, i.pts.Nonempty := by
  refine ⟨fun h => ?_, fun hg n => C57_forward_runs dbg s hs is he hg n⟩
  have v := Selection.reachable_valid hs
  rw [Selection.intervals_eq dbg v] at he
  cases he
  intro i hi
  obtain ⟨r, hr, rfl⟩ := List.mem_map.1 hi
  rcases hs.run_cases hr with hg | ⟨p, q, hpq, rfl, -, -, h2⟩
  · exact (Selection.good_iff hs hr).1 hg
  · obtain ⟨m, os, e, ho⟩ := Selection.fwd_phantom dbg hpq ((pieces none s.tree).length + 1)
      ((Interval.empty : Interval α).pts.ncard + 1) (ts := s.tree) (saved := none) (cur := .empty)
      v.1.1 v.2 .empty (.inl rfl)
      (fun i hi => (hs.run_cases hi).imp_right fun ⟨p, q, h1, h2, _⟩ => ⟨p, q, h1, h2⟩)
      (by simp) (by omega) hr
    obtain ⟨os', e', w⟩ := h m
    have e : drive (PointIter.next dbg) (PointIter.nextBack dbg) (PointIter.start s)
      (List.replicate m .next) = .ok os := e
    rw [e] at e'; cases e'
    have := w.mem ho
    rw [Selection.mem_pts dbg v, h2] at this
    cases this

example : drive (PointIter.next true) (PointIter.nextBack true) (PointIter.start Selection.mixed)
    [.next, .next, .next] = .ok [some (u8 4), some (u8 7), some (u8 8)] := by decide

/-! ## C59 and C60 -/

/-- `lower_bound` is that of the least point, for a selection of any history, exactly if the first reported
interval contains a point; likewise `upper_bound` with the last one. -/
theorem C59_bounds_iff (dbg : Bool) (s : Selection α) (hs : s.Reachable) (is : List (Interval α))
    (he : s.intervals dbg = .ok is) :
    (((s.pts dbg = ∅ ∧ s.lowerBound dbg = .ok none) ∨
      ∃ l, IsLeast (s.pts dbg) l ∧ s.lowerBound dbg = .ok (some (.incl l))) ↔
      ∀ i, is.head? = some i → i.pts.Nonempty) ∧
    (((s.pts dbg = ∅ ∧ s.upperBound dbg = .ok none) ∨
      ∃ u, IsGreatest (s.pts dbg) u ∧ s.upperBound dbg = .ok (some (.incl u))) ↔
      ∀ i, is.getLast? = some i → i.pts.Nonempty) := by
  have v := Selection.reachable_valid hs
  rw [Selection.intervals_eq dbg v] at he
  cases he
  rw [Selection.lowerBound_eq dbg v, Selection.upperBound_eq dbg v, List.head?_map, List.getLast?_map]
  have hinc := Selection.pieces_inc v
  have hrest := Selection.rest_pieces dbg v
  constructor
  · cases hh : (pieces none s.tree).head? with
    | none =>
      have : pieces none s.tree = [] := by cases h : pieces none s.tree <;> simp_all
      rw [this] at hrest
      simp [← hrest, Selection.rest]
    | some r =>
      have hr := List.mem_of_head? hh
      obtain ⟨L, hL⟩ : ∃ L, pieces none s.tree = r :: L := by
        cases h : pieces none s.tree with
        | nil => rw [h] at hh; cases hh
        | cons a L => rw [h] at hh; cases hh; exact ⟨L, rfl⟩
      simp only [Option.bind_some, Option.map_some, Option.some.injEq, forall_eq']
      rcases hs.run_cases hr with hg | ⟨p, q, hpq, rfl, e, -, h2⟩
      · refine iff_of_true (.inr ?_) ((Selection.good_iff hs hr).1 hg)
        obtain ⟨l, u, hlu, e1, e2, -⟩ := hg.cases
        refine ⟨l, ?_, by rw [e2]⟩
        have hl : l ∈ (Selection.run r).pts := by rw [e1]; exact ⟨le_rfl, hlu⟩
        rw [Selection.run_pts] at hl e1
        rw [← hrest, hL]
        refine ⟨⟨r, by simp, hl⟩, ?_⟩
        rintro x ⟨j, hj, hx⟩
        rcases List.mem_cons.1 hj with rfl | hj
        · exact (e1 ▸ (show x ∈ {x | RawInterval.contains _ x = true} from hx) : x ∈ Set.Icc l u).1
        · rw [hL] at hinc
          exact ((List.pairwise_cons.1 hinc).1 j hj l x hl hx).le
      · refine iff_of_false ?_ ?_
        · rw [e]
          rintro (⟨-, h⟩ | ⟨l, hl, h⟩)
          · cases h
          · cases h
            have := hl.1
            rw [Selection.mem_pts dbg v, h2] at this
            cases this
        · rw [e, Interval.pts_eq]
          rintro ⟨x, h1, h3⟩
          exact absurd (h1.trans h3) (not_le.2 (LawfulFinite.succ_some p q hpq).1)
  · cases hh : (pieces none s.tree).getLast? with
    | none =>
      have : pieces none s.tree = [] := by simpa using hh
      rw [this] at hrest
      simp [← hrest, Selection.rest]
    | some r =>
      have hr := List.mem_of_getLast? hh
      obtain ⟨L, hL⟩ : ∃ L, pieces none s.tree = L ++ [r] := by
        rcases List.eq_nil_or_concat (pieces none s.tree) with h | ⟨L, a, h⟩
        · rw [h] at hh; cases hh
        · rw [h] at hh; simp at hh; subst hh; exact ⟨L, by simp [h]⟩
      simp only [Option.bind_some, Option.map_some, Option.some.injEq, forall_eq']
      rcases hs.run_cases hr with hg | ⟨p, q, hpq, rfl, e, h2, -⟩
      · refine iff_of_true (.inr ?_) ((Selection.good_iff hs hr).1 hg)
        obtain ⟨l, u, hlu, e1, -, e2, -⟩ := hg.cases
        refine ⟨u, ?_, by rw [e2]⟩
        have hl : u ∈ (Selection.run r).pts := by rw [e1]; exact ⟨hlu, le_rfl⟩
        rw [Selection.run_pts] at hl e1
        rw [← hrest, hL]
        refine ⟨⟨r, by simp, hl⟩, ?_⟩
        rintro x ⟨j, hj, hx⟩
        rcases List.mem_append.1 hj with hj | hj
        · rw [hL] at hinc
          exact ((List.pairwise_append.1 hinc).2.2 j hj r (by simp) x u hx hl).le
        · rw [List.mem_singleton] at hj; subst hj
          exact (e1 ▸ (show x ∈ {x | RawInterval.contains _ x = true} from hx) : x ∈ Set.Icc l u).2
      · refine iff_of_false ?_ ?_
        · rw [e]
          rintro (⟨-, h⟩ | ⟨l, hl, h⟩)
          · cases h
          · cases h
            have := hl.1
            rw [Selection.mem_pts dbg v, h2] at this
            cases this
        · rw [e, Interval.pts_eq]
          rintro ⟨x, h1, h3⟩
          exact absurd (h1.trans h3) (not_le.2 (LawfulFinite.succ_some p q hpq).1)

example : Selection.mixed.lowerBound true = .ok (some (.incl (u8 4))) ∧
    Selection.mixed.upperBound true = .ok (some (.incl (u8 9))) := by decide

/-- `is_bounded` is the negation of `is_empty` for selections of any history: right exactly unless the
selection is empty. -/
theorem C60_exact_iff (dbg : Bool) (s : Selection α) (hs : s.Reachable) :
    s.isBounded dbg = .ok !s.isEmpty ∧ (s.isBounded dbg = .ok true ↔ s.isEmpty = false) := by
  have key : s.isBounded dbg = .ok !s.isEmpty := by
    have v := Selection.reachable_valid hs
    rw [Selection.isBounded, Selection.lowerBound_eq dbg v, Selection.upperBound_eq dbg v]
    cases hh : (pieces none s.tree).head? with
    | none =>
      have : pieces none s.tree = [] := by cases h : pieces none s.tree <;> simp_all
      rw [this, Selection.isEmpty, Selection.tree_nil v this]; rfl
    | some r =>
      have hr := List.mem_of_head? hh
      have hne : s.isEmpty = false := by
        rw [Bool.eq_false_iff]
        intro h
        rw [Selection.isEmpty_iff] at h
        subst h
        cases hr
      have hb : ∃ b, (Selection.run r).lowerBound = some b := by
        rcases hs.run_cases hr with hg | ⟨p, q, hpq, rfl, e, -⟩
        · obtain ⟨l, u, -, -, e, -⟩ := hg.cases; exact ⟨_, e⟩
        · exact ⟨_, by rw [e]; rfl⟩
      obtain ⟨b, hb⟩ := hb
      simp [hne, hb, bind, Except.bind]
  refine ⟨key, ?_⟩
  rw [key]
  simp

example : Selection.mixed.isBounded true = .ok true ∧
    (Selection.ofInterval (Interval.mkOpen (u8 3) (u8 4))).isBounded true = .ok true := by decide

/-! ## C61 -/

/-- `enclose` is the smallest interval around the points, for a selection of any history, exactly if it
reports at most one interval, or its first and last one contain a point. -/
theorem C61_enclose_iff (dbg : Bool) (s : Selection α) (hs : s.Reachable) (is : List (Interval α))
    (he : s.intervals dbg = .ok is) :
    (∃ e, s.enclose dbg = .ok e ∧ ((s.pts dbg = ∅ ∧ e.pts = ∅) ∨
        ∃ l u, IsLeast (s.pts dbg) l ∧ IsGreatest (s.pts dbg) u ∧ e.pts = Set.Icc l u)) ↔
    (is.length ≤ 1 ∨ ∀ i, is.head? = some i ∨ is.getLast? = some i → i.pts.Nonempty) := by
  have hb := C59_bounds_iff dbg s hs is he
  have v := Selection.reachable_valid hs
  obtain ⟨e, h, hw, b1, b2, hc⟩ := enclose_ok dbg v
  obtain ⟨t1, t2⟩ := Selection.tree_bounds v
  have hp : (⟨e.normalized⟩ : Interval α).pts = {x | e.contains x = true} := Selection.run_pts e
  have he' := he
  rw [Selection.intervals_eq dbg v] at he
  cases he
  have hrest := Selection.rest_pieces dbg v
  have hinc := Selection.pieces_inc v
  have hsep := (pieces_sep v.1).1
  have hen : s.enclose dbg = .ok ⟨e.normalized⟩ := by rw [Selection.enclose, h]; rfl
  rw [hen]
  simp only [Except.ok.injEq, exists_eq_left', hp]
  have bnd : ∀ {r r' : RawInterval α}, (pieces none s.tree).head? = some r →
      (pieces none s.tree).getLast? = some r' →
      e.lowerBound = r.lowerBound ∧ e.upperBound = r'.upperBound := fun {r r'} h1 h2 => by
    rw [b1, b2, t1, t2, h1, h2]; exact ⟨rfl, rfl⟩
  rcases hps : pieces none s.tree with _ | ⟨r, L⟩
  · have hn := Selection.tree_nil v hps
    rw [hn] at h
    cases h
    rw [hps] at hrest
    refine iff_of_true (.inl ⟨?_, ?_⟩) (.inl (by simp))
    · rw [← hrest]; ext x; simp [Selection.rest]
    · ext x; simp [RawInterval.contains]
  have hr : r ∈ pieces none s.tree := by rw [hps]; simp
  rcases List.eq_nil_or_concat L with rfl | ⟨M, r', rfl⟩
  · obtain ⟨e1, e2⟩ := bnd (r := r) (r' := r) (by rw [hps]; rfl) (by rw [hps]; rfl)
    have hce : ∀ x, e.contains x = true ↔ r.contains x = true := fun x => by
      rw [RawInterval.contains_iff_bounds, RawInterval.contains_iff_bounds, e1, e2]
    have hpt : s.pts dbg = {x | r.contains x = true} := by
      rw [← hrest, hps]; ext x; simp [Selection.rest]
    refine iff_of_true ?_ (.inl (by simp))
    simp only [hce, ← hpt]
    rcases hs.run_cases hr with hg | ⟨p, q, hpq, rfl, e, -, h2⟩
    · obtain ⟨l, u, hlu, e1, -⟩ := hg.cases
      rw [Selection.run_pts, ← hpt] at e1
      rw [e1]
      exact .inr ⟨l, u, isLeast_Icc hlu, isGreatest_Icc hlu, rfl⟩
    · refine .inl ⟨?_, ?_⟩ <;>
      · rw [hpt, ← Selection.run_pts, e, Interval.pts_eq]
        exact Set.Icc_eq_empty (not_le.2 (LawfulFinite.succ_some p q hpq).1)
  rw [List.concat_eq_append] at *
  have hr' : r' ∈ pieces none s.tree := by rw [hps]; simp
  have hhead : (pieces none s.tree).head? = some r := by rw [hps]; rfl
  have hlast : (pieces none s.tree).getLast? = some r' := by
    rw [hps, ← List.cons_append, List.getLast?_append]; rfl
  obtain ⟨e1, e2⟩ := bnd hhead hlast
  obtain ⟨lr, ur, i1, i2, ic⟩ := piece_bounds v hr
  obtain ⟨lb, ub, j1, j2, jc⟩ := piece_bounds v hr'
  have sep : Sep ur lb := by
    rw [hps] at hsep
    obtain ⟨u, l, k1, k2, k3⟩ := (List.pairwise_cons.1 hsep).1 r' (by simp)
    rw [i2] at k1; rw [j1] at k2; cases k1; cases k2; exact k3
  rw [i1] at e1; rw [j2] at e2
  have hlen : ¬ (List.map Selection.run (r :: (M ++ [r']))).length ≤ 1 := by simp
  rw [← hps] at hlen ⊢
  simp only [hlen, false_or]
  have hmin : ∀ l, IsLeast (s.pts dbg) l → ∃ j ∈ r :: (M ++ [r']), j.contains l = true := fun l hl => by
    have := hl.1
    rw [← hrest, hps] at this
    exact this
  have hmax : ∀ l, IsGreatest (s.pts dbg) l → ∃ j ∈ r :: (M ++ [r']), j.contains l = true := fun l hl => by
    have := hl.1
    rw [← hrest, hps] at this
    exact this
  rcases hs.run_cases hr with hg | ⟨p, q, hpq, rfl, er, -, h2⟩
  · rcases hs.run_cases hr' with hg' | ⟨p, q, hpq, rfl, er, h2, -⟩
    · refine iff_of_true (.inr ?_) ?_
      · have n1 := (Selection.good_iff hs hr).1 hg
        have n2 := (Selection.good_iff hs hr').1 hg'
        have k1 := hb.1.2 fun i hi => by rw [List.head?_map, hhead] at hi; cases hi; exact n1
        have k2 := hb.2.2 fun i hi => by rw [List.getLast?_map, hlast] at hi; cases hi; exact n2
        obtain ⟨l0, u0, hlu0, f1, f2, -⟩ := hg.cases
        obtain ⟨l1, u1, hlu1, g1, -, g2, -⟩ := hg'.cases
        rw [Selection.lowerBound_eq dbg v, hhead, Option.bind_some, f2] at k1
        rw [Selection.upperBound_eq dbg v, hlast, Option.bind_some, g2] at k2
        obtain ⟨l, hl, k1⟩ := k1.resolve_left (fun h => by cases h.2)
        obtain ⟨u, hu, k2⟩ := k2.resolve_left (fun h => by cases h.2)
        cases k1; cases k2
        refine ⟨l0, u1, hl, hu, ?_⟩
        have h3 : IsLeast {x | r.contains x = true} l0 := by
          rw [← Selection.run_pts, f1]; exact isLeast_Icc hlu0
        have h4 : IsGreatest {x | r'.contains x = true} u1 := by
          rw [← Selection.run_pts, g1]; exact isGreatest_Icc hlu1
        obtain ⟨_, _, m1, m2, a1, a2⟩ := (RawInterval.contains_iff_bounds r l0).1 h3.1
        rw [i1] at m1; rw [i2] at m2; cases m1; cases m2
        obtain ⟨_, _, m1, m2, c1, c2⟩ := (RawInterval.contains_iff_bounds r' u1).1 h4.1
        rw [j1] at m1; rw [j2] at m2; cases m1; cases m2
        ext x
        rw [Set.mem_ofPred_eq, RawInterval.contains_iff_bounds]
        constructor
        · rintro ⟨l', u', f1, f2, k1, k2⟩
          rw [e1] at f1; rw [e2] at f2; cases f1; cases f2
          constructor
          · by_contra hx
            have hx := not_le.1 hx
            refine hx.not_ge (h3.2 (show r.contains x = true from (RawInterval.contains_iff_bounds r x).2
              ⟨lr, ur, i1, i2, k1, ?_⟩))
            rcases ur with b | b | _
            exacts [hx.le.trans a2, hx.trans a2, trivial]
          · by_contra hx
            have hx := not_le.1 hx
            refine hx.not_ge (h4.2 (show r'.contains x = true from (RawInterval.contains_iff_bounds r' x).2
              ⟨lb, ub, j1, j2, ?_, k2⟩))
            rcases lb with b | b | _
            exacts [le_trans c1 hx.le, lt_trans c1 hx, trivial]
        · rintro ⟨k1, k2⟩
          refine ⟨lr, ub, e1, e2, ?_, ?_⟩
          · rcases lr with b | b | _
            exacts [le_trans a1 k1, lt_of_lt_of_le a1 k1, trivial]
          · rcases ub with b | b | _
            exacts [le_trans k2 c2, lt_of_le_of_lt k2 c2, trivial]
      · intro i hi
        rw [List.head?_map, List.getLast?_map, hhead, hlast] at hi
        rcases hi with hi | hi <;> cases hi
        exacts [(Selection.good_iff hs hr).1 hg, (Selection.good_iff hs hr').1 hg']
    · refine iff_of_false ?_ fun hh => ?_
      · cases j1; cases j2
        have hlt := (LawfulFinite.succ_some p q hpq).1
        have hep : e.contains p = true := by
          refine (RawInterval.contains_iff_bounds e p).2 ⟨lr, .excl q, e1, e2, ?_, hlt⟩
          rcases lr with b | b | _ <;> rcases ur with c | c | _ <;> rcases sep with h | ⟨x, h, h'⟩ <;>
            simp [Tine.key, Bound.AdmitsAbove, Bound.Compat] at * <;> grind
        rintro (⟨-, hz⟩ | ⟨l, u, hl, hu, hz⟩)
        · exact (Set.eq_empty_iff_forall_notMem.1 hz p) hep
        · have hpu : p ≤ u := (hz ▸ (show p ∈ {x | e.contains x = true} from hep) : p ∈ Set.Icc l u).2
          obtain ⟨j, hj, hju⟩ := hmax u hu
          have hup : u < q := by
            rw [hps] at hsep
            rw [← List.cons_append] at hj hsep
            rcases List.mem_append.1 hj with hj | hj
            · obtain ⟨u', l', m1, m2, m3⟩ := (List.pairwise_append.1 hsep).2.2 j hj _ (List.mem_singleton_self _)
              cases m2
              obtain ⟨_, u'', _, m4, _, m5⟩ := (RawInterval.contains_iff_bounds j u).1 hju
              rw [m1] at m4; cases m4
              exact sep_lt m3 m5 hlt
            · rw [List.mem_singleton] at hj; subst hj
              simp [RawInterval.contains] at hju
              exact hju.2
          have : u = p := by
            have := ((LawfulFinite.pred_some q p (pred_of_succ hpq)).2 u hup)
            exact le_antisymm this hpu
          have hmem := hu.1
          rw [Selection.mem_pts dbg v, this, h2] at hmem
          cases hmem
      · have := hh (Selection.run (.opn p q)) (.inr (by rw [List.getLast?_map, hlast]; rfl))
        rw [er, Interval.pts_eq] at this
        obtain ⟨x, h1, h3⟩ := this
        exact absurd (h1.trans h3) (not_le.2 (LawfulFinite.succ_some p q hpq).1)
  · refine iff_of_false ?_ fun hh => ?_
    · cases i1; cases i2
      have hlt := (LawfulFinite.succ_some p q hpq).1
      have hep : e.contains q = true := by
        refine (RawInterval.contains_iff_bounds e q).2 ⟨.excl p, ub, e1, e2, hlt, ?_⟩
        rcases ub with b | b | _ <;> rcases lb with c | c | _ <;> rcases sep with h | ⟨x, h, h'⟩ <;>
          simp [Tine.key, Bound.AdmitsBelow, Bound.Compat] at * <;> grind
      rintro (⟨-, hz⟩ | ⟨l, u, hl, hu, hz⟩)
      · exact (Set.eq_empty_iff_forall_notMem.1 hz q) hep
      · have hpu : l ≤ q := (hz ▸ (show q ∈ {x | e.contains x = true} from hep) : q ∈ Set.Icc l u).1
        obtain ⟨j, hj, hju⟩ := hmin l hl
        have hup : p < l := by
          rw [hps] at hsep
          rcases List.mem_cons.1 hj with rfl | hj
          · simp [RawInterval.contains] at hju
            exact hju.1
          · obtain ⟨u', l', m1, m2, m3⟩ := (List.pairwise_cons.1 hsep).1 j hj
            cases m1
            obtain ⟨l'', _, m4, _, m5, _⟩ := (RawInterval.contains_iff_bounds j l).1 hju
            rw [m2] at m4; cases m4
            exact sep_lt m3 hlt m5
        have : l = q := le_antisymm hpu ((LawfulFinite.succ_some p q hpq).2 l hup)
        have hmem := hl.1
        rw [Selection.mem_pts dbg v, this, h2] at hmem
        cases hmem
    · have := hh (Selection.run (.opn p q)) (.inl (by rw [List.head?_map, hhead]; rfl))
      rw [er, Interval.pts_eq] at this
      obtain ⟨x, h1, h3⟩ := this
      exact absurd (h1.trans h3) (not_le.2 (LawfulFinite.succ_some p q hpq).1)

example : Selection.mixed.enclose true = .ok ⟨.closed (u8 4) (u8 9)⟩ ∧
    Selection.cut.enclose true = .ok ⟨.closed (u8 0) (u8 255)⟩ := by decide

end NI
