import Verif.Lemmas.Crisp
import Verif.Props.Runs

/-! # Selections edited in place: what they list and report depends on their points alone (C120) -/

namespace NI
open _root_.NI.Finite TT
variable {α : Type} [LinearOrder α] [Finite α] [LawfulFinite α]

/-- A set has only one list of maximal runs. -/
theorem MaximalRuns.unique {S : Set α} {A B : List (Set α)} (hA : MaximalRuns S A) (hB : MaximalRuns S B) : A = B := by
  induction A generalizing S B with
  | nil =>
    cases B with
    | nil => rfl
    | cons r B =>
      obtain ⟨l, u, h, rfl, -⟩ := hB.1 r (by simp)
      exact absurd ((hA.2.2 l).1 ((hB.2.2 l).2 ⟨_, List.mem_cons_self, le_rfl, h⟩)) (by simp)
  | cons r A ih =>
    cases B with
    | nil =>
      obtain ⟨l, u, h, rfl, -⟩ := hA.1 r (by simp)
      exact absurd ((hB.2.2 l).1 ((hA.2.2 l).2 ⟨_, List.mem_cons_self, le_rfl, h⟩)) (by simp)
    | cons r' B =>
      have least : ∀ {C : List (Set α)} {l u : α}, MaximalRuns S (Set.Icc l u :: C) → l ≤ u → IsLeast S l := by
        intro C l u h hl
        refine ⟨(h.2.2 l).2 ⟨_, List.mem_cons_self, le_rfl, hl⟩, fun x hx => ?_⟩
        obtain ⟨c, hc, hx⟩ := (h.2.2 x).1 hx
        rcases List.mem_cons.1 hc with rfl | hc
        · exact hx.1
        · exact ((List.pairwise_cons.1 h.2.1).1 c hc l ⟨le_rfl, hl⟩ x hx).le
      have upper : ∀ {C : List (Set α)} {l u u' : α}, MaximalRuns S (Set.Icc l u :: C) → l ≤ u →
          (∀ q, succ u' = some q → q ∉ S) → l ≤ u' → u ≤ u' := by
        intro C l u u' h hl hq hl'
        by_contra hc
        have hc := not_le.1 hc
        cases hs : succ u' with
        | none => exact absurd (not_gt_of_succ hs u) (not_le.2 hc)
        | some q =>
          have h1 := LawfulFinite.succ_some u' q hs
          exact hq q hs ((h.2.2 q).2 ⟨_, List.mem_cons_self, hl'.trans h1.1.le, h1.2 u hc⟩)
      have tail : ∀ {r : Set α} {C : List (Set α)}, MaximalRuns S (r :: C) → MaximalRuns (S \ r) C := by
        intro r C h
        refine ⟨fun c hc => ?_, (List.pairwise_cons.1 h.2.1).2, fun x => ?_⟩
        · obtain ⟨l, u, a, b, c, d⟩ := h.1 c (by simp [hc])
          exact ⟨l, u, a, b, fun p hp hs => c p hp hs.1, fun q hq hs => d q hq hs.1⟩
        · rw [Set.mem_sdiff, h.2.2]
          constructor
          · rintro ⟨⟨c, hc, hx⟩, hn⟩
            rcases List.mem_cons.1 hc with rfl | hc
            · exact absurd hx hn
            · exact ⟨c, hc, hx⟩
          · rintro ⟨c, hc, hx⟩
            exact ⟨⟨c, by simp [hc], hx⟩, fun hr => lt_irrefl x ((List.pairwise_cons.1 h.2.1).1 c hc x hr x hx)⟩
      obtain ⟨l, u, h1, rfl, -, h3⟩ := hA.1 r (by simp)
      obtain ⟨l', u', h1', rfl, -, h3'⟩ := hB.1 r' (by simp)
      have el : l = l' := (least hA h1).unique (least hB h1')
      subst el
      have eu : u = u' := le_antisymm (upper hA h1 h3' h1') (upper hB h1' h3 h1)
      subst eu
      rw [ih (tail hA) (tail hB)]

/-- The intervals of a crisp tree are the maximal runs. -/
theorem Selection.crisp_runs (dbg : Bool) {s : Selection α} (hs : s.Reachable) (h : Crisp s.tree)
    {is : List (Interval α)} (he : s.intervals dbg = .ok is) : MaximalRuns (s.pts dbg) (is.map Interval.pts) := by
  have v := Selection.reachable_valid hs
  obtain ⟨is', he', -, ord, cov⟩ := C56_cover_partial dbg s hs
  rw [he] at he'; cases he'
  have cov' : ∀ x, x ∈ s.pts dbg ↔ ∃ r ∈ is.map Interval.pts, x ∈ r := fun x => by
    rw [cov]; simp
  refine ⟨?_, List.pairwise_map.2 ord, cov'⟩
  have sep : is.Pairwise fun i j =>
      (∃ z, z ∉ s.pts dbg ∧ (∀ x ∈ i.pts, x < z) ∧ ∀ y ∈ j.pts, z < y) ∨
      ∃ z, z ∉ s.pts dbg ∧ (∀ x ∈ j.pts, x < z) ∧ ∀ y ∈ i.pts, z < y := by
    rw [Selection.intervals_eq dbg v] at he
    cases he
    rw [List.pairwise_map]
    refine (h.gap v).imp ?_
    rintro i j ⟨z, h1, h2, h3⟩
    refine .inl ⟨z, by rw [Selection.mem_pts dbg v, h1]; simp, fun x hx => ?_, fun y hy => ?_⟩
    · rw [Selection.run_pts] at hx; exact h2 x hx
    · rw [Selection.run_pts] at hy; exact h3 y hy
  intro r hr
  obtain ⟨i, hi, rfl⟩ := List.mem_map.1 hr
  obtain ⟨l, u, hlu, hp⟩ : ∃ l u, l ≤ u ∧ i.pts = Set.Icc l u := by
    rw [Selection.intervals_eq dbg v] at he
    cases he
    obtain ⟨r, hr', rfl⟩ := List.mem_map.1 hi
    obtain ⟨l, u, a, b, -⟩ := (Selection.np_good v h.np r hr').cases
    exact ⟨l, u, a, b⟩
  have hall := pairwise_mem (fun a b h => h.symm) sep i hi
  have hl : l ∈ i.pts := by rw [hp]; exact ⟨le_rfl, hlu⟩
  have hu : u ∈ i.pts := by rw [hp]; exact ⟨hlu, le_rfl⟩
  refine ⟨l, u, hlu, hp, fun p hpl hm => ?_, fun q hq hm => ?_⟩
  · obtain ⟨h1, h2⟩ := LawfulFinite.pred_some l p hpl
    obtain ⟨j, hj, hx⟩ := (cov p).1 hm
    have hne : i ≠ j := by rintro rfl; rw [hp] at hx; exact absurd h1 (not_lt.2 hx.1)
    rcases hall j hj hne with ⟨z, -, g1, g2⟩ | ⟨z, -, g1, g2⟩
    · exact absurd ((g1 l hl).trans (g2 p hx)) (not_lt.2 h1.le)
    · exact absurd (h2 z (g2 l hl)) (not_le.2 (g1 p hx))
  · obtain ⟨h1, h2⟩ := LawfulFinite.succ_some u q hq
    obtain ⟨j, hj, hx⟩ := (cov q).1 hm
    have hne : i ≠ j := by rintro rfl; rw [hp] at hx; exact absurd h1 (not_lt.2 hx.2)
    rcases hall j hj hne with ⟨z, -, g1, g2⟩ | ⟨z, -, g1, g2⟩
    · exact absurd (h2 z (g1 u hu)) (not_le.2 (g2 q hx))
    · exact absurd ((g1 q hx).trans (g2 u hu)) (not_lt.2 h1.le)

theorem Selection.pts_of_lists {dbg : Bool} {a b : Selection α} (ha : a.Reachable) (hb : b.Reachable)
    {is : List (Interval α)} (h1 : a.intervals dbg = .ok is) (h2 : b.intervals dbg = .ok is) :
    a.pts dbg = b.pts dbg := by
  obtain ⟨_, e, -, -, k⟩ := C56_cover_partial dbg a ha
  obtain ⟨_, e', -, -, k'⟩ := C56_cover_partial dbg b hb
  rw [h1] at e; cases e
  rw [h2] at e'; cases e'
  ext x; rw [k, k']

/-- If no interval of a selection and of its complement is without points, both list their maximal runs; and only
then. -/
theorem C120_runs_iff (dbg : Bool) (s c : Selection α) (hs : s.Reachable) (hc : s.complement dbg = .ok c)
    (is cs : List (Interval α)) (his : s.intervals dbg = .ok is) (hcs : c.intervals dbg = .ok cs) :
    (MaximalRuns (s.pts dbg) (is.map Interval.pts) ∧ MaximalRuns (c.pts dbg) (cs.map Interval.pts)) ↔
      ∀ i ∈ is ++ cs, i.pts.Nonempty := by
  have v := Selection.reachable_valid hs
  have rc : c.Reachable := .complement hs hc
  have vc := Selection.reachable_valid rc
  obtain ⟨c1, e1, -, k⟩ := Selection.complement_ok dbg v
  rw [hc] at e1; cases e1
  constructor
  · rintro ⟨h1, h2⟩ i hi
    have : ∃ l u, l ≤ u ∧ i.pts = Set.Icc l u := by
      rcases List.mem_append.1 hi with hi | hi
      · obtain ⟨l, u, a, b, -⟩ := h1.1 _ (List.mem_map.2 ⟨i, hi, rfl⟩); exact ⟨l, u, a, b⟩
      · obtain ⟨l, u, a, b, -⟩ := h2.1 _ (List.mem_map.2 ⟨i, hi, rfl⟩); exact ⟨l, u, a, b⟩
    obtain ⟨l, u, a, b⟩ := this
    exact b ▸ ⟨l, le_rfl, a⟩
  · intro h
    have np : ∀ (s : Selection α) (is : List (Interval α)), s.Reachable → s.intervals dbg = .ok is →
        (∀ i ∈ is, i.pts.Nonempty) → NP s.tree := by
      intro s is hs his h
      have v := Selection.reachable_valid hs
      rw [Selection.intervals_eq dbg v] at his; cases his
      exact (np_iff v).2 fun i hi => Selection.run_nonempty.1 (h _ (List.mem_map.2 ⟨i, hi, rfl⟩))
    have cr : Crisp s.tree := (crisp_iff k).2 ⟨np s is hs his fun i hi => h i (by simp [hi]),
      np c cs rc hcs fun i hi => h i (by simp [hi])⟩
    exact ⟨Selection.crisp_runs dbg hs cr his, Selection.crisp_runs dbg rc (cr.compl k) hcs⟩

example : Selection.cut.Reachable ∧ ∃ c, Selection.cut.complement true = .ok c ∧
    Selection.cut.intervals true = .ok [.mkClosed (u8 0) (u8 4), .mkClosed (u8 5) (u8 255)] ∧
    c.intervals true = .ok [.mkOpen (u8 4) (u8 5)] :=
  ⟨Selection.cut_solid.reachable, _, rfl, by decide, by decide⟩

/-- A selection made of intervals by adding, removing and complement. -/
def Selection.edited : Selection U8 := ⟨[.lower .inf, .upper (.excl (u8 3)), .lower (.incl (u8 5)), .upper .inf]⟩

theorem Selection.edited_made : Selection.edited.Edited ∧
    (Selection.demo [(u8 3, u8 4)]).complement true >>= (Selection.unionInPlace true · (.mkClosed (u8 0) (u8 2))) =
      .ok Selection.edited := by
  refine ⟨?_, by decide⟩
  obtain ⟨c, hc⟩ : ∃ c, (Selection.demo [(u8 3, u8 4)]).complement true = .ok c := ⟨_, rfl⟩
  have h : (Selection.demo [(u8 3, u8 4)]).complement true >>=
    (Selection.unionInPlace true · (.mkClosed (u8 0) (u8 2))) = .ok Selection.edited := by decide
  rw [hc] at h
  exact .unionInPlace (.complement (.built (Selection.demo_built _ (by decide))) hc) (.mkClosed _ _)
    (Interval.closed_real (by decide)) h

/-- What a selection edited in place lists are its maximal runs. -/
theorem C120_runs (dbg : Bool) (s : Selection α) (hs : s.Edited) :
    ∃ is, s.intervals dbg = .ok is ∧ (∀ i ∈ is, i.Obtainable ∧ i.isEmpty = false) ∧
      MaximalRuns (s.pts dbg) (is.map Interval.pts) := by
  obtain ⟨r, c⟩ := hs.reachable_crisp
  obtain ⟨is, he, ho, -⟩ := C56_cover_partial dbg s r
  exact ⟨is, he, fun i hi => ⟨ho i hi, (C56_shape dbg s r is he i hi).1⟩, Selection.crisp_runs dbg r c he⟩

example : Selection.edited.Edited ∧
    Selection.edited.intervals true = .ok [.mkClosed (u8 0) (u8 2), .mkClosed (u8 5) (u8 255)] :=
  ⟨Selection.edited_made.1, by decide⟩

/-- So two of them with the same points list the same intervals. -/
theorem C120_same_lists (dbg : Bool) (a b : Selection α) (ha : a.Edited) (hb : b.Edited)
    (h : a.pts dbg = b.pts dbg) (is js : List (Interval α)) (hi : a.intervals dbg = .ok is)
    (hj : b.intervals dbg = .ok js) : is.map Interval.pts = js.map Interval.pts := by
  obtain ⟨is', e, -, m⟩ := C120_runs dbg a ha
  obtain ⟨js', e', -, m'⟩ := C120_runs dbg b hb
  rw [hi] at e; cases e
  rw [hj] at e'; cases e'
  rw [h] at m
  exact m.unique m'

example : Selection.edited.Edited ∧ (Selection.demo [(u8 0, u8 2), (u8 5, u8 255)]).Edited ∧
    Selection.edited ≠ Selection.demo [(u8 0, u8 2), (u8 5, u8 255)] ∧
    Selection.edited.pts true = (Selection.demo [(u8 0, u8 2), (u8 5, u8 255)]).pts true :=
  ⟨Selection.edited_made.1, .built (Selection.demo_built _ (by decide)), by decide,
    Selection.pts_of_lists Selection.edited_made.1.reachable_crisp.1 (Selection.demo_built _ (by decide)).reachable
      (is := [.mkClosed (u8 0) (u8 2), .mkClosed (u8 5) (u8 255)]) (by decide) (by decide)⟩

/-- They are empty or full, have the bounds, the enclosing interval and the points one by one as their points say. -/
theorem C120_reports (dbg : Bool) (s : Selection α) (hs : s.Edited) :
    (s.isEmpty = true ↔ s.pts dbg = ∅) ∧ (s.isFull = true ↔ s.pts dbg = Set.univ) ∧
    ((s.pts dbg = ∅ ∧ s.lowerBound dbg = .ok none ∧ s.upperBound dbg = .ok none) ∨
      ∃ l u, IsLeast (s.pts dbg) l ∧ IsGreatest (s.pts dbg) u ∧
        s.lowerBound dbg = .ok (some (.incl l)) ∧ s.upperBound dbg = .ok (some (.incl u))) ∧
    (∃ e, s.enclose dbg = .ok e ∧ ((s.pts dbg = ∅ ∧ e.pts = ∅) ∨
      ∃ l u, IsLeast (s.pts dbg) l ∧ IsGreatest (s.pts dbg) u ∧ e.pts = Set.Icc l u)) ∧
    ∀ n, ∃ os, drive (PointIter.next dbg) (PointIter.nextBack dbg) (PointIter.start s) (List.replicate n .next) = .ok os ∧
      Walk (s.pts dbg) (List.replicate n .next) os := by
  obtain ⟨r, c⟩ := hs.reachable_crisp
  have v := Selection.reachable_valid r
  obtain ⟨is, he, ho, m⟩ := C120_runs dbg s hs
  have ne : ∀ i ∈ is, i.pts.Nonempty := fun i hi => by
    obtain ⟨l, u, a, b, -⟩ := m.1 _ (List.mem_map.2 ⟨i, hi, rfl⟩)
    exact b ▸ ⟨l, le_rfl, a⟩
  refine ⟨(C54_exact_iff dbg s r is he).2 ?_, (C54_is_full_iff dbg s r is he).2 fun hu => ?_, ?_,
    (C61_enclose_iff dbg s r is he).2 (.inr fun i hi => ne i ?_), fun n => C57_forward_runs dbg s r is he ne n⟩
  · cases is with
    | nil => exact .inl rfl
    | cons i is => exact .inr ⟨i, by simp, ne i (by simp)⟩
  · rw [hu] at m
    have : MaximalRuns (Set.univ : Set α) [Set.Icc minimum maximum] := by
      refine ⟨fun r hr => ⟨minimum, maximum, minimum_le _, by simpa using hr, fun p hp => ?_, fun q hq => ?_⟩,
        by simp, fun x => ⟨fun _ => ⟨_, List.mem_cons_self, minimum_le x, le_maximum x⟩, fun _ => trivial⟩⟩
      · rw [(LawfulFinite.pred_none _).2 rfl] at hp; cases hp
      · rw [(LawfulFinite.succ_none _).2 rfl] at hq; cases hq
    have := congrArg List.length (m.unique this)
    simpa using this
  · obtain ⟨b1, b2⟩ := C59_bounds_iff dbg s r is he
    have h1 := b1.2 fun i hi => ne i (List.mem_of_head? hi)
    have h2 := b2.2 fun i hi => ne i (List.mem_of_getLast? hi)
    rcases h1 with ⟨h0, h1⟩ | ⟨l, hl, h1⟩
    · rcases h2 with ⟨-, h2⟩ | ⟨u, hu, -⟩
      · exact .inl ⟨h0, h1, h2⟩
      · rw [h0] at hu; exact absurd hu.1 id
    · rcases h2 with ⟨h0, -⟩ | ⟨u, hu, h2⟩
      · rw [h0] at hl; exact absurd hl.1 id
      · exact .inr ⟨l, u, hl, hu, h1, h2⟩
  · exact hi.elim List.mem_of_head? List.mem_of_getLast?

example : Selection.edited.Edited ∧ Selection.edited.lowerBound true = .ok (some (.incl (u8 0))) ∧
    Selection.edited.enclose true = .ok (.mkClosed (u8 0) (u8 255)) ∧ Selection.edited.isEmpty = false ∧
    Selection.edited.isFull = false ∧
    drive (PointIter.next true) (PointIter.nextBack true) (PointIter.start Selection.edited)
      (List.replicate 4 .next) = .ok [some (u8 0), some (u8 1), some (u8 2), some (u8 5)] :=
  ⟨Selection.edited_made.1, by decide, by decide, by decide, by decide, by decide⟩

/-- Removing an interval and iterating from the back do depend on more: the complement of `{4}` and the union of
`[0,3]` and `[5,255]` have the same points and list the same intervals, and what is left of them without `[5,9]` is
different.  And the union of two complements lists more intervals than there are runs. -/
theorem C120_counterexample :
    (∃ a b : Selection U8, a.Edited ∧ b.Edited ∧ a.pts true = b.pts true ∧
      a.intervals true = b.intervals true ∧
      (a.minusInPlace true (.mkClosed (u8 5) (u8 9)) >>= (·.contains true (u8 4))) = .ok false ∧
      (b.minusInPlace true (.mkClosed (u8 5) (u8 9)) >>= (·.contains true (u8 4))) = .ok true ∧
      a.intervalsBack true = .ok [.mkClosed (u8 5) (u8 255), .mkClosed (u8 0) (u8 3)] ∧
      b.intervalsBack true = .error .debugAssert) ∧
    ∃ a b s : Selection U8, a.Edited ∧ b.Edited ∧ a.union true b = .ok s ∧
      s.intervals true = .ok [.mkClosed (u8 0) (u8 4), .mkClosed (u8 5) (u8 255)] := by
  constructor
  · obtain ⟨a, ha⟩ : ∃ a, (Selection.demo [(u8 4, u8 4)]).complement true = .ok a := ⟨_, rfl⟩
    have hs : a.Edited := .complement (.built (Selection.demo_built _ (by decide))) ha
    have hb := Selection.demo_built [(u8 0, u8 3), (u8 5, u8 255)] (by decide)
    have e : a = ⟨[.lower .inf, .upper (.incl (u8 3)), .lower (.incl (u8 5)), .upper .inf]⟩ := by
      have : (Selection.demo [(u8 4, u8 4)]).complement true =
        .ok ⟨[.lower .inf, .upper (.incl (u8 3)), .lower (.incl (u8 5)), .upper .inf]⟩ := by decide
      rw [ha] at this; cases this; rfl
    subst e
    refine ⟨_, _, hs, .built hb, Selection.pts_of_lists hs.reachable_crisp.1 hb.reachable
      (is := [.mkClosed (u8 0) (u8 3), .mkClosed (u8 5) (u8 255)]) (by decide) (by decide), by decide, by decide,
      by decide, by decide, by decide⟩
  · exact ⟨⟨[.lower .inf, .upper (.incl (u8 4))]⟩, ⟨[.lower (.incl (u8 5)), .upper .inf]⟩, Selection.cut,
      .complement (dbg := true) (.built (Selection.demo_built [(u8 5, u8 255)] (by decide))) (by decide),
      .complement (dbg := true) (.built (Selection.demo_built [(u8 0, u8 4)] (by decide))) (by decide), by decide, by decide⟩

end NI
