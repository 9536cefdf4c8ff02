import Verif.Lemmas.Whole
import Verif.Props.Pinhole
import Verif.Props.Serde

/-!
# Debug builds notice corrupt trees; what all selections are; which lists of intervals they have (C93–C95); reading them (C85)

`minus_in_place` and `intersect_in_place` can leave a tree whose bounds do not open and close in turn (C43, C45,
C50, C51). `Built` counts those trees and selections too.
-/

set_option linter.unusedVariables false
set_option linter.unusedSectionVars false

namespace NI
open _root_.NI.Finite TT

/-! ## C93 -/

section
variable {α : Type} [LinearOrder α]

/-- Of the trees that debug builds can make by any operations, the proper ones are those that can be iterated
and whose complement can be iterated, without a panic. -/
theorem C93_tree (t : TineTree α) (h : TineTree.Built t) :
    TineTree.Reachable t ↔ (∃ is, TineTree.intervals true t = .ok is) ∧
      ∃ c cs, TineTree.complement true t = .ok c ∧ TineTree.intervals true c = .ok cs :=
  TT.built_iff h

example : TineTree.Built (TineTree.demo [.closed 0 9, .upFrom 20]) ∧
    TineTree.intervals true (TineTree.demo [.closed 0 9, .upFrom 20]) = .ok [.closed 0 9, .upFrom 20] ∧
    TineTree.complement true (TineTree.demo [.closed 0 9, .upFrom 20]) >>= (TineTree.intervals true ·) =
      .ok [.upTo 0, .leftOpen 9 20] :=
  ⟨.fromIter (is := [.closed 0 9, .upFrom 20]) (by simp [RawInterval.WF]) (by decide), by decide, by decide⟩

/-- The proper trees are among them. -/
theorem C93_tree_includes (t : TineTree α) (h : TineTree.Reachable t) : TineTree.Built t :=
  built_of_valid (reachable_valid h)

example : TineTree.Built (TineTree.demo [.closed 0 9, .upFrom 20]) :=
  C93_tree_includes _ (TineTree.fromIter_reachable (dbg := true) (is := [.closed 0 9, .upFrom 20]) (by simp [RawInterval.WF]) rfl)

end

variable {α : Type} [LinearOrder α] [Finite α] [LawfulFinite α]

/-- The same for selections. -/
theorem C93_selection (s : Selection α) (h : s.Built) :
    s.Reachable ↔ (∃ is, s.intervals true = .ok is) ∧
      ∃ c cs, s.complement true = .ok c ∧ c.intervals true = .ok cs :=
  Selection.built_iff h

example : (Selection.demo [(u8 3, u8 5)]).intervals true = .ok [Interval.mkClosed (u8 3) (u8 5)] ∧
    (Selection.demo [(u8 3, u8 5)]).complement true >>= (Selection.intervals true ·) =
      .ok [Interval.mkClosed (u8 0) (u8 2), Interval.mkClosed (u8 6) (u8 255)] := by decide

theorem C93_selection_includes (s : Selection α) (h : s.Reachable) : s.Built :=
  h.made.built

example : (Selection.demo [(u8 3, u8 5), (u8 8, u8 9)]).Built :=
  C93_selection_includes _ (Selection.demo_built _ (by decide)).reachable

/-- All bytes from 2 except 2 and 3: `(1,2) ∪ (2,∞)` as bounds. -/
def Selection.gapped : Selection U8 := ⟨[.lower (.excl (u8 1)), .point (.excl (u8 2)), .upper .inf]⟩

/-- The byte 1 as a single bound. -/
def Selection.dot : Selection U8 := ⟨[.point (.incl (u8 1))]⟩

theorem Selection.gapped_reachable : Selection.gapped.Reachable := by
  refine Selection.reachable_iff.2 ⟨⟨⟨?_, ?_⟩, ⟨rfl, rfl, rfl, rfl⟩⟩, ?_⟩
  · simp [Selection.gapped, Tine.Ok]
  · simp only [Selection.gapped, Tine.key, List.pairwise_cons, List.mem_cons, List.not_mem_nil, or_false,
      forall_eq_or_imp, forall_eq]
    exact ⟨⟨by decide, by decide⟩, by decide, by simp⟩
  · simp only [Selection.gapped, FitL, List.mem_cons, List.not_mem_nil, or_false, forall_eq_or_imp, forall_eq]
    exact ⟨show _ ≠ _ by decide, ⟨by decide, by decide⟩, trivial⟩

theorem Selection.dot_reachable : Selection.dot.Reachable := by
  refine Selection.reachable_iff.2 ⟨fromRaw_valid (i := .point (u8 1)) trivial, ?_⟩
  intro x hx
  cases List.mem_singleton.1 hx
  exact ⟨by decide, by decide⟩

/-- The complement is needed: one `minus` of proper selections can leave a corrupt one over which a debug build
iterates without noticing. -/
theorem C93_complement_needed :
    ∃ a b s : Selection U8, a.Reachable ∧ b.Reachable ∧ a.minus true b = .ok s ∧
      (∃ is, s.intervals true = .ok is) ∧ ¬ s.Reachable := by
  refine ⟨Selection.gapped, Selection.dot, ⟨[.point (.excl (u8 2)), .upper .inf]⟩, Selection.gapped_reachable,
    Selection.dot_reachable, by decide,
    ⟨[Interval.mkClosed (u8 3) (u8 255)], by decide⟩, fun h => ?_⟩
  exact absurd (Selection.reachable_valid h).2.1 (by decide)

/-- The hypothesis holds for proper and for corrupt selections. -/
example : Selection.gapped.Built ∧ ∃ s : Selection U8, s.Built ∧ ¬ s.Reachable := by
  obtain ⟨a, b, s, ha, hb, e, -, hn⟩ := C93_complement_needed
  exact ⟨C93_selection_includes _ Selection.gapped_reachable, s,
    .minus (C93_selection_includes a ha) (C93_selection_includes b hb) e, hn⟩

/-- And for trees. -/
example : TineTree.Built (α := ℤ) [.lower (.excl 1), .point (.excl 2), .upper .inf] ∧
    ∃ t : TineTree ℤ, TineTree.Built t ∧ (∃ is, TineTree.intervals true t = .ok is) ∧ ¬ TineTree.Reachable t := by
  have h : TineTree.Built (α := ℤ) [.lower (.excl 1), .point (.excl 2), .upper .inf] :=
    .fromIter (is := [.opn 1 2, .upFrom 2]) (by simp [RawInterval.WF]) (by decide)
  refine ⟨h, [.point (.excl 2), .upper .inf], h.minusInPlace (i := .point 1) trivial (by decide),
    ⟨[.upFrom 2], by decide⟩, fun hr => ?_⟩
  exact absurd (reachable_valid hr).2.1 (by decide)

/-! ## C94 -/

/-- Every selection can be made from single intervals with complement, intersection and union. -/
theorem C94_made (s : Selection α) : s.Reachable ↔ s.Made :=
  ⟨Selection.Reachable.made, Selection.Made.reachable⟩

/-- Also those that unions alone do not make. -/
example : Selection.gapped.Made ∧ ¬ Selection.gapped.UnionBuilt := by
  refine ⟨Selection.gapped_reachable.made, fun h => ?_⟩
  obtain ⟨l, u, h1, h2, -⟩ := C56_nonempty_partial true _ (.tidy (.inl h))
    [Interval.mkOpen (u8 1) (u8 2), Interval.mkClosed (u8 3) (u8 255)] (by decide) (Interval.mkOpen (u8 1) (u8 2))
    (by simp)
  have : l ∈ (Interval.mkOpen (u8 1) (u8 2)).pts := h2 ▸ ⟨le_rfl, h1⟩
  obtain ⟨k1, k2⟩ := (C21_bounded (u8 1) (u8 2) l).2.2.1.1 this
  have k1 : (1 : Int) < l.val := k1
  have k2 : l.val < (2 : Int) := k2
  omega

/-! ## C95 -/

/-- Some selection has the given intervals, as ranges of values, exactly if they are in ascending order. -/
theorem C95_listed (dbg : Bool) (L : List (Interval α)) (hL : ∀ i ∈ L, i.Obtainable ∧ i.pts.Nonempty) :
    (∃ s : Selection α, s.Reachable ∧ ∃ is, s.intervals dbg = .ok is ∧
        is.map Interval.pts = L.map Interval.pts) ↔
      L.Pairwise fun i j => ∀ x ∈ i.pts, ∀ y ∈ j.pts, x < y := by
  have map : ∀ M : List (Interval α), (M.Pairwise fun i j => ∀ x ∈ i.pts, ∀ y ∈ j.pts, x < y) ↔
      (M.map Interval.pts).Pairwise fun s t => ∀ x ∈ s, ∀ y ∈ t, x < y := fun M => by rw [List.pairwise_map]
  constructor
  · rintro ⟨s, hs, is, e, h⟩
    obtain ⟨is', e', -, hi, -⟩ := C56_cover_partial dbg s hs
    rw [e] at e'; cases e'
    rwa [map, ← h, ← map]
  · intro h
    obtain ⟨ps, h1, h2⟩ := Selection.ranges L hL
    rw [map, h2, List.pairwise_map] at h
    obtain ⟨s, hs, e⟩ := Selection.exists_listing ps h1 (List.Pairwise.imp_of_mem (fun {p q} hp hq g =>
      g p.2 ⟨h1 p hp, le_rfl⟩ q.1 ⟨le_rfl, h1 q hq⟩) h)
    refine ⟨s, hs, _, Selection.intervals_eq dbg (Selection.reachable_valid hs), ?_⟩
    rw [e, h2, List.map_map, List.map_map]
    exact List.map_congr_left fun p hp => (Selection.span_spec (h1 p hp)).2.2.2.1

example : (∀ i ∈ [Interval.mkClosed (u8 1) (u8 4), Interval.mkClosed (u8 5) (u8 9)], i.Obtainable ∧ i.pts.Nonempty) := by
  simp only [List.mem_cons, List.not_mem_nil, or_false]
  rintro i (rfl | rfl)
  · exact ⟨.mkClosed _ _, u8 1, show Interval.contains _ _ = true by decide⟩
  · exact ⟨.mkClosed _ _, u8 5, show Interval.contains _ _ = true by decide⟩

/-- Some union-built selection has them exactly if moreover a value is missing between any two, and then
collecting them gives it. -/
theorem C95_collected (dbg : Bool) (L : List (Interval α)) (hL : ∀ i ∈ L, i.Obtainable ∧ i.pts.Nonempty) :
    ((∃ s : Selection α, s.UnionBuilt ∧ ∃ is, s.intervals dbg = .ok is ∧
        is.map Interval.pts = L.map Interval.pts) ↔
      L.Pairwise fun i j => ∃ z, (∀ x ∈ i.pts, x < z) ∧ ∀ y ∈ j.pts, z < y) ∧
    ((L.Pairwise fun i j => ∃ z, (∀ x ∈ i.pts, x < z) ∧ ∀ y ∈ j.pts, z < y) →
      ∃ s is, Selection.fromIntervals dbg L = .ok s ∧ s.intervals dbg = .ok is ∧
        is.map Interval.pts = L.map Interval.pts) := by
  have map : ∀ M : List (Interval α), (M.Pairwise fun i j => ∃ z, (∀ x ∈ i.pts, x < z) ∧ ∀ y ∈ j.pts, z < y) ↔
      (M.map Interval.pts).Pairwise fun s t => ∃ z, (∀ x ∈ s, x < z) ∧ ∀ y ∈ t, z < y := fun M => by
    rw [List.pairwise_map]
  have fwd : ∀ (s : Selection α) (is : List (Interval α)), s.UnionBuilt → s.intervals dbg = .ok is →
      is.Pairwise fun i j => ∃ z, (∀ x ∈ i.pts, x < z) ∧ ∀ y ∈ j.pts, z < y := fun s is hs e =>
    (C56_separated_partial dbg s (.inl hs) is e).imp fun ⟨z, _, h⟩ => ⟨z, h⟩
  have gap : ∀ ps : List (α × α), (∀ p ∈ ps, p.1 ≤ p.2) →
      ((ps.map fun p => Set.Icc p.1 p.2).Pairwise fun s t => ∃ z, (∀ x ∈ s, x < z) ∧ ∀ y ∈ t, z < y) →
      ps.Pairwise fun p q => ∃ z, p.2 < z ∧ z < q.1 := by
    intro ps hp h
    rw [List.pairwise_map] at h
    exact List.Pairwise.imp_of_mem (fun {p q} h1 h2 ⟨z, z1, z2⟩ =>
      ⟨z, z1 p.2 ⟨hp p h1, le_rfl⟩, z2 q.1 ⟨le_rfl, hp q h2⟩⟩) h
  have real : ∀ i ∈ L, i.Obtainable ∧ i.Real := fun i hi => ⟨(hL i hi).1, .inr (hL i hi).2⟩
  have bwd : (L.Pairwise fun i j => ∃ z, (∀ x ∈ i.pts, x < z) ∧ ∀ y ∈ j.pts, z < y) →
      ∃ s is, Selection.fromIntervals dbg L = .ok s ∧ s.UnionBuilt ∧ s.intervals dbg = .ok is ∧
        is.map Interval.pts = L.map Interval.pts := by
    intro h
    obtain ⟨s, e, -, hm⟩ := C48_from_intervals dbg L fun i hi => (hL i hi).1
    have hs : s.UnionBuilt := .fromIntervals real e
    obtain ⟨is, e2, ho, -, hc⟩ := C56_cover_partial dbg s hs.reachable
    have hn : ∀ i ∈ is, i.Obtainable ∧ i.pts.Nonempty := fun i hi => by
      obtain ⟨l, u, h1, h2, -⟩ := C56_nonempty_partial dbg s (.tidy (.inl hs)) is e2 i hi
      exact ⟨ho i hi, l, h2 ▸ ⟨le_rfl, h1⟩⟩
    obtain ⟨ps, p1, p2⟩ := Selection.ranges L hL
    obtain ⟨qs, q1, q2⟩ := Selection.ranges is hn
    have tr : ∀ {M : List (Interval α)} {rs : List (α × α)},
        M.map Interval.pts = rs.map (fun p => Set.Icc p.1 p.2) → ∀ x,
        (∃ i ∈ M, x ∈ i.pts) ↔ ∃ r ∈ rs, r.1 ≤ x ∧ x ≤ r.2 := by
      intro M rs hM x
      have : (∃ S ∈ M.map Interval.pts, x ∈ S) ↔ ∃ S ∈ rs.map (fun p => Set.Icc p.1 p.2), x ∈ S := by rw [hM]
      simpa using this
    refine ⟨s, is, e, hs, e2, ?_⟩
    rw [p2, q2, Selection.ranges_ext (ps := qs) (qs := ps) q1 p1
      (gap qs q1 (by rw [← q2, ← map]; exact fwd s is hs e2)) (gap ps p1 (by rw [← p2, ← map]; exact h))
      fun x => by rw [← tr q2, ← tr p2, ← hc, hm]]
  refine ⟨⟨?_, fun h => ?_⟩, fun h => ?_⟩
  · rintro ⟨s, hs, is, e, h⟩
    rw [map, ← h, ← map]
    exact fwd s is hs e
  · obtain ⟨s, is, -, h1, h2, h3⟩ := bwd h
    exact ⟨s, h1, is, h2, h3⟩
  · obtain ⟨s, is, h1, -, h2, h3⟩ := bwd h
    exact ⟨s, is, h1, h2, h3⟩

/-- Two adjoining ranges of bytes; no union-built selection has them, but some selection has. -/
example : (∃ s : Selection U8, s.Reachable ∧ ∃ is, s.intervals true = .ok is ∧
      is.map Interval.pts = [Interval.mkClosed (u8 1) (u8 4), Interval.mkClosed (u8 5) (u8 9)].map Interval.pts) ∧
    ¬ ∃ s : Selection U8, s.UnionBuilt ∧ ∃ is, s.intervals true = .ok is ∧
      is.map Interval.pts = [Interval.mkClosed (u8 1) (u8 4), Interval.mkClosed (u8 5) (u8 9)].map Interval.pts := by
  have h1 : ∀ x, x ∈ (Interval.mkClosed (u8 1) (u8 4)).pts ↔ u8 1 ≤ x ∧ x ≤ u8 4 := fun x =>
    (C21_bounded (u8 1) (u8 4) x).2.2.2.1
  have h2 : ∀ x, x ∈ (Interval.mkClosed (u8 5) (u8 9)).pts ↔ u8 5 ≤ x ∧ x ≤ u8 9 := fun x =>
    (C21_bounded (u8 5) (u8 9) x).2.2.2.1
  have hL : ∀ i ∈ [Interval.mkClosed (u8 1) (u8 4), Interval.mkClosed (u8 5) (u8 9)],
      i.Obtainable ∧ i.pts.Nonempty := by
    simp only [List.mem_cons, List.not_mem_nil, or_false, forall_eq_or_imp, forall_eq]
    exact ⟨⟨.mkClosed _ _, u8 1, (h1 _).2 (by decide)⟩, .mkClosed _ _, u8 5, (h2 _).2 (by decide)⟩
  refine ⟨(C95_listed true _ hL).2 ?_, fun h => ?_⟩
  · simp only [List.pairwise_cons, List.mem_cons, List.not_mem_nil, or_false, forall_eq]
    refine ⟨fun x hx y hy => ?_, by simp⟩
    exact (((h1 x).1 hx).2.trans_lt (by decide : u8 4 < u8 5)).trans_le ((h2 y).1 hy).1
  · have := (C95_collected true _ hL).1.1 h
    obtain ⟨z, z1, z2⟩ := (List.pairwise_cons.1 this).1 (Interval.mkClosed (u8 5) (u8 9)) (by simp)
    have k1 : (4 : Int) < z.val := z1 (u8 4) ((h1 _).2 (by decide))
    have k2 : z.val < (5 : Int) := z2 (u8 5) ((h2 _).2 (by decide))
    omega

/-! ## C85 -/

section
variable {α : Type} [LinearOrder α] [Finite α] [LawfulFinite α] [Serde α]

/-- Reading a selection gives a value that the API can make exactly if its tines open and close intervals in turn
and none is at an end of the type where an infinite bound would do instead. -/
theorem C85_selection_iff (ds : List Data) (s : Selection α) (h : Selection.de ds = .ok (some s)) :
    s.Reachable ↔ TineTree.alternates false s.tree = true ∧ ∀ p : α,
      (.lower (.incl p) ∈ s.tree → p ≠ minimum) ∧ (.lower (.excl p) ∈ s.tree → p ≠ maximum) ∧
      (.upper (.incl p) ∈ s.tree → p ≠ maximum) ∧ (.upper (.excl p) ∈ s.tree → p ≠ minimum) ∧
      (.point (.incl p) ∈ s.tree ∨ .point (.excl p) ∈ s.tree → p ≠ minimum ∧ p ≠ maximum) := by
  have ht : TineTree.de ds = .ok (some s.tree) := by
    unfold Selection.de at h
    revert h
    cases TineTree.de (α := α) ds with
    | error e => intro h; cases h
    | ok o => cases o <;> intro h <;> cases h; rfl
  have h1 : Valid s.tree ↔ TineTree.alternates false s.tree = true := by
    rw [← C85_tree_iff ds s.tree ht]
    exact ⟨reachable_of_valid, reachable_valid⟩
  rw [Selection.reachable_iff, h1]
  refine and_congr_right fun _ => ⟨fun hf p => ⟨hf _, hf _, hf _, hf _, ?_⟩, fun hf x hx => ?_⟩
  · rintro (hp | hp)
    · exact hf _ hp
    · exact hf _ hp
  · rcases x with (p | p | _) | (p | p | _) | (p | p | _)
    · exact (hf p).1 hx
    · exact (hf p).2.1 hx
    · trivial
    · exact (hf p).2.2.2.2 (.inl hx)
    · exact (hf p).2.2.2.2 (.inr hx)
    · trivial
    · exact (hf p).2.2.1 hx
    · exact (hf p).2.2.2.1 hx
    · trivial
end

/-- Bytes from 3 and bytes from 0, written with closed bounds. -/
example : Selection.de (α := U8) [.newtypeVariant "Lower" (.newtypeVariant "Include" (.int 3)),
      .newtypeVariant "Upper" (.unitVariant "Infinite")] = .ok (some ⟨[.lower (.incl (u8 3)), .upper .inf]⟩) ∧
    (⟨[.lower (.incl (u8 3)), .upper .inf]⟩ : Selection U8).Reachable ∧
    Selection.de (α := U8) [.newtypeVariant "Lower" (.newtypeVariant "Include" (.int 0)),
      .newtypeVariant "Upper" (.unitVariant "Infinite")] = .ok (some ⟨[.lower (.incl (u8 0)), .upper .inf]⟩) ∧
    ¬ (⟨[.lower (.incl (u8 0)), .upper .inf]⟩ : Selection U8).Reachable := by
  refine ⟨by decide, (C85_selection_iff [.newtypeVariant "Lower" (.newtypeVariant "Include" (.int 3)),
      .newtypeVariant "Upper" (.unitVariant "Infinite")] _ (by decide)).2 ⟨by decide, fun p => ?_⟩, by decide, fun h => ?_⟩
  · simp only [List.mem_cons, List.not_mem_nil, or_false]
    refine ⟨?_, ?_, ?_, ?_, ?_⟩ <;> simp
    rintro rfl; decide
  · have := (C85_selection_iff [.newtypeVariant "Lower" (.newtypeVariant "Include" (.int 0)),
      .newtypeVariant "Upper" (.unitVariant "Infinite")] _ (by decide)).1 h
    exact (this.2 (u8 0)).1 List.mem_cons_self rfl

end NI
