import Verif.SpecPatch
import Verif.Props.Edited
import Verif.Props.SpotRuns
import Verif.Props.Clip

/-! # Sending what has changed (C130) -/

namespace NI
open _root_.NI.Finite TT
variable {α : Type} [LinearOrder α] [Finite α] [LawfulFinite α]

theorem Selection.edited_list (dbg : Bool) {s : Selection α} (hs : s.Edited) :
    ∃ is, s.intervals dbg = .ok is ∧ (∀ i ∈ is, i.Obtainable ∧ i.Real) ∧ ∀ x, x ∈ s.pts dbg ↔ ∃ i ∈ is, x ∈ i.pts := by
  obtain ⟨is, e, o, m⟩ := C120_runs dbg s hs
  refine ⟨is, e, fun i hi => ⟨(o i hi).1, .inr ?_⟩, fun x => by rw [m.2.2]; simp⟩
  obtain ⟨l, u, h, hp, -⟩ := m.1 _ (List.mem_map_of_mem hi)
  exact ⟨l, (Set.ext_iff.1 hp l).2 ⟨le_rfl, h⟩⟩

/-- Removing intervals one by one. -/
theorem Selection.drop_pts (dbg : Bool) {s : Selection α} (hs : s.UnionBuilt) {is : List (Interval α)} {X : Set α}
    (hi : ∀ i ∈ is, i.Obtainable ∧ i.Real) (hX : ∀ x, x ∈ X ↔ ∃ i ∈ is, x ∈ i.pts) :
    ∃ r, s.drop dbg is = .ok r ∧ r.Edited ∧ ∀ x, x ∈ r.pts dbg ↔
      (x ∈ s.pts dbg ∧ x ∉ X) ∨ (MissingAlone (s.pts dbg) x ∧ x ∉ X ∧ HasNeighbour X x) := by
  obtain ⟨b, e, -, h⟩ := C48_from_intervals dbg is fun i h => (hi i h).1
  have hb : b.UnionBuilt := .fromIntervals hi e
  have hbX : b.pts dbg = X := by ext x; rw [h, hX]
  obtain ⟨⟨r, e1, e2⟩, -⟩ := C126_at_once dbg s b hs.reachable hb is hi h
  obtain ⟨r', e3, k⟩ := C53_formula_partial dbg s b hs hb
  rw [e2] at e3; cases e3
  refine ⟨r, e1, .minus (.built hs) hb e2, fun x => ?_⟩
  rw [k, hbX]
  simp only [MissingAlone, HasNeighbour]
  grind

/-- Adding intervals one by one. -/
theorem Selection.put_pts (dbg : Bool) {s : Selection α} (hs : s.Reachable) {is : List (Interval α)} {X : Set α}
    (hi : ∀ i ∈ is, i.Obtainable) (hX : ∀ x, x ∈ X ↔ ∃ i ∈ is, x ∈ i.pts) :
    ∃ r, s.put dbg is = .ok r ∧ r.Reachable ∧ r.pts dbg = s.pts dbg ∪ X := by
  have all : ∀ (is : List (Interval α)) (s : Selection α), s.Reachable → (∀ i ∈ is, i.Obtainable) →
      ∃ r, s.put dbg is = .ok r ∧ r.Reachable ∧ ∀ x, x ∈ r.pts dbg ↔ x ∈ s.pts dbg ∨ ∃ i ∈ is, x ∈ i.pts := by
    intro is
    induction is with
    | nil => exact fun s hs _ => ⟨s, rfl, hs, by simp⟩
    | cons i is ih =>
      intro s hs hi
      obtain ⟨s1, e1, r1, k1⟩ := C48_union_in_place dbg s hs i (hi i (.head _))
      obtain ⟨r, e, rr, k⟩ := ih s1 r1 fun j h => hi j (.tail _ h)
      refine ⟨r, by rw [Selection.put, List.foldlM_cons, e1]; exact e, rr, fun x => ?_⟩
      rw [k, k1]; simp [or_assoc]
  obtain ⟨r, e, rr, k⟩ := all is s hs hi
  exact ⟨r, e, rr, Set.ext fun x => by rw [k, Set.mem_union, hX]⟩

omit [LawfulFinite α] in
theorem Selection.put_edited (dbg : Bool) {is : List (Interval α)} (hi : ∀ i ∈ is, i.Obtainable ∧ i.Real) :
    ∀ {s r : Selection α}, s.put dbg is = .ok r → (s.Edited → r.Edited) ∧ (s.UnionBuilt → r.UnionBuilt) := by
  induction is with
  | nil => rintro s r ⟨⟩; exact ⟨id, id⟩
  | cons i is ih =>
    intro s r e
    rw [Selection.put, List.foldlM_cons] at e
    cases e1 : s.unionInPlace dbg i with
    | error p => rw [e1] at e; cases e
    | ok s1 =>
      rw [e1] at e
      obtain ⟨h1, h2⟩ := ih (fun j h => hi j (.tail _ h)) e
      obtain ⟨o, rl⟩ := hi i (.head _)
      exact ⟨fun h => h1 (.unionInPlace h o rl e1), fun h => h2 (.unionInPlace h o rl e1)⟩

/-! ## By `minus` and `minus_in_place` -/

/-- What the two lists tell: the values that have gone, those that have come, and values that have done neither. -/
theorem C130_diff (dbg : Bool) (old new : Selection α) (ho : old.UnionBuilt) (hn : new.UnionBuilt) :
    ∃ gone come, old.diff dbg new = .ok (gone, come) ∧ (∀ i ∈ gone ++ come, i.Obtainable ∧ i.Real) ∧
      (∀ x, (∃ i ∈ gone, x ∈ i.pts) ↔ (x ∈ old.pts dbg ∧ x ∉ new.pts dbg) ∨
        (MissingAlone (old.pts dbg) x ∧ x ∉ new.pts dbg ∧ HasNeighbour (new.pts dbg) x)) ∧
      ∀ x, (∃ i ∈ come, x ∈ i.pts) ↔ (x ∈ new.pts dbg ∧ x ∉ old.pts dbg) ∨
        (MissingAlone (new.pts dbg) x ∧ x ∉ old.pts dbg ∧ HasNeighbour (old.pts dbg) x) := by
  have one : ∀ a b : Selection α, a.UnionBuilt → b.UnionBuilt → ∃ r is, a.minus dbg b = .ok r ∧ r.intervals dbg = .ok is ∧
      (∀ i ∈ is, i.Obtainable ∧ i.Real) ∧ ∀ x, (∃ i ∈ is, x ∈ i.pts) ↔ (x ∈ a.pts dbg ∧ x ∉ b.pts dbg) ∨
        (MissingAlone (a.pts dbg) x ∧ x ∉ b.pts dbg ∧ HasNeighbour (b.pts dbg) x) := by
    intro a b ha hb
    obtain ⟨r, e, k⟩ := C53_formula_partial dbg a b ha hb
    obtain ⟨is, e1, h1, h2⟩ := Selection.edited_list dbg (.minus (.built ha) hb e : r.Edited)
    refine ⟨r, is, e, e1, h1, fun x => ?_⟩
    rw [← h2, k]
    simp only [MissingAlone, HasNeighbour]
    grind
  obtain ⟨r1, is1, a1, b1, c1, d1⟩ := one old new ho hn
  obtain ⟨r2, is2, a2, b2, c2, d2⟩ := one new old hn ho
  refine ⟨is1, is2, ?_, fun i hi => (List.mem_append.1 hi).elim (c1 i) (c2 i), d1, d2⟩
  simp only [Selection.diff, a1, a2, bind, Except.bind, b1, b2]
  rfl

/-- From `{1, 3, 6, 7}` to `{3, 4, 6, 8}`: 2 is listed with what has gone, 5 with what has come. -/
example : (Selection.demo [(u8 1, u8 1), (u8 3, u8 3), (u8 6, u8 7)]).UnionBuilt ∧
    (Selection.demo [(u8 3, u8 4), (u8 6, u8 6), (u8 8, u8 8)]).UnionBuilt ∧
    (Selection.demo [(u8 1, u8 1), (u8 3, u8 3), (u8 6, u8 7)]).diff true
      (Selection.demo [(u8 3, u8 4), (u8 6, u8 6), (u8 8, u8 8)]) =
      .ok ([.mkClosed (u8 1) (u8 2), .point (u8 7)], [.mkClosed (u8 4) (u8 5), ⟨.closed (u8 8) (u8 8)⟩]) :=
  ⟨Selection.demo_built _ (by decide), Selection.demo_built _ (by decide), by decide⟩

/-- What the receiver gets: the new selection, and values that neither has. -/
theorem C130_patch (dbg : Bool) (old new : Selection α) (ho : old.UnionBuilt) (hn : new.UnionBuilt) :
    ∃ d p, old.diff dbg new = .ok d ∧ old.patch dbg d = .ok p ∧ p.Edited ∧ ∀ x, x ∈ p.pts dbg ↔ x ∈ new.pts dbg ∨
      (x ∉ old.pts dbg ∧ ((x ∉ new.pts dbg ∧ MissingAlone (old.pts dbg) x ∧ ¬ HasNeighbour (new.pts dbg) x) ∨
        (MissingAlone (new.pts dbg) x ∧ HasNeighbour (old.pts dbg) x))) := by
  obtain ⟨gone, come, e, hw, hg, hc⟩ := C130_diff dbg old new ho hn
  obtain ⟨r, e1, h1, k1⟩ := Selection.drop_pts dbg ho (is := gone) (X := {x | ∃ i ∈ gone, x ∈ i.pts})
    (fun i h => hw i (List.mem_append_left _ h)) fun x => Iff.rfl
  obtain ⟨p, e2, -, k2⟩ := Selection.put_pts dbg h1.reachable_crisp.1 (is := come) (X := {x | ∃ i ∈ come, x ∈ i.pts})
    (fun i h => (hw i (List.mem_append_right _ h)).1) fun x => Iff.rfl
  refine ⟨_, p, e, by rw [Selection.patch, e1]; exact e2,
    (Selection.put_edited dbg (fun i h => hw i (List.mem_append_right _ h)) e2).1 h1, fun x => ?_⟩
  rw [k2, Set.mem_union, k1]
  simp only [Set.mem_ofPred_eq, hg, hc, HasNeighbour, MissingAlone]
  grind

/-- From `{1, 3, 6, 7}` to `{3, 4, 6, 8}`: 5 comes in, 2 does not. -/
example : (Selection.demo [(u8 1, u8 1), (u8 3, u8 3), (u8 6, u8 7)]).UnionBuilt ∧
    (Selection.demo [(u8 3, u8 4), (u8 6, u8 6), (u8 8, u8 8)]).UnionBuilt ∧
    (do (← (Selection.demo [(u8 1, u8 1), (u8 3, u8 3), (u8 6, u8 7)]).patch true
      (← (Selection.demo [(u8 1, u8 1), (u8 3, u8 3), (u8 6, u8 7)]).diff true
        (Selection.demo [(u8 3, u8 4), (u8 6, u8 6), (u8 8, u8 8)]))).intervals true) =
      .ok [.mkClosed (u8 3) (u8 6), ⟨.closed (u8 8) (u8 8)⟩] :=
  ⟨Selection.demo_built _ (by decide), Selection.demo_built _ (by decide), by decide⟩

/-- So the copy is right exactly if no value missing from both is missing alone from the old selection, away from the
new one, or missing alone from the new selection, beside a value of the old one; and then it lists what the new one
lists. -/
theorem C130_patch_iff (dbg : Bool) (old new : Selection α) (ho : old.UnionBuilt) (hn : new.UnionBuilt) :
    ∃ d p ps ns, old.diff dbg new = .ok d ∧ old.patch dbg d = .ok p ∧ p.intervals dbg = .ok ps ∧ new.intervals dbg = .ok ns ∧
      (p.pts dbg = new.pts dbg ↔ ∀ x, x ∉ old.pts dbg → x ∉ new.pts dbg →
        (MissingAlone (old.pts dbg) x → HasNeighbour (new.pts dbg) x) ∧
        (MissingAlone (new.pts dbg) x → ¬ HasNeighbour (old.pts dbg) x)) ∧
      (p.pts dbg = new.pts dbg ↔ ps.map Interval.pts = ns.map Interval.pts) := by
  obtain ⟨d, p, e, e1, h, k⟩ := C130_patch dbg old new ho hn
  obtain ⟨ps, e2, -, c1⟩ := Selection.edited_list dbg h
  obtain ⟨ns, e3, -, c2⟩ := Selection.edited_list dbg (.built hn : new.Edited)
  refine ⟨d, p, ps, ns, e, e1, e2, e3, ?_, fun hp => C120_same_lists dbg p new h (.built hn) hp ps ns e2 e3, fun hm => ?_⟩
  · rw [Set.ext_iff]
    refine forall_congr' fun x => ?_
    rw [k]
    simp only [MissingAlone]
    grind
  · have mem : ∀ is : List (Interval α), ∀ x, (∃ i ∈ is, x ∈ i.pts) ↔ ∃ X ∈ is.map Interval.pts, x ∈ X := by simp
    ext x
    rw [c1, c2, mem, mem, hm]

/-- From `{1, 3}` to nothing: 2 is left.  From `{1, 3}` to `{3}`: right. -/
example : (Selection.demo [(u8 1, u8 1), (u8 3, u8 3)]).UnionBuilt ∧ (Selection.new : Selection U8).UnionBuilt ∧
    (Selection.demo [(u8 3, u8 3)]).UnionBuilt ∧
    (do (← (Selection.demo [(u8 1, u8 1), (u8 3, u8 3)]).patch true
      (← (Selection.demo [(u8 1, u8 1), (u8 3, u8 3)]).diff true .new)).intervals true) = .ok [.point (u8 2)] ∧
    (do (← (Selection.demo [(u8 1, u8 1), (u8 3, u8 3)]).patch true
      (← (Selection.demo [(u8 1, u8 1), (u8 3, u8 3)]).diff true (Selection.demo [(u8 3, u8 3)]))).intervals true) =
      .ok [⟨.closed (u8 3) (u8 3)⟩] :=
  ⟨Selection.demo_built _ (by decide), .new, Selection.demo_built _ (by decide), by decide, by decide⟩

/-! ## By complements -/

/-- By complements the lists are right, for selections of any history. -/
theorem C130_diff_complements (dbg : Bool) (old new : Selection α) (ho : old.Reachable) (hn : new.Reachable) :
    ∃ gone come, old.diffByComplements dbg new = .ok (gone, come) ∧ (∀ i ∈ gone ++ come, i.Obtainable) ∧
      (∀ x, (∃ i ∈ gone, x ∈ i.pts) ↔ x ∈ old.pts dbg \ new.pts dbg) ∧
      (∀ x, (∃ i ∈ come, x ∈ i.pts) ↔ x ∈ new.pts dbg \ old.pts dbg) ∧
      (old.UnionBuilt → new.UnionBuilt → ∀ i ∈ gone ++ come, i.Real) := by
  have one : ∀ a b : Selection α, a.Reachable → b.Reachable → ∃ is, a.lessByComplements dbg b = .ok is ∧
      (∀ i ∈ is, i.Obtainable) ∧ (∀ x, (∃ i ∈ is, x ∈ i.pts) ↔ x ∈ a.pts dbg \ b.pts dbg) ∧
      (a.UnionBuilt → b.UnionBuilt → ∀ i ∈ is, i.Real) := by
    intro a b ha hb
    obtain ⟨c1, e1, r1, h1⟩ := Selection.complement_right dbg a ha
    obtain ⟨c2, e2, r2, h2⟩ := Selection.union_right dbg c1 b r1 hb
    obtain ⟨c3, e3, r3, h3⟩ := Selection.complement_right dbg c2 r2
    obtain ⟨is, e, o, -, c⟩ := C56_cover_partial dbg c3 r3
    refine ⟨is, by simp only [Selection.lessByComplements, e1, e2, e3, e, bind, Except.bind], o, fun x => ?_, fun ua ub => ?_⟩
    · rw [← c, h3, h2, h1]; simp
    · obtain ⟨is', e', w, -⟩ := Selection.edited_list dbg (.complement (.union (.complement (.built ua) e1) ub e2) e3 : c3.Edited)
      rw [e] at e'; cases e'
      exact fun i hi => (w i hi).2
  obtain ⟨is1, a1, b1, c1, d1⟩ := one old new ho hn
  obtain ⟨is2, a2, b2, c2, d2⟩ := one new old hn ho
  refine ⟨is1, is2, ?_, fun i hi => (List.mem_append.1 hi).elim (b1 i) (b2 i), c1, c2,
    fun h1 h2 i hi => (List.mem_append.1 hi).elim (d1 h1 h2 i) (d2 h2 h1 i)⟩
  simp only [Selection.diffByComplements, a1, a2, bind, Except.bind]
  rfl

example : (Selection.demo [(u8 1, u8 1), (u8 3, u8 3), (u8 6, u8 7)]).Reachable ∧
    (Selection.demo [(u8 1, u8 1), (u8 3, u8 3), (u8 6, u8 7)]).diffByComplements true
      (Selection.demo [(u8 3, u8 4), (u8 6, u8 6), (u8 8, u8 8)]) =
      .ok ([⟨.closed (u8 1) (u8 1)⟩, .point (u8 7)], [⟨.closed (u8 4) (u8 4)⟩, ⟨.closed (u8 8) (u8 8)⟩]) :=
  ⟨(Selection.demo_built _ (by decide)).reachable, by decide⟩

/-- If the lists are right and the receiver takes out what has gone, one by one, a value missing alone from the old
selection comes in if a neighbour has gone. -/
theorem C130_patch_right_lists (dbg : Bool) (old new : Selection α) (ho : old.UnionBuilt) (hn : new.UnionBuilt) :
    ∃ d p, old.diffByComplements dbg new = .ok d ∧ old.patch dbg d = .ok p ∧ p.Edited ∧ ∀ x, x ∈ p.pts dbg ↔
      x ∈ new.pts dbg ∨ (MissingAlone (old.pts dbg) x ∧ HasNeighbour (old.pts dbg \ new.pts dbg) x) := by
  obtain ⟨gone, come, e, hw, hg, hc, hr⟩ := C130_diff_complements dbg old new ho.reachable hn.reachable
  have hr := hr ho hn
  obtain ⟨r, e1, h1, k1⟩ := Selection.drop_pts dbg ho (is := gone) (X := old.pts dbg \ new.pts dbg)
    (fun i h => ⟨hw i (List.mem_append_left _ h), hr i (List.mem_append_left _ h)⟩) fun x => (hg x).symm
  obtain ⟨p, e2, -, k2⟩ := Selection.put_pts dbg h1.reachable_crisp.1 (is := come) (X := new.pts dbg \ old.pts dbg)
    (fun i h => hw i (List.mem_append_right _ h)) fun x => (hc x).symm
  refine ⟨_, p, e, by rw [Selection.patch, e1]; exact e2, (Selection.put_edited dbg
    (fun i h => ⟨hw i (List.mem_append_right _ h), hr i (List.mem_append_right _ h)⟩) e2).1 h1, fun x => ?_⟩
  rw [k2, Set.mem_union, k1]
  simp only [Set.mem_sdiff, MissingAlone]
  grind

/-- From `{1, 3, 6, 7}` to `{3, 4, 6, 8}`: 2 comes in. -/
example : (Selection.demo [(u8 1, u8 1), (u8 3, u8 3), (u8 6, u8 7)]).UnionBuilt ∧
    (Selection.demo [(u8 3, u8 4), (u8 6, u8 6), (u8 8, u8 8)]).UnionBuilt ∧
    (do (← (Selection.demo [(u8 1, u8 1), (u8 3, u8 3), (u8 6, u8 7)]).patch true
      (← (Selection.demo [(u8 1, u8 1), (u8 3, u8 3), (u8 6, u8 7)]).diffByComplements true
        (Selection.demo [(u8 3, u8 4), (u8 6, u8 6), (u8 8, u8 8)]))).contains true (u8 2)) = .ok true :=
  ⟨Selection.demo_built _ (by decide), Selection.demo_built _ (by decide), by decide⟩

/-- If what has come is put in first, a value comes in that is missing alone from both together, if a neighbour has
gone: all that come in the other way round, and possibly more. -/
theorem C130_put_first (dbg : Bool) (old new : Selection α) (ho : old.UnionBuilt) (hn : new.UnionBuilt) :
    ∃ d p, old.diffByComplements dbg new = .ok d ∧ old.patchPutFirst dbg d = .ok p ∧ p.Edited ∧ ∀ x, x ∈ p.pts dbg ↔
      x ∈ new.pts dbg ∨ (MissingAlone (old.pts dbg ∪ new.pts dbg) x ∧ HasNeighbour (old.pts dbg \ new.pts dbg) x) := by
  obtain ⟨gone, come, e, hw, hg, hc, hr⟩ := C130_diff_complements dbg old new ho.reachable hn.reachable
  have hr := hr ho hn
  obtain ⟨s, e2, -, k2⟩ := Selection.put_pts dbg ho.reachable (is := come) (X := new.pts dbg \ old.pts dbg)
    (fun i h => hw i (List.mem_append_right _ h)) fun x => (hc x).symm
  have hs := (Selection.put_edited dbg
    (fun i h => ⟨hw i (List.mem_append_right _ h), hr i (List.mem_append_right _ h)⟩) e2).2 ho
  obtain ⟨p, e1, h1, k1⟩ := Selection.drop_pts dbg hs (is := gone) (X := old.pts dbg \ new.pts dbg)
    (fun i h => ⟨hw i (List.mem_append_left _ h), hr i (List.mem_append_left _ h)⟩) fun x => (hg x).symm
  refine ⟨_, p, e, by rw [Selection.patchPutFirst, e2]; exact e1, h1, fun x => ?_⟩
  rw [k1, k2, Set.union_sdiff_self]
  simp only [Set.mem_union, Set.mem_sdiff, MissingAlone]
  grind

/-- From `{1}` to `{3}`: 2 comes in, but not if 1 is taken out first. -/
example : (Selection.demo [(u8 1, u8 1)]).UnionBuilt ∧ (Selection.demo [(u8 3, u8 3)]).UnionBuilt ∧
    (do (← (Selection.demo [(u8 1, u8 1)]).patchPutFirst true
      (← (Selection.demo [(u8 1, u8 1)]).diffByComplements true (Selection.demo [(u8 3, u8 3)]))).contains true (u8 2)) =
      .ok true ∧
    (do (← (Selection.demo [(u8 1, u8 1)]).patch true
      (← (Selection.demo [(u8 1, u8 1)]).diffByComplements true (Selection.demo [(u8 3, u8 3)]))).contains true (u8 2)) =
      .ok false :=
  ⟨Selection.demo_built _ (by decide), Selection.demo_built _ (by decide), by decide, by decide⟩

/-- If both use complements, a copy of any history with the values of the old selection gets those of the new one. -/
theorem C130_patch_complements (dbg : Bool) (copy old new : Selection α) (hr : copy.Reachable) (ho : old.Reachable)
    (hn : new.Reachable) (h : copy.pts dbg = old.pts dbg) :
    ∃ d p, old.diffByComplements dbg new = .ok d ∧ copy.patchByComplements dbg d = .ok p ∧ p.Reachable ∧
      p.pts dbg = new.pts dbg := by
  obtain ⟨gone, come, e, hw, hg, hc, -⟩ := C130_diff_complements dbg old new ho hn
  obtain ⟨c1, e1, r1, h1⟩ := Selection.complement_right dbg copy hr
  obtain ⟨c2, e2, r2, h2⟩ := Selection.put_pts dbg r1 (is := gone) (X := old.pts dbg \ new.pts dbg)
    (fun i h => hw i (List.mem_append_left _ h)) fun x => (hg x).symm
  obtain ⟨c3, e3, r3, h3⟩ := Selection.complement_right dbg c2 r2
  obtain ⟨p, e4, r4, h4⟩ := Selection.put_pts dbg r3 (is := come) (X := new.pts dbg \ old.pts dbg)
    (fun i h => hw i (List.mem_append_right _ h)) fun x => (hc x).symm
  refine ⟨_, p, e, by simp only [Selection.patchByComplements, e1, e2, e3, e4, bind, Except.bind], r4, ?_⟩
  rw [h4, h3, h2, h1, h]
  ext x
  simp only [Set.mem_union, Set.mem_sdiff, Set.mem_compl_iff]
  grind

example : (Selection.demo [(u8 1, u8 1), (u8 3, u8 3)]).Reachable ∧ (Selection.new : Selection U8).Reachable ∧
    (do (← (Selection.demo [(u8 1, u8 1), (u8 3, u8 3)]).patchByComplements true
      (← (Selection.demo [(u8 1, u8 1), (u8 3, u8 3)]).diffByComplements true .new)).intervals true) = .ok [] :=
  ⟨(Selection.demo_built _ (by decide)).reachable, .new, by decide⟩

/-- So a copy can follow a selection through any number of versions. -/
theorem C130_follow (dbg : Bool) (vs : List (Selection α)) (copy old : Selection α) (hr : copy.Reachable)
    (ho : old.Reachable) (hv : ∀ v ∈ vs, v.Reachable) (h : copy.pts dbg = old.pts dbg) :
    ∃ p, copy.follow dbg old vs = .ok p ∧ p.Reachable ∧ p.pts dbg = ((old :: vs).getLast (by simp)).pts dbg := by
  induction vs generalizing copy old with
  | nil => exact ⟨copy, rfl, hr, h⟩
  | cons new vs ih =>
    obtain ⟨d, p, e1, e2, r, k⟩ := C130_patch_complements dbg copy old new hr ho (hv new (.head _)) h
    obtain ⟨p', e3, r', k'⟩ := ih p new r (hv new (.head _)) (fun v hv' => hv v (.tail _ hv')) k
    refine ⟨p', ?_, r', by rw [List.getLast_cons_cons]; exact k'⟩
    simp only [Selection.follow, e1, e2, e3, bind, Except.bind]

example : (∀ v ∈ [Selection.demo [(u8 1, u8 1), (u8 3, u8 3)], Selection.new, Selection.demo [(u8 2, u8 7)]], v.Reachable) ∧
    (do (← (Selection.new : Selection U8).follow true .new
      [Selection.demo [(u8 1, u8 1), (u8 3, u8 3)], Selection.new, Selection.demo [(u8 2, u8 7)]]).intervals true) =
      .ok [.mkClosed (u8 2) (u8 7)] := by
  refine ⟨?_, by decide⟩
  intro v hv
  simp only [List.mem_cons, List.not_mem_nil, or_false] at hv
  rcases hv with rfl | rfl | rfl
  · exact (Selection.demo_built _ (by decide)).reachable
  · exact .new
  · exact (Selection.demo_built _ (by decide)).reachable

end NI
