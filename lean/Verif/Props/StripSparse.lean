import Verif.SpecSparse
import Verif.Props.StripPool

/-! # The allocated parts of a sparse file (C156) -/

set_option linter.unusedVariables false
set_option linter.unusedSectionVars false

namespace NI
open _root_.NI.Finite TT
variable {α : Type} [LinearOrder α] [Finite α] [LawfulFinite α]

theorem Interval.real_joins {i : Interval α} (hi : i.Obtainable) (hr : i.Real) {x y : α} (hy : succ x = some y) :
    i.joins x = (i.contains x || i.contains y) := by
  rw [Bool.eq_iff_iff, Bool.or_eq_true]
  constructor
  · intro h
    obtain ⟨z, hz, a⟩ := (Strip.stacked_interval hi hr).joint x (by simpa [Strip.add_joint, Strip.nothing] using h)
    rw [hy] at hz; cases hz
    simpa [Strip.add_val, Strip.nothing] using a
  · intro h
    rw [Interval.joins, hy]
    rcases h with h | h <;> simp [h]

/-- What is beside an interval with values are the neighbours of its values. -/
theorem Interval.real_beside {i : Interval α} (hi : i.Obtainable) (hr : i.Real) {x y z : α} (hy : succ x = some y) (hz : succ y = some z) :
    i.beside y = true ↔ i.contains y = false ∧ (i.contains x = true ∨ i.contains z = true) := by
  have l1 := LawfulFinite.succ_some x y hy
  have l2 := LawfulFinite.succ_some y z hz
  have lp := LawfulFinite.pred_some y x (pred_eq_iff.2 hy)
  rw [Interval.beside, hz, pred_eq_iff.2 hy]
  simp only [Option.any_some, Bool.or_eq_true, decide_eq_true_eq]
  rcases Interval.obtainable_cases hi with rfl | ⟨q, rfl⟩ | ⟨l, r, rfl, -⟩
  · simp [Interval.contains, RawInterval.contains, Interval.lowerBound, Interval.upperBound, RawInterval.lowerBound, RawInterval.upperBound]
  · simp only [Interval.contains, RawInterval.contains, Interval.lowerBound, Interval.upperBound, RawInterval.lowerBound, RawInterval.upperBound,
      Option.some.injEq, Bound.incl.injEq, decide_eq_true_eq, decide_eq_false_iff_not]
    grind
  · have hlr : l ≤ r := by
      rcases hr with e | ⟨v, hv⟩
      · cases e
      · have hv : (⟨.closed l r⟩ : Interval α).contains v = true := hv
        simp only [Interval.contains, RawInterval.contains, Bool.and_eq_true, decide_eq_true_eq] at hv
        exact hv.1.trans hv.2
    simp only [Interval.contains, RawInterval.contains, Interval.lowerBound, Interval.upperBound, RawInterval.lowerBound, RawInterval.upperBound,
      Option.some.injEq, Bound.incl.injEq, decide_eq_true_eq, Bool.and_eq_true, Bool.and_eq_false_iff, decide_eq_false_iff_not, not_le]
    have a := l2.2 l
    have b := lp.2 r
    have c := l1.1
    have d := l2.1
    constructor
    · rintro (rfl | rfl)
      · exact ⟨.inl d, .inr ⟨le_rfl, hlr⟩⟩
      · exact ⟨.inr c, .inl ⟨hlr, le_rfl⟩⟩
    · rintro ⟨h1 | h1, ⟨h2, h3⟩ | ⟨h2, h3⟩⟩
      · exact absurd (h1.trans_le h2) (not_lt.2 c.le)
      · exact .inl (le_antisymm h2 (a h1))
      · exact .inr (le_antisymm (b h1) h3)
      · exact absurd (h1.trans d) (not_lt.2 h3)

omit [LawfulFinite α] in
theorem SparseCalls.written_snoc (cs : SparseCalls α) (i : Interval α) (b : Bool) (P : Interval α → Bool) :
    SparseCalls.written (cs ++ [(i, b)]) P = if P i then b else cs.written P := by
  rw [SparseCalls.written, List.reverse_append, List.reverse_singleton, List.singleton_append, List.find?_cons]
  cases P i <;> rfl

/-- The flags told by the calls. -/
structure Strip.Sparse (cs : SparseCalls α) (p : Strip α) : Prop where
  val : ∀ x, p.val x = cs.written fun j => j.contains x
  joint : ∀ x y, succ x = some y → p.joint x = cs.written fun j => j.contains x || j.contains y
  last : ∀ x, succ x = none → p.joint x = false

theorem Strip.Sparse.write {cs : SparseCalls α} {p : Strip α} (k : p.Sparse cs) {i : Interval α} (hi : i.Obtainable) (hr : i.Real) :
    (p.add i).Sparse (cs ++ [(i, true)]) := by
  refine ⟨fun x => ?_, fun x y hy => ?_, fun x hx => ?_⟩
  · rw [SparseCalls.written_snoc, Strip.add_val, k.val]
    cases i.contains x <;> simp
  · rw [SparseCalls.written_snoc, Strip.add_joint, k.joint x y hy, Interval.real_joins hi hr hy]
    cases i.contains x || i.contains y <;> simp
  · rw [Strip.add_joint, k.last x hx, Strip.joins_last _ hx]; rfl

theorem Strip.Sparse.free {cs : SparseCalls α} {p : Strip α} (k : p.Sparse cs) {i : Interval α} (hi : i.Obtainable) (hr : i.Real)
    (hh : ∀ y, (p.hole y && i.beside y) = false) : (p.remove i).Sparse (cs ++ [(i, false)]) := by
  refine ⟨fun x => ?_, fun x y hy => ?_, fun x hx => ?_⟩
  · rw [SparseCalls.written_snoc, Strip.remove_val, hh, k.val]
    cases i.contains x <;> simp
  · rw [SparseCalls.written_snoc, Strip.remove_joint, k.joint x y hy, Interval.real_joins hi hr hy]
    cases i.contains x || i.contains y <;> simp
  · rw [Strip.remove_joint, k.last x hx]; rfl

theorem Strip.Sparse.bridgedAt {cs : SparseCalls α} {p : Strip α} (k : p.Sparse cs) {i : Interval α} (hi : i.Obtainable) (hr : i.Real)
    (y : α) : (p.hole y && i.beside y) = true ↔ cs.BridgedAt i y := by
  constructor
  · intro hc
    rw [Bool.and_eq_true] at hc
    obtain ⟨hh, hb⟩ := hc
    simp only [Strip.hole, Bool.and_eq_true, Bool.not_eq_true', Option.any_eq_true] at hh
    obtain ⟨⟨v, j2⟩, x, hx, j1⟩ := hh
    have hy := pred_eq_iff.1 hx
    cases hz : succ y with
    | none => rw [k.last y hz] at j2; cases j2
    | some z =>
      obtain ⟨h1, h2⟩ := (Interval.real_beside hi hr hy hz).1 hb
      exact ⟨x, z, hy, hz, h1, h2, by rw [← k.val]; exact v, by rw [← k.joint x y hy]; exact j1, by rw [← k.joint y z hz]; exact j2⟩
  · rintro ⟨x, z, hy, hz, h1, h2, h3, h4, h5⟩
    rw [(Interval.real_beside hi hr hy hz).2 ⟨h1, h2⟩, Bool.and_true, Strip.hole, k.val, h3, k.joint y z hz, h5, pred_eq_iff.2 hy,
      Option.any_some, k.joint x y hy, h4]
    rfl

theorem Strip.Sparse.bridged {cs : SparseCalls α} {p : Strip α} (k : p.Sparse cs) {i : Interval α} (hi : i.Obtainable) (hr : i.Real) :
    (∀ y, (p.hole y && i.beside y) = false) ↔ ¬ cs.Bridged i := by
  rw [SparseCalls.Bridged, not_exists]
  exact forall_congr' fun y => by rw [← k.bridgedAt hi hr, Bool.not_eq_true]

/-- **C156.**  Nothing panics; as long as no bridged range is freed the selection has exactly what should be there, and the first such
range that is freed makes it wrong, by exactly the values at which it is bridged. -/
theorem C156_exact (dbg : Bool) (cs : SparseCalls α) (hc : ∀ c ∈ cs, c.1.Obtainable ∧ c.1.Real) :
    ∃ s, cs.run dbg = .ok s ∧ s.Reachable ∧ (cs.Careful → s.pts dbg = cs.there ∧ ∀ i : Interval α, i.Obtainable → i.Real →
      ∃ s1, s.minusInPlace dbg i = .ok s1 ∧ s1.pts dbg = s.pts dbg \ i.pts ∪ {y | cs.BridgedAt i y} ∧
        (s1.pts dbg = s.pts dbg \ i.pts ↔ ¬ cs.Bridged i)) := by
  have mem : ∀ {s : Selection α} {p : Strip α}, p.Of s → s.pts dbg = {x | p.val x = true} := fun {s p} h => by
    ext x; rw [Selection.mem_pts dbg (Selection.reachable_valid h.1), h.2.1]; rfl
  have rem : ∀ {p : Strip α} {i : Interval α}, i.Obtainable → ((∀ y, (p.hole y && i.beside y) = false) ↔
      {y | (p.remove i).val y = true} = {y | p.val y = true} \ i.pts) := fun {p i} hi => by
    rw [Set.ext_iff]
    refine forall_congr' fun y => ?_
    have h2 : p.hole y = true → p.val y = false := fun h => by
      simp only [Strip.hole, Bool.and_eq_true, Bool.not_eq_true'] at h
      exact h.1.1
    have h3 := Interval.beside_not_in hi (x := y)
    show (p.hole y && i.beside y) = false ↔ ((p.remove i).val y = true ↔ (p.val y = true ∧ ¬ i.contains y = true))
    rw [Strip.remove_val]
    generalize p.hole y = a at *
    generalize p.val y = b at *
    generalize i.contains y = c at *
    generalize i.beside y = d at *
    clear * - h2 h3
    cases a <;> cases b <;> cases c <;> cases d <;> simp_all
  suffices main : ∃ (s : Selection α) (p : Strip α), cs.run dbg = .ok s ∧ p.Of s ∧ (cs.Careful → p.Sparse cs ∧ s.pts dbg = cs.there) by
    obtain ⟨s, p, e, h, k⟩ := main
    refine ⟨s, e, h.1, fun hu => ⟨(k hu).2, fun i hi hr => ?_⟩⟩
    obtain ⟨s1, e1, h1⟩ := h.remove dbg hi
    refine ⟨s1, e1, ?_, by rw [← (k hu).1.bridged hi hr, rem hi, mem h, mem h1]⟩
    rw [mem h, mem h1]
    ext y
    rw [Set.mem_union, Set.mem_ofPred_eq (p := fun y => cs.BridgedAt i y), ← (k hu).1.bridgedAt hi hr]
    show (p.remove i).val y = true ↔ (p.val y = true ∧ ¬ i.contains y = true) ∨ _
    rw [Strip.remove_val]
    generalize (p.hole y && i.beside y) = a
    generalize p.val y = b
    generalize i.contains y = c
    clear * -
    cases a <;> cases b <;> cases c <;> simp
  induction cs using List.reverseRecOn with
  | nil =>
    refine ⟨.new, _, rfl, Strip.of_new, fun _ => ⟨⟨fun x => rfl, fun x y _ => rfl, fun x _ => rfl⟩, ?_⟩⟩
    rw [mem Strip.of_new]; ext x; simp [Strip.nothing, SparseCalls.there]
  | append_singleton cs c ih =>
    obtain ⟨s, p, e, h, k⟩ := ih fun c h => hc c (List.mem_append_left _ h)
    obtain ⟨i, b⟩ := c
    obtain ⟨hi, hr⟩ := hc (i, b) (List.mem_append_right _ (.head _))
    have hu : SparseCalls.Careful (cs ++ [(i, b)]) → SparseCalls.Careful cs := fun hu A B j hj => hu A (B ++ [(i, b)]) j (by rw [hj]; simp)
    cases b with
    | true =>
      obtain ⟨s1, e1, h1⟩ := h.add dbg hi
      refine ⟨s1, _, ?_, h1, fun hk => ⟨(k (hu hk)).1.write hi hr, ?_⟩⟩
      · rw [SparseCalls.run, List.foldlM_append]
        change SparseCalls.run dbg cs >>= _ = _
        rw [e]
        simp only [bind, Except.bind, List.foldlM_cons, List.foldlM_nil, if_true, e1]; rfl
      · rw [SparseCalls.there, List.foldl_append]
        change _ = (fun W (c : Interval α × Bool) => if c.2 then W ∪ c.1.pts else W \ c.1.pts) (SparseCalls.there cs) (i, true)
        rw [← (k (hu hk)).2, mem h1, mem h]
        ext y
        show (p.add i).val y = true ↔ p.val y = true ∨ i.contains y = true
        rw [Strip.add_val, Bool.or_eq_true]
    | false =>
      obtain ⟨s1, e1, h1⟩ := h.remove dbg hi
      have hb : SparseCalls.Careful (cs ++ [(i, false)]) → ∀ y, (p.hole y && i.beside y) = false := fun hk =>
        ((k (hu hk)).1.bridged hi hr).2 (hk cs [] i rfl)
      refine ⟨s1, _, ?_, h1, fun hk => ⟨(k (hu hk)).1.free hi hr (hb hk), ?_⟩⟩
      · rw [SparseCalls.run, List.foldlM_append]
        change SparseCalls.run dbg cs >>= _ = _
        rw [e]
        simp only [bind, Except.bind, List.foldlM_cons, List.foldlM_nil, Bool.false_eq_true, if_false, e1]; rfl
      · rw [SparseCalls.there, List.foldl_append]
        change _ = (fun W (c : Interval α × Bool) => if c.2 then W ∪ c.1.pts else W \ c.1.pts) (SparseCalls.there cs) (i, false)
        rw [← (k (hu hk)).2, mem h1, mem h]
        exact (rem hi).1 (hb hk)

/-- **C156**, a wrong result: 1 to 4 and 6 to 9 are written and 6 to 7 are freed, and 5, that was never written, is there. -/
theorem C156_counterexample : SparseCalls.Bridged [(.mkClosed (u8 1) (u8 4), true), (.mkClosed (u8 6) (u8 9), true)] (.mkClosed (u8 6) (u8 7)) ∧
    (do (← SparseCalls.run true [(.mkClosed (u8 1) (u8 4), true), (.mkClosed (u8 6) (u8 9), true), (.mkClosed (u8 6) (u8 7), false)]).intervals true) =
      .ok [.mkClosed (u8 1) (u8 5), .mkClosed (u8 8) (u8 9)] :=
  ⟨⟨u8 5, u8 4, u8 6, by decide, by decide, by decide, by decide, by decide, by decide, by decide⟩, by decide⟩

/-- If 1 to 9 are written and 5 is freed, freeing 6 to 7 is not bridged, and right. -/
example : ¬ SparseCalls.Bridged [(.mkClosed (u8 1) (u8 9), true), (.point (u8 5), false)] (.mkClosed (u8 6) (u8 7)) ∧
    (do (← SparseCalls.run true [(.mkClosed (u8 1) (u8 9), true), (.point (u8 5), false), (.mkClosed (u8 6) (u8 7), false)]).intervals true) =
      .ok [.mkClosed (u8 1) (u8 4), .mkClosed (u8 8) (u8 9)] := by
  refine ⟨?_, by decide⟩
  rintro ⟨y, x, z, hy, hz, h1, h2, h3, h4, h5⟩
  have hb := (Interval.real_beside (i := .mkClosed (u8 6) (u8 7)) (x := x) (y := y) (z := z) (.mkClosed _ _) (.inr ⟨u8 6, by decide⟩) hy hz).2 ⟨h1, h2⟩
  rw [Interval.beside, hz, pred_eq_iff.2 hy, show Interval.lowerBound (.mkClosed (u8 6) (u8 7)) = some (.incl (u8 6)) by decide,
    show Interval.upperBound (.mkClosed (u8 6) (u8 7)) = some (.incl (u8 7)) by decide] at hb
  simp only [Option.any_some, Bool.or_eq_true, decide_eq_true_eq, Option.some.injEq, Bound.incl.injEq] at hb
  rcases hb with rfl | rfl
  · have : y = u8 5 := Option.some.inj ((pred_eq_iff.2 hz).symm.trans (by decide))
    subst this
    have : x = u8 4 := Option.some.inj ((pred_eq_iff.2 hy).symm.trans (by decide))
    subst this
    revert h4; decide
  · have : y = u8 8 := Option.some.inj (hy.symm.trans (by decide))
    subst this
    revert h3; decide

/-- **C156.**  By complements it is always right, from any selection. -/
theorem C156_by_complement (dbg : Bool) (cs : SparseCalls α) (hc : ∀ c ∈ cs, c.1.Obtainable) (s : Selection α) (hs : s.Reachable) :
    ∃ s', cs.runByComplement dbg s = .ok s' ∧ s'.Reachable ∧
      s'.pts dbg = cs.foldl (fun W c => if c.2 then W ∪ c.1.pts else W \ c.1.pts) (s.pts dbg) := by
  induction cs generalizing s with
  | nil => exact ⟨s, rfl, hs, rfl⟩
  | cons c cs ih =>
    obtain ⟨i, b⟩ := c
    have hi : i.Obtainable := hc (i, b) (.head _)
    have ih := ih fun c h => hc c (.tail _ h)
    cases b with
    | true =>
      obtain ⟨s1, e1, r1, p1⟩ := C48_union_in_place dbg s hs i hi
      obtain ⟨s', e, r, p⟩ := ih s1 r1
      refine ⟨s', ?_, r, ?_⟩
      · rw [SparseCalls.runByComplement, List.foldlM_cons]
        simp only [if_true, e1, bind, Except.bind]
        exact e
      · rw [p, p1]; rfl
    | false =>
      obtain ⟨c1, e1, r1, p1⟩ := Selection.complement_right dbg s hs
      obtain ⟨c2, e2, r2, p2⟩ := C48_union_in_place dbg c1 r1 i hi
      obtain ⟨c3, e3, r3, p3⟩ := Selection.complement_right dbg c2 r2
      obtain ⟨s', e, r, p⟩ := ih c3 r3
      have q : c3.pts dbg = s.pts dbg \ i.pts := by
        rw [p3, p2, p1]
        ext y
        simp only [Set.mem_compl_iff, Set.mem_union, Set.mem_sdiff, not_or, not_not]
      refine ⟨s', ?_, r, ?_⟩
      · rw [SparseCalls.runByComplement, List.foldlM_cons]
        simp only [Bool.false_eq_true, if_false, e1, e2, e3, bind, Except.bind]
        exact e
      · rw [p, q]; rfl

example : (do (← SparseCalls.runByComplement true [(.mkClosed (u8 1) (u8 4), true), (.mkClosed (u8 6) (u8 9), true), (.mkClosed (u8 6) (u8 7), false)]
      .new).intervals true) = .ok [.mkClosed (u8 1) (u8 4), .mkClosed (u8 8) (u8 9)] ∧ (Selection.new : Selection U8).Reachable := ⟨by decide, .new⟩

omit [LawfulFinite α] in
theorem SparseCalls.written_congr {cs : SparseCalls α} {P Q : Interval α → Bool} (h : ∀ c ∈ cs, P c.1 = Q c.1) : cs.written P = cs.written Q := by
  induction cs using List.reverseRecOn with
  | nil => rfl
  | append_singleton cs c ih =>
    obtain ⟨i, b⟩ := c
    rw [SparseCalls.written_snoc, SparseCalls.written_snoc, ih fun c hc => h c (List.mem_append_left _ hc),
      h (i, b) (List.mem_append_right _ (.head _))]

theorem SparseCalls.Paged.careful {cs : SparseCalls α} (hp : cs.Paged) : cs.Careful := by
  rintro A B i rfl ⟨y, x, z, hy, hz, -, -, h3, h4, h5⟩
  obtain ⟨w, hw, hq⟩ := hp y
  have hq : ∀ c ∈ A, c.1.contains y = c.1.contains w := fun c hc => hq c (List.mem_append_left _ hc)
  rcases hw with hw | hw
  · rw [hz] at hw; cases hw
    rw [SparseCalls.written_congr (Q := fun j => j.contains y) fun c hc => by rw [← hq c hc, Bool.or_self], h3] at h5
    cases h5
  · have := pred_eq_iff.2 hw
    rw [pred_eq_iff.2 hy] at this; cases this
    rw [SparseCalls.written_congr (Q := fun j => j.contains y) fun c hc => by rw [← hq c hc, Bool.or_self], h3] at h4
    cases h4

/-- **C156.**  If the ranges are made of pages of two values or more, `union_in_place` and `minus_in_place` always keep it right. -/
theorem C156_paged (dbg : Bool) (cs : SparseCalls α) (hc : ∀ c ∈ cs, c.1.Obtainable ∧ c.1.Real) (hp : cs.Paged) :
    ∃ s, cs.run dbg = .ok s ∧ s.pts dbg = cs.there := by
  obtain ⟨s, e, -, h⟩ := C156_exact dbg cs hc
  exact ⟨s, e, (h hp.careful).1⟩

/-- Pages of two values: 2 to 5 and 8 to 9 written, 2 to 3 freed. -/
example : SparseCalls.Paged [(.mkClosed (u8 2) (u8 5), true), (.mkClosed (u8 8) (u8 9), true), (.mkClosed (u8 2) (u8 3), false)] ∧
    (do (← SparseCalls.run true [(.mkClosed (u8 2) (u8 5), true), (.mkClosed (u8 8) (u8 9), true), (.mkClosed (u8 2) (u8 3), false)]).intervals true) =
      .ok [.mkClosed (u8 4) (u8 5), .mkClosed (u8 8) (u8 9)] := by
  refine ⟨?_, by decide⟩
  have hs : ∀ a b : U8, b.1 = a.1 + 1 → succ a = some b := by
    rintro ⟨a, ha⟩ ⟨b, hb⟩ rfl
    have h1 : a ≠ 255 := by simp only at hb; omega
    have h2 : 0 ≤ a + 1 ∧ a + 1 ≤ 255 := hb
    simp [Finite.succ, MInt.succRaw, MInt.checkedAdd, h1, h2]
  have hc : ∀ (l r y : U8), Interval.contains ⟨.closed l r⟩ y = decide (l.1 ≤ y.1 ∧ y.1 ≤ r.1) := fun _ _ _ =>
    (Bool.decide_and _ _).symm
  rw [show Interval.mkClosed (u8 2) (u8 5) = ⟨.closed (u8 2) (u8 5)⟩ by decide, show Interval.mkClosed (u8 8) (u8 9) = ⟨.closed (u8 8) (u8 9)⟩ by decide,
    show Interval.mkClosed (u8 2) (u8 3) = ⟨.closed (u8 2) (u8 3)⟩ by decide]
  rintro ⟨y, hy⟩
  rcases Int.emod_two_eq_zero_or_one y with h | h
  · refine ⟨⟨y + 1, by omega⟩, .inl (hs _ _ rfl), ?_⟩
    simp only [List.mem_cons, List.not_mem_nil, or_false, forall_eq_or_imp, forall_eq, hc, u8, decide_eq_decide]
    omega
  · refine ⟨⟨y - 1, by omega⟩, .inr (hs _ _ (by simp)), ?_⟩
    simp only [List.mem_cons, List.not_mem_nil, or_false, forall_eq_or_imp, forall_eq, hc, u8, decide_eq_decide]
    omega

end NI
