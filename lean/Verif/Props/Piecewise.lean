import Verif.Props.Twice
import Verif.Lemmas.Piecewise

/-!
# C113: set operations on trees and selections work interval by interval

For two intervals this is C72 and C105.  Here the left operand is any tree (selection), and the result is
given as a list of intervals in terms of the methods of `RawInterval` (`Interval`).
-/

namespace NI

section Tree
variable {α : Type} [LinearOrder α]

/-- **C113.**  `union_in_place` leaves the intervals that do not touch the new one as they are, and puts one
interval, which encloses the new one and all those that touch it, in the place of the others. -/
theorem C113_union_in_place (dbg : Bool) (t : TineTree α) (ht : t.Reachable) (is : List (RawInterval α))
    (his : t.intervals dbg = .ok is) (i : RawInterval α) (hi : i.WF) (ni : i ≠ .empty) :
    ∃ t' A B C, t.unionInPlace dbg i = .ok t' ∧ t'.Reachable ∧ is = A ++ B ++ C ∧
      (∀ p ∈ A ++ C, p.intersects i = false ∧ p.isAdjacentTo i = false) ∧
      (∀ p ∈ B, p.intersects i = true ∨ p.isAdjacentTo i = true) ∧
      t'.intervals dbg = .ok (A ++ [B.foldl RawInterval.enclose i] ++ C) := by
  classical
  have v := TT.reachable_valid ht
  rw [TT.intervals_eq dbg v] at his; cases his
  obtain ⟨t', e, v', -⟩ := TT.unionInPlace_ok dbg v hi
  have hw := (TT.pieces_wf v.1).1
  refine ⟨t', _, _, _, e, TT.valid_reachable v', TT.three_parts hi ni hw (TT.pieces_sep v.1).1, ?_, ?_, ?_⟩
  · intro p hp
    have h : p ∈ TT.pieces none t ∧ (TT.SepI p i ∨ TT.SepI i p) := by
      rcases List.mem_append.1 hp with h | h <;> rw [List.mem_filter, decide_eq_true_eq] at h
      · exact ⟨h.1, .inl h.2⟩
      · exact ⟨h.1, .inr h.2⟩
    have := (TT.touch_or (hw p h.1).1 hi (hw p h.1).2 ni).2 h.2
    simpa [TT.touch] using this
  · intro p hp
    obtain ⟨h1, h2⟩ := List.mem_filter.1 hp
    rw [TT.touch_comm hi (hw p h1).1 ni (hw p h1).2] at h2
    simpa [TT.touch] using h2
  · rw [TT.intervals_eq dbg v', TT.union_pieces dbg v hi ni e, List.append_assoc, List.singleton_append]

example : (TineTree.demo [.closed 0 1, .opn 2 4, .closed 6 9]).Reachable ∧
    TineTree.intervals true (TineTree.demo [.closed 0 1, .opn 2 4, .closed 6 9]) =
      .ok [.closed 0 1, .opn 2 4, .closed 6 9] ∧
    (do TineTree.intervals true (← TineTree.unionInPlace true (TineTree.demo [.closed 0 1, .opn 2 4, .closed 6 9])
      (.closed 4 5))) = .ok [.closed 0 1, .leftOpen 2 5, .closed 6 9] :=
  ⟨TineTree.fromIter_reachable (dbg := true) (is := [.closed 0 1, .opn 2 4, .closed 6 9])
    (by simp [RawInterval.WF]) rfl, by decide, by decide⟩

/-- **C113.**  `minus_in_place` replaces every interval by what `RawInterval::minus` leaves of it, exactly if the
interval is safe to remove (C78). -/
theorem C113_minus_in_place_iff (dbg : Bool) (t : TineTree α) (ht : t.Reachable) (is : List (RawInterval α))
    (his : t.intervals dbg = .ok is) (i : RawInterval α) (hi : i.WF) :
    (∃ t', t.minusInPlace dbg i = .ok t' ∧ t'.Reachable ∧
      t'.intervals dbg = .ok (is.flatMap fun p => p.minus i)) ↔ RawInterval.RemovalSafe is i := by
  have v := TT.reachable_valid ht
  have his0 := his
  rw [TT.intervals_eq dbg v] at his; cases his
  have hw := (TT.pieces_wf v.1).1
  have hs : (TT.pieces none t).Pairwise TT.SepI := (TT.pieces_sep v.1).1
  obtain ⟨g1, g2, g3⟩ := TT.minus_flat hw hs hi
  constructor
  · rintro ⟨t', e, r, h⟩
    refine (C37_exact_iff dbg t ht i hi _ his0).1 ⟨t', e, r, fun x => ?_⟩
    have v' := TT.reachable_valid r
    rw [TT.intervals_eq dbg v', Except.ok.injEq] at h
    have hr : TT.RealPos false (Key.fin x) := ⟨by simp, by simp⟩
    rw [TT.contains_iff dbg v', TT.contains_iff dbg v, TT.tcov_any v', h, g3 _ _ hr, ← TT.tcov_any v,
      Bool.and_eq_true, TT.icov_fin hi]
    simp
  · intro safe
    obtain ⟨t', e, v', c, -⟩ := TT.minusInPlace_ok dbg v hi (TT.minusOk_of_safe v hi safe)
    refine ⟨t', e, TT.valid_reachable v', ?_⟩
    rw [TT.intervals_eq dbg v', TT.pieces_unique v' g1 g2 fun aft k hr => by
      rw [c, g3 aft k hr, TT.tcov_any v]]

example : (TineTree.demo [.closed 0 3, .closed 6 9]).Reachable ∧
    TineTree.intervals true (TineTree.demo [.closed 0 3, .closed 6 9]) = .ok [.closed 0 3, .closed 6 9] ∧
    (do TineTree.intervals true (← TineTree.minusInPlace true (TineTree.demo [.closed 0 3, .closed 6 9])
      (.opn 2 7))) = .ok [.closed 0 2, .closed 7 9] :=
  ⟨TineTree.fromIter_reachable (dbg := true) (is := [.closed 0 3, .closed 6 9])
    (by simp [RawInterval.WF]) rfl, by decide, by decide⟩

/-- **C113.**  `intersect_in_place` replaces every interval by what `RawInterval::intersect` gives and drops the
empty ones, exactly if the interval cuts the tree cleanly (C80) or is empty, full or a point. -/
theorem C113_intersect_in_place_iff (dbg : Bool) (t : TineTree α) (ht : t.Reachable) (is : List (RawInterval α))
    (his : t.intervals dbg = .ok is) (i : RawInterval α) (hi : i.WF) :
    (∃ t', t.intersectInPlace dbg i = .ok t' ∧ t'.Reachable ∧
      t'.intervals dbg = .ok ((is.map fun p => p.intersect i).filter fun p => !p.isEmpty)) ↔
    (is = [] ∨ ¬ i.TwoEnded ∨ i = .full ∨ RawInterval.CutClean dbg is i) := by
  have v := TT.reachable_valid ht
  have his0 := his
  rw [TT.intervals_eq dbg v] at his; cases his
  have hw := (TT.pieces_wf v.1).1
  have hs : (TT.pieces none t).Pairwise TT.SepI := (TT.pieces_sep v.1).1
  obtain ⟨g1, g2, g3⟩ := TT.meet_one hw hs hi
  have fin : ∀ {t' : TineTree α}, TT.Valid t' →
      (t'.intervals dbg = .ok (((TT.pieces none t).map fun p => p.intersect i).filter fun p => !p.isEmpty) ↔
      ∀ aft k, TT.RealPos aft k → TT.tcov t' aft k = (TT.tcov t aft k && TT.icov i aft k)) := by
    intro t' v'
    rw [TT.intervals_eq dbg v', Except.ok.injEq]
    constructor
    · intro h aft k hr
      rw [TT.tcov_any v', h, g3 aft k hr, TT.tcov_any v]
    · intro h
      exact TT.pieces_unique v' g1 g2 fun aft k hr => by rw [h aft k hr, g3 aft k hr, TT.tcov_any v]
  by_cases h1 : TT.pieces none t = []
  · have ht0 : t = [] := by
      refine TT.valid_ext v TT.valid_nil fun aft k _ => ?_
      show TT.tcov t aft k = _
      rw [TT.tcov_any v, h1]; rfl
    subst ht0
    refine ⟨fun _ => .inl h1, fun _ => ⟨[], by simp [TineTree.intersectInPlace, TineTree.isEmpty], ht, ?_⟩⟩
    rw [fin v]
    intro aft k _
    rw [TT.tcov_any v, h1]; rfl
  have ht0 : t ≠ [] := by rintro rfl; exact h1 rfl
  have hte : TineTree.isEmpty t = false := by
    cases t
    · exact absurd rfl ht0
    · rfl
  by_cases h2 : i.TwoEnded
  · by_cases h3 : i = .full
    · subst h3
      refine ⟨fun _ => .inr (.inr (.inl rfl)), fun _ => ⟨t, ?_, ht, ?_⟩⟩
      · simp [TineTree.intersectInPlace, RawInterval.isFull]
      · rw [fin v]
        intro aft k hr
        rw [TT.icov_full_real hr, Bool.and_true]
    · obtain ⟨r, vr, c, hiff⟩ := TT.intersectInPlace_sharp dbg v ht0 hi h2 h3
      simp only [h1, h2, h3, not_true_eq_false, false_or]
      constructor
      · rintro ⟨t', e, r', h⟩
        have v' := TT.reachable_valid r'
        rw [fin v'] at h
        rw [← hiff, e, Except.ok.injEq]
        exact TT.valid_ext v' vr fun aft k hr => (h aft k hr).trans (c aft k).symm
      · intro h
        exact ⟨r, hiff.2 h, TT.valid_reachable vr, (fin vr).2 fun aft k _ => c aft k⟩
  · refine ⟨fun _ => .inr (.inl h2), fun _ => ?_⟩
    cases i with
    | empty =>
      refine ⟨[], by simp [TineTree.intersectInPlace, hte, RawInterval.isFull, RawInterval.isEmpty,
        TineTree.new], TT.valid_reachable TT.valid_nil, ?_⟩
      rw [fin TT.valid_nil]
      intro aft k _
      have : TT.icov (.empty : RawInterval α) aft k = false := rfl
      rw [this, Bool.and_false]; rfl
    | point p =>
      have hp : TT.RealPos false (Key.fin p) := ⟨by simp, by simp⟩
      have hc := TT.contains_ok dbg v p
      have hpt : ∀ aft k, TT.icov (.point p) aft k = (!aft && decide (k = Key.fin p)) := TT.icov_pt p
      cases hb : TT.tcov t false (.fin p)
      · refine ⟨[], ?_, TT.valid_reachable TT.valid_nil, ?_⟩
        · rw [hb] at hc
          simp [TineTree.intersectInPlace, hte, RawInterval.isFull, RawInterval.isEmpty, hc, TineTree.new,
            Bind.bind, Except.bind]
        · rw [fin TT.valid_nil]
          intro aft k _
          rw [hpt]
          cases aft
          · by_cases hk : k = .fin p
            · subst hk; rw [hb]; rfl
            · simp [hk, TT.tcov, TT.cov]
          · simp [TT.tcov, TT.cov]
      · refine ⟨Tine.fromRawInterval (.point p), ?_, TT.valid_reachable (TT.fromRaw_valid hi), ?_⟩
        · rw [hb] at hc
          simp [TineTree.intersectInPlace, hte, RawInterval.isFull, RawInterval.isEmpty, hc,
            Bind.bind, Except.bind, TT.tree_fromRaw hi]
        · rw [fin (TT.fromRaw_valid hi)]
          intro aft k _
          show TT.icov (.point p) aft k = _
          rw [hpt]
          cases aft
          · by_cases hk : k = .fin p
            · subst hk; rw [hb]; rfl
            · simp [hk]
          · simp
    | opn | leftOpen | rightOpen | closed | upTo | upFrom | «to» | frm | full =>
      exact absurd ⟨by simp, by simp⟩ h2

example : RawInterval.CutClean true [.opn (0 : Int) 3, .closed 6 9] (.opn 2 7) ∧
    (do TineTree.intervals true (← TineTree.intersectInPlace true (TineTree.demo [.opn 0 3, .closed 6 9])
      (.opn 2 7))) = .ok [.opn 2 3, .rightOpen 6 7] :=
  ⟨⟨_, _, rfl, rfl, .inl ⟨⟨.opn 0 3, by simp, _, _, rfl, rfl, by decide⟩,
    ⟨.closed 6 9, by simp, _, _, rfl, rfl, by decide⟩⟩⟩, by decide⟩

/-- **C113.**  `intersect` lists what the intervals of the two trees have in common pairwise, exactly if the
intervals that meet come together in the walk (C79). -/
theorem C113_intersect_iff (dbg : Bool) (a b : TineTree α) (ha : a.Reachable) (hb : b.Reachable)
    (as bs : List (RawInterval α)) (has : a.intervals dbg = .ok as) (hbs : b.intervals dbg = .ok bs) :
    (∃ t, a.intersect dbg b = .ok t ∧ t.Reachable ∧ t.intervals dbg =
      .ok (as.flatMap fun p => (bs.map fun q => p.intersect q).filter fun r => !r.isEmpty)) ↔
    ∀ s ∈ as, ∀ o ∈ bs, s.intersects o = true → Together RawInterval.intersects as bs s o := by
  have va := TT.reachable_valid ha
  have vb := TT.reachable_valid hb
  rw [TT.intervals_eq dbg va] at has; cases has
  rw [TT.intervals_eq dbg vb] at hbs; cases hbs
  obtain ⟨g1, g2, g3⟩ := TT.meets_list (TT.pieces_wf va.1).1 (TT.pieces_sep va.1).1 (TT.pieces_wf vb.1).1
    (TT.pieces_sep vb.1).1
  rw [← TT.intersect_exact_iff dbg va vb]
  constructor
  · rintro ⟨t, e, r, h⟩
    have v := TT.reachable_valid r
    rw [TT.intervals_eq dbg v, Except.ok.injEq] at h
    refine ⟨t, e, fun aft k hr => ?_⟩
    rw [TT.tcov_any v, h, TT.tcov_any va, TT.tcov_any vb]
    exact g3 aft k hr
  · rintro ⟨t, e, c⟩
    obtain ⟨t1, e1, v, -⟩ := TT.intersect_eq dbg va vb
    rw [e] at e1; cases e1
    refine ⟨t, e, TT.valid_reachable v, ?_⟩
    rw [TT.intervals_eq dbg v, TT.pieces_unique v g1 g2 fun aft k hr => by
      rw [c aft k hr, g3 aft k hr, TT.tcov_any va, TT.tcov_any vb]]
    rfl

example : TineTree.intervals true (TineTree.demo [.closed 0 3, .closed 6 9]) = .ok [.closed 0 3, .closed 6 9] ∧
    TineTree.intervals true (TineTree.demo [.opn 2 4, .opn 4 5, .opn 5 7]) =
      .ok [.opn 2 4, .opn 4 5, .opn 5 7] ∧
    (do TineTree.intervals true (← TineTree.intersect true (TineTree.demo [.closed 0 3, .closed 6 9])
      (TineTree.demo [.opn 2 4, .opn 4 5, .opn 5 7]))) = .ok [.leftOpen 2 3, .rightOpen 6 7] :=
  ⟨by decide, by decide, by decide⟩

/-- **C113.**  `complement` lists what is left of the full interval when `RawInterval::minus` takes one interval
of the tree after the other away. -/
theorem C113_complement (dbg : Bool) (t : TineTree α) (ht : t.Reachable) (is : List (RawInterval α))
    (his : t.intervals dbg = .ok is) :
    ∃ t', t.complement dbg = .ok t' ∧ t'.Reachable ∧
      t'.intervals dbg = .ok (is.foldl (fun acc p => acc.flatMap fun q => q.minus p) [.full]) := by
  have v := TT.reachable_valid ht
  rw [TT.intervals_eq dbg v] at his; cases his
  obtain ⟨t', e, v', c⟩ := TT.complement_ok dbg v
  obtain ⟨g1, g2, g3⟩ := TT.minus_fold (is := [.full]) (by simp [RawInterval.WF]) (by simp)
    (TT.pieces none t) fun p hp => ((TT.pieces_wf v.1).1 p hp).1
  refine ⟨t', e, TT.valid_reachable v', ?_⟩
  rw [TT.intervals_eq dbg v', TT.pieces_unique v' g1 g2 fun aft k hr => by
    rw [c aft k hr, g3 aft k hr, TT.tcov_any v]
    simp [TT.icov_full_real hr]]

example : (do TineTree.intervals true (← TineTree.complement true (TineTree.demo [.closed 0 3, .opn 6 9]))) =
      .ok [.upTo 0, .leftOpen 3 6, .frm 9] ∧
    [RawInterval.closed 0 3, .opn 6 9].foldl (fun acc p => acc.flatMap fun q => q.minus p) [RawInterval.full] =
      [.upTo (0 : Int), .leftOpen 3 6, .frm 9] :=
  ⟨by decide, by decide⟩

/-- **C113.**  `minus` takes one interval of the right tree after the other away, exactly if each is safe to
remove from the left tree. -/
theorem C113_minus_iff (dbg : Bool) (a b : TineTree α) (ha : a.Reachable) (hb : b.Reachable)
    (as bs : List (RawInterval α)) (has : a.intervals dbg = .ok as) (hbs : b.intervals dbg = .ok bs) :
    (∃ t, a.minus dbg b = .ok t ∧ t.Reachable ∧
      t.intervals dbg = .ok (bs.foldl (fun acc p => acc.flatMap fun q => q.minus p) as)) ↔
    ∀ o ∈ bs, RawInterval.RemovalSafe as o := by
  have va := TT.reachable_valid ha
  have vb := TT.reachable_valid hb
  have has0 := has
  have hbs0 := hbs
  rw [TT.intervals_eq dbg va] at has; cases has
  rw [TT.intervals_eq dbg vb] at hbs; cases hbs
  have wb := fun p hp => ((TT.pieces_wf vb.1).1 p hp).1
  obtain ⟨g1, g2, g3⟩ := TT.minus_fold (TT.pieces_wf va.1).1 (TT.pieces_sep va.1).1 (TT.pieces none b) wb
  constructor
  · rintro ⟨t, e, r, h⟩
    have v := TT.reachable_valid r
    rw [TT.intervals_eq dbg v, Except.ok.injEq] at h
    have c : ∀ aft k, TT.RealPos aft k → TT.tcov t aft k = (TT.tcov a aft k && !TT.tcov b aft k) :=
      fun aft k hr => by rw [TT.tcov_any v, h, g3 aft k hr, TT.tcov_any va, TT.tcov_any vb]
    refine (C42_exact_iff dbg a b ha hb _ _ has0 hbs0 fun p hp =>
      TT.safe_of_minusOk va (TT.minus_exact dbg va vb v e c hp)).1 ⟨t, e, fun x => ?_⟩
    have hr : TT.RealPos false (Key.fin x) := ⟨by simp, by simp⟩
    rw [TT.contains_iff dbg v, TT.contains_iff dbg va, TT.contains_ok dbg vb, c _ _ hr, Bool.and_eq_true,
      Bool.not_eq_true', Except.ok.injEq]
  · intro safe
    obtain ⟨t, e, v, c⟩ := TT.foldMinus_ok dbg va (TT.pieces none b)
      (fun o ho => ⟨wb o ho, ((TT.pieces_wf vb.1).1 o ho).2, TT.minusOk_of_safe va (wb o ho) (safe o ho)⟩)
      (TT.pieces_sep vb.1).1
    refine ⟨t, by rw [TineTree.minus, TT.fold_eq dbg _ vb]; exact e, TT.valid_reachable v, ?_⟩
    rw [TT.intervals_eq dbg v, TT.pieces_unique v g1 g2 fun aft k hr => by
      rw [c aft k, g3 aft k hr, TT.tcov_any va]]

example : (do TineTree.intervals true (← TineTree.minus true (TineTree.demo [.closed 0 9])
      (TineTree.demo [.closed 1 3, .opn 6 9]))) = .ok [.rightOpen 0 1, .leftOpen 3 6, .point 9] ∧
    [RawInterval.closed 1 3, .opn 6 9].foldl (fun acc p => acc.flatMap fun q => q.minus p)
      [RawInterval.closed (0 : Int) 9] =
      [.rightOpen 0 1, .leftOpen 3 6, .point 9] :=
  ⟨by decide, by decide⟩

end Tree
end NI
