import Verif.Props.Spot
import Verif.Props.Order
import Verif.Props.Algebra
import Verif.Lemmas.Context

/-! # A run of additions, or of removals, depends on the values only (C126) -/

namespace NI
open _root_.NI.Finite TT
variable {α : Type} [LinearOrder α] [Finite α] [LawfulFinite α]

theorem Spot.ext' {a b : Spot} (h1 : a.before ↔ b.before) (h2 : a.here ↔ b.here) (h3 : a.after ↔ b.after) : a = b := by
  cases a; cases b; simp only at h1 h2 h3; rw [propext h1, propext h2, propext h3]

omit [LinearOrder α] [LawfulFinite α] in
theorem Spot.of_union (A B : Set α) (x : α) : Spot.of (A ∪ B) x = (Spot.of A x).add (Spot.of B x) := by
  refine Spot.ext' ?_ Iff.rfl ?_
  · simp only [Spot.of, Spot.add, Set.mem_union]
    constructor
    · rintro ((h | h) | ⟨p, h | h, e⟩)
      exacts [.inl (.inl h), .inr (.inl h), .inl (.inr ⟨p, h, e⟩), .inr (.inr ⟨p, h, e⟩)]
    · rintro ((h | ⟨p, h, e⟩) | (h | ⟨p, h, e⟩))
      exacts [.inl (.inl h), .inr ⟨p, .inl h, e⟩, .inl (.inr h), .inr ⟨p, .inr h, e⟩]
  · simp only [Spot.of, Spot.add, Set.mem_union]
    constructor
    · rintro ((h | h) | ⟨p, h | h, e⟩)
      exacts [.inl (.inl h), .inr (.inl h), .inl (.inr ⟨p, h, e⟩), .inr (.inr ⟨p, h, e⟩)]
    · rintro ((h | ⟨p, h, e⟩) | (h | ⟨p, h, e⟩))
      exacts [.inl (.inl h), .inr ⟨p, .inl h, e⟩, .inl (.inr h), .inr ⟨p, .inr h, e⟩]

omit [LinearOrder α] [LawfulFinite α] in
theorem Spot.of_empty (x : α) : Spot.of (∅ : Set α) x = ⟨False, False, False⟩ := by
  refine Spot.ext' ?_ ?_ ?_ <;> simp [Spot.of]

theorem Spot.add_add (a b c : Spot) : (a.add b).add c = a.add (b.add c) :=
  Spot.ext' or_assoc or_assoc or_assoc

theorem Spot.remove_remove (a b c : Spot) (h : b.here → b.before) : (a.remove b).remove c = a.remove (b.add c) := by
  refine Spot.ext' ?_ ?_ ?_
  · simp only [Spot.remove, Spot.add, not_or, and_assoc]
  · simp only [Spot.remove, Spot.add, not_or]
    by_cases h1 : a.before <;> by_cases h2 : a.after <;> by_cases h3 : b.before <;> by_cases h4 : b.after <;>
      by_cases h5 : b.here <;> by_cases h6 : c.here <;> by_cases h7 : a.here <;> simp_all
  · simp only [Spot.remove, Spot.add, not_or, and_assoc]

omit [LawfulFinite α] in
/-- What a run of additions does to a value. -/
theorem Spot.steps_add (dbg : Bool) (x : α) (a : Spot) (cs : List (SelStep α)) (h : ∀ c ∈ cs, c.kind = 0) :
    a.steps dbg x cs = a.add (Spot.of {y | ∃ c ∈ cs, y ∈ c.pts dbg} x) := by
  induction cs generalizing a with
  | nil =>
    have : {y | ∃ c ∈ ([] : List (SelStep α)), y ∈ c.pts dbg} = ∅ := by ext; simp
    rw [this, Spot.of_empty]
    refine Spot.ext' ?_ ?_ ?_ <;> simp [Spot.steps, Spot.add]
  | cons c cs ih =>
    have e : {y | ∃ d ∈ c :: cs, y ∈ d.pts dbg} = c.pts dbg ∪ {y | ∃ d ∈ cs, y ∈ d.pts dbg} := by
      ext; simp
    have e1 : a.step dbg x c = a.add (Spot.of (c.pts dbg) x) := by
      have := h c (by simp)
      cases c <;> simp only [SelStep.kind] at this <;> first | rfl | (exact absurd this (by decide))
    show (a.step dbg x c).steps dbg x cs = _
    rw [ih _ fun d hd => h d (by simp [hd]), e1, e, Spot.of_union, Spot.add_add]

omit [LawfulFinite α] in
/-- What a run of removals does to a value. -/
theorem Spot.steps_remove (dbg : Bool) (x : α) (a : Spot) (cs : List (SelStep α)) (h : ∀ c ∈ cs, c.kind = 1) :
    a.steps dbg x cs = a.remove (Spot.of {y | ∃ c ∈ cs, y ∈ c.pts dbg} x) := by
  induction cs generalizing a with
  | nil =>
    have : {y | ∃ c ∈ ([] : List (SelStep α)), y ∈ c.pts dbg} = ∅ := by ext; simp
    rw [this, Spot.of_empty]
    refine Spot.ext' ?_ ?_ ?_ <;> simp [Spot.steps, Spot.remove]
  | cons c cs ih =>
    have e : {y | ∃ d ∈ c :: cs, y ∈ d.pts dbg} = c.pts dbg ∪ {y | ∃ d ∈ cs, y ∈ d.pts dbg} := by
      ext; simp
    have e1 : a.step dbg x c = a.remove (Spot.of (c.pts dbg) x) := by
      have := h c (by simp)
      cases c <;> simp only [SelStep.kind] at this <;> first | rfl | (exact absurd this (by decide))
    show (a.step dbg x c).steps dbg x cs = _
    rw [ih _ fun d hd => h d (by simp [hd]), e1, e, Spot.of_union, Spot.remove_remove _ _ _ Or.inl]

/-- Two runs of additions, or two runs of removals, of the same values lead from any selection to the same one. -/
theorem C126_steps (dbg : Bool) (s : Selection α) (hs : s.Reachable) (k : Nat) (hk : k < 2) (cs ds : List (SelStep α))
    (hc : ∀ c ∈ cs, c.Legal ∧ c.kind = k) (hd : ∀ d ∈ ds, d.Legal ∧ d.kind = k)
    (h : ∀ x, (∃ c ∈ cs, x ∈ c.pts dbg) ↔ ∃ d ∈ ds, x ∈ d.pts dbg) :
    ∃ s', s.steps dbg cs = .ok s' ∧ s.steps dbg ds = .ok s' := by
  have v := Selection.reachable_valid hs
  obtain ⟨s1, e1, v1, k1⟩ := Selection.steps_looks dbg v fun c h => (hc c h).1
  obtain ⟨s2, e2, v2, k2⟩ := Selection.steps_looks dbg v fun c h => (hd c h).1
  have : Nonempty α := ⟨minimum⟩
  have look : ∀ x, ∃ a, Looks s1.tree x a ∧ Looks s2.tree x a := by
    intro x
    have l0 : Looks s.tree x ⟨bef false s.tree (.fin x) = true, at' s.tree x = true, tcov s.tree true (.fin x) = true⟩ :=
      ⟨Iff.rfl, Iff.rfl, Iff.rfl⟩
    have l1 := k1 x _ l0
    have l2 := k2 x _ l0
    refine ⟨_, l1, ?_⟩
    have hU : {y | ∃ c ∈ cs, y ∈ c.pts dbg} = {y | ∃ c ∈ ds, y ∈ c.pts dbg} := Set.ext h
    obtain rfl | rfl : k = 0 ∨ k = 1 := by omega
    · rw [Spot.steps_add dbg x _ _ fun c h => (hd c h).2] at l2
      rwa [Spot.steps_add dbg x _ _ fun c h => (hc c h).2, hU]
    · rw [Spot.steps_remove dbg x _ _ fun c h => (hd c h).2] at l2
      rwa [Spot.steps_remove dbg x _ _ fun c h => (hc c h).2, hU]
  have : s1.tree = s2.tree := by
    refine valid_ext_views v1 v2 (fun x => ?_) (fun x => ?_) (fun x => ?_) <;>
      obtain ⟨a, ⟨a1, a2, a3⟩, b1, b2, b3⟩ := look x <;> rw [Bool.eq_iff_iff]
    exacts [a2.trans b2.symm, a1.trans b1.symm, a3.trans b3.symm]
  refine ⟨s1, e1, ?_⟩
  rw [e2]; cases s1; cases s2; simp only at this; rw [this]

example : (Selection.demo [(u8 2, u8 3), (u8 5, u8 9)]).Reachable ∧
    (∀ c ∈ [SelStep.remove (.mkClosed (u8 5) (u8 6)), .remove (.mkClosed (u8 6) (u8 7))], c.Legal ∧ c.kind = 1) ∧
    (∀ c ∈ [SelStep.minus (Selection.demo [(u8 5, u8 7)])], c.Legal ∧ c.kind = 1) ∧
    (∀ x, (∃ c ∈ [SelStep.remove (.mkClosed (u8 5) (u8 6)), .remove (.mkClosed (u8 6) (u8 7))], x ∈ c.pts true) ↔
      ∃ d ∈ [SelStep.minus (Selection.demo [(u8 5, u8 7)])], x ∈ d.pts true) ∧
    (do (← (Selection.demo [(u8 2, u8 3), (u8 5, u8 9)]).steps true
      [.minus (Selection.demo [(u8 5, u8 7)])]).intervals true) =
      .ok [.mkClosed (u8 2) (u8 4), .mkClosed (u8 8) (u8 9)] := by
  refine ⟨(Selection.demo_built _ (by decide)).reachable, ?_, ?_, ?_, by decide⟩
  · intro c hc
    simp only [List.mem_cons, List.not_mem_nil, or_false] at hc
    rcases hc with rfl | rfl <;> exact ⟨⟨.mkClosed _ _, Interval.closed_real (by decide)⟩, rfl⟩
  · intro c hc
    simp only [List.mem_cons, List.not_mem_nil, or_false] at hc
    subst hc
    exact ⟨Selection.demo_built _ (by decide), rfl⟩
  · intro x
    simp only [List.mem_cons, List.not_mem_nil, or_false, exists_eq_or_imp, exists_eq_left, SelStep.pts]
    have m : ∀ l u, x ∈ (Interval.mkClosed l u).pts ↔ l ≤ x ∧ x ≤ u := fun l u => (C21_bounded l u x).2.2.2.1
    rw [m, m, Selection.demo_mem]
    simp only [List.mem_singleton, exists_eq_left]
    constructor
    · rintro (⟨h1, h2⟩ | ⟨h1, h2⟩)
      exacts [⟨h1, h2.trans (by decide)⟩, ⟨le_trans (by decide) h1, h2⟩]
    · rintro ⟨h1, h2⟩
      rcases le_total x (u8 6) with h | h
      exacts [.inl ⟨h1, h⟩, .inr ⟨h, h2⟩]

/-- Taking the intervals out one by one is taking out all their values at once, and so for putting in. -/
theorem C126_at_once (dbg : Bool) (s b : Selection α) (hs : s.Reachable) (hb : b.UnionBuilt) (is : List (Interval α))
    (hi : ∀ i ∈ is, i.Obtainable ∧ i.Real) (h : ∀ x, x ∈ b.pts dbg ↔ ∃ i ∈ is, x ∈ i.pts) :
    (∃ r, is.foldlM (fun s i => s.minusInPlace dbg i) s = .ok r ∧ s.minus dbg b = .ok r) ∧
    ∃ r, is.foldlM (fun s i => s.unionInPlace dbg i) s = .ok r ∧ s.union dbg b = .ok r := by
  have one : ∀ c : SelStep α, s.steps dbg [c] = (match c with
      | .add i => s.unionInPlace dbg i | .remove i => s.minusInPlace dbg i
      | .union b => s.union dbg b | .minus b => s.minus dbg b | .complement => s.complement dbg) := by
    intro c
    cases c <;> simp [Selection.steps]
  constructor
  · obtain ⟨r, h1, h2⟩ := C126_steps dbg s hs 1 (by decide) (is.map .remove) [.minus b]
      (fun c hc => by obtain ⟨i, hm, rfl⟩ := List.mem_map.1 hc; exact ⟨hi i hm, rfl⟩)
      (fun c hc => by rw [List.mem_singleton.1 hc]; exact ⟨hb, rfl⟩)
      (fun x => by simpa [SelStep.pts] using (h x).symm)
    rw [one] at h2
    rw [Selection.steps, List.foldlM_map] at h1
    exact ⟨r, h1, h2⟩
  · obtain ⟨r, h1, h2⟩ := C126_steps dbg s hs 0 (by decide) (is.map .add) [.union b]
      (fun c hc => by obtain ⟨i, hm, rfl⟩ := List.mem_map.1 hc; exact ⟨hi i hm, rfl⟩)
      (fun c hc => by rw [List.mem_singleton.1 hc]; exact ⟨hb, rfl⟩)
      (fun x => by simpa [SelStep.pts] using (h x).symm)
    rw [one] at h2
    rw [Selection.steps, List.foldlM_map] at h1
    exact ⟨r, h1, h2⟩

example : (Selection.demo [(u8 0, u8 9)]).Reachable ∧ (Selection.demo [(u8 3, u8 3), (u8 5, u8 6)]).UnionBuilt ∧
    (Selection.demo [(u8 3, u8 3), (u8 5, u8 6)]).intervals true = .ok [⟨.closed (u8 3) (u8 3)⟩, .mkClosed (u8 5) (u8 6)] ∧
    (do (← (Selection.demo [(u8 0, u8 9)]).minus true (Selection.demo [(u8 3, u8 3), (u8 5, u8 6)])).intervals true) =
      .ok [.mkClosed (u8 0) (u8 2), .point (u8 4), .mkClosed (u8 7) (u8 9)] :=
  ⟨(Selection.demo_built _ (by decide)).reachable, Selection.demo_built _ (by decide), by decide, by decide⟩

/-- In particular for the intervals a selection lists.
What is missing: selections that are not built by unions, where it is false (`C126_counterexample`). -/
theorem C126_listed_partial (dbg : Bool) (s b : Selection α) (hs : s.Reachable) (hb : b.UnionBuilt)
    (is : List (Interval α)) (he : b.intervals dbg = .ok is) :
    (∃ r, is.foldlM (fun s i => s.minusInPlace dbg i) s = .ok r ∧ s.minus dbg b = .ok r) ∧
    ∃ r, is.foldlM (fun s i => s.unionInPlace dbg i) s = .ok r ∧ s.union dbg b = .ok r := by
  obtain ⟨is', e, ho, -, hc⟩ := C56_cover_partial dbg b hb.reachable
  rw [he] at e; cases e
  refine C126_at_once dbg s b hs hb is (fun i hi => ⟨ho i hi, .inr ?_⟩) hc
  obtain ⟨l, u, hlu, hp, -⟩ := C56_nonempty_partial dbg b (.tidy (.inl hb)) is he i hi
  have : l ∈ i.pts := by rw [hp]; exact ⟨le_rfl, hlu⟩
  exact ⟨l, this⟩

example : (Selection.demo [(u8 0, u8 3), (u8 5, u8 9)]).Reachable ∧ (Selection.demo [(u8 3, u8 5)]).UnionBuilt ∧
    (Selection.demo [(u8 3, u8 5)]).intervals true = .ok [.mkClosed (u8 3) (u8 5)] ∧
    (do (← (Selection.demo [(u8 0, u8 3), (u8 5, u8 9)]).minus true (Selection.demo [(u8 3, u8 5)])).intervals true) =
      .ok [.mkClosed (u8 0) (u8 2), .mkClosed (u8 6) (u8 9)] :=
  ⟨(Selection.demo_built _ (by decide)).reachable, Selection.demo_built _ (by decide), by decide, by decide⟩

/-- Exactly: taking out a selection of any history and taking out the intervals it lists come to the same, for every
selection they are taken out of, if and only if collecting the intervals gives back an equal selection; and so for
putting in. -/
theorem C126_listed_iff (dbg : Bool) (b c : Selection α) (hb : b.Reachable) (is : List (Interval α))
    (he : b.intervals dbg = .ok is) (hr : ∀ i ∈ is, i.Real) (hc : Selection.fromIntervals dbg is = .ok c) :
    ((∀ s : Selection α, s.Reachable → s.minus dbg b = is.foldlM (fun s i => s.minusInPlace dbg i) s) ↔ b = c) ∧
    ((∀ s : Selection α, s.Reachable → s.union dbg b = is.foldlM (fun s i => s.unionInPlace dbg i) s) ↔ b = c) := by
  obtain ⟨is', e, ho, -, -⟩ := C56_cover_partial dbg b hb
  rw [he] at e; cases e
  have uc : c.UnionBuilt := .fromIntervals (fun i hi => ⟨ho i hi, hr i hi⟩) hc
  have hcp : ∀ x, x ∈ c.pts dbg ↔ ∃ i ∈ is, x ∈ i.pts := by
    obtain ⟨c', e, -, k⟩ := C48_from_intervals dbg is ho
    rw [hc] at e; cases e
    exact k
  have key := fun s hs => C126_at_once dbg s c hs uc is (fun i hi => ⟨ho i hi, hr i hi⟩) hcp
  have vb := Selection.reachable_valid hb
  have vc := Selection.reachable_valid uc.reachable
  constructor
  · constructor
    · intro h
      have h1 := h .full .full
      obtain ⟨⟨r, k1, k2⟩, -⟩ := key .full .full
      rw [k1] at h1
      have ht : (Selection.full : Selection α).tree = [.lower .inf, .upper .inf] := Selection.full_tree
      have vf : Valid (Selection.full : Selection α).tree := by rw [ht]; exact full_valid
      have ok : ∀ i : RawInterval α, i.WF → MinusOk (Selection.full : Selection α).tree i := by
        intro i _
        have at1 : ∀ p, tcov (Selection.full : Selection α).tree false (.fin p) = true := fun p => by
          rw [ht]; exact full_cov' (by simp [RealPos])
        have h1 : ∀ x ∈ Tine.fromRawInterval i, holeAt (Selection.full : Selection α).tree x.key = false := by
          intro x _
          rcases key_cases x.key with e | ⟨y, e⟩ | e <;> rw [e]
          · exact (hole_inf vf).1
          · simp [holeAt, at1]
          · exact (hole_inf vf).2
        cases i <;> first | exact h1 | exact .inl (at1 _)
      obtain ⟨t1, e1, -, c1⟩ := TT.minus_ok dbg vf vb fun i hi => ok i ((pieces_wf vb.1).1 i hi).1
      obtain ⟨t2, e2, -, c2⟩ := TT.minus_ok dbg vf vc fun i hi => ok i ((pieces_wf vc.1).1 i hi).1
      have : t1 = t2 := by
        rw [Selection.minus, e1] at h1
        rw [Selection.minus, e2] at k2
        cases h1; cases k2; rfl
      subst this
      have : b.tree = c.tree := by
        refine valid_ext vb vc fun aft k hk => ?_
        have a1 := c1 aft k
        rw [c2, ht, full_cov' hk, Bool.true_and, Bool.true_and] at a1
        exact (Bool.not_inj a1).symm
      cases b; cases c; simp only at this; rw [this]
    · rintro rfl s hs
      obtain ⟨⟨r, k1, k2⟩, -⟩ := key s hs
      rw [k1, k2]
  · constructor
    · intro h
      have h1 := h .new .new
      obtain ⟨-, r, k1, k2⟩ := key .new .new
      rw [k1] at h1
      obtain ⟨t1, e1, -, c1⟩ := Selection.union_ok dbg (Selection.reachable_valid (α := α) .new) vb
      obtain ⟨t2, e2, -, c2⟩ := Selection.union_ok dbg (Selection.reachable_valid (α := α) .new) vc
      rw [e1] at h1; rw [e2] at k2; cases h1; cases k2
      have : b.tree = c.tree := by
        refine valid_ext vb vc fun aft k hk => ?_
        have a1 := c1 aft k
        rw [c2] at a1
        exact a1.symm
      cases b; cases c; simp only at this; rw [this]
    · rintro rfl s hs
      obtain ⟨-, r, k1, k2⟩ := key s hs
      rw [k1, k2]

example : ∃ b c : Selection U8, b.Reachable ∧ b.intervals true = .ok [.point (u8 4)] ∧ (∀ i ∈ [Interval.point (u8 4)], i.Real) ∧
    Selection.fromIntervals true [.point (u8 4)] = .ok c ∧ b ≠ c := by
  have : ∃ b c, (Selection.demo [(u8 0, u8 3), (u8 5, u8 255)]).complement true = .ok b ∧
      b.intervals true = .ok [.point (u8 4)] ∧ Selection.fromIntervals true [.point (u8 4)] = .ok c ∧ b ≠ c :=
    ⟨_, _, rfl, by decide, rfl, by decide⟩
  obtain ⟨b, c, e, h1, h2, h3⟩ := this
  refine ⟨b, c, .complement (Selection.demo_built _ (by decide)).reachable e, h1, fun i hi => ?_, h2, h3⟩
  rw [List.mem_singleton.1 hi]
  exact .inr ⟨u8 4, by decide⟩

/-- And value by value. -/
theorem C126_values (dbg : Bool) (s b : Selection α) (hs : s.Reachable) (hb : b.UnionBuilt)
    (xs : List α) (h : ∀ x, x ∈ b.pts dbg ↔ x ∈ xs) :
    (∃ r, xs.foldlM (fun s x => s.minusInPlace dbg (.point x)) s = .ok r ∧ s.minus dbg b = .ok r) ∧
    ∃ r, xs.foldlM (fun s x => s.unionInPlace dbg (.point x)) s = .ok r ∧ s.union dbg b = .ok r := by
  have := C126_at_once dbg s b hs hb (xs.map .point)
    (fun i hi => by
      obtain ⟨x, -, rfl⟩ := List.mem_map.1 hi
      exact ⟨.point x, .inr ⟨x, by simp [Interval.point, Interval.contains, RawInterval.contains]⟩⟩)
    (fun x => by
      rw [h]
      simp [Interval.pts, Interval.point, Interval.contains, RawInterval.contains])
  rwa [List.foldlM_map, List.foldlM_map] at this

example : (∀ x, x ∈ (Selection.demo [(u8 3, u8 3), (u8 5, u8 5)]).pts true ↔ x ∈ [u8 3, u8 5]) ∧
    (do (← [u8 3, u8 5].foldlM (fun (s : Selection U8) x => s.minusInPlace true (.point x)) (Selection.demo [(u8 0, u8 5)])).intervals true) =
      .ok [.mkClosed (u8 0) (u8 2), .point (u8 4)] := by
  refine ⟨fun x => ?_, by decide⟩
  rw [Selection.demo_mem]
  simp only [List.mem_cons, List.not_mem_nil, or_false, exists_eq_or_imp, exists_eq_left]
  constructor
  · rintro (⟨h, h'⟩ | ⟨h, h'⟩)
    exacts [.inl (le_antisymm h' h), .inr (le_antisymm h' h)]
  · rintro (rfl | rfl)
    exacts [.inl ⟨le_rfl, le_rfl⟩, .inr ⟨le_rfl, le_rfl⟩]

/-- With what complement leaves, taking out a selection and taking out the intervals it lists lead to selections of the
same values that compare unequal, and that the same edit sets apart. -/
theorem C126_counterexample :
    ∃ b s r q : Selection U8, b.Reachable ∧ s.UnionBuilt ∧ b.intervals true = .ok [.point (u8 4)] ∧
      s.minus true b = .ok r ∧ s.minusInPlace true (.point (u8 4)) = .ok q ∧ r ≠ q ∧
      r.intervals true = q.intervals true ∧
      (r.minusInPlace true (.mkClosed (u8 5) (u8 9)) >>= (·.contains true (u8 4))) = .ok true ∧
      (q.minusInPlace true (.mkClosed (u8 5) (u8 9)) >>= (·.contains true (u8 4))) = .ok false := by
  have hb : ∃ b, (Selection.demo [(u8 0, u8 3), (u8 5, u8 255)]).complement true = .ok b ∧
      b.intervals true = .ok [.point (u8 4)] ∧ ∃ r q : Selection U8,
      (Selection.demo [(u8 0, u8 9)]).minus true b = .ok r ∧
      (Selection.demo [(u8 0, u8 9)]).minusInPlace true (.point (u8 4)) = .ok q ∧ r ≠ q ∧
      r.intervals true = q.intervals true ∧
      (r.minusInPlace true (.mkClosed (u8 5) (u8 9)) >>= (·.contains true (u8 4))) = .ok true ∧
      (q.minusInPlace true (.mkClosed (u8 5) (u8 9)) >>= (·.contains true (u8 4))) = .ok false :=
    ⟨_, rfl, by decide, _, _, rfl, rfl, by decide, by decide, by decide, by decide⟩
  obtain ⟨b, e, h1, r, q, h2⟩ := hb
  exact ⟨b, _, r, q, .complement (Selection.demo_built _ (by decide)).reachable e, Selection.demo_built _ (by decide),
    h1, h2⟩

end NI
