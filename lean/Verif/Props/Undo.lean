import Verif.Props.Twice
import Verif.Props.PiecewiseSel

/-! # Taking back what was added, putting back what was removed (C116) -/

namespace NI
open _root_.NI.Finite TT

section Tree
variable {α : Type} [LinearOrder α]

/-- What a tree covers below a point, if it covers what two others do. -/
theorem TT.bef_or {t a b : TineTree α} (h : ∀ k, tcov t true k = (tcov a true k || tcov b true k)) (p : α) :
    bef false t (.fin p) = (bef false a (.fin p) || bef false b (.fin p)) := by
  obtain ⟨k0, h0, h1⟩ := last_below (t ++ (a ++ b)) (k := .fin p) (by simp)
  rw [bef_cov h0 fun x hx => h1 x (by simp [hx]), bef_cov h0 fun x hx => h1 x (by simp [hx]),
    bef_cov h0 fun x hx => h1 x (by simp [hx])]
  exact h k0

theorem TT.tcov_mem {t : TineTree α} (h : Valid t) {aft : Bool} {k : Key α} :
    tcov t aft k = true ↔ ∃ i ∈ pieces none t, icov i aft k = true := by
  rw [tcov, ← (pieces_cov aft k h.1).1 h.2, List.any_eq_true]

theorem TT.clear_iff {a b : TineTree α} (ha : Valid a) (hb : Valid b) :
    (∀ p ∈ pieces none a, ∀ q ∈ pieces none b, p.intersects q = false) ↔
      ∀ aft k, RealPos aft k → (tcov a aft k && tcov b aft k) = false := by
  constructor
  · intro h aft k hr
    rw [Bool.eq_false_iff, ne_eq, Bool.and_eq_true]
    rintro ⟨h1, h2⟩
    obtain ⟨p, hp, h1⟩ := (tcov_mem ha).1 h1
    obtain ⟨q, hq, h2⟩ := (tcov_mem hb).1 h2
    have := h p hp q hq
    rw [RawInterval.intersects, Bool.not_eq_false'] at this
    have e : p.intersect q = .empty := by cases hh : p.intersect q <;> simp [hh, RawInterval.isEmpty] at this ⊢
    have := icov_intersect ((pieces_wf ha.1).1 p hp).1 ((pieces_wf hb.1).1 q hq).1 hr
    rw [e, h1, h2] at this
    exact absurd this (by simp [icov, cov, Tine.fromRawInterval])
  · intro h p hp q hq
    by_contra hn
    rw [Bool.not_eq_false, RawInterval.intersects, Bool.not_eq_true'] at hn
    have ne : p.intersect q ≠ .empty := by rintro e; rw [e] at hn; cases hn
    obtain ⟨aft, k, hr, hk⟩ := icov_some_real ne (RawInterval.intersect_wf p q)
    rw [icov_intersect ((pieces_wf ha.1).1 p hp).1 ((pieces_wf hb.1).1 q hq).1 hr, Bool.and_eq_true] at hk
    have := h aft k hr
    rw [(tcov_mem ha).2 ⟨p, hp, hk.1⟩, (tcov_mem hb).2 ⟨q, hq, hk.2⟩] at this
    cases this

/-- An end of a piece at a point that is not covered is an open end or an open start. -/
theorem TT.end_open {b : TineTree α} (hb : Valid b) {x : α} (hx : tcov b false (.fin x) = false) :
    (∃ i ∈ pieces none b, EndAt i (.fin x)) ↔
      (bef false b (.fin x) = true ∨ tcov b true (.fin x) = true) := by
  have e1 := open_upper_iff hb x
  have e2 := open_lower_iff hb x
  simp only [hx, and_true, true_and] at e1 e2
  rw [← e1, ← e2]
  constructor
  · rintro ⟨i, hi, he⟩
    rw [TT.endAt_iff] at he
    have no : i.contains x = false := by
      rw [← Bool.not_eq_true, ← icov_fin ((pieces_wf hb.1).1 i hi).1]
      intro h
      rw [(tcov_mem hb).2 ⟨i, hi, h⟩] at hx
      cases hx
    have w := ((pieces_wf hb.1).1 i hi).1
    rcases he with ⟨l, h1, h2⟩ | ⟨u, h1, h2⟩
    · right
      refine ⟨i, hi, ?_⟩
      cases i <;> simp only [RawInterval.lowerBound, RawInterval.contains, RawInterval.WF, Option.some.injEq, reduceCtorEq] at h1 no w <;>
        subst h1 <;> simp [Bound.asRef, RawInterval.lowerBound] at h2 ⊢ <;>
        subst h2 <;> simp_all <;> exact absurd no (not_lt.2 w.le)
    · left
      refine ⟨i, hi, ?_⟩
      cases i <;> simp only [RawInterval.upperBound, RawInterval.contains, RawInterval.WF, Option.some.injEq, reduceCtorEq] at h1 no w <;>
        subst h1 <;> simp [Bound.asRef, RawInterval.upperBound] at h2 ⊢ <;>
        subst h2 <;> simp_all <;> exact absurd no (not_lt.2 w.le)
  · rintro (⟨i, hi, h⟩ | ⟨i, hi, h⟩)
    · exact ⟨i, hi, (TT.endAt_iff i x).2 (.inr ⟨_, h, rfl⟩)⟩
    · exact ⟨i, hi, (TT.endAt_iff i x).2 (.inl ⟨_, h, rfl⟩)⟩

/-- Uniting with a tree and removing it again: what was not in it stays, and single missing points next to it come in. -/
theorem TT.add_remove_cov (dbg : Bool) {a b : TineTree α} (ha : Valid a) (hb : Valid b) :
    ∃ t, (do let u ← TineTree.union dbg a b; TineTree.minus dbg u b) = .ok t ∧ Valid t ∧
      (∀ k, tcov t true k = (tcov a true k && !tcov b true k)) ∧
      ∀ x, tcov t false (.fin x) = ((tcov a false (.fin x) && !tcov b false (.fin x)) ||
        ((bef false a (.fin x) || bef false b (.fin x)) && !(tcov a false (.fin x) || tcov b false (.fin x)) &&
          (tcov a true (.fin x) || tcov b true (.fin x)) && (bef false b (.fin x) || tcov b true (.fin x)))) := by
  classical
  obtain ⟨u, e, v, c⟩ := union_ok dbg ha hb
  obtain ⟨t, e2, v2, c2⟩ := minus_eq dbg v hb fun p hp => .inl (by
    rw [c, (tcov_mem hb).2 ⟨_, hp, by rw [icov_pt]; simp⟩, Bool.or_true])
  refine ⟨t, by rw [e]; exact e2, v2, fun k => ?_, fun x => ?_⟩
  · rw [c2, c]
    cases tcov a true k <;> cases tcov b true k <;> simp
  · rw [c2, holeAt, bef_or (fun k => c true k), c, c]
    cases hx : tcov b false (.fin x)
    · have : decide (∃ i ∈ pieces none b, EndAt i (.fin x)) = (bef false b (.fin x) || tcov b true (.fin x)) := by
        rw [Bool.eq_iff_iff, decide_eq_true_eq, end_open hb hx, Bool.or_eq_true]
      rw [this]
      cases tcov a false (.fin x) <;> simp
    · cases tcov a false (.fin x) <;> simp

theorem TT.add_remove (dbg : Bool) {a b : TineTree α} (ha : Valid a) (hb : Valid b) :
    (do let u ← TineTree.union dbg a b; TineTree.minus dbg u b) = .ok a ↔
      (∀ aft k, RealPos aft k → (tcov a aft k && tcov b aft k) = false) ∧
      ∀ x, tcov a false (.fin x) = false → tcov b false (.fin x) = false →
        (bef false a (.fin x) || bef false b (.fin x)) = true → (tcov a true (.fin x) || tcov b true (.fin x)) = true →
        bef false b (.fin x) = false ∧ tcov b true (.fin x) = false := by
  obtain ⟨t, e, v, c1, c2⟩ := add_remove_cov dbg ha hb
  rw [e, Except.ok.injEq]
  constructor
  · rintro rfl
    refine ⟨fun aft k hr => ?_, fun x h1 h2 h3 h4 => ?_⟩
    · cases aft
      · cases k with
        | bot => exact absurd (hr.2 rfl) (by simp)
        | top => exact absurd rfl hr.1
        | fin x =>
          have := c2 x
          revert this
          cases tcov t false (.fin x) <;> cases tcov b false (.fin x) <;> simp
      · have := c1 k
        revert this
        cases tcov t true k <;> cases tcov b true k <;> simp
    · have := c2 x
      rw [h1, h2, h3, h4] at this
      simpa using this
  · rintro ⟨dis, h⟩
    refine valid_ext v ha fun aft k hr => ?_
    change tcov t aft k = tcov a aft k
    have d := dis aft k hr
    cases aft
    · cases k with
      | bot => exact absurd (hr.2 rfl) (by simp)
      | top => exact absurd rfl hr.1
      | fin x =>
        have := h x
        rw [c2]
        revert this d
        cases tcov a false (.fin x) <;> cases tcov b false (.fin x) <;> cases bef false b (.fin x) <;>
          cases tcov b true (.fin x) <;> cases bef false a (.fin x) <;> cases tcov a true (.fin x) <;> simp
    · rw [c1]
      revert d
      cases tcov a true k <;> cases tcov b true k <;> simp

/-- Removing a tree and uniting with it again: single missing points next to it come in. -/
theorem TT.remove_add (dbg : Bool) {a b : TineTree α} (ha : Valid a) (hb : Valid b)
    (h : ∀ aft k, RealPos aft k → tcov b aft k = true → tcov a aft k = true) :
    (do let u ← TineTree.minus dbg a b; TineTree.union dbg u b) = .ok a ↔
      ∀ k, holeAt a k = true → ¬ ∃ i ∈ pieces none b, EndAt i k := by
  classical
  obtain ⟨u, e, v, c⟩ := minus_eq dbg ha hb fun p hp =>
    .inl (h _ _ ⟨by simp, by simp⟩ ((tcov_mem hb).2 ⟨_, hp, by rw [icov_pt]; simp⟩))
  obtain ⟨t, e2, v2, c2⟩ := union_ok dbg v hb
  have : (do let u ← TineTree.minus dbg a b; TineTree.union dbg u b) = .ok t := by rw [e]; exact e2
  rw [this, Except.ok.injEq]
  constructor
  · rintro rfl k hk he
    have := c2 false k
    rw [c, hk] at this
    simp only [Bool.not_false, Bool.true_and, he, decide_true, Bool.or_true, Bool.true_or] at this
    rw [holeAt, this] at hk
    simp at hk
  · intro hh
    refine valid_ext v2 ha fun aft k hr => ?_
    change tcov t aft k = tcov a aft k
    have := h aft k hr
    rw [c2, c]
    have no : (!aft && holeAt a k && decide (∃ i ∈ pieces none b, EndAt i k)) = false := by
      by_contra hn
      simp only [Bool.not_eq_false, Bool.and_eq_true, Bool.not_eq_true', decide_eq_true_eq] at hn
      exact hh k hn.1.2 hn.2
    rw [no]
    revert this
    cases tcov a aft k <;> cases tcov b aft k <;> simp

theorem TT.union_one (dbg : Bool) (t : TineTree α) {i : RawInterval α} (hi : i.WF) (hn : i ≠ .empty) :
    TineTree.union dbg t (Tine.fromRawInterval i) = TineTree.unionInPlace dbg t i := by
  rw [TineTree.union, fold_eq dbg _ (fromRaw_valid hi), pieces_one hi hn, List.foldlM_cons]
  cases TineTree.unionInPlace dbg t i <;> rfl

/-! ## C116 -/

/-- **C116.**  Uniting a tree with another one and removing that one again gives the old tree exactly if the two have no
overlapping intervals, and there is no single missing point between an interval of the one and an interval of the other,
nor between two intervals of the other unless the first tree has it. -/
theorem C116_add_remove_iff (dbg : Bool) (a b : TineTree α) (ha : a.Reachable) (hb : b.Reachable)
    (as bs : List (RawInterval α)) (has : a.intervals dbg = .ok as) (hbs : b.intervals dbg = .ok bs) :
    (do let u ← a.union dbg b; u.minus dbg b) = .ok a ↔
      (∀ p ∈ as, ∀ q ∈ bs, p.intersects q = false) ∧
      ∀ x, ¬ (RawInterval.OpenEnd as x ∧ RawInterval.OpenStart bs x) ∧
        ¬ (RawInterval.OpenEnd bs x ∧ RawInterval.OpenStart as x) ∧
        (RawInterval.Hole bs x → a.contains dbg x = .ok true) := by
  have va := reachable_valid ha
  have vb := reachable_valid hb
  rw [TT.intervals_eq dbg va] at has
  rw [TT.intervals_eq dbg vb] at hbs
  cases has; cases hbs
  rw [TT.add_remove dbg va vb, clear_iff va vb]
  refine and_congr_right fun _ => forall_congr' fun x => ?_
  simp only [RawInterval.Hole, RawInterval.OpenEnd, RawInterval.OpenStart, open_upper_iff va, open_lower_iff va,
    open_upper_iff vb, open_lower_iff vb, TT.contains_iff dbg va]
  generalize bef false a (.fin x) = a1, tcov a false (.fin x) = a2, tcov a true (.fin x) = a3,
    bef false b (.fin x) = b1, tcov b false (.fin x) = b2, tcov b true (.fin x) = b3
  cases a1 <;> cases a2 <;> cases a3 <;> cases b1 <;> cases b2 <;> cases b3 <;> simp

example : TineTree.intervals true (TineTree.demo [.closed (0 : Int) 4, .opn 6 9]) = .ok [.closed 0 4, .opn 6 9] ∧
    TineTree.intervals true (TineTree.demo [.opn (4 : Int) 6, .frm 9]) = .ok [.opn 4 6, .frm 9] ∧
    TineTree.union true (TineTree.demo [.closed (0 : Int) 4, .opn 6 9]) (TineTree.demo [.opn 4 6, .frm 9]) =
      .ok (TineTree.demo [.rightOpen 0 6, .upFrom 6]) ∧
    TineTree.minus true (TineTree.demo [.rightOpen (0 : Int) 6, .upFrom 6]) (TineTree.demo [.opn 4 6, .frm 9]) =
      .ok (TineTree.demo [.closed 0 4, .rightOpen 6 9]) := by decide

/-- **C116.**  The same for one interval: adding it and removing it again gives the old tree exactly if it overlaps no
interval of the tree, and none ends (or starts) openly where it starts (or ends) openly. -/
theorem C116_add_remove_in_place_iff (dbg : Bool) (t : TineTree α) (ht : t.Reachable) (i : RawInterval α) (hi : i.WF)
    (is : List (RawInterval α)) (his : t.intervals dbg = .ok is) :
    (do let u ← t.unionInPlace dbg i; u.minusInPlace dbg i) = .ok t ↔
      (∀ p ∈ is, p.intersects i = false) ∧
      ∀ x, ¬ (i.lowerBound = some (.excl x) ∧ RawInterval.OpenEnd is x) ∧
        ¬ (i.upperBound = some (.excl x) ∧ RawInterval.OpenStart is x) := by
  by_cases h0 : i = .empty
  · subst h0
    have : (do let u ← t.unionInPlace dbg .empty; u.minusInPlace dbg .empty) = .ok t := by
      simp [TineTree.unionInPlace, TineTree.minusInPlace, RawInterval.isFull, RawInterval.isEmpty, bind, Except.bind,
        Tine.fromRawInterval]
    rw [this]
    simp [RawInterval.lowerBound, RawInterval.upperBound, RawInterval.intersects, RawInterval.intersect,
      RawInterval.isEmpty]
  have vi := fromRaw_valid hi
  have := C116_add_remove_iff dbg t (Tine.fromRawInterval i) ht (valid_reachable vi) is [i] his
    (by rw [TT.intervals_eq dbg vi, pieces_one hi h0])
  rw [union_one dbg t hi h0] at this
  simp only [minus_one dbg _ hi h0] at this
  rw [this]
  simp only [List.mem_singleton, forall_eq, RawInterval.Hole, RawInterval.OpenEnd, RawInterval.OpenStart,
    exists_eq_left]
  refine and_congr_right fun _ => forall_congr' fun x => ?_
  have nh : ¬ (i.upperBound = some (.excl x) ∧ i.lowerBound = some (.excl x)) := by
    rintro ⟨h1, h2⟩
    cases i <;> simp_all [RawInterval.upperBound, RawInterval.lowerBound, RawInterval.WF]
  constructor
  · rintro ⟨h1, h2, -⟩
    exact ⟨fun h => h1 h.symm, h2⟩
  · rintro ⟨h1, h2⟩
    exact ⟨fun h => h1 h.symm, h2, fun h => absurd h nh⟩

example : TineTree.intervals true (TineTree.demo [.closed (0 : Int) 4, .closed 8 9]) = .ok [.closed 0 4, .closed 8 9] ∧
    TineTree.unionInPlace true (TineTree.demo [.closed (0 : Int) 4, .closed 8 9]) (.opn 4 7) =
      .ok (TineTree.demo [.rightOpen 0 7, .closed 8 9]) ∧
    TineTree.minusInPlace true (TineTree.demo [.rightOpen (0 : Int) 7, .closed 8 9]) (.opn 4 7) =
      .ok (TineTree.demo [.closed 0 4, .closed 8 9]) := by decide

/-- **C116.**  Removing from a tree another one that lies in it, and uniting with that one again, gives the old tree
exactly if no single missing point of the tree is an end of the other one. -/
theorem C116_remove_add_iff (dbg : Bool) (a b : TineTree α) (ha : a.Reachable) (hb : b.Reachable)
    (as bs : List (RawInterval α)) (has : a.intervals dbg = .ok as) (hbs : b.intervals dbg = .ok bs)
    (hab : ∀ q ∈ bs, ∃ p ∈ as, p.intersect q = q) :
    (do let u ← a.minus dbg b; u.union dbg b) = .ok a ↔
      ∀ x, RawInterval.Hole as x → ∀ q ∈ bs, ¬ q.IsBound x := by
  have va := reachable_valid ha
  have vb := reachable_valid hb
  rw [TT.intervals_eq dbg va] at has
  rw [TT.intervals_eq dbg vb] at hbs
  cases has; cases hbs
  rw [TT.remove_add dbg va vb fun aft k hr hk => by
    obtain ⟨q, hq, hk⟩ := (tcov_mem vb).1 hk
    obtain ⟨p, hp, e⟩ := hab q hq
    rw [← e, icov_intersect ((pieces_wf va.1).1 p hp).1 ((pieces_wf vb.1).1 q hq).1 hr, Bool.and_eq_true] at hk
    exact (tcov_mem va).2 ⟨p, hp, hk.1⟩]
  constructor
  · intro h x hx q hq hb
    exact h (.fin x) ((hole_iff va x).2 hx) ⟨q, hq, (TT.endAt_iff q x).2 hb⟩
  · rintro h k hk ⟨q, hq, he⟩
    cases k with
    | bot => rw [(hole_inf va).1] at hk; cases hk
    | top => rw [(hole_inf va).2] at hk; cases hk
    | fin x => exact h x ((hole_iff va x).1 hk) q hq ((TT.endAt_iff q x).1 he)

example : TineTree.intervals true (TineTree.demo [.opn (0 : Int) 4, .opn 4 9]) = .ok [.opn 0 4, .opn 4 9] ∧
    TineTree.intervals true (TineTree.demo [.opn (5 : Int) 7]) = .ok [.opn 5 7] ∧
    (RawInterval.opn (4 : Int) 9).intersect (.opn 5 7) = .opn 5 7 ∧
    TineTree.minus true (TineTree.demo [.opn (0 : Int) 4, .opn 4 9]) (TineTree.demo [.opn 5 7]) =
      .ok (TineTree.demo [.opn 0 4, .leftOpen 4 5, .rightOpen 7 9]) := by decide

/-- **C116.**  The same for one interval that lies in one of the intervals of the tree. -/
theorem C116_remove_add_in_place_iff (dbg : Bool) (t : TineTree α) (ht : t.Reachable) (i : RawInterval α) (hi : i.WF)
    (is : List (RawInterval α)) (his : t.intervals dbg = .ok is) (p : RawInterval α) (hp : p ∈ is)
    (hpi : p.intersect i = i) :
    (do let u ← t.minusInPlace dbg i; u.unionInPlace dbg i) = .ok t ↔ ∀ x, RawInterval.Hole is x → ¬ i.IsBound x := by
  by_cases h0 : i = .empty
  · subst h0
    have : (do let u ← t.minusInPlace dbg .empty; u.unionInPlace dbg .empty) = .ok t := by
      simp [TineTree.unionInPlace, TineTree.minusInPlace, RawInterval.isFull, RawInterval.isEmpty, bind, Except.bind,
        Tine.fromRawInterval]
    rw [this]
    simp [RawInterval.lowerBound, RawInterval.upperBound, RawInterval.IsBound]
  have vi := fromRaw_valid hi
  have := C116_remove_add_iff dbg t (Tine.fromRawInterval i) ht (valid_reachable vi) is [i] his
    (by rw [TT.intervals_eq dbg vi, pieces_one hi h0]) (by simpa using ⟨p, hp, hpi⟩)
  rw [minus_one dbg t hi h0] at this
  simp only [union_one dbg _ hi h0] at this
  rw [this]
  simp

example : TineTree.intervals true (TineTree.demo [.opn (0 : Int) 4, .opn 4 9]) = .ok [.opn 0 4, .opn 4 9] ∧
    (RawInterval.opn (4 : Int) 9).intersect (.opn 4 7) = .opn 4 7 ∧
    (do let u ← TineTree.minusInPlace true (TineTree.demo [.opn (0 : Int) 4, .opn 4 9]) (.opn 4 7)
        TineTree.unionInPlace true u (.opn 4 7)) = .ok (TineTree.demo [.opn 0 9]) := by decide

end Tree

section Sel
variable {α : Type} [LinearOrder α] [Finite α] [LawfulFinite α]

omit [LawfulFinite α] in
/-- Trees of selections overlap exactly at equal and neighbouring values. -/
theorem TT.do_clear {a b : TineTree α} (ha : DO a) (hb : DO b) :
    (∀ aft k, RealPos aft k → (tcov a aft k && tcov b aft k) = false) ↔
      ∀ x y, at' a x = true → at' b y = true → x ≠ y ∧ succ x ≠ some y ∧ succ y ≠ some x := by
  constructor
  · intro h x y hx hy
    refine ⟨?_, fun hs => ?_, fun hs => ?_⟩
    · rintro rfl
      have := h false (.fin x) ⟨by simp, by simp⟩
      rw [show tcov a false (.fin x) = true from hx, show tcov b false (.fin x) = true from hy] at this
      cases this
    · have := h true (.fin x) ⟨by simp, by simp⟩
      rw [ha.1, hb.1, hx, hs] at this
      simp [hy] at this
    · have := h true (.fin y) ⟨by simp, by simp⟩
      rw [ha.1, hb.1, hy, hs] at this
      simp [hx] at this
  · intro h aft k hr
    by_contra hn
    rw [Bool.not_eq_false, Bool.and_eq_true] at hn
    cases aft
    · cases k with
      | bot => exact absurd (hr.2 rfl) (by simp)
      | top => exact absurd rfl hr.1
      | fin x => exact (h x x hn.1 hn.2).1 rfl
    · cases k with
      | bot => rw [ha.2, hb.2] at hn; exact (h _ _ hn.1 hn.2).1 rfl
      | top => exact absurd rfl hr.1
      | fin x =>
        rw [ha.1, hb.1, Bool.or_eq_true, Bool.or_eq_true] at hn
        cases hs : succ x with
        | none =>
          rw [hs] at hn
          simp only [Option.elim_none, Bool.false_eq_true, or_false] at hn
          exact (h x x hn.1 hn.2).1 rfl
        | some y =>
          rw [hs] at hn
          simp only [Option.elim_some] at hn
          rcases hn with ⟨h1 | h1, h2 | h2⟩
          · exact (h x x h1 h2).1 rfl
          · exact (h x y h1 h2).2.1 hs
          · exact (h y x h1 h2).2.2 hs
          · exact (h y y h1 h2).1 rfl

/-- **C116.**  Uniting with a selection and removing it again: the points are the old ones exactly if there is no common
point, and no single missing value of the union lies next to the selection. -/
theorem C116_selection_points_iff (dbg : Bool) (a b : Selection α) (ha : a.UnionBuilt) (hb : b.UnionBuilt) :
    ∃ s, (do let u ← a.union dbg b; u.minus dbg b) = .ok s ∧ s.Reachable ∧
      (s.pts dbg = a.pts dbg ↔ (∀ x ∈ a.pts dbg, x ∉ b.pts dbg) ∧
        ∀ p x q, succ p = some x → succ x = some q → p ∈ a.pts dbg ∪ b.pts dbg → q ∈ a.pts dbg ∪ b.pts dbg →
          x ∉ a.pts dbg ∪ b.pts dbg → p ∉ b.pts dbg ∧ q ∉ b.pts dbg) := by
  have va := Selection.reachable_valid ha.reachable
  have vb := Selection.reachable_valid hb.reachable
  have da := ha.do
  have db := hb.do
  obtain ⟨t, e, v, -, c⟩ := add_remove_cov dbg va vb
  obtain ⟨u, eu, -⟩ := union_ok dbg va vb
  rw [eu] at e
  have e : TineTree.minus dbg u b.tree = .ok t := e
  have e1 : a.union dbg b = .ok ⟨u⟩ := by rw [Selection.union, eu]; rfl
  have e2 : Selection.minus dbg ⟨u⟩ b = .ok ⟨t⟩ := by rw [Selection.minus, e]; rfl
  refine ⟨⟨t⟩, by rw [e1]; exact e2, .minus (.union ha.reachable hb.reachable e1) hb.reachable e2 (valid_reachable v), ?_⟩
  have mt := Selection.mem_pts dbg (s := ⟨t⟩) v
  have ma := Selection.mem_pts dbg va
  have mb := Selection.mem_pts dbg vb
  simp only [Set.ext_iff, mt, ma, mb, Set.mem_union]
  simp only [at'] at *
  simp only [c]
  constructor
  · intro h
    refine ⟨fun x h1 h2 => ?_, fun p x q hp hq h1 h2 h3 => ?_⟩
    · have := (h x).2 h1
      rw [h1, h2] at this
      simp at this
    · have := h x
      rw [not_or, Bool.not_eq_true, Bool.not_eq_true] at h3
      rw [da.bef, db.bef, da.1, db.1, pred_of_succ hp, hq] at this
      simp only [at', h3.1, h3.2, Option.elim_some, Bool.false_or] at this
      simpa [h1, h2] using this
  · rintro ⟨h1, h2⟩ x
    rw [da.bef, db.bef, da.1, db.1]
    simp only [at']
    have h1 := h1 x
    cases hax : tcov a.tree false (.fin x)
    · cases hbx : tcov b.tree false (.fin x)
      · cases hp : pred x with
        | none => simp
        | some p =>
          cases hq : succ x with
          | none => simp
          | some q =>
            have := h2 p x q (succ_of_pred hp) hq
            rw [hax, hbx] at this
            simp only [Option.elim_some, at']
            generalize tcov a.tree false (.fin p) = a1, tcov b.tree false (.fin p) = b1,
              tcov a.tree false (.fin q) = a2, tcov b.tree false (.fin q) = b2 at this ⊢
            clear * - this
            cases a1 <;> cases b1 <;> cases a2 <;> cases b2 <;> simp_all
      · simp
    · rw [hax] at h1
      simp only [forall_const, Bool.not_eq_true] at h1
      simp [h1]

example : (Selection.demo [(u8 1, u8 3)]).UnionBuilt ∧ (Selection.demo [(u8 4, u8 5)]).UnionBuilt ∧
    (do Selection.intervals true (← (← (Selection.demo [(u8 1, u8 3)]).union true (Selection.demo [(u8 4, u8 5)])).minus true
      (Selection.demo [(u8 4, u8 5)]))) = .ok [.mkClosed (u8 1) (u8 3)] :=
  ⟨Selection.demo_built _ (by decide), Selection.demo_built _ (by decide), by decide⟩

/-- **C116.**  It is the old selection, as equality `==`, exactly if at least two values lie between every point of the
one and every point of the other, and no single value is missing in the other. -/
theorem C116_selection_add_remove_iff (dbg : Bool) (a b : Selection α) (ha : a.UnionBuilt) (hb : b.UnionBuilt) :
    (do let u ← a.union dbg b; u.minus dbg b) = .ok a ↔
      (∀ x ∈ a.pts dbg, ∀ y ∈ b.pts dbg, x ≠ y ∧ succ x ≠ some y ∧ succ y ≠ some x ∧
        ∀ z, ¬ (succ x = some z ∧ succ z = some y) ∧ ¬ (succ y = some z ∧ succ z = some x)) ∧
      ¬ OneMissing (b.pts dbg) := by
  have va := Selection.reachable_valid ha.reachable
  have vb := Selection.reachable_valid hb.reachable
  have da := ha.do
  have db := hb.do
  obtain ⟨u, eu, -⟩ := union_ok dbg va vb
  have key : (do let u ← a.union dbg b; u.minus dbg b) = .ok a ↔
      (do let u ← TineTree.union dbg a.tree b.tree; TineTree.minus dbg u b.tree) = .ok a.tree := by
    rcases a with ⟨a⟩
    simp only [Selection.union, Selection.minus, eu, bind, Except.bind]
    cases TineTree.minus dbg u b.tree <;> simp
  have ma := Selection.mem_pts dbg va
  have mb := Selection.mem_pts dbg vb
  rw [key, add_remove dbg va vb, do_clear da db]
  simp only [OneMissing, ma, mb, da.bef, db.bef, da.1, db.1]
  simp only [at']
  constructor
  · rintro ⟨h1, h2⟩
    have fa : ∀ {x y}, succ x = some y ∨ succ y = some x → tcov b.tree false (.fin y) = true →
        tcov a.tree false (.fin x) = false := fun hs hy => by
      by_contra hx
      rw [Bool.not_eq_false] at hx
      rcases hs with hs | hs
      · exact (h1 _ _ hx hy).2.1 hs
      · exact (h1 _ _ hx hy).2.2 hs
    have fb : ∀ {x y}, succ x = some y ∨ succ y = some x → tcov a.tree false (.fin y) = true →
        tcov b.tree false (.fin x) = false := fun hs hy => by
      by_contra hx
      rw [Bool.not_eq_false] at hx
      rcases hs with hs | hs
      · exact (h1 _ _ hy hx).2.2 hs
      · exact (h1 _ _ hy hx).2.1 hs
    refine ⟨fun x hx y hy => ⟨(h1 x y hx hy).1, (h1 x y hx hy).2.1, (h1 x y hx hy).2.2, fun z => ⟨?_, ?_⟩⟩, ?_⟩
    · rintro ⟨hs, hs'⟩
      have := h2 z (fa (.inl hs') hy) (fb (.inr hs) hx) (by rw [pred_of_succ hs]; simp [hx]) (by rw [hs']; simp [hy])
      rw [hs'] at this
      simp [hy] at this
    · rintro ⟨hs, hs'⟩
      have := h2 z (fa (.inr hs) hy) (fb (.inl hs') hx) (by rw [pred_of_succ hs]; simp [hy]) (by rw [hs']; simp [hx])
      rw [pred_of_succ hs] at this
      simp [hy] at this
    · rintro ⟨p, x, q, hp, hq, h3, h4, h5⟩
      rw [Bool.not_eq_true] at h5
      have := h2 x (fa (.inl hq) h4) h5 (by rw [hp]; simp [h3]) (by rw [hq]; simp [h4])
      rw [hp] at this
      simp [h3] at this
  · rintro ⟨h1, h2⟩
    refine ⟨fun x y hx hy => ⟨(h1 x hx y hy).1, (h1 x hx y hy).2.1, (h1 x hx y hy).2.2.1⟩, fun x h3 h4 h5 h6 => ?_⟩
    rw [h3, h4] at h5 h6
    rw [h4]
    simp only [Bool.false_or] at h5 h6 ⊢
    cases hp : pred x with
    | none => rw [hp] at h5; simp at h5
    | some p =>
      cases hq : succ x with
      | none => rw [hq] at h6; simp at h6
      | some q =>
        rw [hp] at h5
        rw [hq] at h6
        simp only [Option.elim_some, at'] at h5 h6 ⊢
        have hp' := succ_of_pred hp
        have g1 : tcov a.tree false (.fin p) = true → tcov b.tree false (.fin q) = true → False := fun k1 k2 =>
          ((h1 p k1 q k2).2.2.2 x).1 ⟨hp', hq⟩
        have g2 : tcov a.tree false (.fin q) = true → tcov b.tree false (.fin p) = true → False := fun k1 k2 =>
          ((h1 q k1 p k2).2.2.2 x).2 ⟨hp', hq⟩
        have g3 : tcov b.tree false (.fin p) = true → tcov b.tree false (.fin q) = true → False := fun k1 k2 =>
          h2 ⟨p, x, q, hp, hq, k1, k2, by rw [h4]; simp⟩
        revert h5 h6 g1 g2 g3
        cases tcov a.tree false (.fin p) <;> cases tcov b.tree false (.fin p) <;>
          cases tcov a.tree false (.fin q) <;> cases tcov b.tree false (.fin q) <;> simp

example : (Selection.demo [(u8 1, u8 3), (u8 9, u8 9)]).UnionBuilt ∧ (Selection.demo [(u8 6, u8 6)]).UnionBuilt ∧
    (do let u ← (Selection.demo [(u8 1, u8 3), (u8 9, u8 9)]).union true (Selection.demo [(u8 6, u8 6)])
        u.minus true (Selection.demo [(u8 6, u8 6)])) = .ok (Selection.demo [(u8 1, u8 3), (u8 9, u8 9)]) :=
  ⟨Selection.demo_built _ (by decide), Selection.demo_built _ (by decide), by decide⟩

/-- **C116.**  Removing a selection and uniting with it again gives the old selection, as equality `==`, exactly if it lies
in the old one and no single missing value of the old one is next to it. -/
theorem C116_selection_remove_add_iff (dbg : Bool) (a b : Selection α) (ha : a.UnionBuilt) (hb : b.UnionBuilt) :
    (do let u ← a.minus dbg b; u.union dbg b) = .ok a ↔
      b.pts dbg ⊆ a.pts dbg ∧
      ∀ p x q, succ p = some x → succ x = some q → p ∈ a.pts dbg → q ∈ a.pts dbg → x ∉ a.pts dbg →
        p ∉ b.pts dbg ∧ q ∉ b.pts dbg := by
  have va := Selection.reachable_valid ha.reachable
  have vb := Selection.reachable_valid hb.reachable
  have da := ha.do
  have db := hb.do
  have ma := Selection.mem_pts dbg va
  have mb := Selection.mem_pts dbg vb
  have key : (do let u ← a.minus dbg b; u.union dbg b) = .ok a ↔
      (do let u ← TineTree.minus dbg a.tree b.tree; TineTree.union dbg u b.tree) = .ok a.tree := by
    rcases a with ⟨a⟩
    simp only [Selection.union, Selection.minus, bind, Except.bind]
    cases TineTree.minus dbg a b.tree with
    | error e => simp
    | ok u =>
      simp only
      cases TineTree.union dbg u b.tree <;> simp
  by_cases hsub : b.pts dbg ⊆ a.pts dbg
  · have hs : ∀ x, at' b.tree x = true → at' a.tree x = true := fun x hx => (ma x).1 (hsub ((mb x).2 hx))
    rw [key, remove_add dbg va vb fun aft k hr hk => ?_]
    · simp only [hsub, true_and, ma, mb]
      constructor
      · intro h p x q hp hq h1 h2 h3
        have hx : holeAt a.tree (.fin x) = true := by
          rw [da.hole, pred_of_succ hp, hq]
          simp [h1, h2, h3]
        have bx : tcov b.tree false (.fin x) = false := by
          by_contra hn
          exact h3 (hs x (by simpa using hn))
        have := h _ hx
        rw [end_open vb bx, db.bef, db.1, pred_of_succ hp, hq] at this
        simp only [Option.elim_some, at', bx] at this ⊢
        simpa using this
      · rintro h k hk
        cases k with
        | bot => rw [(hole_inf va).1] at hk; cases hk
        | top => rw [(hole_inf va).2] at hk; cases hk
        | fin x =>
          rw [da.hole] at hk
          simp only [Bool.and_eq_true, Bool.not_eq_true'] at hk
          obtain ⟨⟨h1, h2⟩, h3⟩ := hk
          have bx : tcov b.tree false (.fin x) = false := by
            by_contra hn
            have := hs x (by simpa using hn)
            rw [h1] at this; cases this
          rw [end_open vb bx, db.bef, db.1]
          cases hp : pred x with
          | none => rw [hp] at h2; simp at h2
          | some p =>
            cases hq : succ x with
            | none => rw [hq] at h3; simp at h3
            | some q =>
              rw [hp] at h2
              rw [hq] at h3
              have := h p x q (succ_of_pred hp) hq h2 h3 (by rw [h1]; simp)
              simp only [Option.elim_some, at', bx] at this ⊢
              simpa using this
    · cases aft
      · cases k with
        | bot => exact absurd (hr.2 rfl) (by simp)
        | top => exact absurd rfl hr.1
        | fin x => exact hs x hk
      · cases k with
        | bot => rw [db.2] at hk; rw [da.2]; exact hs _ hk
        | top => exact absurd rfl hr.1
        | fin x =>
          rw [db.1] at hk
          rw [da.1]
          cases hq : succ x with
          | none =>
            rw [hq] at hk
            simp only [Option.elim_none, Bool.or_false] at hk ⊢
            exact hs x hk
          | some q =>
            rw [hq] at hk
            simp only [Option.elim_some, Bool.or_eq_true] at hk ⊢
            exact hk.imp (hs x) (hs q)
  · refine ⟨fun h => absurd ?_ hsub, fun h => absurd h.1 hsub⟩
    cases e : a.minus dbg b with
    | error p => rw [e] at h; cases h
    | ok u =>
      rw [e] at h
      have h : u.union dbg b = .ok a := h
      obtain ⟨s, e1, v1, -⟩ := Selection.minusOpen_exact dbg va vb hb.do
      rw [e, Except.ok.injEq] at e1
      subst e1
      obtain ⟨t, e2, v2, c2⟩ := union_ok dbg v1 vb
      have e3 : u.union dbg b = .ok ⟨t⟩ := by rw [Selection.union, e2]; rfl
      rw [h, Except.ok.injEq] at e3
      subst e3
      intro x hx
      rw [ma, at', c2, show tcov b.tree false (.fin x) = true from (mb x).1 hx, Bool.or_true]

example : (Selection.demo [(u8 1, u8 9), (u8 11, u8 12)]).UnionBuilt ∧ (Selection.demo [(u8 3, u8 4), (u8 6, u8 6)]).UnionBuilt ∧
    (do let u ← (Selection.demo [(u8 1, u8 9), (u8 11, u8 12)]).minus true (Selection.demo [(u8 3, u8 4), (u8 6, u8 6)])
        u.union true (Selection.demo [(u8 3, u8 4), (u8 6, u8 6)])) = .ok (Selection.demo [(u8 1, u8 9), (u8 11, u8 12)]) :=
  ⟨Selection.demo_built _ (by decide), Selection.demo_built _ (by decide), by decide⟩

/-- For one interval the operations in place are those on a selection made of it. -/
theorem Selection.in_place_eq (dbg : Bool) (s : Selection α) {i : Interval α} (hi : i.Obtainable) :
    s.unionInPlace dbg i = s.union dbg (.ofInterval i) ∧ s.minusInPlace dbg i = s.minus dbg (.ofInterval i) := by
  have hw := RawInterval.denorm_wf (Interval.obtainable_nf hi)
  have ht : (Selection.ofInterval i).tree = Tine.fromRawInterval i.raw.denormalized := tree_fromRaw hw
  rw [Selection.unionInPlace, Selection.minusInPlace, Selection.union, Selection.minus, ht]
  by_cases h0 : i.raw.denormalized = .empty
  · rw [h0]
    have h1 : TineTree.unionInPlace dbg s.tree .empty = .ok s.tree := by
      simp [TineTree.unionInPlace, RawInterval.isFull, RawInterval.isEmpty, Tine.fromRawInterval]
    have h2 : TineTree.minusInPlace dbg s.tree .empty = .ok s.tree := by
      simp [TineTree.minusInPlace, RawInterval.isFull, RawInterval.isEmpty, Tine.fromRawInterval]
    rw [h1, h2]
    exact ⟨rfl, rfl⟩
  · rw [union_one dbg _ hw h0, minus_one dbg _ hw h0]
    exact ⟨rfl, rfl⟩

theorem Selection.ofInterval_pts (dbg : Bool) {i : Interval α} (hi : i.Obtainable) :
    (Selection.ofInterval i).pts dbg = i.pts := by
  have hw := RawInterval.denorm_wf (Interval.obtainable_nf hi)
  have v := Selection.reachable_valid (Selection.Reachable.ofInterval hi)
  ext x
  rw [Selection.mem_pts dbg v, ← Interval.denorm_pts hi, ← RawInterval.contains_iff, ← icov_fin hw]
  have ht : (Selection.ofInterval i).tree = Tine.fromRawInterval i.raw.denormalized := tree_fromRaw hw
  rw [at', ht]
  rfl

/-- **C116.**  Adding an interval and removing it again gives the old selection, as equality `==`, exactly if at least two
values lie between every point of the interval and every point of the selection. -/
theorem C116_selection_add_remove_in_place_iff (dbg : Bool) (s : Selection α) (hs : s.UnionBuilt) (i : Interval α)
    (hi : i.Obtainable) (hr : i.Real) :
    (do let u ← s.unionInPlace dbg i; u.minusInPlace dbg i) = .ok s ↔
      ∀ x ∈ s.pts dbg, ∀ y ∈ i.pts, x ≠ y ∧ succ x ≠ some y ∧ succ y ≠ some x ∧
        ∀ z, ¬ (succ x = some z ∧ succ z = some y) ∧ ¬ (succ y = some z ∧ succ z = some x) := by
  have := C116_selection_add_remove_iff dbg s (.ofInterval i) hs (.ofInterval hi hr)
  simp only [(Selection.in_place_eq dbg _ hi).1, (Selection.in_place_eq dbg _ hi).2]
  rw [this, Selection.ofInterval_pts dbg hi, and_iff_left]
  rintro ⟨p, x, q, hp, hq, h1, h2, h3⟩
  refine h3 ?_
  have k1 := (LawfulFinite.pred_some x p hp).1
  have k2 := (LawfulFinite.succ_some x q hq).1
  rcases Interval.obtainable_cases hi with rfl | ⟨c, rfl⟩ | ⟨l, u, rfl, h⟩
  · cases h1
  · simp only [Interval.pts, Interval.contains, RawInterval.contains, Set.mem_ofPred_eq, decide_eq_true_eq] at h1 h2
    subst h1 h2
    exact absurd (k1.trans k2) (lt_irrefl _)
  · simp only [Interval.pts, Interval.contains, RawInterval.contains, Set.mem_ofPred_eq, decide_eq_true_eq,
      Bool.and_eq_true] at h1 h2 ⊢
    exact ⟨h1.1.trans k1.le, k2.le.trans h2.2⟩

example : (Selection.demo [(u8 1, u8 3), (u8 20, u8 30)]).UnionBuilt ∧ (Interval.mkClosed (u8 6) (u8 17)).Real ∧
    (do let u ← (Selection.demo [(u8 1, u8 3), (u8 20, u8 30)]).unionInPlace true (.mkClosed (u8 6) (u8 17))
        u.minusInPlace true (.mkClosed (u8 6) (u8 17))) = .ok (Selection.demo [(u8 1, u8 3), (u8 20, u8 30)]) :=
  ⟨Selection.demo_built _ (by decide), Interval.closed_real (by decide), by decide⟩

/-- **C116.**  Removing an interval and adding it again gives the old selection, as equality `==`, exactly if all its
points are in the selection and no single missing value of the selection is next to it. -/
theorem C116_selection_remove_add_in_place_iff (dbg : Bool) (s : Selection α) (hs : s.UnionBuilt) (i : Interval α)
    (hi : i.Obtainable) (hr : i.Real) :
    (do let u ← s.minusInPlace dbg i; u.unionInPlace dbg i) = .ok s ↔
      i.pts ⊆ s.pts dbg ∧
      ∀ p x q, succ p = some x → succ x = some q → p ∈ s.pts dbg → q ∈ s.pts dbg → x ∉ s.pts dbg →
        p ∉ i.pts ∧ q ∉ i.pts := by
  have := C116_selection_remove_add_iff dbg s (.ofInterval i) hs (.ofInterval hi hr)
  simp only [(Selection.in_place_eq dbg _ hi).1, (Selection.in_place_eq dbg _ hi).2]
  rw [this, Selection.ofInterval_pts dbg hi]

example : (Selection.demo [(u8 1, u8 9)]).UnionBuilt ∧ (Interval.mkClosed (u8 2) (u8 9)).Real ∧
    (do let u ← (Selection.demo [(u8 1, u8 9)]).minusInPlace true (.mkClosed (u8 2) (u8 9))
        u.unionInPlace true (.mkClosed (u8 2) (u8 9))) = .ok (Selection.demo [(u8 1, u8 9)]) :=
  ⟨Selection.demo_built _ (by decide), Interval.closed_real (by decide), by decide⟩

/-- **C116.**  Things that have nothing in common: adding `[4,5]` to `[1,3]` and removing it again does not give an equal
selection, adding `[5,6]` and removing it again leaves 4 in it; and removing `[5,6]` from `[1,3]` with `[5,9]` and adding
it again leaves 4 in it. -/
theorem C116_counterexample : ∃ a b : Selection U8, a.UnionBuilt ∧ b.UnionBuilt ∧ ∀ dbg,
    (∃ s, (do let u ← a.unionInPlace dbg (.mkClosed (u8 4) (u8 5)); u.minusInPlace dbg (.mkClosed (u8 4) (u8 5))) = .ok s ∧
      s ≠ a ∧ s.intervals dbg = a.intervals dbg) ∧
    (∃ s, (do let u ← a.unionInPlace dbg (.mkClosed (u8 5) (u8 6)); u.minusInPlace dbg (.mkClosed (u8 5) (u8 6))) = .ok s ∧
      a.contains dbg (u8 4) = .ok false ∧ s.contains dbg (u8 4) = .ok true) ∧
    ∃ s, (do let u ← b.minusInPlace dbg (.mkClosed (u8 5) (u8 6)); u.unionInPlace dbg (.mkClosed (u8 5) (u8 6))) = .ok s ∧
      b.contains dbg (u8 4) = .ok false ∧ s.contains dbg (u8 4) = .ok true :=
  ⟨Selection.demo [(u8 1, u8 3)], Selection.demo [(u8 1, u8 3), (u8 5, u8 9)], Selection.demo_built _ (by decide),
    Selection.demo_built _ (by decide), fun dbg => by
      cases dbg <;> exact ⟨⟨_, rfl, by decide, by decide⟩, ⟨_, rfl, by decide, by decide⟩, _, rfl, by decide, by decide⟩⟩

end Sel
end NI
