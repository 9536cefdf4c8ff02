import Verif.Props.Stream

/-! # When putting a stream together in place is right (C132) -/

namespace NI
open _root_.NI.Finite TT
variable {α : Type} [LinearOrder α] [Finite α] [LawfulFinite α]

theorem Selection.ic_next {i : Interval α} (ho : i.Obtainable) (hr : i.Real) (x : α) :
    Selection.ic i true (.fin x) = true ↔ x ∈ i.pts ∨ ∃ y, succ x = some y ∧ y ∈ i.pts := by
  have h1 : TT.DO (Tine.fromRawInterval i.raw.denormalized) := by
    rw [← Selection.ofInterval_tree ho]
    exact Selection.UnionBuilt.do (.ofInterval ho hr)
  have h2 : ∀ y, TT.at' (Tine.fromRawInterval i.raw.denormalized) y = true ↔ y ∈ i.pts :=
    fun y => Bool.eq_iff_iff.1 (Selection.ic_fin ho y)
  have h3 : Selection.ic i true (.fin x) = _ := h1.1 x
  rw [h3, Bool.or_eq_true, h2]
  cases succ x <;> simp [h2]

/-- The tree goes on from `x` to the next value if one of the two is in. -/
def Selection.Joined (dbg : Bool) (s : Selection α) (x : α) : Prop :=
  tcov s.tree true (.fin x) = true ↔ x ∈ s.pts dbg ∨ ∃ y, succ x = some y ∧ y ∈ s.pts dbg

/-- Adding a segment. -/
theorem Selection.put_joined (dbg : Bool) (s : Selection α) (hs : s.Edited) (l u : α) (s' : Selection α)
    (e : s.unionInPlace dbg (.mkClosed l u) = .ok s') (x : α)
    (hj : s.Joined dbg x ∨ (x ∈ Set.Icc l u ∨ ∃ y, succ x = some y ∧ y ∈ Set.Icc l u)) : s'.Joined dbg x := by
  have v := Selection.reachable_valid hs.reachable_crisp.1
  obtain ⟨s1, e1, -, c⟩ := Selection.unionInPlace_ok dbg v (.mkClosed l u)
  rw [e] at e1; cases e1
  obtain ⟨s2, e2, -, p⟩ := s.put_segment dbg l u hs
  rw [e] at e2; cases e2
  rw [Selection.Joined, c, Bool.or_eq_true, Selection.ic_next (.mkClosed l u) (Interval.segment_real l u), p, Interval.closed_pts]
  simp only [Set.mem_union]
  rcases hj with hj | hj
  · rw [Selection.Joined] at hj
    rw [hj]
    constructor
    · rintro ((h | ⟨y, h, h'⟩) | h | ⟨y, h, h'⟩)
      exacts [.inl (.inl h), .inr ⟨y, h, .inl h'⟩, .inl (.inr h), .inr ⟨y, h, .inr h'⟩]
    · rintro ((h | h) | ⟨y, h, h' | h'⟩)
      exacts [.inl (.inl h), .inr (.inl h), .inl (.inr ⟨y, h, h'⟩), .inr (.inr ⟨y, h, h'⟩)]
  · refine ⟨fun _ => ?_, fun _ => .inr hj⟩
    rcases hj with h | ⟨y, h, h'⟩
    exacts [.inl (.inr h), .inr ⟨y, h, .inr h'⟩]

/-- A value missing alone where the tree goes on to it from both sides. -/
theorem Selection.pinhole_of_joined (dbg : Bool) (s : Selection α) (hs : s.Edited) (hj : ∀ x, s.Joined dbg x) (x : α) :
    s.Pinhole dbg x ↔ MissingAlone (s.pts dbg) x := by
  refine ⟨Selection.edited_pinhole dbg hs, ?_⟩
  rintro ⟨h, ⟨a, ha, ea⟩, b, hb, eb⟩
  have v := Selection.reachable_valid hs.reachable_crisp.1
  rw [Selection.pinhole_iff dbg v, holeAt, bef_pred ea]
  simp only [Bool.and_eq_true, Bool.not_eq_true']
  refine ⟨⟨(hj a).2 (.inl ha), ?_⟩, (hj x).2 (.inr ⟨b, eb, hb⟩)⟩
  rw [Selection.mem_pts dbg v] at h
  exact Bool.eq_false_iff.2 h

omit [LawfulFinite α] in
theorem FilledAtOnce.cons_iff (R : Set α) (c : α × α) (cs : List (α × α)) :
    FilledAtOnce R (c :: cs) ↔ (∀ d, cs[0]? = some d → ∀ x p q, pred x = some p → succ x = some q →
      x ∉ R ∪ Set.Icc c.1 c.2 → p ∈ Ready (R ∪ Set.Icc c.1 c.2) → p ∉ Ready R → q ∈ R ∪ Set.Icc c.1 c.2 →
      x ∈ Set.Icc d.1 d.2) ∧ FilledAtOnce (R ∪ Set.Icc c.1 c.2) cs := by
  constructor
  · intro h
    refine ⟨fun d hd => ?_, fun k d hd => ?_⟩
    · have := h 0 d (by simpa using hd)
      rw [List.take_succ_cons, received_cons, List.take_zero, List.take_zero, received_nil, received_nil] at this
      exact this
    · have := h (k + 1) d (by simpa using hd)
      rw [List.take_succ_cons, received_cons, List.take_succ_cons, received_cons] at this
      exact this
  · rintro ⟨h0, h⟩ k d hd
    cases k with
    | zero =>
      rw [List.take_succ_cons, received_cons, List.take_zero, List.take_zero, received_nil, received_nil]
      exact h0 d (by simpa using hd)
    | succ k =>
      rw [List.take_succ_cons, received_cons, List.take_succ_cons, received_cons]
      exact h k d (by simpa using hd)

/-- The state of the receiver: `h` says that the value waited for is in though it has not come. -/
structure Selection.Waiting (dbg : Bool) (R : Set α) (p : Selection α) (n : Option α) (h : Prop) : Prop where
  edited : p.Edited
  ready : Ready R = Done n
  pts : ∀ x, x ∈ p.pts dbg ↔ (x ∈ R ∧ x ∉ Done n) ∨ (h ∧ n = some x)
  joined : ∀ x, ¬ (h ∧ ∃ y, n = some y ∧ succ x = some y) → p.Joined dbg x

/-- Taking out. -/
theorem Selection.Waiting.out (dbg : Bool) {R : Set α} {p : Selection α} {i : Interval α} (ho : i.Obtainable)
    (hreal : i.Real) {n u : α} (hi : i.pts = Set.Icc n u) (hp : p.Edited) (hnu : n ≤ u)
    (hpts : ∀ x, x ∈ p.pts dbg ↔ x ∈ R ∧ n ≤ x) (hj : ∀ x, p.Joined dbg x) (hlt : ∀ y < n, y ∈ R)
    (hsub : Set.Icc n u ⊆ R) (hq : ∀ q, succ u = some q → q ∉ R) :
    ∃ p', p.minusInPlace dbg i = .ok p' ∧
      p'.Waiting dbg R (succ u) (∃ x q, succ u = some x ∧ succ x = some q ∧ q ∈ R) := by
  have v := Selection.reachable_valid hp.reachable_crisp.1
  have hr := Ready.next hlt hsub hq
  obtain ⟨p', e, -, k⟩ := C50_formula_any dbg p hp.reachable_crisp.1 i ho
  obtain ⟨p1, e1, -, c⟩ := Selection.minusInPlace_ok dbg v ho
  rw [e] at e1; cases e1
  obtain ⟨b1, b2⟩ : i.lowerBound = some (.incl n) ∧
      i.upperBound = some (.incl u) := by
    rcases Interval.single' ho hreal with h | ⟨l', u', -, b3, -, -, -, b1, b2⟩
    · have : n ∈ i.pts := hi ▸ ⟨le_rfl, hnu⟩
      rw [h] at this
      exact absurd this (by simp [Interval.pts, Interval.contains, RawInterval.contains])
    · rw [hi] at b3
      obtain ⟨rfl, rfl⟩ := (Set.Icc_eq_Icc_iff hnu).1 b3
      exact ⟨b1, b2⟩
  have hpts' : ∀ x, x ∈ p'.pts dbg ↔ (x ∈ R ∧ x ∉ Done (succ u)) ∨
      ((∃ x q, succ u = some x ∧ succ x = some q ∧ q ∈ R) ∧ succ u = some x) := by
    intro x
    rw [k, b1, b2, Selection.pinhole_of_joined dbg p hp hj, hpts, hi, Done.succ hnu]
    refine or_congr ?_ ?_
    · simp only [Set.mem_Icc, Set.mem_union, Set.mem_Iio, not_or, not_lt]; tauto
    · constructor
      · rintro ⟨⟨h0, ⟨a, ha, ea⟩, b, hb, eb⟩, ⟨l, hl, hx⟩ | ⟨w, hw, hx⟩⟩
        · cases hl
          rw [hpts] at ha
          exact absurd (((LawfulFinite.pred_some x a ea).1.trans (LawfulFinite.pred_some _ _ hx).1)) (not_lt.2 ha.2)
        · cases hw
          exact ⟨⟨x, b, hx, eb, ((hpts b).1 hb).1⟩, hx⟩
      · rintro ⟨⟨y, q, hy, hyq, hqR⟩, hx⟩
        obtain rfl : y = x := Option.some.inj (hy.symm.trans hx)
        have g := LawfulFinite.succ_some u y hy
        have g' := LawfulFinite.succ_some y q hyq
        refine ⟨⟨fun h => hq y hy ((hpts y).1 h).1, ⟨u, (hpts u).2 ⟨hsub ⟨hnu, le_rfl⟩, hnu⟩, (pred_eq_iff).2 hy⟩, q,
          (hpts q).2 ⟨hqR, (hnu.trans g.1.le).trans g'.1.le⟩, hyq⟩, .inr ⟨u, rfl, hy⟩⟩
  refine ⟨p', e, .minusInPlace hp ho hreal e, hr, hpts', fun x hx => ?_⟩
  rw [Selection.Joined, c]
  simp only [Bool.not_true, Bool.false_and, Bool.or_false, Bool.and_eq_true, Bool.not_eq_true', ← Bool.not_eq_true]
  rw [Selection.ic_next ho hreal, hi, show _ ↔ _ from hj x]
  simp only [hpts, hpts', Done.succ hnu, Set.mem_union, Set.mem_Iio, Set.mem_Icc, not_or, not_lt]
  constructor
  · rintro ⟨h | ⟨y, hy, h⟩, h'⟩
    · exact .inl (.inl ⟨h.1, h.2, fun g => h'.1 g⟩)
    · exact .inr ⟨y, hy, .inl ⟨h.1, h.2, fun g => h'.2 ⟨y, hy, g⟩⟩⟩
  · rintro ((⟨h1, h2, h3⟩ | ⟨⟨y, q, hy, hyq, hqR⟩, hx'⟩) | ⟨y, hy, ⟨h1, h2, h3⟩ | ⟨h, hx'⟩⟩)
    · refine ⟨.inl ⟨h1, h2⟩, h3, ?_⟩
      rintro ⟨y, hy, hy'⟩
      have := (LawfulFinite.succ_some x y hy).1
      exact h3 ⟨h2, this.le.trans hy'.2⟩
    · obtain rfl : y = x := Option.some.inj (hy.symm.trans hx')
      have g := LawfulFinite.succ_some u y hy
      have g' := LawfulFinite.succ_some y q hyq
      refine ⟨.inr ⟨q, hyq, hqR, (hnu.trans g.1.le).trans g'.1.le⟩, fun h => absurd h.2 (not_le.2 g.1), ?_⟩
      rintro ⟨z, hz, hz'⟩
      rw [hyq] at hz; cases hz
      exact absurd hz'.2 (not_le.2 (g.1.trans g'.1))
    · have g := LawfulFinite.succ_some x y hy
      refine ⟨.inr ⟨y, hy, h1, h2⟩, fun h => ?_, ?_⟩
      · have huy : u < y := by
          by_contra hc
          exact h3 ⟨h2, not_lt.1 hc⟩
        have hux : x = u := by
          refine le_antisymm h.2 ?_
          by_contra hc
          exact absurd (g.2 u (not_le.1 hc)) (not_le.2 huy)
        subst hux
        exact hq y hy h1
      · rintro ⟨z, hz, hz'⟩
        rw [hy] at hz; cases hz
        exact h3 hz'
    · exact absurd ⟨h, y, hx', hy⟩ hx

/-- From a state on, the receiver is right exactly if a value that is in though it has not come does come next, and so
on. -/
theorem Selection.Waiting.right_iff (dbg : Bool) (cs : List (α × α)) (R : Set α) (p : Selection α) (n : Option α)
    (h : Prop) (w : p.Waiting dbg R n h) :
    (∃ os, p.reassemble (Selection.outInPlace dbg) dbg n cs = .ok os ∧ StreamRun R cs os) ↔
      (h → ∀ d, cs[0]? = some d → ∀ x, n = some x → x ∈ Set.Icc d.1 d.2) ∧ FilledAtOnce R cs := by
  induction cs generalizing R p n h with
  | nil =>
    exact ⟨fun _ => ⟨fun _ d hd => by simp at hd, fun k d hd => by simp at hd⟩, fun _ => ⟨[], rfl, .nil R⟩⟩
  | cons c cs ih =>
    obtain ⟨a, b⟩ := c
    obtain ⟨hp, hn, hpR, hj⟩ := w
    rw [FilledAtOnce.cons_iff]
    cases n with
    | none =>
      have hu : Ready R = Set.univ := hn
      have hR : ∀ x, x ∈ R := fun x => (show x ∈ Ready R from hu ▸ trivial) x le_rfl
      have hR' : R ∪ Set.Icc a b = R := by ext x; simp [hR x]
      have := ih R p none h ⟨hp, hn, hpR, hj⟩
      simp only [hR']
      constructor
      · rintro ⟨os, e, r⟩
        simp only [Selection.reassemble, bind, Except.bind] at e
        cases e' : p.reassemble (Selection.outInPlace dbg) dbg none cs with
        | error _ => rw [e'] at e; cases e
        | ok os' =>
          rw [e'] at e; cases e
          cases r with
          | wait _ r =>
            rw [hR'] at r
            exact ⟨fun _ d _ x hx => (by cases hx), fun d _ x p q _ _ hx => absurd (hR x) hx, (this.1 ⟨os', e', r⟩).2⟩
      · rintro ⟨-, -, hf⟩
        obtain ⟨os, e, r⟩ := this.2 ⟨fun _ d _ x hx => (by cases hx), hf⟩
        exact ⟨none :: os, by simp only [Selection.reassemble, e, bind, Except.bind]; rfl,
          .wait (by rw [hR']) (by rwa [hR'])⟩
    | some n =>
      obtain ⟨p1, e1, k1, q1⟩ := p.put_segment dbg (max a n) b hp
      obtain ⟨hlt, hnR⟩ := Ready.eq hn
      have hlt' : ∀ y < n, y ∈ R ∪ Set.Icc a b := fun y hy => .inl (hlt y hy)
      have hge : ∀ x ∈ p1.pts dbg, n ≤ x := by
        intro x hx
        rw [q1] at hx
        rcases hx with hx | hx
        · rcases (hpR x).1 hx with ⟨-, hx⟩ | ⟨-, hx⟩
          · exact not_lt.1 hx
          · exact (Option.some.inj hx).le
        · exact (le_max_right a n).trans hx.1
      obtain ⟨is, e2, f1, f2⟩ := p1.head_run dbg k1 n fun h x hx y hxy hyn => by
        have : y = n := le_antisymm hyn ((hge x hx).trans hxy)
        rwa [this]
      by_cases hbad : h ∧ n ∉ Set.Icc a b
      · obtain ⟨hh, hnc⟩ := hbad
        have hm : n ∈ p1.pts dbg := by rw [q1]; exact .inl ((hpR n).2 (.inr ⟨hh, rfl⟩))
        obtain ⟨i, js, l, u, rfl, ho, hrl, ei, hl, hu, e3, hsub, hq⟩ := f2 hm
        have hc : i.contains n = true := show n ∈ i.pts from ei ▸ ⟨hl, hu⟩
        constructor
        · rintro ⟨os, e, r⟩
          exfalso
          simp only [Selection.reassemble, e1, e2, hc, if_true, bind, Except.bind] at e
          cases e4 : Selection.outInPlace dbg p1 i with
          | error _ => rw [e4] at e; cases e
          | ok p2 =>
            simp only [e4] at e
            cases e5 : p2.reassemble (Selection.outInPlace dbg) dbg (i.supremum.bind succ) cs with
            | error _ => simp only [e5] at e; cases e
            | ok os' =>
              simp only [e5] at e; cases e
              cases r with
              | pass _ g _ =>
                have : n ∈ i.pts := hc
                rw [g] at this
                exact (this.1 n le_rfl).elim hnR hnc
        · rintro ⟨g, -⟩
          exact absurd (g hh (a, b) rfl n rfl) hnc
      · have hgood : h → n ∈ Set.Icc a b := fun hh => by_contra fun hc => hbad ⟨hh, hc⟩
        have q1 : ∀ x, x ∈ p1.pts dbg ↔ x ∈ R ∪ Set.Icc a b ∧ n ≤ x := by
          intro x
          rw [q1, Set.mem_union, hpR]
          simp only [Done, Set.mem_union, Set.mem_Iio, Set.mem_Icc, max_le_iff, not_lt, Option.some.injEq]
          constructor
          · rintro ((⟨h1, h2⟩ | ⟨h1, rfl⟩) | h1)
            · exact ⟨.inl h1, h2⟩
            · exact ⟨.inr (hgood h1), le_rfl⟩
            · exact ⟨.inr ⟨h1.1.1, h1.2⟩, h1.1.2⟩
          · rintro ⟨h1 | h1, h2⟩
            · exact .inl (.inl ⟨h1, h2⟩)
            · exact .inr ⟨⟨h1.1, h2⟩, h1.2⟩
        have j1 : ∀ x, p1.Joined dbg x := by
          intro x
          refine Selection.put_joined dbg p hp (max a n) b p1 e1 x ?_
          by_cases hx : h ∧ ∃ y, some n = some y ∧ succ x = some y
          · obtain ⟨hh, y, hy, hxy⟩ := hx
            cases hy
            have := hgood hh
            exact .inr (.inr ⟨n, hxy, max_le this.1 le_rfl, this.2⟩)
          · exact .inl (hj x hx)
        have hleft : (h → ∀ d, ((a, b) :: cs)[0]? = some d → ∀ x, some n = some x → x ∈ Set.Icc d.1 d.2) := by
          intro hh d hd x hx
          cases hd; cases hx
          exact hgood hh
        by_cases hm : n ∈ p1.pts dbg
        · obtain ⟨i, js, l, u, rfl, ho, hrl, ei, hl, hu, e3, hsub, hq⟩ := f2 hm
          obtain rfl : l = n := le_antisymm hl (hge l (hsub ⟨le_rfl, hl.trans hu⟩))
          have hsub' : Set.Icc l u ⊆ R ∪ Set.Icc a b := fun x hx => ((q1 x).1 (hsub hx)).1
          have hq' : ∀ q, succ u = some q → q ∉ R ∪ Set.Icc a b := fun q h hc =>
            hq q h ((q1 q).2 ⟨hc, hu.trans (LawfulFinite.succ_some u q h).1.le⟩)
          have hr := Ready.next hlt' hsub' hq'
          have hd : Done (succ u) = Set.Iio l ∪ Set.Icc l u := Done.succ hu
          obtain ⟨p2, e4, w2⟩ := Selection.Waiting.out dbg ho hrl ei k1 hu q1 j1 hlt' hsub' hq'
          have e4 : Selection.outInPlace dbg p1 i = .ok p2 := e4
          have hc : i.contains l = true := show l ∈ i.pts from ei ▸ ⟨le_rfl, hu⟩
          have key : (∃ os, p.reassemble (Selection.outInPlace dbg) dbg (some l) ((a, b) :: cs) = .ok os ∧
              StreamRun R ((a, b) :: cs) os) ↔ ∃ os, p2.reassemble (Selection.outInPlace dbg) dbg (succ u) cs = .ok os ∧
              StreamRun (R ∪ Set.Icc a b) cs os := by
            simp only [Selection.reassemble, e1, e2, e3, e4, hc, if_true, Option.bind_some, bind, Except.bind]
            constructor
            · rintro ⟨os, e, r⟩
              cases e5 : p2.reassemble (Selection.outInPlace dbg) dbg (succ u) cs with
              | error _ => simp only [e5] at e; cases e
              | ok os' =>
                simp only [e5] at e; cases e
                cases r with
                | pass _ _ r => exact ⟨os', rfl, r⟩
            · rintro ⟨os, e, r⟩
              refine ⟨some i :: os, by simp only [e]; rfl, .pass ⟨l, ei ▸ ⟨le_rfl, hu⟩⟩ ?_ r⟩
              rw [hr, hn, hd, ei, Done]
              ext x
              simp only [Set.mem_sdiff, Set.mem_union, Set.mem_Iio, Set.mem_Icc, not_lt]
              constructor
              · exact fun h => ⟨.inr h, h.1⟩
              · rintro ⟨h | h, h'⟩
                · exact absurd h (not_lt.2 h')
                · exact h
          rw [key, ih _ p2 _ _ w2, and_iff_right hleft]
          refine and_congr_left fun _ => ?_
          constructor
          · intro g d hd' x p q hxp hxq hx hpr hpr' hqR
            have hpx := (pred_eq_iff).1 hxp
            rw [hr, hd] at hpr
            have hlp : l ≤ p := by
              by_contra hc
              exact hpr' fun y hy => hlt y (lt_of_le_of_lt hy (not_le.1 hc))
            have hpu : p ≤ u := by
              rcases hpr with h | h
              · exact absurd h (not_lt.2 hlp)
              · exact h.2
            have : p = u := by
              refine le_antisymm hpu ?_
              by_contra hc
              exact hx (hsub' ⟨hlp.trans (LawfulFinite.succ_some p x hpx).1.le,
                (LawfulFinite.succ_some p x hpx).2 u (not_le.1 hc)⟩)
            subst this
            exact g ⟨x, q, hpx, hxq, hqR⟩ d hd' x hpx
          · rintro g ⟨x, q, hx, hxq, hqR⟩ d hd' y hy
            obtain rfl : x = y := Option.some.inj (hx.symm.trans hy)
            refine g d hd' x u q ((pred_eq_iff).2 hx) hxq (hq' x hx) ?_ (fun hc => hnR (hc l hu)) hqR
            rw [hr, hd]; exact .inr ⟨hu, le_rfl⟩
        · have hm' : n ∉ R ∪ Set.Icc a b := fun h => hm ((q1 n).2 ⟨h, le_rfl⟩)
          have hr := Ready.wait hlt' hm'
          have w1 : p1.Waiting dbg (R ∪ Set.Icc a b) (some n) False :=
            ⟨k1, hr, fun x => by rw [q1]; simp [Done], fun x _ => j1 x⟩
          have e6 : p.reassemble (Selection.outInPlace dbg) dbg (some n) ((a, b) :: cs) =
              (p1.reassemble (Selection.outInPlace dbg) dbg (some n) cs).map (none :: ·) := by
            cases is with
            | nil =>
              simp only [Selection.reassemble, e1, e2, bind, Except.bind]
              cases p1.reassemble (Selection.outInPlace dbg) dbg (some n) cs <;> rfl
            | cons i js =>
              simp only [Selection.reassemble, e1, e2, f1 hm i js rfl, bind, Except.bind]
              cases p1.reassemble (Selection.outInPlace dbg) dbg (some n) cs <;> rfl
          have key : (∃ os, p.reassemble (Selection.outInPlace dbg) dbg (some n) ((a, b) :: cs) = .ok os ∧
              StreamRun R ((a, b) :: cs) os) ↔ ∃ os, p1.reassemble (Selection.outInPlace dbg) dbg (some n) cs = .ok os ∧
              StreamRun (R ∪ Set.Icc a b) cs os := by
            rw [e6]
            constructor
            · rintro ⟨os, e, r⟩
              cases e5 : p1.reassemble (Selection.outInPlace dbg) dbg (some n) cs with
              | error _ => rw [e5] at e; cases e
              | ok os' =>
                rw [e5] at e; cases e
                cases r with
                | wait _ r => exact ⟨os', rfl, r⟩
            · rintro ⟨os, e, r⟩
              exact ⟨none :: os, by rw [e]; rfl, .wait (by rw [hr, hn]) r⟩
          rw [key, ih _ p1 _ _ w1, and_iff_right hleft, and_iff_right (fun hf : False => hf.elim), iff_and_self]
          intro _ d _ x p q hxp _ _ hpr hpr'
          rw [hr, ← hn] at hpr
          exact absurd hpr hpr'

/-- The receiver that takes out by `minus_in_place` is right exactly if each value that is missing alone behind what has
just been passed on comes with the next segment, if there is one. -/
theorem C132_in_place_iff (dbg : Bool) (cs : List (α × α)) :
    (∃ os, (Selection.new : Selection α).reassemble (Selection.outInPlace dbg) dbg (some minimum) cs = .ok os ∧
      StreamRun ∅ cs os) ↔ FilledAtOnce ∅ cs := by
  have h0 : (Selection.new : Selection α).pts dbg = ∅ := (C48_start dbg _ (.mkClosed minimum minimum)).1
  rw [Selection.Waiting.right_iff dbg cs ∅ .new (some minimum) False ⟨.built .new, Ready.start, fun x => by rw [h0]; simp,
    fun x _ => ?_⟩, and_iff_right (fun hf : False => hf.elim)]
  rw [Selection.Joined, h0]
  simp [Selection.new, TineTree.new, tcov, cov]

/-- Here 2 is missing alone behind 0 to 1 and comes next, while 3 to 4 and then 6 wait; 5 is missing alone and not behind
what has just been passed on. -/
example : ∃ cs : List (U8 × U8), cs = [(u8 3, u8 4), (u8 0, u8 1), (u8 2, u8 2), (u8 6, u8 7), (u8 8, u8 9), (u8 5, u8 5)] ∧
    FilledAtOnce ∅ cs ∧ (∃ k x, MissingAlone (received ∅ (cs.take k)) x ∧ ∀ y < x, y ∈ received ∅ (cs.take k)) ∧
    (Selection.new : Selection U8).reassemble (Selection.outInPlace true) true (some minimum) cs =
      .ok [none, some (.mkClosed (u8 0) (u8 1)), some (.mkClosed (u8 2) (u8 4)), none, none,
        some (.mkClosed (u8 5) (u8 9))] := by
  have c : ∀ y m n : U8, y ∈ Set.Icc m n ↔ m.1 ≤ y.1 ∧ y.1 ≤ n.1 := fun _ _ _ => Iff.rfl
  refine ⟨_, rfl, ?_, ⟨2, u8 2, ⟨by simp [received, c, u8, -Set.mem_Icc], ⟨u8 1, ?_, by decide⟩, u8 3, ?_, by decide⟩,
    fun y hy => ?_⟩, by decide⟩
  · rw [← C132_in_place_iff true]
    obtain ⟨os, e, r⟩ := C132_by_complement true
      [(u8 3, u8 4), (u8 0, u8 1), (u8 2, u8 2), (u8 6, u8 7), (u8 8, u8 9), (u8 5, u8 5)]
    refine ⟨os, ?_, r⟩
    rw [← e]
    decide
  · simp [received, c, u8, -Set.mem_Icc]
  · simp [received, c, u8, -Set.mem_Icc]
  · have h1 : y.1 < 2 := hy
    have h2 := y.2.1
    exact .inr ⟨(u8 0, u8 1), by simp, h2, by change y.1 ≤ 1; omega⟩

/-- Not so with the segments that go wrong: 2 does not come next. -/
example : ¬ FilledAtOnce ∅ [(u8 3, u8 4), (u8 0, u8 1), (u8 5, u8 6), (u8 2, u8 2), (u8 6, u8 7)] := by
  rw [← C132_in_place_iff true, C132_counterexample]
  rintro ⟨os, e, r⟩
  cases e
  cases r with
  | wait _ r => cases r with
    | pass _ _ r => cases r with
      | pass _ g _ =>
        have : u8 2 ∈ (Interval.mkClosed (u8 2) (u8 6)).pts := by rw [Interval.closed_pts]; exact ⟨le_rfl, by decide⟩
        rw [g] at this
        have := this.1 (u8 2) le_rfl
        have c : ∀ y m n : U8, y ∈ Set.Icc m n ↔ m.1 ≤ y.1 ∧ y.1 ≤ n.1 := fun _ _ _ => Iff.rfl
        simp [c, u8, -Set.mem_Icc] at this

end NI
