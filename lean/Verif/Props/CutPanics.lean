import Verif.Lemmas.Goes
import Verif.Props.CutEvery

/-! # When `intersect_in_place` panics, and what it returns otherwise (C100) -/

set_option linter.unusedSimpArgs false
set_option linter.unusedVariables false
set_option linter.unusedSectionVars false
set_option linter.unusedTactic false
set_option linter.unnecessarySeqFocus false
set_option linter.unreachableTactic false

namespace NI
open TT

namespace RawInterval
variable {α : Type _} [LinearOrder α]

/-- None of the intervals `is` reaches either end of `i`, from inside or outside. -/
def ClearOf (is : List (RawInterval α)) (i : RawInterval α) : Prop :=
  ∃ l u, i.lowerBound = some l ∧ i.upperBound = some u ∧
    let p := (Tine.lower l).pos
    let q := (Tine.upper u).pos
    ¬ CoversBelow is p ∧ ¬ CoversAt is p ∧ ¬ CoversAbove is p ∧
    ¬ CoversBelow is q ∧ ¬ CoversAt is q ∧ ¬ CoversAbove is q

/-- How the ends of `i` lie to the intervals `is` if a debug build does not panic: both ends are covered on the
inner side; or one end is passed over and nothing comes near the other; or neither end is covered on either side.
An end that is not covered on the inner side must not be shared. -/
def CutReturns (is : List (RawInterval α)) (i : RawInterval α) : Prop :=
  ∃ l u, i.lowerBound = some l ∧ i.upperBound = some u ∧
    let p := (Tine.lower l).pos
    let q := (Tine.upper u).pos
    (CoversAbove is p ∧ CoversBelow is q) ∨
    (CoversBelow is p ∧ CoversAbove is p ∧ ¬ CoversBelow is q ∧ ¬ CoversAbove is q ∧ ¬ SharesAt is i q) ∨
    (¬ CoversBelow is p ∧ ¬ CoversAbove is p ∧ CoversBelow is q ∧ CoversAbove is q ∧ ¬ SharesAt is i p) ∨
    (¬ CoversBelow is p ∧ ¬ CoversAbove is p ∧ ¬ CoversBelow is q ∧ ¬ CoversAbove is q ∧
      ¬ SharesAt is i p ∧ ¬ SharesAt is i q)

/-- How they lie if a release build does not panic. -/
def CutReturnsRelease (is : List (RawInterval α)) (i : RawInterval α) : Prop :=
  ∃ l u, i.lowerBound = some l ∧ i.upperBound = some u ∧
    let p := (Tine.lower l).pos
    let q := (Tine.upper u).pos
    (CoversAbove is p ∧ CoversBelow is q) ∨
    (CoversBelow is p ∧ CoversAbove is p ∧ ¬ CoversBelow is q ∧ ¬ CoversAbove is q) ∨
    (¬ CoversBelow is p ∧ ¬ CoversAbove is p ∧ CoversBelow is q ∧ CoversAbove is q) ∨
    (¬ CoversBelow is p ∧ ¬ CoversAbove is p ∧ ¬ CoversBelow is q ∧ ¬ CoversAbove is q) ∨
    (¬ CoversAbove is p ∧ ¬ CoversBelow is q ∧
      (SharesAt is i p ∨ (¬ CoversBelow is p ∧ ¬ CoversAt is p)) ∧
      (SharesAt is i q ∨ (¬ CoversAbove is q ∧ ¬ CoversAt is q)))

end RawInterval

section Tree
variable {α : Type} [LinearOrder α]

theorem TT.cutReturns_iff {t : TineTree α} (h : Valid t) {i : RawInterval α} {l u : Bound α}
    (hw : i.WF) (e : Tine.fromRawInterval i = [.lower l, .upper u])
    (hk : (Tine.lower l).key < (Tine.upper u).key) (w : Two t (Tine.lower l).key (Tine.upper u).key) :
    (RawInterval.CutReturns (pieces none t) i ↔
      IsectGoes true w.b w.a w.c w.d w.a2 w.e (Tine.lower l).inclAt (Tine.upper u).inclAt = true) ∧
    (RawInterval.CutReturnsRelease (pieces none t) i ↔
      IsectGoes false w.b w.a w.c w.d w.a2 w.e (Tine.lower l).inclAt (Tine.upper u).inclAt = true) ∧
    (RawInterval.ClearOf (pieces none t) i ↔
      w.b = false ∧ w.a = false ∧ w.c = false ∧ w.d = false ∧ w.a2 = false ∧ w.e = false) ∧
    (RawInterval.CutClean true (pieces none t) i ↔
      IsectSharp true w.b w.a w.c w.d w.a2 w.e (Tine.lower l).inclAt (Tine.upper u).inclAt = true) := by
  obtain ⟨b1, b2⟩ := bounds_of_tines e
  obtain ⟨s1, s2⟩ := sharesAt_iff h hw e hk
  obtain ⟨⟨v1, v2, v3⟩, v4, v5, v6⟩ := w.views hk
  have hc := cutClean_iff true h hw e hk
  rw [v1, v2, v3, v4, v5, v6] at hc
  refine ⟨?_, ?_, ?_, hc⟩
  · unfold RawInterval.CutReturns
    simp only [b1, b2, Option.some.injEq, exists_and_left, exists_eq_left', Tine.pos_eq, s1, s2,
      coversBelow_iff h, coversAbove_iff h, coversAt_iff h, v1, v2, v3, v4, v5, v6]
    generalize w.b = b, w.a = a, w.c = c, w.d = d, w.a2 = a2, w.e = e, (Tine.lower l).inclAt = il,
      (Tine.upper u).inclAt = iu
    clear * -
    simp only [IsectGoes]
    cases c <;> cases d <;> simp <;> cases b <;> cases e <;> simp <;> cases a <;> cases a2 <;>
      cases il <;> cases iu <;> simp
  · unfold RawInterval.CutReturnsRelease
    simp only [b1, b2, Option.some.injEq, exists_and_left, exists_eq_left', Tine.pos_eq, s1, s2,
      coversBelow_iff h, coversAbove_iff h, coversAt_iff h, v1, v2, v3, v4, v5, v6]
    generalize w.b = b, w.a = a, w.c = c, w.d = d, w.a2 = a2, w.e = e, (Tine.lower l).inclAt = il,
      (Tine.upper u).inclAt = iu
    clear * -
    simp only [IsectGoes]
    cases c <;> cases d <;> simp <;> cases b <;> cases e <;> simp <;> cases a <;> cases a2 <;>
      cases il <;> cases iu <;> simp
  · unfold RawInterval.ClearOf
    simp only [b1, b2, Option.some.injEq, exists_and_left, exists_eq_left', Tine.pos_eq,
      coversBelow_iff h, coversAbove_iff h, coversAt_iff h, v1, v2, v3, v4, v5, v6, Bool.not_eq_true]

theorem TT.intersectInPlace_proper (dbg : Bool) {t : TineTree α} (ht0 : t ≠ []) {i : RawInterval α} {lb ub : Bound α}
    (e : Tine.fromRawInterval i = [.lower lb, .upper ub]) (h2 : i.TwoEnded) (hf : i ≠ .full) :
    TineTree.intersectInPlace dbg t i = TineTree.intersectProper dbg t (.lower lb) (.upper ub) := by
  have c1 : TineTree.isEmpty t = false := by simpa [TineTree.isEmpty] using ht0
  cases i <;> first
    | exact absurd rfl h2.1
    | exact absurd rfl (h2.2 _)
    | exact absurd rfl hf
    | simp [TineTree.intersectInPlace, c1, RawInterval.isFull, RawInterval.isEmpty, e]

/-- Exactly when `intersect_in_place` returns, in debug and in release builds. -/
theorem C100_returns_iff (dbg : Bool) (t : TineTree α) (ht : t.Reachable) (i : RawInterval α) (hi : i.WF)
    (is : List (RawInterval α)) (his : t.intervals dbg = .ok is) :
    (∃ t', t.intersectInPlace dbg i = .ok t') ↔
      is = [] ∨ ¬ i.TwoEnded ∨ i = .full ∨
        (if dbg then RawInterval.CutReturns is i else RawInterval.CutReturnsRelease is i) := by
  have easy : is = [] ∨ ¬ i.TwoEnded ∨ i = .full → ∃ t', t.intersectInPlace dbg i = .ok t' := fun h => by
    obtain ⟨t', e, -⟩ := C38_intersect_in_place_partial dbg t ht i hi is his
      (h.imp id (Or.imp id (Or.inl)))
    exact ⟨t', e⟩
  have h := TT.reachable_valid ht
  rw [TT.intervals_eq dbg h] at his
  cases his
  by_cases h1 : pieces none t = []
  · exact ⟨fun _ => .inl h1, fun _ => easy (.inl h1)⟩
  by_cases h2 : i.TwoEnded
  swap
  · exact ⟨fun _ => .inr (.inl h2), fun _ => easy (.inr (.inl h2))⟩
  by_cases h3 : i = .full
  · exact ⟨fun _ => .inr (.inr (.inl h3)), fun _ => easy (.inr (.inr h3))⟩
  have ht0 : t ≠ [] := by rintro rfl; exact h1 rfl
  rcases fromRaw_cases hi with ⟨e0, e⟩ | ⟨p, e0, e⟩ | ⟨lb, ub, e, hk⟩
  · exact absurd e0 h2.1
  · exact absurd e0 (h2.2 p)
  obtain ⟨w⟩ := two h hk
  obtain ⟨c1, c2, -, -⟩ := cutReturns_iff h hi e hk w
  rw [intersectInPlace_proper dbg ht0 e h2 h3, intersectProper_goes dbg hk w]
  cases dbg <;> simp [h1, h2, h3, c1, c2]

example : (TineTree.demo [.closed 0 6]).Reachable ∧ (TineTree.demo [.closed 0 6]).intervals true = .ok [.closed 0 6] ∧
    (RawInterval.closed (2 : Int) 4).WF ∧
    (∀ dbg, (TineTree.demo [.closed 0 6]).intersectInPlace dbg (.closed 2 4) = .ok (TineTree.demo [.closed 2 4])) :=
  ⟨TineTree.fromIter_reachable (dbg := true) (is := [.closed 0 6]) (by simp [RawInterval.WF]) rfl,
    by decide, by simp [RawInterval.WF], by decide⟩

/-- A debug build that returns has the right result; or the tree is clear of both ends of the interval, and then
the result is the interval itself if the tree has nothing in between, and otherwise a corrupt tree. -/
theorem C100_debug (t t' : TineTree α) (ht : t.Reachable) (i : RawInterval α) (hi : i.WF)
    (is : List (RawInterval α)) (his : t.intervals true = .ok is) (h : t.intersectInPlace true i = .ok t') :
    (t'.Reachable ∧ ∀ x, t'.contains true x = .ok true ↔ (t.contains true x = .ok true ∧ i.contains x = true)) ∨
    (RawInterval.ClearOf is i ∧
      ((RawInterval.Untouched is i ∧ t' = TineTree.fromRawInterval i) ∨
        (¬ RawInterval.Untouched is i ∧ ¬ t'.Reachable))) := by
  have key : (is = [] ∨ ¬ i.TwoEnded ∨ i = .full ∨ RawInterval.CutClean true is i) →
      t'.Reachable ∧ ∀ x, t'.contains true x = .ok true ↔ (t.contains true x = .ok true ∧ i.contains x = true) :=
    fun g => by
      obtain ⟨r, e, r1, r2⟩ := (C98_intersect_in_place_iff true t ht i hi is his).2
        (g.imp id (Or.imp id (Or.imp id Or.inl)))
      rw [h] at e
      cases e
      exact ⟨r1, r2⟩
  by_cases h1 : is = []
  · exact .inl (key (.inl h1))
  by_cases h2 : i.TwoEnded
  swap
  · exact .inl (key (.inr (.inl h2)))
  by_cases h3 : i = .full
  · exact .inl (key (.inr (.inr (.inl h3))))
  have v := TT.reachable_valid ht
  rw [TT.intervals_eq true v] at his
  cases his
  have ht0 : t ≠ [] := by rintro rfl; exact h1 rfl
  rcases fromRaw_cases hi with ⟨e0, e⟩ | ⟨p, e0, e⟩ | ⟨lb, ub, e, hk⟩
  · exact absurd e0 h2.1
  · exact absurd e0 (h2.2 p)
  obtain ⟨w⟩ := two v hk
  obtain ⟨-, -, c3, c4⟩ := cutReturns_iff v hi e hk w
  have hu := untouched_iff v e hk w
  rw [intersectInPlace_proper true ht0 e h2 h3] at h
  have g := (intersectProper_goes true hk w).1 ⟨t', h⟩
  have g' : IsectSharp true w.b w.a w.c w.d w.a2 w.e (Tine.lower lb).inclAt (Tine.upper ub).inclAt = true ∨
      (w.b = false ∧ w.a = false ∧ w.c = false ∧ w.d = false ∧ w.a2 = false ∧ w.e = false) := by
    revert g
    generalize w.b = b, w.a = a, w.c = c, w.d = d, w.a2 = a2, w.e = e, (Tine.lower lb).inclAt = il,
      (Tine.upper ub).inclAt = iu
    clear * -
    simp only [IsectGoes, IsectSharp, IsectGood]
    cases c <;> cases d <;> simp <;> cases b <;> cases e <;> simp <;> cases a <;> cases a2 <;>
      cases il <;> cases iu <;> simp
  rcases g' with g' | g'
  · exact .inl (key (.inr (.inr (.inr (c4.2 g')))))
  refine .inr ⟨c3.2 g', ?_⟩
  obtain ⟨g1, g2, g3, g4, g5, g6⟩ := g'
  rw [intersectProper_apart true hk w g1 g2 g3 g4 g5 g6] at h
  cases h
  by_cases hM : w.M = []
  · exact .inl ⟨hu.2 ⟨g1, g2, g3, g4, g5, g6, hM⟩, by rw [hM, tree_fromRaw hi]; exact e.symm⟩
  · refine .inr ⟨fun z => hM (hu.1 z).2.2.2.2.2.2, fun r => hM ?_⟩
    have vr := (reachable_valid r).2
    rcases hM' : w.M with _ | ⟨m, M⟩
    · rfl
    have := w.cM
    rw [g3, hM'] at this
    rw [hM'] at vr
    have h4 := this.1
    have h5 := vr.2.1
    simp only [Tine.isLowerBound] at h5
    exact absurd (h4.symm.trans h5) (by simp)

/-- `[0,2] ∪ [8,9]` cut with `[4,6]`: clear of both ends, with nothing in between, so the result is `[4,6]`.
`[0,2] ∪ [5,5] ∪ [8,9]` cut with `[4,6]` gives a corrupt tree. -/
example :
    (TineTree.demo [.closed 0 2, .closed 8 9]).intersectInPlace true (.closed 4 6) =
      .ok (TineTree.fromRawInterval (.closed 4 6)) ∧
    (TineTree.demo [.closed 0 2, .point 5, .closed 8 9]).intersectInPlace true (.closed 4 6) =
      .ok [.lower (.incl 4), .point (.incl 5), .upper (.incl 6)] := by decide

/-- `[0,6]` cut with `[0,8]` panics in both builds; cut with `[6,8]` only in debug builds. -/
example : (∀ dbg, (TineTree.demo [.closed 0 6]).intersectInPlace dbg (.closed 0 8) = .error .unreachable) ∧
    (TineTree.demo [.closed 0 6]).intersectInPlace true (.closed 6 8) = .error .debugAssert ∧
    (TineTree.demo [.closed 0 6]).intersectInPlace false (.closed 6 8) =
      .ok [.point (.incl 6), .upper (.incl 8)] := by decide

end Tree

section Sel
variable {α : Type} [LinearOrder α] [Finite α] [LawfulFinite α]
open _root_.NI.Finite

/-- The selection contains neither `l` nor the two values below it, and neither `u` nor the two values above it. -/
def Selection.ClearOf (dbg : Bool) (s : Selection α) (l u : α) : Prop :=
  ¬ s.TouchesBelow dbg l ∧ (∀ p, pred l = some p → ¬ s.TouchesBelow dbg p) ∧
  ¬ s.TouchesAbove dbg u ∧ ∀ q, succ u = some q → ¬ s.TouchesAbove dbg q

theorem Selection.clear_iff (dbg : Bool) (s : Selection α) (hs : s.UnionBuilt) (l u : α)
    (hlu : l ≤ u) {lb ub : Bound α}
    (hf : Tine.fromRawInterval (Interval.mkClosed l u).raw.denormalized = [.lower lb, .upper ub]) :
    s.ClearOf dbg l u ↔ bef false s.tree (Tine.lower lb).key = false ∧ tcov s.tree true (Tine.lower lb).key = false ∧
      bef false s.tree (Tine.upper ub).key = false ∧ tcov s.tree true (Tine.upper ub).key = false := by
  have v := Selection.reachable_valid hs.reachable
  have hd := hs.do
  have ta : ∀ x, (s.TouchesAbove dbg x ↔ tcov s.tree true (.fin x) = true) := by
    intro x
    rw [hd.1, Selection.TouchesAbove]
    simp only [Selection.mem_pts dbg v, Bool.or_eq_true]
    cases succ x <;> simp
  have bb : ∀ x, (s.TouchesBelow dbg x ↔ bef false s.tree (.fin x) = true) := by
    intro x
    rw [hd.bef, Selection.TouchesBelow]
    simp only [Selection.mem_pts dbg v, Bool.or_eq_true]
    cases pred x <;> simp
  have b0 : bef false s.tree .bot = false := bef_ge fun t _ => not_lt.1 (Key.not_lt_bot _)
  have e0 : tcov s.tree true .top = false := cov_unreal v (by simp [RealPos])
  rw [Selection.closed_denorm hlu] at hf
  simp only [RawInterval.denormalized] at hf
  unfold Selection.ClearOf
  simp only [ta, bb, Bool.not_eq_true]
  have hl : (bef false s.tree (.fin l) = false ∧ ∀ p, pred l = some p → bef false s.tree (.fin p) = false) ↔
      bef false s.tree (Tine.lower lb).key = false ∧ tcov s.tree true (Tine.lower lb).key = false := by
    cases hp : pred l with
    | none =>
      have : lb = .inf := by
        cases hq : succ u <;> rw [hp, hq] at hf <;> simp [Tine.fromRawInterval] at hf <;> exact hf.1.symm
      subst this
      simp [Tine.key, b0, bef_min hp]
    | some p =>
      have : lb = .excl p := by
        cases hq : succ u <;> rw [hp, hq] at hf <;> simp [Tine.fromRawInterval] at hf <;> exact hf.1.symm
      subst this
      simp [Tine.key, bef_pred hp, and_comm]
  have hu : (tcov s.tree true (.fin u) = false ∧ ∀ p, succ u = some p → tcov s.tree true (.fin p) = false) ↔
      bef false s.tree (Tine.upper ub).key = false ∧ tcov s.tree true (Tine.upper ub).key = false := by
    cases hp : succ u with
    | none =>
      have : ub = .inf := by
        cases hq : pred l <;> rw [hp, hq] at hf <;> simp [Tine.fromRawInterval] at hf <;> exact hf.2.symm
      subst this
      simp [Tine.key, e0, bef_top, (LawfulFinite.succ_none u).1 hp]
    | some p =>
      have : ub = .excl p := by
        cases hq : pred l <;> rw [hp, hq] at hf <;> simp [Tine.fromRawInterval] at hf <;> exact hf.2.symm
      subst this
      simp [Tine.key, bef_pred (pred_of_succ hp)]
  rw [← and_assoc, hl, hu, and_assoc]

/-- On union-built selections `intersect_in_place` with `[l,u]` returns, in both builds, exactly if it is right
(`C51_exact_iff`) or the selection is clear of both ends. -/
theorem C100_selection_iff (dbg : Bool) (s : Selection α) (hs : s.UnionBuilt) (l u : α) (hlu : l ≤ u) :
    (∃ s', s.intersectInPlace dbg (Interval.mkClosed l u) = .ok s') ↔
      s.pts dbg = ∅ ∨ (l = minimum ∧ u = maximum) ∨ s.CutWell dbg l u ∨ s.ClearOf dbg l u := by
  have hx := C51_exact_iff dbg s hs l u hlu
  by_cases h1 : s.pts dbg = ∅
  · obtain ⟨s', e, -⟩ := hx.2 (.inl h1)
    exact ⟨fun _ => .inl h1, fun _ => ⟨s', e⟩⟩
  by_cases h2 : l = minimum ∧ u = maximum
  · obtain ⟨s', e, -⟩ := hx.2 (.inr (.inl h2))
    exact ⟨fun _ => .inr (.inl h2), fun _ => ⟨s', e⟩⟩
  have v := Selection.reachable_valid hs.reachable
  have hi : (Interval.mkClosed l u).Obtainable := .mkClosed _ _
  have hw := RawInterval.denorm_wf (Interval.obtainable_nf hi)
  obtain ⟨lb, ub, hf⟩ : ∃ lb ub, Tine.fromRawInterval (Interval.mkClosed l u).raw.denormalized =
      [.lower lb, .upper ub] := by
    rw [Selection.closed_denorm hlu]
    simp only [RawInterval.denormalized]
    cases hp : pred l <;> cases hq : succ u <;> simp [Tine.fromRawInterval]
  have htwo : (Interval.mkClosed l u).raw.denormalized.TwoEnded := by
    rw [Selection.closed_denorm hlu]
    simp only [RawInterval.denormalized]
    cases hp : pred l <;> cases hq : succ u <;> simp [RawInterval.TwoEnded]
  have hfull : (Interval.mkClosed l u).raw.denormalized ≠ .full := fun h => h2 (by
    rw [Selection.closed_denorm hlu] at h
    rw [← LawfulFinite.pred_none, ← LawfulFinite.succ_none]
    simp only [RawInterval.denormalized] at h
    revert h
    cases pred l <;> cases succ u <;> simp)
  have ht0 : s.tree ≠ [] := fun h0 => h1 (by
    ext x
    rw [Selection.mem_pts dbg v, h0]
    simp [at', tcov, cov])
  have hk : (Tine.lower lb).key < (Tine.upper ub).key := by
    rcases fromRaw_cases hw with ⟨e0, e⟩ | ⟨p, e0, e⟩ | ⟨lb', ub', e, hk⟩ <;> rw [hf] at e <;> cases e
    exact hk
  obtain ⟨w⟩ := two v hk
  obtain ⟨⟨v1, v2, v3⟩, v4, v5, v6⟩ := w.views hk
  obtain ⟨il, iu, ha, ha2, htb, hcw⟩ := Selection.cutWell_iff dbg s hs l u hlu hf
  have hcl := Selection.clear_iff dbg s hs l u hlu hf
  rw [v1, v2, v3, v4, v5, v6] at hcw
  rw [v1, v2, v3] at ha
  rw [v4, v5, v6] at ha2
  rw [v1, v3, v4, v6] at hcl
  have e1 : (∃ s', s.intersectInPlace dbg (Interval.mkClosed l u) = .ok s') ↔
      ∃ t', TineTree.intersectProper dbg s.tree (.lower lb) (.upper ub) = .ok t' := by
    rw [Selection.intersectInPlace, intersectInPlace_proper dbg ht0 hf htwo hfull]
    cases TineTree.intersectProper dbg s.tree (.lower lb) (.upper ub) with
    | error => constructor <;> rintro ⟨_, h⟩ <;> cases h
    | ok t => exact ⟨fun _ => ⟨t, rfl⟩, fun _ => ⟨⟨t⟩, rfl⟩⟩
  rw [e1, intersectProper_goes dbg hk w, il, iu, ← hcw, hcl]
  simp only [h1, h2, false_or]
  revert ha ha2
  generalize w.b = b, w.a = a, w.c = c, w.d = d, w.a2 = a2, w.e = e
  clear * -
  simp only [IsectGoes, IsectGood]
  cases c <;> cases d <;> simp <;> cases b <;> cases e <;> simp <;> cases a <;> cases a2 <;> simp

example : (Selection.demo [(u8 3, u8 9)]).UnionBuilt ∧
    (∀ dbg, (Selection.demo [(u8 3, u8 9)]).intersectInPlace dbg (Interval.mkClosed (u8 4) (u8 6)) =
      .ok (Selection.demo [(u8 4, u8 6)])) ∧
    ∀ dbg, ((Selection.demo [(u8 3, u8 9)]).intersectInPlace dbg (Interval.mkClosed (u8 3) (u8 12))).isOk = false :=
  ⟨Selection.demo_built _ (by decide), by decide, by decide⟩

/-- What it returns if the selection, which is not empty, is clear of both ends: `[l,u]` if the selection has
nothing there, and otherwise a corrupt selection. -/
theorem C100_selection_clear (dbg : Bool) (s : Selection α) (hs : s.UnionBuilt) (l u : α) (hlu : l ≤ u)
    (h1 : (s.pts dbg).Nonempty) (h2 : ¬ (l = minimum ∧ u = maximum)) (h : s.ClearOf dbg l u) :
    ∃ s', s.intersectInPlace dbg (Interval.mkClosed l u) = .ok s' ∧
      ((s.pts dbg ∩ Set.Icc l u = ∅ ∧ s' = Selection.ofInterval (Interval.mkClosed l u) ∧ s'.pts dbg = Set.Icc l u) ∨
        ((s.pts dbg ∩ Set.Icc l u).Nonempty ∧ ¬ s'.Reachable)) := by
  have v := Selection.reachable_valid hs.reachable
  have hi : (Interval.mkClosed l u).Obtainable := .mkClosed _ _
  have hw := RawInterval.denorm_wf (Interval.obtainable_nf hi)
  obtain ⟨lb, ub, hf⟩ : ∃ lb ub, Tine.fromRawInterval (Interval.mkClosed l u).raw.denormalized =
      [.lower lb, .upper ub] := by
    rw [Selection.closed_denorm hlu]
    simp only [RawInterval.denormalized]
    cases hp : pred l <;> cases hq : succ u <;> simp [Tine.fromRawInterval]
  have htwo : (Interval.mkClosed l u).raw.denormalized.TwoEnded := by
    rw [Selection.closed_denorm hlu]
    simp only [RawInterval.denormalized]
    cases hp : pred l <;> cases hq : succ u <;> simp [RawInterval.TwoEnded]
  have hfull : (Interval.mkClosed l u).raw.denormalized ≠ .full := fun h => h2 (by
    rw [Selection.closed_denorm hlu] at h
    rw [← LawfulFinite.pred_none, ← LawfulFinite.succ_none]
    simp only [RawInterval.denormalized] at h
    revert h
    cases pred l <;> cases succ u <;> simp)
  have ht0 : s.tree ≠ [] := fun h0 => by
    obtain ⟨x, hx⟩ := h1
    rw [Selection.mem_pts dbg v, h0] at hx
    simp [at', tcov, cov] at hx
  have hk : (Tine.lower lb).key < (Tine.upper ub).key := by
    rcases fromRaw_cases hw with ⟨e0, e⟩ | ⟨p, e0, e⟩ | ⟨lb', ub', e, hk⟩ <;> rw [hf] at e <;> cases e
    exact hk
  obtain ⟨w⟩ := two v hk
  obtain ⟨⟨v1, v2, v3⟩, v4, v5, v6⟩ := w.views hk
  obtain ⟨il, iu, ha, ha2, htb, hcw⟩ := Selection.cutWell_iff dbg s hs l u hlu hf
  have hcl := (Selection.clear_iff dbg s hs l u hlu hf).1 h
  rw [v1, v2, v3] at ha
  rw [v4, v5, v6] at ha2
  rw [v1, v3, v4, v6] at hcl
  obtain ⟨g1, g3, g4, g6⟩ := hcl
  have g2 : w.a = false := by
    rw [← Bool.not_eq_true]; intro z; rw [g1] at ha; exact absurd (ha z).1 (by simp)
  have g5 : w.a2 = false := by
    rw [← Bool.not_eq_true]; intro z; rw [g4] at ha2; exact absurd (ha2 z).1 (by simp)
  have e1 := intersectProper_apart dbg hk w g1 g2 g3 g4 g5 g6
  rw [← intersectInPlace_proper dbg ht0 hf htwo hfull] at e1
  refine ⟨⟨_⟩, by rw [Selection.intersectInPlace, e1]; rfl, ?_⟩
  have hic : ∀ x, cov false false [.lower lb, .upper ub] (.fin x) = true ↔ x ∈ Set.Icc l u := fun x => by
    rw [← hf]
    have := Selection.ic_fin hi x
    rw [Selection.ic, icov] at this
    rw [this, (C21_bounded l u x).2.2.2.1]; rfl
  have ct : ∀ x, tcov s.tree false (.fin x) = _ := fun x => (congrArg (fun t => tcov t false (.fin x)) w.eq).trans
    (cov_two hk w.fits w.fits2 w.ltA w.gtM w.ltM w.gtB w.cA w.cM false _)
  by_cases hM : w.M = []
  · refine .inl ⟨?_, ?_, ?_⟩
    · ext x
      rw [Set.mem_inter_iff, Selection.mem_pts dbg v, at', ct, ← hic, cov_pair hk, hM, g2, g3, g5]
      simp only [Set.mem_empty_iff_false, iff_false, not_and, Bool.not_eq_true]
      split_ifs <;> simp_all [cov]
    · rw [hM, Selection.ofInterval, tree_fromRaw hw, hf]; rfl
    · have vr : Valid [Tine.lower lb, .upper ub] := by rw [← hf]; exact fromRaw_valid hw
      ext x
      simp only [hM, List.nil_append]
      rw [Selection.mem_pts dbg (s := ⟨_⟩) vr]
      exact hic x
  · refine .inr ⟨?_, fun r => hM ?_⟩
    · rcases hM' : w.M with _ | ⟨m, M⟩
      · exact absurd hM' hM
      have k1 := w.gtM m (by rw [hM']; simp)
      have k2 := w.ltM m (by rw [hM']; simp)
      have hab : tcov s.tree false m.key = true ∨ tcov s.tree true m.key = true := by
        have hc := w.cM
        have ct := fun aft => (congrArg (fun t => tcov t aft m.key) w.eq).trans
          (cov_two hk w.fits w.fits2 w.ltA w.gtM w.ltM w.gtB w.cA w.cM aft m.key)
        have c1 := ct false
        have c2 := ct true
        rw [if_neg k1.2.not_gt, if_neg k1.2.ne', if_pos k2.2] at c1 c2
        rw [hM'] at hc c1 c2
        have hc1 := hc.1
        rw [g3] at hc1 c1 c2
        have hs := w.sM
        rw [hM'] at hs
        have hg : BSet.Gt M m.key := fun x hx => ⟨hs.1 x (by simp [hx]), (List.pairwise_cons.1 hs.2).1 x hx⟩
        rw [cov, if_neg (lt_irrefl _), if_pos ⟨rfl, rfl⟩] at c1
        rw [cov, if_neg (lt_irrefl _), if_neg (by simp), cov_gt hg] at c2
        rw [c1, c2]
        clear * - hc1 k1
        have ok := k1.1
        rcases m with (_ | _ | _) | (_ | _ | _) | (_ | _ | _) <;>
          simp_all [Tine.isUpperBound, Tine.isLowerBound, Tine.inclAt, Tine.Ok]
      obtain ⟨y, hy⟩ : ∃ y, m.key = .fin y := by
        rcases key_three m.key with e | e | e
        · rw [e] at k1; exact absurd k1.2 (Key.not_lt_bot _)
        · exact e
        · rw [e] at k2; exact absurd k2.2 (Key.not_top_lt _)
      rw [hy] at hab k1 k2
      have hyI : y ∈ Set.Icc l u := by
        rw [← hic, cov_pair hk, if_neg k1.2.not_gt, if_neg k1.2.ne', if_pos k2.2]
      have hd := hs.do
      rw [hd.1, Bool.or_eq_true, ← or_assoc, or_self] at hab
      rcases hab with hab | hab
      · exact ⟨y, (Selection.mem_pts dbg v _).2 hab, hyI⟩
      · cases hq : succ y with
        | none => rw [hq] at hab; cases hab
        | some z =>
          rw [hq] at hab
          have hz : z ∈ s.pts dbg := (Selection.mem_pts dbg v _).2 hab
          obtain ⟨z1, z2⟩ := LawfulFinite.succ_some y z hq
          refine ⟨z, hz, hyI.1.trans z1.le, ?_⟩
          by_contra hzu
          have : y = u := le_antisymm hyI.2 (by
            by_contra hh
            exact hzu (z2 u (not_le.1 hh)))
          subst this
          exact h.2.2.1 (.inr ⟨z, hz, hq⟩)
    have vr := (Selection.reachable_valid r).2
    rcases hM' : w.M with _ | ⟨m, M⟩
    · rfl
    have := w.cM
    rw [g3, hM'] at this
    simp only [hM'] at vr
    have h4 := this.1
    have h5 := vr.2.1
    simp only [Tine.isLowerBound] at h5
    exact absurd (h4.symm.trans h5) (by simp)

/-- `{10}` is clear of the ends of `[4,6]`, `{0, 1, 20}` of those of `[4,9]`: the results are `[4,6]` and `[4,9]`.
`{0, 10, 20}` is clear of those of `[4,16]`: the result is corrupt. -/
example : (∀ dbg, (Selection.demo [(u8 10, u8 10)]).intersectInPlace dbg (Interval.mkClosed (u8 4) (u8 6)) =
      .ok (Selection.demo [(u8 4, u8 6)])) ∧
    (∀ dbg, (Selection.demo [(u8 0, u8 1), (u8 20, u8 20)]).intersectInPlace dbg
      (Interval.mkClosed (u8 4) (u8 9)) = .ok (Selection.demo [(u8 4, u8 9)])) ∧
    (∀ dbg, (Selection.demo [(u8 0, u8 0), (u8 10, u8 10), (u8 20, u8 20)]).intersectInPlace dbg
      (Interval.mkClosed (u8 4) (u8 16)) = .ok ⟨[.lower (.excl (u8 3)), .lower (.excl (u8 9)),
        .upper (.excl (u8 11)), .upper (.excl (u8 17))]⟩) := by decide

example : (Selection.demo [(u8 10, u8 10)]).UnionBuilt ∧ (Selection.demo [(u8 10, u8 10)]).ClearOf true (u8 4) (u8 6) := by
  refine ⟨Selection.demo_built _ (by decide), ?_, ?_, ?_, ?_⟩
  · rintro (h | ⟨q, h, e⟩)
    · exact absurd (show Selection.contains true _ _ = .ok true from h) (by decide)
    · cases (show some (u8 3) = some q from e)
      exact absurd (show Selection.contains true _ _ = .ok true from h) (by decide)
  · intro q hq
    cases (show some (u8 3) = some q from hq)
    rintro (h | ⟨q, h, e⟩)
    · exact absurd (show Selection.contains true _ _ = .ok true from h) (by decide)
    · cases (show some (u8 2) = some q from e)
      exact absurd (show Selection.contains true _ _ = .ok true from h) (by decide)
  · rintro (h | ⟨q, h, e⟩)
    · exact absurd (show Selection.contains true _ _ = .ok true from h) (by decide)
    · cases (show some (u8 7) = some q from e)
      exact absurd (show Selection.contains true _ _ = .ok true from h) (by decide)
  · intro q hq
    cases (show some (u8 7) = some q from hq)
    rintro (h | ⟨q, h, e⟩)
    · exact absurd (show Selection.contains true _ _ = .ok true from h) (by decide)
    · cases (show some (u8 8) = some q from e)
      exact absurd (show Selection.contains true _ _ = .ok true from h) (by decide)

/-- Selections of any history and any interval, in terms of the intervals kept in the selection. -/
theorem C100_selection_any (dbg : Bool) (s : Selection α) (hs : s.Reachable) (i : Interval α) (hi : i.Obtainable)
    (is : List (RawInterval α)) (his : s.tree.intervals dbg = .ok is) :
    (∃ s', s.intersectInPlace dbg i = .ok s') ↔
      is = [] ∨ ¬ i.raw.denormalized.TwoEnded ∨ i.raw.denormalized = .full ∨
        (if dbg then RawInterval.CutReturns is i.raw.denormalized
          else RawInterval.CutReturnsRelease is i.raw.denormalized) := by
  rw [← C100_returns_iff dbg s.tree (valid_reachable (Selection.reachable_valid hs)) _
    (RawInterval.denorm_wf (Interval.obtainable_nf hi)) is his, Selection.intersectInPlace]
  cases TineTree.intersectInPlace dbg s.tree i.raw.denormalized with
  | error => constructor <;> rintro ⟨_, h⟩ <;> cases h
  | ok t => exact ⟨fun _ => ⟨t, rfl⟩, fun _ => ⟨⟨t⟩, rfl⟩⟩

example : (Selection.demo [(u8 3, u8 5), (u8 9, u8 12)]).Reachable ∧ (Interval.mkClosed (u8 4) (u8 10)).Obtainable ∧
    (∃ is, (Selection.demo [(u8 3, u8 5), (u8 9, u8 12)]).tree.intervals true = .ok is ∧ is.length = 2) ∧
    ((Selection.demo [(u8 3, u8 5), (u8 9, u8 12)]).intersectInPlace true (Interval.mkClosed (u8 4) (u8 10))).isOk ∧
    ¬ ((Selection.demo [(u8 3, u8 5)]).intersectInPlace true (Interval.mkClosed (u8 3) (u8 7))).isOk :=
  ⟨(Selection.demo_built _ (by decide)).reachable, .ofRaw (.closed (u8 4) (u8 10)) (by decide), ⟨_, rfl, rfl⟩,
    by decide, by decide⟩

end Sel
end NI
