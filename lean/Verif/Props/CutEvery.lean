import Verif.Lemmas.IsectAll
import Verif.Props.Exact
import Verif.Props.Cut

/-! # Exactly when C38 holds on any order (C98) and C51 for any history -/

set_option linter.unusedSimpArgs false
set_option linter.unusedVariables false
set_option linter.unusedSectionVars false

namespace NI
variable {α : Type} [LinearOrder α]
open TT

/-- None of the intervals `is` reaches an end of `i` or anything between its ends. -/
def RawInterval.Untouched (is : List (RawInterval α)) (i : RawInterval α) : Prop :=
  ∀ l u, i.lowerBound = some l → i.upperBound = some u → ∀ p, (Tine.lower l).pos ≤ p → p ≤ (Tine.upper u).pos →
    ¬ RawInterval.CoversBelow is p ∧ ¬ RawInterval.CoversAt is p ∧ ¬ RawInterval.CoversAbove is p

theorem TT.untouched_iff {t : TineTree α} (h : Valid t) {i : RawInterval α} {l u : Bound α}
    (e : Tine.fromRawInterval i = [.lower l, .upper u])
    (hk : (Tine.lower l).key < (Tine.upper u).key) (w : Two t (Tine.lower l).key (Tine.upper u).key) :
    RawInterval.Untouched (pieces none t) i ↔
      w.b = false ∧ w.a = false ∧ w.c = false ∧ w.d = false ∧ w.a2 = false ∧ w.e = false ∧ w.M = [] := by
  obtain ⟨b1, b2⟩ := bounds_of_tines e
  obtain ⟨⟨v1, v2, v3⟩, v4, v5, v6⟩ := w.views hk
  have key : RawInterval.Untouched (pieces none t) i ↔ ∀ k, (Tine.lower l).key ≤ k → k ≤ (Tine.upper u).key →
      bef false t k = false ∧ tcov t false k = false ∧ tcov t true k = false := by
    unfold RawInterval.Untouched
    constructor
    · intro H k h1 h2
      have := H l u b1 b2 k.toW (by rw [Tine.pos_eq]; exact Key.le_def.1 h1) (by rw [Tine.pos_eq]; exact Key.le_def.1 h2)
      simpa [coversBelow_iff h, coversAbove_iff h, coversAt_iff h] using this
    · intro H l' u' e1 e2 p h1 h2
      rw [b1] at e1; rw [b2] at e2; cases e1; cases e2
      rw [Tine.pos_eq] at h1 h2
      obtain ⟨k, rfl⟩ : ∃ k : Key α, k.toW = p := by
        cases p with
        | bot => exact ⟨.bot, rfl⟩
        | coe p => cases p with
          | top => exact ⟨.top, rfl⟩
          | coe p => exact ⟨.fin p, rfl⟩
      have := H k (Key.le_def.2 h1) (Key.le_def.2 h2)
      simpa [coversBelow_iff h, coversAbove_iff h, coversAt_iff h] using this
  rw [key]
  have ct : ∀ aft k, tcov t aft k = _ := fun aft k => (congrArg (fun t => tcov t aft k) w.eq).trans
    (cov_two hk w.fits w.fits2 w.ltA w.gtM w.ltM w.gtB w.cA w.cM aft k)
  have cb : ∀ k, bef false t k = _ := fun k => (congrArg (fun t => bef false t k) w.eq).trans
    (bef_two hk w.fits w.fits2 w.ltA w.gtM w.ltM w.gtB w.cA w.cM k)
  constructor
  · intro H
    have h1 := H _ le_rfl hk.le
    have h2 := H _ hk.le le_rfl
    rw [v1, v2, v3] at h1
    rw [v4, v5, v6] at h2
    refine ⟨h1.1, h1.2.1, h1.2.2, h2.1, h2.2.1, h2.2.2, ?_⟩
    cases hM : w.M with
    | nil => rfl
    | cons m M =>
      exfalso
      have g1 := w.gtM m (by rw [hM]; simp)
      have g2 := w.ltM m (by rw [hM]; simp)
      have := H m.key g1.2.le g2.2.le
      rw [ct, ct] at this
      have hc := w.cM
      rw [hM] at this hc
      have hc1 := hc.1
      rw [h1.2.2] at hc1 this
      have := this.2
      have hs := w.sM
      rw [hM] at hs
      have hg : BSet.Gt M m.key := fun x hx => ⟨hs.1 x (by simp [hx]), (List.pairwise_cons.1 hs.2).1 x hx⟩
      rw [if_neg g1.2.not_gt, if_neg g1.2.ne', if_pos g2.2, if_neg g1.2.not_gt, if_neg g1.2.ne', if_pos g2.2,
        cov, if_neg (lt_irrefl _), if_pos ⟨rfl, rfl⟩, cov, if_neg (lt_irrefl _), if_neg (by simp), cov_gt hg] at this
      have ok := g1.1
      rcases m with (_ | _ | _) | (_ | _ | _) | (_ | _ | _) <;>
        simp_all [Tine.isUpperBound, Tine.isLowerBound, Tine.inclAt, Tine.Ok]
  · rintro ⟨h1, h2, h3, h4, h5, h6, h7⟩ k k1 k2
    rw [ct, ct, cb]
    rcases eq_or_lt_of_le k1 with e1 | e1
    · subst e1
      simp [h1, h2, h3]
    · rcases eq_or_lt_of_le k2 with e2 | e2
      · subst e2
        simp [h4, h5, h6, e1.not_gt, e1.ne']
      · simp [h3, h7, e1.not_gt, e1.ne', e2, bef, cov]

/-- On every linear order: `intersect_in_place` is right exactly if the ends are placed well, or if
it changes a tree that lies away from the interval into that interval, and the interval happens to
be free of points, such as `(1, 2)` over the integers. -/
theorem C38_every_order_iff (dbg : Bool)
    (t : TineTree α) (ht : t.Reachable) (i : RawInterval α) (hi : i.WF) (is : List (RawInterval α))
    (his : TineTree.intervals dbg t = .ok is) (hne : is ≠ []) (h2 : i.TwoEnded) (hf : i ≠ .full) :
    (∃ t', TineTree.intersectInPlace dbg t i = .ok t' ∧ t'.Reachable ∧
      ∀ x, TineTree.contains dbg t' x = .ok true ↔
        (TineTree.contains dbg t x = .ok true ∧ i.contains x = true)) ↔
    RawInterval.CutClean dbg is i ∨
      (RawInterval.Untouched is i ∧ ∀ x, i.contains x = false) := by
  have hcl := C38_cut_clean_partial dbg t ht i hi is his h2
  have h := TT.reachable_valid ht
  rw [TT.intervals_eq dbg h] at his
  cases his
  have ht0 : t ≠ [] := by rintro rfl; exact hne rfl
  rcases fromRaw_cases hi with ⟨e0, e⟩ | ⟨p, e0, e⟩ | ⟨lb, ub, e, hk⟩
  · exact absurd e0 h2.1
  · exact absurd e0 (h2.2 p)
  obtain ⟨w⟩ := two h hk
  have vs := w.views hk
  obtain ⟨⟨v1, v2, v3⟩, v4, v5, v6⟩ := vs
  have ei : TineTree.intersectInPlace dbg t i =
      TineTree.intersectProper dbg t (.lower lb) (.upper ub) := by
    have c1 : TineTree.isEmpty t = false := by simpa [TineTree.isEmpty] using ht0
    cases i <;> first
      | exact absurd rfl h2.1
      | exact absurd rfl (h2.2 _)
      | exact absurd rfl hf
      | simp [TineTree.intersectInPlace, c1, RawInterval.isFull, RawInterval.isEmpty, e]
  have hic : ∀ x, cov false false [.lower lb, .upper ub] (.fin x) = i.contains x := fun x => by
    rw [← e]; exact TT.icov_fin hi x
  constructor
  · rintro ⟨t', e', r', c'⟩
    have v' := TT.reachable_valid r'
    rw [ei] at e'
    rcases intersectProper_right dbg hk w e' v' (fun x => by
      have := c' x
      rw [TT.contains_iff dbg v', TT.contains_iff dbg h, ← Bool.and_eq_true, ← Bool.eq_iff_iff] at this
      rw [this, hic]) with g | ⟨g1, g2, g3, g4, g5, g6, g7, g8⟩
    · left
      rw [cutClean_iff dbg h hi e hk, v1, v2, v3, v4, v5, v6]; exact g
    · right
      exact ⟨(untouched_iff h e hk w).2 ⟨g1, g2, g3, g4, g5, g6, g7⟩, fun x => (hic x).symm.trans (g8 x)⟩
  · rintro (g | ⟨g, g8⟩)
    · exact hcl g
    · obtain ⟨g1, g2, g3, g4, g5, g6, g7⟩ := (untouched_iff h e hk w).1 g
      have vr : Valid [Tine.lower lb, .upper ub] := by rw [← e]; exact fromRaw_valid hi
      refine ⟨[.lower lb, .upper ub], ?_, TT.valid_reachable vr, fun x => ?_⟩
      · rw [ei]
        have hs := interiorSplit_eq dbg (by simp [Tine.Ok]) (by simp [Tine.Ok]) hk w
        have em : ∀ k : Key α, edge k false false false = [] := fun k => by cases k <;> rfl
        rw [g1, g2, g3, g4, g5, g6, g7, em, em] at hs
        have i1 : BSet.insert (Tine.lower lb) [] = [.lower lb] := rfl
        have i2 : BSet.insert (Tine.upper ub) [.lower lb] = [.lower lb, .upper ub] := by
          have := BSet.insert_split (x := Tine.upper ub) (A := [.lower lb]) (B := [])
            (by simp [Tine.Ok]) (fun x hx => by
              rw [List.mem_singleton.1 hx]; exact ⟨by simp [Tine.Ok], hk⟩) (.nil _)
          simpa using this
        cases dbg <;>
          simp [TineTree.intersectProper, hs, TineTree.someAnd, TineTree.noneOr, dassert, Tine.isLowerBound,
            Tine.isUpperBound, i1, i2, bind, Except.bind, pure, Except.pure]
      · rw [TT.contains_iff dbg vr, tcov, hic, g8]; simp

/-- The tree `[5,6]` and `(1,2)` over the integers: the result `(1,2)` is right, having no members,
although the ends of `(1,2)` are not placed well. -/
example : RawInterval.Untouched [.closed (5 : Int) 6] (.opn 1 2) ∧
    (∀ x, (RawInterval.opn (1 : Int) 2).contains x = false) ∧
    TineTree.intersectInPlace true (TineTree.fromRawInterval (.closed (5 : Int) 6)) (.opn 1 2) =
      .ok (TineTree.fromRawInterval (.opn 1 2)) := by
  refine ⟨?_, fun x => by simp [RawInterval.contains]; omega, by decide⟩
  intro l u h1 h2 p p1 p2
  cases h1; cases h2
  have hp : p < ((((5 : Int) : WithTop Int)) : WithBot (WithTop Int)) := by
    refine lt_of_le_of_lt p2 ?_
    simp [Tine.pos]
    decide
  refine ⟨?_, ?_, ?_⟩ <;> rintro ⟨j, hj, h⟩ <;> cases List.mem_singleton.1 hj
  · obtain ⟨l, u, h1, h2, h3, h4⟩ := h
    cases h1; cases h2
    exact (h3.trans hp).false
  · obtain ⟨x, rfl, h3⟩ := h
    have h4 : x < 5 := WithTop.coe_lt_coe.1 (WithBot.coe_lt_coe.1 hp)
    exact absurd h3.1 (by omega)
  · obtain ⟨l, u, h1, h2, h3, h4⟩ := h
    cases h1; cases h2
    exact (lt_of_le_of_lt h3 hp).false

/-- All intervals and trees, on every linear order: when `intersect_in_place` leaves a proper tree with
the right points. -/
theorem C98_intersect_in_place_iff (dbg : Bool) (t : TineTree α) (ht : t.Reachable)
    (i : RawInterval α) (hi : i.WF) (is : List (RawInterval α)) (his : t.intervals dbg = .ok is) :
    (∃ t', t.intersectInPlace dbg i = .ok t' ∧ t'.Reachable ∧ ∀ x, t'.contains dbg x = .ok true ↔
      (t.contains dbg x = .ok true ∧ i.contains x = true)) ↔
    (is = [] ∨ ¬ i.TwoEnded ∨ i = .full ∨ RawInterval.CutClean dbg is i ∨
      (RawInterval.Untouched is i ∧ ∀ x, i.contains x = false)) := by
  by_cases h1 : is = []
  · exact ⟨fun _ => .inl h1, fun _ => C38_intersect_in_place_partial dbg t ht i hi is his (.inl h1)⟩
  by_cases h2 : i.TwoEnded
  · by_cases h3 : i = .full
    · exact ⟨fun _ => .inr (.inr (.inl h3)),
        fun _ => C38_intersect_in_place_partial dbg t ht i hi is his (.inr (.inr (.inl h3)))⟩
    · rw [C38_every_order_iff dbg t ht i hi is his h1 h2 h3]
      tauto
  · exact ⟨fun _ => .inr (.inl h2),
      fun _ => C38_intersect_in_place_partial dbg t ht i hi is his (.inr (.inl h2))⟩

example : (TineTree.fromRawInterval (.closed (5 : Int) 6)).Reachable ∧
    TineTree.intervals true (TineTree.fromRawInterval (.closed (5 : Int) 6)) = .ok [.closed 5 6] :=
  ⟨.fromRaw (by show (5 : Int) < 6; decide), by decide⟩

/-! ## Selections of any history -/

section Sel
variable [Finite α] [LawfulFinite α]
open Finite

/-- Whatever the history of a selection, `intersect_in_place` with `[l,u]` leaves a sound selection of the
common points exactly if the selection is empty, or the interval is everything, or the interval, widened
to the neighbours of its ends, cuts the intervals kept in the selection cleanly. -/
theorem C51_exact_any (dbg : Bool) (s : Selection α) (hs : s.Reachable) (l u : α) (hlu : l ≤ u)
    (is : List (RawInterval α)) (his : s.tree.intervals dbg = .ok is) :
    (∃ s', s.intersectInPlace dbg (Interval.mkClosed l u) = .ok s' ∧ s'.Reachable ∧
      s'.pts dbg = s.pts dbg ∩ Set.Icc l u) ↔
    is = [] ∨ (l = minimum ∧ u = maximum) ∨
      RawInterval.CutClean dbg is (RawInterval.closed l u).denormalized := by
  have v := Selection.reachable_valid hs
  have hi : (Interval.mkClosed l u).Obtainable := .mkClosed _ _
  have hw := RawInterval.denorm_wf (Interval.obtainable_nf hi)
  have hd := Selection.closed_denorm hlu
  have hfull : (Interval.mkClosed l u).raw.denormalized = .full ↔ l = minimum ∧ u = maximum := by
    rw [Selection.closed_denorm hlu, ← LawfulFinite.pred_none, ← LawfulFinite.succ_none]
    simp only [RawInterval.denormalized]
    cases pred l <;> cases succ u <;> simp
  have htwo : (Interval.mkClosed l u).raw.denormalized.TwoEnded := by
    rw [Selection.closed_denorm hlu]
    simp only [RawInterval.denormalized]
    cases hp : pred l <;> cases hq : succ u <;> simp [RawInterval.TwoEnded]
  have hc : ∀ x, (Interval.mkClosed l u).raw.denormalized.contains x = true ↔ x ∈ Set.Icc l u := fun x => by
    rw [← TT.icov_fin hw]
    have := Selection.ic_fin hi x
    rw [Selection.ic] at this
    rw [this, (C21_bounded l u x).2.2.2.1]; exact Iff.rfl
  have key := C98_intersect_in_place_iff dbg s.tree (TT.valid_reachable v) _ hw is his
  have hno : ¬ ∀ x, (Interval.mkClosed l u).raw.denormalized.contains x = false := fun h => by
    have := (hc l).2 ⟨le_rfl, hlu⟩
    rw [h l] at this; cases this
  have hm : ∀ (r : Selection α), r.tree.Reachable → ∀ x, x ∈ r.pts dbg ↔ r.tree.contains dbg x = .ok true :=
    fun r hr x => by
      rw [Selection.mem_pts dbg (reachable_valid hr), TT.contains_iff dbg (reachable_valid hr)]
  rw [← hd, ← hfull]
  trans
  · refine Iff.trans ?_ key
    constructor
    · rintro ⟨s', e, hr, h⟩
      rw [Selection.intersectInPlace] at e
      cases h' : TineTree.intersectInPlace dbg s.tree (Interval.mkClosed l u).raw.denormalized with
      | error => rw [h'] at e; cases e
      | ok t' =>
        rw [h'] at e; cases e
        have hr' := TT.valid_reachable (Selection.reachable_valid hr)
        refine ⟨t', rfl, hr', fun x => ?_⟩
        rw [← hm ⟨t'⟩ hr', h, hc, ← hm s (TT.valid_reachable v)]; exact Iff.rfl
    · rintro ⟨t', e, hr, h⟩
      have e' : s.intersectInPlace dbg (Interval.mkClosed l u) = .ok ⟨t'⟩ := by
        rw [Selection.intersectInPlace, e]; rfl
      refine ⟨⟨t'⟩, e', .intersectInPlace hs hi e' hr, ?_⟩
      ext x
      rw [hm ⟨t'⟩ hr, h, hc, ← hm s (TT.valid_reachable v)]; exact Iff.rfl
  · tauto

/-- The complement of `{1, 2, 3}` keeps the intervals `(←,0]` and `[4,→)`; `[5,9]` widens to `(4,10)`,
which both ends cut inside `[4,→)`. -/
example : ∃ s : Selection U8, s.Reachable ∧
    TineTree.intervals true s.tree = .ok [.to (u8 0), .frm (u8 4)] ∧
    RawInterval.CutClean true [.to (u8 0), .frm (u8 4)] (RawInterval.closed (u8 5) (u8 9)).denormalized := by
  refine ⟨⟨[.lower .inf, .upper (.incl (u8 0)), .lower (.incl (u8 4)), .upper .inf]⟩,
    .complement (dbg := true) (Selection.demo_built [(u8 1, u8 3)] (by decide)).reachable (by decide),
    by decide, .excl (u8 4), .excl (u8 10), by decide, by decide, .inl ⟨?_, ?_⟩⟩ <;>
  refine ⟨.frm (u8 4), by simp, _, _, rfl, rfl, ?_, ?_⟩ <;> simp [Tine.pos] <;> decide

end Sel

end NI
