import Verif.Props.Undo

/-! # Lemmas on removals and additions in another order (C119) -/

namespace NI.TT
open _root_.NI.Finite
variable {α : Type} [LinearOrder α]

/-- An interval that is not a point changes its coverage at its ends only, and there it changes from one side to the other. -/
theorem ends_view {d : RawInterval α} (hd : d.WF) (hp : ∀ p, d ≠ .point p) (x : α) :
    (¬ EndAt d (.fin x) → bef false (Tine.fromRawInterval d) (.fin x) = icov d false (.fin x) ∧
      icov d true (.fin x) = icov d false (.fin x)) ∧
    (EndAt d (.fin x) → icov d true (.fin x) = !bef false (Tine.fromRawInterval d) (.fin x)) := by
  unfold EndAt icov
  rcases fromRaw_cases hd with ⟨-, e⟩ | ⟨p, e, -⟩ | ⟨lb, ub, e, hk⟩
  · rw [e]; simp [bef, cov]
  · exact absurd e (hp p)
  · rw [e]
    simp only [List.mem_cons, List.not_mem_nil, or_false, exists_eq_or_imp, exists_eq_left, not_or, bef, cov]
    generalize (Tine.lower lb).key = k1 at *
    generalize (Tine.upper ub).key = k2 at *
    generalize Key.fin x = k at *
    simp only [Tine.isLowerBound, Bool.true_eq_false, and_false, if_false, and_true]
    rcases lt_trichotomy k k1 with h1 | h1 | h1
    · have := h1.trans hk
      simp [h1, h1.le, h1.ne', this.ne']
    · subst h1
      simp [hk]
    · rcases lt_trichotomy k k2 with h2 | h2 | h2
      · simp [not_le.2 h1, h1.not_gt, h2, h2.le, h1.ne, h1.ne', h2.ne']
      · subst h2
        simp [not_le.2 h1, h1.not_gt, h1.ne, h1.ne']
      · simp [not_le.2 h1, h1.not_gt, not_le.2 h2, h2.not_gt, h1.ne, h1.ne', h2.ne, h2.ne']

theorem bef_minus {t t' : TineTree α} {d : RawInterval α}
    (h : ∀ k, tcov t' true k = (tcov t true k && !icov d true k)) (p : α) :
    bef false t' (.fin p) = (bef false t (.fin p) && !bef false (Tine.fromRawInterval d) (.fin p)) := by
  obtain ⟨k0, h0, h1⟩ := last_below (t ++ (t' ++ Tine.fromRawInterval d)) (k := .fin p) (by simp)
  rw [bef_cov h0 fun x hx => h1 x (by simp [hx]), bef_cov h0 fun x hx => h1 x (by simp [hx]),
    bef_cov h0 fun x hx => h1 x (by simp [hx])]
  exact h k0

/-- What is left after two removals. -/
theorem minus_minus_cov (dbg : Bool) {t : TineTree α} (ht : Valid t) {d1 d2 : RawInterval α} (h1 : d1.WF)
    (h2 : d2.WF) (p1 : ∀ p, d1 ≠ .point p) (p2 : ∀ p, d2 ≠ .point p) :
    ∃ t', (do TineTree.minusInPlace dbg (← TineTree.minusInPlace dbg t d1) d2) = .ok t' ∧ Valid t' ∧
      (∀ k, tcov t' true k = (tcov t true k && !icov d1 true k && !icov d2 true k)) ∧
      ∀ x, tcov t' false (.fin x) = true ↔
        (tcov t false (.fin x) = true ∧ icov d1 false (.fin x) = false ∧ icov d2 false (.fin x) = false) ∨
        (holeAt t (.fin x) = true ∧ ((EndAt d1 (.fin x) ∧ icov d2 false (.fin x) = false) ∨
          (EndAt d2 (.fin x) ∧ ¬ EndAt d1 (.fin x) ∧ icov d1 false (.fin x) = false))) := by
  classical
  obtain ⟨t1, e1, v1, c1⟩ := minusTwo_ok dbg ht h1 p1
  obtain ⟨t2, e2, v2, c2⟩ := minusTwo_ok dbg v1 h2 p2
  have ct : ∀ k, tcov t1 true k = (tcov t true k && !icov d1 true k) := fun k => by rw [c1]; simp
  refine ⟨t2, by rw [e1]; exact e2, v2, fun k => by rw [c2, ct]; simp, fun x => ?_⟩
  obtain ⟨w1, w2⟩ := ends_view h1 p1 x
  rw [c2, holeAt, bef_minus ct, ct, c1]
  have d1e : decide (∃ y ∈ Tine.fromRawInterval d1, y.key = Key.fin x) = decide (EndAt d1 (.fin x)) := by
    rw [Bool.eq_iff_iff, decide_eq_true_eq, decide_eq_true_eq]; rfl
  have d2e : decide (∃ y ∈ Tine.fromRawInterval d2, y.key = Key.fin x) = decide (EndAt d2 (.fin x)) := by
    rw [Bool.eq_iff_iff, decide_eq_true_eq, decide_eq_true_eq]; rfl
  rw [d1e, d2e]
  have hh : holeAt t (.fin x) = (bef false t (.fin x) && !tcov t false (.fin x) && tcov t true (.fin x)) := rfl
  rw [hh]
  by_cases g1 : EndAt d1 (.fin x) <;> by_cases g2 : EndAt d2 (.fin x)
  all_goals
    simp only [g1, not_true_eq_false, not_false_eq_true, forall_true_left, false_imp_iff] at w1 w2
    revert w1 w2
    cases bef false t (.fin x) <;> cases tcov t false (.fin x) <;> cases tcov t true (.fin x) <;>
    cases bef false (Tine.fromRawInterval d1) (.fin x) <;> cases icov d1 false (.fin x) <;>
    cases icov d1 true (.fin x) <;> cases icov d2 false (.fin x) <;> simp [g1, g2]

/-- Two removals in either order. -/
theorem minus_comm_iff (dbg : Bool) {t : TineTree α} (ht : Valid t) {d1 d2 : RawInterval α} (h1 : d1.WF)
    (h2 : d2.WF) (p1 : ∀ p, d1 ≠ .point p) (p2 : ∀ p, d2 ≠ .point p) :
    (do TineTree.minusInPlace dbg (← TineTree.minusInPlace dbg t d1) d2) =
      (do TineTree.minusInPlace dbg (← TineTree.minusInPlace dbg t d2) d1) ↔
    ∀ x, holeAt t (.fin x) = true → EndAt d1 (.fin x) → EndAt d2 (.fin x) →
      icov d1 false (.fin x) = icov d2 false (.fin x) := by
  obtain ⟨t1, e1, v1, c1, f1⟩ := minus_minus_cov dbg ht h1 h2 p1 p2
  obtain ⟨t2, e2, v2, c2, f2⟩ := minus_minus_cov dbg ht h2 h1 p2 p1
  rw [e1, e2, Except.ok.injEq]
  constructor
  · rintro rfl x hh g1 g2
    have := (f1 x).symm.trans (f2 x)
    have nf : tcov t false (.fin x) = false := by
      rw [holeAt] at hh; revert hh; cases tcov t false (.fin x) <;> simp
    simp only [hh, g1, g2, nf] at this
    revert this
    cases icov d1 false (.fin x) <;> cases icov d2 false (.fin x) <;> simp
  · intro h
    refine valid_ext v1 v2 fun aft k hr => ?_
    change tcov t1 aft k = tcov t2 aft k
    cases aft
    · cases k with
      | bot => exact absurd (hr.2 rfl) (by simp)
      | top => exact absurd rfl hr.1
      | fin x =>
        rw [Bool.eq_iff_iff, f1, f2]
        have := h x
        by_cases hh : holeAt t (.fin x) = true <;> by_cases g1 : EndAt d1 (.fin x) <;> by_cases g2 : EndAt d2 (.fin x) <;>
          simp only [hh, g1, g2] at this ⊢ <;> revert this <;> cases tcov t false (.fin x) <;>
          cases icov d1 false (.fin x) <;> cases icov d2 false (.fin x) <;> simp
    · rw [c1, c2, Bool.and_right_comm]

/-- An addition and a removal in either order: what is the same at the points. -/
theorem add_minus_cov (dbg : Bool) {t : TineTree α} (ht : Valid t) {d1 d2 : RawInterval α} (h1 : d1.WF)
    (h2 : d2.WF) (p2 : ∀ p, d2 ≠ .point p) :
    ∃ u l r, TineTree.unionInPlace dbg t d1 = .ok u ∧ Valid u ∧ TineTree.minusInPlace dbg u d2 = .ok l ∧ Valid l ∧
      (do TineTree.unionInPlace dbg (← TineTree.minusInPlace dbg t d2) d1) = .ok r ∧ Valid r ∧
      (∀ k, tcov l true k = tcov r true k ↔ (icov d1 true k && icov d2 true k) = false) ∧
      ∀ x, tcov l false (.fin x) = tcov r false (.fin x) ↔ (icov d1 false (.fin x) && icov d2 false (.fin x)) = false ∧
        (EndAt d2 (.fin x) → holeAt u (.fin x) = true → holeAt t (.fin x) = true) := by
  classical
  obtain ⟨u, e, v, c⟩ := unionInPlace_ok dbg ht h1
  obtain ⟨l, e1, v1, c1⟩ := minusTwo_ok dbg v h2 p2
  obtain ⟨m, e2, v2, c2⟩ := minusTwo_ok dbg ht h2 p2
  obtain ⟨r, e3, v3, c3⟩ := unionInPlace_ok dbg v2 h1
  refine ⟨u, l, r, e, v, e1, v1, by rw [e2]; exact e3, v3, fun k => ?_, fun x => ?_⟩
  · rw [c1, c, c3, c2]
    cases tcov t true k <;> cases icov d1 true k <;> cases icov d2 true k <;> simp
  · have d2e : decide (∃ y ∈ Tine.fromRawInterval d2, y.key = Key.fin x) = decide (EndAt d2 (.fin x)) := by
      rw [Bool.eq_iff_iff, decide_eq_true_eq, decide_eq_true_eq]; rfl
    have hb : bef false t (.fin x) = true → bef false u (.fin x) = true := by
      obtain ⟨k0, h0, h1⟩ := last_below (t ++ u) (k := .fin x) (by simp)
      rw [bef_cov h0 fun x hx => h1 x (by simp [hx]), bef_cov h0 fun x hx => h1 x (by simp [hx])]
      intro h
      change tcov u true k0 = true
      rw [c, show tcov t true k0 = true from h, Bool.true_or]
    rw [c1, c, c3, c2, d2e, holeAt, holeAt, c, c]
    by_cases g : EndAt d2 (.fin x) <;> simp only [g] <;> revert hb <;>
    cases bef false t (.fin x) <;> cases bef false u (.fin x) <;> cases tcov t false (.fin x) <;>
    cases tcov t true (.fin x) <;> cases icov d1 false (.fin x) <;> cases icov d1 true (.fin x) <;>
    cases icov d2 false (.fin x) <;> simp

/-- An addition and a removal in either order. -/
theorem add_minus_iff (dbg : Bool) {t : TineTree α} (ht : Valid t) {d1 d2 : RawInterval α} (h1 : d1.WF)
    (h2 : d2.WF) (p2 : ∀ p, d2 ≠ .point p) {u : TineTree α} (hu : TineTree.unionInPlace dbg t d1 = .ok u) :
    TineTree.minusInPlace dbg u d2 = (do TineTree.unionInPlace dbg (← TineTree.minusInPlace dbg t d2) d1) ↔
      (∀ aft k, RealPos aft k → (icov d1 aft k && icov d2 aft k) = false) ∧
      ∀ x, EndAt d2 (.fin x) → holeAt u (.fin x) = true → holeAt t (.fin x) = true := by
  obtain ⟨u', l, r, e, v, e1, v1, e2, v2, c1, c2⟩ := add_minus_cov dbg ht h1 h2 p2
  rw [hu] at e; cases e
  rw [e1, e2, Except.ok.injEq]
  constructor
  · rintro rfl
    refine ⟨fun aft k hr => ?_, fun x => ((c2 x).1 rfl).2⟩
    cases aft
    · cases k with
      | bot => exact absurd (hr.2 rfl) (by simp)
      | top => exact absurd rfl hr.1
      | fin x => exact ((c2 x).1 rfl).1
    · exact (c1 k).1 rfl
  · rintro ⟨g1, g2⟩
    refine valid_ext v1 v2 fun aft k hr => ?_
    change tcov l aft k = tcov r aft k
    cases aft
    · cases k with
      | bot => exact absurd (hr.2 rfl) (by simp)
      | top => exact absurd rfl hr.1
      | fin x => exact (c2 x).2 ⟨g1 _ _ hr, g2 x⟩
    · exact (c1 k).2 (g1 _ _ hr)

/-- Neither a point nor with an end that belongs to it. -/
def NoEnds (d : RawInterval α) : Prop := d.WF ∧ (∀ p, d ≠ .point p) ∧ ∀ x, EndAt d (.fin x) → icov d false (.fin x) = false

/-- Intervals without ends can be removed in any order. -/
theorem foldMinus_perm (dbg : Bool) {ds es : List (RawInterval α)} (hp : ds.Perm es) {t : TineTree α} (ht : Valid t)
    (h : ∀ d ∈ ds, NoEnds d) :
    ds.foldlM (TineTree.minusInPlace dbg) t = es.foldlM (TineTree.minusInPlace dbg) t := by
  induction hp generalizing t with
  | nil => rfl
  | cons d _ ih =>
    obtain ⟨hw, hn, -⟩ := h d (by simp)
    obtain ⟨t', e, v, -⟩ := minusTwo_ok dbg ht hw hn
    rw [List.foldlM_cons, List.foldlM_cons, e]
    exact ih v fun d hd => h d (by simp [hd])
  | swap a b l =>
    obtain ⟨wa, na, ea⟩ := h a (by simp)
    obtain ⟨wb, nb, eb⟩ := h b (by simp)
    have := (minus_comm_iff dbg ht wa wb na nb).2 fun x _ h1 h2 => (ea x h1).trans (eb x h2).symm
    obtain ⟨ta, e1, v1, -⟩ := minusTwo_ok dbg ht wa na
    obtain ⟨tb, e2, v2, -⟩ := minusTwo_ok dbg ht wb nb
    simp only [List.foldlM_cons]
    rw [e1, e2] at this ⊢
    change TineTree.minusInPlace dbg ta b = TineTree.minusInPlace dbg tb a at this
    change (TineTree.minusInPlace dbg tb a >>= _) = (TineTree.minusInPlace dbg ta b >>= _)
    rw [this]
  | trans h1 h2 ih1 ih2 =>
    rw [ih1 ht h]
    exact ih2 ht fun d hd => h d (h1.mem_iff.2 hd)

theorem OpenIv.noEnds {d : RawInterval α} (hw : d.WF) (h : OpenIv d) : NoEnds d := by
  refine ⟨hw, fun p e => ?_, fun x hx => ?_⟩
  · subst e; exact absurd rfl (h p).1
  · rw [icov_fin hw]
    have h' := fun p => (h p).1
    have h'' := fun p => (h p).2
    rw [endAt_iff] at hx
    cases d <;> simp [RawInterval.lowerBound, RawInterval.upperBound] at h' h'' <;>
      simp [RawInterval.IsBound, RawInterval.lowerBound, RawInterval.upperBound, Bound.asRef, RawInterval.contains] at hx ⊢
    · rintro h; rcases hx with rfl | rfl
      · exact absurd h (lt_irrefl _)
      · exact le_rfl
    · exact hx.le
    · exact hx.symm.le

end NI.TT
