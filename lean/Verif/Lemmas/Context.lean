import Verif.Props.Pinhole
import Verif.Lemmas.Twice
import Verif.SpecContext

/-! # What additions and removals make visible of a tree -/

namespace NI
open _root_.NI.Finite TT

namespace TT
section
variable {α : Type} [LinearOrder α]

theorem bef_cup {t t' : TineTree α} {d : RawInterval α}
    (h : ∀ aft k, tcov t' aft k = (tcov t aft k || icov d aft k)) (p : α) :
    bef false t' (.fin p) = (bef false t (.fin p) || bef false (Tine.fromRawInterval d) (.fin p)) := by
  obtain ⟨k0, h0, h1⟩ := last_below (t ++ (t' ++ Tine.fromRawInterval d)) (k := .fin p) (by simp)
  rw [bef_cov h0 fun x hx => h1 x (by simp [hx]), bef_cov h0 fun x hx => h1 x (by simp [hx]),
    bef_cov h0 fun x hx => h1 x (by simp [hx])]
  exact h true k0

theorem bef_not {t t' : TineTree α} (h : ∀ aft k, RealPos aft k → tcov t' aft k = !tcov t aft k) (p : α) :
    bef false t' (.fin p) = !bef false t (.fin p) := by
  obtain ⟨k0, h0, h1⟩ := last_below (t ++ t') (k := .fin p) (by simp)
  rw [bef_cov h0 fun x hx => h1 x (by simp [hx]), bef_cov h0 fun x hx => h1 x (by simp [hx])]
  exact h true k0 ⟨fun e => by rw [e] at h0; exact absurd h0 (not_lt.2 (key_le_top _)), fun _ => rfl⟩

omit [LinearOrder α] in
theorem key_cases' (k : Key α) : k = .bot ∨ (∃ z, k = .fin z) ∨ k = .top := by
  cases k with
  | bot => exact .inl rfl
  | fin z => exact .inr (.inl ⟨z, rfl⟩)
  | top => exact .inr (.inr rfl)

/-- There is a point with no tine below it but those at infinity. -/
theorem first_point [Nonempty α] (ts : List (Tine α)) : ∃ x : α, ∀ t ∈ ts, Key.bot < t.key → Key.fin x ≤ t.key := by
  induction ts with
  | nil => exact ⟨Classical.arbitrary α, by simp⟩
  | cons t ts ih =>
    obtain ⟨x, hx⟩ := ih
    rcases key_cases' t.key with e | ⟨z, e⟩ | e
    · refine ⟨x, fun y hy => ?_⟩
      rcases List.mem_cons.1 hy with rfl | hy
      · rw [e]; exact fun h => absurd h (lt_irrefl _)
      · exact hx y hy
    · refine ⟨min x z, fun y hy => ?_⟩
      rcases List.mem_cons.1 hy with rfl | hy
      · rw [e]; intro _; simp
      · exact fun h => le_trans (by simp) (hx y hy h)
    · refine ⟨x, fun y hy => ?_⟩
      rcases List.mem_cons.1 hy with rfl | hy
      · rw [e]; exact fun _ => key_le_top _
      · exact hx y hy

/-- Equal coverage before, at and after each point makes equal trees. -/
theorem valid_ext_views [Nonempty α] {t t' : TineTree α} (h : Valid t) (h' : Valid t')
    (h1 : ∀ x : α, tcov t false (.fin x) = tcov t' false (.fin x))
    (h2 : ∀ x : α, bef false t (.fin x) = bef false t' (.fin x))
    (h3 : ∀ x : α, tcov t true (.fin x) = tcov t' true (.fin x)) : t = t' := by
  refine valid_ext h h' fun aft k hr => ?_
  rcases key_cases' k with e | ⟨z, e⟩ | e
  · subst e
    obtain rfl := hr.2 rfl
    obtain ⟨x, hx⟩ := first_point (t ++ t')
    have a := h2 x
    rwa [bef_cov (k := .bot) (by simp) fun y hy => hx y (by simp [hy]),
      bef_cov (k := .bot) (by simp) fun y hy => hx y (by simp [hy])] at a
  · subst e
    cases aft
    · exact h1 z
    · exact h3 z
  · exact absurd e hr.1

/-- Adding and removing what is above a point shows whether the tree reaches up to the point. -/
theorem probe_above (dbg : Bool) {t : TineTree α} (h : Valid t) (x : α) :
    t.sees dbg [.add (.upFrom x), .remove (.upFrom x)] x = .ok (tcov t false (.fin x) || bef false t (.fin x)) := by
  obtain ⟨t1, e1, v1, c1⟩ := unionInPlace_ok dbg h (i := .upFrom x) trivial
  obtain ⟨t2, e2, v2, c2⟩ := minusTwo_ok dbg v1 (d := .upFrom x) trivial (by simp)
  have b := bef_cup c1 x
  have i1 : icov (.upFrom x) false (.fin x) = false := by
    simp [icov, Tine.fromRawInterval, cov, Tine.key, Tine.inclAt]
  have i2 : icov (.upFrom x) true (.fin x) = true := by
    simp [icov, Tine.fromRawInterval, cov, Tine.key, Tine.isLowerBound]
  have i3 : bef false (Tine.fromRawInterval (.upFrom x)) (.fin x) = false := by
    simp [Tine.fromRawInterval, bef, Tine.key]
  have i4 : ∃ y ∈ Tine.fromRawInterval (.upFrom x), y.key = Key.fin x := by
    simp [Tine.fromRawInterval, Tine.key]
  simp only [TineTree.sees, TineTree.changes, List.foldlM, e1, e2, bind, Except.bind, pure, Except.pure]
  rw [contains_ok dbg v2, c2, holeAt, c1, c1, b, i1, i2, i3]
  simp [i4]
  cases tcov t false (.fin x) <;> simp

/-- Adding and removing what is below a point shows whether the tree reaches down to the point. -/
theorem probe_below (dbg : Bool) {t : TineTree α} (h : Valid t) (x : α) :
    t.sees dbg [.add (.upTo x), .remove (.upTo x)] x = .ok (tcov t false (.fin x) || tcov t true (.fin x)) := by
  obtain ⟨t1, e1, v1, c1⟩ := unionInPlace_ok dbg h (i := .upTo x) trivial
  obtain ⟨t2, e2, v2, c2⟩ := minusTwo_ok dbg v1 (d := .upTo x) trivial (by simp)
  have b := bef_cup c1 x
  have i1 : icov (.upTo x) false (.fin x) = false := by
    simp [icov, Tine.fromRawInterval, cov, Tine.key, Tine.inclAt]
  have i2 : icov (.upTo x) true (.fin x) = false := by
    simp [icov, Tine.fromRawInterval, cov, Tine.key, Tine.isLowerBound]
  have i3 : bef false (Tine.fromRawInterval (.upTo x)) (.fin x) = true := by
    simp [Tine.fromRawInterval, bef, Tine.key, Tine.isLowerBound]
  have i4 : ∃ y ∈ Tine.fromRawInterval (.upTo x), y.key = Key.fin x := by
    simp [Tine.fromRawInterval, Tine.key]
  simp only [TineTree.sees, TineTree.changes, List.foldlM, e1, e2, bind, Except.bind, pure, Except.pure]
  rw [contains_ok dbg v2, c2, holeAt, c1, c1, b, i1, i2, i3]
  simp [i4]
  cases tcov t false (.fin x) <;> simp

theorem sees_complement (dbg : Bool) {t c : TineTree α} (e : t.complement dbg = .ok c)
    (cs : List (Change (RawInterval α))) (x : α) : t.sees dbg (.complement :: cs) x = c.sees dbg cs x := by
  simp only [TineTree.sees, TineTree.changes, List.foldlM, e, bind, Except.bind]

end
end TT

namespace Selection
variable {α : Type} [LinearOrder α] [Finite α] [LawfulFinite α]

/-- Adding and removing a value shows whether the selection reaches up to the value before, and down to the value
after. -/
theorem probe (dbg : Bool) {s : Selection α} (hs : s.Reachable) (v x : α) :
    (succ x = some v → s.sees dbg [.add (.point v), .remove (.point v)] x =
      .ok (at' s.tree x || bef false s.tree (.fin x))) ∧
    (pred x = some v → s.sees dbg [.add (.point v), .remove (.point v)] x =
      .ok (at' s.tree x || tcov s.tree true (.fin x))) := by
  have h := reachable_valid hs
  obtain ⟨s1, e1, v1, c1⟩ := unionInPlace_ok dbg h (i := .point v) (.point v)
  obtain ⟨s2, e2, r2, k⟩ := C50_formula_any dbg s1 (.unionInPlace hs (.point v) e1) (.point v) (.point v)
  have v2 := reachable_valid r2
  have b := bef_cup c1 x
  have d := denorm_do (i := Interval.point v) (.point v) (Interval.real_mk_point v)
  have ic : ∀ y, at' (Tine.fromRawInterval (Interval.point v).raw.denormalized) y = decide (v = y) := fun y => by
    refine (ic_fin (.point v) y).trans ?_
    simp [Interval.contains, Interval.point, RawInterval.contains, eq_comm]
  have hp : ∀ y, y ∈ (Interval.point v).pts ↔ y = v := fun y => by
    simp [Interval.pts, Interval.contains, Interval.point, RawInterval.contains]
  have run : s.sees dbg [.add (.point v), .remove (.point v)] x = .ok (at' s2.tree x) := by
    simp only [sees, changes, List.foldlM, e1, e2, bind, Except.bind, pure, Except.pure]
    exact contains_ok dbg v2 x
  have lb : (Interval.point v).lowerBound = some (.incl v) := rfl
  have ub : (Interval.point v).upperBound = some (.incl v) := rfl
  have kx := k x
  rw [mem_pts dbg v2, mem_pts dbg v1, hp, pinhole_iff dbg v1, holeAt, lb, ub] at kx
  have a1 : at' s1.tree x = (at' s.tree x || decide (v = x)) := by
    rw [at', c1, ← ic x]; rfl
  have a2 : tcov s1.tree true (.fin x) = (tcov s.tree true (.fin x) || (decide (v = x) ||
      (succ x).elim false fun y => decide (v = y))) := by
    have := d.1 x
    rw [show at' (Tine.fromRawInterval (Interval.point v).raw.denormalized) = fun y => decide (v = y) from
      funext ic] at this
    rw [c1, ← this]; rfl
  have a1' : tcov s1.tree false (.fin x) = (at' s.tree x || decide (v = x)) := a1
  rw [run]
  constructor
  · intro hx
    have h1 := LawfulFinite.succ_some x v hx
    have ne : v ≠ x := ne_of_gt h1.1
    have hb : bef false (Tine.fromRawInterval (Interval.point v).raw.denormalized) (.fin x) = false := by
      cases hq : pred x with
      | none =>
        rw [bef_min hq, d.2, ic]
        simp only [decide_eq_false_iff_not]
        rintro rfl
        exact absurd (minimum_le x) (not_le.2 h1.1)
      | some y =>
        have h2 := LawfulFinite.pred_some x y hq
        rw [bef_pred hq, d.1, ic, succ_of_pred hq, Option.elim, ic]
        simp [ne, (h2.1.trans h1.1).ne']
    rw [hb, Bool.or_false] at b
    congr 1
    rw [Bool.eq_iff_iff, kx, b, a1, a1', a2, hx]
    simp [ne, ne.symm, pred_of_succ hx]
    cases at' s.tree x <;> simp
  · intro hx
    have h1 := LawfulFinite.pred_some x v hx
    have ne : v ≠ x := ne_of_lt h1.1
    have hb : bef false (Tine.fromRawInterval (Interval.point v).raw.denormalized) (.fin x) = true := by
      rw [bef_pred hx, d.1, ic]; simp
    rw [hb, Bool.or_true] at b
    congr 1
    have hs' : (succ x).elim false (fun y => decide (v = y)) = false := by
      cases hq : succ x with
      | none => rfl
      | some y =>
        have h2 := LawfulFinite.succ_some x y hq
        simp [(h1.1.trans h2.1).ne]
    rw [Bool.eq_iff_iff, kx, b, a1, a1', a2, hs']
    simp [ne, ne.symm, succ_of_pred hx]
    cases at' s.tree x <;> simp

omit [LawfulFinite α] in
theorem sees_complement (dbg : Bool) {s c : Selection α} (e : s.complement dbg = .ok c)
    (cs : List (Change (Interval α))) (x : α) : s.sees dbg (.complement :: cs) x = c.sees dbg cs x := by
  simp only [sees, changes, List.foldlM, e, bind, Except.bind]

end Selection

end NI
