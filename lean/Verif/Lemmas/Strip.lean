import Verif.SpecStrip
import Verif.Lemmas.Context
import Verif.Props.Pinhole
import Verif.Props.StreamExact
import Verif.Lemmas.Minus
import Verif.Lemmas.Whole

/-!
# Lemmas: a selection as a strip of values and joints (C154)
-/

set_option linter.unusedVariables false
set_option linter.unusedSectionVars false
set_option linter.unusedSimpArgs false

namespace NI
open _root_.NI.Finite TT
variable {α : Type} [LinearOrder α] [Finite α] [LawfulFinite α]

/-- What an interval covers between a value and the next. -/
theorem Selection.ic_joins {i : Interval α} (ho : i.Obtainable) {x y : α} (hy : succ x = some y) :
    Selection.ic i true (.fin x) = i.joins x := by
  by_cases hr : i.Real
  · rw [Bool.eq_iff_iff, Selection.ic_next ho hr, Interval.joins, hy]
    simp only [Option.some.injEq, Bool.or_eq_true, Bool.and_eq_true, decide_eq_true_eq]
    constructor
    · rintro (h | ⟨z, rfl, h⟩)
      exacts [.inl (.inl h), .inl (.inr h)]
    · rintro ((h | h) | ⟨h1, h2⟩)
      · exact .inl h
      · exact .inr ⟨y, rfl, h⟩
      · exfalso
        have hlt := (LawfulFinite.succ_some x y hy).1
        rcases hr with h | ⟨z, hz⟩
        · have h : i.raw = .empty := (RawInterval.isEmpty_iff _).1 h
          rw [Interval.lowerBound, h] at h1; cases h1
        · rcases i with ⟨r⟩
          rw [Interval.contains] at hz
          rw [RawInterval.contains_iff_bounds] at hz
          obtain ⟨l, u, e1, e2, g1, g2⟩ := hz
          rw [Interval.lowerBound] at h1
          rw [Interval.upperBound] at h2
          rw [h1] at e1; rw [h2] at e2; cases e1; cases e2
          exact absurd (g1.trans g2) (not_le.2 hlt)
  · have hn := Interval.obtainable_nf ho
    obtain ⟨l, u, hlu, rfl, -⟩ := Interval.not_real_step ho hr
    have hs : succ u = some l := by
      rcases hn with h | h
      · exact absurd h (not_le.2 hlu)
      · exact h
    have e : (RawInterval.closed l u).denormalized = .opn u l := by
      simp only [RawInterval.denormalized, hs, pred_of_succ hs]
    show icov (RawInterval.closed l u).denormalized true (.fin x) = _
    rw [e, (icov_opn hlu x).1, Bool.eq_iff_iff, Interval.joins, hy]
    have none : ∀ z, ¬ (l ≤ z ∧ z ≤ u) := fun z h => absurd (h.1.trans h.2) (not_le.2 hlu)
    simp only [Interval.contains, RawInterval.contains, Interval.lowerBound, Interval.upperBound, RawInterval.lowerBound,
      RawInterval.upperBound, Bool.and_eq_true, decide_eq_true_eq, Bool.or_eq_true, none, false_or, Option.some.injEq, Bound.incl.injEq]
    constructor
    · rintro ⟨h1, h2⟩
      rcases h1.lt_or_eq with h | rfl
      · exact absurd ((LawfulFinite.succ_some u l hs).2 x h) (not_le.2 h2)
      · rw [hs] at hy; cases hy; exact ⟨rfl, rfl⟩
    · rintro ⟨rfl, rfl⟩
      exact ⟨le_rfl, hlu⟩

/-- The selection is what the strip says. -/
def Strip.Of (p : Strip α) (s : Selection α) : Prop :=
  s.Reachable ∧ (∀ x, at' s.tree x = p.val x) ∧ (∀ x y, succ x = some y → tcov s.tree true (.fin x) = p.joint x) ∧
    ∀ x, succ x = none → p.joint x = false

theorem Strip.Of.hole {p : Strip α} {s : Selection α} (h : p.Of s) (x : α) : holeAt s.tree (.fin x) = p.hole x := by
  obtain ⟨r, h1, h2, h3⟩ := h
  have fit := r.fit
  rw [holeAt, Strip.hole]
  change (_ && !at' s.tree x && _) = _
  rw [h1]
  cases hv : p.val x with
  | true => simp
  | false =>
    cases hp : pred x with
    | none =>
      have hx := (LawfulFinite.pred_none x).1 hp
      rw [bef_min hp, fit.1, ← hx]
      change (at' s.tree x && _ && _) = _
      rw [h1, hv]; simp
    | some q =>
      rw [bef_pred hp, h2 q x (pred_eq_iff.1 hp)]
      cases hs : succ x with
      | none =>
        have hx := (LawfulFinite.succ_none x).1 hs
        rw [h3 x hs, hx, fit.2, ← hx]
        change (_ && at' s.tree x) = _
        rw [h1, hv]; simp
      | some y => rw [h2 x y hs]; simp [Bool.and_comm]

theorem Interval.beside_iff (i : Interval α) (x : α) : i.beside x = true ↔
    ((∃ l, i.lowerBound = some (.incl l) ∧ pred l = some x) ∨ ∃ u, i.upperBound = some (.incl u) ∧ succ u = some x) := by
  rw [Interval.beside, Bool.or_eq_true, Option.any_eq_true, Option.any_eq_true]
  simp only [decide_eq_true_eq]
  constructor
  · rintro (⟨y, h1, h2⟩ | ⟨y, h1, h2⟩)
    · exact .inl ⟨y, h2, pred_eq_iff.2 h1⟩
    · exact .inr ⟨y, h2, pred_eq_iff.1 h1⟩
  · rintro (⟨y, h1, h2⟩ | ⟨y, h1, h2⟩)
    · exact .inl ⟨y, pred_eq_iff.1 h2, h1⟩
    · exact .inr ⟨y, pred_eq_iff.2 h2, h1⟩

theorem Strip.joins_last (i : Interval α) {x : α} (h : succ x = none) : i.joins x = false := by
  rw [Interval.joins, h]

theorem Strip.Of.add (dbg : Bool) {p : Strip α} {s : Selection α} (h : p.Of s) {i : Interval α} (hi : i.Obtainable) :
    ∃ s', s.unionInPlace dbg i = .ok s' ∧ (p.add i).Of s' := by
  obtain ⟨s', e, v, c⟩ := Selection.unionInPlace_ok dbg (Selection.reachable_valid h.1) hi
  refine ⟨s', e, .unionInPlace h.1 hi e, fun x => ?_, fun x y hy => ?_, fun x hx => ?_⟩
  · rw [at', c, Selection.ic_fin hi]; exact congrArg (· || _) (h.2.1 x)
  · rw [c, Selection.ic_joins hi hy, h.2.2.1 x y hy]; rfl
  · simp [Strip.add, h.2.2.2 x hx, Strip.joins_last i hx]

theorem Strip.Of.remove (dbg : Bool) {p : Strip α} {s : Selection α} (h : p.Of s) {i : Interval α} (hi : i.Obtainable) :
    ∃ s', s.minusInPlace dbg i = .ok s' ∧ (p.remove i).Of s' := by
  have v := Selection.reachable_valid h.1
  obtain ⟨s', e, v', c⟩ := Selection.minusInPlace_ok dbg v hi
  obtain ⟨s1, e1, -, f⟩ := C50_formula_any dbg s h.1 i hi
  rw [e] at e1; cases e1
  refine ⟨s', e, .minusInPlace h.1 hi e, fun x => ?_, fun x y hy => ?_, fun x hx => ?_⟩
  · have := f x
    rw [Selection.mem_pts dbg v', Selection.mem_pts dbg v, Selection.pinhole_iff dbg v, h.hole, ← Interval.beside_iff, h.2.1] at this
    rw [Bool.eq_iff_iff, this, Strip.remove, Bool.or_eq_true, Bool.and_eq_true, Bool.and_eq_true, Bool.not_eq_true', ← Bool.not_eq_true]
    rfl
  · rw [c, Selection.ic_joins hi hy, h.2.2.1 x y hy]; simp [Strip.remove]
  · simp [Strip.remove, h.2.2.2 x hx]

theorem Strip.Of.flip (dbg : Bool) {p : Strip α} {s : Selection α} (h : p.Of s) :
    ∃ s', s.complement dbg = .ok s' ∧ p.flip.Of s' := by
  obtain ⟨s', e, v, c⟩ := Selection.complement_ok dbg (Selection.reachable_valid h.1)
  refine ⟨s', e, .complement h.1 e, fun x => ?_, fun x y hy => ?_, fun x hx => ?_⟩
  · rw [at', c _ _ ⟨by simp, by simp⟩]; exact congrArg (! ·) (h.2.1 x)
  · rw [c _ _ ⟨by simp, by simp⟩, h.2.2.1 x y hy]; simp [Strip.flip, hy]
  · simp [Strip.flip, hx]

theorem Strip.Of.both (dbg : Bool) {p q : Strip α} {s t : Selection α} (h : p.Of s) (g : q.Of t) :
    ∃ s', s.union dbg t = .ok s' ∧ (p.both q).Of s' := by
  obtain ⟨s', e, v, c⟩ := Selection.union_ok dbg (Selection.reachable_valid h.1) (Selection.reachable_valid g.1)
  refine ⟨s', e, .union h.1 g.1 e, fun x => ?_, fun x y hy => ?_, fun x hx => ?_⟩
  · rw [at', c]; exact congrArg₂ (· || ·) (h.2.1 x) (g.2.1 x)
  · rw [c, h.2.2.1 x y hy, g.2.2.1 x y hy]; rfl
  · simp [Strip.both, h.2.2.2 x hx, g.2.2.2 x hx]

theorem TT.pieces_closed_lower {ts : List (Tine α)} (hs : Sorted ts) (p : α) :
    (Chain false ts false →
      ((∃ i ∈ pieces none ts, i.lowerBound = some (.incl p)) ↔
        (Tine.lower (.incl p) ∈ ts ∨ Tine.point (.incl p) ∈ ts))) ∧
    (∀ b, Chain true ts false → BSet.Gt ts (Tine.lower b).key →
      ((∃ i ∈ pieces (some b) ts, i.lowerBound = some (.incl p)) ↔
        (b = .incl p ∨ Tine.lower (.incl p) ∈ ts ∨ Tine.point (.incl p) ∈ ts))) := by
  induction ts with
  | nil => exact ⟨by simp [pieces], fun b h => absurd h (by simp [Chain])⟩
  | cons t ts ih =>
    obtain ⟨h1, h2, h3⟩ := sorted_cons.1 hs
    obtain ⟨ih1, ih2⟩ := ih h3
    constructor
    · rintro ⟨c1, c2⟩
      rcases t with b | (q | q | _) | b <;>
        simp [Tine.isUpperBound, Tine.isLowerBound] at c1 c2
      · rw [pieces, ih2 b c2 h2]; simp [eq_comm]; tauto
      · rw [pieces, ex_cons, ih1 c2]
        simp [RawInterval.lowerBound, eq_comm]; tauto
      · exact absurd rfl h1
    · rintro b ⟨c1, c2⟩ hgt
      have hbk := (hgt t (List.mem_cons_self)).2
      rcases t with u | (q | q | _) | u <;>
        simp [Tine.isUpperBound, Tine.isLowerBound] at c1 c2
      · rw [pieces, ex_cons, ih2 (.excl q) c2 h2,
          (new_bounds (u := .excl q) (show (Tine.lower b).key < _ from hbk)).1]
        simp [eq_comm]
      · rw [pieces, ex_cons, ih1 c2, (new_bounds hbk).1]
        simp

theorem TT.closed_lower_iff {t : TineTree α} (h : Valid t) (p : α) :
    (∃ i ∈ pieces none t, i.lowerBound = some (.incl p)) ↔
      bef false t (.fin p) = false ∧ tcov t false (.fin p) = true := by
  obtain ⟨o⟩ := one h (.fin p)
  obtain ⟨v1, v2, v3⟩ := o.views
  rw [(pieces_closed_lower h.1 p).1 h.2, mem_edge o rfl, mem_edge o rfl, v1, v2]
  cases o.b <;> cases o.a <;> cases o.c <;> simp [edge]

/-- Some piece has a bound at the value exactly if the tree is not the same before, at and after it. -/
theorem TT.pieces_endAt {t : TineTree α} (h : Valid t) (x : α) : (∃ i ∈ pieces none t, EndAt i (.fin x)) ↔
    bef false t (.fin x) ≠ at' t x ∨ at' t x ≠ tcov t true (.fin x) := by
  have one : ∀ i : RawInterval α, EndAt i (.fin x) ↔ i.lowerBound = some (.incl x) ∨ i.lowerBound = some (.excl x) ∨
      i.upperBound = some (.incl x) ∨ i.upperBound = some (.excl x) := fun i => by
    cases i <;> simp [EndAt, Tine.fromRawInterval, Tine.key, RawInterval.lowerBound, RawInterval.upperBound]
  have h1 := closed_lower_iff h x
  have h2 := open_lower_iff h x
  have h3 := closed_upper_iff h x
  have h4 := open_upper_iff h x
  simp only [one, and_or_left, exists_or, h1, h2, h3, h4]
  change _ ∨ (at' t x = false ∧ _) ∨ (at' t x = true ∧ _) ∨ _ ∧ at' t x = false ↔ _
  change (_ ∧ at' t x = true) ∨ _ ↔ _
  cases bef false t (.fin x) <;> cases at' t x <;> cases tcov t true (.fin x) <;> simp

theorem Strip.Of.before {p : Strip α} {s : Selection α} (h : p.Of s) (x : α) :
    bef false s.tree (.fin x) = (pred x).elim (p.val x) p.joint := by
  cases hp : pred x with
  | none =>
    have hx := (LawfulFinite.pred_none x).1 hp
    rw [bef_min hp, h.1.fit.1, ← hx]
    exact h.2.1 x
  | some q => rw [bef_pred hp, h.2.2.1 q x (pred_eq_iff.1 hp)]; rfl

theorem Strip.Of.after {p : Strip α} {s : Selection α} (h : p.Of s) (x : α) :
    tcov s.tree true (.fin x) = if (succ x).isSome then p.joint x else p.val x := by
  cases hs : succ x with
  | none =>
    have hx := (LawfulFinite.succ_none x).1 hs
    rw [hx, h.1.fit.2, ← hx]
    exact h.2.1 x
  | some y => rw [h.2.2.1 x y hs]; rfl

theorem Strip.Of.edge {q : Strip α} {t : Selection α} (g : q.Of t) (x : α) :
    (∃ i ∈ pieces none t.tree, EndAt i (.fin x)) ↔ q.edge x = true := by
  rw [pieces_endAt (Selection.reachable_valid g.1), g.before, g.after, g.2.1, Strip.edge]
  cases succ x with
  | none =>
    cases pred x with
    | none => simp
    | some a => cases h1 : q.val x <;> cases h2 : q.joint a <;> simp [h1, h2]
  | some b =>
    cases pred x with
    | none => cases h1 : q.val x <;> cases h2 : q.joint x <;> simp [h1, h2]
    | some a => cases h1 : q.val x <;> cases h2 : q.joint a <;> cases h3 : q.joint x <;> simp [h1, h2, h3]

theorem Strip.Of.minus (dbg : Bool) {p q : Strip α} {s t : Selection α} (h : p.Of s) (g : q.Of t) (hc : p.Clear q) :
    ∃ s', s.minus dbg t = .ok s' ∧ (p.minus q).Of s' := by
  have v := Selection.reachable_valid h.1
  have w := Selection.reachable_valid g.1
  obtain ⟨t', e, v', c⟩ := minus_eq dbg v w fun x hx => by
    obtain ⟨h1, h2, h3⟩ := (point_iff w x).1 hx
    have h2 : at' t.tree x = true := h2
    rw [g.2.1] at h2
    rw [g.before] at h1
    rw [g.after] at h3
    cases hp : pred x with
    | none => rw [hp] at h1; exact absurd (h1.symm.trans h2) (by simp)
    | some a =>
      cases hs : succ x with
      | none => rw [hs] at h3; exact absurd (h3.symm.trans h2) (by simp)
      | some b =>
        rw [hp] at h1
        rw [hs] at h3
        have := hc x (by
          have h1 : q.joint a = false := h1
          have h3 : q.joint x = false := h3
          simp [Strip.hole, Strip.flip, hp, hs, h1, h2, h3, pred_eq_iff.1 hp])
        change at' s.tree x = true ∨ _
        rw [h.2.1, h.before, h.after, hp, hs]
        rw [hp] at this
        exact this.imp id fun k => ⟨k.2, k.1⟩
  have e' : s.minus dbg t = .ok ⟨t'⟩ := by rw [Selection.minus, e]; rfl
  refine ⟨⟨t'⟩, e', .minus h.1 g.1 e' (reachable_of_valid v'), fun x => ?_, fun x y hy => ?_, fun x hx => ?_⟩
  · show tcov t' false (.fin x) = _
    rw [c, h.hole]
    change ((at' s.tree x && !at' t.tree x) || _) = _
    rw [h.2.1, g.2.1, Strip.minus]
    simp only [Bool.not_false, Bool.true_and]
    congr 2
    rw [Bool.eq_iff_iff, ← g.edge x]
    exact @decide_eq_true_iff _ (_)
  · show tcov t' true (.fin x) = _
    rw [c, h.2.2.1 x y hy, g.2.2.1 x y hy]; simp [Strip.minus]
  · simp [Strip.minus, h.2.2.2 x hx]

theorem Strip.Of.adds (dbg : Bool) (is : List (Interval α)) (hi : ∀ i ∈ is, i.Obtainable) {p : Strip α} {s : Selection α}
    (h : p.Of s) : ∃ s', is.foldlM (fun s i => s.unionInPlace dbg i) s = .ok s' ∧ (is.foldl Strip.add p).Of s' := by
  induction is generalizing p s with
  | nil => exact ⟨s, rfl, h⟩
  | cons i is ih =>
    obtain ⟨s1, e1, h1⟩ := h.add dbg (hi i (by simp))
    obtain ⟨s2, e2, h2⟩ := ih (fun j hj => hi j (by simp [hj])) h1
    refine ⟨s2, ?_, h2⟩
    rw [List.foldlM_cons, e1]
    exact e2

theorem Strip.of_new : (Strip.nothing : Strip α).Of .new :=
  ⟨.new, fun x => rfl, fun x y _ => rfl, fun x _ => rfl⟩

theorem Strip.of_full : (Strip.everything : Strip α).Of .full := by
  refine ⟨.full, fun x => ?_, fun x y hy => ?_, fun x hx => by simp [Strip.everything, hx]⟩
  · rw [Selection.full_tree]; simp [at', tcov, cov, Tine.key, Tine.isLowerBound, Strip.everything]
  · rw [Selection.full_tree]; simp [tcov, cov, Tine.key, Tine.isLowerBound, Strip.everything, hy]

theorem StripProg.of (dbg : Bool) : ∀ (p : StripProg α), p.Legal → ∃ s, p.run dbg = .ok s ∧ p.strip.Of s
  | .new, _ => ⟨_, rfl, Strip.of_new⟩
  | .full, _ => ⟨_, rfl, Strip.of_full⟩
  | .add p i, h => by
    obtain ⟨s, e, hs⟩ := StripProg.of dbg p h.1
    obtain ⟨s', e', hs'⟩ := hs.add dbg h.2
    exact ⟨s', by rw [StripProg.run, e]; exact e', hs'⟩
  | .remove p i, h => by
    obtain ⟨s, e, hs⟩ := StripProg.of dbg p h.1
    obtain ⟨s', e', hs'⟩ := hs.remove dbg h.2
    exact ⟨s', by rw [StripProg.run, e]; exact e', hs'⟩
  | .complement p, h => by
    obtain ⟨s, e, hs⟩ := StripProg.of dbg p h
    obtain ⟨s', e', hs'⟩ := hs.flip dbg
    exact ⟨s', by rw [StripProg.run, e]; exact e', hs'⟩
  | .union p q, h => by
    obtain ⟨s, e, hs⟩ := StripProg.of dbg p h.1
    obtain ⟨t, e1, ht⟩ := StripProg.of dbg q h.2
    obtain ⟨s', e', hs'⟩ := hs.both dbg ht
    exact ⟨s', by rw [StripProg.run, e]; change (q.run dbg >>= fun t => s.union dbg t) = _; rw [e1]; exact e', hs'⟩
  | .minus p q, h => by
    obtain ⟨s, e, hs⟩ := StripProg.of dbg p h.1
    obtain ⟨t, e1, ht⟩ := StripProg.of dbg q h.2.1
    obtain ⟨s', e', hs'⟩ := hs.minus dbg ht h.2.2
    exact ⟨s', by rw [StripProg.run, e]; change (q.run dbg >>= fun t => s.minus dbg t) = _; rw [e1]; exact e', hs'⟩
  | .collect is, h => Strip.of_new.adds dbg is h
  | .points xs, _ => by
    obtain ⟨s, e, hs⟩ := Strip.of_new.adds dbg (xs.map Interval.point) (by simp only [List.mem_map]; rintro i ⟨x, -, rfl⟩; exact .point x)
    rw [List.foldlM_map] at e
    rw [List.foldl_map] at hs
    exact ⟨s, e, hs⟩
  | .extend p is, h => by
    obtain ⟨s, e, hs⟩ := StripProg.of dbg p h.1
    obtain ⟨s', e', hs'⟩ := hs.adds dbg is h.2
    exact ⟨s', by rw [StripProg.run, e]; exact e', hs'⟩

/-- A selection has one strip. -/
theorem Strip.Of.unique {p q : Strip α} {s : Selection α} (h : p.Of s) (g : q.Of s) : p = q := by
  rcases p with ⟨v, j⟩
  rcases q with ⟨w, k⟩
  obtain rfl : v = w := funext fun x => (h.2.1 x).symm.trans (g.2.1 x)
  obtain rfl : j = k := funext fun x => by
    cases hs : succ x with
    | none => exact (h.2.2.2 x hs).trans (g.2.2.2 x hs).symm
    | some y => exact (h.2.2.1 x y hs).symm.trans (g.2.2.1 x y hs)
  rfl

/-- A strip has at most one selection. -/
theorem Strip.Of.determines {p : Strip α} {s t : Selection α} (h : p.Of s) (g : p.Of t) : s = t := by
  rcases s with ⟨a⟩
  rcases t with ⟨b⟩
  have fa := h.1.fit
  have fb := g.1.fit
  have : Nonempty α := ⟨minimum⟩
  have h1 : ∀ x, tcov a false (.fin x) = tcov b false (.fin x) := fun x => (h.2.1 x).trans (g.2.1 x).symm
  have h3 : ∀ x, tcov a true (.fin x) = tcov b true (.fin x) := fun x => by
    cases hs : succ x with
    | none =>
      rw [(LawfulFinite.succ_none x).1 hs]
      exact fa.2.trans ((h1 _).trans fb.2.symm)
    | some y => exact (h.2.2.1 x y hs).trans (g.2.2.1 x y hs).symm
  congr 1
  refine valid_ext_views (Selection.reachable_valid h.1) (Selection.reachable_valid g.1) h1 (fun x => ?_) h3
  cases hp : pred x with
  | none => rw [bef_min hp, bef_min hp]; exact fa.1.trans ((h1 _).trans fb.1.symm)
  | some q => rw [bef_pred hp, bef_pred hp]; exact h3 q

/-- Two pieces of a tree with a value in common are the same. -/
theorem TT.piece_same {t : TineTree α} (v : Valid t) {i j : RawInterval α} (hi : i ∈ pieces none t) (hj : j ∈ pieces none t)
    {z : α} (h : i.contains z = true) (g : j.contains z = true) : i = j := by
  by_contra hne
  have hp := (pieces_sep v.1).1
  obtain ⟨l1, u1, a1, b1, c1, d1⟩ := (RawInterval.contains_iff_bounds _ _).1 h
  obtain ⟨l2, u2, a2, b2, c2, d2⟩ := (RawInterval.contains_iff_bounds _ _).1 g
  obtain ⟨m, hm, em⟩ := List.getElem_of_mem hi
  obtain ⟨n, hn, en⟩ := List.getElem_of_mem hj
  rw [List.pairwise_iff_getElem] at hp
  rcases lt_trichotomy m n with h' | rfl | h'
  · obtain ⟨u, l, e1, e2, s⟩ := hp m n hm hn h'
    rw [em, b1] at e1; rw [en, a2] at e2; cases e1; cases e2
    exact lt_irrefl _ (sep_lt s d1 c2)
  · exact hne (em.symm.trans en)
  · obtain ⟨u, l, e1, e2, s⟩ := hp n m hn hm h'
    rw [en, b2] at e1; rw [em, a1] at e2; cases e1; cases e2
    exact lt_irrefl _ (sep_lt s d2 c1)

theorem TT.piece_up {t : TineTree α} (v : Valid t) {i : RawInterval α} (hi : i ∈ pieces none t) {x y : α} (hxy : x ≤ y)
    (hx : i.contains x = true) : i.contains y = true ↔
      (∀ z, x ≤ z → z ≤ y → at' t z = true) ∧ ∀ z, x ≤ z → z < y → tcov t true (.fin z) = true := by
  obtain ⟨l, u, a, b, c, d⟩ := (RawInterval.contains_iff_bounds _ _).1 hx
  constructor
  · intro hy
    obtain ⟨l', u', a', b', -, d'⟩ := (RawInterval.contains_iff_bounds _ _).1 hy
    rw [b] at b'; cases b'
    have mid : ∀ z, x ≤ z → z ≤ y → i.contains z = true := fun z h1 h2 => by
      refine (RawInterval.contains_iff_bounds _ _).2 ⟨l, u, a, b, ?_, ?_⟩
      · cases l with
        | incl l => exact le_trans (show l ≤ x from c) h1
        | excl l => exact lt_of_lt_of_le (show l < x from c) h1
        | inf => trivial
      · cases u with
        | incl u => exact h2.trans (show y ≤ u from d')
        | excl u => exact h2.trans_lt (show y < u from d')
        | inf => trivial
    refine ⟨fun z h1 h2 => piece_in v hi (mid z h1 h2), fun z h1 h2 => ?_⟩
    by_contra hf
    obtain ⟨j, hj, ej⟩ := (closed_upper_iff v z).2 ⟨piece_in v hi (mid z h1 h2.le), Bool.eq_false_iff.2 hf⟩
    obtain ⟨k, hk, e1, e2⟩ : ∃ k ∈ pieces none t, k.upperBound = some (.incl z) ∧ k.contains z = true := by
      obtain ⟨lj, uj, e1, e2, hc⟩ := piece_bounds v hj
      rw [ej] at e2; cases e2
      refine ⟨j, hj, ej, (RawInterval.contains_iff_bounds _ _).2 ⟨lj, _, e1, ej, ?_, le_rfl⟩⟩
      rcases lj with q | q | _
      · exact hc
      · exact hc
      · trivial
    obtain rfl := piece_same v hk hi e2 (mid z h1 h2.le)
    rw [b] at e1; cases e1
    exact absurd (show y ≤ z from d') (not_le.2 h2)
  · rintro ⟨h1, h2⟩
    refine (RawInterval.contains_iff_bounds _ _).2 ⟨l, u, a, b, ?_, ?_⟩
    · cases l with
      | incl l => exact le_trans (show l ≤ x from c) hxy
      | excl l => exact lt_of_lt_of_le (show l < x from c) hxy
      | inf => trivial
    · cases u with
      | incl u =>
        by_contra hn
        have hn : u < y := not_le.1 hn
        have := ((closed_upper_iff v u).1 ⟨i, hi, b⟩).2
        rw [h2 u d hn] at this; cases this
      | excl u =>
        by_contra hn
        have hn : u ≤ y := not_lt.1 hn
        have := ((open_upper_iff v u).1 ⟨i, hi, b⟩).2
        have h3 := h1 u (show x < u from d).le hn
        rw [at', this] at h3; cases h3
      | inf => trivial

/-- The piece between two neighbouring values, without values. -/
theorem TT.gap_piece {t : TineTree α} (v : Valid t) {x y : α} (hy : succ x = some y) :
    RawInterval.opn x y ∈ pieces none t ↔ at' t x = false ∧ tcov t true (.fin x) = true ∧ at' t y = false := by
  obtain ⟨hlt, hle⟩ := LawfulFinite.succ_some x y hy
  constructor
  · intro h
    obtain ⟨h1, h2⟩ := (open_lower_iff v x).1 ⟨_, h, rfl⟩
    exact ⟨h1, h2, ((open_upper_iff v y).1 ⟨_, h, rfl⟩).2⟩
  · rintro ⟨h1, h2, h3⟩
    obtain ⟨i, hi, ei⟩ := (open_lower_iff v x).2 ⟨h1, h2⟩
    obtain ⟨l, u, e1, e2, hc⟩ := piece_bounds v hi
    rw [ei] at e1; cases e1
    have no : ¬ u.AdmitsBelow y := fun h => by
      have := piece_in v hi ((RawInterval.contains_iff_bounds i y).2 ⟨_, u, ei, e2, hlt, h⟩)
      rw [h3] at this; cases this
    rcases u with u | u | _
    · exact absurd (hle u hc) no
    · have : u = y := le_antisymm (not_lt.1 no) (hle u hc)
      subst this
      have : i = .opn x u := by
        cases i <;> simp [RawInterval.lowerBound, RawInterval.upperBound] at ei e2
        rw [ei, e2]
      exact this ▸ hi
    · exact absurd trivial no

theorem Selection.run_gap {i : RawInterval α} (hw : i.WF) {x y : α} (hy : succ x = some y) :
    Selection.run i = ⟨.closed y x⟩ ↔ i = .opn x y := by
  obtain ⟨hlt, hle⟩ := LawfulFinite.succ_some x y hy
  constructor
  · intro h
    have h : i.normalized = .closed y x := congrArg Interval.raw h
    cases i with
    | opn a b =>
      simp only [RawInterval.normalized] at h
      cases ha : succ a with
      | none => simp [ha] at h
      | some a' =>
        cases hb : pred b with
        | none => simp [ha, hb] at h
        | some b' =>
          simp only [ha, hb, RawInterval.closed.injEq] at h
          obtain ⟨rfl, rfl⟩ := h
          have h1 := pred_eq_iff.1 hb
          rw [hy] at h1; cases h1
          have h2 := pred_eq_iff.2 ha
          rw [pred_eq_iff.2 hy] at h2; cases h2
          rfl
    | empty => cases h
    | point p => cases h
    | leftOpen a b =>
      simp only [RawInterval.normalized] at h
      cases ha : succ a with
      | none => simp [ha] at h
      | some a' =>
        simp only [ha, Option.elim_some, RawInterval.closed.injEq] at h
        obtain ⟨rfl, rfl⟩ := h
        have hw : a < b := hw
        exact absurd ((LawfulFinite.succ_some a a' ha).2 b hw) (not_le.2 hlt)
    | rightOpen a b =>
      simp only [RawInterval.normalized] at h
      cases hb : pred b with
      | none => simp [hb] at h
      | some b' =>
        simp only [hb, Option.elim_some, RawInterval.closed.injEq] at h
        obtain ⟨rfl, rfl⟩ := h
        have hw : a < b := hw
        exact absurd ((LawfulFinite.pred_some b b' hb).2 a hw) (not_le.2 hlt)
    | closed a b =>
      simp only [RawInterval.normalized, RawInterval.closed.injEq] at h
      obtain ⟨rfl, rfl⟩ := h
      have hw : a < b := hw
      exact absurd hw hlt.not_gt
    | upTo b =>
      simp only [RawInterval.normalized] at h
      cases hb : pred b with
      | none => simp [hb] at h
      | some b' =>
        simp only [hb, Option.elim_some, RawInterval.closed.injEq] at h
        exact absurd (h.1 ▸ LawfulFinite.min_le x) (not_le.2 hlt)
    | upFrom a =>
      simp only [RawInterval.normalized] at h
      cases ha : succ a with
      | none => simp [ha] at h
      | some a' =>
        simp only [ha, Option.elim_some, RawInterval.closed.injEq] at h
        exact absurd (h.2 ▸ LawfulFinite.le_max y) (not_le.2 hlt)
    | «to» b =>
      simp only [RawInterval.normalized, RawInterval.closed.injEq] at h
      exact absurd (h.1 ▸ LawfulFinite.min_le x) (not_le.2 hlt)
    | frm a =>
      simp only [RawInterval.normalized, RawInterval.closed.injEq] at h
      exact absurd (h.2 ▸ LawfulFinite.le_max y) (not_le.2 hlt)
    | full =>
      simp only [RawInterval.normalized, RawInterval.closed.injEq] at h
      exact absurd (h.1 ▸ LawfulFinite.min_le x) (not_le.2 hlt)
  · rintro rfl
    simp [Selection.run, RawInterval.normalized, hy, pred_eq_iff.2 hy]

end NI
