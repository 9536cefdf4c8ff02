import Verif.Lemmas.Context
import Verif.Props.Edited
import Verif.Props.Steps

/-! # Values that compare equal are those that cannot be told apart (C122) -/

namespace NI
open _root_.NI.Finite TT

section Tree
variable {α : Type} [LinearOrder α]

/-- How to tell two trees apart: by the points in them, and by the points in them, or in their complements, once all
that is above some point, or below it, has been added and removed again. -/
theorem C122_tree_test [Nonempty α] (dbg : Bool) (a b : TineTree α) (ha : a.Reachable) (hb : b.Reachable) :
    a = b ↔ ∀ x, a.contains dbg x = b.contains dbg x ∧
      ∀ i ∈ [RawInterval.upFrom x, .upTo x],
        a.sees dbg [.add i, .remove i] x = b.sees dbg [.add i, .remove i] x ∧
        a.sees dbg [.complement, .add i, .remove i] x = b.sees dbg [.complement, .add i, .remove i] x := by
  constructor
  · rintro rfl; simp
  intro h
  have va := TT.reachable_valid ha
  have vb := TT.reachable_valid hb
  obtain ⟨ca, e1, w1, k1⟩ := TT.complement_ok dbg va
  obtain ⟨cb, e2, w2, k2⟩ := TT.complement_ok dbg vb
  have h0 : ∀ x, tcov a false (.fin x) = tcov b false (.fin x) := fun x => by
    have := (h x).1
    rw [TT.contains_ok dbg va, TT.contains_ok dbg vb] at this
    exact Except.ok.inj this
  have n1 : ∀ aft x, tcov ca aft (.fin x) = !tcov a aft (.fin x) := fun aft x => k1 aft _ ⟨by simp, by simp⟩
  have n2 : ∀ aft x, tcov cb aft (.fin x) = !tcov b aft (.fin x) := fun aft x => k2 aft _ ⟨by simp, by simp⟩
  refine TT.valid_ext_views va vb h0 (fun x => ?_) fun x => ?_
  · obtain ⟨p, q⟩ := (h x).2 (.upFrom x) (by simp)
    rw [TT.probe_above dbg va, TT.probe_above dbg vb, Except.ok.injEq] at p
    rw [TT.sees_complement dbg e1, TT.sees_complement dbg e2, TT.probe_above dbg w1, TT.probe_above dbg w2,
      Except.ok.injEq, n1, n2, TT.bef_not k1, TT.bef_not k2] at q
    rw [h0] at p q
    revert p q
    cases tcov b false (.fin x) <;> simp
  · obtain ⟨p, q⟩ := (h x).2 (.upTo x) (by simp)
    rw [TT.probe_below dbg va, TT.probe_below dbg vb, Except.ok.injEq] at p
    rw [TT.sees_complement dbg e1, TT.sees_complement dbg e2, TT.probe_below dbg w1, TT.probe_below dbg w2,
      Except.ok.injEq, n1, n2, n1, n2] at q
    rw [h0] at p q
    revert p q
    cases tcov b false (.fin x) <;> simp

/-- `[2,4)` and `[2,3]` hold the same integers; the test finds the difference at 4. -/
example : (TineTree.fromRawInterval (.rightOpen (2 : Int) 4)).Reachable ∧
    (TineTree.fromRawInterval (.closed (2 : Int) 3)).Reachable ∧
    TineTree.sees true (TineTree.fromRawInterval (.rightOpen (2 : Int) 4)) [.add (.upFrom 4), .remove (.upFrom 4)] 4 ≠
      TineTree.sees true (TineTree.fromRawInterval (.closed (2 : Int) 3)) [.add (.upFrom 4), .remove (.upFrom 4)] 4 :=
  ⟨.fromRaw (by decide), .fromRaw (by decide), by decide⟩

/-- Two trees compare equal exactly if no changes tell them apart. -/
theorem C122_tree [Nonempty α] (dbg : Bool) (a b : TineTree α) (ha : a.Reachable) (hb : b.Reachable) :
    a = b ↔ ∀ cs : List (Change (RawInterval α)), (∀ c ∈ cs, c.Uses RawInterval.WF) →
      ∀ x, a.sees dbg cs x = b.sees dbg cs x := by
  constructor
  · rintro rfl _ _ _; rfl
  intro h
  rw [C122_tree_test dbg a b ha hb]
  refine fun x => ⟨h [] (by simp) x, fun i hi => ?_⟩
  have wf : i.WF := by
    simp only [List.mem_cons, List.not_mem_nil, or_false] at hi
    rcases hi with rfl | rfl <;> trivial
  exact ⟨h _ (by simp [Change.Uses, wf]) x, h _ (by simp [Change.Uses, wf]) x⟩

/-- `[2,4)` and `[2,3]` hold the same integers, and adding and removing what is above 4 tells them apart. -/
example : (TineTree.fromRawInterval (.rightOpen (2 : Int) 4)).Reachable ∧
    (TineTree.fromRawInterval (.closed (2 : Int) 3)).Reachable ∧
    TineTree.sees true (TineTree.fromRawInterval (.rightOpen (2 : Int) 4)) [.add (.upFrom 4), .remove (.upFrom 4)] 4 =
      .ok true ∧
    TineTree.sees true (TineTree.fromRawInterval (.closed (2 : Int) 3)) [.add (.upFrom 4), .remove (.upFrom 4)] 4 =
      .ok false :=
  ⟨.fromRaw (by decide), .fromRaw (by decide), by decide, by decide⟩

end Tree

section Selections
variable {α : Type} [LinearOrder α] [Finite α] [LawfulFinite α]

/-- How to tell two selections apart: by the values in them, and by the values in them, or in their complements,
once a neighbouring value has been added and removed again.  The type has at least three values. -/
theorem C122_selection_test (h3 : ∃ m p q : α, pred m = some p ∧ succ m = some q) (dbg : Bool) (a b : Selection α)
    (ha : a.Reachable) (hb : b.Reachable) :
    a = b ↔ ∀ x, a.contains dbg x = b.contains dbg x ∧
      ∀ v, (succ x = some v ∨ pred x = some v) →
        a.sees dbg [.add (.point v), .remove (.point v)] x = b.sees dbg [.add (.point v), .remove (.point v)] x ∧
        a.sees dbg [.complement, .add (.point v), .remove (.point v)] x =
          b.sees dbg [.complement, .add (.point v), .remove (.point v)] x := by
  constructor
  · rintro rfl; simp
  intro h
  have va := Selection.reachable_valid ha
  have vb := Selection.reachable_valid hb
  obtain ⟨ca, e1, w1, k1⟩ := Selection.complement_ok dbg va
  obtain ⟨cb, e2, w2, k2⟩ := Selection.complement_ok dbg vb
  have r1 : ca.Reachable := .complement ha e1
  have r2 : cb.Reachable := .complement hb e2
  have h0 : ∀ x, at' a.tree x = at' b.tree x := fun x => by
    have := (h x).1
    rw [Selection.contains_ok dbg va, Selection.contains_ok dbg vb] at this
    exact Except.ok.inj this
  have n1 : ∀ aft x, tcov ca.tree aft (.fin x) = !tcov a.tree aft (.fin x) := fun aft x => k1 aft _ ⟨by simp, by simp⟩
  have n2 : ∀ aft x, tcov cb.tree aft (.fin x) = !tcov b.tree aft (.fin x) := fun aft x => k2 aft _ ⟨by simp, by simp⟩
  have m1 : ∀ x, at' ca.tree x = !at' a.tree x := n1 false
  have m2 : ∀ x, at' cb.tree x = !at' b.tree x := n2 false
  have up : ∀ x v, succ x = some v → bef false a.tree (.fin x) = bef false b.tree (.fin x) := fun x v hv => by
    obtain ⟨p, q⟩ := (h x).2 v (.inl hv)
    rw [(Selection.probe dbg ha v x).1 hv, (Selection.probe dbg hb v x).1 hv, Except.ok.injEq] at p
    rw [Selection.sees_complement dbg e1, Selection.sees_complement dbg e2, (Selection.probe dbg r1 v x).1 hv,
      (Selection.probe dbg r2 v x).1 hv, Except.ok.injEq, m1, m2, TT.bef_not k1, TT.bef_not k2] at q
    rw [h0] at p q
    revert p q
    cases at' b.tree x <;> simp
  have down : ∀ x v, pred x = some v → tcov a.tree true (.fin x) = tcov b.tree true (.fin x) := fun x v hv => by
    obtain ⟨p, q⟩ := (h x).2 v (.inr hv)
    rw [(Selection.probe dbg ha v x).2 hv, (Selection.probe dbg hb v x).2 hv, Except.ok.injEq] at p
    rw [Selection.sees_complement dbg e1, Selection.sees_complement dbg e2, (Selection.probe dbg r1 v x).2 hv,
      (Selection.probe dbg r2 v x).2 hv, Except.ok.injEq, m1, m2, n1, n2] at q
    rw [h0] at p q
    revert p q
    cases at' b.tree x <;> simp
  obtain ⟨m, p, q, hp, hq⟩ := h3
  have lp := LawfulFinite.pred_some m p hp
  have lq := LawfulFinite.succ_some m q hq
  have aft : ∀ x, tcov a.tree true (.fin x) = tcov b.tree true (.fin x) := fun x => by
    cases hx : pred x with
    | some v => exact down x v hx
    | none =>
      have : x = minimum := (LawfulFinite.pred_none x).1 hx
      cases hy : succ x with
      | none =>
        have := not_lt_of_pred hx p
        have := (LawfulFinite.succ_none x).1 hy
        exact absurd (le_maximum m) (not_le.2 (by subst this; exact lt_of_le_of_lt ‹_› lp.1))
      | some y =>
        cases hz : succ y with
        | some z => rw [← bef_pred (pred_of_succ hy), ← bef_pred (pred_of_succ hy)]; exact up y z hz
        | none =>
          have e := (LawfulFinite.succ_none y).1 hz
          have : y ≤ m := (LawfulFinite.succ_some x y hy).2 m (lt_of_le_of_lt (not_lt_of_pred hx p) lp.1)
          subst e
          exact absurd (le_maximum q) (not_le.2 (lt_of_le_of_lt this lq.1))
  have : Nonempty α := ⟨m⟩
  have : a.tree = b.tree := TT.valid_ext_views va vb h0 (fun x => by
    cases hx : pred x with
    | some v => rw [bef_pred hx, bef_pred hx]; exact aft v
    | none =>
      cases hy : succ x with
      | some y => exact up x y hy
      | none =>
        have := not_lt_of_pred hx p
        have := (LawfulFinite.succ_none x).1 hy
        exact absurd (le_maximum m) (not_le.2 (by subst this; exact lt_of_le_of_lt ‹_› lp.1))) aft
  cases a; cases b; cases this; rfl

example : (∃ m p q : U8, pred m = some p ∧ succ m = some q) ∧
    Selection.edited.Reachable ∧ (Selection.demo [(u8 0, u8 2), (u8 5, u8 255)]).Reachable :=
  ⟨⟨u8 1, u8 0, u8 2, by decide, by decide⟩, Selection.edited_made.1.reachable_crisp.1,
    (Selection.demo_built _ (by decide)).reachable⟩

/-- Two selections compare equal exactly if no changes tell them apart. -/
theorem C122_selection (h3 : ∃ m p q : α, pred m = some p ∧ succ m = some q) (dbg : Bool) (a b : Selection α)
    (ha : a.Reachable) (hb : b.Reachable) :
    a = b ↔ ∀ cs : List (Change (Interval α)), (∀ c ∈ cs, c.Uses Interval.Obtainable) →
      ∀ x, a.sees dbg cs x = b.sees dbg cs x := by
  constructor
  · rintro rfl _ _ _; rfl
  intro h
  rw [C122_selection_test h3 dbg a b ha hb]
  refine fun x => ⟨h [] (by simp) x, fun v _ => ?_⟩
  have o : (Interval.point v).Obtainable := .point v
  exact ⟨h _ (by simp [Change.Uses, o]) x, h _ (by simp [Change.Uses, o]) x⟩

/-- The same values in two selections that compare unequal: removing a value tells them apart. -/
example : Selection.edited.pts true = (Selection.demo [(u8 0, u8 2), (u8 5, u8 255)]).pts true ∧
    Selection.edited ≠ Selection.demo [(u8 0, u8 2), (u8 5, u8 255)] := by
  refine ⟨Selection.pts_of_lists Selection.edited_made.1.reachable_crisp.1
    (Selection.demo_built _ (by decide)).reachable (is := [.mkClosed (u8 0) (u8 2), .mkClosed (u8 5) (u8 255)])
    (by decide) (by decide), by decide⟩

/-- As long as nothing is removed, selections with the same values cannot be told apart. -/
theorem C122_without_removal (dbg : Bool) (a b : Selection α) (ha : a.Reachable) (hb : b.Reachable)
    (h : a.pts dbg = b.pts dbg) (cs : List (Change (Interval α))) (hc : ∀ c ∈ cs, c.Uses Interval.Obtainable ∧ c.Keeps)
    (x : α) : a.sees dbg cs x = b.sees dbg cs x := by
  induction cs generalizing a b with
  | nil =>
    have va := Selection.reachable_valid ha
    have vb := Selection.reachable_valid hb
    change a.contains dbg x = b.contains dbg x
    rw [Selection.contains_ok dbg va, Selection.contains_ok dbg vb, Except.ok.injEq, Bool.eq_iff_iff,
      ← Selection.mem_pts dbg va, ← Selection.mem_pts dbg vb, h]
  | cons c cs ih =>
    have hc' := fun c h => hc c (List.mem_cons_of_mem _ h)
    obtain ⟨u, k⟩ := hc c List.mem_cons_self
    cases c with
    | remove i => exact absurd k (by simp [Change.Keeps])
    | complement =>
      obtain ⟨a', e1, r1, p1⟩ := Selection.complement_right dbg a ha
      obtain ⟨b', e2, r2, p2⟩ := Selection.complement_right dbg b hb
      rw [Selection.sees_complement dbg e1, Selection.sees_complement dbg e2]
      exact ih a' b' r1 r2 (by rw [p1, p2, h]) hc'
    | add i =>
      obtain ⟨a', e1, r1, p1⟩ := C48_union_in_place dbg a ha i u
      obtain ⟨b', e2, r2, p2⟩ := C48_union_in_place dbg b hb i u
      have := ih a' b' r1 r2 (by rw [p1, p2, h]) hc'
      simpa only [Selection.sees, Selection.changes, List.foldlM, e1, e2, bind, Except.bind] using this

example : Selection.edited.pts true = (Selection.demo [(u8 0, u8 2), (u8 5, u8 255)]).pts true ∧
    (Change.add (Interval.mkClosed (u8 1) (u8 3))).Keeps := by
  refine ⟨Selection.pts_of_lists Selection.edited_made.1.reachable_crisp.1
    (Selection.demo_built _ (by decide)).reachable (is := [.mkClosed (u8 0) (u8 2), .mkClosed (u8 5) (u8 255)])
    (by decide) (by decide), trivial⟩

/-- Over a type of one or two values selections with the same values cannot be told apart by any changes. -/
theorem C122_two_values (h2 : ∀ m p q : α, pred m = some p → succ m ≠ some q) (dbg : Bool) (a b : Selection α)
    (ha : a.Reachable) (hb : b.Reachable) (h : a.pts dbg = b.pts dbg) (cs : List (Change (Interval α)))
    (hc : ∀ c ∈ cs, c.Uses Interval.Obtainable) (x : α) : a.sees dbg cs x = b.sees dbg cs x := by
  have none : ∀ (s : Selection α), s.Reachable → ∀ y, ¬ s.Pinhole dbg y := fun s hs y hy => by
    rw [Selection.pinhole_iff dbg (Selection.reachable_valid hs)] at hy
    obtain ⟨n1, n2⟩ := hs.fit.no_hole
    cases hp : pred y with
    | none => rw [(LawfulFinite.pred_none y).1 hp, n1] at hy; cases hy
    | some p =>
      cases hq : succ y with
      | none => rw [(LawfulFinite.succ_none y).1 hq, n2] at hy; cases hy
      | some q => exact h2 y p q hp hq
  have rem : ∀ (s : Selection α), s.Reachable → ∀ i : Interval α, i.Obtainable →
      ∃ s', s.minusInPlace dbg i = .ok s' ∧ s'.Reachable ∧ s'.pts dbg = s.pts dbg \ i.pts := fun s hs i hi => by
    obtain ⟨s', e, p⟩ := (C50_exact_any dbg s hs i hi).2 fun y hy => absurd hy (none s hs y)
    exact ⟨s', e, .minusInPlace hs hi e, p⟩
  induction cs generalizing a b with
  | nil => exact C122_without_removal dbg a b ha hb h [] (by simp) x
  | cons c cs ih =>
    have hc' := fun c h => hc c (List.mem_cons_of_mem _ h)
    have u := hc c List.mem_cons_self
    cases c with
    | remove i =>
      obtain ⟨a', e1, r1, p1⟩ := rem a ha i u
      obtain ⟨b', e2, r2, p2⟩ := rem b hb i u
      have := ih a' b' r1 r2 (by rw [p1, p2, h]) hc'
      simpa only [Selection.sees, Selection.changes, List.foldlM, e1, e2, bind, Except.bind] using this
    | complement =>
      obtain ⟨a', e1, r1, p1⟩ := Selection.complement_right dbg a ha
      obtain ⟨b', e2, r2, p2⟩ := Selection.complement_right dbg b hb
      rw [Selection.sees_complement dbg e1, Selection.sees_complement dbg e2]
      exact ih a' b' r1 r2 (by rw [p1, p2, h]) hc'
    | add i =>
      obtain ⟨a', e1, r1, p1⟩ := C48_union_in_place dbg a ha i u
      obtain ⟨b', e2, r2, p2⟩ := C48_union_in_place dbg b hb i u
      have := ih a' b' r1 r2 (by rw [p1, p2, h]) hc'
      simpa only [Selection.sees, Selection.changes, List.foldlM, e1, e2, bind, Except.bind] using this

end Selections

instance : Fact ((0 : Int) ≤ 1) := ⟨by decide⟩

/-- The integers 0 and 1. -/
abbrev Bit := MInt 0 1

/-- So the selection of `open(0, 1)`, of the integers 0 and 1, and the empty selection differ, but cannot be told
apart. -/
theorem C122_two_values_counterexample : ∃ a b : Selection Bit, a.Reachable ∧ b.Reachable ∧ a ≠ b ∧
    ∀ cs : List (Change (Interval Bit)), (∀ c ∈ cs, c.Uses Interval.Obtainable) →
      ∀ x, a.sees true cs x = b.sees true cs x := by
  have r1 : (Selection.ofInterval (Interval.mkOpen (⟨0, by decide, by decide⟩ : Bit) ⟨1, by decide, by decide⟩)).Reachable :=
    .ofInterval (.mkOpen _ _)
  refine ⟨_, Selection.new, r1, .new, by decide, C122_two_values ?_ true _ _ r1 .new ?_⟩
  · rintro ⟨m, h1, h2⟩ ⟨p, g1, g2⟩ ⟨q, k1, k2⟩ hp hq
    have := (LawfulFinite.pred_some _ _ hp).1
    have := (LawfulFinite.succ_some _ _ hq).1
    have : p < m := ‹_›
    have : m < q := ‹_›
    omega
  · have k : ∀ s : Selection Bit, s.contains true ⟨0, by decide, by decide⟩ = .ok false →
        s.contains true ⟨1, by decide, by decide⟩ = .ok false → s.pts true = ∅ := fun s k0 k1 => by
      refine Set.eq_empty_of_forall_notMem ?_
      rintro ⟨m, h1, h2⟩ (hm : _ = _)
      obtain rfl | rfl : m = 0 ∨ m = 1 := by omega
      · rw [k0] at hm; cases hm
      · rw [k1] at hm; cases hm
    rw [k _ (by decide) (by decide), k _ (by decide) (by decide)]

end NI
