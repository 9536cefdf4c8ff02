import Verif.Lemmas.Unwind
import Verif.Lemmas.Whole
import Verif.Props.Count

/-!
# What is left after a panic that a caller catches (C97)

`catch_unwind` gives the caller the value an interrupted in-place operation left behind.
-/

set_option linter.unusedVariables false
set_option linter.unusedSectionVars false

namespace NI
open _root_.NI.Finite TT

section Tree
variable {α : Type} [LinearOrder α]

/-! ## C97 on trees -/

/-- The model that keeps what a panic leaves is the model of all other properties, once that is forgotten. -/
theorem C97_same_model (dbg : Bool) (t : TineTree α) (i : RawInterval α) :
    (TineTree.unionInPlaceU dbg t i).forget = TineTree.unionInPlace dbg t i ∧
    (TineTree.minusInPlaceU dbg t i).forget = TineTree.minusInPlace dbg t i ∧
    (TineTree.intersectInPlaceU dbg t i).forget = TineTree.intersectInPlace dbg t i :=
  ⟨TineTree.unionInPlaceU_forget dbg t i, TineTree.minusInPlaceU_forget dbg t i,
    TineTree.intersectInPlaceU_forget dbg t i⟩

example : TineTree.intersectInPlaceU true (TineTree.demo [.closed 0 2]) (.closed 1 5) =
    TineTree.intersectInPlaceU false (TineTree.demo [.closed 0 2]) (.closed 1 5) := by decide

/-- `union_in_place` and `minus_in_place` never panic, in debug builds neither. -/
theorem C97_no_panic (dbg : Bool) (t : TineTree α) (ht : t.Reachable) (i : RawInterval α) (hi : i.WF) :
    (∃ t', TineTree.unionInPlaceU dbg t i = .ok t') ∧ ∃ t', TineTree.minusInPlaceU dbg t i = .ok t' := by
  have v := TT.reachable_valid ht
  constructor
  · obtain ⟨t', e, -⟩ := TT.unionInPlace_ok dbg v hi
    exact ⟨t', ok_of_forget ((TineTree.unionInPlaceU_forget dbg t i).trans e)⟩
  · obtain ⟨t', e⟩ := TT.minusInPlace_total dbg v hi
    exact ⟨t', ok_of_forget ((TineTree.minusInPlaceU_forget dbg t i).trans e)⟩

example : (TineTree.demo [.rightOpen 0 4, .leftOpen 4 9]).Reachable :=
  TineTree.fromIter_reachable (dbg := true) (is := [.rightOpen 0 4, .leftOpen 4 9])
    (by simp [RawInterval.WF]) rfl

/-- A panic of `intersect_in_place` leaves a proper tree exactly if the tree covers neither the stretch
just above the lower end of the interval nor the one just below its upper end; then the tree left contains
exactly the points of the tree that lie strictly between the ends.
Missing from the full property: the other positions of the interval; there the tree left is corrupt, see
`C97_counterexample`. -/
theorem C97_intersect_in_place_partial (dbg : Bool) (t t' : TineTree α) (ht : t.Reachable) (i : RawInterval α)
    (hi : i.WF) (is : List (RawInterval α)) (his : TineTree.intervals dbg t = .ok is) (p : Panic)
    (h : TineTree.intersectInPlaceU dbg t i = .error (p, t')) :
    ∃ l u, i.lowerBound = some l ∧ i.upperBound = some u ∧
      (t'.Reachable ↔ ¬ RawInterval.CoversAbove is (Tine.lower l).pos ∧
        ¬ RawInterval.CoversBelow is (Tine.upper u).pos) ∧
      (t'.Reachable → ∀ x, TineTree.contains dbg t' x = .ok true ↔
        TineTree.contains dbg t x = .ok true ∧
          (Tine.lower l).pos < ((x : WithTop α) : WithBot (WithTop α)) ∧
          ((x : WithTop α) : WithBot (WithTop α)) < (Tine.upper u).pos) := by
  have v := TT.reachable_valid ht
  rw [TT.intervals_eq dbg v] at his
  cases his
  obtain ⟨l, u, e, -, h1, h2⟩ := TT.intersectInPlaceU_left dbg v hi h
  obtain ⟨hl, hu⟩ := TT.bounds_of_tines e
  refine ⟨l, u, hl, hu, ?_, fun r x => ?_⟩
  · rw [Tine.pos_eq, Tine.pos_eq, coversAbove_iff v, coversBelow_iff v, Bool.not_eq_true, Bool.not_eq_true,
      ← h1]
    exact ⟨TT.reachable_valid, TT.valid_reachable⟩
  · have v' := TT.reachable_valid r
    have e1 : ((x : WithTop α) : WithBot (WithTop α)) = (Key.fin x).toW := rfl
    have e2 := h2 v' false (.fin x)
    rw [TT.contains_iff dbg v', TT.contains_iff dbg v, e2, Tine.pos_eq, Tine.pos_eq, e1,
      ← Key.lt_def, ← Key.lt_def]
    simp [and_assoc]

example : (TineTree.demo [.closed 3 4, .leftOpen 9 10]).Reachable ∧ (RawInterval.closed (0 : Int) 9).WF ∧
    TineTree.intersectInPlaceU true (TineTree.demo [.closed 3 4, .leftOpen 9 10]) (.closed 0 9) =
      .error (.unreachable, TineTree.demo [.closed 3 4]) :=
  ⟨TineTree.fromIter_reachable (dbg := true) (is := [.closed 3 4, .leftOpen 9 10]) (by simp [RawInterval.WF]) rfl,
    by simp [RawInterval.WF], by decide⟩

/-- A debug build that keeps using the tree a panic left notices that it is corrupt, by a further panic, when it
iterates over it and over its complement. -/
theorem C97_noticed (t t' : TineTree α) (ht : t.Reachable) (i : RawInterval α) (hi : i.WF) (dbg : Bool)
    (p : Panic) (h : TineTree.intersectInPlaceU dbg t i = .error (p, t')) :
    t'.Reachable ↔ (∃ is, TineTree.intervals true t' = .ok is) ∧
      ∃ c cs, TineTree.complement true t' = .ok c ∧ TineTree.intervals true c = .ok cs := by
  have v := TT.reachable_valid ht
  obtain ⟨l, u, e, hs, -, -⟩ := TT.intersectInPlaceU_left dbg v hi h
  constructor
  · intro hr
    have v := reachable_valid hr
    obtain ⟨c, e, vc, -⟩ := complement_ok true v
    exact ⟨⟨_, intervals_eq true v⟩, c, _, e, intervals_eq true vc⟩
  · rintro ⟨⟨is, e⟩, c, cs, ec, e'⟩
    exact reachable_of_valid (valid_of_loose ⟨fun x hx => v.1.1 x (hs.subset hx), v.1.2.sublist hs⟩
      (intervals_loose e) ec (intervals_loose e'))

/-- `[3,4] ∪ (9,10]` cut with `[0,9]` panics and keeps `[3,4]`, which is right but for the panic. -/
example : ∀ dbg, TineTree.intersectInPlaceU dbg (TineTree.demo [.closed 3 4, .leftOpen 9 10]) (.closed 0 9) =
    .error (.unreachable, TineTree.demo [.closed 3 4]) := by decide

/-- `[0,2]` cut with `[0,5]` panics and leaves a single upper bound, over which nothing can iterate;
`[0,4) ∪ (4,9]` cut with `[0,12]` panics and leaves a tree that claims not to contain `1`. -/
theorem C97_counterexample :
    (∃ t t' : TineTree Int, t.Reachable ∧ (∀ dbg,
        TineTree.intersectInPlaceU dbg t (.closed 0 5) = .error (.unreachable, t')) ∧
      ¬ t'.Reachable ∧ (∀ dbg is, TineTree.intervals dbg t' ≠ .ok is) ∧
      ∀ dbg b, TineTree.contains dbg t' 1 ≠ .ok b) ∧
    (∃ t t' : TineTree Int, t.Reachable ∧ (∀ dbg,
        TineTree.intersectInPlaceU dbg t (.closed 0 12) = .error (.unreachable, t')) ∧
      ¬ t'.Reachable ∧ TineTree.intervals true t' = .ok [.leftOpen 4 9] ∧
      TineTree.contains true t 1 = .ok true ∧ TineTree.contains true t' 1 = .ok false) := by
  refine ⟨⟨_, [.upper (.incl 2)], .fromRaw (i := .closed 0 2) (by decide), by decide, fun h => ?_, ?_, ?_⟩,
    ⟨_, [.point (.excl 4), .upper (.incl 9)], TineTree.fromIter_reachable (dbg := true)
      (is := [.rightOpen 0 4, .leftOpen 4 9]) (by simp [RawInterval.WF]) rfl, by decide, fun h => ?_, by decide,
      by decide, by decide⟩⟩
  · exact absurd (reachable_valid h).2 (by simp [Chain, Tine.isUpperBound])
  · intro dbg is h
    cases dbg <;> cases h
  · intro dbg b h
    cases dbg <;> cases h
  · exact absurd (reachable_valid h).2 (by simp [Chain, Tine.isUpperBound])

end Tree

section Sel
variable {α : Type} [LinearOrder α] [Finite α] [LawfulFinite α]

/-! ## C97 on selections -/

/-- The same model for selections. -/
theorem C97_selection_same_model (dbg : Bool) (s : Selection α) (i : Interval α) (is : List (Interval α)) :
    (s.unionInPlaceU dbg i).forget.map Selection.mk = s.unionInPlace dbg i ∧
    (s.minusInPlaceU dbg i).forget.map Selection.mk = s.minusInPlace dbg i ∧
    (s.intersectInPlaceU dbg i).forget.map Selection.mk = s.intersectInPlace dbg i ∧
    (s.extendU dbg is).forget.map Selection.mk = s.extend dbg is := by
  have one : ∀ {x : Unwind α (TineTree α)} {y : Except Panic (TineTree α)}, x.forget = y →
      x.forget.map Selection.mk = (do .ok ⟨← y⟩ : Except Panic (Selection α)) := by
    rintro x y rfl
    cases x.forget <;> rfl
  refine ⟨one (TineTree.unionInPlaceU_forget dbg _ _), one (TineTree.minusInPlaceU_forget dbg _ _),
    one (TineTree.intersectInPlaceU_forget dbg _ _), ?_⟩
  obtain ⟨t⟩ := s
  rw [Selection.extendU, Selection.extend]
  induction is generalizing t with
  | nil => rfl
  | cons j is ih =>
    rw [List.foldlM_cons, List.foldlM_cons, forget_bind, TineTree.unionInPlaceU_forget]
    cases TineTree.unionInPlace dbg t j.raw.denormalized with
    | error p => rfl
    | ok t1 => exact ih t1

example : ((Selection.demo [(u8 0, u8 2)]).intersectInPlaceU true (Interval.mkClosed (u8 0) (u8 5))).forget =
    .error .unreachable := by decide

/-- `union_in_place`, `minus_in_place` and `extend` never panic. -/
theorem C97_selection_no_panic (dbg : Bool) (s : Selection α) (hs : s.Reachable) (i : Interval α)
    (hi : i.Obtainable) (is : List (Interval α)) (his : ∀ j ∈ is, j.Obtainable) :
    (∃ t', s.unionInPlaceU dbg i = .ok t') ∧ (∃ t', s.minusInPlaceU dbg i = .ok t') ∧
      ∃ t', s.extendU dbg is = .ok t' := by
  obtain ⟨h1, h2, -, h4⟩ := C97_selection_same_model dbg s i is
  have key : ∀ {x : Unwind α (TineTree α)} {s' : Selection α}, x.forget.map Selection.mk = .ok s' →
      ∃ t', x = .ok t' := by
    rintro (⟨p, t⟩ | t) s' h
    · cases h
    · exact ⟨t, rfl⟩
  obtain ⟨s1, e1, -⟩ := C48_union_in_place dbg s hs i hi
  obtain ⟨s2, e2, -⟩ := C50_removes_partial dbg s hs i hi
  obtain ⟨s4, e4, -⟩ := C48_extend dbg s hs is his
  exact ⟨key (h1.trans e1), key (h2.trans e2), key (h4.trans e4)⟩

example : (Selection.demo [(u8 3, u8 5), (u8 7, u8 255)]).Reachable :=
  (Selection.demo_built _ (by decide)).reachable

/-- If the iterator handed to `extend` panics, the selection has taken in what the iterator has returned before, just as if
the iterator had ended there. -/
theorem C97_extend (dbg : Bool) (s : Selection α) (hs : s.Reachable) (is : List (Interval α))
    (his : ∀ j ∈ is, j.Obtainable) (p : Panic) (rest : List (Except Panic (Interval α))) :
    ∃ t', s.extendFromU dbg (is.map .ok ++ .error p :: rest) = .error (p, t') ∧ s.extend dbg is = .ok ⟨t'⟩ ∧
      s.extendFromU dbg (is.map .ok) = .ok t' ∧ (Selection.mk t').Reachable ∧
      ∀ x, x ∈ (Selection.mk t').pts dbg ↔ x ∈ s.pts dbg ∨ ∃ i ∈ is, x ∈ i.pts := by
  obtain ⟨⟨t'⟩, e, hr, hx⟩ := C48_extend dbg s hs is his
  have key : ∀ (is : List (Interval α)) (t : TineTree α) (q : List (Except Panic (Interval α))),
      List.foldlM (m := Unwind α) (fun t i => do
        let i ← leaving t i
        TineTree.unionInPlaceU dbg t i.raw.denormalized) t (is.map .ok ++ q) =
      (do
        let t ← is.foldlM (m := Unwind α) (fun t i => TineTree.unionInPlaceU dbg t i.raw.denormalized) t
        List.foldlM (m := Unwind α) (fun t i => do
          let i ← leaving t i
          TineTree.unionInPlaceU dbg t i.raw.denormalized) t q) := by
    intro is
    induction is with
    | nil => intro t q; rfl
    | cons i is ih =>
      intro t q
      rw [List.map_cons, List.cons_append, List.foldlM_cons, List.foldlM_cons]
      show (do
          let t ← TineTree.unionInPlaceU dbg t i.raw.denormalized
          List.foldlM (m := Unwind α) _ t _) = _
      cases TineTree.unionInPlaceU dbg t i.raw.denormalized with
      | error q => rfl
      | ok t => exact ih t q
  have h4 := (C97_selection_same_model dbg s .empty is).2.2.2
  rw [e] at h4
  have hu : s.extendU dbg is = .ok t' := by
    cases hx : s.extendU dbg is with
    | error q => rw [hx] at h4; cases h4
    | ok t => rw [hx] at h4; cases h4; rfl
  refine ⟨t', ?_, e, ?_, hr, hx⟩
  · rw [Selection.extendFromU, key]
    rw [Selection.extendU] at hu
    rw [hu]
    rfl
  · have := key is s.tree []
    rw [List.append_nil] at this
    rw [Selection.extendFromU, this]
    rw [Selection.extendU] at hu
    rw [hu]
    rfl

example : (Selection.demo [(u8 3, u8 5)]).extendFromU true
    [.ok (Interval.mkClosed (u8 8) (u8 9)), .error .explicit, .ok (.point (u8 20))] =
    .error (.explicit, (Selection.demo [(u8 3, u8 5), (u8 8, u8 9)]).tree) := by decide

/-- A panic of `intersect_in_place` with `[l,u]` on a union-built selection leaves a proper selection exactly
if the selection contains neither `l` nor the value below it, and neither `u` nor the value above it; then it
leaves exactly the common points, as if it had not panicked.
Missing from the full property: the other intervals; there the selection left is corrupt, see
`C97_selection_counterexample`. -/
theorem C97_selection_partial (dbg : Bool) (s : Selection α) (hs : s.UnionBuilt) (l u : α) (hlu : l ≤ u)
    (p : Panic) (t' : TineTree α)
    (h : s.intersectInPlaceU dbg (Interval.mkClosed l u) = .error (p, t')) :
    ((Selection.mk t').Reachable ↔ ¬ s.TouchesBelow dbg l ∧ ¬ s.TouchesAbove dbg u) ∧
      ((Selection.mk t').Reachable → (Selection.mk t').pts dbg = s.pts dbg ∩ Set.Icc l u) := by
  have hr := Selection.reachable_iff.1 hs.reachable
  have v := hr.1
  have hd := hs.do
  have hi : (Interval.mkClosed l u).Obtainable := .mkClosed _ _
  have hw := RawInterval.denorm_wf (Interval.obtainable_nf hi)
  obtain ⟨lb, ub, hf, hsub, h1, h2⟩ := TT.intersectInPlaceU_left dbg v hw h
  rw [Selection.closed_denorm hlu] at hf
  simp only [RawInterval.denormalized] at hf
  have hv : (Selection.mk t').Reachable ↔ Valid t' :=
    ⟨fun h => (Selection.reachable_iff.1 h).1,
      fun h => Selection.reachable_iff.2 ⟨h, fun x hx => hr.2 x (hsub.subset hx)⟩⟩
  have ta : ∀ x, (s.TouchesAbove dbg x ↔ tcov s.tree true (.fin x) = true) := by
    intro x
    rw [hd.1, Selection.TouchesAbove]
    simp only [Selection.mem_pts dbg v, Bool.or_eq_true]
    cases succ x <;> simp
  have bb : ∀ x, (s.TouchesBelow dbg x ↔ bef false s.tree (.fin x) = true) := by
    intro x
    rw [hd.bef, Selection.TouchesBelow]
    simp only [Selection.mem_pts dbg v, Bool.or_eq_true]
    cases pred x <;> simp
  have el : tcov s.tree true (Tine.lower lb).key = bef false s.tree (.fin l) ∧
      ∀ x, (Tine.lower lb).key < .fin x ↔ l ≤ x := by
    cases hp : pred l with
    | none =>
      cases hq : succ u <;> rw [hp, hq] at hf <;> simp [Tine.fromRawInterval] at hf <;> obtain ⟨rfl, rfl⟩ := hf <;>
        refine ⟨(bef_min hp).symm, fun x => ?_⟩ <;>
        simp [Tine.key, (LawfulFinite.pred_none l).1 hp, LawfulFinite.min_le]
    | some q =>
      have hq' := LawfulFinite.pred_some l q hp
      cases hq : succ u <;> rw [hp, hq] at hf <;> simp [Tine.fromRawInterval] at hf <;> obtain ⟨rfl, rfl⟩ := hf <;>
        refine ⟨(bef_pred hp).symm, fun x => ?_⟩ <;> simp only [Tine.key, Key.fin_lt_fin] <;>
        exact ⟨fun h => by_contra fun h' => absurd (hq'.2 x (not_le.1 h')) (not_le.2 h), fun h => hq'.1.trans_le h⟩
  have eu : bef false s.tree (Tine.upper ub).key = tcov s.tree true (.fin u) ∧
      ∀ x, .fin x < (Tine.upper ub).key ↔ x ≤ u := by
    cases hp : succ u with
    | none =>
      have hm := (LawfulFinite.succ_none u).1 hp
      cases hq : pred l <;> rw [hp, hq] at hf <;> simp [Tine.fromRawInterval] at hf <;> obtain ⟨rfl, rfl⟩ := hf <;>
        refine ⟨by rw [hm]; exact bef_top, fun x => ?_⟩ <;>
        simp [Tine.key, hm, LawfulFinite.le_max]
    | some q =>
      have hq' := LawfulFinite.succ_some u q hp
      cases hq : pred l <;> rw [hp, hq] at hf <;> simp [Tine.fromRawInterval] at hf <;> obtain ⟨rfl, rfl⟩ := hf <;>
        refine ⟨bef_pred (pred_of_succ hp), fun x => ?_⟩ <;> simp only [Tine.key, Key.fin_lt_fin] <;>
        exact ⟨fun h => by_contra fun h' => absurd (hq'.2 x (not_le.1 h')) (not_le.2 h), fun h => h.trans_lt hq'.1⟩
  rw [hv]
  refine ⟨by rw [h1, el.1, eu.1, ta, bb, Bool.not_eq_true, Bool.not_eq_true], fun v' => ?_⟩
  ext x
  have := h2 v' false (.fin x)
  rw [Selection.mem_pts dbg v', Set.mem_inter_iff, Selection.mem_pts dbg v]
  simp only [at', this, el.2, eu.2]
  simp [Set.mem_Icc, and_assoc]

/-- `{0} ∪ [4,5]` cut with `[2,7]` panics and keeps `[4,5]`. -/
example : ∀ dbg, (Selection.demo [(u8 0, u8 0), (u8 4, u8 5)]).intersectInPlaceU dbg (Interval.mkClosed (u8 2) (u8 7)) =
    .error (.unreachable, (Selection.demo [(u8 4, u8 5)]).tree) := by decide

/-- `[0,2]` cut with `[0,5]` panics and leaves a selection over which nothing can iterate. -/
theorem C97_selection_counterexample :
    ∃ (s : Selection U8) (t' : TineTree U8), s.UnionBuilt ∧ (∀ dbg,
        s.intersectInPlaceU dbg (Interval.mkClosed (u8 0) (u8 5)) = .error (.unreachable, t')) ∧
      ¬ (Selection.mk t').Reachable ∧ (∀ dbg is, (Selection.mk t').intervals dbg ≠ .ok is) := by
  refine ⟨Selection.demo [(u8 0, u8 2)], [.upper (.excl (u8 3))], Selection.demo_built _ (by decide), by decide,
    fun h => ?_, fun dbg is h => ?_⟩
  · exact absurd (Selection.reachable_valid h).2 (by simp [Chain, Tine.isUpperBound])
  · cases dbg <;> cases h

end Sel
end NI
