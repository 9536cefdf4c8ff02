import Verif.SpecToggle
import Verif.Props.Patch
import Verif.Props.Algebra

/-! # The values that are in one of two selections (C135) -/

namespace NI
open _root_.NI.Finite TT
variable {α : Type} [LinearOrder α] [Finite α] [LawfulFinite α]

/-- **C135.**  By complements and unions the result is right, for selections of any history. -/
theorem C135_complements (dbg : Bool) (a b : Selection α) (ha : a.Reachable) (hb : b.Reachable) :
    ∃ s, a.eitherByComplements dbg b = .ok s ∧ s.Reachable ∧ s.pts dbg = InOne (a.pts dbg) (b.pts dbg) := by
  obtain ⟨a1, e1, r1, h1⟩ := Selection.complement_right dbg a ha
  obtain ⟨a2, e2, r2, h2⟩ := Selection.union_right dbg a1 b r1 hb
  obtain ⟨a3, e3, r3, h3⟩ := Selection.complement_right dbg a2 r2
  obtain ⟨b1, f1, q1, g1⟩ := Selection.complement_right dbg b hb
  obtain ⟨b2, f2, q2, g2⟩ := Selection.union_right dbg b1 a q1 ha
  obtain ⟨b3, f3, q3, g3⟩ := Selection.complement_right dbg b2 q2
  obtain ⟨s, e, r, h⟩ := Selection.union_right dbg a3 b3 r3 q3
  refine ⟨s, ?_, r, ?_⟩
  · simp only [Selection.eitherByComplements, e1, e2, e3, f1, f2, f3, e, bind, Except.bind]
  · ext x
    simp only [h, h3, h2, h1, g3, g2, g1, InOne, Set.mem_union, Set.mem_compl_iff, Set.mem_ofPred_eq]
    tauto

example : (Selection.demo [(u8 2, u8 4), (u8 6, u8 6)]).Reachable ∧ (Selection.demo [(u8 4, u8 6)]).Reachable ∧
    ∃ s, (Selection.demo [(u8 2, u8 4), (u8 6, u8 6)]).eitherByComplements true (Selection.demo [(u8 4, u8 6)]) = .ok s ∧
      s.intervals true = .ok [⟨.closed (u8 2) (u8 3)⟩, ⟨.point (u8 5)⟩] :=
  ⟨(Selection.demo_built _ (by decide)).reachable, (Selection.demo_built _ (by decide)).reachable, _, rfl, by decide⟩

/-- As an expression of the algebra of sets. -/
def SetExpr.either (e f : SetExpr) : SetExpr :=
  .union (.complement (.union (.complement e) f)) (.complement (.union (.complement f) e))

omit [LawfulFinite α] in
theorem Selection.either_algebra (dbg : Bool) (v : Nat → Selection α) {e f : SetExpr} {a b : Selection α}
    (ha : algebra dbg v e = .ok a) (hb : algebra dbg v f = .ok b) :
    algebra dbg v (.either e f) = a.eitherByComplements dbg b := by
  simp only [algebra] at ha hb
  simp only [algebra, SetExpr.either, SetExpr.compute, ha, hb, Selection.eitherByComplements, bind, Except.bind]
  cases a.complement dbg with
  | error p => rfl
  | ok c =>
    dsimp only
    cases c.union dbg b with
    | error p => rfl
    | ok d =>
      dsimp only
      cases d.complement dbg with
      | error p => rfl
      | ok p =>
        dsimp only
        cases b.complement dbg with
        | error p => rfl
        | ok c =>
          dsimp only
          cases c.union dbg a with
          | error p => rfl
          | ok d => cases d.complement dbg <;> rfl

/-- **C135.**  By complements and unions the laws hold as equalities of values: the order does not matter, doing it
again takes it back, and nothing is left exactly if the two are equal. -/
theorem C135_laws (dbg : Bool) (a b : Selection α) (ha : a.Reachable) (hb : b.Reachable) :
    ∃ s, a.eitherByComplements dbg b = .ok s ∧ b.eitherByComplements dbg a = .ok s ∧
      s.eitherByComplements dbg b = .ok a ∧ (s.isEmpty = true ↔ a = b) := by
  obtain ⟨s, e, r, h⟩ := C135_complements dbg a b ha hb
  let v : Nat → Selection α := fun n => if n = 0 then a else b
  have hv : ∀ n, (v n).Reachable := fun n => by dsimp only [v]; split_ifs <;> assumption
  have v0 : Selection.algebra dbg v (.set 0) = .ok a := rfl
  have v1 : Selection.algebra dbg v (.set 1) = .ok b := rfl
  have vs : Selection.algebra dbg v (.either (.set 0) (.set 1)) = .ok s := by rw [Selection.either_algebra dbg v v0 v1, e]
  refine ⟨s, e, ?_, ?_, ?_⟩
  · obtain ⟨t, k1, k2⟩ := Selection.C107_selection dbg [] (.either (.set 0) (.set 1)) (.either (.set 1) (.set 0))
      (fun w _ => by simp only [SetExpr.either, SetExpr.holds]; cases w 0 <;> cases w 1 <;> rfl) v hv (by simp)
    rw [vs] at k1; cases k1
    rw [← Selection.either_algebra dbg v v1 v0, k2]
  · obtain ⟨t, k1, k2⟩ := Selection.C107_selection dbg [] (.either (.either (.set 0) (.set 1)) (.set 1)) (.set 0)
      (fun w _ => by simp only [SetExpr.either, SetExpr.holds]; cases w 0 <;> cases w 1 <;> rfl) v hv (by simp)
    rw [v0] at k2; cases k2
    rw [← Selection.either_algebra dbg v vs v1, k1]
  · constructor
    · intro k
      have hs : s = Selection.new := by
        obtain ⟨t⟩ := s
        cases t
        · rfl
        · cases k
      have vn : Selection.algebra dbg v .none = .ok s := by rw [hs]; rfl
      obtain ⟨t, k1, k2⟩ := Selection.C107_selection dbg [(.either (.set 0) (.set 1), .none)] (.set 0) (.set 1)
        (fun w h => by
          have := h _ (.head _)
          simp only [SetExpr.either, SetExpr.holds] at this ⊢
          revert this
          cases w 0 <;> cases w 1 <;> simp) v hv (fun p hp => by
            rw [List.mem_singleton] at hp; subst hp; rw [vs, vn])
      rw [v0] at k1; cases k1
      rw [v1] at k2; cases k2; rfl
    · rintro rfl
      obtain ⟨t, k1, k2⟩ := Selection.C107_selection dbg [] (.either (.set 0) (.set 0)) .none
        (fun w _ => by simp only [SetExpr.either, SetExpr.holds]; cases w 0 <;> rfl) v hv (by simp)
      rw [Selection.either_algebra dbg v v0 v0, e] at k1; cases k1
      cases k2; rfl

/-- Two selections with the same values of which one has been cut at 4 are not equal; nothing is left of one with
itself. -/
example : (Selection.demo [(u8 3, u8 3), (u8 5, u8 9)]).Reachable ∧
    ∃ s, (Selection.demo [(u8 3, u8 3), (u8 5, u8 9)]).eitherByComplements true
      (Selection.demo [(u8 3, u8 3), (u8 5, u8 9)]) = .ok s ∧ s.isEmpty = true :=
  ⟨(Selection.demo_built _ (by decide)).reachable, _, rfl, by decide⟩

/-- **C135.**  Switching intervals one after the other: a value is in the result if it was in the selection and an even
number of the intervals contain it, or was not and an odd number do. -/
theorem C135_toggles (dbg : Bool) (is : List (Interval α)) (s : Selection α) (hs : s.Reachable)
    (hi : ∀ i ∈ is, i.Obtainable) :
    ∃ r, s.toggles dbg is = .ok r ∧ r.Reachable ∧ ∀ x, x ∈ r.pts dbg ↔
      (x ∈ s.pts dbg ↔ (is.countP fun i => i.contains x) % 2 = 0) := by
  induction is generalizing s with
  | nil => exact ⟨s, rfl, hs, by simp⟩
  | cons i is ih =>
    obtain ⟨s1, e1, r1, h1⟩ := C135_complements dbg s (.ofInterval i) hs (.ofInterval (hi i (.head _)))
    obtain ⟨r, e, rr, k⟩ := ih s1 r1 fun j h => hi j (.tail _ h)
    refine ⟨r, by rw [Selection.toggles, List.foldlM_cons, e1]; exact e, rr, fun x => ?_⟩
    have pi : x ∈ (Selection.ofInterval i).pts dbg ↔ i.contains x = true := by
      rw [(C48_start dbg i (hi i (.head _))).2.2]; rfl
    rw [k, h1, List.countP_cons]
    simp only [InOne, Set.mem_ofPred_eq, pi]
    by_cases hx : i.contains x = true
    · simp only [hx, if_true]
      by_cases hm : x ∈ s.pts dbg <;> simp only [hm] <;> simp <;> omega
    · simp only [hx]
      by_cases hm : x ∈ s.pts dbg <;> simp [hm]

example : (Selection.demo [(u8 2, u8 4)]).Reachable ∧ (∀ i ∈ [Interval.mkClosed (u8 4) (u8 6), .mkClosed (u8 3) (u8 5)],
      i.Obtainable) ∧
    ∃ r, (Selection.demo [(u8 2, u8 4)]).toggles true [.mkClosed (u8 4) (u8 6), .mkClosed (u8 3) (u8 5)] = .ok r ∧
      [u8 1, u8 2, u8 3, u8 4, u8 5, u8 6, u8 7].map (r.contains true ·) =
        [false, true, false, true, false, true, false].map Except.ok :=
  ⟨(Selection.demo_built _ (by decide)).reachable, by simp [Interval.Obtainable.mkClosed], _, rfl, by decide⟩

/-- **C135.**  By `minus` both ways: what the result contains, for selections built by unions. -/
theorem C135_minus (dbg : Bool) (a b : Selection α) (ha : a.UnionBuilt) (hb : b.UnionBuilt) :
    ∃ s, a.eitherByMinus dbg b = .ok s ∧ ∀ x, x ∈ s.pts dbg ↔ x ∈ InOne (a.pts dbg) (b.pts dbg) ∨
      (x ∉ a.pts dbg ∧ x ∉ b.pts dbg ∧ ((MissingAlone (a.pts dbg) x ∧ HasNeighbour (b.pts dbg) x) ∨
        (MissingAlone (b.pts dbg) x ∧ HasNeighbour (a.pts dbg) x))) := by
  obtain ⟨p, e1, h1⟩ := C53_formula_partial dbg a b ha hb
  obtain ⟨q, e2, h2⟩ := C53_formula_partial dbg b a hb ha
  obtain ⟨s, e, -, h⟩ := Selection.union_right dbg p q (Selection.Edited.minus (.built ha) hb e1).reachable_crisp.1
    (Selection.Edited.minus (.built hb) ha e2).reachable_crisp.1
  refine ⟨s, by simp only [Selection.eitherByMinus, e1, e2, e, bind, Except.bind], fun x => ?_⟩
  rw [h, Set.mem_union, h1, h2]
  simp only [InOne, MissingAlone, HasNeighbour, Set.mem_ofPred_eq]
  grind

example : (Selection.demo [(u8 2, u8 4), (u8 6, u8 6)]).UnionBuilt ∧ (Selection.demo [(u8 4, u8 5)]).UnionBuilt ∧
    ∃ s, (Selection.demo [(u8 2, u8 4), (u8 6, u8 6)]).eitherByMinus true (Selection.demo [(u8 4, u8 5)]) = .ok s ∧
      [u8 1, u8 2, u8 3, u8 4, u8 5, u8 6, u8 7].map (s.contains true ·) =
        [false, true, true, false, true, true, false].map Except.ok :=
  ⟨Selection.demo_built _ (by decide), Selection.demo_built _ (by decide), _, rfl, by decide⟩

/-- **C135.**  It is right exactly if no value that is in neither and is missing alone from one of them is next to a
value of the other. -/
theorem C135_minus_iff (dbg : Bool) (a b : Selection α) (ha : a.UnionBuilt) (hb : b.UnionBuilt) :
    (∃ s, a.eitherByMinus dbg b = .ok s ∧ s.pts dbg = InOne (a.pts dbg) (b.pts dbg)) ↔
    ∀ x, x ∉ a.pts dbg → x ∉ b.pts dbg → (MissingAlone (a.pts dbg) x → ¬ HasNeighbour (b.pts dbg) x) ∧
      (MissingAlone (b.pts dbg) x → ¬ HasNeighbour (a.pts dbg) x) := by
  obtain ⟨s, e, k⟩ := C135_minus dbg a b ha hb
  constructor
  · rintro ⟨s', e', h⟩ x hx hy
    rw [e] at e'; cases e'
    have := k x
    rw [h] at this
    have no : x ∉ InOne (a.pts dbg) (b.pts dbg) := by simp [InOne, hx, hy]
    grind
  · intro h
    refine ⟨s, e, Set.ext fun x => ?_⟩
    rw [k]
    have := h x
    grind

/-- The condition does not hold for `{2, 4}` and `{4}`, nor for `{2, 4}` twice. -/
example : MissingAlone ((Selection.demo [(u8 2, u8 2), (u8 4, u8 4)]).pts true) (u8 3) ∧
    HasNeighbour ((Selection.demo [(u8 4, u8 4)]).pts true) (u8 3) := by
  refine ⟨⟨?_, ⟨u8 2, ?_, by decide⟩, u8 4, ?_, by decide⟩, .inr ⟨u8 4, ?_, by decide⟩⟩
  · exact fun h => absurd (show Selection.contains true _ _ = .ok true from h) (by decide)
  all_goals exact show Selection.contains true _ _ = .ok true by decide

/-- **C135.**  `{2, 4}` against itself by `minus` leaves 3, and `{0, 1, 4, 5}` against `[0, 5]` by `intersect` leaves 4
and 5. -/
theorem C135_counterexample :
    (∃ a s : Selection U8, a.UnionBuilt ∧ a.eitherByMinus true a = .ok s ∧ u8 3 ∉ a.pts true ∧ u8 3 ∈ s.pts true) ∧
    ∃ a b s : Selection U8, a.UnionBuilt ∧ b.UnionBuilt ∧ a.eitherByIntersect true b = .ok s ∧ u8 4 ∈ a.pts true ∧
      u8 4 ∈ b.pts true ∧ u8 4 ∈ s.pts true := by
  refine ⟨⟨Selection.demo [(u8 2, u8 2), (u8 4, u8 4)], ⟨[.point (.incl (u8 3))]⟩, Selection.demo_built _ (by decide), by decide,
    fun h => absurd (show Selection.contains true _ _ = .ok true from h) (by decide),
    show Selection.contains true _ _ = .ok true by decide⟩,
    Selection.demo [(u8 0, u8 1), (u8 4, u8 5)], Selection.demo [(u8 0, u8 5)], ⟨[.lower (.incl (u8 2)), .upper (.excl (u8 6))]⟩,
    Selection.demo_built _ (by decide), Selection.demo_built _ (by decide), by decide, ?_, ?_, ?_⟩
  all_goals exact show Selection.contains true _ _ = .ok true by decide

/-- A value that the complement lists as a point is missing alone, if every interval has a value. -/
theorem Selection.pinhole_alone (dbg : Bool) {s : Selection α} (v : Valid s.tree) (h : NP s.tree) {x : α}
    (hx : s.Pinhole dbg x) : MissingAlone (s.pts dbg) x := by
  rw [Selection.pinhole_iff dbg v, holeAt] at hx
  simp only [Bool.and_eq_true, Bool.not_eq_true'] at hx
  obtain ⟨⟨h1, h2⟩, h3⟩ := hx
  have h2' : x ∉ s.pts dbg := by rw [Selection.mem_pts dbg v, at', h2]; simp
  refine ⟨h2', ?_, ?_⟩
  · cases hp : pred x with
    | none =>
      rw [bef_min hp] at h1
      have hm := (LawfulFinite.pred_none x).1 hp
      exact absurd ((Selection.mem_pts dbg v x).2 (hm ▸ h.2 h1)) h2'
    | some p =>
      rw [bef_pred hp] at h1
      have hs := (pred_eq_iff).1 hp
      rcases h.1 p h1 with k | k
      · exact ⟨p, (Selection.mem_pts dbg v p).2 k, rfl⟩
      · rw [hs, Option.elim] at k
        exact absurd ((Selection.mem_pts dbg v x).2 k) h2'
  · rcases h.1 x h3 with k | k
    · exact absurd ((Selection.mem_pts dbg v x).2 k) h2'
    · cases hs : succ x with
      | none => rw [hs] at k; cases k
      | some q => rw [hs, Option.elim] at k; exact ⟨q, (Selection.mem_pts dbg v q).2 k, rfl⟩

omit [Finite α] [LawfulFinite α] in
theorem Interval.point_real (v : α) : (Interval.point v).Real ∧ (Interval.point v).pts = {v} := by
  have : (Interval.point v).pts = {v} := by
    ext x; simp [Interval.pts, Interval.point, Interval.contains, RawInterval.contains, eq_comm]
  exact ⟨.inr ⟨v, show v ∈ (Interval.point v).pts by rw [this]; rfl⟩, this⟩

/-- Switching one value, for selections of any history: what comes in besides. -/
theorem Selection.click_pts (dbg : Bool) (s : Selection α) (hs : s.Reachable) (v : α) :
    ∃ s', s.click dbg v = .ok s' ∧ s'.Reachable ∧ (s.Edited → s'.Edited) ∧ ∀ x, x ∈ s'.pts dbg ↔
      x ∈ InOne (s.pts dbg) {v} ∨ (v ∈ s.pts dbg ∧ s.Pinhole dbg x ∧ (pred x = some v ∨ succ x = some v)) := by
  obtain ⟨hr, hp⟩ := Interval.point_real v
  obtain ⟨b, hb⟩ := C48_contains_total s hs v
  have hv : v ∈ s.pts dbg ↔ b = true := by
    change s.contains dbg v = .ok true ↔ _
    rw [hb, Except.ok.injEq]
  cases b with
  | true =>
    obtain ⟨s', e, r, k⟩ := C50_formula_any dbg s hs (.point v) (.point v)
    refine ⟨s', by simp only [Selection.click, hb, e, bind, Except.bind, if_true], r,
      fun h => .minusInPlace h (.point v) hr e, fun x => ?_⟩
    have hv := hv.2 rfl
    rw [k, hp]
    simp only [InOne, Set.mem_ofPred_eq, Set.mem_singleton_iff]
    have lb : ∀ l, (Interval.point v).lowerBound = some (.incl l) ↔ l = v := fun l => by
      simp [Interval.lowerBound, Interval.point, RawInterval.lowerBound, eq_comm]
    have ub : ∀ l, (Interval.point v).upperBound = some (.incl l) ↔ l = v := fun l => by
      simp [Interval.upperBound, Interval.point, RawInterval.upperBound, eq_comm]
    simp only [lb, ub, exists_eq_left, pred_eq_iff, hv, true_and]
    have : ∀ x, x = v → x ∈ s.pts dbg := fun x h => h ▸ hv
    grind
  | false =>
    obtain ⟨s', e, r, k⟩ := C48_union_in_place dbg s hs (.point v) (.point v)
    refine ⟨s', by simp only [Selection.click, hb, e, bind, Except.bind]; rfl, r,
      fun h => .unionInPlace h (.point v) hr e, fun x => ?_⟩
    have hv : v ∉ s.pts dbg := fun h => absurd (hv.1 h) (by simp)
    rw [k, hp]
    simp only [InOne, Set.mem_ofPred_eq, Set.mem_singleton_iff, Set.mem_union]
    have : ∀ x, x = v → x ∉ s.pts dbg := fun x h => h ▸ hv
    grind

/-- **C135.**  Switching one value by `contains`, `minus_in_place` and `union_in_place` is right exactly if the value is
not in, or is not next to a value that the complement lists as a point; for selections of any history. -/
theorem C135_click_iff (dbg : Bool) (s : Selection α) (hs : s.Reachable) (v : α) :
    (∃ s', s.click dbg v = .ok s' ∧ s'.pts dbg = InOne (s.pts dbg) {v}) ↔
    (v ∈ s.pts dbg → ∀ y, s.Pinhole dbg y → pred y ≠ some v ∧ succ y ≠ some v) := by
  obtain ⟨s', e, r, -, k⟩ := Selection.click_pts dbg s hs v
  constructor
  · rintro ⟨s1, e1, h⟩ hv y hy
    rw [e] at e1; cases e1
    have hn := C73_pinhole dbg s hs y hy
    have := k y
    rw [h] at this
    have no : y ∉ InOne (s.pts dbg) {v} := by
      rintro (h | h)
      · exact hn h.1
      · exact h.2 (h.1 ▸ hv)
    grind
  · intro h
    refine ⟨s', e, Set.ext fun x => ?_⟩
    rw [k]
    grind

/-- **C135.**  Switching any number of values, starting from a selection built by unions or edited: right if no value
next to one that is missing alone is ever switched off. -/
theorem C135_clicks (dbg : Bool) (vs : List α) (s : Selection α) (hs : s.Edited) (hf : ClicksFine (s.pts dbg) vs) :
    ∃ r, s.clicks dbg vs = .ok r ∧ r.Edited ∧ r.pts dbg = vs.foldl (fun X v => InOne X {v}) (s.pts dbg) := by
  induction vs generalizing s with
  | nil => exact ⟨s, rfl, hs, rfl⟩
  | cons v vs ih =>
    obtain ⟨hr, hc⟩ := hs.reachable_crisp
    obtain ⟨s1, e1, -, h1, -⟩ := Selection.click_pts dbg s hr v
    obtain ⟨s2, e2, k⟩ := (C135_click_iff dbg s hr v).2 fun hv y hy =>
      hf.1 hv y (Selection.pinhole_alone dbg (Selection.reachable_valid hr) hc.np hy)
    rw [e1] at e2; cases e2
    obtain ⟨r, e, h, k'⟩ := ih s1 (h1 hs) (by rw [k]; exact hf.2)
    exact ⟨r, by rw [Selection.clicks, List.foldlM_cons, e1]; exact e, h, by rw [k', k]; rfl⟩

/-- Switching 2 on, 7 on, 7 off. -/
example : (Selection.new : Selection U8).Edited ∧ ClicksFine ((Selection.new : Selection U8).pts true) [u8 2, u8 7, u8 7] ∧
    ∃ r, (Selection.new : Selection U8).clicks true [u8 2, u8 7, u8 7] = .ok r ∧
      r.contains true (u8 2) = .ok true ∧ r.contains true (u8 7) = .ok false := by
  refine ⟨.built .new, ?_, _, rfl, by decide, by decide⟩
  rw [(C48_start true .empty .empty).1]
  have h1 : InOne ∅ {u8 2} = ({u8 2} : Set U8) := by ext x; simp [InOne]
  have h2 : InOne {u8 2} {u8 7} = ({u8 2, u8 7} : Set U8) := by
    ext x
    simp only [InOne, Set.mem_ofPred_eq, Set.mem_singleton_iff, Set.mem_insert_iff]
    constructor
    · rintro (h | h); exacts [.inl h.1, .inr h.1]
    · rintro (rfl | rfl); exacts [.inl (by decide), .inr (by decide)]
  simp only [ClicksFine, h1, h2, and_true]
  refine ⟨fun h => absurd h (by simp), fun h => absurd h (by decide), fun _ y hy => ?_⟩
  obtain ⟨-, ⟨p, hp, e1⟩, q, hq, e2⟩ := hy
  rw [pred_eq_iff] at e1
  rcases hp with rfl | rfl
  · have e3 : succ (u8 2) = some (u8 3) := by decide
    rw [e3] at e1; cases e1
    have e4 : succ (u8 3) = some (u8 4) := by decide
    rw [e4] at e2; cases e2
    exact absurd hq (by decide)
  · have e3 : succ (u8 7) = some (u8 8) := by decide
    rw [e3] at e1; cases e1
    have e4 : succ (u8 8) = some (u8 9) := by decide
    rw [e4] at e2; cases e2
    exact absurd hq (by decide)

/-- **C135.**  Switching 2 and 4 on and 4 off again leaves 3 in; nothing of the kind happens if 3 is switched on and off
between. -/
theorem C135_clicks_counterexample :
    (∃ r, (Selection.new : Selection U8).clicks true [u8 2, u8 4, u8 4] = .ok r ∧ u8 3 ∈ r.pts true) ∧
    ∃ r, (Selection.new : Selection U8).clicks true [u8 2, u8 3, u8 3, u8 4, u8 4] = .ok r ∧ u8 3 ∉ r.pts true :=
  ⟨⟨_, rfl, show Selection.contains true _ _ = .ok true by decide⟩,
    _, rfl, fun h => absurd (show Selection.contains true _ _ = .ok true from h) (by decide)⟩

end NI
