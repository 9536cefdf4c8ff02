import Verif.SpecNext
import Verif.Props.Sort
import Verif.Props.Clip

/-!
# C138: finding the next value of a selection at or after a given one
-/

set_option linter.unusedVariables false
set_option linter.unusedSectionVars false

namespace NI
open _root_.NI.Finite TT
variable {α : Type} [LinearOrder α] [Finite α] [LawfulFinite α]

theorem Interval.tight_real {i w : Interval α} (hi : i.Obtainable) (hw : w.Obtainable) : (i.intersect w).Real := by
  rcases Interval.tight_intersect hi hw with h | ⟨p, h⟩ | ⟨a, b, h, g⟩ <;> rw [h]
  · exact .inl rfl
  · exact .inr ⟨p, by simp [Interval.contains, RawInterval.contains]⟩
  · exact .inr ⟨a, by simp [Interval.contains, RawInterval.contains, g.le]⟩

theorem next_list (x : α) : ∀ {is : List (Interval α)}, (∀ i ∈ is, i.Obtainable) →
    is.Pairwise (fun i j => ∀ x ∈ i.pts, ∀ y ∈ j.pts, x < y) →
    IsNext {z | ∃ i ∈ is, z ∈ i.pts} x (is.findSome? fun i => (i.intersect (.unboundedFrom x)).infimum)
  | [], _, _ => by simp [IsNext]
  | i :: is, ho, hp => by
    obtain ⟨p1, p2⟩ := List.pairwise_cons.1 hp
    have hi := ho i (by simp)
    have mem : ∀ z, z ∈ (i.intersect (.unboundedFrom x)).pts ↔ z ∈ i.pts ∧ x ≤ z := fun z =>
      ((C27_set_operations i (.unboundedFrom x) z).1).trans (and_congr_right fun _ => (C21_unbounded x z).1)
    obtain ⟨e1, -, e2, -⟩ := C31_extrema_partial _ (.intersect hi (.unboundedFrom x)) (Interval.tight_real hi (.unboundedFrom x))
    rw [List.findSome?_cons]
    cases e : (i.intersect (.unboundedFrom x)).infimum with
    | some m =>
      obtain ⟨m1, m2⟩ := (e1 m).1 e
      refine ⟨⟨⟨i, by simp, ((mem m).1 m1).1⟩, ((mem m).1 m1).2⟩, ?_⟩
      rintro z ⟨⟨j, hj, hz⟩, hxz⟩
      rcases List.mem_cons.1 hj with rfl | hj
      · exact m2 ((mem z).2 ⟨hz, hxz⟩)
      · exact (p1 j hj m ((mem m).1 m1).1 z hz).le
    | none =>
      have no : ∀ z ∈ i.pts, z < x := fun z hz => by
        by_contra h
        have : z ∈ (i.intersect (.unboundedFrom x)).pts := (mem z).2 ⟨hz, not_lt.1 h⟩
        rw [e2.1 e] at this; exact this
      have ih := next_list x (fun j hj => ho j (by simp [hj])) p2
      simp only
      cases e3 : is.findSome? fun i => (i.intersect (.unboundedFrom x)).infimum with
      | some y =>
        rw [e3] at ih
        obtain ⟨⟨⟨j, hj, h1⟩, h2⟩, h3⟩ := ih
        refine ⟨⟨⟨j, by simp [hj], h1⟩, h2⟩, ?_⟩
        rintro z ⟨⟨k, hk, hz⟩, hxz⟩
        rcases List.mem_cons.1 hk with rfl | hk
        · exact absurd (no z hz) (not_lt.2 hxz)
        · exact h3 ⟨⟨k, hk, hz⟩, hxz⟩
      | none =>
        rw [e3] at ih
        rintro z ⟨k, hk, hz⟩
        rcases List.mem_cons.1 hk with rfl | hk
        · exact no z hz
        · exact ih z ⟨k, hk, hz⟩

theorem prev_list (x : α) : ∀ {is : List (Interval α)}, (∀ i ∈ is, i.Obtainable) →
    is.Pairwise (fun i j => ∀ x ∈ i.pts, ∀ y ∈ j.pts, x < y) →
    IsPrev {z | ∃ i ∈ is, z ∈ i.pts} x (is.filterMap fun i => (i.intersect (.unboundedTo x)).supremum).getLast?
  | [], _, _ => by simp [IsPrev]
  | i :: is, ho, hp => by
    obtain ⟨p1, p2⟩ := List.pairwise_cons.1 hp
    have hi := ho i (by simp)
    have mem : ∀ z, z ∈ (i.intersect (.unboundedTo x)).pts ↔ z ∈ i.pts ∧ z ≤ x := fun z =>
      ((C27_set_operations i (.unboundedTo x) z).1).trans (and_congr_right fun _ => (C21_unbounded x z).2.1)
    obtain ⟨-, e1, -, e2⟩ := C31_extrema_partial _ (.intersect hi (.unboundedTo x)) (Interval.tight_real hi (.unboundedTo x))
    have ih := prev_list x (fun j hj => ho j (by simp [hj])) p2
    have lift : ∀ y, IsPrev {z | ∃ i ∈ is, z ∈ i.pts} x (some y) → IsPrev {z | ∃ j ∈ i :: is, z ∈ j.pts} x (some y) := by
      rintro y ⟨⟨⟨j, hj, h1⟩, h2⟩, h3⟩
      refine ⟨⟨⟨j, by simp [hj], h1⟩, h2⟩, ?_⟩
      rintro z ⟨⟨k, hk, hz⟩, hxz⟩
      rcases List.mem_cons.1 hk with rfl | hk
      · exact (p1 j hj z hz y h1).le
      · exact h3 ⟨⟨k, hk, hz⟩, hxz⟩
    rw [List.filterMap_cons]
    cases e : (i.intersect (.unboundedTo x)).supremum with
    | some m =>
      obtain ⟨m1, m2⟩ := (e1 m).1 e
      simp only [List.getLast?_cons]
      cases e3 : (is.filterMap fun i => (i.intersect (.unboundedTo x)).supremum).getLast? with
      | some y => rw [e3] at ih; exact lift y ih
      | none =>
        rw [e3] at ih
        refine ⟨⟨⟨i, by simp, ((mem m).1 m1).1⟩, ((mem m).1 m1).2⟩, ?_⟩
        rintro z ⟨⟨k, hk, hz⟩, hxz⟩
        rcases List.mem_cons.1 hk with rfl | hk
        · exact m2 ((mem z).2 ⟨hz, hxz⟩)
        · exact absurd (ih z ⟨k, hk, hz⟩) (not_lt.2 hxz)
    | none =>
      have no : ∀ z ∈ i.pts, x < z := fun z hz => by
        by_contra h
        have : z ∈ (i.intersect (.unboundedTo x)).pts := (mem z).2 ⟨hz, not_lt.1 h⟩
        rw [e2.1 e] at this; exact this
      simp only
      cases e3 : (is.filterMap fun i => (i.intersect (.unboundedTo x)).supremum).getLast? with
      | some y => rw [e3] at ih; exact lift y ih
      | none =>
        rw [e3] at ih
        rintro z ⟨k, hk, hz⟩
        rcases List.mem_cons.1 hk with rfl | hk
        · exact no z hz
        · exact ih z ⟨k, hk, hz⟩

/-- A value missing alone is not the least one. -/
theorem Selection.pinhole_pred (dbg : Bool) {s : Selection α} (hs : s.Reachable) {x : α} (h : s.Pinhole dbg x) : ∃ p, pred x = some p := by
  have v := Selection.reachable_valid hs
  rw [Selection.pinhole_iff dbg v, holeAt] at h
  cases e : pred x with
  | some p => exact ⟨p, rfl⟩
  | none =>
    exfalso
    have hx := (LawfulFinite.pred_none x).1 e
    subst hx
    rw [bef_min e, hs.fit.1] at h
    cases hh : tcov s.tree false (.fin minimum) <;> simp [hh] at h

theorem IsNext.sdiff {S : Set α} {x m : α} (h : m < x) : ∀ {r : Option α}, IsNext (S \ {m}) x r → IsNext S x r
  | some y, ⟨⟨h1, h2⟩, h3⟩ => ⟨⟨h1.1, h2⟩, fun z ⟨z1, z2⟩ => h3 ⟨⟨z1, fun e => absurd (e ▸ h) (not_lt.2 z2)⟩, z2⟩⟩
  | none, h1 => fun z hz => by
    by_cases e : z = m
    · exact e ▸ h
    · exact h1 z ⟨hz, e⟩

theorem Walk.find (x : α) : ∀ {n : Nat} {S : Set α} {os : List (Option α)}, Walk S (List.replicate n .next) os →
    (∀ y, (os.filterMap id).find? (fun y => decide (x ≤ y)) = some y → IsNext S x (some y)) ∧
      ((os.filterMap id).find? (fun y => decide (x ≤ y)) = none → none ∈ os → IsNext S x none)
  | 0, S, os, h => by cases h; simp
  | n + 1, S, os, h => by
    rw [List.replicate_succ] at h
    cases h with
    | next hm hw =>
      rename_i m os
      obtain ⟨i1, i2⟩ := Walk.find x hw
      rw [List.filterMap_cons_some (f := id) (b := m) rfl, List.find?_cons]
      by_cases hx : x ≤ m
      · simp only [hx, decide_true, Option.some.injEq, reduceCtorEq, false_implies, and_true]
        rintro y rfl
        exact ⟨⟨hm.1, hx⟩, fun z hz => hm.2 hz.1⟩
      · simp only [hx, decide_false]
        exact ⟨fun y hy => (i1 y hy).sdiff (not_le.1 hx), fun h1 h2 => (i2 h1 (by simpa using h2)).sdiff (not_le.1 hx)⟩
    | done hS hw =>
      rename_i os
      subst hS
      rw [List.filterMap_cons_none (f := id) rfl]
      exact ⟨(Walk.find x hw).1, fun _ _ z hz => absurd hz (Set.notMem_empty z)⟩

/-! ## C138 -/

/-- Cutting the listed intervals, one by one, gives the next and the previous value, for selections of any
history. -/
theorem C138_intervals (dbg : Bool) (s : Selection α) (hs : s.Reachable) (x : α) :
    (∃ r, s.nextByIntervals dbg x = .ok r ∧ IsNext (s.pts dbg) x r) ∧
    ∃ r, s.prevByIntervals dbg x = .ok r ∧ IsPrev (s.pts dbg) x r := by
  obtain ⟨is, e, ho, hp, hc⟩ := C56_cover_partial dbg s hs
  have : s.pts dbg = {z | ∃ i ∈ is, z ∈ i.pts} := Set.ext hc
  rw [this]
  exact ⟨⟨_, by rw [Selection.nextByIntervals, e]; rfl, next_list x ho hp⟩,
    ⟨_, by rw [Selection.prevByIntervals, e]; rfl, prev_list x ho hp⟩⟩

/-- The same of the complement gives the next value that is missing. -/
theorem C138_free (dbg : Bool) (s : Selection α) (hs : s.Reachable) (x : α) :
    ∃ r, s.nextFree dbg x = .ok r ∧ IsNext (s.pts dbg)ᶜ x r := by
  obtain ⟨c, e, hc, hp, -⟩ := C62_complement dbg s hs
  rw [← hp]
  obtain ⟨⟨r, h1, h2⟩, -⟩ := C138_intervals dbg c hc x
  exact ⟨r, by rw [Selection.nextFree, e]; exact h1, h2⟩

example : (Selection.demo [(u8 1, u8 3), (u8 7, u8 9)]).Reachable ∧
    (Selection.demo [(u8 1, u8 3), (u8 7, u8 9)]).nextByIntervals true (u8 5) = .ok (some (u8 7)) ∧
    (Selection.demo [(u8 1, u8 3), (u8 7, u8 9)]).prevByIntervals true (u8 5) = .ok (some (u8 3)) ∧
    (Selection.demo [(u8 1, u8 3), (u8 7, u8 9)]).nextFree true (u8 8) = .ok (some (u8 10)) ∧
    (Selection.demo [(u8 1, u8 3), (u8 7, u8 9)]).nextByIntervals true (u8 10) = .ok none :=
  ⟨(Selection.demo_built _ (by decide)).reachable, by decide, by decide, by decide, by decide⟩

/-- Taking values one by one until one is at least `x` finds the next value. -/
theorem C138_values (dbg : Bool) (s : Selection α) (hs : s.Solid) (x : α) (n : Nat) :
    ∃ os, drive (PointIter.next dbg) (PointIter.nextBack dbg) (PointIter.start s) (List.replicate n .next) = .ok os ∧
      (∀ y, (os.filterMap id).find? (fun y => decide (x ≤ y)) = some y → IsNext (s.pts dbg) x (some y)) ∧
      ((os.filterMap id).find? (fun y => decide (x ≤ y)) = none → none ∈ os → IsNext (s.pts dbg) x none) := by
  obtain ⟨os, e, w⟩ := C57_forward_partial dbg s hs n
  exact ⟨os, e, w.find x⟩

example : (Selection.demo [(u8 1, u8 3), (u8 7, u8 9)]).Solid ∧
    drive (PointIter.next true) (PointIter.nextBack true) (PointIter.start (Selection.demo [(u8 1, u8 3), (u8 7, u8 9)]))
      (List.replicate 4 .next) = .ok [some (u8 1), some (u8 2), some (u8 3), some (u8 7)] ∧
    ([some (u8 1), some (u8 2), some (u8 3), some (u8 7)].filterMap id).find? (fun y => decide (u8 5 ≤ y)) = some (u8 7) :=
  ⟨.tidy (.inl (Selection.demo_built _ (by decide))), by decide, by decide⟩

/-- Removing what is below `x` and asking for the lower bound gives the next value, or `x` if `x` is missing
alone. -/
theorem C138_minus (dbg : Bool) (s : Selection α) (hs : s.Solid) (x : α) :
    (s.nextByMinus dbg x = .ok none ∧ IsNext (s.pts dbg ∪ {y | y = x ∧ s.Pinhole dbg y}) x none) ∨
    ∃ y, s.nextByMinus dbg x = .ok (some (.incl y)) ∧ IsNext (s.pts dbg ∪ {y | y = x ∧ s.Pinhole dbg y}) x (some y) := by
  have ho : (Interval.unboundedUpTo x).Obtainable := .unboundedUpTo x
  obtain ⟨t, e, hr, ht⟩ := C50_formula_any dbg s hs.reachable _ ho
  have st : t.Solid := .minusInPlace hs ho e
  have hp : ∀ z, z ∈ (Interval.unboundedUpTo x).pts ↔ z < x := fun z => (C21_unbounded x z).2.2.2.1
  have mem : ∀ z, z ∈ t.pts dbg ↔ z ∈ s.pts dbg ∪ {y | y = x ∧ s.Pinhole dbg y} ∧ x ≤ z := by
    intro z
    rw [ht, hp]
    have edge : ((∃ l, (Interval.unboundedUpTo x).lowerBound = some (.incl l) ∧ pred l = some z) ∨
        ∃ u, (Interval.unboundedUpTo x).upperBound = some (.incl u) ∧ succ u = some z) ↔ z = x ∧ ∃ p, pred x = some p := by
      have hm : pred (minimum : α) = none := (LawfulFinite.pred_none _).2 rfl
      cases hx : pred x with
      | none => simp [Interval.unboundedUpTo, RawInterval.normalized, hx, Interval.lowerBound, Interval.upperBound,
          RawInterval.lowerBound, RawInterval.upperBound]
      | some p =>
        simp [Interval.unboundedUpTo, RawInterval.normalized, hx, Interval.lowerBound, Interval.upperBound,
          RawInterval.lowerBound, RawInterval.upperBound, hm, pred_eq_iff.1 hx, eq_comm]
    rw [edge, not_lt]
    constructor
    · rintro (⟨h1, h2⟩ | ⟨h1, rfl, -⟩)
      · exact ⟨.inl h1, h2⟩
      · exact ⟨.inr ⟨rfl, h1⟩, le_rfl⟩
    · rintro ⟨h1 | ⟨rfl, h1⟩, h2⟩
      · exact .inl ⟨h1, h2⟩
      · exact .inr ⟨h1, rfl, Selection.pinhole_pred dbg hs.reachable h1⟩
  have en : s.nextByMinus dbg x = t.lowerBound dbg := by rw [Selection.nextByMinus, e]; rfl
  rw [en]
  rcases C59_bounds_partial dbg t st with ⟨h1, h2, -⟩ | ⟨l, u, h1, -, h2, -⟩
  · refine .inl ⟨h2, fun z hz => ?_⟩
    by_contra h
    have : z ∈ t.pts dbg := (mem z).2 ⟨hz, not_lt.1 h⟩
    rw [h1] at this; exact this
  · refine .inr ⟨l, h2, (mem l).1 h1.1, fun z hz => h1.2 ((mem z).2 hz)⟩

/-- So it is right exactly if `x` is not missing alone. -/
theorem C138_minus_iff (dbg : Bool) (s : Selection α) (hs : s.Solid) (x : α) :
    (∃ r : Option α, s.nextByMinus dbg x = .ok (r.map .incl) ∧ IsNext (s.pts dbg) x r) ↔ ¬ s.Pinhole dbg x := by
  have none_of : ∀ z, ¬ s.Pinhole dbg x → z ∉ {y | y = x ∧ s.Pinhole dbg y} := by
    rintro z h ⟨rfl, h1⟩; exact h h1
  constructor
  · rintro ⟨r, e, hr⟩ hx
    have hx' := C73_pinhole dbg s hs.reachable x hx
    rcases C138_minus dbg s hs x with ⟨e1, h⟩ | ⟨y, e1, h⟩
    · exact absurd (h x (.inr ⟨rfl, hx⟩)) (lt_irrefl x)
    · rw [e] at e1
      cases r with
      | none => cases e1
      | some z =>
        cases e1
        have : y = x := le_antisymm (h.2 ⟨.inr ⟨rfl, hx⟩, le_rfl⟩) h.1.2
        subst this
        exact hx' hr.1.1
  · intro hx
    rcases C138_minus dbg s hs x with ⟨e1, h⟩ | ⟨y, e1, h⟩
    · exact ⟨none, e1, fun z hz => h z (.inl hz)⟩
    · refine ⟨some y, e1, ⟨h.1.1.resolve_right (none_of y hx), h.1.2⟩, fun z hz => h.2 ⟨.inl hz.1, hz.2⟩⟩

/-- 4 is missing alone from 1 to 3 and 5 to 6, and is given as the next value at or after 4; 5 is right for 5, and
cutting by `intersect` finds nothing at all after the first run. -/
theorem C138_counterexample : ∃ s : Selection U8, s.UnionBuilt ∧ s.contains true (u8 4) = .ok false ∧
    s.nextByMinus true (u8 4) = .ok (some (.incl (u8 4))) ∧ s.nextByMinus true (u8 5) = .ok (some (.incl (u8 5))) ∧
    s.nextByIntervals true (u8 4) = .ok (some (u8 5)) ∧ s.nextByIntersect true (u8 5) = .ok none :=
  ⟨Selection.demo [(u8 1, u8 3), (u8 5, u8 6)], Selection.demo_built _ (by decide), by decide, by decide, by decide,
    by decide, by decide⟩

end NI
