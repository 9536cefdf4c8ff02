import Verif.Props.Edited
import Verif.Props.Order
import Verif.Props.Steps
import Verif.SpecPool

/-! # A selection as a pool of free numbers (C121) -/

namespace NI
open _root_.NI.Finite TT

/-- What is handed out twice has been given back in between, if the pool does what its users rely on. -/
theorem C121_no_double {α : Type} [LinearOrder α] {F F' : Set α} {A B C : List (PoolCall α)} {os : List (Option α)}
    (h : PoolRun F (A ++ .take :: B ++ .take :: C) os F') (x : α) (h1 : os[A.length]? = some (some x))
    (h2 : os[A.length + 1 + B.length]? = some (some x)) : PoolCall.give x ∈ B := by
  induction A generalizing F os with
  | nil =>
    have go : ∀ {B : List (PoolCall α)} {F : Set α} {os : List (Option α)}, x ∉ F →
        PoolRun F (B ++ .take :: C) os F' → os[B.length]? = some (some x) → PoolCall.give x ∈ B := by
      intro B
      induction B with
      | nil =>
        intro F os hx h h1
        cases h with
        | take hl _ => cases h1; exact absurd hl.1 hx
        | out _ _ => cases h1
      | cons c B ih =>
        intro F os hx h h1
        cases h with
        | take hl h => exact List.mem_cons_of_mem _ (ih (fun hh => hx hh.1) h h1)
        | out _ h => exact List.mem_cons_of_mem _ (ih hx h h1)
        | @give _ y _ _ _ h =>
          by_cases e : y = x
          · subst e; exact List.mem_cons_self
          · exact List.mem_cons_of_mem _ (ih (fun hh => hh.elim hx fun hh => e hh.symm) h h1)
    cases h with
    | take hl h =>
      cases h1
      rw [show [].length + 1 + B.length = B.length + 1 by simp [Nat.add_comm], List.getElem?_cons_succ] at h2
      exact go (fun hh => hh.2 rfl) h h2
    | out _ h => cases h1
  | cons c A ih =>
    have e : (c :: A).length + 1 + B.length = A.length + 1 + B.length + 1 := by simp; omega
    rw [e] at h2
    cases h with
    | take _ h => exact ih h h1 h2
    | out _ h => exact ih h h1 h2
    | give h => exact ih h h1 h2

example : PoolRun (Set.Icc (u8 0) (u8 255)) ([] ++ .take :: [.give (u8 0)] ++ .take :: [])
    [some (u8 0), none, some (u8 0)] (Set.Icc (u8 0) (u8 255) \ {u8 0}) := by
  have hl : IsLeast (Set.Icc (u8 0) (u8 255)) (u8 0) := ⟨⟨le_rfl, by decide⟩, fun x hx => hx.1⟩
  have e : Set.Icc (u8 0) (u8 255) \ {u8 0} ∪ {u8 0} = Set.Icc (u8 0) (u8 255) := by
    exact Set.sdiff_union_of_subset fun x hx => hx ▸ hl.1
  refine .take hl (.give ?_)
  rw [e]
  exact .take hl (.nil _)

section
variable {α : Type} [LinearOrder α] [Finite α] [LawfulFinite α]

/-- The first value that iteration yields is the least one. -/
theorem Selection.first_point (dbg : Bool) {s : Selection α} (hs : s.Edited) :
    (s.pts dbg = ∅ ∧ ∃ it, PointIter.next dbg (PointIter.start s) = .ok (none, it)) ∨
    ∃ x it, IsLeast (s.pts dbg) x ∧ PointIter.next dbg (PointIter.start s) = .ok (some x, it) := by
  obtain ⟨os, e, w⟩ := (C120_reports dbg s hs).2.2.2.2 1
  cases h : PointIter.next dbg (PointIter.start s) with
  | error p => simp only [List.replicate, drive, h] at e; cases e
  | ok r =>
    obtain ⟨o, it⟩ := r
    simp only [List.replicate, drive, h] at e
    cases e
    cases w with
    | next hl _ => exact .inr ⟨_, it, hl, rfl⟩
    | done h0 _ => exact .inl ⟨h0, it, rfl⟩

/-- Steps that remove exactly the number handed out make a pool that its users can rely on. -/
theorem Selection.pool_right (dbg : Bool) (remove : Selection α → α → Except Panic (Selection α))
    (ok : Selection α → Prop) (he : ∀ s, ok s → s.Edited)
    (hg : ∀ s x s', ok s → s.unionInPlace dbg (.point x) = .ok s' → ok s')
    (hr : ∀ s x, ok s → IsLeast (s.pts dbg) x → ∃ s', remove s x = .ok s' ∧ ok s' ∧ s'.pts dbg = s.pts dbg \ {x})
    (s : Selection α) (hs : ok s) (cs : List (PoolCall α)) :
    ∃ os s', s.pool remove dbg cs = .ok (os, s') ∧ ok s' ∧ PoolRun (s.pts dbg) cs os (s'.pts dbg) := by
  induction cs generalizing s with
  | nil => exact ⟨[], s, rfl, hs, .nil _⟩
  | cons c cs ih =>
    cases c with
    | take =>
      rcases Selection.first_point dbg (he s hs) with ⟨h0, it, e⟩ | ⟨x, it, hl, e⟩
      · obtain ⟨os, s', e', k, r⟩ := ih s hs
        exact ⟨none :: os, s', by simp only [Selection.pool, e, e', bind, Except.bind]; rfl, k, .out h0 r⟩
      · obtain ⟨s1, e1, k1, p1⟩ := hr s x hs hl
        obtain ⟨os, s', e', k, r⟩ := ih s1 k1
        rw [p1] at r
        exact ⟨some x :: os, s', by simp only [Selection.pool, e, e1, e', bind, Except.bind]; rfl, k, .take hl r⟩
    | give x =>
      obtain ⟨s1, e1, -, p1⟩ := C48_union_in_place dbg s (he s hs).reachable_crisp.1 (.point x) (.point x)
      obtain ⟨os, s', e', k, r⟩ := ih s1 (hg s x s1 hs e1)
      have : (Interval.point x).pts = {x} := by
        ext y; simp [Interval.pts, Interval.contains, Interval.point, RawInterval.contains, eq_comm]
      rw [p1, this] at r
      exact ⟨none :: os, s', by simp only [Selection.pool, e1, e', bind, Except.bind]; rfl, k, .give r⟩

/-- Numbers taken out by complement and union: the pool does what its users rely on, whatever the calls. -/
theorem C121_by_complement (dbg : Bool) (s : Selection α) (hs : s.Edited) (cs : List (PoolCall α)) :
    ∃ os s', s.pool (Selection.removeByComplement dbg) dbg cs = .ok (os, s') ∧ s'.Edited ∧
      PoolRun (s.pts dbg) cs os (s'.pts dbg) := by
  refine Selection.pool_right dbg _ Selection.Edited (fun _ h => h)
    (fun s x s' h e => .unionInPlace h (.point x) (Interval.real_mk_point x) e) (fun s x h hl => ?_) s hs cs
  obtain ⟨c, e1, r1, p1⟩ := Selection.complement_right dbg s h.reachable_crisp.1
  obtain ⟨d, e2, r2, p2⟩ := C48_union_in_place dbg c r1 (.point x) (.point x)
  obtain ⟨s', e3, r3, p3⟩ := Selection.complement_right dbg d r2
  refine ⟨s', by simp only [Selection.removeByComplement, e1, e2, e3, bind, Except.bind],
    .complement (.unionInPlace (.complement h e1) (.point x) (Interval.real_mk_point x) e2) e3, ?_⟩
  rw [p3, p2, p1]
  ext y; simp [Interval.pts, Interval.contains, Interval.point, RawInterval.contains, eq_comm, and_comm]

example : (Selection.full : Selection U8).Edited ∧
    ((Selection.full : Selection U8).pool (Selection.removeByComplement true) true
      [.take, .take, .take, .give (u8 0), .give (u8 2), .take, .take]).map (·.1) =
      .ok [some (u8 0), some (u8 1), some (u8 2), none, none, some (u8 0), some (u8 2)] :=
  ⟨.built .full, by decide⟩

/-- So no number is handed out while it is in use. -/
theorem C121_in_use (dbg : Bool) (s : Selection α) (hs : s.Edited) (A B C : List (PoolCall α)) (os : List (Option α))
    (s' : Selection α)
    (h : s.pool (Selection.removeByComplement dbg) dbg (A ++ .take :: B ++ .take :: C) = .ok (os, s')) (x : α)
    (h1 : os[A.length]? = some (some x)) (h2 : os[A.length + 1 + B.length]? = some (some x)) :
    PoolCall.give x ∈ B := by
  obtain ⟨os', s1, e, -, r⟩ := C121_by_complement dbg s hs (A ++ .take :: B ++ .take :: C)
  rw [h] at e; cases e
  exact C121_no_double r x h1 h2

example : ∃ os s', (Selection.full : Selection U8).pool (Selection.removeByComplement true) true
      ([.take] ++ .take :: [.give (u8 1), .give (u8 0)] ++ .take :: []) = .ok (os, s') ∧
    os[1]? = some (some (u8 1)) ∧ os[4]? = some (some (u8 0)) := by
  obtain ⟨os, s', e, -⟩ := C121_by_complement true (Selection.full : Selection U8) (.built .full)
    ([.take] ++ .take :: [.give (u8 1), .give (u8 0)] ++ .take :: [])
  refine ⟨os, s', e, ?_⟩
  have k : ((Selection.full : Selection U8).pool (Selection.removeByComplement true) true
      ([.take] ++ .take :: [.give (u8 1), .give (u8 0)] ++ .take :: [])).map (·.1) =
      .ok [some (u8 0), some (u8 1), none, none, some (u8 0)] := by decide
  rw [e] at k; cases k; exact ⟨rfl, rfl⟩

/-- Numbers taken out by `minus_in_place`: each `take` does what its users rely on exactly if the number after the
one handed out is not listed by the complement as an interval `Interval::point`. -/
theorem C121_take_iff (dbg : Bool) (s : Selection α) (hs : s.Edited) (x : α) (hx : IsLeast (s.pts dbg) x) :
    (∃ s', s.removeInPlace dbg x = .ok s' ∧ s'.pts dbg = s.pts dbg \ {x}) ↔
      ∀ y, succ x = some y → ¬ s.Pinhole dbg y := by
  obtain ⟨r, c⟩ := hs.reachable_crisp
  have v := Selection.reachable_valid r
  have hp : (Interval.point x).pts = {x} := by
    ext y; simp [Interval.pts, Interval.contains, Interval.point, RawInterval.contains, eq_comm]
  have k := C50_exact_any dbg s r (.point x) (.point x)
  rw [hp] at k
  rw [Selection.removeInPlace, k]
  constructor
  · intro h y hy hpin
    exact (h y hpin).2 x rfl hy
  · intro h y hpin
    refine ⟨fun l hl hy => ?_, fun u hu hy => ?_⟩
    · cases hl
      have h1 := LawfulFinite.pred_some x y hy
      rw [Selection.pinhole_iff dbg v, holeAt] at hpin
      simp only [Bool.and_eq_true, Bool.not_eq_true'] at hpin
      obtain ⟨⟨a, b⟩, -⟩ := hpin
      have out : ∀ z, z < x → at' s.tree z = false := fun z hz => by
        by_contra hc
        rw [Bool.not_eq_false] at hc
        exact absurd (hx.2 ((Selection.mem_pts dbg v z).2 hc)) (not_le.2 hz)
      cases hp : pred y with
      | none =>
        rw [bef_min hp, c.2.1] at a
        rw [out _ ((minimum_le y).trans_lt h1.1)] at a; cases a
      | some z =>
        have h2 := LawfulFinite.pred_some y z hp
        rw [bef_pred hp, c.1 z y (succ_of_pred hp) ((out z (h2.1.trans h1.1)).trans (out y h1.1).symm)] at a
        rw [out z (h2.1.trans h1.1)] at a; cases a
    · cases hu
      exact h y hy hpin

example : (Selection.demo [(u8 2, u8 2), (u8 4, u8 4)]).Edited ∧
    IsLeast ((Selection.demo [(u8 2, u8 2), (u8 4, u8 4)]).pts true) (u8 2) ∧ succ (u8 2) = some (u8 3) ∧
    (Selection.demo [(u8 2, u8 2), (u8 4, u8 4)]).Pinhole true (u8 3) := by
  refine ⟨.built (Selection.demo_built _ (by decide)), ⟨(Selection.demo_mem _ _).2 (by decide), fun x hx => ?_⟩,
    by decide, (Selection.pinhole_iff true (Selection.reachable_valid (Selection.UnionBuilt.reachable
      (Selection.demo_built _ (by decide)))) _).2 (by decide)⟩
  obtain ⟨p, hp, h1, -⟩ := (Selection.demo_mem _ _).1 hx
  have : ∀ p ∈ [(u8 2, u8 2), (u8 4, u8 4)], u8 2 ≤ p.1 := by decide
  exact (this p hp).trans h1

/-- As long as nothing is given back, `minus_in_place` does it as well.
With calls that give numbers back it is false, see `C121_counterexample`; `C121_take_iff` says which `take` goes
wrong. -/
theorem C121_take_only (dbg : Bool) (s : Selection α) (hs : s.Edited) (hc : s.Carved) (n : Nat) :
    ∃ os s', s.pool (Selection.removeInPlace dbg) dbg (List.replicate n .take) = .ok (os, s') ∧ s'.Edited ∧
      PoolRun (s.pts dbg) (List.replicate n .take) os (s'.pts dbg) := by
  induction n generalizing s with
  | zero => exact ⟨[], s, rfl, hs, .nil _⟩
  | succ n ih =>
    rw [List.replicate_succ]
    rcases Selection.first_point dbg hs with ⟨h0, it, e⟩ | ⟨x, it, hl, e⟩
    · obtain ⟨os, s', e', k, r⟩ := ih s hs hc
      exact ⟨none :: os, s', by simp only [Selection.pool, e, e', bind, Except.bind]; rfl, k, .out h0 r⟩
    · have hn := hc.valid_noHole
      obtain ⟨s1, e1, p1⟩ := (C121_take_iff dbg s hs x hl).2 fun y _ hpin => by
        rw [Selection.pinhole_iff dbg hn.1, hn.2 y] at hpin; cases hpin
      obtain ⟨os, s', e', k, r⟩ := ih s1 (.minusInPlace hs (.point x) (Interval.real_mk_point x) e1)
        (.minusInPlace hc (.point x) e1)
      rw [p1] at r
      exact ⟨some x :: os, s', by simp only [Selection.pool, e, e1, e', bind, Except.bind]; rfl, k, .take hl r⟩

example : (Selection.full : Selection U8).Edited ∧ (Selection.full : Selection U8).Carved ∧
    ((Selection.full : Selection U8).pool (Selection.removeInPlace true) true (List.replicate 3 .take)).map (·.1) =
      .ok [some (u8 0), some (u8 1), some (u8 2)] :=
  ⟨.built .full, .full, by decide⟩

end

/-- With `minus_in_place` a number is handed out while it is in use: of 0, 1 and 2 the users give back 0 and 2, take
0, and then are handed out 1 again. -/
theorem C121_counterexample (dbg : Bool) :
    ((Selection.full : Selection U8).pool (Selection.removeInPlace dbg) dbg
      [.take, .take, .take, .give (u8 0), .give (u8 2), .take, .take]).map (·.1) =
      .ok [some (u8 0), some (u8 1), some (u8 2), none, none, some (u8 0), some (u8 1)] := by
  cases dbg <;> decide

end NI
