import Verif.Spec
import Mathlib.Data.Set.Insert
import Mathlib.Order.Interval.Set.Basic

/-! # Lemmas about bounds and raw intervals (proof machinery, no claims) -/

set_option linter.unusedSimpArgs false
set_option linter.unusedVariables false
set_option linter.unnecessarySeqFocus false
set_option linter.unusedSectionVars false
set_option linter.unnecessarySimpa false

namespace NI
variable {α : Type _} [LinearOrder α]

namespace Bound

/-- A nonempty interval notation can have lower bound `l` and upper bound `u`. -/
def Compat : Bound α → Bound α → Prop
  | incl a, incl b => a ≤ b
  | incl a, excl b => a < b
  | excl a, incl b => a < b
  | excl a, excl b => a < b
  | _, _ => True

instance (l u : Bound α) : Decidable (Compat l u) := by
  rcases l with a | a | _ <;> rcases u with b | b | _ <;> unfold Compat <;> infer_instance

theorem greatestIntersect_above (a b : Bound α) (x : α) :
    (a.greatestIntersect b).AdmitsAbove x ↔ a.AdmitsAbove x ∧ b.AdmitsAbove x := by
  rcases a with a | a | _ <;> rcases b with b | b | _ <;>
    simp only [greatestIntersect] <;> (try split_ifs) <;> simp only [AdmitsAbove] <;> grind

theorem leastIntersect_below (a b : Bound α) (x : α) :
    (a.leastIntersect b).AdmitsBelow x ↔ a.AdmitsBelow x ∧ b.AdmitsBelow x := by
  rcases a with a | a | _ <;> rcases b with b | b | _ <;>
    simp only [leastIntersect] <;> (try split_ifs) <;> simp only [AdmitsBelow] <;> grind

theorem leastUnion_above (a b : Bound α) (x : α) :
    (a.leastUnion b).AdmitsAbove x ↔ a.AdmitsAbove x ∨ b.AdmitsAbove x := by
  rcases a with a | a | _ <;> rcases b with b | b | _ <;>
    (unfold leastUnion; simp only []; (try split_ifs)) <;> simp only [AdmitsAbove] <;> grind

theorem greatestUnion_below (a b : Bound α) (x : α) :
    (a.greatestUnion b).AdmitsBelow x ↔ a.AdmitsBelow x ∨ b.AdmitsBelow x := by
  rcases a with a | a | _ <;> rcases b with b | b | _ <;>
    (unfold greatestUnion; simp only []; (try split_ifs)) <;> simp only [AdmitsBelow] <;> grind

theorem compat_gi (a b u : Bound α) :
    Compat (a.greatestIntersect b) u ↔ Compat a u ∧ Compat b u := by
  rcases a with a | a | _ <;> rcases b with b | b | _ <;> rcases u with u | u | _ <;>
    simp only [greatestIntersect] <;> (try split_ifs) <;> simp only [Compat] <;> grind

theorem compat_li (l a b : Bound α) :
    Compat l (a.leastIntersect b) ↔ Compat l a ∧ Compat l b := by
  rcases a with a | a | _ <;> rcases b with b | b | _ <;> rcases l with l | l | _ <;>
    simp only [leastIntersect] <;> (try split_ifs) <;> simp only [Compat] <;> grind

theorem gi_comm (a b : Bound α) : a.greatestIntersect b = b.greatestIntersect a := by
  rcases a with a | a | _ <;> rcases b with b | b | _ <;>
    simp only [greatestIntersect] <;> grind

theorem li_comm (a b : Bound α) : a.leastIntersect b = b.leastIntersect a := by
  rcases a with a | a | _ <;> rcases b with b | b | _ <;>
    simp only [leastIntersect] <;> grind

theorem gi_assoc (a b c : Bound α) :
    (a.greatestIntersect b).greatestIntersect c = a.greatestIntersect (b.greatestIntersect c) := by
  rcases a with a | a | _ <;> rcases b with b | b | _ <;> rcases c with c | c | _ <;>
    simp only [greatestIntersect] <;> (try split_ifs) <;> simp only [greatestIntersect] <;> grind

theorem li_assoc (a b c : Bound α) :
    (a.leastIntersect b).leastIntersect c = a.leastIntersect (b.leastIntersect c) := by
  rcases a with a | a | _ <;> rcases b with b | b | _ <;> rcases c with c | c | _ <;>
    simp only [leastIntersect] <;> (try split_ifs) <;> simp only [leastIntersect] <;> grind

theorem gi_self (a : Bound α) : a.greatestIntersect a = a := by
  rcases a with a | a | _ <;> simp [greatestIntersect]

theorem li_self (a : Bound α) : a.leastIntersect a = a := by
  rcases a with a | a | _ <;> simp [leastIntersect]

theorem lu_comm (a b : Bound α) : a.leastUnion b = b.leastUnion a := by
  rcases a with a | a | _ <;> rcases b with b | b | _ <;> unfold leastUnion <;> grind

theorem gu_comm (a b : Bound α) : a.greatestUnion b = b.greatestUnion a := by
  rcases a with a | a | _ <;> rcases b with b | b | _ <;> unfold greatestUnion <;> grind

theorem compat_lu (a b u v : Bound α) (h : Compat a u) :
    Compat (a.leastUnion b) (u.greatestUnion v) := by
  rcases a with a | a | _ <;> rcases b with b | b | _ <;>
    rcases u with u | u | _ <;> rcases v with v | v | _ <;>
    simp only [leastUnion, greatestUnion] <;> (try split_ifs) <;> simp only [Compat] at * <;> grind

/-- Two intervals that overlap or touch fill the whole range between their extreme bounds. -/
theorem fill (la ua lb ub : Bound α) (x : α) (ha : Compat la ua) (hb : Compat lb ub)
    (h : (Compat la ub ∧ Compat lb ua) ∨ la.isUnionAdjacentTo ub = true ∨
      lb.isUnionAdjacentTo ua = true)
    (hl : la.AdmitsAbove x ∨ lb.AdmitsAbove x) (hu : ua.AdmitsBelow x ∨ ub.AdmitsBelow x) :
    (la.AdmitsAbove x ∧ ua.AdmitsBelow x) ∨ (lb.AdmitsAbove x ∧ ub.AdmitsBelow x) := by
  rcases la with la | la | _ <;> rcases ua with ua | ua | _ <;> rcases lb with lb | lb | _ <;>
    rcases ub with ub | ub | _ <;>
    simp only [Compat, isUnionAdjacentTo, AdmitsAbove, AdmitsBelow, beq_iff_eq] at * <;> grind

theorem isUnionAdjacentTo_comm (a b : Bound α) : a.isUnionAdjacentTo b = b.isUnionAdjacentTo a := by
  rcases a with a | a | _ <;> rcases b with b | b | _ <;> simp only [isUnionAdjacentTo] <;>
    grind

end Bound

namespace RawInterval

theorem contains_iff (i : RawInterval α) (x : α) : i.contains x = true ↔ x ∈ i.pts := by
  cases i <;> simp [contains, pts]

theorem contains_iff_bounds (i : RawInterval α) (x : α) :
    i.contains x = true ↔ ∃ l u, i.lowerBound = some l ∧ i.upperBound = some u ∧
      l.AdmitsAbove x ∧ u.AdmitsBelow x := by
  cases i <;>
    simp [contains, lowerBound, upperBound, Bound.AdmitsAbove, Bound.AdmitsBelow] <;> grind

theorem bounds_cases (i : RawInterval α) :
    (i = empty ∧ i.lowerBound = none ∧ i.upperBound = none) ∨
    ∃ l u, i.lowerBound = some l ∧ i.upperBound = some u ∧ i ≠ empty := by
  cases i <;> simp [lowerBound, upperBound]

theorem new_wf (l u : Bound α) : (new l u).WF := by
  rcases l with l | l | _ <;> rcases u with u | u | _ <;>
    simp only [new, mkClosed, mkOpen, mkLeftOpen, mkRightOpen] <;> (try split_ifs) <;>
    simp_all [WF]

theorem new_of_compat {l u : Bound α} (h : l.Compat u) :
    (new l u).lowerBound = some l ∧ (new l u).upperBound = some u ∧ new l u ≠ empty := by
  rcases l with l | l | _ <;> rcases u with u | u | _ <;>
    simp only [new, mkClosed, mkOpen, mkLeftOpen, mkRightOpen, Bound.Compat] at * <;>
    (try split_ifs) <;> simp [lowerBound, upperBound] <;> grind

theorem wf_compat {i : RawInterval α} (h : i.WF) {l u : Bound α}
    (hl : i.lowerBound = some l) (hu : i.upperBound = some u) : l.Compat u := by
  cases i <;> simp [lowerBound, upperBound] at hl hu <;> subst hl hu <;>
    simp_all [WF, Bound.Compat, le_of_lt]

theorem wf_eq_new {i : RawInterval α} (h : i.WF) {l u : Bound α}
    (hl : i.lowerBound = some l) (hu : i.upperBound = some u) : i = new l u := by
  cases i <;> simp [lowerBound, upperBound] at hl hu <;> subst hl hu <;>
    simp only [WF] at h <;> simp [new, mkClosed, mkOpen, mkLeftOpen, mkRightOpen, h]

/-- Well formed intervals are determined by their bounds. -/
theorem wf_ext {i j : RawInterval α} (hi : i.WF) (hj : j.WF)
    (hl : i.lowerBound = j.lowerBound) (hu : i.upperBound = j.upperBound) : i = j := by
  rcases i.bounds_cases with ⟨rfl, h1, _⟩ | ⟨l, u, h1, h2, h3⟩
  · rcases j.bounds_cases with ⟨rfl, _, _⟩ | ⟨l, u, h3, _⟩
    · rfl
    · rw [h1, h3] at hl; cases hl
  · rw [wf_eq_new hi h1 h2, wf_eq_new hj (hl ▸ h1) (hu ▸ h2)]

theorem new_contains {l u : Bound α} (h : l.Compat u) (x : α) :
    (new l u).contains x = true ↔ l.AdmitsAbove x ∧ u.AdmitsBelow x := by
  obtain ⟨h1, h2, _⟩ := new_of_compat h
  rw [contains_iff_bounds, h1, h2]; simp

theorem not_compat_no_point {l u : Bound α} (h : ¬ l.Compat u) (x : α) :
    ¬ (l.AdmitsAbove x ∧ u.AdmitsBelow x) := by
  rcases l with l | l | _ <;> rcases u with u | u | _ <;>
    simp only [Bound.Compat, Bound.AdmitsAbove, Bound.AdmitsBelow] at * <;> grind

theorem intersect_of_bounds {a b : RawInterval α} {la ua lb ub : Bound α}
    (h1 : a.lowerBound = some la) (h2 : a.upperBound = some ua)
    (h3 : b.lowerBound = some lb) (h4 : b.upperBound = some ub) :
    a.intersect b = if (la.greatestIntersect lb).Compat (ua.leastIntersect ub)
      then new (la.greatestIntersect lb) (ua.leastIntersect ub) else empty := by
  simp only [intersect, h1, h2, h3, h4]
  generalize la.greatestIntersect lb = l
  generalize ua.leastIntersect ub = u
  rcases l with l | l | _ <;> rcases u with u | u | _ <;>
    simp [Bound.Compat, Bound.asRef, Bound.isInclusive, Bound.isExclusive, new, mkClosed, mkOpen,
      mkLeftOpen, mkRightOpen] <;> grind

theorem intersect_empty_left (b : RawInterval α) : empty.intersect b = empty := by
  cases b <;> rfl

theorem intersect_empty_right (a : RawInterval α) : a.intersect empty = empty := by
  cases a <;> rfl

theorem intersect_wf (a b : RawInterval α) : (a.intersect b).WF := by
  rcases a.bounds_cases with ⟨rfl, _⟩ | ⟨la, ua, h1, h2, _⟩
  · simp [intersect_empty_left, WF]
  rcases b.bounds_cases with ⟨rfl, _⟩ | ⟨lb, ub, h3, h4, _⟩
  · simp [intersect_empty_right, WF]
  rw [intersect_of_bounds h1 h2 h3 h4]
  split_ifs
  · exact new_wf _ _
  · simp [WF]

theorem intersect_contains (a b : RawInterval α) (x : α) :
    (a.intersect b).contains x = true ↔ a.contains x = true ∧ b.contains x = true := by
  rcases a.bounds_cases with ⟨rfl, _⟩ | ⟨la, ua, h1, h2, _⟩
  · simp [intersect_empty_left, contains]
  rcases b.bounds_cases with ⟨rfl, _⟩ | ⟨lb, ub, h3, h4, _⟩
  · simp [intersect_empty_right, contains]
  rw [intersect_of_bounds h1 h2 h3 h4, contains_iff_bounds a, contains_iff_bounds b, h1, h2, h3, h4]
  have hgi := Bound.greatestIntersect_above la lb x
  have hli := Bound.leastIntersect_below ua ub x
  split_ifs with h
  · rw [new_contains h, hgi, hli]; simp; tauto
  · have := not_compat_no_point h x
    rw [hgi, hli] at this
    simp [contains]; tauto

theorem intersect_isEmpty {a b : RawInterval α} {la ua lb ub : Bound α}
    (h1 : a.lowerBound = some la) (h2 : a.upperBound = some ua)
    (h3 : b.lowerBound = some lb) (h4 : b.upperBound = some ub) :
    a.intersects b = true ↔
      (la.Compat ua ∧ lb.Compat ub) ∧ (la.Compat ub ∧ lb.Compat ua) := by
  rw [intersects, intersect_of_bounds h1 h2 h3 h4]
  split_ifs with h
  · have h' := (new_of_compat h).2.2
    rw [Bound.compat_gi, Bound.compat_li, Bound.compat_li] at h
    have : (new (la.greatestIntersect lb) (ua.leastIntersect ub)).isEmpty = false := by
      generalize new (la.greatestIntersect lb) (ua.leastIntersect ub) = i at h'
      cases i <;> simp_all [isEmpty]
    simp [this]; tauto
  · rw [Bound.compat_gi, Bound.compat_li, Bound.compat_li] at h
    simp [isEmpty]; tauto

theorem isEmpty_iff (i : RawInterval α) : i.isEmpty = true ↔ i = empty := by
  cases i <;> simp [isEmpty]

theorem intersect_comm (a b : RawInterval α) : a.intersect b = b.intersect a := by
  rcases a.bounds_cases with ⟨rfl, _⟩ | ⟨la, ua, h1, h2, _⟩
  · simp [intersect_empty_left, intersect_empty_right]
  rcases b.bounds_cases with ⟨rfl, _⟩ | ⟨lb, ub, h3, h4, _⟩
  · simp [intersect_empty_left, intersect_empty_right]
  rw [intersect_of_bounds h1 h2 h3 h4, intersect_of_bounds h3 h4 h1 h2, Bound.gi_comm,
    Bound.li_comm]

theorem intersect_self {a : RawInterval α} (h : a.WF) : a.intersect a = a := by
  rcases a.bounds_cases with ⟨rfl, _⟩ | ⟨la, ua, h1, h2, _⟩
  · rfl
  rw [intersect_of_bounds h1 h2 h1 h2, Bound.gi_self, Bound.li_self, if_pos (wf_compat h h1 h2),
    ← wf_eq_new h h1 h2]

theorem intersect_assoc (a b c : RawInterval α) :
    (a.intersect b).intersect c = a.intersect (b.intersect c) := by
  rcases a.bounds_cases with ⟨rfl, _⟩ | ⟨la, ua, h1, h2, _⟩
  · simp [intersect_empty_left]
  rcases b.bounds_cases with ⟨rfl, _⟩ | ⟨lb, ub, h3, h4, _⟩
  · simp [intersect_empty_left, intersect_empty_right]
  rcases c.bounds_cases with ⟨rfl, _⟩ | ⟨lc, uc, h5, h6, _⟩
  · simp [intersect_empty_right]
  rw [intersect_of_bounds h1 h2 h3 h4, intersect_of_bounds h3 h4 h5 h6]
  by_cases hab : (la.greatestIntersect lb).Compat (ua.leastIntersect ub)
  · rw [if_pos hab]
    obtain ⟨k1, k2, _⟩ := new_of_compat hab
    rw [intersect_of_bounds k1 k2 h5 h6]
    by_cases hbc : (lb.greatestIntersect lc).Compat (ub.leastIntersect uc)
    · rw [if_pos hbc]
      obtain ⟨k3, k4, _⟩ := new_of_compat hbc
      rw [intersect_of_bounds h1 h2 k3 k4, Bound.gi_assoc, Bound.li_assoc]
    · rw [if_neg hbc, intersect_empty_right, if_neg]
      intro h; apply hbc
      simp only [Bound.compat_gi, Bound.compat_li] at *; tauto
  · rw [if_neg hab, intersect_empty_left]
    by_cases hbc : (lb.greatestIntersect lc).Compat (ub.leastIntersect uc)
    · rw [if_pos hbc]
      obtain ⟨k3, k4, _⟩ := new_of_compat hbc
      rw [intersect_of_bounds h1 h2 k3 k4, if_neg]
      intro h; apply hab
      simp only [Bound.compat_gi, Bound.compat_li] at *; tauto
    · rw [if_neg hbc, intersect_empty_right]

theorem enclose_of_bounds {a b : RawInterval α} {la ua lb ub : Bound α}
    (h1 : a.lowerBound = some la) (h2 : a.upperBound = some ua)
    (h3 : b.lowerBound = some lb) (h4 : b.upperBound = some ub) :
    a.enclose b = new (la.leastUnion lb) (ua.greatestUnion ub) := by
  simp [enclose, h1, h2, h3, h4]

theorem enclose_empty_left {b : RawInterval α} (h : b.WF) : empty.enclose b = b := by
  rcases b.bounds_cases with ⟨rfl, _⟩ | ⟨lb, ub, h3, h4, _⟩
  · rfl
  · have e1 : (empty : RawInterval α).lowerBound = none := rfl
    have e2 : (empty : RawInterval α).upperBound = none := rfl
    simp [enclose, h3, h4, e1, e2, ← wf_eq_new h h3 h4]

theorem enclose_empty_right {b : RawInterval α} (h : b.WF) : b.enclose empty = b := by
  rcases b.bounds_cases with ⟨rfl, _⟩ | ⟨lb, ub, h3, h4, _⟩
  · rfl
  · have e1 : (empty : RawInterval α).lowerBound = none := rfl
    have e2 : (empty : RawInterval α).upperBound = none := rfl
    simp [enclose, h3, h4, e1, e2, ← wf_eq_new h h3 h4]

theorem enclose_wf (a b : RawInterval α) : (a.enclose b).WF := by
  unfold enclose
  simp only []
  split
  · exact new_wf _ _
  · simp [WF]

theorem enclose_comm (a b : RawInterval α) : a.enclose b = b.enclose a := by
  rcases a.bounds_cases with ⟨rfl, h1, h2⟩ | ⟨la, ua, h1, h2, _⟩ <;>
  rcases b.bounds_cases with ⟨rfl, h3, h4⟩ | ⟨lb, ub, h3, h4, _⟩ <;>
  simp [enclose, h1, h2, h3, h4, Bound.lu_comm, Bound.gu_comm]

theorem enclose_contains {a b : RawInterval α} (ha : a.WF)
    {la ua lb ub : Bound α}
    (h1 : a.lowerBound = some la) (h2 : a.upperBound = some ua)
    (h3 : b.lowerBound = some lb) (h4 : b.upperBound = some ub) (x : α) :
    (a.enclose b).contains x = true ↔ (la.AdmitsAbove x ∨ lb.AdmitsAbove x) ∧
      (ua.AdmitsBelow x ∨ ub.AdmitsBelow x) := by
  rw [enclose_of_bounds h1 h2 h3 h4, new_contains (Bound.compat_lu _ _ _ _ (wf_compat ha h1 h2)),
    Bound.leastUnion_above, Bound.greatestUnion_below]

theorem complement_contains (i : RawInterval α) (x : α) :
    (∃ j ∈ i.complement, j.contains x = true) ↔ i.contains x = false := by
  cases i <;> simp [complement, contains] <;> grind

theorem complement_wf (i : RawInterval α) : ∀ j ∈ i.complement, j.WF := by
  cases i <;> simp [complement, WF]

end RawInterval
end NI
