import Verif.Lemmas.Raw

/-! # Lemmas on normalization and the normal form of `Interval` -/

set_option linter.unusedSimpArgs false
set_option linter.unusedVariables false
set_option linter.unnecessarySeqFocus false
set_option linter.unusedSectionVars false

namespace NI
open Finite

section
variable {α : Type _} [LinearOrder α] [Finite α] [LawfulFinite α]

theorem succ_le_iff {a s : α} (h : succ a = some s) (x : α) : s ≤ x ↔ a < x :=
  ⟨fun hx => lt_of_lt_of_le (LawfulFinite.succ_some a s h).1 hx,
    fun hx => (LawfulFinite.succ_some a s h).2 x hx⟩

theorem le_pred_iff {a s : α} (h : pred a = some s) (x : α) : x ≤ s ↔ x < a :=
  ⟨fun hx => lt_of_le_of_lt hx (LawfulFinite.pred_some a s h).1,
    fun hx => (LawfulFinite.pred_some a s h).2 x hx⟩

theorem not_gt_of_succ {a : α} (h : succ a = none) (x : α) : x ≤ a := by
  rw [LawfulFinite.succ_none] at h; rw [h]; exact LawfulFinite.le_max x

theorem not_lt_of_pred {a : α} (h : pred a = none) (x : α) : a ≤ x := by
  rw [LawfulFinite.pred_none] at h; rw [h]; exact LawfulFinite.min_le x

theorem pred_of_succ {a s : α} (h : succ a = some s) : pred s = some a := by
  have h1 := LawfulFinite.succ_some a s h
  cases hp : pred s with
  | none => exact absurd (not_lt_of_pred hp a) (not_le.2 h1.1)
  | some t =>
    have h2 := LawfulFinite.pred_some s t hp
    congr 1
    refine le_antisymm ?_ (h2.2 a h1.1)
    by_contra hlt
    exact absurd (h1.2 t (not_le.1 hlt)) (not_le.2 h2.1)

theorem succ_of_pred {a s : α} (h : pred a = some s) : succ s = some a := by
  have h1 := LawfulFinite.pred_some a s h
  cases hp : succ s with
  | none => exact absurd (not_gt_of_succ hp a) (not_le.2 h1.1)
  | some t =>
    have h2 := LawfulFinite.succ_some s t hp
    congr 1
    refine le_antisymm (h2.2 a h1.1) ?_
    by_contra hlt
    exact absurd (h1.2 t (not_le.1 hlt)) (not_le.2 h2.1)

theorem pred_eq_iff {a s : α} : pred a = some s ↔ succ s = some a :=
  ⟨succ_of_pred, pred_of_succ⟩

theorem minimum_le (x : α) : minimum ≤ x := LawfulFinite.min_le x
theorem le_maximum (x : α) : x ≤ maximum := LawfulFinite.le_max x

namespace RawInterval

theorem normalized_pts (i : RawInterval α) : i.normalized.pts = i.pts := by
  ext x
  cases i <;> simp only [normalized]
  case opn l r =>
    cases h1 : succ l <;> cases h2 : pred r <;> simp only [pts, Set.mem_Ioo, Set.mem_Icc,
      Set.mem_empty_iff_false, false_iff, not_and, not_lt]
    · intro h; exact absurd h (not_lt.2 (not_gt_of_succ h1 x))
    · intro h; exact absurd h (not_lt.2 (not_gt_of_succ h1 x))
    · intro h; exact not_lt_of_pred h2 x
    · rw [succ_le_iff h1, le_pred_iff h2]
  case leftOpen l r =>
    cases h1 : succ l <;> simp only [Option.elim, pts, Set.mem_Ioc, Set.mem_Icc,
      Set.mem_empty_iff_false, false_iff, not_and]
    · intro h; exact absurd h (not_lt.2 (not_gt_of_succ h1 x))
    · rw [succ_le_iff h1]
  case rightOpen l r =>
    cases h1 : pred r <;> simp only [Option.elim, pts, Set.mem_Ico, Set.mem_Icc,
      Set.mem_empty_iff_false, false_iff, not_and, not_lt]
    · intro h; exact not_lt_of_pred h1 x
    · rw [le_pred_iff h1]
  case upTo r =>
    cases h1 : pred r <;> simp only [Option.elim, pts, Set.mem_Iio, Set.mem_Icc,
      Set.mem_empty_iff_false, false_iff, not_and, not_lt]
    · exact not_lt_of_pred h1 x
    · rw [le_pred_iff h1]; exact and_iff_right (minimum_le x)
  case upFrom l =>
    cases h1 : succ l <;> simp only [Option.elim, pts, Set.mem_Ioi, Set.mem_Icc,
      Set.mem_empty_iff_false, false_iff, not_and, not_lt]
    · exact not_gt_of_succ h1 x
    · rw [succ_le_iff h1]; exact and_iff_left (le_maximum x)
  all_goals simp [pts, minimum_le, le_maximum]

/-- Variants of which `denormalized` keeps the points. -/
theorem denormalized_pts (i : RawInterval α) (h1 : ∀ p, i ≠ .to p) (h2 : ∀ p, i ≠ .frm p) :
    i.denormalized.pts = i.pts := by
  have key : ∀ l r x : α, x ∈ (closed l r).denormalized.pts ↔ l ≤ x ∧ x ≤ r := by
    intro l r x
    simp only [denormalized]
    have a1 : ∀ s, pred l = some s → (s < x ↔ l ≤ x) := fun s hs => by
      rw [← not_le, le_pred_iff hs, not_lt]
    have a2 : ∀ s, succ r = some s → (x < s ↔ x ≤ r) := fun s hs => by
      rw [← not_le, succ_le_iff hs, not_lt]
    have a3 : pred l = none → l ≤ x := fun hs => not_lt_of_pred hs x
    have a4 : succ r = none → x ≤ r := fun hs => not_gt_of_succ hs x
    cases e1 : pred l <;> cases e2 : succ r <;> simp_all [pts]
  ext x
  cases i
  case point p =>
    rw [show (point p).denormalized = (closed p p).denormalized from rfl, key]; simp [pts]; exact ⟨fun h => le_antisymm h.2 h.1, fun h => by simp [h]⟩
  case closed l r => rw [key]; rfl
  case leftOpen l r =>
    simp only [denormalized]
    cases e2 : succ r <;> simp only [pts, Set.mem_Ioc, Set.mem_Ioo, Set.mem_Ioi]
    · exact (and_iff_left (not_gt_of_succ e2 x)).symm
    · rw [lt_iff_not_ge (a := x), succ_le_iff e2, not_lt]
  case rightOpen l r =>
    simp only [denormalized]
    cases e2 : pred l <;> simp only [pts, Set.mem_Ico, Set.mem_Ioo, Set.mem_Iio]
    · exact (and_iff_right (not_lt_of_pred e2 x)).symm
    · rw [lt_iff_not_ge (b := x), le_pred_iff e2, not_lt]
  case «to» p => exact absurd rfl (h1 p)
  case frm p => exact absurd rfl (h2 p)
  all_goals rfl

/-- Values normalization produces from well formed intervals: `Empty`, a `Point`, a `Closed` one with
ends in order, or a `Closed` one whose upper end is the predecessor of its lower end. -/
def NF : RawInterval α → Prop
  | empty => True
  | point _ => True
  | closed l u => l ≤ u ∨ succ u = some l
  | _ => False

theorem normalized_nf {i : RawInterval α} (h : i.WF) : i.normalized.NF := by
  cases i <;> simp only [normalized, WF] at *
  case opn l r =>
    cases h1 : succ l <;> cases h2 : pred r <;> simp only [NF]
    rename_i a b
    rcases le_or_gt r a with hc | hc
    · right
      have : a = r := le_antisymm ((succ_le_iff h1 r).2 h) hc
      subst this; exact succ_of_pred h2
    · left; rw [le_pred_iff h2]; exact hc
  case leftOpen l r =>
    cases h1 : succ l <;> simp only [NF, Option.elim]; left; rw [succ_le_iff h1]; exact h
  case rightOpen l r =>
    cases h1 : pred r <;> simp only [NF, Option.elim]; left; rw [le_pred_iff h1]; exact h
  case closed l r => exact .inl h.le
  case upTo r =>
    cases h1 : pred r <;> simp only [NF, Option.elim]; left; exact minimum_le _
  case upFrom l =>
    cases h1 : succ l <;> simp only [NF, Option.elim]; left; exact le_maximum _
  all_goals simp [NF, minimum_le, le_maximum]

omit [LinearOrder α] [LawfulFinite α] in
theorem normalized_cases (i : RawInterval α) :
    i.normalized = empty ∨ (∃ p, i.normalized = point p) ∨ ∃ l u, i.normalized = closed l u := by
  cases i <;> simp only [normalized]
  case opn l r => cases succ l <;> cases pred r <;> simp
  case leftOpen l r => cases succ l <;> simp
  case rightOpen l r => cases pred r <;> simp
  case upTo l => cases pred l <;> simp
  case upFrom l => cases succ l <;> simp
  all_goals simp

omit [LinearOrder α] [LawfulFinite α] in
theorem normalized_idem (i : RawInterval α) : i.normalized.normalized = i.normalized := by
  rcases i.normalized_cases with h | ⟨p, h⟩ | ⟨l, u, h⟩ <;> rw [h] <;> rfl

theorem nf_normalized {i : RawInterval α} (h : i.NF) : i.normalized = i := by
  cases i <;> simp_all [NF, normalized]

/-- Every `NF` value is the normalization of a well formed one. -/
theorem nf_exists {i : RawInterval α} (h : i.NF) : ∃ r : RawInterval α, r.WF ∧ r.normalized = i := by
  cases i <;> simp only [NF] at h
  case empty => exact ⟨empty, trivial, rfl⟩
  case point p => exact ⟨point p, trivial, rfl⟩
  case closed l u =>
    rcases h with h | h
    · rcases lt_or_eq_of_le h with h | rfl
      · exact ⟨closed l u, h, rfl⟩
      · cases hp : pred l with
        | some a =>
          refine ⟨leftOpen a l, (LawfulFinite.pred_some _ _ hp).1, ?_⟩
          simp [normalized, succ_of_pred hp]
        | none =>
          refine ⟨.to l, trivial, ?_⟩
          rw [LawfulFinite.pred_none] at hp
          simp [normalized, hp]
    · refine ⟨opn u l, (LawfulFinite.succ_some _ _ h).1, ?_⟩
      simp [normalized, h, pred_of_succ h]

end RawInterval

namespace Interval

theorem obtainable_nf {i : Interval α} (h : i.Obtainable) : i.raw.NF := by
  induction h with
  | empty => trivial
  | point p => trivial
  | new l r => exact RawInterval.normalized_nf (RawInterval.new_wf l r)
  | mkOpen l r | mkLeftOpen l r | mkRightOpen l r | mkClosed l r | mkLeftClosed l r
  | mkRightClosed l r | ofRange l r =>
    refine RawInterval.normalized_nf ?_
    simp only [RawInterval.mkClosed, RawInterval.mkOpen, RawInterval.mkLeftOpen,
      RawInterval.mkRightOpen]
    split_ifs <;> simp_all [RawInterval.WF]
  | unboundedFrom p | unboundedTo p | unboundedUpFrom p | unboundedUpTo p | full | ofPoint p
  | ofRangeFrom a | ofRangeTo a | ofRangeToInclusive a | ofRangeFull =>
    simp only [unboundedFrom, unboundedTo, unboundedUpFrom, unboundedUpTo, Interval.full, ofPoint,
      ofRangeFrom, ofRangeTo, ofRangeToInclusive, ofRangeFull]
    refine RawInterval.normalized_nf ?_; trivial
  | ofRaw r hr => exact RawInterval.normalized_nf hr
  | @intersect a b _ _ _ _ =>
    simp only [Interval.intersect, ofRaw, RawInterval.normalized_idem]
    exact RawInterval.normalized_nf (RawInterval.intersect_wf _ _)
  | @union a b c _ _ hc iha ihb =>
    simp only [Interval.union, List.mem_map] at hc
    obtain ⟨r, hr, rfl⟩ := hc
    simp only [RawInterval.union] at hr
    split at hr
    · simp at hr
    · simp only [List.mem_singleton] at hr; subst hr; rw [RawInterval.nf_normalized ihb]; exact ihb
    · simp only [List.mem_singleton] at hr; subst hr; rw [RawInterval.nf_normalized iha]; exact iha
    · split_ifs at hr
      · simp only [List.mem_singleton] at hr; subst hr
        exact RawInterval.normalized_nf (RawInterval.enclose_wf _ _)
      · simp only [List.mem_cons, List.not_mem_nil, or_false] at hr
        rcases hr with rfl | rfl
        · rw [RawInterval.nf_normalized iha]; exact iha
        · rw [RawInterval.nf_normalized ihb]; exact ihb
  | @minus a b c _ _ hc _ _ =>
    simp only [Interval.minus, List.mem_map] at hc
    obtain ⟨r, hr, rfl⟩ := hc
    simp only [RawInterval.minus, List.mem_filter, List.mem_map] at hr
    obtain ⟨⟨k, _, rfl⟩, _⟩ := hr
    exact RawInterval.normalized_nf (RawInterval.intersect_wf _ _)
  | @complement a c _ hc _ =>
    simp only [Interval.complement, List.mem_map] at hc
    obtain ⟨r, hr, rfl⟩ := hc
    exact RawInterval.normalized_nf (RawInterval.complement_wf _ _ hr)
  | @enclose a b _ _ _ _ =>
    simp only [Interval.enclose, ofRaw, RawInterval.normalized_idem]
    exact RawInterval.normalized_nf (RawInterval.enclose_wf _ _)
  | @closure a _ ih =>
    simp only [Interval.closure, ofRaw, RawInterval.normalized_idem]
    have : a.raw.closure = a.raw := by
      revert ih; cases a.raw <;> simp [RawInterval.NF, RawInterval.closure]
    rw [this, RawInterval.nf_normalized ih]; exact ih

theorem obtainable_iff {i : Interval α} : i.Obtainable ↔ i.raw.NF := by
  refine ⟨obtainable_nf, fun h => ?_⟩
  obtain ⟨r, hr, e⟩ := RawInterval.nf_exists h
  have := Obtainable.ofRaw r hr
  rw [Interval.ofRaw, e] at this
  exact this

theorem obtainable_cases {i : Interval α} (h : i.Obtainable) :
    i = ⟨.empty⟩ ∨ (∃ p, i = ⟨.point p⟩) ∨ (∃ l u, i = ⟨.closed l u⟩ ∧ (l ≤ u ∨ succ u = some l)) := by
  have := obtainable_nf h
  rcases i with ⟨r⟩
  cases r <;> simp_all [RawInterval.NF]

end Interval
end
end NI
