import Verif.Lemmas.Norm

/-! # Properties of normalization (C15–C20) -/

set_option linter.unusedSimpArgs false
set_option linter.unusedVariables false
set_option linter.unnecessarySeqFocus false
set_option linter.unusedSectionVars false

namespace NI
open Finite

/-! ## C20 (first, because the examples below use the machine integers) -/

/-- `pred`/`succ` of every machine integer type: the subtraction `self - 1` and the addition
`self + 1` never overflow, and the instance obeys the laws of `LawfulFinite`. -/
theorem C20_no_overflow {lo hi : Int} [Fact (lo ≤ hi)] (a : MInt lo hi) :
    MInt.predRaw a = some (pred a) ∧ MInt.succRaw a = some (succ a) := by
  obtain ⟨a, h1, h2⟩ := a
  refine ⟨?_, ?_⟩
  · show _ = some ((MInt.predRaw _).getD none)
    simp only [MInt.predRaw, MInt.checkedSub]
    split_ifs <;> simp_all <;> omega
  · show _ = some ((MInt.succRaw _).getD none)
    simp only [MInt.succRaw, MInt.checkedAdd]
    split_ifs <;> simp_all <;> omega

example : MInt.succRaw (MInt.lit 255 : U8) = some none ∧ MInt.succRaw (MInt.lit 254 : U8) = some (some (MInt.lit 255 : U8)) ∧
    MInt.predRaw (MInt.lit 0 : U8) = some none := by decide

theorem MInt.pred_eq {lo hi : Int} [Fact (lo ≤ hi)] (a b : MInt lo hi) :
    pred a = some b ↔ b.1 = a.1 - 1 := by
  obtain ⟨a, h1, h2⟩ := a
  obtain ⟨b, h3, h4⟩ := b
  show (MInt.predRaw _).getD none = _ ↔ _
  simp only [MInt.predRaw, MInt.checkedSub]
  split_ifs <;> simp_all <;> omega

theorem MInt.succ_eq {lo hi : Int} [Fact (lo ≤ hi)] (a b : MInt lo hi) :
    succ a = some b ↔ b.1 = a.1 + 1 := by
  obtain ⟨a, h1, h2⟩ := a
  obtain ⟨b, h3, h4⟩ := b
  show (MInt.succRaw _).getD none = _ ↔ _
  simp only [MInt.succRaw, MInt.checkedAdd]
  split_ifs <;> simp_all <;> omega

/-- The machine integers are a lawful `Finite` type: `pred` is `None` exactly at `MIN` and otherwise
the greatest smaller value, `succ` is `None` exactly at `MAX` and otherwise the least greater one. -/
instance C20_lawful {lo hi : Int} [h : Fact (lo ≤ hi)] : LawfulFinite (MInt lo hi) where
  min_le a := a.2.1
  le_max a := a.2.2
  pred_none a := by
    obtain ⟨a, h1, h2⟩ := a
    show (MInt.predRaw _).getD none = _ ↔ _ = (⟨lo, _⟩ : MInt lo hi)
    simp only [MInt.predRaw, MInt.checkedSub]
    split_ifs <;> simp_all <;> omega
  pred_some a b hb := by
    rw [MInt.pred_eq] at hb
    refine ⟨?_, fun c hc => ?_⟩
    · show b.1 < a.1; omega
    · have : c.1 < a.1 := hc
      show c.1 ≤ b.1; omega
  succ_none a := by
    obtain ⟨a, h1, h2⟩ := a
    show (MInt.succRaw _).getD none = _ ↔ _ = (⟨hi, _⟩ : MInt lo hi)
    simp only [MInt.succRaw, MInt.checkedAdd]
    split_ifs <;> simp_all <;> omega
  succ_some a b hb := by
    rw [MInt.succ_eq] at hb
    refine ⟨?_, fun c hc => ?_⟩
    · show a.1 < b.1; omega
    · have : a.1 < c.1 := hc
      show b.1 ≤ c.1; omega

/-- The twelve builtin types are instances. -/
theorem C20_builtin : LawfulFinite U8 ∧ LawfulFinite U16 ∧ LawfulFinite U32 ∧ LawfulFinite U64 ∧
    LawfulFinite U128 ∧ LawfulFinite Usize ∧ LawfulFinite I8 ∧ LawfulFinite I16 ∧
    LawfulFinite I32 ∧ LawfulFinite I64 ∧ LawfulFinite I128 ∧ LawfulFinite Isize :=
  ⟨inferInstance, inferInstance, inferInstance, inferInstance, inferInstance, inferInstance,
    inferInstance, inferInstance, inferInstance, inferInstance, inferInstance, inferInstance⟩

/-- Their `MINIMUM` and `MAXIMUM` are those of the machine integers of as many bits as their names say, on a target with
64 bits. -/
theorem C20_ranges :
    ((minimum : U8).1 = 0 ∧ (maximum : U8).1 = 2 ^ 8 - 1) ∧ ((minimum : U16).1 = 0 ∧ (maximum : U16).1 = 2 ^ 16 - 1) ∧
    ((minimum : U32).1 = 0 ∧ (maximum : U32).1 = 2 ^ 32 - 1) ∧ ((minimum : U64).1 = 0 ∧ (maximum : U64).1 = 2 ^ 64 - 1) ∧
    ((minimum : U128).1 = 0 ∧ (maximum : U128).1 = 2 ^ 128 - 1) ∧
    ((minimum : Usize).1 = 0 ∧ (maximum : Usize).1 = 2 ^ 64 - 1) ∧
    ((minimum : I8).1 = -2 ^ 7 ∧ (maximum : I8).1 = 2 ^ 7 - 1) ∧
    ((minimum : I16).1 = -2 ^ 15 ∧ (maximum : I16).1 = 2 ^ 15 - 1) ∧
    ((minimum : I32).1 = -2 ^ 31 ∧ (maximum : I32).1 = 2 ^ 31 - 1) ∧
    ((minimum : I64).1 = -2 ^ 63 ∧ (maximum : I64).1 = 2 ^ 63 - 1) ∧
    ((minimum : I128).1 = -2 ^ 127 ∧ (maximum : I128).1 = 2 ^ 127 - 1) ∧
    ((minimum : Isize).1 = -2 ^ 63 ∧ (maximum : Isize).1 = 2 ^ 63 - 1) := by decide

example : pred (MInt.lit 0 : U8) = none ∧ pred (MInt.lit 7 : U8) = some (MInt.lit 6) ∧
    succ (MInt.lit 255 : U8) = none ∧ succ (MInt.lit (-128) : I8) = some (MInt.lit (-127)) ∧
    pred (MInt.lit (-128) : I8) = none := by decide

variable {α : Type _} [LinearOrder α] [Finite α] [LawfulFinite α]

/-! ## C15 -/

/-- `normalized` keeps the points of every raw interval, inverted ones included. -/
theorem C15_normalize_pts (i : RawInterval α) (x : α) :
    i.normalized.contains x = i.contains x := by
  rw [Bool.eq_iff_iff, RawInterval.contains_iff, RawInterval.contains_iff,
    RawInterval.normalized_pts]

example : (RawInterval.opn (MInt.lit 3 : U8) (MInt.lit 7)).normalized =
    .closed (MInt.lit 4) (MInt.lit 6) ∧
    (RawInterval.upFrom (MInt.lit 255 : U8)).normalized = .empty ∧
    (RawInterval.upTo (MInt.lit 3 : I8)).normalized = .closed (MInt.lit (-128)) (MInt.lit 2) := by
  decide

/-! ## C16 -/

omit [LinearOrder α] [LawfulFinite α] in
/-- `normalized` is idempotent and yields `Empty`, a `Point` or a `Closed` interval. -/
theorem C16_normal_form (i : RawInterval α) :
    i.normalized.normalized = i.normalized ∧
    (i.normalized = .empty ∨ (∃ p, i.normalized = .point p) ∨
      ∃ l u, i.normalized = .closed l u) :=
  ⟨i.normalized_idem, i.normalized_cases⟩

example : (RawInterval.full : RawInterval U8).normalized =
    .closed (MInt.lit 0) (MInt.lit 255) := by decide

/-! ## C17 -/

/-- Raw intervals with the same points, at least two of them, normalize to the same value.
Missing from the full property: intervals with one point or none. For those it is false, see
`C17_counterexample`. -/
theorem C17_canonical_partial (a b : RawInterval α) (h : a.pts = b.pts)
    (x y : α) (hx : x ∈ a.pts) (hy : y ∈ a.pts) (hxy : x ≠ y) : a.normalized = b.normalized := by
  rw [← RawInterval.normalized_pts] at hx hy
  rw [← RawInterval.normalized_pts, ← RawInterval.normalized_pts b] at h
  have hx' := h ▸ hx
  have hy' := h ▸ hy
  rcases a.normalized_cases with e | ⟨p, e⟩ | ⟨l, u, e⟩ <;>
  rcases b.normalized_cases with e' | ⟨p', e'⟩ | ⟨l', u', e'⟩ <;> rw [e] at hx hy h ⊢ <;>
    rw [e'] at hx' hy' h ⊢
  all_goals first
    | exact absurd hx id
    | exact absurd hx' id
    | exact absurd (Eq.trans hx (Eq.symm hy)) hxy
    | exact absurd (Eq.trans hx' (Eq.symm hy')) hxy
    | skip
  have k : ∀ z, (l ≤ z ∧ z ≤ u) ↔ (l' ≤ z ∧ z ≤ u') := fun z => iff_of_eq (congrFun h z)
  have hlu : l ≤ u := le_trans hx.1 hx.2
  have hlu' : l' ≤ u' := le_trans hx'.1 hx'.2
  congr 1
  · exact le_antisymm ((k l').2 ⟨le_refl _, hlu'⟩).1 ((k l).1 ⟨le_refl _, hlu⟩).1
  · exact le_antisymm ((k u).1 ⟨hlu, le_refl _⟩).2 ((k u').2 ⟨hlu', le_refl _⟩).2

example : (RawInterval.opn (MInt.lit 3 : U8) (MInt.lit 7)).normalized =
    (RawInterval.leftOpen (MInt.lit 3) (MInt.lit 6)).normalized ∧
    (RawInterval.opn (MInt.lit 3 : U8) (MInt.lit 7)).contains (MInt.lit 4) = true ∧
    (RawInterval.opn (MInt.lit 3 : U8) (MInt.lit 7)).contains (MInt.lit 5) = true := by decide

/-- Normalization is not canonical: the open interval between two neighbours has no points, but does
not normalize to the value `Empty` does; and a half-open interval with one point does not normalize
to the value `Point` does. -/
theorem C17_counterexample :
    (∃ a b : RawInterval U8, a.WF ∧ b.WF ∧ (∀ x, a.contains x = b.contains x) ∧
      (∀ x, a.contains x = false) ∧ a.normalized ≠ b.normalized) ∧
    (∃ a b : RawInterval U8, a.WF ∧ b.WF ∧ (∀ x, a.contains x = b.contains x) ∧
      (∃ x, a.contains x = true) ∧ a.normalized ≠ b.normalized) := by
  have h3 : ∀ x, (RawInterval.opn (MInt.lit 3 : U8) (MInt.lit 4)).contains x = false := by
    intro x
    rw [Bool.eq_false_iff, ne_eq, RawInterval.contains_iff]
    rintro ⟨h1, h2⟩
    have a1 : (3 : Int) < x.1 := h1
    have a2 : x.1 < (4 : Int) := h2
    omega
  refine ⟨⟨.opn (MInt.lit 3) (MInt.lit 4), .empty, by decide, by decide, ?_, h3, by decide⟩,
    ⟨.leftOpen (MInt.lit 3) (MInt.lit 4), .point (MInt.lit 4), by decide, by decide, ?_,
      ⟨MInt.lit 4, by decide⟩, by decide⟩⟩
  · intro x; rw [h3]; rfl
  · intro x
    rw [Bool.eq_iff_iff, RawInterval.contains_iff, RawInterval.contains_iff]
    constructor
    · rintro ⟨h1, h2⟩
      have a1 : (3 : Int) < x.1 := h1
      have a2 : x.1 ≤ (4 : Int) := h2
      apply Subtype.ext
      show x.1 = 4
      omega
    · intro h
      have h : x = MInt.lit 4 := h
      subst h
      exact ⟨by decide, by decide⟩

/-! ## C18 -/

/-- `denormalized` keeps the points of every raw interval that is not a `To` or a `From`; so in
particular of every normalized one.
Missing from the full property: `To` and `From`, for which it is false, see `C18_counterexample`. -/
theorem C18_denormalize_pts_partial (i : RawInterval α) (h1 : ∀ p, i ≠ .to p)
    (h2 : ∀ p, i ≠ .frm p) (x : α) : i.denormalized.contains x = i.contains x := by
  rw [Bool.eq_iff_iff, RawInterval.contains_iff, RawInterval.contains_iff,
    RawInterval.denormalized_pts i h1 h2]

example : (RawInterval.closed (MInt.lit 3 : U8) (MInt.lit 7 : U8)).denormalized = .opn (MInt.lit 2 : U8) (MInt.lit 8 : U8) := by decide

/-- Denormalizing a normalized interval keeps its points. -/
theorem C18_denormalize_normalized (i : RawInterval α) (x : α) :
    i.normalized.denormalized.contains x = i.contains x := by
  rw [← C15_normalize_pts i x]
  apply C18_denormalize_pts_partial <;> intro p e <;>
    rcases i.normalized_cases with h | ⟨q, h⟩ | ⟨l, u, h⟩ <;> rw [h] at e <;> cases e

example : (RawInterval.closed (MInt.lit 3 : U8) (MInt.lit 7)).denormalized =
    .opn (MInt.lit 2) (MInt.lit 8) ∧
    (RawInterval.closed (MInt.lit 0 : U8) (MInt.lit 7)).denormalized = .upTo (MInt.lit 8) := by
  decide

/-- `denormalize` loses points of `To` and `From`: `(-∞,5]` becomes `(-∞,4)`, `[5,∞)` becomes
`(6,∞)`. -/
theorem C18_counterexample :
    ¬ ∀ (i : RawInterval U8) (x : U8), i.denormalized.contains x = i.contains x := by
  intro h
  exact absurd (h (.to (MInt.lit 5)) (MInt.lit 5)) (by decide)

/-- Exactly the points lost. -/
theorem C18_loss (p x : α) :
    ((RawInterval.to p).denormalized.contains x = true ↔ ∃ q, pred p = some q ∧ x < q) ∧
    ((RawInterval.frm p).denormalized.contains x = true ↔ ∃ q, succ p = some q ∧ q < x) := by
  refine ⟨?_, ?_⟩
  · cases h : pred p <;> simp [RawInterval.denormalized, h, RawInterval.contains]
  · cases h : succ p <;> simp [RawInterval.denormalized, h, RawInterval.contains]

example : (RawInterval.to (MInt.lit 7 : U8)).contains (MInt.lit 6 : U8) = true ∧ (RawInterval.to (MInt.lit 7 : U8)).denormalized.contains (MInt.lit 6 : U8) = false ∧
    (RawInterval.to (MInt.lit 7 : U8)).denormalized.contains (MInt.lit 5 : U8) = true := by decide

/-! ## C19 -/

/-- Denormalizing a normalized interval and normalizing again gives it back, up to writing a
`Point` as `Closed`; and the denormalized form has no inclusive bound. -/
theorem C19_round_trip (i : RawInterval α) :
    (i.normalized.denormalized.normalized = i.normalized ∨
      ∃ p, i.normalized = .point p ∧ i.normalized.denormalized.normalized = .closed p p) ∧
    (∀ b, i.normalized.denormalized.lowerBound = some b → b.isInclusive = false) ∧
    (∀ b, i.normalized.denormalized.upperBound = some b → b.isInclusive = false) := by
  have key : ∀ l u : α,
      (RawInterval.closed l u).denormalized.normalized = .closed l u ∧
      (∀ b, (RawInterval.closed l u).denormalized.lowerBound = some b → b.isInclusive = false) ∧
      (∀ b, (RawInterval.closed l u).denormalized.upperBound = some b → b.isInclusive = false) := by
    intro l u
    simp only [RawInterval.denormalized]
    cases h1 : pred l <;> cases h2 : succ u <;>
      simp [RawInterval.normalized, RawInterval.lowerBound, RawInterval.upperBound,
        Bound.isInclusive]
    · exact ⟨(LawfulFinite.pred_none _).1 h1 |>.symm, (LawfulFinite.succ_none _).1 h2 |>.symm⟩
    · rw [pred_of_succ h2]; simp; exact ((LawfulFinite.pred_none _).1 h1).symm
    · rw [succ_of_pred h1]; simp; exact ((LawfulFinite.succ_none _).1 h2).symm
    · rw [succ_of_pred h1, pred_of_succ h2]
  rcases i.normalized_cases with h | ⟨p, h⟩ | ⟨l, u, h⟩ <;> rw [h]
  · exact ⟨.inl rfl, by simp [RawInterval.denormalized, RawInterval.lowerBound],
      by simp [RawInterval.denormalized, RawInterval.upperBound]⟩
  · exact ⟨.inr ⟨p, rfl, (key p p).1⟩, (key p p).2⟩
  · exact ⟨.inl (key l u).1, (key l u).2⟩

example : (RawInterval.opn (MInt.lit 3 : U8) (MInt.lit 7)).normalized.denormalized =
    .opn (MInt.lit 3) (MInt.lit 7) ∧
    (RawInterval.point (MInt.lit 3 : U8)).normalized.denormalized.normalized =
    .closed (MInt.lit 3) (MInt.lit 3) := by decide

end NI
