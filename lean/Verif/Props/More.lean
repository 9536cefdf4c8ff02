import Verif.Lemmas.More
import Verif.Props.Parse
import Verif.Props.Interval
import Verif.Props.SelectionMore
import Mathlib.Order.Monotone.Defs

/-!
# Properties C63–C68: bound helpers, further interval queries, strict parsing, iterator contracts
-/

set_option linter.unusedSimpArgs false
set_option linter.unusedVariables false
set_option linter.unusedSectionVars false
set_option linter.unnecessarySeqFocus false

namespace NI
open Finite TT

/-! ## C63 -/

section Bound
variable {α β : Type _}

/-- Mapping a bound with a strictly increasing function maps the half-line. -/
theorem C63_map [LinearOrder α] [LinearOrder β] {f : α → β} (hf : StrictMono f) (b : Bound α) (x : α) :
    ((b.map f).AdmitsAbove (f x) ↔ b.AdmitsAbove x) ∧
    ((b.map f).AdmitsBelow (f x) ↔ b.AdmitsBelow x) := by
  cases b <;> simp [Bound.map, Bound.AdmitsAbove, Bound.AdmitsBelow, hf.le_iff_le, hf.lt_iff_lt]

example : StrictMono (fun x : Int => x + 3) ∧ (Bound.excl (2 : Int)).map (· + 3) = .excl 5 ∧
    (Bound.excl (2 : Int)).AdmitsAbove 3 :=
  ⟨fun _ _ h => Int.add_lt_add_right h 3, rfl, by simp [Bound.AdmitsAbove]⟩

/-- `map` and `transfer` keep the kind of the bound and replace the value. -/
theorem C63_kind (b : Bound α) (f : α → β) (y : β) :
    (∀ a, b = .incl a → b.map f = .incl (f a) ∧ b.transfer y = .incl y) ∧
    (∀ a, b = .excl a → b.map f = .excl (f a) ∧ b.transfer y = .excl y) ∧
    (b = .inf → b.map f = .inf ∧ b.transfer y = .inf) ∧
    (b.isInclusive = true ↔ ∃ a, b = .incl a) ∧ (b.isExclusive = true ↔ ∃ a, b = .excl a) ∧
    (b.isFinite = true ↔ b ≠ .inf) := by
  cases b <;> simp [Bound.map, Bound.transfer, Bound.isInclusive, Bound.isExclusive, Bound.isFinite]

example : (Bound.excl (2 : Int)).map (· * 2) = .excl 4 ∧ (Bound.incl (2 : Int)).transfer 'x' = .incl 'x' ∧
    (Bound.inf : Bound Int).map (· * 2) = .inf ∧ (Bound.excl (2 : Int)).isExclusive = true := by decide

/-- `unwrap` returns the value of a finite bound and panics exactly on `Infinite`. -/
theorem C63_unwrap (b : Bound α) :
    (∀ a, b.unwrap = .ok a ↔ b = .incl a ∨ b = .excl a) ∧ ((∃ e, b.unwrap = .error e) ↔ b = .inf) ∧
    (∀ a, b.asRef = some a ↔ b = .incl a ∨ b = .excl a) := by
  cases b <;> simp [Bound.unwrap, Bound.asRef]

example : (Bound.excl (2 : Int)).unwrap = .ok 2 ∧ (Bound.inf : Bound Int).unwrap = .error .explicit ∧
    (Bound.incl (2 : Int)).asRef = some 2 := by decide

/-- The variants with a default use the value of a finite bound, the default otherwise. -/
theorem C63_defaults (b : Bound α) (d : α) (k : Unit → α) (f : α → β) (e : β) (g : Unit → β) :
    (∀ a, b = .incl a ∨ b = .excl a → b.unwrapOr d = a ∧ b.unwrapOrElse k = a ∧ b.mapOr e f = f a ∧
      b.mapOrElse g f = f a) ∧
    (b = .inf → b.unwrapOr d = d ∧ b.unwrapOrElse k = k () ∧ b.mapOr e f = e ∧
      b.mapOrElse g f = g ()) := by
  cases b <;> simp [Bound.unwrapOr, Bound.unwrapOrElse, Bound.mapOr, Bound.mapOrElse]

example : (Bound.excl (2 : Int)).unwrapOr 7 = 2 ∧ (Bound.inf : Bound Int).unwrapOrElse (fun _ => 7) = 7 ∧
    (Bound.incl (2 : Int)).mapOr 0 (· + 1) = 3 ∧ (Bound.inf : Bound Int).mapOrElse (fun _ => 9) (· + 1) = 9 := by decide

/-- A value and the default value become inclusive bounds. -/
theorem C63_from [LinearOrder α] [Inhabited α] (a x : α) :
    ((Bound.ofPoint a).AdmitsAbove x ↔ a ≤ x) ∧ ((Bound.ofPoint a).AdmitsBelow x ↔ x ≤ a) ∧
    (Bound.default : Bound α) = .ofPoint Inhabited.default := ⟨Iff.rfl, Iff.rfl, rfl⟩

example : StrictMono (fun x : Int => 2 * x + 1) := by intro a b h; simp only; omega
example : ((Bound.excl (3 : Int)).map fun x => 2 * x + 1) = .excl 7 ∧
    ((Bound.excl (3 : Int)).transfer 'c') = .excl 'c' ∧ (Bound.inf : Bound Int).unwrapOr 4 = 4 := by
  decide

end Bound

/-! ## C64 -/

section Raw
variable {α : Type} [LinearOrder α]

/-- Over a dense order without end points, `infimum` and `supremum` of a well formed interval that is
not `Empty` are its greatest lower and least upper bound, and `None` iff there is none. -/
theorem C64_infimum [DenselyOrdered α] [NoMinOrder α] [NoMaxOrder α] (i : RawInterval α) (hi : i.WF)
    (he : i ≠ .empty) (m : α) :
    (i.infimum = some m ↔ IsGLB i.pts m) ∧ (i.supremum = some m ↔ IsLUB i.pts m) := by
  have gIoi : ∀ a : α, IsGLB (Set.Ioi a) a := fun a =>
    ⟨fun x hx => le_of_lt hx, fun y hy => le_of_forall_gt_imp_ge_of_dense fun x hx => hy hx⟩
  have lIio : ∀ a : α, IsLUB (Set.Iio a) a := fun a =>
    ⟨fun x hx => le_of_lt hx, fun y hy => le_of_forall_lt_imp_le_of_dense fun x hx => hy hx⟩
  have gIoo : ∀ {a b : α}, a < b → IsGLB (Set.Ioo a b) a := fun {a b} h =>
    ⟨fun x hx => le_of_lt hx.1, fun y hy => le_of_forall_gt_imp_ge_of_dense fun x hx => by
      rcases lt_or_ge x b with hb | hb
      · exact hy ⟨hx, hb⟩
      · obtain ⟨z, h1, h2⟩ := exists_between h
        exact (hy ⟨h1, h2⟩).trans (h2.le.trans hb)⟩
  have lIoo : ∀ {a b : α}, a < b → IsLUB (Set.Ioo a b) b := fun {a b} h =>
    ⟨fun x hx => le_of_lt hx.2, fun y hy => le_of_forall_lt_imp_le_of_dense fun x hx => by
      rcases lt_or_ge a x with hb | hb
      · exact hy ⟨hb, hx⟩
      · obtain ⟨z, h1, h2⟩ := exists_between h
        exact (hb.trans h1.le).trans (hy ⟨h1, h2⟩)⟩
  have mono_g : ∀ {S T : Set α} {a : α}, IsGLB S a → S ⊆ T → (∀ x ∈ T, a ≤ x) → IsGLB T a :=
    fun h1 h2 h3 => ⟨h3, fun y hy => h1.2 fun x hx => hy (h2 hx)⟩
  have mono_l : ∀ {S T : Set α} {a : α}, IsLUB S a → S ⊆ T → (∀ x ∈ T, x ≤ a) → IsLUB T a :=
    fun h1 h2 h3 => ⟨h3, fun y hy => h1.2 fun x hx => hy (h2 hx)⟩
  have least : ∀ {S : Set α} {a : α}, a ∈ S → (∀ x ∈ S, a ≤ x) → IsGLB S a :=
    fun h1 h2 => ⟨h2, fun y hy => hy h1⟩
  have greatest : ∀ {S : Set α} {a : α}, a ∈ S → (∀ x ∈ S, x ≤ a) → IsLUB S a :=
    fun h1 h2 => ⟨h2, fun y hy => hy h1⟩
  have eqg : ∀ {S : Set α} {a : α}, IsGLB S a → (some a = some m ↔ IsGLB S m) := fun h => by
    rw [Option.some.injEq]
    exact ⟨fun e => e ▸ h, fun h' => le_antisymm (h'.2 h.1) (h.2 h'.1)⟩
  have eql : ∀ {S : Set α} {a : α}, IsLUB S a → (some a = some m ↔ IsLUB S m) := fun h => by
    rw [Option.some.injEq]
    exact ⟨fun e => e ▸ h, fun h' => le_antisymm (h.2 h'.1) (h'.2 h.1)⟩
  have nog : ∀ {S : Set α} {b : α}, (∀ x, x < b → x ∈ S) → (none = some m ↔ IsGLB S m) := by
    intro S b h
    refine ⟨fun h => (by cases h), fun h' => ?_⟩
    obtain ⟨z, hz⟩ := exists_lt (min m b)
    exact absurd (h'.1 (h z (lt_of_lt_of_le hz (min_le_right _ _))))
      (not_le.2 (lt_of_lt_of_le hz (min_le_left _ _)))
  have nol : ∀ {S : Set α} {b : α}, (∀ x, b < x → x ∈ S) → (none = some m ↔ IsLUB S m) := by
    intro S b h
    refine ⟨fun h => (by cases h), fun h' => ?_⟩
    obtain ⟨z, hz⟩ := exists_gt (max m b)
    exact absurd (h'.1 (h z (lt_of_le_of_lt (le_max_right _ _) hz)))
      (not_le.2 (lt_of_le_of_lt (le_max_left _ _) hz))
  cases i with
  | empty => exact absurd rfl he
  | point p =>
    exact ⟨eqg (least (S := {p}) rfl fun x hx => le_of_eq (Eq.symm hx)),
      eql (greatest (S := {p}) rfl fun x hx => le_of_eq hx)⟩
  | opn l r => exact ⟨eqg (gIoo hi), eql (lIoo hi)⟩
  | leftOpen l r =>
    exact ⟨eqg (mono_g (gIoo hi) (fun x hx => ⟨hx.1, le_of_lt hx.2⟩) fun x hx => le_of_lt hx.1),
      eql (greatest ⟨hi, le_refl _⟩ fun x hx => hx.2)⟩
  | rightOpen l r =>
    exact ⟨eqg (least ⟨le_refl _, hi⟩ fun x hx => hx.1),
      eql (mono_l (lIoo hi) (fun x hx => ⟨le_of_lt hx.1, hx.2⟩) fun x hx => le_of_lt hx.2)⟩
  | closed l r =>
    exact ⟨eqg (least ⟨le_refl _, le_of_lt hi⟩ fun x hx => hx.1),
      eql (greatest ⟨le_of_lt hi, le_refl _⟩ fun x hx => hx.2)⟩
  | upTo p => exact ⟨nog fun x hx => hx, eql (lIio p)⟩
  | upFrom p => exact ⟨eqg (gIoi p), nol fun x hx => hx⟩
  | «to» p => exact ⟨nog fun x hx => le_of_lt hx, eql (greatest (le_refl p) fun x hx => hx)⟩
  | frm p => exact ⟨eqg (least (le_refl p) fun x hx => hx), nol fun x hx => le_of_lt hx⟩
  | full => exact ⟨nog (b := m) fun _ _ => trivial, nol (b := m) fun _ _ => trivial⟩

example : (RawInterval.leftOpen (0 : ℚ) 2).WF ∧ RawInterval.leftOpen (0 : ℚ) 2 ≠ .empty ∧
    (RawInterval.leftOpen (0 : ℚ) 2).infimum = some 0 := by decide

/-- `Empty` has neither; in every order `infimum` is a lower and `supremum` an upper bound. -/
theorem C64_bounds (i : RawInterval α) :
    (RawInterval.empty : RawInterval α).infimum = none ∧
    (RawInterval.empty : RawInterval α).supremum = none ∧
    (∀ m x, i.infimum = some m → i.contains x = true → m ≤ x) ∧
    (∀ m x, i.supremum = some m → i.contains x = true → x ≤ m) := by
  refine ⟨rfl, rfl, fun m x h hx => ?_, fun m x h hx => ?_⟩ <;>
  rw [RawInterval.contains_iff] at hx <;>
  cases i <;> simp [RawInterval.infimum, RawInterval.supremum, RawInterval.lowerBound,
    RawInterval.upperBound, RawInterval.pts] at h hx <;> grind

example : (RawInterval.leftOpen (0 : ℚ) 2).WF ∧ RawInterval.leftOpen (0 : ℚ) 2 ≠ .empty ∧
    (RawInterval.leftOpen (0 : ℚ) 2).infimum = some 0 ∧
    (RawInterval.upTo (2 : ℚ)).infimum = none ∧ (RawInterval.upTo (2 : ℚ)).supremum = some 2 := by
  decide

end Raw

/-! ## C65 -/

section Interval
variable {α : Type} [LinearOrder α] [Finite α] [LawfulFinite α]

/-- `into_non_empty` returns the interval itself, or `None`; and it returns the interval whenever it
has a point.
Missing from the full property: `None` for every interval without points; false, see
`C65_counterexample`. -/
theorem C65_into_non_empty_partial (i : Interval α) :
    (∀ j, i.intoNonEmpty = some j → j = i) ∧
    (∀ x, i.contains x = true → i.intoNonEmpty = some i) ∧
    (i.Real → (i.intoNonEmpty = none ↔ ∀ x, i.contains x = false)) := by
  have hc : ∀ x, i.contains x = true → i.isEmpty = false := by
    intro x hx
    obtain ⟨r⟩ := i
    cases r <;> first | rfl | (simp [Interval.contains, RawInterval.contains] at hx)
  refine ⟨fun j h => ?_, fun x hx => ?_, fun hr => ⟨fun h x => ?_, fun h => ?_⟩⟩
  · unfold Interval.intoNonEmpty at h; split at h <;> simp_all
  · rw [Interval.intoNonEmpty, hc x hx]; rfl
  · cases hx : i.contains x with
    | false => rfl
    | true => rw [Interval.intoNonEmpty, hc x hx] at h; cases h
  · rcases hr with hr | ⟨x, hx⟩
    · rw [Interval.intoNonEmpty, hr]; rfl
    · rw [h x] at hx; cases hx

example : (Interval.mkClosed (u8 3) (u8 5)).intoNonEmpty = some (Interval.mkClosed (u8 3) (u8 5)) ∧
    (Interval.mkClosed (u8 5) (u8 3)).intoNonEmpty = none ∧ (Interval.mkClosed (u8 3) (u8 5)).Real :=
  ⟨by decide, by decide, .inr ⟨u8 4, by decide⟩⟩

/-- `open(3, 4)` contains no byte, but `into_non_empty` returns it. -/
theorem C65_counterexample :
    ∃ i : Interval U8, i.Obtainable ∧ (∀ x, i.contains x = false) ∧ i.intoNonEmpty = some i :=
  ⟨_, .mkOpen (MInt.lit 3) (MInt.lit 4), Interval.phantom_no_point, by decide⟩

/-- `Interval`s are adjacent iff one ends with the very point the other one starts with; the relation
is symmetric.
Missing from the full property: intervals without points. -/
theorem C65_adjacent_partial (a b : Interval α) (ha : a.Obtainable) (hb : b.Obtainable) (ra : a.Real)
    (rb : b.Real) :
    (a.isAdjacentTo b = true ↔ ∃ m, (IsLeast a.pts m ∧ IsGreatest b.pts m) ∨
      (IsGreatest a.pts m ∧ IsLeast b.pts m)) ∧ a.isAdjacentTo b = b.isAdjacentTo a := by
  refine ⟨?_, (C08_symm a.raw b.raw).2.2⟩
  have shape : ∀ i : Interval α, i.Obtainable → i.Real → i = ⟨.empty⟩ ∨ ∃ l u,
      i.raw.lowerBound = some (.incl l) ∧ i.raw.upperBound = some (.incl u) ∧
      IsLeast i.pts l ∧ IsGreatest i.pts u := by
    intro i hi hr
    rcases Interval.real_cases hi hr with rfl | ⟨p, rfl⟩ | ⟨l, u, rfl, hlu⟩
    · exact .inl rfl
    · refine .inr ⟨p, p, rfl, rfl, ?_, ?_⟩ <;> rw [Interval.pts_eq]
      exacts [⟨rfl, fun x hx => le_of_eq (Eq.symm hx)⟩, ⟨rfl, fun x hx => le_of_eq hx⟩]
    · refine .inr ⟨l, u, rfl, rfl, ?_, ?_⟩ <;> rw [Interval.pts_eq]
      exacts [⟨⟨le_refl _, hlu⟩, fun x hx => hx.1⟩, ⟨⟨hlu, le_refl _⟩, fun x hx => hx.2⟩]
  have noe : ∀ m : α, m ∉ (⟨.empty⟩ : Interval α).pts := fun m hm => by
    rw [Interval.pts_eq] at hm; exact hm
  rcases shape a ha ra with rfl | ⟨la, ua, a1, a2, a3, a4⟩
  · refine ⟨fun h => (by cases h), ?_⟩
    rintro ⟨m, ⟨h, -⟩ | ⟨h, -⟩⟩ <;> exact absurd h.1 (noe m)
  rcases shape b hb rb with rfl | ⟨lb, ub, b1, b2, b3, b4⟩
  · refine ⟨fun h => ?_, ?_⟩
    · simp [Interval.isAdjacentTo, RawInterval.isAdjacentTo, a1, a2, RawInterval.lowerBound,
        RawInterval.upperBound] at h
    · rintro ⟨m, ⟨-, h⟩ | ⟨-, h⟩⟩ <;> exact absurd h.1 (noe m)
  have e : a.isAdjacentTo b = true ↔ la = ub ∨ lb = ua := by
    simp [Interval.isAdjacentTo, RawInterval.isAdjacentTo, a1, a2, b1, b2, Bound.isUnionAdjacentTo]
  have ul : ∀ {S : Set α} {x y : α}, IsLeast S x → IsLeast S y → x = y := fun h h' =>
    le_antisymm (h.2 h'.1) (h'.2 h.1)
  have ug : ∀ {S : Set α} {x y : α}, IsGreatest S x → IsGreatest S y → x = y := fun h h' =>
    le_antisymm (h'.2 h.1) (h.2 h'.1)
  rw [e]
  constructor
  · rintro (h | h)
    · exact ⟨la, .inl ⟨a3, h ▸ b4⟩⟩
    · exact ⟨lb, .inr ⟨h ▸ a4, b3⟩⟩
  · rintro ⟨m, ⟨h1, h2⟩ | ⟨h1, h2⟩⟩
    · exact .inl ((ul a3 h1).trans (ug h2 b4))
    · exact .inr ((ul b3 h2).trans (ug h1 a4))

example : (Interval.mkClosed (u8 3) (u8 5)).Obtainable ∧ (Interval.mkClosed (u8 3) (u8 5)).Real ∧
    (Interval.mkClosed (u8 5) (u8 9)).Real ∧
    (Interval.mkClosed (u8 3) (u8 5)).isAdjacentTo (Interval.mkClosed (u8 5) (u8 9)) = true :=
  ⟨.mkClosed _ _, .inr ⟨u8 4, by decide⟩, .inr ⟨u8 6, by decide⟩, by decide⟩

/-- The default interval is empty. -/
theorem C65_default (x : α) : (Interval.default : Interval α).isEmpty = true ∧
    (Interval.default : Interval α).contains x = false := ⟨rfl, rfl⟩

example : (Interval.mkClosed (u8 3) (u8 5)).isAdjacentTo (Interval.mkClosed (u8 5) (u8 15)) = true ∧
    (Interval.mkClosed (u8 3) (u8 5)).isAdjacentTo (Interval.mkClosed (u8 3) (u8 15)) = false ∧
    (Interval.mkClosed (u8 3) (u8 5)).isAdjacentTo (Interval.mkClosed (u8 6) (u8 15)) = false := by
  decide
example : (Interval.mkClosed (u8 3) (u8 5)).Real ∧ (Interval.mkClosed (u8 3) (u8 5)).Obtainable :=
  ⟨.inr ⟨u8 4, by decide⟩, .mkClosed _ _⟩

end Interval

/-! ## C66 -/

section Strict
variable {α ε : Type} [LinearOrder α] [Text α ε]

/-- A string accepted as an interval with two finite bounds is written in the proper syntax.
Missing from the full property: the empty interval and infinite bounds, where the parser also
accepts other strings, see `C66_counterexample`. -/
theorem C66_strict_partial (s : Str) (i : RawInterval α) (h : RawInterval.fromStr s = .ok (.ok i))
    {p q : α} (hp : i.infimum = some p) (hq : i.supremum = some q) : StrictText s i := by
  rcases (C14_accepts s i).1 h with ⟨-, rfl⟩ | ⟨-, r, hr, rfl⟩ | ⟨-, -, x, y, lb, ub, rfl, -, hx, hy, rfl⟩
  · cases hp
  · exact .point hr
  · refine .pair ?_ ?_
    · cases hx with
      | inf v => cases ub <;> simp [RawInterval.new, RawInterval.infimum, RawInterval.lowerBound] at hp
      | excl _ h' => exact .excl h'
      | incl h' => exact .incl h'
    · cases hy with
      | inf v => cases lb <;> simp [RawInterval.new, RawInterval.supremum, RawInterval.upperBound] at hq
      | excl _ h' => exact .excl h'
      | incl h' => exact .incl h'

example : RawInterval.fromStr (α := I8) ['[', '3', ',', '5', ')'] = .ok (.ok (.rightOpen (MInt.lit 3) (MInt.lit 5))) ∧
    (RawInterval.rightOpen (MInt.lit 3 : I8) (MInt.lit 5)).infimum = some (MInt.lit 3) ∧
    (RawInterval.rightOpen (MInt.lit 3 : I8) (MInt.lit 5)).supremum = some (MInt.lit 5) := by decide

/-- For the integer types every properly written string is accepted, with the right meaning. -/
theorem C66_complete {lo hi : Int} (s : Str) (i : RawInterval (MInt lo hi)) (h : StrictText s i) :
    RawInterval.fromStr s = .ok (.ok i) := by
  have nm : ∀ {v : Str} {p : MInt lo hi} {c : Char}, Text.parse v = .ok p → c ∈ v →
      c = '+' ∨ c = '-' ∨ (MInt.digit c).isSome = true := fun h hc => MInt.parse_chars h _ hc
  cases h with
  | empty => exact RawInterval.fromStr_empty ⟨[], rfl⟩
  | point hp =>
    refine RawInterval.fromStr_point (fun hh => ?_) hp
    have := nm hp (hh.subset (by simp : 'Ø' ∈ ['Ø'])); revert this; decide
  | pair hx hy =>
    refine RawInterval.fromStr_pair (MInt.plain lo hi).noBracket ?_ ?_ ?_
    · intro hc
      cases hx with
      | inf => revert hc; decide
      | excl hp =>
        rcases List.mem_cons.1 hc with hc | hc
        · revert hc; decide
        · have := nm hp hc; revert this; decide
      | incl hp =>
        rcases List.mem_cons.1 hc with hc | hc
        · revert hc; decide
        · have := nm hp hc; revert this; decide
    · cases hx with
      | inf => exact .inf []
      | excl hp =>
        refine .excl (fun hh => ?_) hp
        have := nm hp (hh.subset (by simp : '∞' ∈ ['-', '∞'])); revert this; decide
      | incl hp => exact .incl hp
    · cases hy with
      | inf => exact .inf []
      | excl hp =>
        refine .excl (fun hh => ?_) hp
        have := nm hp (hh.subset (by simp : '∞' ∈ ['∞'])); revert this; decide
      | incl hp => exact .incl hp

example : StrictText ['[', '3', ',', '5', ')'] (RawInterval.rightOpen (MInt.lit 3 : I8) (MInt.lit 5)) := by
  have h := StrictText.pair (StrictLower.incl (α := I8) (v := ['3']) (p := MInt.lit 3) (by decide))
    (StrictUpper.excl (v := ['5']) (p := MInt.lit 5) (by decide))
  exact h

/-- `"Ø!"` is accepted as the empty interval, `"(-∞!,5]"` as `(-∞,5]` and `"[5,!∞)"` as `[5,∞)`; none
of these strings is properly written. -/
theorem C66_counterexample :
    RawInterval.fromStr (α := I8) ['Ø', '!'] = .ok (.ok .empty) ∧
    RawInterval.fromStr (α := I8) ['(', '-', '∞', '!', ',', '5', ']'] = .ok (.ok (.to (MInt.lit 5))) ∧
    RawInterval.fromStr (α := I8) ['[', '5', ',', '!', '∞', ')'] = .ok (.ok (.frm (MInt.lit 5))) ∧
    (∀ s ∈ [['Ø', '!'], ['(', '-', '∞', '!', ',', '5', ']'], ['[', '5', ',', '!', '∞', ')']],
      ∀ i : RawInterval I8, ¬ StrictText s i) := by
  refine ⟨by decide, by decide, by decide, ?_⟩
  have nm : ∀ {v : Str} {p : I8}, Text.parse v = .ok p → '!' ∉ v := fun h hc => by
    have := MInt.parse_chars h _ hc; revert this; decide
  intro s hs i hi
  have hb : '!' ∈ s := by simp at hs; rcases hs with rfl | rfl | rfl <;> decide
  cases hi with
  | empty => revert hb; decide
  | point hp => exact nm hp hb
  | pair hx hy =>
    rcases List.mem_append.1 hb with hb | hb
    · cases hx with
      | inf => revert hb; decide
      | excl hp =>
        rcases List.mem_cons.1 hb with hb | hb
        · revert hb; decide
        · exact nm hp hb
      | incl hp =>
        rcases List.mem_cons.1 hb with hb | hb
        · revert hb; decide
        · exact nm hp hb
    · rcases List.mem_cons.1 hb with hb | hb
      · revert hb; decide
      cases hy with
      | inf => revert hb; decide
      | excl hp =>
        rcases List.mem_append.1 hb with hb | hb
        · exact nm hp hb
        · revert hb; decide
      | incl hp =>
        rcases List.mem_append.1 hb with hb | hb
        · exact nm hp hb
        · revert hb; decide

example : StrictText ['(', '-', '5', ',', '+', '7', ']']
    (RawInterval.leftOpen (MInt.lit (-5) : I8) (MInt.lit 7)) := by
  have h := StrictText.pair (StrictLower.excl (α := I8) (v := ['-', '5']) (p := MInt.lit (-5)) (by decide))
    (StrictUpper.incl (v := ['+', '7']) (p := MInt.lit 7) (by decide))
  exact h
example : RawInterval.fromStr (α := I8) ['(', '-', '5', ',', '+', '7', ']'] =
    .ok (.ok (.leftOpen (MInt.lit (-5)) (MInt.lit 7))) := by decide

end Strict

/-! ## C67 -/

section Iter
variable {α : Type} [LinearOrder α] [Finite α] [LawfulFinite α]

/-- Iteration over any `Interval` never panics and, once it has returned `None`, only returns
`None`, whatever the order of `next` and `next_back` calls. -/
theorem C67_interval (i : Interval α) (h : i.Obtainable) (cs : List IterCall) :
    ∃ os, drive Interval.next Interval.nextBack i cs = .ok os ∧ Fused os := by
  by_cases hr : i.Real
  · obtain ⟨os, e, w⟩ := Interval.drive_walk cs h hr
    exact ⟨os, e, w.fused⟩
  · obtain ⟨l, u, -, -, h1, h2⟩ := Interval.not_real_step h hr
    cases cs with
    | nil => exact ⟨[], rfl, fused_nil⟩
    | cons c cs =>
      obtain ⟨os, e, w⟩ := Interval.drive_walk (α := α) cs .empty Interval.real_mk_empty
      cases c
      · refine ⟨some l :: os, ?_, fused_some w.fused⟩
        simp only [drive, h1, bind, Except.bind, e]; rfl
      · refine ⟨some u :: os, ?_, fused_some w.fused⟩
        simp only [drive, h2, bind, Except.bind, e]; rfl

example : (Interval.mkClosed (u8 3) (u8 5)).Obtainable ∧
    drive Interval.next Interval.nextBack (Interval.mkClosed (u8 3) (u8 5)) [.next, .nextBack, .next, .next, .nextBack] =
      .ok [some (u8 3), some (u8 5), some (u8 4), none, none] :=
  ⟨.ofRaw (.closed (u8 3) (u8 5)) (by decide), by decide⟩

omit [Finite α] [LawfulFinite α] in
/-- The interval iterator of a tree, any tree at all, never returns an interval after `None` (it may
panic instead, see `C68_counterexample`). -/
theorem C67_tree_intervals (dbg : Bool) (t : TineTree α) (cs : List IterCall) (os)
    (h : drive (TineIter.next dbg) (TineIter.nextBack dbg) (TineIter.start t) cs = .ok os) : Fused os :=
  IterOk.fused dbg cs ⟨rfl, fun x hx => by cases hx⟩ h

example : drive (TineIter.next true) (TineIter.nextBack true)
    (TineIter.start (TineTree.demo [.closed 0 2, .point 4])) [.next, .next, .next, .nextBack] =
    .ok [some (.closed 0 2), some (.point 4), none, none] := by decide

/-- Nor does the interval iterator of a selection. -/
theorem C67_selection_intervals (dbg : Bool) (s : Selection α) (cs : List IterCall) (os)
    (h : drive (Selection.intervalNext dbg) (Selection.intervalNextBack dbg) (TineIter.start s.tree) cs =
      .ok os) : Fused os := by
  obtain ⟨os', e, rfl⟩ : ∃ os', drive (TineIter.next dbg) (TineIter.nextBack dbg)
      (TineIter.start s.tree) cs = .ok os' ∧ os = os'.map (Option.map Selection.run) := by
    generalize TineIter.start s.tree = it at h
    induction cs generalizing it os with
    | nil => cases h; exact ⟨[], rfl, rfl⟩
    | cons c cs ih =>
      cases c
      · cases hn : it.next dbg with
        | error e => simp [drive, Selection.intervalNext, hn, bind, Except.bind] at h
        | ok r =>
          obtain ⟨o, it'⟩ := r
          cases hd : drive (Selection.intervalNext dbg) (Selection.intervalNextBack dbg) it' cs with
          | error e => simp [drive, Selection.intervalNext, hn, hd, bind, Except.bind] at h
          | ok os' =>
            simp only [drive, Selection.intervalNext, hn, hd, bind, Except.bind] at h
            cases h
            obtain ⟨os'', e, rfl⟩ := ih _ _ hd
            refine ⟨o :: os'', by simp only [drive, hn, e, bind, Except.bind]; rfl, ?_⟩
            cases o <;> simp [Selection.run_eq]
      · cases hn : it.nextBack dbg with
        | error e => simp [drive, Selection.intervalNextBack, hn, bind, Except.bind] at h
        | ok r =>
          obtain ⟨o, it'⟩ := r
          cases hd : drive (Selection.intervalNext dbg) (Selection.intervalNextBack dbg) it' cs with
          | error e => simp [drive, Selection.intervalNextBack, hn, hd, bind, Except.bind] at h
          | ok os' =>
            simp only [drive, Selection.intervalNextBack, hn, hd, bind, Except.bind] at h
            cases h
            obtain ⟨os'', e, rfl⟩ := ih _ _ hd
            refine ⟨o :: os'', by simp only [drive, hn, e, bind, Except.bind]; rfl, ?_⟩
            cases o <;> simp [Selection.run_eq]
  have := C67_tree_intervals dbg s.tree cs os' e
  rw [Fused, List.pairwise_map]
  refine this.imp fun {a b} h ha => ?_
  cases a <;> simp at ha
  rw [h rfl]; rfl

example : drive (Selection.intervalNext true) (Selection.intervalNextBack true)
    (TineIter.start (Selection.demo [(u8 3, u8 5)]).tree) [.next, .next, .nextBack] =
    .ok [some (Interval.mkClosed (u8 3) (u8 5)), none, none] := by decide

/-- Forward iteration over the points of a selection never panics and never resumes after `None`; nor
does mixed iteration if no single value is missing between two neighbours.
Missing from the full property: mixed iteration over other selections, for which it is false in
release builds, see `C67_counterexample`. -/
theorem C67_points_partial (dbg : Bool) (s : Selection α) (hs : s.Solid) :
    (∀ n, ∃ os, drive (PointIter.next dbg) (PointIter.nextBack dbg) (PointIter.start s)
      (List.replicate n .next) = .ok os ∧ Fused os) ∧
    (s.Carved → ∀ cs, ∃ os, drive (PointIter.next dbg) (PointIter.nextBack dbg) (PointIter.start s) cs =
      .ok os ∧ Fused os) := by
  refine ⟨fun n => ?_, fun hc cs => ?_⟩
  · obtain ⟨os, e, w⟩ := C57_forward_partial dbg s hs n
    exact ⟨os, e, w.fused⟩
  · obtain ⟨os, e, w⟩ := C58_drain_partial dbg s hs hc cs
    exact ⟨os, e, w.fused⟩

example : (Selection.ofInterval (Interval.mkClosed (u8 2) (u8 10))).Solid ∧
    (Selection.ofInterval (Interval.mkClosed (u8 2) (u8 10))).Carved :=
  ⟨.tidy (.inl (.ofInterval (.mkClosed _ _) (Interval.closed_real (by decide)))), .ofInterval (.mkClosed _ _)⟩

/-- The bytes 1, 4, 6: after `next_back` returned 6, `next` returns `None` and the next `next` returns
3, which is not even in the selection (release build; a debug build panics). -/
theorem C67_counterexample :
    ∃ s : Selection U8, s.UnionBuilt ∧ u8 1 ∈ s.pts true ∧ u8 3 ∉ s.pts true ∧
      drive (PointIter.next false) (PointIter.nextBack false) (PointIter.start s)
        [.nextBack, .next, .next] = .ok [some (u8 6), none, some (u8 3)] ∧
      drive (PointIter.next true) (PointIter.nextBack true) (PointIter.start s)
        [.nextBack, .next, .next] = .error .debugAssert := by
  refine ⟨Selection.demo [(u8 1, u8 1), (u8 4, u8 4), (u8 6, u8 6)], Selection.demo_built _ (by decide),
    show Selection.contains true _ _ = .ok true by decide, ?_, by decide, by decide⟩
  intro h
  have : Selection.contains true (Selection.demo [(u8 1, u8 1), (u8 4, u8 4), (u8 6, u8 6)]) (u8 3) =
    .ok false := by decide
  rw [show Selection.contains true _ _ = _ from h] at this
  cases this

example : Fused [some 1, some 2, none, none] ∧ ¬ Fused [some 6, none, some 3] := by
  simp [Fused]

/-! ## C68 -/

omit [Finite α] [LawfulFinite α] in
/-- Forward interval iteration takes the intervals one by one from the front, then returns `None`. -/
theorem C68_forward (dbg : Bool) (t : TineTree α) (ht : t.Reachable) (is : List (RawInterval α))
    (his : TineTree.intervals dbg t = .ok is) (n : Nat) :
    ∃ os, drive (TineIter.next dbg) (TineIter.nextBack dbg) (TineIter.start t) (List.replicate n .next) =
      .ok os ∧ Deque is (List.replicate n .next) os := by
  have h := reachable_valid ht
  rw [TT.intervals_eq dbg h] at his
  cases his
  exact fwd_deque dbg n (saved := none) h.1.1 h.2

example : (TineTree.demo [.opn 5 9, .closed 0 2, .point 4]).Reachable ∧
    TineTree.intervals true (TineTree.demo [.opn 5 9, .closed 0 2, .point 4]) = .ok [.closed 0 2, .point 4, .opn 5 9] :=
  ⟨TineTree.fromIter_reachable (dbg := true) (is := [.opn 5 9, .closed 0 2, .point 4]) (by simp [RawInterval.WF]) rfl,
    by decide⟩

omit [Finite α] [LawfulFinite α] in
/-- Any mixture of `next` and `next_back` takes the intervals of a tree without holes from the two
ends, without panicking.
Missing from the full property: trees with holes, for which it is false, see `C68_counterexample`. -/
theorem C68_mixed_partial (dbg : Bool) (t : TineTree α) (ht : t.Reachable) (is : List (RawInterval α))
    (his : TineTree.intervals dbg t = .ok is) (hh : ∀ p, ¬ RawInterval.Hole is p) (cs : List IterCall) :
    ∃ os, drive (TineIter.next dbg) (TineIter.nextBack dbg) (TineIter.start t) cs = .ok os ∧
      Deque is cs os := by
  have h := reachable_valid ht
  rw [TT.intervals_eq dbg h] at his
  cases his
  exact mix_deque dbg cs h.1.1 (holeFree_of h hh) h.2

example : TineTree.intervals true (TineTree.demo [.closed 0 2, .point 4]) = .ok [.closed 0 2, .point 4] ∧
    ∀ p, ¬ RawInterval.Hole [.closed 0 2, RawInterval.point (4 : Int)] p :=
  ⟨by decide, by simp [RawInterval.Hole, RawInterval.OpenEnd, RawInterval.upperBound]⟩

/-- Likewise for the intervals of a selection in which no single value is missing between two
neighbours; going forward, for every selection.
Missing from the full property: other selections in mixed order. -/
theorem C68_selection_partial (dbg : Bool) (s : Selection α) (hs : s.Reachable) (is : List (Interval α))
    (his : s.intervals dbg = .ok is) :
    (∀ n, ∃ os, drive (Selection.intervalNext dbg) (Selection.intervalNextBack dbg)
      (TineIter.start s.tree) (List.replicate n .next) = .ok os ∧ Deque is (List.replicate n .next) os) ∧
    (s.Carved → ∀ cs, ∃ os, drive (Selection.intervalNext dbg) (Selection.intervalNextBack dbg)
      (TineIter.start s.tree) cs = .ok os ∧ Deque is cs os) := by
  have v := Selection.reachable_valid hs
  rw [Selection.intervals_eq dbg v] at his
  cases his
  refine ⟨fun n => ?_, fun hc cs => ?_⟩
  · obtain ⟨os, e, w⟩ := fwd_deque dbg n (saved := none) v.1.1 v.2
    exact ⟨_, Selection.drive_intervals dbg _ e, w.map _⟩
  · obtain ⟨-, hn⟩ := hc.valid_noHole
    obtain ⟨os, e, w⟩ := mix_deque dbg cs v.1.1 (noHole_holeFree v hn) v.2
    exact ⟨_, Selection.drive_intervals dbg _ e, w.map _⟩

example : Deque ['a', 'b', 'c'] [.next, .nextBack, .next, .next] [some 'a', some 'c', some 'b', none] :=
  .next (.nextBack (l := ['b']) (.next (.done (.nil _))))
example : drive (TineIter.next true) (TineIter.nextBack true)
    (TineIter.start (TineTree.demo [.opn 5 9, .closed 0 2, .point 4])) [.next, .nextBack, .next, .next] =
    .ok [some (.closed 0 2), some (.opn 5 9), some (.point 4), none] := by decide

/-- On `(0,2) ∪ (2,4)`, `next` after `next_back` panics in debug builds and returns `Empty` in release
builds; and once both intervals have been returned by `next` and `next_back`, one more pair of calls
panics in every build. -/
theorem C68_counterexample :
    ∃ t : TineTree Int, t.Reachable ∧ TineTree.intervals true t = .ok [.opn 0 2, .opn 2 4] ∧
      drive (TineIter.next true) (TineIter.nextBack true) (TineIter.start t) [.nextBack, .next] =
        .error .debugAssert ∧
      drive (TineIter.next false) (TineIter.nextBack false) (TineIter.start t) [.nextBack, .next] =
        .ok [some (.opn 2 4), some .empty] ∧
      ∀ dbg, drive (TineIter.next dbg) (TineIter.nextBack dbg) (TineIter.start t)
        [.next, .nextBack, .nextBack, .next] = .error .expect :=
  ⟨TineTree.demo [.opn 0 2, .opn 2 4],
    TineTree.fromIter_reachable (dbg := true) (is := [.opn 0 2, .opn 2 4]) (by decide) (by decide),
    by decide, by decide, by decide, by decide⟩

end Iter
end NI
