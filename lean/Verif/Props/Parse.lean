import Verif.Lemmas.Text
import Verif.Props.Raw

/-!
# Properties C13, C14: text form of raw intervals
-/

set_option linter.unusedSimpArgs false
set_option linter.unusedVariables false

namespace NI
open RawInterval
variable {α ε : Type} [LinearOrder α] [Text α ε]

/-- A string of two bound texts. -/
theorem RawInterval.fromStr_pair (hb : ∀ (t : Str) (p : α), Text.parse ('(' :: t) ≠ .ok p ∧
    Text.parse ('[' :: t) ≠ .ok p) {x y : Str} (hc : ',' ∉ x) {lb ub : Bound α} (hx : LowerText x lb)
    (hy : UpperText y ub) : fromStr (α := α) (x ++ ',' :: y) = .ok (.ok (RawInterval.new lb ub)) := by
  obtain ⟨c, t, e, hcc⟩ : ∃ c t, x ++ ',' :: y = c :: t ∧ (c = '(' ∨ c = '[') := by
    cases hx with
    | inf v => exact ⟨'(', _, rfl, .inl rfl⟩
    | excl _ _ => exact ⟨'(', _, rfl, .inl rfl⟩
    | incl _ => exact ⟨'[', _, rfl, .inr rfl⟩
  rw [fromStr_rest, Str.splitComma_some.2 ⟨rfl, hc⟩]
  · simp only [hx.eq, hy.eq, bind, Except.bind]
  · rw [e]
    rintro ⟨w, hw⟩
    simp only [List.singleton_append, List.cons.injEq] at hw
    rw [← hw.1] at hcc
    revert hcc; decide
  · rw [e]
    intro p
    rcases hcc with rfl | rfl
    exacts [(hb t p).1, (hb t p).2]

/-! ## C13 -/

/-- Parsing what `Display` printed gives back the interval, for every value type whose text
round-trips and keeps clear of interval syntax. -/
theorem C13_round_trip (h : PlainText α) (i : RawInterval α) (hi : i.WF) :
    fromStr i.display = .ok (.ok i) := by
  have key : ∀ {x y : Str} {lb ub : Bound α}, ',' ∉ x → LowerText x lb → UpperText y ub →
      i.display = x ++ ',' :: y → RawInterval.new lb ub = i → fromStr i.display = .ok (.ok i) := by
    intro x y lb ub hc hx hy e1 e2
    rw [e1, RawInterval.fromStr_pair h.noBracket hc hx hy, e2]
  have nc : ∀ (p : α) (c : Char), c ≠ ',' → ',' ∉ c :: Text.fmt p := by
    intro p c hc hm
    rcases List.mem_cons.1 hm with hm | hm
    exacts [hc hm.symm, h.noComma p hm]
  have lx : ∀ p : α, LowerText ('(' :: Text.fmt p) (.excl p) := fun p => .excl (h.noInfLow p) (h.round p)
  have li : ∀ p : α, LowerText ('[' :: Text.fmt p) (.incl p) := fun p => .incl (h.round p)
  have ux : ∀ p : α, UpperText (Text.fmt p ++ [')']) (.excl p) := fun p => .excl (h.noInfUp p) (h.round p)
  have ui : ∀ p : α, UpperText (Text.fmt p ++ [']']) (.incl p) := fun p => .incl (h.round p)
  cases i with
  | empty => exact fromStr_empty ⟨[], rfl⟩
  | point p => exact fromStr_point (h.noEmpty p) (h.round p)
  | opn l r =>
    have hi : l < r := hi
    exact key (nc l _ (by decide)) (lx l) (ux r) (by simp [display])
      (by simp [RawInterval.new, mkOpen, hi])
  | leftOpen l r =>
    have hi : l < r := hi
    exact key (nc l _ (by decide)) (lx l) (ui r) (by simp [display])
      (by simp [RawInterval.new, mkLeftOpen, hi])
  | rightOpen l r =>
    have hi : l < r := hi
    exact key (nc l _ (by decide)) (li l) (ux r) (by simp [display])
      (by simp [RawInterval.new, mkRightOpen, hi])
  | closed l r =>
    have hi : l < r := hi
    exact key (nc l _ (by decide)) (li l) (ui r) (by simp [display])
      (by simp [RawInterval.new, mkClosed, hi])
  | upTo p => exact key (x := ['(', '-', '∞']) (by decide) (.inf []) (ux p) (by simp [display]) rfl
  | upFrom p =>
    exact key (y := ['∞', ')']) (nc p _ (by decide)) (lx p) (.inf []) (by simp [display]) rfl
  | «to» p => exact key (x := ['(', '-', '∞']) (by decide) (.inf []) (ui p) (by simp [display]) rfl
  | frm p =>
    exact key (y := ['∞', ')']) (nc p _ (by decide)) (li p) (.inf []) (by simp [display]) rfl
  | full =>
    exact key (x := ['(', '-', '∞']) (y := ['∞', ')']) (by decide) (.inf []) (.inf [])
      (by simp [display]) rfl

example : PlainText I8 ∧ (RawInterval.leftOpen (MInt.lit (-12)) (MInt.lit 105) : RawInterval I8).WF :=
  ⟨MInt.plain _ _, by decide⟩

/-- In particular for all integer types. -/
theorem C13_integers {lo hi : Int} (i : RawInterval (MInt lo hi)) (hi : i.WF) :
    fromStr i.display = .ok (.ok i) := C13_round_trip (MInt.plain lo _) i hi

example : (RawInterval.leftOpen (MInt.lit (-12)) (MInt.lit 105) : RawInterval I8).WF ∧
    fromStr (α := I8) ['(', '-', '1', '2', ',', '1', '0', '5', ']'] = .ok (.ok (.leftOpen (MInt.lit (-12)) (MInt.lit 105))) := by
  decide

/-- Well formed intervals with the same text are the same. -/
theorem C13_injective (h : PlainText α) (i j : RawInterval α) (hi : i.WF) (hj : j.WF)
    (e : i.display = j.display) : i = j := by
  have := C13_round_trip h i hi
  rw [e, C13_round_trip h j hj] at this
  simpa using this.symm

example : (RawInterval.closed (MInt.lit (-12)) (MInt.lit 105) : RawInterval I8).display =
    ['[', '-', '1', '2', ',', '1', '0', '5', ']'] := by
  simp [display, Text.fmt, MInt.fmtInt, MInt.digits, MInt.lit]
example : fromStr (α := I8) ['[', '-', '1', '2', ',', '1', '0', '5', ']'] = .ok (.ok (.closed (MInt.lit (-12)) (MInt.lit 105))) := by
  decide
example : fromStr (α := I8) ['(', '-', '∞', ',', '-', '5', ']'] = .ok (.ok (.to (MInt.lit (-5)))) := by decide

/-! ## C14 -/

/-- `from_str` never panics. -/
theorem C14_total (s : Str) : ∃ r, fromStr (α := α) s = .ok r := by
  by_cases h : ['Ø'] <+: s
  · exact ⟨_, fromStr_empty h⟩
  by_cases hp : ∃ p : α, Text.parse s = .ok p
  · obtain ⟨p, hp⟩ := hp; exact ⟨_, fromStr_point h hp⟩
  rw [fromStr_rest h fun p hh => hp ⟨p, hh⟩]
  cases Str.splitComma s with
  | none => exact ⟨_, rfl⟩
  | some xy =>
    obtain ⟨x, y⟩ := xy
    rcases parseLower_cases (α := α) x with ⟨lb, -, e⟩ | ⟨er, -, e⟩ | ⟨-, e⟩
    · rcases parseUpper_cases (α := α) y with ⟨ub, -, e'⟩ | ⟨er, -, e'⟩ | ⟨-, e'⟩ <;>
        exact ⟨_, by simp only [e, e', bind, Except.bind]; rfl⟩
    · exact ⟨_, by simp only [e, bind, Except.bind]; rfl⟩
    · exact ⟨_, by simp only [e, bind, Except.bind]; rfl⟩

example : fromStr (α := I8) ['[', '3', ',', '5', ')'] = .ok (.ok (.rightOpen (MInt.lit 3) (MInt.lit 5))) ∧
    fromStr (α := I8) ['3', ';', '5'] = .ok (.error .invalidInterval) := by decide

/-- Exactly which strings are accepted, and as what. -/
theorem C14_accepts (s : Str) (i : RawInterval α) : fromStr s = .ok (.ok i) ↔
    (['Ø'] <+: s ∧ i = .empty) ∨
    (¬ ['Ø'] <+: s ∧ ∃ p, Text.parse s = .ok p ∧ i = .point p) ∨
    (¬ ['Ø'] <+: s ∧ (∀ p : α, Text.parse s ≠ .ok p) ∧ ∃ x y lb ub, s = x ++ ',' :: y ∧ ',' ∉ x ∧
      LowerText x lb ∧ UpperText y ub ∧ i = RawInterval.new lb ub) := by
  by_cases h : ['Ø'] <+: s
  · rw [fromStr_empty h]; simp [h, eq_comm]
  by_cases hp : ∃ p : α, Text.parse s = .ok p
  · obtain ⟨p, hp⟩ := hp
    rw [fromStr_point h hp]
    simp [h, hp, eq_comm]
  have hp : ∀ p : α, Text.parse s ≠ .ok p := fun p hh => hp ⟨p, hh⟩
  constructor
  · intro e
    refine .inr (.inr ⟨h, hp, ?_⟩)
    rw [fromStr_rest h hp] at e
    cases hs : Str.splitComma s with
    | none => rw [hs] at e; cases e
    | some xy =>
      obtain ⟨x, y⟩ := xy
      rw [hs] at e
      obtain ⟨s1, s2⟩ := Str.splitComma_some.1 hs
      rcases parseLower_cases (α := α) x with ⟨lb, hl, e1⟩ | ⟨er, -, e1⟩ | ⟨-, e1⟩
      · rcases parseUpper_cases (α := α) y with ⟨ub, hu, e2⟩ | ⟨er, -, e2⟩ | ⟨-, e2⟩
        · simp only [e1, e2, bind, Except.bind, Except.ok.injEq] at e
          exact ⟨x, y, lb, ub, s1, s2, hl, hu, e.symm⟩
        · simp only [e1, e2, bind, Except.bind] at e; cases e
        · simp only [e1, e2, bind, Except.bind] at e; cases e
      · simp only [e1, bind, Except.bind] at e; cases e
      · simp only [e1, bind, Except.bind] at e; cases e
  · rintro (⟨h', -⟩ | ⟨-, p, hp', -⟩ | ⟨-, -, x, y, lb, ub, rfl, hc, hx, hy, rfl⟩)
    · exact absurd h' h
    · exact absurd hp' (hp p)
    · rw [fromStr_rest h hp, Str.splitComma_some.2 ⟨rfl, hc⟩]
      simp only [hx.eq, hy.eq, bind, Except.bind]

example : fromStr (α := I8) ['Ø', '!'] = .ok (.ok .empty) ∧ fromStr (α := I8) ['4', '2'] = .ok (.ok (.point (MInt.lit 42))) ∧
    fromStr (α := I8) ['(', '4', ',', '∞', ')'] = .ok (.ok (.upFrom (MInt.lit 4))) := by decide

/-- An accepted interval is well formed. -/
theorem C14_wf (s : Str) (i : RawInterval α) (h : fromStr s = .ok (.ok i)) : i.WF := by
  rcases (C14_accepts s i).1 h with ⟨-, rfl⟩ | ⟨-, p, -, rfl⟩ | ⟨-, -, x, y, lb, ub, -, -, -, -, rfl⟩
  · trivial
  · trivial
  · exact (C02_new lb ub).1

example : fromStr (α := I8) ['[', '9', ',', '2', ']'] = .ok (.ok .empty) ∧
    fromStr (α := I8) ['[', '2', ',', '9', ']'] = .ok (.ok (.closed (MInt.lit 2) (MInt.lit 9))) := by decide

/-- What an accepted pair of bounds means: the points between them, and `[x,x)`, `(x,x]` mean `x`. -/
theorem C14_meaning (s x y : Str) (lb ub : Bound α) (h : ¬ ['Ø'] <+: s)
    (hp : ∀ p : α, Text.parse s ≠ .ok p) (hs : s = x ++ ',' :: y) (hc : ',' ∉ x)
    (hx : LowerText x lb) (hy : UpperText y ub) :
    ∃ i : RawInterval α, fromStr s = .ok (.ok i) ∧ ∀ z, i.contains z = true ↔
      (lb.AdmitsAbove z ∧ ub.AdmitsBelow z) ∨
      ((lb = .incl z ∧ ub = .excl z) ∨ (lb = .excl z ∧ ub = .incl z)) := by
  refine ⟨_, (C14_accepts s _).2 (.inr (.inr ⟨h, hp, x, y, lb, ub, hs, hc, hx, hy, rfl⟩)), ?_⟩
  intro z
  rw [RawInterval.contains_iff, (C02_new lb ub).2]

example : ¬ ['Ø'] <+: ['[', '3', ',', '5', ')'] ∧ ',' ∉ ['[', '3'] ∧
    (Text.parse ['[', '3', ',', '5', ')'] : Except _ I8) = .error .invalidDigit ∧
    fromStr (α := I8) ['[', '3', ',', '5', ')'] = .ok (.ok (.rightOpen (MInt.lit 3) (MInt.lit 5))) := by decide

/-- A string without comma that is no value and does not start with the empty sign is rejected as an
interval. -/
theorem C14_no_comma (s : Str) (hc : ',' ∉ s) (h : ¬ ['Ø'] <+: s)
    (hp : ∀ p : α, Text.parse s ≠ .ok p) :
    fromStr (α := α) s = .ok (.error .invalidInterval) := by
  rw [fromStr_rest h hp, Str.splitComma_none.2 hc]

example : ',' ∉ ['[', '3', ';', '5', ')'] ∧ ¬ ['Ø'] <+: ['[', '3', ';', '5', ')'] ∧
    fromStr (α := I8) ['[', '3', ';', '5', ')'] = .ok (.error .invalidInterval) := by decide

/-- A value error is passed on unchanged, the one of the lower bound first. -/
theorem C14_value_error (s : Str) (e : ε) : fromStr (α := α) s = .ok (.error (.invalidValue e)) ↔
    ¬ ['Ø'] <+: s ∧ (∀ p : α, Text.parse s ≠ .ok p) ∧ ∃ x y, s = x ++ ',' :: y ∧ ',' ∉ x ∧
      (LowerError α x e ∨ ((∃ lb : Bound α, LowerText x lb) ∧ UpperError α y e)) := by
  by_cases h : ['Ø'] <+: s
  · rw [fromStr_empty h]; simp [h]
  by_cases hp : ∃ p : α, Text.parse s = .ok p
  · obtain ⟨p, hp⟩ := hp
    rw [fromStr_point h hp]
    simp [h, hp]
  have hp : ∀ p : α, Text.parse s ≠ .ok p := fun p hh => hp ⟨p, hh⟩
  constructor
  · intro er
    refine ⟨h, hp, ?_⟩
    rw [fromStr_rest h hp] at er
    cases hs : Str.splitComma s with
    | none => rw [hs] at er; cases er
    | some xy =>
      obtain ⟨x, y⟩ := xy
      rw [hs] at er
      obtain ⟨s1, s2⟩ := Str.splitComma_some.1 hs
      refine ⟨x, y, s1, s2, ?_⟩
      rcases parseLower_cases (α := α) x with ⟨lb, hl, e1⟩ | ⟨er', hl, e1⟩ | ⟨-, e1⟩
      · rcases parseUpper_cases (α := α) y with ⟨ub, hu, e2⟩ | ⟨er', hu, e2⟩ | ⟨-, e2⟩
        · simp only [e1, e2, bind, Except.bind] at er; cases er
        · simp only [e1, e2, bind, Except.bind] at er; cases er
          exact .inr ⟨⟨lb, hl⟩, hu⟩
        · simp only [e1, e2, bind, Except.bind] at er; cases er
      · simp only [e1, bind, Except.bind] at er; cases er; exact .inl hl
      · simp only [e1, bind, Except.bind] at er; cases er
  · rintro ⟨-, -, x, y, rfl, hc, hx | ⟨⟨lb, hx⟩, hy⟩⟩
    · rw [fromStr_rest h hp, Str.splitComma_some.2 ⟨rfl, hc⟩]
      simp only [hx.eq, bind, Except.bind]
    · rw [fromStr_rest h hp, Str.splitComma_some.2 ⟨rfl, hc⟩]
      simp only [hx.eq, hy.eq, bind, Except.bind]

example : fromStr (α := I8) ['[', '1', '2', ',', '2', '0', '0', ']'] = .ok (.error (.invalidValue .posOverflow)) ∧
    fromStr (α := I8) ['[', 'x', ',', '2', '0', '0', ']'] = .ok (.error (.invalidValue .invalidDigit)) ∧
    fromStr (α := I8) ['1', '2', '.', '.', '2', '0'] = .ok (.error .invalidInterval) ∧
    fromStr (α := I8) ['[', '2', '0', ',', '1', '2', ']'] = .ok (.ok .empty) := by decide

end NI
