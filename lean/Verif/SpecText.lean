import Verif.Model.Parse
import Verif.Spec

/-!
# Specification vocabulary for the text form of intervals
-/

namespace NI
variable {α ε : Type} [Text α ε]

/-- The text form of the value type round-trips and keeps clear of interval syntax: no comma, no
leading empty sign or minus infinity, no trailing infinity sign, and nothing that starts with a
bracket is read as a value. -/
structure PlainText (α : Type) {ε : Type} [Text α ε] : Prop where
  round : ∀ p : α, Text.parse (Text.fmt p) = Except.ok p
  noComma : ∀ p : α, ',' ∉ Text.fmt p
  noEmpty : ∀ p : α, ¬ ['Ø'] <+: Text.fmt p
  noInfLow : ∀ p : α, ¬ ['-', '∞'] <+: Text.fmt p
  noInfUp : ∀ p : α, ¬ ['∞'] <:+ Text.fmt p
  noBracket : ∀ (t : Str) (p : α), Text.parse ('(' :: t) ≠ .ok p ∧ Text.parse ('[' :: t) ≠ .ok p

/-- The text of a lower bound. -/
inductive LowerText : Str → Bound α → Prop
  | inf (v : Str) : LowerText ('(' :: '-' :: '∞' :: v) .inf
  | excl {v : Str} {p : α} : ¬ ['-', '∞'] <+: v → Text.parse v = .ok p → LowerText ('(' :: v) (.excl p)
  | incl {v : Str} {p : α} : Text.parse v = .ok p → LowerText ('[' :: v) (.incl p)

/-- The text of an upper bound. -/
inductive UpperText : Str → Bound α → Prop
  | inf (v : Str) : UpperText (v ++ ['∞', ')']) .inf
  | excl {v : Str} {p : α} : ¬ ['∞'] <:+ v → Text.parse v = .ok p → UpperText (v ++ [')']) (.excl p)
  | incl {v : Str} {p : α} : Text.parse v = .ok p → UpperText (v ++ [']']) (.incl p)

/-- A string that has the brackets of a lower bound, but a value in it that is rejected with `e`. -/
inductive LowerError (α : Type) {ε : Type} [Text α ε] : Str → ε → Prop
  | excl {v : Str} {e : ε} : ¬ ['-', '∞'] <+: v → Text.parse (α := α) v = .error e →
      LowerError α ('(' :: v) e
  | incl {v : Str} {e : ε} : Text.parse (α := α) v = .error e → LowerError α ('[' :: v) e

/-- Likewise for upper bounds. -/
inductive UpperError (α : Type) {ε : Type} [Text α ε] : Str → ε → Prop
  | excl {v : Str} {e : ε} : ¬ ['∞'] <:+ v → Text.parse (α := α) v = .error e →
      UpperError α (v ++ [')']) e
  | incl {v : Str} {e : ε} : Text.parse (α := α) v = .error e → UpperError α (v ++ [']']) e

end NI
