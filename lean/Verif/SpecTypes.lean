import Mathlib.Data.Prod.Lex
import Mathlib.Data.Sum.Order
import Mathlib.Order.OrderDual
import Verif.Spec

/-! # Specification: implementations of `Finite` for types put together from others (C152)

A user of the crate implements `Finite` (src/normalize.rs:26-38) for types of their own; the order is the derived one. -/

namespace NI
variable {α β : Type}

/-- A struct with two fields, or a pair, with the derived (lexicographic) order:
`succ` is `match self.1.succ() { Some(b) => Some((self.0, b)), None => self.0.succ().map(|a| (a, U::MINIMUM)) }`. -/
@[reducible] def Finite.pair [Finite α] [Finite β] : Finite (α ×ₗ β) where
  minimum := toLex (Finite.minimum, Finite.minimum)
  maximum := toLex (Finite.maximum, Finite.maximum)
  pred x := match Finite.pred (ofLex x).2 with
    | some b => some (toLex ((ofLex x).1, b))
    | none => (Finite.pred (ofLex x).1).map fun a => toLex (a, Finite.maximum)
  succ x := match Finite.succ (ofLex x).2 with
    | some b => some (toLex ((ofLex x).1, b))
    | none => (Finite.succ (ofLex x).1).map fun a => toLex (a, Finite.minimum)

/-- The same with the fields in the wrong order: the first one counts fastest. -/
@[reducible] def Finite.pairSwapped [Finite α] [Finite β] : Finite (α ×ₗ β) where
  minimum := toLex (Finite.minimum, Finite.minimum)
  maximum := toLex (Finite.maximum, Finite.maximum)
  pred x := match Finite.pred (ofLex x).1 with
    | some a => some (toLex (a, (ofLex x).2))
    | none => (Finite.pred (ofLex x).2).map fun b => toLex (Finite.maximum, b)
  succ x := match Finite.succ (ofLex x).1 with
    | some a => some (toLex (a, (ofLex x).2))
    | none => (Finite.succ (ofLex x).2).map fun b => toLex (Finite.minimum, b)

/-- The same without setting the second field back. -/
@[reducible] def Finite.pairKept [Finite α] [Finite β] : Finite (α ×ₗ β) where
  minimum := toLex (Finite.minimum, Finite.minimum)
  maximum := toLex (Finite.maximum, Finite.maximum)
  pred x := match Finite.pred (ofLex x).2 with
    | some b => some (toLex ((ofLex x).1, b))
    | none => (Finite.pred (ofLex x).1).map fun a => toLex (a, (ofLex x).2)
  succ x := match Finite.succ (ofLex x).2 with
    | some b => some (toLex ((ofLex x).1, b))
    | none => (Finite.succ (ofLex x).1).map fun a => toLex (a, (ofLex x).2)

/-- `Option<T>` in a wrapper: `None` before all others. -/
@[reducible] def Finite.option [Finite α] : Finite (WithBot α) where
  minimum := ⊥
  maximum := ((Finite.maximum : α) : WithBot α)
  pred x := match x with
    | none => none
    | some a => some (match Finite.pred a with | some b => (b : WithBot α) | none => ⊥)
  succ x := match x with
    | none => some ((Finite.minimum : α) : WithBot α)
    | some a => (Finite.succ a).map WithBot.some

/-- An enum with two variants that have a field each. -/
@[reducible] def Finite.either [Finite α] [Finite β] : Finite (α ⊕ₗ β) where
  minimum := toLex (.inl Finite.minimum)
  maximum := toLex (.inr Finite.maximum)
  pred x := match ofLex x with
    | .inl a => (Finite.pred a).map fun a => toLex (.inl a)
    | .inr b => some (match Finite.pred b with | some b => toLex (.inr b) | none => toLex (.inl Finite.maximum))
  succ x := match ofLex x with
    | .inl a => some (match Finite.succ a with | some a => toLex (.inl a) | none => toLex (.inr Finite.minimum))
    | .inr b => (Finite.succ b).map fun b => toLex (.inr b)

/-- `Reverse<T>` in a wrapper. -/
@[reducible] def Finite.reverse [Finite α] : Finite αᵒᵈ where
  minimum := OrderDual.toDual Finite.maximum
  maximum := OrderDual.toDual Finite.minimum
  pred x := (Finite.succ (OrderDual.ofDual x)).map OrderDual.toDual
  succ x := (Finite.pred (OrderDual.ofDual x)).map OrderDual.toDual

/-- A type with an array of its values, `const ALL: [T; n]` with first value `a`:
`succ` is `ALL.get(i + 1)` and `pred` is `i.checked_sub(1).and_then(|i| ALL.get(i))`, with
`i = ALL.iter().position(|x| x == self)`. -/
@[reducible] def Finite.array [DecidableEq α] (a : α) (all : List α) : Finite α where
  minimum := a
  maximum := (a :: all).getLast (by simp)
  pred x := if (a :: all).idxOf x = 0 then none else (a :: all)[(a :: all).idxOf x - 1]?
  succ x := (a :: all)[(a :: all).idxOf x + 1]?

end NI
