import Mathlib.Data.Sigma.Order
import Verif.Spec

/-! # Specification: implementations of `Finite` for parts of a type and for dependent fields (C153)

A user of the crate implements `Finite` (src/normalize.rs:26-38) for types of their own. -/

namespace NI

/-- The checked constructor of a wrapper, such as `char::from_u32`. -/
def checked {α : Type} (p : α → Prop) [DecidablePred p] (a : α) : Option {a // p a} :=
  if h : p a then some ⟨a, h⟩ else none

variable {α : Type} [LinearOrder α]

/-- The values from `lo` to `hi` in a wrapper whose constructor checks them, such as the hours of a day:
`succ` is `self.0.succ().and_then(Hour::new)`. -/
@[reducible] def Finite.within [Finite α] (lo hi : α) (h : lo ≤ hi) : Finite {a : α // lo ≤ a ∧ a ≤ hi} where
  minimum := ⟨lo, le_rfl, h⟩
  maximum := ⟨hi, h, le_rfl⟩
  pred x := (Finite.pred x.1).bind (checked _)
  succ x := (Finite.succ x.1).bind (checked _)

/-- The same in a wrapper whose constructor checks nothing: `MINIMUM` is `lo` and `MAXIMUM` is `hi`, and `succ` and
`pred` stop there. -/
@[reducible] def Finite.clamped [Finite α] (lo hi : α) : Finite α where
  minimum := lo
  maximum := hi
  pred x := if x ≤ lo then none else Finite.pred x
  succ x := if hi ≤ x then none else Finite.succ x

/-- All values but those from `g` to `h`, as `char` is all numbers up to `0x10FFFF` but `0xD800` to `0xDFFF`:
`succ` is `self.0.succ().and_then(|y| new(y).or_else(|| h.succ().and_then(new)))`. -/
@[reducible] def Finite.gap [Finite α] (g h : α) (hg : Finite.minimum < g) (hh : h < Finite.maximum) :
    Finite {a : α // a < g ∨ h < a} where
  minimum := ⟨Finite.minimum, .inl hg⟩
  maximum := ⟨Finite.maximum, .inr hh⟩
  pred x := (Finite.pred x.1).bind fun y => (checked _ y).or ((Finite.pred g).bind (checked _))
  succ x := (Finite.succ x.1).bind fun y => (checked _ y).or ((Finite.succ h).bind (checked _))

/-- A struct whose second field has a range that depends on the first one, such as the days of a month:
`succ` is the next value of the second field, or the first one of the next value of the first field. -/
@[reducible] def Finite.dependent {β : α → Type} [Finite α] [∀ a, Finite (β a)] : Finite (Lex (Sigma β)) where
  minimum := toLex ⟨Finite.minimum, Finite.minimum⟩
  maximum := toLex ⟨Finite.maximum, Finite.maximum⟩
  pred x := ((Finite.pred (ofLex x).2).map fun b => toLex ⟨(ofLex x).1, b⟩).or
    ((Finite.pred (ofLex x).1).map fun a => toLex ⟨a, Finite.maximum⟩)
  succ x := ((Finite.succ (ofLex x).2).map fun b => toLex ⟨(ofLex x).1, b⟩).or
    ((Finite.succ (ofLex x).1).map fun a => toLex ⟨a, Finite.minimum⟩)

end NI
