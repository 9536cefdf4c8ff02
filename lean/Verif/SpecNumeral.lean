import Verif.Model.Parse
import Verif.Spec

/-! # Specification: the numbers written in the text of an interval (C140) -/

namespace NI

/-- The number written by decimal digits, `n` being the number written by those before. -/
def Str.decimalFrom (n : Nat) : Str → Option Nat
  | [] => some n
  | c :: s =>
    match ['0', '1', '2', '3', '4', '5', '6', '7', '8', '9'].idxOf? c with
    | none => none
    | some d => decimalFrom (10 * n + d) s

/-- The number written by one or more decimal digits. -/
def Str.decimal (s : Str) : Option Nat := if s = [] then none else Str.decimalFrom 0 s

/-- The numbers written in decimal digits, with a plus sign or not; with a minus sign if `signed`. -/
inductive Numeral (signed : Prop) : Str → Int → Prop
  | plain {s : Str} {n : Nat} : s.decimal = some n → Numeral signed s n
  | plus {s : Str} {n : Nat} : s.decimal = some n → Numeral signed ('+' :: s) n
  | minus {s : Str} {n : Nat} : signed → s.decimal = some n → Numeral signed ('-' :: s) (-n)

/-- What an opening bracket makes of a number. -/
def Bound.opening {α : Type} (c : Char) (x : α) : Bound α := if c = '[' then .incl x else .excl x

/-- What a closing bracket makes of a number. -/
def Bound.closing {α : Type} (c : Char) (x : α) : Bound α := if c = ']' then .incl x else .excl x

end NI
