import Verif.Model.RawInterval
import Verif.Model.Normalize

/-!
# Model of the text form of `RawInterval`: `Display` and `FromStr` in `src/raw_interval.rs`

A Rust `str` is the list of its characters; `len` and slicing count UTF-8 bytes, as in Rust.
The traits `Display` and `FromStr` of the value type are the class `Text`.
-/

namespace NI

/-- A Rust string. -/
abbrev Str := List Char

/-- What `RawInterval`'s `Display` and `FromStr` use of the value type: `Display` and
`FromStr<Err = ε>`, the latter assumed not to panic. -/
class Text (α : Type _) (ε : outParam (Type _)) where
  fmt : α → Str
  parse : Str → Except ε α

/-- `str::len`: the number of UTF-8 bytes. -/
def Str.len (s : Str) : Nat := (s.map Char.utf8Size).sum

/-- `&s[..n]`: the characters that fill exactly the first `n` bytes; panics if `n` is no character
boundary. -/
def Str.sliceTo : Str → Nat → Except Panic Str
  | _, 0 => .ok []
  | [], _ + 1 => .error .slice
  | c :: s, n + 1 =>
    if c.utf8Size ≤ n + 1 then do .ok (c :: (← Str.sliceTo s (n + 1 - c.utf8Size)))
    else .error .slice

/-- `str::split_once(',')`. -/
def Str.splitComma : Str → Option (Str × Str)
  | [] => none
  | c :: s => if c = ',' then some ([], s) else (splitComma s).map fun (x, y) => (c :: x, y)

/-- src/raw_interval.rs:504-509. -/
inductive IntervalParseError (ε : Type _)
  | invalidInterval
  | invalidValue (e : ε)
  deriving DecidableEq, Repr

namespace RawInterval
variable {α ε : Type _}

/-- src/raw_interval.rs:440-457, `Display::fmt`. -/
def display [Text α ε] : RawInterval α → Str
  | empty => ['Ø']
  | point p => Text.fmt p
  | opn l r => ['('] ++ Text.fmt l ++ [','] ++ Text.fmt r ++ [')']
  | leftOpen l r => ['('] ++ Text.fmt l ++ [','] ++ Text.fmt r ++ [']']
  | rightOpen l r => ['['] ++ Text.fmt l ++ [','] ++ Text.fmt r ++ [')']
  | closed l r => ['['] ++ Text.fmt l ++ [','] ++ Text.fmt r ++ [']']
  | upTo p => ['(', '-', '∞', ','] ++ Text.fmt p ++ [')']
  | upFrom p => ['('] ++ Text.fmt p ++ [',', '∞', ')']
  | «to» p => ['(', '-', '∞', ','] ++ Text.fmt p ++ [']']
  | frm p => ['['] ++ Text.fmt p ++ [',', '∞', ')']
  | full => ['(', '-', '∞', ',', '∞', ')']

/-- `T::from_str(s).map_err(InvalidValue)?`: the continuation runs on success, an error ends
`from_str`. -/
def withValue [Text α ε] {β : Type _} (s : Str)
    (k : α → Except Panic (Except (IntervalParseError ε) β)) :
    Except Panic (Except (IntervalParseError ε) β) :=
  match Text.parse s with
  | .error e => .ok (.error (.invalidValue e))
  | .ok p => k p

/-- src/raw_interval.rs:473-483, the lower bound. -/
def parseLower [Text α ε] (x : Str) : Except Panic (Except (IntervalParseError ε) (Bound α)) :=
  if ['(', '-', '∞'].isPrefixOf x then .ok (.ok .inf)
  else match x with
    | '(' :: res => withValue res fun p => .ok (.ok (.excl p))
    | '[' :: res => withValue res fun p => .ok (.ok (.incl p))
    | _ => .ok (.error .invalidInterval)

/-- src/raw_interval.rs:485-497, the upper bound.  `y.len() - 1` is checked for underflow. -/
def parseUpper [Text α ε] (y : Str) : Except Panic (Except (IntervalParseError ε) (Bound α)) :=
  if ['∞', ')'].isSuffixOf y then .ok (.ok .inf)
  else if [')'].isSuffixOf y then do
    let n ← if 1 ≤ Str.len y then .ok (Str.len y - 1) else .error .overflow
    withValue (← Str.sliceTo y n) fun p => .ok (.ok (.excl p))
  else if [']'].isSuffixOf y then do
    let n ← if 1 ≤ Str.len y then .ok (Str.len y - 1) else .error .overflow
    withValue (← Str.sliceTo y n) fun p => .ok (.ok (.incl p))
  else .ok (.error .invalidInterval)

/-- src/raw_interval.rs:462-499, `FromStr::from_str`. -/
def fromStr [LinearOrder α] [Text α ε] (s : Str) :
    Except Panic (Except (IntervalParseError ε) (RawInterval α)) :=
  if ['Ø'].isPrefixOf s then .ok (.ok empty)
  else match (Text.parse s : Except ε α) with
    | .ok p => .ok (.ok (point p))
    | .error _ =>
      match Str.splitComma s with
      | none => .ok (.error .invalidInterval)
      | some (x, y) => do
        match ← parseLower (α := α) x with
        | .error e => .ok (.error e)
        | .ok lb =>
          match ← parseUpper (α := α) y with
          | .error e => .ok (.error e)
          | .ok ub => .ok (.ok (new lb ub))

end RawInterval

/-! ## The integer types: Rust's standard library, not part of the crate -/

/-- `core::num::IntErrorKind`, without `Zero`. -/
inductive IntError
  | empty
  | invalidDigit
  | posOverflow
  | negOverflow
  deriving DecidableEq, Repr

namespace MInt
variable {lo hi : Int}

/-- `char::to_digit(10)`. -/
def digit (c : Char) : Option Nat :=
  if '0'.toNat ≤ c.toNat ∧ c.toNat ≤ '9'.toNat then some (c.toNat - '0'.toNat) else none

/-- The loop of `from_str_radix` for positive numbers. -/
def parsePos (hi : Int) : Int → Str → Except IntError Int
  | acc, [] => .ok acc
  | acc, c :: s =>
    match digit c with
    | none => .error .invalidDigit
    | some d =>
      if acc * 10 > hi then .error .posOverflow
      else if acc * 10 + d > hi then .error .posOverflow
      else parsePos hi (acc * 10 + d) s

/-- The loop of `from_str_radix` for negative numbers. -/
def parseNeg (lo : Int) : Int → Str → Except IntError Int
  | acc, [] => .ok acc
  | acc, c :: s =>
    match digit c with
    | none => .error .invalidDigit
    | some d =>
      if acc * 10 < lo then .error .negOverflow
      else if acc * 10 - d < lo then .error .negOverflow
      else parseNeg lo (acc * 10 - d) s

/-- `from_str` of the integer type with values `lo..=hi`, signed iff `lo < 0`. -/
def parseInt (lo hi : Int) (s : Str) : Except IntError Int :=
  match s with
  | [] => .error .empty
  | ['+'] => .error .invalidDigit
  | ['-'] => .error .invalidDigit
  | '+' :: s => parsePos hi 0 s
  | '-' :: s => if lo < 0 then parseNeg lo 0 s else .error .invalidDigit
  | s => parsePos hi 0 s

/-- Decimal digits. -/
def digits (n : Nat) : Str :=
  if n < 10 then [Char.ofNat ('0'.toNat + n)]
  else digits (n / 10) ++ [Char.ofNat ('0'.toNat + n % 10)]

/-- `Display` of an integer. -/
def fmtInt (x : Int) : Str := if x < 0 then '-' :: digits x.natAbs else digits x.natAbs

/-- `from_str` as a value of the type.  `parseInt` yields numbers in range when `lo ≤ 0 ≤ hi`, as in
all of Rust's integer types, so that the last case does not occur. -/
def parse (s : Str) : Except IntError (MInt lo hi) :=
  match parseInt lo hi s with
  | .error e => .error e
  | .ok x => if h : lo ≤ x ∧ x ≤ hi then .ok ⟨x, h⟩ else .error .posOverflow

/-- The integer types as value types. -/
instance instText : Text (MInt lo hi) IntError where
  fmt x := fmtInt x.1
  parse := parse

end MInt
end NI
