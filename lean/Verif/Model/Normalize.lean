import Verif.Model.RawInterval
import Mathlib.Order.Lattice
import Mathlib.Data.Int.Order.Basic
import Mathlib.Logic.Basic

/-! # Model of `src/normalize.rs` -/

namespace NI

/-- src/normalize.rs:26-38, `trait Finite`.  No laws: see `LawfulFinite` in `Verif.Spec`. -/
class Finite (α : Type _) where
  minimum : α
  maximum : α
  pred : α → Option α
  succ : α → Option α

namespace RawInterval
variable {α : Type _} [Finite α]
open Finite

/-- src/normalize.rs:81-99, `normalize` (and `normalized`, 56-59). -/
def normalized : RawInterval α → RawInterval α
  | empty => empty
  | point p => point p
  | opn l r =>
    match succ l, pred r with
    | some l, some r => closed l r
    | _, _ => empty
  | leftOpen l r => (succ l).elim empty fun l => closed l r
  | rightOpen l r => (pred r).elim empty fun r => closed l r
  | closed l r => closed l r
  | upTo r => (pred r).elim empty fun r => closed minimum r
  | upFrom l => (succ l).elim empty fun l => closed l maximum
  | to p => closed minimum p
  | frm p => closed p maximum
  | full => closed minimum maximum

/-- src/normalize.rs:101-132, `denormalize` (and `denormalized`, 63-66). -/
def denormalized : RawInterval α → RawInterval α
  | empty => empty
  | point p =>
    match pred p, succ p with
    | some l, some r => opn l r
    | some l, none => upFrom l
    | none, some r => upTo r
    | none, none => full
  | opn l r => opn l r
  | leftOpen l r =>
    match succ r with
    | some r => opn l r
    | none => upFrom l
  | rightOpen l r =>
    match pred l with
    | some l => opn l r
    | none => upTo r
  | closed l r =>
    match pred l, succ r with
    | some l, some r => opn l r
    | some l, none => upFrom l
    | none, some r => upTo r
    | none, none => full
  | upTo r => upTo r
  | upFrom l => upFrom l
  | to p => (pred p).elim empty fun r => upTo r
  | frm p => (succ p).elim empty fun l => upFrom l
  | full => full

end RawInterval

/-- The integers `lo..=hi` of a fixed-width machine type. -/
abbrev MInt (lo hi : Int) := { x : Int // lo ≤ x ∧ x ≤ hi }

namespace MInt
variable {lo hi : Int}

/-- `a - b` on a machine integer as an unchecked value: `none` is overflow (panic in debug builds,
wrap-around in release builds). -/
def checkedSub (a : MInt lo hi) (b : Int) : Option (MInt lo hi) :=
  if h : lo ≤ a.1 - b ∧ a.1 - b ≤ hi then some ⟨a.1 - b, h⟩ else none

/-- `a + b`, as `checkedSub`. -/
def checkedAdd (a : MInt lo hi) (b : Int) : Option (MInt lo hi) :=
  if h : lo ≤ a.1 + b ∧ a.1 + b ≤ hi then some ⟨a.1 + b, h⟩ else none

/-- src/normalize.rs:148-150, `pred`: `(*self != MIN).then(|| self - 1)`.  The outer `Option` is the
overflow of `self - 1`. -/
def predRaw (a : MInt lo hi) : Option (Option (MInt lo hi)) :=
  if a.1 ≠ lo then (a.checkedSub 1).map some else some none

/-- src/normalize.rs:152-154, `succ`. -/
def succRaw (a : MInt lo hi) : Option (Option (MInt lo hi)) :=
  if a.1 ≠ hi then (a.checkedAdd 1).map some else some none

end MInt

/-- src/normalize.rs:141-163: the instance of every machine integer type.  An overflow of
`self ± 1` would show up as `none`; theorem C20 proves that it never happens. -/
instance instFiniteMInt {lo hi : Int} [h : Fact (lo ≤ hi)] : Finite (MInt lo hi) where
  minimum := ⟨lo, Int.le_refl _, h.out⟩
  maximum := ⟨hi, h.out, Int.le_refl _⟩
  pred a := (MInt.predRaw a).getD none
  succ a := (MInt.succRaw a).getD none

/-- src/normalize.rs:160-163, the listed integer types (`usize`/`isize` on a 64-bit target). -/
abbrev U8 := MInt 0 255
abbrev U16 := MInt 0 65535
abbrev U32 := MInt 0 4294967295
abbrev U64 := MInt 0 18446744073709551615
abbrev U128 := MInt 0 340282366920938463463374607431768211455
abbrev Usize := U64
abbrev I8 := MInt (-128) 127
abbrev I16 := MInt (-32768) 32767
abbrev I32 := MInt (-2147483648) 2147483647
abbrev I64 := MInt (-9223372036854775808) 9223372036854775807
abbrev I128 := MInt (-170141183460469231731687303715884105728)
  170141183460469231731687303715884105727
abbrev Isize := I64

instance : Fact ((0 : Int) ≤ 255) := ⟨by decide⟩
instance : Fact ((0 : Int) ≤ 65535) := ⟨by decide⟩
instance : Fact ((0 : Int) ≤ 4294967295) := ⟨by decide⟩
instance : Fact ((0 : Int) ≤ 18446744073709551615) := ⟨by decide⟩
instance : Fact ((0 : Int) ≤ 340282366920938463463374607431768211455) := ⟨by decide⟩
instance : Fact ((-128 : Int) ≤ 127) := ⟨by decide⟩
instance : Fact ((-32768 : Int) ≤ 32767) := ⟨by decide⟩
instance : Fact ((-2147483648 : Int) ≤ 2147483647) := ⟨by decide⟩
instance : Fact ((-9223372036854775808 : Int) ≤ 9223372036854775807) := ⟨by decide⟩
instance : Fact ((-170141183460469231731687303715884105728 : Int) ≤
    170141183460469231731687303715884105727) := ⟨by decide⟩

/-- Literals. -/
def MInt.lit {lo hi : Int} (x : Int) (h : lo ≤ x ∧ x ≤ hi := by decide) : MInt lo hi := ⟨x, h⟩

end NI
