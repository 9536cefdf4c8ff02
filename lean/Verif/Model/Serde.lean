import Verif.Model.Selection

/-!
# Model of the serde derives (feature `serde`)

`#[derive(Serialize, Deserialize)]` on `Bound` (src/bound.rs:33), `RawInterval` (src/raw_interval.rs:33),
`Tine` (src/tine.rs:34), `TineTree` (src/tine_tree.rs:48-51), `Interval` (src/interval.rs:48-49) and
`Selection` (src/selection.rs:38-41).  The derived code maps a value to serde's data model and back; the
file format between the two is not modelled and trusted to give back what it was given.  No derive has
a `try_from`, so nothing is checked beyond the shape of the data.
-/

namespace NI

/-- The part of serde's data model that the derives use (a sequence, used for `BTreeSet` only, is a list of
these).  Integers stand for everything a format has to offer for the element type. -/
inductive Data
  | int (n : Int)
  | unitVariant (name : String)
  | newtypeVariant (name : String) (value : Data)
  | tupleVariant (name : String) (fst snd : Data)
  deriving DecidableEq, Repr

/-- `T: Serialize + Deserialize`. -/
class Serde (α : Type _) where
  ser : α → Data
  de : Data → Option α

export Serde (ser de)

namespace Bound
variable {α : Type _} [Serde α]

/-- Derived from src/bound.rs:34-41. -/
def ser : Bound α → Data
  | incl v => .newtypeVariant "Include" (Serde.ser v)
  | excl v => .newtypeVariant "Exclude" (Serde.ser v)
  | inf => .unitVariant "Infinite"

/-- Derived from src/bound.rs:34-41. -/
def de : Data → Option (Bound α)
  | .newtypeVariant "Include" d => (Serde.de d).map incl
  | .newtypeVariant "Exclude" d => (Serde.de d).map excl
  | .unitVariant "Infinite" => some inf
  | _ => none

end Bound

namespace RawInterval
variable {α : Type _} [Serde α]

/-- Derived from src/raw_interval.rs:34-61. -/
def ser : RawInterval α → Data
  | empty => .unitVariant "Empty"
  | point p => .newtypeVariant "Point" (Serde.ser p)
  | opn l r => .tupleVariant "Open" (Serde.ser l) (Serde.ser r)
  | leftOpen l r => .tupleVariant "LeftOpen" (Serde.ser l) (Serde.ser r)
  | rightOpen l r => .tupleVariant "RightOpen" (Serde.ser l) (Serde.ser r)
  | closed l r => .tupleVariant "Closed" (Serde.ser l) (Serde.ser r)
  | upTo p => .newtypeVariant "UpTo" (Serde.ser p)
  | upFrom p => .newtypeVariant "UpFrom" (Serde.ser p)
  | to p => .newtypeVariant "To" (Serde.ser p)
  | frm p => .newtypeVariant "From" (Serde.ser p)
  | full => .unitVariant "Full"

/-- The two fields of a tuple variant. -/
def de2 (f : α → α → RawInterval α) (l r : Data) : Option (RawInterval α) := do
  let l ← Serde.de l
  let r ← Serde.de r
  some (f l r)

/-- Derived from src/raw_interval.rs:34-61. -/
def de : Data → Option (RawInterval α)
  | .unitVariant "Empty" => some empty
  | .newtypeVariant "Point" d => (Serde.de d).map point
  | .tupleVariant "Open" l r => de2 opn l r
  | .tupleVariant "LeftOpen" l r => de2 leftOpen l r
  | .tupleVariant "RightOpen" l r => de2 rightOpen l r
  | .tupleVariant "Closed" l r => de2 closed l r
  | .newtypeVariant "UpTo" d => (Serde.de d).map upTo
  | .newtypeVariant "UpFrom" d => (Serde.de d).map upFrom
  | .newtypeVariant "To" d => (Serde.de d).map to
  | .newtypeVariant "From" d => (Serde.de d).map frm
  | .unitVariant "Full" => some full
  | _ => none

end RawInterval

namespace Tine
variable {α : Type _} [Serde α]

/-- Derived from src/tine.rs:35-42. -/
def ser : Tine α → Data
  | lower b => .newtypeVariant "Lower" b.ser
  | point b => .newtypeVariant "Point" b.ser
  | upper b => .newtypeVariant "Upper" b.ser

/-- Derived from src/tine.rs:35-42. -/
def de : Data → Option (Tine α)
  | .newtypeVariant "Lower" d => (Bound.de d).map lower
  | .newtypeVariant "Point" d => (Bound.de d).map point
  | .newtypeVariant "Upper" d => (Bound.de d).map upper
  | _ => none

end Tine

/-- `BTreeSet::insert` with the panic of `Tine::cmp` (src/tine.rs:305, 313) kept.  The search is modelled as
one from the left, which is what it is in a tree of one node (at most 11 elements); in a bigger tree the
elements compared are fewer. -/
def BSet.insert? {α : Type _} [LinearOrder α] (x : Tine α) :
    List (Tine α) → Except Panic (List (Tine α))
  | [] => .ok [x]
  | y :: ys =>
    match x.cmp? y with
    | some .lt => .ok (x :: y :: ys)
    | some .eq => .ok (y :: ys)
    | some .gt => do .ok (y :: (← insert? x ys))
    | none => .error .unreachable

namespace TineTree
variable {α : Type _} [LinearOrder α] [Serde α]

/-- src/tine_tree.rs:48-52, `transparent`: the sequence of the tines. -/
def ser (t : TineTree α) : List Data := t.map Tine.ser

/-- serde's `Deserialize for BTreeSet`: read an element, insert it, until the sequence ends. -/
def deAux : List Data → List (Tine α) → Except Panic (Option (TineTree α))
  | [], t => .ok (some t)
  | d :: ds, t =>
    match Tine.de d with
    | none => .ok none
    | some x => do deAux ds (← BSet.insert? x t)

/-- src/tine_tree.rs:48-52. -/
def de (ds : List Data) : Except Panic (Option (TineTree α)) := deAux ds []

end TineTree

namespace Interval
variable {α : Type _} [Serde α]

/-- src/interval.rs:48-50, `transparent`. -/
def ser (i : Interval α) : Data := i.raw.ser

/-- src/interval.rs:48-50, `transparent`: the interval is not normalized. -/
def de (d : Data) : Option (Interval α) := (RawInterval.de d).map Interval.mk

end Interval

namespace Selection
variable {α : Type _} [LinearOrder α] [Serde α]

/-- src/selection.rs:38-42, `transparent`. -/
def ser (s : Selection α) : List Data := s.tree.ser

/-- src/selection.rs:38-42, `transparent`. -/
def de (ds : List Data) : Except Panic (Option (Selection α)) := do
  .ok ((← TineTree.de ds).map Selection.mk)

end Selection
end NI
