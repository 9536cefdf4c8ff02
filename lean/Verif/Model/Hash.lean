import Verif.Model.Selection

/-!
# Model of the `Hash` derives

`#[derive(Hash)]` on `Bound` (src/bound.rs:32), `RawInterval` (src/raw_interval.rs:32), `Tine` (src/tine.rs:33),
`TineTree` (src/tine_tree.rs:47), `Interval` (src/interval.rs:47) and `Selection` (src/selection.rs:36).  The derived
code writes values into a hasher; the model is the list of what is written.  For an enum that is the index of the
variant, then the fields in order; for a struct the fields.  The hasher that reads the list is not modelled.
-/

namespace NI

/-- What is written into a hasher. -/
inductive HashWrite
  /-- `write_isize` with the index of an enum variant -/
  | variant (n : Nat)
  /-- `write_length_prefix`, from the standard library's `Hash for BTreeSet` -/
  | len (n : Nat)
  /-- `write_u8`, `write_i32` …: the value of an element -/
  | val (n : Int)
  deriving DecidableEq, Repr

/-- `T: Hash`. -/
class Hashes (α : Type _) where
  feed : α → List HashWrite

namespace Bound
variable {α : Type _} [Hashes α]

/-- Derived from src/bound.rs:34-41. -/
def feed : Bound α → List HashWrite
  | incl v => .variant 0 :: Hashes.feed v
  | excl v => .variant 1 :: Hashes.feed v
  | inf => [.variant 2]

end Bound

namespace RawInterval
variable {α : Type _} [Hashes α]

/-- Derived from src/raw_interval.rs:34-61. -/
def feed : RawInterval α → List HashWrite
  | empty => [.variant 0]
  | point p => .variant 1 :: Hashes.feed p
  | opn l r => .variant 2 :: (Hashes.feed l ++ Hashes.feed r)
  | leftOpen l r => .variant 3 :: (Hashes.feed l ++ Hashes.feed r)
  | rightOpen l r => .variant 4 :: (Hashes.feed l ++ Hashes.feed r)
  | closed l r => .variant 5 :: (Hashes.feed l ++ Hashes.feed r)
  | upTo p => .variant 6 :: Hashes.feed p
  | upFrom p => .variant 7 :: Hashes.feed p
  | to p => .variant 8 :: Hashes.feed p
  | frm p => .variant 9 :: Hashes.feed p
  | full => [.variant 10]

end RawInterval

namespace Tine
variable {α : Type _} [Hashes α]

/-- Derived from src/tine.rs:35-42. -/
def feed : Tine α → List HashWrite
  | lower b => .variant 0 :: b.feed
  | point b => .variant 1 :: b.feed
  | upper b => .variant 2 :: b.feed

end Tine

/-- Derived from src/tine_tree.rs:47-52; the standard library's `Hash for BTreeSet` writes the length, then the
elements in order. -/
def TineTree.feed {α : Type _} [Hashes α] (t : TineTree α) : List HashWrite :=
  .len t.length :: t.flatMap Tine.feed

/-- Derived from src/interval.rs:47-50. -/
def Interval.feed {α : Type _} [Hashes α] (i : Interval α) : List HashWrite := i.raw.feed

/-- Derived from src/selection.rs:36-42. -/
def Selection.feed {α : Type _} [Hashes α] (s : Selection α) : List HashWrite := s.tree.feed

end NI
