import Verif.SpecPad

/-! # Specification: rounding a selection to blocks such as pages or days (C148) -/

namespace NI
variable {α β : Type _} [LinearOrder α] [Finite α] [LinearOrder β] [Finite β]

/-- `Interval::closed(f(i.infimum().unwrap()), g(i.supremum().unwrap()))`, in another type of points. -/
def Interval.mapEnds (f g : α → β) (i : Interval α) : Except Panic (Interval β) :=
  match i.infimum, i.supremum with
  | some l, some u => .ok (.mkClosed (f l) (g u))
  | _, _ => .error .expect

/-- `s.interval_iter().map(|i| ..).collect()` with this. -/
def Selection.mapEnds (dbg : Bool) (f g : α → β) (s : Selection α) : Except Panic (Selection β) := do
  Selection.fromIntervals dbg (← (← s.intervals dbg).mapM (Interval.mapEnds f g))

/-- The blocks a selection has a value of, where `f x` is the block of `x`. -/
def Selection.blocks (dbg : Bool) (f : α → β) (s : Selection α) : Except Panic (Selection β) := s.mapEnds dbg f f

/-- The blocks a selection has all values of, by way of the complements. -/
def Selection.wholeBlocks (dbg : Bool) (f : α → β) (s : Selection α) : Except Panic (Selection β) := do
  (← (← s.complement dbg).blocks dbg f).complement dbg

/-- Rounding out to blocks: the blocks touched, each from its first to its last value. -/
def Selection.roundOut (dbg : Bool) (f : α → β) (first last : β → α) (s : Selection α) : Except Panic (Selection α) := do
  (← s.blocks dbg f).mapEnds dbg first last

/-- Rounding in to blocks, by way of the complements. -/
def Selection.roundIn (dbg : Bool) (f : α → β) (first last : β → α) (s : Selection α) : Except Panic (Selection α) := do
  (← (← s.complement dbg).roundOut dbg f first last).complement dbg

/-- `f` sends every range of values onto the range of blocks between those of its ends. -/
def BlockMap (f : α → β) : Prop := ∀ l u, l ≤ u → f '' Set.Icc l u = Set.Icc (f l) (f u)

/-- The values of the blocks from `b` to `c` are those from `first b` to `last c`. -/
def BlockEnds (f : α → β) (first last : β → α) : Prop :=
  ∀ b ∈ Set.range f, ∀ c ∈ Set.range f, b ≤ c → f ⁻¹' Set.Icc b c = Set.Icc (first b) (last c)

variable {lo hi : Int} [Fact (lo ≤ hi)]

/-- `x.div_euclid(k)`, which is `x / k` for unsigned types: the number of the block of `x`, for blocks of `k` values. -/
def MInt.block (k x : MInt lo hi) : MInt lo hi := .clamp (x.1 / k.1)

/-- The first value of the block `b`, or the least value of the type. -/
def MInt.blockFirst (k b : MInt lo hi) : MInt lo hi := .clamp (b.1 * k.1)

/-- The last value of the block `b`, or the greatest value of the type. -/
def MInt.blockLast (k b : MInt lo hi) : MInt lo hi := .clamp (b.1 * k.1 + k.1 - 1)

end NI
