import Verif.Spec

/-! # Specification: a selection as a strip of values and joints (C154)

A plain machine for what a history of calls makes of a `Selection`: one flag for each value, whether it is in, and one
flag for each two neighbouring values, whether the two are joined.  No tree, no bounds, no order of tines. -/

namespace NI
open _root_.NI.Finite
variable {α : Type _} [LinearOrder α] [Finite α]

/-- `val x`: the value is in.  `joint x`: it is joined to the next value. -/
structure Strip (α : Type _) where
  val : α → Bool
  joint : α → Bool

/-- Whether the interval joins `x` to the next value: one of the two is in it, or it is the interval without values that
begins with the next value and ends with `x`. -/
def Interval.joins (i : Interval α) (x : α) : Bool :=
  match succ x with
  | none => false
  | some y => i.contains x || i.contains y || (decide (i.lowerBound = some (.incl y)) && decide (i.upperBound = some (.incl x)))

/-- Whether the interval begins with the next value, or ends with the one before. -/
def Interval.beside (i : Interval α) (x : α) : Bool :=
  ((succ x).any fun y => decide (i.lowerBound = some (.incl y))) || (pred x).any fun y => decide (i.upperBound = some (.incl y))

namespace Strip

def nothing : Strip α := ⟨fun _ => false, fun _ => false⟩

def everything : Strip α := ⟨fun _ => true, fun x => (succ x).isSome⟩

/-- The value is not in, but joined on both sides. -/
def hole (p : Strip α) (x : α) : Bool := !p.val x && p.joint x && (pred x).any p.joint

def add (p : Strip α) (i : Interval α) : Strip α := ⟨fun x => p.val x || i.contains x, fun x => p.joint x || i.joins x⟩

/-- The holes beside the interval become values: that is what makes `minus_in_place` wrong. -/
def remove (p : Strip α) (i : Interval α) : Strip α :=
  ⟨fun x => (p.val x && !i.contains x) || (p.hole x && i.beside x), fun x => p.joint x && !i.joins x⟩

def flip (p : Strip α) : Strip α := ⟨fun x => !p.val x, fun x => (succ x).isSome && !p.joint x⟩

def both (p q : Strip α) : Strip α := ⟨fun x => p.val x || q.val x, fun x => p.joint x || q.joint x⟩

/-- A run begins, ends or is broken at the value. -/
def edge (q : Strip α) (x : α) : Bool :=
  ((succ x).isSome && (q.val x != q.joint x)) || (pred x).any fun y => q.val x != q.joint y

/-- As `remove`, with all the runs of the other: its edges make values of holes. -/
def minus (p q : Strip α) : Strip α :=
  ⟨fun x => (p.val x && !q.val x) || (p.hole x && q.edge x), fun x => p.joint x && !q.joint x⟩

/-- The values of `q` that are not joined to either side are values of `p`, or `p` has no joint there.  (`minus` breaks the
tree otherwise, see C72.) -/
def Clear (p q : Strip α) : Prop :=
  ∀ x, q.flip.hole x = true → p.val x = true ∨ (p.joint x = false ∧ (pred x).any p.joint = false)

/-- All flags of the one are flags of the other. -/
def Within (p q : Strip α) : Prop := (∀ x, p.val x = true → q.val x = true) ∧ ∀ x, p.joint x = true → q.joint x = true

/-- No flag is one of both. -/
def Apart (p q : Strip α) : Prop := (∀ x, p.val x = true → q.val x = false) ∧ ∀ x, p.joint x = true → q.joint x = false

end Strip

/-- A program that makes a selection. -/
inductive StripProg (α : Type _)
  | new
  | full
  | add (p : StripProg α) (i : Interval α)
  | remove (p : StripProg α) (i : Interval α)
  | complement (p : StripProg α)
  | union (p q : StripProg α)
  | minus (p q : StripProg α)
  | collect (is : List (Interval α))
  | points (xs : List α)
  | extend (p : StripProg α) (is : List (Interval α))

namespace StripProg

/-- The calls of the program. -/
def run (dbg : Bool) : StripProg α → Except Panic (Selection α)
  | new => .ok .new
  | full => .ok .full
  | add p i => do (← p.run dbg).unionInPlace dbg i
  | remove p i => do (← p.run dbg).minusInPlace dbg i
  | complement p => do (← p.run dbg).complement dbg
  | union p q => do (← p.run dbg).union dbg (← q.run dbg)
  | minus p q => do (← p.run dbg).minus dbg (← q.run dbg)
  | collect is => Selection.fromIntervals dbg is
  | points xs => Selection.fromPoints dbg xs
  | extend p is => do (← p.run dbg).extend dbg is

/-- The same with the machine. -/
def strip : StripProg α → Strip α
  | new => .nothing
  | full => .everything
  | add p i => p.strip.add i
  | remove p i => p.strip.remove i
  | complement p => p.strip.flip
  | union p q => p.strip.both q.strip
  | minus p q => p.strip.minus q.strip
  | collect is => is.foldl Strip.add .nothing
  | points xs => xs.foldl (fun p x => p.add (.point x)) .nothing
  | extend p is => is.foldl Strip.add p.strip

/-- What the program should make: the set of values. -/
def meaning : StripProg α → Set α
  | new => ∅
  | full => Set.univ
  | add p i => p.meaning ∪ {x | i.contains x = true}
  | remove p i => p.meaning \ {x | i.contains x = true}
  | complement p => p.meaningᶜ
  | union p q => p.meaning ∪ q.meaning
  | minus p q => p.meaning \ q.meaning
  | collect is => {x | ∃ i ∈ is, i.contains x = true}
  | points xs => {x | x ∈ xs}
  | extend p is => p.meaning ∪ {x | ∃ i ∈ is, i.contains x = true}

/-- Only intervals that a caller can have, and no `minus` that breaks the tree. -/
def Legal : StripProg α → Prop
  | new => True
  | full => True
  | add p i => p.Legal ∧ i.Obtainable
  | remove p i => p.Legal ∧ i.Obtainable
  | complement p => p.Legal
  | union p q => p.Legal ∧ q.Legal
  | minus p q => p.Legal ∧ q.Legal ∧ p.strip.Clear q.strip
  | collect is => ∀ i ∈ is, i.Obtainable
  | points _ => True
  | extend p is => p.Legal ∧ ∀ i ∈ is, i.Obtainable

/-- No interval is removed that has a hole beside it, and no selection that has an edge at a hole. -/
def Careful : StripProg α → Prop
  | new => True
  | full => True
  | add p _ => p.Careful
  | remove p i => p.Careful ∧ ∀ x, (p.strip.hole x && i.beside x) = false
  | complement p => p.Careful
  | union p q => p.Careful ∧ q.Careful
  | minus p q => p.Careful ∧ q.Careful ∧ ∀ x, (p.strip.hole x && q.strip.edge x) = false
  | collect _ => True
  | points _ => True
  | extend p _ => p.Careful

end StripProg

/-- The programs within a program, itself among them. -/
def StripProg.stages {α : Type _} : StripProg α → List (StripProg α)
  | .new => [.new]
  | .full => [.full]
  | .add p i => .add p i :: p.stages
  | .remove p i => .remove p i :: p.stages
  | .complement p => .complement p :: p.stages
  | .union p q => .union p q :: (p.stages ++ q.stages)
  | .minus p q => .minus p q :: (p.stages ++ q.stages)
  | .collect is => [.collect is]
  | .points xs => [.points xs]
  | .extend p is => .extend p is :: p.stages

/-- Two values are in one piece: all from one to the other are in, and joined. -/
def Strip.together (p : Strip α) (x y : α) : Prop :=
  (∀ z, min x y ≤ z → z ≤ max x y → p.val z = true) ∧ ∀ z, min x y ≤ z → z < max x y → p.joint z = true

end NI
