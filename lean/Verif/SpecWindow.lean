import Verif.SpecStrip

/-! # Specification: a window of received numbers (C155)

What a receiver of numbered packets, or a reader of a log, may write: numbers that have come are added, and those up to a number that
has been dealt with are dropped. -/

namespace NI
open _root_.NI.Finite

/-- The calls of a receiver. -/
inductive WindowCall (α : Type _)
  | receive (i : Interval α)
  | drop (x : α)

variable {α : Type _} [LinearOrder α] [Finite α]

/-- The numbers that should be in the window. -/
def windowSet (W : Set α) : List (WindowCall α) → Set α
  | [] => W
  | .receive i :: cs => windowSet (W ∪ i.pts) cs
  | .drop x :: cs => windowSet (W \ Set.Iic x) cs

/-- The last number up to which was dropped. -/
def windowMark (m : Option α) : List (WindowCall α) → Option α
  | [] => m
  | .receive _ :: cs => windowMark m cs
  | .drop x :: cs => windowMark (some x) cs

/-- The number after `x` is missing, and only this one. -/
def LoneGapAfter (W : Set α) (x : α) : Prop := x ∈ W ∧ ∃ y z, succ x = some y ∧ succ y = some z ∧ y ∉ W ∧ z ∈ W

/-- Never less far is dropped than before, and never up to just before a lone gap. -/
inductive CarefulWindow : Option α → Set α → List (WindowCall α) → Prop
  | nil m W : CarefulWindow m W []
  | receive {m W i cs} : CarefulWindow m (W ∪ i.pts) cs → CarefulWindow m W (.receive i :: cs)
  | drop {m W x cs} : (∀ d ∈ m, d ≤ x) → ¬ LoneGapAfter W x → CarefulWindow (some x) (W \ Set.Iic x) cs →
      CarefulWindow m W (.drop x :: cs)

/-- `s.minus_in_place(Interval::unbounded_to(x))`. -/
def Selection.dropInPlace (dbg : Bool) (s : Selection α) (x : α) : Except Panic (Selection α) := s.minusInPlace dbg (.unboundedTo x)

/-- `let mut c = s.complement(); c.union_in_place(Interval::unbounded_to(x)); c.complement()`. -/
def Selection.dropByComplement (dbg : Bool) (s : Selection α) (x : α) : Except Panic (Selection α) := do
  (← (← s.complement dbg).unionInPlace dbg (.unboundedTo x)).complement dbg

/-- The calls with a selection, received numbers by `union_in_place`. -/
def Selection.window (drop : Selection α → α → Except Panic (Selection α)) (dbg : Bool) (s : Selection α) :
    List (WindowCall α) → Except Panic (Selection α)
  | [] => .ok s
  | .receive i :: cs => do (← s.unionInPlace dbg i).window drop dbg cs
  | .drop x :: cs => do (← drop s x).window drop dbg cs

end NI
