import Verif.SpecContext

/-! # Specification: what becomes of one value -/

namespace NI
open _root_.NI.Finite

/-- A step of editing a selection: an interval or a selection is put in or taken out, or all is turned inside out. -/
inductive SelStep (α : Type _)
  | add (i : Interval α)
  | remove (i : Interval α)
  | union (b : Selection α)
  | minus (b : Selection α)
  | complement

variable {α : Type _} [LinearOrder α] [Finite α]

/-- The interval has a value or is empty, the selection is built by unions. -/
def SelStep.Legal : SelStep α → Prop
  | add i => i.Obtainable ∧ i.Real
  | remove i => i.Obtainable ∧ i.Real
  | union b => b.UnionBuilt
  | minus b => b.UnionBuilt
  | complement => True

/-- The steps, one after the other. -/
def Selection.steps (dbg : Bool) (s : Selection α) (cs : List (SelStep α)) : Except Panic (Selection α) :=
  cs.foldlM (fun s c => match c with
    | .add i => s.unionInPlace dbg i
    | .remove i => s.minusInPlace dbg i
    | .union b => s.union dbg b
    | .minus b => s.minus dbg b
    | .complement => s.complement dbg) s

/-- What there is around a value: between it and the value before, the value itself, and between it and the value
after. -/
structure Spot where
  before : Prop
  here : Prop
  after : Prop

namespace Spot

/-- A set reaches from each of its values halfway to the neighbours, and on to them if they are in the set. -/
def of (X : Set α) (x : α) : Spot :=
  ⟨x ∈ X ∨ ∃ p ∈ X, pred x = some p, x ∈ X, x ∈ X ∨ ∃ q ∈ X, succ x = some q⟩

def add (a b : Spot) : Spot := ⟨a.before ∨ b.before, a.here ∨ b.here, a.after ∨ b.after⟩

/-- A value that is missing alone appears when a neighbour is taken out and it is not. -/
def remove (a b : Spot) : Spot :=
  ⟨a.before ∧ ¬ b.before,
    ¬ b.here ∧ (a.here ∨ (a.before ∧ a.after ∧ (b.before ∨ b.after))),
    a.after ∧ ¬ b.after⟩

def not (a : Spot) : Spot := ⟨¬ a.before, ¬ a.here, ¬ a.after⟩

/-- What a step does to a value. -/
def step (dbg : Bool) (x : α) (a : Spot) : SelStep α → Spot
  | .add i => a.add (of i.pts x)
  | .remove i => a.remove (of i.pts x)
  | .union b => a.add (of (b.pts dbg) x)
  | .minus b => a.remove (of (b.pts dbg) x)
  | .complement => a.not

/-- What the steps do to a value. -/
def steps (dbg : Bool) (x : α) (a : Spot) (cs : List (SelStep α)) : Spot := cs.foldl (step dbg x) a

end Spot

/-- The values of a step. -/
def SelStep.pts (dbg : Bool) : SelStep α → Set α
  | add i => i.pts
  | remove i => i.pts
  | union b => b.pts dbg
  | minus b => b.pts dbg
  | complement => ∅

/-- Which kind of step it is. -/
def SelStep.kind : SelStep α → Nat
  | add _ => 0
  | remove _ => 1
  | union _ => 0
  | minus _ => 1
  | complement => 2

/-- What an interval has around a point, by its bounds. -/
def Spot.ofRaw {β : Type _} [LinearOrder β] (i : RawInterval β) (x : β) : Spot :=
  ⟨∃ l u, i.lowerBound = some l ∧ i.upperBound = some u ∧ (∀ p, l.asRef = some p → p < x) ∧ ∀ q, u.asRef = some q → x ≤ q,
    i.contains x = true,
    ∃ l u, i.lowerBound = some l ∧ i.upperBound = some u ∧ (∀ p, l.asRef = some p → p ≤ x) ∧ ∀ q, u.asRef = some q → x < q⟩

/-- What intervals have around a point together. -/
def Spot.ofRaws {β : Type _} [LinearOrder β] (is : List (RawInterval β)) (x : β) : Spot :=
  ⟨∃ i ∈ is, (ofRaw i x).before, ∃ i ∈ is, (ofRaw i x).here, ∃ i ∈ is, (ofRaw i x).after⟩

/-- What a change of a tree does to a point.  A point missing alone at an end of the removed interval comes in. -/
def Spot.change {β : Type _} [LinearOrder β] (x : β) (a : Spot) : Change (RawInterval β) → Spot
  | .add i => a.add (ofRaw i x)
  | .remove i =>
    ⟨a.before ∧ ¬ (ofRaw i x).before,
      (a.here ∧ ¬ (ofRaw i x).here) ∨ (a.before ∧ ¬ a.here ∧ a.after ∧ i.IsBound x),
      a.after ∧ ¬ (ofRaw i x).after⟩
  | .complement => a.not

end NI
