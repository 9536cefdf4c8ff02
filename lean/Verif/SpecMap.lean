import Verif.Model.Selection
import Mathlib.Order.Hom.Basic

/-! # Replacing the values in intervals and trees -/

namespace NI
variable {α β : Type _}

/-- The interval with other values in the same places. -/
def RawInterval.map (f : α → β) : RawInterval α → RawInterval β
  | .empty => .empty
  | .point p => .point (f p)
  | .opn l r => .opn (f l) (f r)
  | .leftOpen l r => .leftOpen (f l) (f r)
  | .rightOpen l r => .rightOpen (f l) (f r)
  | .closed l r => .closed (f l) (f r)
  | .upTo p => .upTo (f p)
  | .upFrom p => .upFrom (f p)
  | .to p => .to (f p)
  | .frm p => .frm (f p)
  | .full => .full

/-- The tine with another value. -/
def Tine.map (f : α → β) : Tine α → Tine β
  | .lower b => .lower (b.map f)
  | .point b => .point (b.map f)
  | .upper b => .upper (b.map f)

/-- The tree with other values in the same places. -/
def TineTree.map (f : α → β) (t : TineTree α) : TineTree β := List.map (Tine.map f) t

/-- The normalized interval with other values in the same places. -/
def Interval.map (f : α → β) (i : Interval α) : Interval β := ⟨i.raw.map f⟩

/-- The selection with other values in the same places. -/
def Selection.map (f : α → β) (s : Selection α) : Selection β := ⟨s.tree.map f⟩

/-- The iterator over the intervals of a tree, with other values in the same places. -/
def TineIter.map (f : α → β) (it : TineIter α) : TineIter β :=
  ⟨it.tines.map (Tine.map f), it.savedLower.map (Tine.map f), it.savedUpper.map (Tine.map f)⟩

/-- The iterator over the points of a selection, with other values in the same places. -/
def PointIter.map (f : α → β) (it : PointIter α) : PointIter β := ⟨it.intervals.map f, it.current.map f⟩

/-- A renaming of the values that keeps their order and carries the smallest value, the greatest value and
the neighbours of a value over to those of the other type. -/
structure Renames [LinearOrder α] [LinearOrder β] [Finite α] [Finite β] (g : α ↪o β) : Prop where
  minimum : (Finite.minimum : β) = g Finite.minimum
  maximum : (Finite.maximum : β) = g Finite.maximum
  pred : ∀ x, Finite.pred (g x) = (Finite.pred x).map g
  succ : ∀ x, Finite.succ (g x) = (Finite.succ x).map g

end NI
