import Verif.SpecMap
import Mathlib.Order.Monotone.Basic

/-! # Mirror images of intervals and trees under a decreasing function -/

namespace NI
variable {α β : Type _}

/-- The interval with its ends exchanged and other values in their places. -/
def RawInterval.mirror (f : α → β) : RawInterval α → RawInterval β
  | .empty => .empty
  | .point p => .point (f p)
  | .opn l r => .opn (f r) (f l)
  | .leftOpen l r => .rightOpen (f r) (f l)
  | .rightOpen l r => .leftOpen (f r) (f l)
  | .closed l r => .closed (f r) (f l)
  | .upTo p => .upFrom (f p)
  | .upFrom p => .upTo (f p)
  | .to p => .frm (f p)
  | .frm p => .to (f p)
  | .full => .full

/-- The tine facing the other way. -/
def Tine.mirror (f : α → β) : Tine α → Tine β
  | .lower b => .upper (b.map f)
  | .point b => .point (b.map f)
  | .upper b => .lower (b.map f)

/-- The tree read from the other end. -/
def TineTree.mirror (f : α → β) (t : TineTree α) : TineTree β := (List.map (Tine.mirror f) t).reverse

/-- The interval with its ends exchanged and other values in their places. -/
def Interval.mirror (f : α → β) (i : Interval α) : Interval β := ⟨i.raw.mirror f⟩

/-- The selection read from the other end. -/
def Selection.mirror (f : α → β) (s : Selection α) : Selection β := ⟨s.tree.mirror f⟩

/-- `f` turns the order around and exchanges the ends and the two neighbours of every value. -/
structure Reflects [LinearOrder α] [LinearOrder β] [Finite α] [Finite β] (f : α → β) : Prop where
  anti : StrictAnti f
  minimum : (Finite.minimum : β) = f Finite.maximum
  maximum : (Finite.maximum : β) = f Finite.minimum
  pred : ∀ x, Finite.pred (f x) = (Finite.succ x).map f
  succ : ∀ x, Finite.succ (f x) = (Finite.pred x).map f

end NI
