import Verif.Spec

/-! # Specification: telling two values apart by what can be done with them -/

namespace NI

/-- A change of a tree or selection. -/
inductive Change (ι : Type _)
  | add (i : ι)
  | remove (i : ι)
  | complement
  deriving DecidableEq, Repr

namespace Change
variable {ι : Type _}

/-- The interval of a change, if any, is as required. -/
def Uses (p : ι → Prop) : Change ι → Prop
  | add i => p i
  | remove i => p i
  | complement => True

/-- No interval is taken out. -/
def Keeps : Change ι → Prop
  | remove _ => False
  | _ => True

end Change

variable {α : Type _} [LinearOrder α]

/-- Changes of a `TineTree`, one after the other, by `union_in_place`, `minus_in_place` and `complement`. -/
def TineTree.changes (dbg : Bool) (t : TineTree α) (cs : List (Change (RawInterval α))) : Except Panic (TineTree α) :=
  cs.foldlM (fun t c => match c with
    | .add i => t.unionInPlace dbg i
    | .remove i => t.minusInPlace dbg i
    | .complement => t.complement dbg) t

/-- Changes of a `Selection`, one after the other, by `union_in_place`, `minus_in_place` and `complement`. -/
def Selection.changes [Finite α] (dbg : Bool) (s : Selection α) (cs : List (Change (Interval α))) :
    Except Panic (Selection α) :=
  cs.foldlM (fun s c => match c with
    | .add i => s.unionInPlace dbg i
    | .remove i => s.minusInPlace dbg i
    | .complement => s.complement dbg) s

/-- What a user sees of a value after some changes: is `x` in it? -/
def TineTree.sees (dbg : Bool) (t : TineTree α) (cs : List (Change (RawInterval α))) (x : α) : Except Panic Bool := do
  (← t.changes dbg cs).contains dbg x

/-- What a user sees of a value after some changes: is `x` in it? -/
def Selection.sees [Finite α] (dbg : Bool) (s : Selection α) (cs : List (Change (Interval α))) (x : α) :
    Except Panic Bool := do
  (← s.changes dbg cs).contains dbg x

end NI
