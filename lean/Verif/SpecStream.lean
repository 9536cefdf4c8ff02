import Verif.Model.Selection
import Verif.Spec

/-! # Putting a stream together from segments (C132)

A receiver gets segments `a..=b` of a stream in any order, some of them twice, and passes on what follows without a gap
on what it has passed on before. -/

namespace NI
open _root_.NI.Finite

section
variable {α : Type} [LinearOrder α]

/-- What can be passed on if `R` has been received. -/
def Ready (R : Set α) : Set α := {x | ∀ y, y ≤ x → y ∈ R}

/-- What the receiver is to do, in terms of the set `R` of what it has received: to pass on for each segment just what
has become ready with it. -/
inductive StreamRun : Set α → List (α × α) → List (Option (Interval α)) → Prop
  | nil R : StreamRun R [] []
  | wait {R a b cs os} : Ready (R ∪ Set.Icc a b) = Ready R → StreamRun (R ∪ Set.Icc a b) cs os →
      StreamRun R ((a, b) :: cs) (none :: os)
  | pass {R a b i cs os} : i.pts.Nonempty → i.pts = Ready (R ∪ Set.Icc a b) \ Ready R →
      StreamRun (R ∪ Set.Icc a b) cs os → StreamRun R ((a, b) :: cs) (some i :: os)

/-- What has been received in the end. -/
def received (R : Set α) (cs : List (α × α)) : Set α := R ∪ {x | ∃ c ∈ cs, x ∈ Set.Icc c.1 c.2}

variable [Finite α]

/-- If the part passed on with a segment is followed by one missing value and more that has been received, the next
segment, if one comes, brings that value. -/
def FilledAtOnce (R : Set α) (cs : List (α × α)) : Prop :=
  ∀ k d, cs[k + 1]? = some d → ∀ x p q, pred x = some p → succ x = some q → x ∉ received R (cs.take (k + 1)) →
    p ∈ Ready (received R (cs.take (k + 1))) → p ∉ Ready (received R (cs.take k)) →
    q ∈ received R (cs.take (k + 1)) → x ∈ Set.Icc d.1 d.2

/-- The receiver keeps what it has received and not passed on, and the next value to be passed on (none if all have
been).
It cuts off what it has passed on, adds the segment by `union_in_place`, and if the first interval of `interval_iter()`
contains the next value, it passes the interval on and takes it out. -/
def Selection.reassemble (takeOut : Selection α → Interval α → Except Panic (Selection α)) (dbg : Bool) :
    Selection α → Option α → List (α × α) → Except Panic (List (Option (Interval α)))
  | _, _, [] => .ok []
  | p, none, _ :: cs => do return none :: (← reassemble takeOut dbg p none cs)
  | p, some n, (a, b) :: cs => do
    let p1 ← p.unionInPlace dbg (.mkClosed (max a n) b)
    match ← p1.intervals dbg with
    | [] => return none :: (← reassemble takeOut dbg p1 (some n) cs)
    | i :: _ =>
      if i.contains n then
        return some i :: (← reassemble takeOut dbg (← takeOut p1 i) (i.supremum.bind succ) cs)
      else return none :: (← reassemble takeOut dbg p1 (some n) cs)

/-- The receiver keeps all it has received, and passes on what of the first interval it has not passed on before. -/
def Selection.reassembleAll (dbg : Bool) :
    Selection α → Option α → List (α × α) → Except Panic (List (Option (Interval α)))
  | _, _, [] => .ok []
  | s, none, _ :: cs => do return none :: (← reassembleAll dbg s none cs)
  | s, some n, (a, b) :: cs => do
    let s1 ← s.unionInPlace dbg (.mkClosed a b)
    match ← s1.intervals dbg with
    | [] => return none :: (← reassembleAll dbg s1 (some n) cs)
    | i :: _ =>
      match i.supremum with
      | some u =>
        if i.contains n then
          return some (.mkClosed n u) :: (← reassembleAll dbg s1 (succ u) cs)
        else return none :: (← reassembleAll dbg s1 (some n) cs)
      | none => return none :: (← reassembleAll dbg s1 (some n) cs)

/-- `minus_in_place` takes out. -/
def Selection.outInPlace (dbg : Bool) (s : Selection α) (i : Interval α) : Except Panic (Selection α) :=
  s.minusInPlace dbg i

/-- `complement`, `union_in_place` and `complement` take out. -/
def Selection.outByComplement (dbg : Bool) (s : Selection α) (i : Interval α) : Except Panic (Selection α) := do
  (← (← s.complement dbg).unionInPlace dbg i).complement dbg
end

end NI
