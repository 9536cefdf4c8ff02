import Verif.Spec

/-! # Specification: a selection as a pool of free numbers

The usual way of handing out numbers: the least free one is taken, and later given back.
-/

namespace NI

/-- The calls of the users of a pool. -/
inductive PoolCall (α : Type _)
  | take
  | give (x : α)
  deriving DecidableEq, Repr

/-- What the users of a pool rely on, in terms of the set of free numbers: `take` hands out the least free number,
which then is free no more, or nothing if there is none; what is given back is free. -/
inductive PoolRun {α : Type _} [LinearOrder α] : Set α → List (PoolCall α) → List (Option α) → Set α → Prop
  | nil F : PoolRun F [] [] F
  | take {F x cs os F'} : IsLeast F x → PoolRun (F \ {x}) cs os F' → PoolRun F (.take :: cs) (some x :: os) F'
  | out {F cs os F'} : F = ∅ → PoolRun F cs os F' → PoolRun F (.take :: cs) (none :: os) F'
  | give {F x cs os F'} : PoolRun (F ∪ {x}) cs os F' → PoolRun F (.give x :: cs) (none :: os) F'

/-- Users who give back only the number they were handed out last of those they have. -/
inductive StackUse {α : Type _} : List α → List (PoolCall α) → List (Option α) → Prop
  | nil st : StackUse st [] []
  | take {st x cs os} : StackUse (x :: st) cs os → StackUse st (.take :: cs) (some x :: os)
  | out {st cs os} : StackUse st cs os → StackUse st (.take :: cs) (none :: os)
  | give {st x cs os} : StackUse st cs os → StackUse (x :: st) (.give x :: cs) (none :: os)

/-- What has happened to the numbers, the latest first: `false` for handed out, `true` for given back. -/
def poolEvents {α : Type _} : List (α × Bool) → List (PoolCall α) → List (Option α) → List (α × Bool)
  | h, .take :: cs, some x :: os => poolEvents ((x, false) :: h) cs os
  | h, .take :: cs, none :: os => poolEvents h cs os
  | h, .give x :: cs, _ :: os => poolEvents ((x, true) :: h) cs os
  | h, _, _ => h

/-- The latest that has happened to one of the numbers. -/
def latest {α : Type _} (h : List (α × Bool)) (P : α → Bool) : Option Bool := (h.find? fun e => P e.1).map (·.2)

variable {α : Type _} [LinearOrder α] [Finite α]

/-- The number is in use. -/
def HandedOut (h : List (α × Bool)) (x : α) : Prop := latest h (fun n => decide (n = x)) = some false

/-- The number after `x` is in use, and `x` and the number after it have been given back since it was handed out. -/
def Wedged (h : List (α × Bool)) (x : α) : Prop :=
  ∃ y z, Finite.succ x = some y ∧ Finite.succ y = some z ∧ HandedOut h y ∧
    latest h (fun n => decide (n = x) || decide (n = y)) = some true ∧ latest h (fun n => decide (n = y) || decide (n = z)) = some true

/-- Users who give back only what they have, as long as no number is handed out that is so placed. -/
inductive CarefulUse : List (α × Bool) → List (PoolCall α) → List (Option α) → Prop
  | nil h : CarefulUse h [] []
  | take {h x cs os} : ¬ Wedged h x → CarefulUse ((x, false) :: h) cs os → CarefulUse h (.take :: cs) (some x :: os)
  | out {h cs os} : CarefulUse h cs os → CarefulUse h (.take :: cs) (none :: os)
  | give {h x cs os} : HandedOut h x → CarefulUse ((x, true) :: h) cs os → CarefulUse h (.give x :: cs) (none :: os)

/-- `free.minus_in_place(Interval::point(x))`. -/
def Selection.removeInPlace (dbg : Bool) (s : Selection α) (x : α) : Except Panic (Selection α) :=
  s.minusInPlace dbg (.point x)

/-- `free = free.complement(); free.union_in_place(Interval::point(x)); free = free.complement();` -/
def Selection.removeByComplement (dbg : Bool) (s : Selection α) (x : α) : Except Panic (Selection α) := do
  (← (← s.complement dbg).unionInPlace dbg (.point x)).complement dbg

/-- A pool that is kept as a selection of the free numbers: `take` is `let x = free.iter().next()?` and the removal
of `x` in one of the ways above, `give(x)` is `free.union_in_place(Interval::point(x))`.  The answers to the calls
(none to `give`) and the selection in the end. -/
def Selection.pool (remove : Selection α → α → Except Panic (Selection α)) (dbg : Bool) :
    Selection α → List (PoolCall α) → Except Panic (List (Option α) × Selection α)
  | s, [] => .ok ([], s)
  | s, .take :: cs => do
    match (← PointIter.next dbg (PointIter.start s)).1 with
    | none =>
      let (os, s') ← pool remove dbg s cs
      return (none :: os, s')
    | some x =>
      let (os, s') ← pool remove dbg (← remove s x) cs
      return (some x :: os, s')
  | s, .give x :: cs => do
    let (os, s') ← pool remove dbg (← s.unionInPlace dbg (.point x)) cs
    return (none :: os, s')

end NI
