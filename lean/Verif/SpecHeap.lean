import Verif.SpecPatch

/-! # Specification: handing out blocks of numbers, first fit

Blocks of successive numbers are handed out, the lowest that is free and long enough, and later given back. -/

namespace NI
open _root_.NI.Finite

/-- The calls of the users: a block of `more + 1` numbers is asked for, or the block from `l` to `u` is given back. -/
inductive HeapCall (α : Type _)
  | take (more : α)
  | give (l u : α)
  deriving DecidableEq, Repr

variable {hi : Int}

/-- The block from `l` to `u` has `more + 1` numbers, all of them free. -/
def Fits (F : Set (MInt 0 hi)) (more l u : MInt 0 hi) : Prop := u.1 = l.1 + more.1 ∧ Set.Icc l u ⊆ F

/-- What the users rely on, in terms of the set of free numbers: `take` hands out the lowest block that fits, which then
is free no more, or nothing if no block fits; what is given back is free. -/
inductive HeapRun : Set (MInt 0 hi) → List (HeapCall (MInt 0 hi)) → List (Option (MInt 0 hi × MInt 0 hi)) →
    Set (MInt 0 hi) → Prop
  | nil F : HeapRun F [] [] F
  | take {F n l u cs os F'} : Fits F n l u → (∀ l' u', Fits F n l' u' → l ≤ l') → HeapRun (F \ Set.Icc l u) cs os F' →
      HeapRun F (.take n :: cs) (some (l, u) :: os) F'
  | out {F n cs os F'} : (∀ l u, ¬ Fits F n l u) → HeapRun F cs os F' → HeapRun F (.take n :: cs) (none :: os) F'
  | give {F l u cs os F'} : HeapRun (F ∪ Set.Icc l u) cs os F' → HeapRun F (.give l u :: cs) (none :: os) F'

/-- All blocks asked for have two numbers or more, and only blocks handed out (`held` to begin with) and not yet given
back are given back, as a whole. -/
def HeapCall.Orderly : List (MInt 0 hi × MInt 0 hi) → List (HeapCall (MInt 0 hi)) →
    List (Option (MInt 0 hi × MInt 0 hi)) → Prop
  | held, .take n :: cs, some b :: os => 0 < n.1 ∧ HeapCall.Orderly (b :: held) cs os
  | held, .take _ :: cs, none :: os => HeapCall.Orderly held cs os
  | held, .give l u :: cs, _ :: os => (l, u) ∈ held ∧ HeapCall.Orderly (held.erase (l, u)) cs os
  | _, _, _ => True

/-- `intervals.find(|i| i.size().map_or(false, |d| d >= more))`, and the block that begins where the interval found
does. -/
def firstFitIn [Fact (0 ≤ hi)] (more : MInt 0 hi) :
    List (Interval (MInt 0 hi)) → Except Panic (Option (MInt 0 hi × MInt 0 hi))
  | [] => .ok none
  | i :: is => do
    match ← i.size (fun a b => a.checkedSub b.1), i.infimum with
    | some d, some l =>
      if more ≤ d then
        match l.checkedAdd more.1 with
        | some u => .ok (some (l, u))
        | none => .error .overflow
      else firstFitIn more is
    | _, _ => firstFitIn more is

/-- The first block of `more + 1` numbers: the above for `free.interval_iter()`. -/
def Selection.firstFit [Fact (0 ≤ hi)] (dbg : Bool) (free : Selection (MInt 0 hi)) (more : MInt 0 hi) :
    Except Panic (Option (MInt 0 hi × MInt 0 hi)) := do
  firstFitIn more (← free.intervals dbg)

/-- How the numbers in use are kept: where a block is looked for, and what is done when a block is handed out and when
it is given back. -/
structure Keeping (α : Type _) [LinearOrder α] [Finite α] where
  free : Selection α → Except Panic (Selection α)
  takeOut : Selection α → Interval α → Except Panic (Selection α)
  putBack : Selection α → Interval α → Except Panic (Selection α)

/-- The free numbers are kept, `minus_in_place` takes out and `union_in_place` puts back. -/
def Keeping.inPlace {α : Type _} [LinearOrder α] [Finite α] (dbg : Bool) : Keeping α :=
  ⟨.ok, fun s i => s.minusInPlace dbg i, fun s i => s.unionInPlace dbg i⟩

/-- The free numbers are kept, `complement`, `union_in_place` and `complement` take out, `union_in_place` puts back. -/
def Keeping.byComplement {α : Type _} [LinearOrder α] [Finite α] (dbg : Bool) : Keeping α :=
  ⟨.ok, fun s i => do (← (← s.complement dbg).unionInPlace dbg i).complement dbg, fun s i => s.unionInPlace dbg i⟩

/-- The numbers in use are kept, the free ones are their `complement`, `union_in_place` takes out and `minus_in_place`
puts back. -/
def Keeping.used {α : Type _} [LinearOrder α] [Finite α] (dbg : Bool) : Keeping α :=
  ⟨fun s => s.complement dbg, fun s i => s.unionInPlace dbg i, fun s i => s.minusInPlace dbg i⟩

/-- The answers to the calls (none to `give`) and the selection in the end. -/
def Selection.heap [Fact (0 ≤ hi)] (k : Keeping (MInt 0 hi)) (dbg : Bool) : Selection (MInt 0 hi) →
    List (HeapCall (MInt 0 hi)) → Except Panic (List (Option (MInt 0 hi × MInt 0 hi)) × Selection (MInt 0 hi))
  | s, [] => .ok ([], s)
  | s, .take n :: cs => do
    match ← (← k.free s).firstFit dbg n with
    | none =>
      let (os, s') ← heap k dbg s cs
      return (none :: os, s')
    | some (l, u) =>
      let (os, s') ← heap k dbg (← k.takeOut s (.mkClosed l u)) cs
      return (some (l, u) :: os, s')
  | s, .give l u :: cs => do
    let (os, s') ← heap k dbg (← k.putBack s (.mkClosed l u)) cs
    return (none :: os, s')

end NI
