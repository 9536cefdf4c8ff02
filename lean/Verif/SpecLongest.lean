import Verif.Model.Selection
import Verif.Model.Release
import Verif.Spec

/-! # Specification: the longest run of a selection (C141) -/

namespace NI

/-- The last element of a list whose key is greatest, as `Iterator::max_by_key` has it. -/
def lastMax {β κ : Type _} [LinearOrder κ] (key : β → κ) : List β → Option β
  | [] => none
  | x :: xs => match lastMax key xs with
    | none => some x
    | some y => if key y < key x then some x else some y

/-- The order of `Option`: nothing comes before everything. -/
def sizeKey {α : Type _} : Option α → WithBot α
  | none => ⊥
  | some d => d

/-- `s.interval_iter().max_by_key(|i| i.size())`. -/
def Selection.longest {α : Type _} [LinearOrder α] [Finite α] (dbg : Bool) (sub : α → α → Option α) (s : Selection α) :
    Except Panic (Option (Interval α)) := do
  let ps ← (← s.intervals dbg).mapM fun i => do return ((← i.size sub), i)
  return (lastMax (fun p => sizeKey p.1) ps).map Prod.snd

/-- `s.complement().interval_iter().max_by_key(|i| i.size())`. -/
def Selection.longestGap {α : Type _} [LinearOrder α] [Finite α] (dbg : Bool) (sub : α → α → Option α) (s : Selection α) :
    Except Panic (Option (Interval α)) := do
  (← s.complement dbg).longest dbg sub

/-- The last of the longest blocks of numbers within a set. -/
def LongestBlock {lo hi : Int} (S : Set (MInt lo hi)) (l u : MInt lo hi) : Prop :=
  l ≤ u ∧ Set.Icc l u ⊆ S ∧ ∀ l' u' : MInt lo hi, l' ≤ u' → Set.Icc l' u' ⊆ S →
    u'.1 - l'.1 < u.1 - l.1 ∨ (u'.1 - l'.1 = u.1 - l.1 ∧ u' ≤ u)

end NI
