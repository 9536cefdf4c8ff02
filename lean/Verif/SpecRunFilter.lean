import Verif.SpecLongest
import Verif.SpecEdit

/-! # Specification: keeping some of the runs of a selection, closing some of its gaps (C143) -/

namespace NI
variable {α : Type _} [LinearOrder α] [Finite α]

/-- `s.interval_iter().filter(p).collect()`. -/
def Selection.keepRuns (dbg : Bool) (p : Interval α → Bool) (s : Selection α) : Except Panic (Selection α) := do
  Selection.fromIntervals dbg ((← s.intervals dbg).filter p)

/-- `let v: Vec<_> = s.interval_iter().filter(|i| !p(i)).collect(); for i in v { s.minus_in_place(i); }`. -/
def Selection.dropRuns (dbg : Bool) (p : Interval α → Bool) (s : Selection α) : Except Panic (Selection α) := do
  ((← s.intervals dbg).filter (!p ·)).foldlM (fun s i => s.minusInPlace dbg i) s

/-- `s.extend(s.complement().interval_iter().filter(p))`. -/
def Selection.closeGaps (dbg : Bool) (p : Interval α → Bool) (s : Selection α) : Except Panic (Selection α) := do
  s.extend dbg ((← (← s.complement dbg).intervals dbg).filter p)

/-- `is.filter(|i| i.size() >= Some(k))`, or those for which this is false. -/
def sizeFilter (sub : α → α → Option α) (k : α) (long : Bool) (is : List (Interval α)) :
    Except Panic (List (Interval α)) := do
  let ps ← is.mapM fun i => do return ((← i.size sub), i)
  return (ps.filter fun p => decide (sizeKey (some k) ≤ sizeKey p.1) == long).map Prod.snd

/-- `s.interval_iter().filter(|i| i.size() >= Some(k)).collect()`. -/
def Selection.keepLong (dbg : Bool) (sub : α → α → Option α) (k : α) (s : Selection α) : Except Panic (Selection α) := do
  Selection.fromIntervals dbg (← sizeFilter sub k true (← s.intervals dbg))

/-- `s.extend(s.complement().interval_iter().filter(|i| i.size() < Some(k)))`. -/
def Selection.closeShort (dbg : Bool) (sub : α → α → Option α) (k : α) (s : Selection α) : Except Panic (Selection α) := do
  s.extend dbg (← sizeFilter sub k false (← (← s.complement dbg).intervals dbg))

/-- The values of a set that lie in a block of the set with more than `k` numbers. -/
def inLongBlock {lo hi : Int} (S : Set (MInt lo hi)) (k : MInt lo hi) : Set (MInt lo hi) :=
  {x | ∃ l u : MInt lo hi, x ∈ Set.Icc l u ∧ Set.Icc l u ⊆ S ∧ k.1 ≤ u.1 - l.1}

end NI
