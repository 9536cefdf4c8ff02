import Verif.Spec

/-! # Specification: counting how many intervals cover a value, by a pile of selections (C142)

The first selection of the pile is to contain the values that some interval contains, the second those that two contain,
and so on. -/

namespace NI
variable {α : Type _} [LinearOrder α] [Finite α]

/-- `a.complement().union(&b.complement()).complement()`. -/
def Selection.bothByComplements (dbg : Bool) (a b : Selection α) : Except Panic (Selection α) := do
  (← (← a.complement dbg).union dbg (← b.complement dbg)).complement dbg

/-- `a.interval_iter().flat_map(|i| b.interval_iter().map(|j| i.intersect(&j))).collect()`. -/
def Selection.bothByIntervals (dbg : Bool) (a b : Selection α) : Except Panic (Selection α) := do
  let js ← b.intervals dbg
  Selection.fromIntervals dbg ((← a.intervals dbg).flatMap fun i => js.map fun j => i.intersect j)

/-- `for s in &mut pile { let both = both(s, &c); *s = s.union(&c); c = both; } pile.push(c)`. -/
def Selection.pileOn (both : Selection α → Selection α → Except Panic (Selection α)) (dbg : Bool) :
    List (Selection α) → Selection α → Except Panic (List (Selection α))
  | [], c => .ok [c]
  | s :: ss, c => do
    let b ← both s c
    let s' ← s.union dbg c
    return s' :: (← pileOn both dbg ss b)

/-- All intervals, one after the other, beginning with no selection. -/
def Selection.pile (both : Selection α → Selection α → Except Panic (Selection α)) (dbg : Bool) (is : List (Interval α)) :
    Except Panic (List (Selection α)) :=
  is.foldlM (fun ss i => Selection.pileOn both dbg ss (.ofInterval i)) []

/-- How many of the intervals contain the value. -/
def covering (is : List (Interval α)) (x : α) : Nat := is.countP fun i => i.contains x

end NI
