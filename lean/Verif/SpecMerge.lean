import Verif.SpecEdit

/-! # Specification: merging a sorted list of intervals (C151) -/

namespace NI
variable {α : Type _} [LinearOrder α] [Finite α]

/-- `for j in is { match out.last_mut() { Some(c) if join(c, &j) => *c = c.enclose(&j), _ => out.push(j) } }`, where `c` is
the last interval put out so far. -/
def Interval.mergeFrom (join : Interval α → Interval α → Bool) (c : Interval α) : List (Interval α) → List (Interval α)
  | [] => [c]
  | j :: js => if join c j then mergeFrom join (c.enclose j) js else c :: mergeFrom join j js

/-- The same, beginning with nothing put out. -/
def Interval.merge (join : Interval α → Interval α → Bool) : List (Interval α) → List (Interval α)
  | [] => []
  | j :: js => Interval.mergeFrom join j js

/-- `c.intersects(&j)`. -/
def Interval.overlap (c j : Interval α) : Bool := c.intersects j

/-- `c.intersects(&j) || c.supremum().and_then(|u| u.succ()) == j.infimum()`. -/
def Interval.touch (c j : Interval α) : Bool := c.intersects j || decide (c.supremum.bind Finite.succ = j.infimum)

/-- `is.sort_by_key(|i| i.infimum())` leaves some list with the same intervals that is in order; nothing is assumed about the
order of those with the same infimum. -/
def Interval.SortedFrom (is js : List (Interval α)) : Prop :=
  js.Perm is ∧ js.Pairwise fun i j => ∀ a b, i.infimum = some a → j.infimum = some b → a ≤ b

/-- `is.retain(|i| i.infimum().is_some() && i.infimum() <= i.supremum())`. -/
def Interval.withValues (is : List (Interval α)) : List (Interval α) :=
  is.filter fun i => match i.infimum, i.supremum with
    | some l, some u => decide (l ≤ u)
    | _, _ => false

/-- Between `x` and `y` there is no step from a value to the next that none of the intervals spans. -/
def Linked (is : List (Interval α)) (x y : α) : Prop :=
  (∃ i ∈ is, i.contains x = true) ∧ (∃ i ∈ is, i.contains y = true) ∧
  ∀ z z', min x y ≤ z → z' ≤ max x y → Finite.succ z = some z' → ∃ i ∈ is, i.contains z = true ∧ i.contains z' = true

end NI
