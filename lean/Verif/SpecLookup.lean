import Verif.SpecMore

/-! # Specification: binary search and the merge sweep over listed intervals (C149, C150) -/

namespace NI
variable {α : Type _} [LinearOrder α] [Finite α]

/-- `if i.supremum().unwrap() < x { Less } else if i.infimum().unwrap() > x { Greater } else { Equal }`. -/
def Interval.probe (x : α) (i : Interval α) : Except Panic Ordering :=
  match i.infimum, i.supremum with
  | some l, some u => .ok (if u < x then .lt else if x < l then .gt else .eq)
  | _, _ => .error .expect

/-- A binary search in `xs[lo..hi]`: `Ok(m)` is `inl m`, `Err(m)` is `inr m`.  `mid` says where to look next; any choice
within the range will do, so nothing is assumed about how the library halves it. -/
def search {β : Type _} (cmp : β → Except Panic Ordering) (mid : Nat → Nat → Nat) (xs : List β) :
    Nat → Nat → Nat → Except Panic (Nat ⊕ Nat)
  | 0, lo, _ => .ok (.inr lo)
  | n + 1, lo, hi =>
    if lo < hi then
      let m := lo + mid lo hi % (hi - lo)
      match xs[m]? with
      | none => .error .expect
      | some x => do
        match ← cmp x with
        | .eq => .ok (.inl m)
        | .lt => search cmp mid xs n (m + 1) hi
        | .gt => search cmp mid xs n lo m
    else .ok (.inr lo)

/-- `let is: Vec<_> = s.interval_iter().collect(); is.binary_search_by(|i| ..)`. -/
def Selection.lookup (dbg : Bool) (mid : Nat → Nat → Nat) (s : Selection α) (x : α) : Except Panic (Nat ⊕ Nat) := do
  let is ← s.intervals dbg
  search (Interval.probe x) mid is is.length 0 is.length

/-- The intersections of the intervals of two lists, found by walking down both and dropping the interval that ends
first; at most `n` steps. -/
def Interval.sweepAux : Nat → List (Interval α) → List (Interval α) → Except Panic (List (Interval α))
  | n + 1, i :: is, j :: js =>
    match i.supremum, j.supremum with
    | some u, some v => do
      let rest ← if u < v then sweepAux n is (j :: js) else sweepAux n (i :: is) js
      .ok (i.intersect j :: rest)
    | _, _ => .error .expect
  | _, _, _ => .ok []

/-- The same with as many steps as there are intervals. -/
def Interval.sweep (is js : List (Interval α)) : Except Panic (List (Interval α)) :=
  Interval.sweepAux (is.length + js.length) is js

/-- The same collected, for the intervals of two selections. -/
def Selection.sweep (dbg : Bool) (a b : Selection α) : Except Panic (Selection α) := do
  Selection.fromIntervals dbg (← Interval.sweep (← a.intervals dbg) (← b.intervals dbg))

end NI
