import Verif.Model.Release
import Verif.SpecEdit

/-! # Specification: padding and shifting the intervals of a selection of integers (C144) -/

namespace NI
variable {lo hi : Int} [Fact (lo ≤ hi)]

/-- `saturating_add` and `saturating_sub` of the standard library: the sum, or the end of the type it is beyond. -/
def MInt.clamp (x : Int) : MInt lo hi := ⟨max lo (min hi x), by have := Fact.out (p := lo ≤ hi); omega⟩

/-- `x + k`: a panic on overflow in debug builds. -/
def MInt.plus (a b : MInt lo hi) : Option (MInt lo hi) :=
  if h : lo ≤ a.1 + b.1 ∧ a.1 + b.1 ≤ hi then some ⟨a.1 + b.1, h⟩ else none

/-- `x + k` in release builds: modulo the number of values. -/
def MInt.wrapPlus (a b : MInt lo hi) : MInt lo hi :=
  ⟨lo + (a.1 + b.1 - lo) % (hi - lo + 1), by
    have := Fact.out (p := lo ≤ hi)
    have := Int.emod_nonneg (a.1 + b.1 - lo) (b := hi - lo + 1) (by omega)
    have := Int.emod_lt_of_pos (a.1 + b.1 - lo) (b := hi - lo + 1) (by omega)
    omega⟩

/-- `Interval::closed(f(i.infimum().unwrap()), g(i.supremum().unwrap()))`, where `f` and `g` may overflow. -/
def Interval.stretch (f g : MInt lo hi → Option (MInt lo hi)) (i : Interval (MInt lo hi)) :
    Except Panic (Interval (MInt lo hi)) :=
  match i.infimum, i.supremum with
  | some l, some u => match f l, g u with
    | some l, some u => .ok (.mkClosed l u)
    | _, _ => .error .overflow
  | _, _ => .error .expect

/-- `s.interval_iter().map(|i| ..).collect()` with this. -/
def Selection.stretch (dbg : Bool) (f g : MInt lo hi → Option (MInt lo hi)) (s : Selection (MInt lo hi)) :
    Except Panic (Selection (MInt lo hi)) := do
  Selection.fromIntervals dbg (← (← s.intervals dbg).mapM (Interval.stretch f g))

/-- Every interval longer by `k` at both ends: `saturating_sub(k)`, `saturating_add(k)`. -/
def Selection.pad (dbg : Bool) (k : MInt lo hi) (s : Selection (MInt lo hi)) : Except Panic (Selection (MInt lo hi)) :=
  s.stretch dbg (fun l => some (MInt.clamp (l.1 - k.1))) (fun u => some (MInt.clamp (u.1 + k.1)))

/-- Every interval shorter by `k` at both ends, by way of the complement. -/
def Selection.trim (dbg : Bool) (k : MInt lo hi) (s : Selection (MInt lo hi)) : Except Panic (Selection (MInt lo hi)) := do
  (← (← s.complement dbg).pad dbg k).complement dbg

/-- Every value greater by `k`. -/
def Selection.shift (dbg : Bool) (add : MInt lo hi → MInt lo hi → Option (MInt lo hi)) (k : MInt lo hi)
    (s : Selection (MInt lo hi)) : Except Panic (Selection (MInt lo hi)) :=
  s.stretch dbg (fun l => add l k) (fun u => add u k)

end NI
