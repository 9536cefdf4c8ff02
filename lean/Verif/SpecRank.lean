import Verif.SpecPad
import Mathlib.Data.Set.Card

/-! # Specification: counting and picking the values of a selection by the sizes of its intervals (C147)

Counts are kept in an integer type that is wide enough (`u64` for all types of up to 32 bits, say), so they do not overflow
here; a size that is not negative is turned into a count by `as`. -/

namespace NI
variable {lo hi : Int} [Fact (lo ≤ hi)]

/-- `k as T`: modulo the number of values. -/
def MInt.cast (k : Nat) : MInt lo hi :=
  ⟨lo + ((k : Int) - lo) % (hi - lo + 1), by
    have := Fact.out (p := lo ≤ hi)
    have := Int.emod_nonneg ((k : Int) - lo) (b := hi - lo + 1) (by omega)
    have := Int.emod_lt_of_pos ((k : Int) - lo) (b := hi - lo + 1) (by omega)
    omega⟩

/-- `s.interval_iter().map(|i| i.size().unwrap() as u64 + 1).sum()`. -/
def Selection.count (dbg : Bool) (sub : MInt lo hi → MInt lo hi → Option (MInt lo hi)) (s : Selection (MInt lo hi)) :
    Except Panic Nat := do
  let ns ← (← s.intervals dbg).mapM fun i => i.size sub >>= fun
    | some d => .ok (d.1.toNat + 1)
    | none => .error .expect
  return ns.sum

/-- `s.interval_iter().filter_map(|i| i.intersect(&Interval::unbounded_to(x)).size()).map(|d| d as u64 + 1).sum()`. -/
def Selection.rank (dbg : Bool) (sub : MInt lo hi → MInt lo hi → Option (MInt lo hi)) (s : Selection (MInt lo hi))
    (x : MInt lo hi) : Except Panic Nat := do
  let ns ← (← s.intervals dbg).mapM fun i => (i.intersect (.unboundedTo x)).size sub >>= fun
    | some d => .ok (d.1.toNat + 1)
    | none => .ok 0
  return ns.sum

/-- `for i in .. { let n = i.size().unwrap() as u64 + 1; if k < n { return Some(i.infimum().unwrap() + k as T) } k -= n; } None`. -/
def Interval.pickFrom (sub : MInt lo hi → MInt lo hi → Option (MInt lo hi)) : List (Interval (MInt lo hi)) → Nat →
    Except Panic (Option (MInt lo hi))
  | [], _ => .ok none
  | i :: is, k => i.size sub >>= fun
    | none => .error .expect
    | some d =>
      if k < d.1.toNat + 1 then
        match i.infimum with
        | none => .error .expect
        | some l => match MInt.plus l (MInt.cast k) with
          | some x => .ok (some x)
          | none => .error .overflow
      else pickFrom sub is (k - (d.1.toNat + 1))

/-- The same over `s.interval_iter()`. -/
def Selection.pick (dbg : Bool) (sub : MInt lo hi → MInt lo hi → Option (MInt lo hi)) (s : Selection (MInt lo hi))
    (k : Nat) : Except Panic (Option (MInt lo hi)) := do
  Interval.pickFrom sub (← s.intervals dbg) k

end NI
