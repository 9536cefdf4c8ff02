import Verif.Model.Interval

/-!
# Integer arithmetic of release builds

`Interval::size` subtracts (src/interval.rs:978-983).  An overflow is a panic in debug builds, which
`MInt.checkedSub` models, and wraps around in release builds.
-/

namespace NI.MInt
variable {lo hi : Int}

/-- `a - b` on a machine integer in release builds: modulo the number of values of the type. -/
def wrapSub (a b : MInt lo hi) : MInt lo hi :=
  ⟨lo + (a.1 - b.1 - lo) % (hi - lo + 1), by
    have h := a.2
    have h1 := Int.emod_nonneg (a.1 - b.1 - lo) (show hi - lo + 1 ≠ 0 by omega)
    have h2 := Int.emod_lt_of_pos (a.1 - b.1 - lo) (show 0 < hi - lo + 1 by omega)
    omega⟩

end NI.MInt
