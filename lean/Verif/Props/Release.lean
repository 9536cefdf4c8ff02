import Verif.Model.Release
import Verif.Props.Sharp

/-!
# `Interval::size` in release builds: C33
-/

namespace NI
open Finite

theorem MInt.wrapSub_val {lo hi : Int} (a b : MInt lo hi) :
    (hi - lo + 1) ∣ (a.1 - b.1) - (wrapSub a b).1 ∧
    ((wrapSub a b).1 = a.1 - b.1 ↔ lo ≤ a.1 - b.1 ∧ a.1 - b.1 ≤ hi) := by
  have hd : (hi - lo + 1) ∣ (a.1 - b.1) - (wrapSub a b).1 := by
    have := Int.mul_ediv_add_emod (a.1 - b.1 - lo) (hi - lo + 1)
    refine ⟨(a.1 - b.1 - lo) / (hi - lo + 1), ?_⟩
    simp only [wrapSub]
    omega
  refine ⟨hd, fun h => h ▸ (wrapSub a b).2, fun h => ?_⟩
  have h2 := (wrapSub a b).2
  have := Int.eq_zero_of_dvd_of_natAbs_lt_natAbs hd (by omega)
  omega

/-- In release builds `size` never panics: it is `None` exactly for the empty interval, and otherwise the
value of the type that differs from supremum minus infimum by a multiple of the number of values; that is the
true difference exactly if that is a value of the type. -/
theorem C33_release {lo hi : Int} [Fact (lo ≤ hi)] (i : Interval (MInt lo hi)) (h : i.Obtainable) :
    (i.size (fun a b => some (MInt.wrapSub a b)) = .ok none ↔ i.isEmpty = true) ∧
    ∀ l u : MInt lo hi, i.infimum = some l → i.supremum = some u →
      ∃ d : MInt lo hi, i.size (fun a b => some (MInt.wrapSub a b)) = .ok (some d) ∧
        (hi - lo + 1) ∣ (u.1 - l.1) - d.1 ∧ (d.1 = u.1 - l.1 ↔ lo ≤ u.1 - l.1 ∧ u.1 - l.1 ≤ hi) := by
  refine ⟨?_, fun l u h1 h2 => ⟨MInt.wrapSub u l, ?_, MInt.wrapSub_val u l⟩⟩
  · rcases Interval.ends_cases h with rfl | ⟨l, u, hr, -, h1, h2, -⟩
    · exact iff_of_true rfl rfl
    · have hne : i.isEmpty = false := by
        rcases hr with hr | ⟨hr, -⟩ <;> rw [Interval.isEmpty, hr]
      rw [Interval.size, h1, h2, hne]
      simp
  · rw [Interval.size, h1, h2]

/-- The size of `Interval::<i8>::full()` is -1 in release builds; that of `open(3,4)` over `u8`, which has no
points, 255. -/
example : (Interval.full : Interval I8).size (fun a b => some (MInt.wrapSub a b)) = .ok (some (MInt.lit (-1))) ∧
    (Interval.mkOpen (MInt.lit 3 : U8) (MInt.lit 4)).size (fun a b => some (MInt.wrapSub a b)) =
      .ok (some (MInt.lit 255)) := by decide

end NI
