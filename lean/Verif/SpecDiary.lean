import Verif.SpecSparse
import Verif.SpecCalendar

/-! # Specification: a calendar with cancellations (C125) -/

namespace NI
open _root_.NI.Finite
variable {α : Type _} [LinearOrder α] [Finite α]

/-- A request for an interval, or the cancellation of one. -/
inductive DiaryCall (α : Type _)
  | request (i : Interval α)
  | cancel (i : Interval α)

/-- The interval of a call. -/
def DiaryCall.interval : DiaryCall α → Interval α
  | .request i => i
  | .cancel i => i

/-- What should become of the calls: a request is refused exactly if it overlaps what has been booked and not been cancelled since, and is
booked otherwise.  `Diary b cs os b'`: from the bookings and cancellations `b` to `b'`, the answers to the requests being `os`. -/
inductive Diary : SparseCalls α → List (DiaryCall α) → List Bool → SparseCalls α → Prop
  | nil b : Diary b [] [] b
  | accept {b i cs os b'} : ¬ Overlapping b.there i.pts → Diary (b ++ [(i, true)]) cs os b' → Diary b (.request i :: cs) (true :: os) b'
  | refuse {b i cs os b'} : Overlapping b.there i.pts → Diary b cs os b' → Diary b (.request i :: cs) (false :: os) b'
  | cancel {b i cs os b'} : Diary (b ++ [(i, false)]) cs os b' → Diary b (.cancel i :: cs) os b'

/-- The calendar asked by `booked.interval_iter().any(|b| b.intersects(&i))`, with cancellations by `booked.minus_in_place(i)`. -/
def Selection.diary (dbg : Bool) : Selection α → List (DiaryCall α) → Except Panic (List Bool × Selection α)
  | s, [] => .ok ([], s)
  | s, .request i :: cs => do
    if ← s.takenByIntervals dbg i then
      let (os, s') ← diary dbg s cs
      return (false :: os, s')
    else
      let (os, s') ← diary dbg (← s.unionInPlace dbg i) cs
      return (true :: os, s')
  | s, .cancel i :: cs => do diary dbg (← s.minusInPlace dbg i) cs

end NI
