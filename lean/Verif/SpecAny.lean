import Verif.Spec
import Verif.Model.Unwind

/-!
# Trees and selections of any history, in any build

Specification for C115.
-/

namespace NI

/-- The trees that any sequence of operations of `TineTree` returns or leaves behind by a panic, each in a debug or in a
release build, corrupt ones included. -/
inductive TineTree.Any {α : Type _} [LinearOrder α] : TineTree α → Prop
  | new : Any TineTree.new
  | fromRaw {i : RawInterval α} : i.WF → Any (TineTree.fromRawInterval i)
  | fromIter {dbg is t'} : (∀ i ∈ is, RawInterval.WF i) → TineTree.fromIter dbg is = .ok t' → Any t'
  | unionInPlace {dbg t i t'} : Any t → RawInterval.WF i → TineTree.unionInPlace dbg t i = .ok t' → Any t'
  | minusInPlace {dbg t i t'} : Any t → RawInterval.WF i → TineTree.minusInPlace dbg t i = .ok t' → Any t'
  | intersectInPlace {dbg t i t'} : Any t → RawInterval.WF i → TineTree.intersectInPlace dbg t i = .ok t' → Any t'
  | union {dbg a b t'} : Any a → Any b → TineTree.union dbg a b = .ok t' → Any t'
  | minus {dbg a b t'} : Any a → Any b → TineTree.minus dbg a b = .ok t' → Any t'
  | intersect {dbg a b t'} : Any a → Any b → TineTree.intersect dbg a b = .ok t' → Any t'
  | complement {dbg t t'} : Any t → TineTree.complement dbg t = .ok t' → Any t'
  | unionPanic {dbg t i p t'} : Any t → RawInterval.WF i → TineTree.unionInPlaceU dbg t i = .error (p, t') → Any t'
  | minusPanic {dbg t i p t'} : Any t → RawInterval.WF i → TineTree.minusInPlaceU dbg t i = .error (p, t') → Any t'
  | intersectPanic {dbg t i p t'} : Any t → RawInterval.WF i →
      TineTree.intersectInPlaceU dbg t i = .error (p, t') → Any t'

/-- The selections that any sequence of operations of `Selection` returns or leaves behind by a panic, each in a debug or
in a release build, corrupt ones included. -/
inductive Selection.Any {α : Type _} [LinearOrder α] [Finite α] : Selection α → Prop
  | new : Any Selection.new
  | full : Any Selection.full
  | ofInterval {i : Interval α} : i.Obtainable → Any (Selection.ofInterval i)
  | unionInPlace {dbg s i s'} : Any s → Interval.Obtainable i → Selection.unionInPlace dbg s i = .ok s' → Any s'
  | minusInPlace {dbg s i s'} : Any s → Interval.Obtainable i → Selection.minusInPlace dbg s i = .ok s' → Any s'
  | intersectInPlace {dbg s i s'} : Any s → Interval.Obtainable i →
      Selection.intersectInPlace dbg s i = .ok s' → Any s'
  | extend {dbg s is s'} : Any s → (∀ i ∈ is, Interval.Obtainable i) →
      Selection.extend dbg s is = .ok s' → Any s'
  | fromIntervals {dbg is s'} : (∀ i ∈ is, Interval.Obtainable i) →
      Selection.fromIntervals dbg is = .ok s' → Any s'
  | fromPoints {dbg xs s'} : Selection.fromPoints dbg xs = .ok s' → Any s'
  | union {dbg a b s'} : Any a → Any b → Selection.union dbg a b = .ok s' → Any s'
  | minus {dbg a b s'} : Any a → Any b → Selection.minus dbg a b = .ok s' → Any s'
  | intersect {dbg a b s'} : Any a → Any b → Selection.intersect dbg a b = .ok s' → Any s'
  | complement {dbg s s'} : Any s → Selection.complement dbg s = .ok s' → Any s'
  | unionPanic {dbg s i p t} : Any s → Interval.Obtainable i → Selection.unionInPlaceU dbg s i = .error (p, t) → Any ⟨t⟩
  | minusPanic {dbg s i p t} : Any s → Interval.Obtainable i → Selection.minusInPlaceU dbg s i = .error (p, t) → Any ⟨t⟩
  | intersectPanic {dbg s i p t} : Any s → Interval.Obtainable i →
      Selection.intersectInPlaceU dbg s i = .error (p, t) → Any ⟨t⟩
  | extendPanic {dbg s is p t} : Any s → (∀ i ∈ is, Interval.Obtainable i) →
      Selection.extendU dbg s is = .error (p, t) → Any ⟨t⟩

end NI
