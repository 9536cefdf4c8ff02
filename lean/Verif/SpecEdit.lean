import Verif.Spec
import Mathlib.Data.Set.Card

/-! # Specification: edits of a set -/

namespace NI

/-- An interval is put in or taken out. -/
inductive Edit (ι : Type _)
  | add (i : ι)
  | remove (i : ι)
  deriving DecidableEq, Repr

namespace Edit
variable {ι : Type _} {α : Type _}

/-- What an edit means for a set. -/
def on (pts : ι → Set α) (X : Set α) : Edit ι → Set α
  | add i => X ∪ pts i
  | remove i => X \ pts i

/-- What a sequence of edits means for a set. -/
def all (pts : ι → Set α) (es : List (Edit ι)) (X : Set α) : Set α := es.foldl (on pts) X

/-- The intervals that are taken out. -/
def removed (es : List (Edit ι)) : List ι :=
  es.filterMap fun
    | add _ => none
    | remove i => some i

/-- The interval of an edit. -/
def interval : Edit ι → ι
  | add i => i
  | remove i => i

end Edit

/-- `x` is the value before the first or after the last of the interval. -/
def Interval.Beside {α : Type _} [Finite α] (i : Interval α) (x : α) : Prop :=
  (∃ l, i.lowerBound = some (.incl l) ∧ Finite.pred l = some x) ∨
    ∃ u, i.upperBound = some (.incl u) ∧ Finite.succ u = some x

/-- The edits of a `TineTree`. -/
def TineTree.edits {α : Type _} [LinearOrder α] (dbg : Bool) (t : TineTree α) (es : List (Edit (RawInterval α))) :
    Except Panic (TineTree α) :=
  es.foldlM (fun t e => match e with
    | .add i => t.unionInPlace dbg i
    | .remove i => t.minusInPlace dbg i) t

/-- The edits of a `Selection`. -/
def Selection.edits {α : Type _} [LinearOrder α] [Finite α] (dbg : Bool) (s : Selection α)
    (es : List (Edit (Interval α))) : Except Panic (Selection α) :=
  es.foldlM (fun s e => match e with
    | .add i => s.unionInPlace dbg i
    | .remove i => s.minusInPlace dbg i) s

/-- The selections made of union-built ones by adding and removing intervals, or union-built selections, and by
complement, in any order; the intervals without points that are not empty left out. -/
inductive Selection.Edited {α : Type _} [LinearOrder α] [Finite α] : Selection α → Prop
  | built {s} : Selection.UnionBuilt s → Edited s
  | unionInPlace {dbg s i s'} : Edited s → Interval.Obtainable i → Interval.Real i →
      Selection.unionInPlace dbg s i = .ok s' → Edited s'
  | minusInPlace {dbg s i s'} : Edited s → Interval.Obtainable i → Interval.Real i →
      Selection.minusInPlace dbg s i = .ok s' → Edited s'
  | union {dbg a b s'} : Edited a → Selection.UnionBuilt b → Selection.union dbg a b = .ok s' → Edited s'
  | minus {dbg a b s'} : Edited a → Selection.UnionBuilt b → Selection.minus dbg a b = .ok s' → Edited s'
  | complement {dbg s s'} : Edited s → Selection.complement dbg s = .ok s' → Edited s'

/-- The runs of neighbouring values of a set, each as long as possible, in ascending order. -/
def MaximalRuns {α : Type _} [LinearOrder α] [Finite α] (S : Set α) (rs : List (Set α)) : Prop :=
  (∀ r ∈ rs, ∃ l u, l ≤ u ∧ r = Set.Icc l u ∧ (∀ p, Finite.pred l = some p → p ∉ S) ∧
    ∀ q, Finite.succ u = some q → q ∉ S) ∧
  rs.Pairwise (fun r r' => ∀ x ∈ r, ∀ y ∈ r', x < y) ∧ ∀ x, x ∈ S ↔ ∃ r ∈ rs, x ∈ r

end NI
