import Verif.Model.Selection
import Mathlib.Order.Interval.Set.Defs
import Mathlib.Order.Bounds.Defs
import Mathlib.Data.Set.Defs
import Mathlib.Order.WithBot

/-!
# Specification vocabulary

Independent notions in which the properties are stated.  Nothing here refers to how the code
computes; only the API's data types are mentioned.
-/

namespace NI

namespace Bound
variable {α : Type _} [LinearOrder α]

/-- `x` lies on the inner side of `b` seen as a lower bound. -/
def AdmitsAbove : Bound α → α → Prop
  | incl a, x => a ≤ x
  | excl a, x => a < x
  | inf, _ => True

/-- `x` lies on the inner side of `b` seen as an upper bound. -/
def AdmitsBelow : Bound α → α → Prop
  | incl a, x => x ≤ a
  | excl a, x => x < a
  | inf, _ => True

end Bound

namespace RawInterval
variable {α : Type _} [LinearOrder α]

/-- The set of points an interval notation denotes. -/
def pts : RawInterval α → Set α
  | empty => ∅
  | point p => {p}
  | opn l r => Set.Ioo l r
  | leftOpen l r => Set.Ioc l r
  | rightOpen l r => Set.Ico l r
  | closed l r => Set.Icc l r
  | upTo p => Set.Iio p
  | upFrom p => Set.Ioi p
  | «to» p => Set.Iic p
  | frm p => Set.Ici p
  | full => Set.univ

/-- Well formed: the ends of a two-ended interval are in order and different.  This is what the
public constructors of `RawInterval` (`new`, `open`, `closed`, ..) guarantee. -/
def WF : RawInterval α → Prop
  | opn l r => l < r
  | leftOpen l r => l < r
  | rightOpen l r => l < r
  | closed l r => l < r
  | _ => True

instance (i : RawInterval α) : Decidable i.WF := by
  cases i <;> unfold WF <;> infer_instance

end RawInterval

/-- The laws a `Finite` implementation has to obey to be meaningful: `MINIMUM`/`MAXIMUM` are the
extreme values, `pred`/`succ` are the immediate neighbours and `None` exactly at the extremes. -/
class LawfulFinite (α : Type _) [LinearOrder α] [Finite α] : Prop where
  min_le : ∀ a : α, Finite.minimum ≤ a
  le_max : ∀ a : α, a ≤ Finite.maximum
  pred_none : ∀ a : α, Finite.pred a = none ↔ a = Finite.minimum
  pred_some : ∀ a b : α, Finite.pred a = some b → b < a ∧ ∀ c, c < a → c ≤ b
  succ_none : ∀ a : α, Finite.succ a = none ↔ a = Finite.maximum
  succ_some : ∀ a b : α, Finite.succ a = some b → a < b ∧ ∀ c, a < c → b ≤ c

/-- The values of `Interval<T>` that the public API can produce: constructors, conversions (from raw
intervals built by the raw constructors), set operations, and interval iteration. -/
inductive Interval.Obtainable {α : Type _} [LinearOrder α] [Finite α] : Interval α → Prop
  | new l r : Obtainable (Interval.new l r)
  | empty : Obtainable Interval.empty
  | point p : Obtainable (Interval.point p)
  | mkOpen l r : Obtainable (Interval.mkOpen l r)
  | mkLeftOpen l r : Obtainable (Interval.mkLeftOpen l r)
  | mkRightOpen l r : Obtainable (Interval.mkRightOpen l r)
  | mkClosed l r : Obtainable (Interval.mkClosed l r)
  | mkLeftClosed l r : Obtainable (Interval.mkLeftClosed l r)
  | mkRightClosed l r : Obtainable (Interval.mkRightClosed l r)
  | unboundedFrom p : Obtainable (Interval.unboundedFrom p)
  | unboundedTo p : Obtainable (Interval.unboundedTo p)
  | unboundedUpFrom p : Obtainable (Interval.unboundedUpFrom p)
  | unboundedUpTo p : Obtainable (Interval.unboundedUpTo p)
  | full : Obtainable Interval.full
  | ofRaw r : r.WF → Obtainable (Interval.ofRaw r)
  | ofPoint p : Obtainable (Interval.ofPoint p)
  | ofRange a b : Obtainable (Interval.ofRange a b)
  | ofRangeFrom a : Obtainable (Interval.ofRangeFrom a)
  | ofRangeTo a : Obtainable (Interval.ofRangeTo a)
  | ofRangeToInclusive a : Obtainable (Interval.ofRangeToInclusive a)
  | ofRangeFull : Obtainable Interval.ofRangeFull
  | intersect {a b} : Obtainable a → Obtainable b → Obtainable (a.intersect b)
  | union {a b c} : Obtainable a → Obtainable b → c ∈ a.union b → Obtainable c
  | minus {a b c} : Obtainable a → Obtainable b → c ∈ a.minus b → Obtainable c
  | complement {a c} : Obtainable a → c ∈ a.complement → Obtainable c
  | enclose {a b} : Obtainable a → Obtainable b → Obtainable (a.enclose b)
  | closure {a} : Obtainable a → Obtainable a.closure

namespace Interval
variable {α : Type _} [LinearOrder α]

/-- The points an `Interval` contains, by its own `contains`. -/
def pts (i : Interval α) : Set α := {x | i.contains x = true}

/-- Either reports being empty or does contain a point.  (Normalizing the open interval between two
neighbours gives a value which is neither.) -/
def Real (i : Interval α) : Prop := i.isEmpty = true ∨ ∃ x, i.contains x = true

end Interval

/-- The two calls of a double-ended iterator. -/
inductive IterCall
  | next
  | nextBack
  deriving DecidableEq

/-- What a double-ended walk over a set of points has to return: each call takes away the least
(`next`) or greatest (`nextBack`) remaining point, and returns `none` exactly if there is none. -/
inductive Walk {α : Type _} [LinearOrder α] : Set α → List IterCall → List (Option α) → Prop
  | nil S : Walk S [] []
  | next {S m cs os} : IsLeast S m → Walk (S \ {m}) cs os → Walk S (.next :: cs) (some m :: os)
  | nextBack {S m cs os} : IsGreatest S m → Walk (S \ {m}) cs os →
      Walk S (.nextBack :: cs) (some m :: os)
  | done {S c cs os} : S = ∅ → Walk S cs os → Walk S (c :: cs) (none :: os)

/-- Drive an iterator, given by its state and its two step functions, through a list of calls. -/
def drive {σ α : Type _} (next nextBack : σ → Except Panic (Option α × σ)) :
    σ → List IterCall → Except Panic (List (Option α))
  | _, [] => .ok []
  | s, c :: cs => do
    let (o, s') ← match c with
      | .next => next s
      | .nextBack => nextBack s
    return o :: (← drive next nextBack s' cs)

/-- The weaker promise that the order of a walk is left open: each call takes away some remaining
point, and returns `none` exactly if there is none. -/
inductive Drain {α : Type _} : Set α → List (Option α) → Prop
  | nil S : Drain S []
  | some {S m os} : m ∈ S → Drain (S \ {m}) os → Drain S (some m :: os)
  | none {S os} : S = ∅ → Drain S os → Drain S (none :: os)

/-- The trees that can be built with the operations of `TineTree` that are always correct.
(`minus_in_place`, `minus` and `intersect_in_place` can leave a corrupt tree behind, see C37, C38 and
C42; where they are correct the result is again `Reachable`.) -/
inductive TineTree.Reachable {α : Type _} [LinearOrder α] : TineTree α → Prop
  | new : Reachable TineTree.new
  | fromRaw {i : RawInterval α} : i.WF → Reachable (TineTree.fromRawInterval i)
  | unionInPlace {dbg t i t'} : Reachable t → RawInterval.WF i →
      TineTree.unionInPlace dbg t i = .ok t' → Reachable t'
  | union {dbg a b t'} : Reachable a → Reachable b → TineTree.union dbg a b = .ok t' → Reachable t'
  | complement {dbg t t'} : Reachable t → TineTree.complement dbg t = .ok t' → Reachable t'
  | intersect {dbg a b t'} : Reachable a → Reachable b → TineTree.intersect dbg a b = .ok t' →
      Reachable t'

/-- The trees that any sequence of operations of `TineTree` builds in a debug build without panicking,
corrupt ones included. -/
inductive TineTree.Built {α : Type _} [LinearOrder α] : TineTree α → Prop
  | new : Built TineTree.new
  | fromRaw {i : RawInterval α} : i.WF → Built (TineTree.fromRawInterval i)
  | fromIter {is t'} : (∀ i ∈ is, RawInterval.WF i) → TineTree.fromIter true is = .ok t' → Built t'
  | unionInPlace {t i t'} : Built t → RawInterval.WF i → TineTree.unionInPlace true t i = .ok t' → Built t'
  | minusInPlace {t i t'} : Built t → RawInterval.WF i → TineTree.minusInPlace true t i = .ok t' → Built t'
  | intersectInPlace {t i t'} : Built t → RawInterval.WF i → TineTree.intersectInPlace true t i = .ok t' →
      Built t'
  | union {a b t'} : Built a → Built b → TineTree.union true a b = .ok t' → Built t'
  | minus {a b t'} : Built a → Built b → TineTree.minus true a b = .ok t' → Built t'
  | intersect {a b t'} : Built a → Built b → TineTree.intersect true a b = .ok t' → Built t'
  | complement {t t'} : Built t → TineTree.complement true t = .ok t' → Built t'

namespace RawInterval
variable {α : Type _} [LinearOrder α]

/-- Neither `Empty` nor a single point. -/
def TwoEnded (i : RawInterval α) : Prop := i ≠ empty ∧ ∀ p, i ≠ point p

/-- `p` is one of the finite bounds of `i`, included or not. -/
def IsBound (i : RawInterval α) (p : α) : Prop :=
  (∃ b, i.lowerBound = some b ∧ b.asRef = some p) ∨ (∃ b, i.upperBound = some b ∧ b.asRef = some p)

/-- One of the intervals ends at `p` without including it. -/
def OpenEnd (is : List (RawInterval α)) (p : α) : Prop := ∃ i ∈ is, i.upperBound = some (.excl p)

/-- One of the intervals starts at `p` without including it. -/
def OpenStart (is : List (RawInterval α)) (p : α) : Prop := ∃ i ∈ is, i.lowerBound = some (.excl p)

/-- `p` is a single missing point: one interval ends and another one starts at `p`, neither
includes it. -/
def Hole (is : List (RawInterval α)) (p : α) : Prop := OpenEnd is p ∧ OpenStart is p

/-- The situations in which `minus_in_place` removes `i` correctly from a tree with intervals `is`:
a single point must not be an excluded bound of the tree, and the bounds of a two-ended interval must
not be holes of the tree. -/
def RemovalSafe (is : List (RawInterval α)) (i : RawInterval α) : Prop :=
  (∀ p, i = point p → ¬ OpenEnd is p ∧ ¬ OpenStart is p) ∧
  (i.TwoEnded → ∀ p, i.IsBound p → ¬ Hole is p)

/-- The two ends of `i` lie inside (two, possibly the same) intervals of `is`. -/
def EndsInside (is : List (RawInterval α)) (i : RawInterval α) : Prop :=
  (∃ j ∈ is, (j.intersect i).TwoEnded ∧ (j.intersect i).infimum = i.infimum) ∧
  ∃ j ∈ is, (j.intersect i).TwoEnded ∧ (j.intersect i).supremum = i.supremum

end RawInterval

/-- Where a tine sits on the line extended by the two infinities. -/
def Tine.pos {α : Type _} : Tine α → WithBot (WithTop α)
  | .lower (.incl x) => ((x : WithTop α) : WithBot (WithTop α))
  | .lower (.excl x) => ((x : WithTop α) : WithBot (WithTop α))
  | .lower .inf => ⊥
  | .point (.incl x) => ((x : WithTop α) : WithBot (WithTop α))
  | .point (.excl x) => ((x : WithTop α) : WithBot (WithTop α))
  | .point .inf => ⊥
  | .upper (.incl x) => ((x : WithTop α) : WithBot (WithTop α))
  | .upper (.excl x) => ((x : WithTop α) : WithBot (WithTop α))
  | .upper .inf => ((⊤ : WithTop α) : WithBot (WithTop α))

/-- The tines that occur: those of the trees and those of the intervals given to their
operations. -/
def Tine.Occurs {α : Type _} [LinearOrder α] (x : Tine α) : Prop :=
  (∃ i : RawInterval α, i.WF ∧ x ∈ Tine.fromRawInterval i) ∨ ∃ t, TineTree.Reachable t ∧ x ∈ t

/-- The points a `Selection` contains, by its own `contains` (in a debug or release build). -/
def Selection.pts {α : Type _} [LinearOrder α] (dbg : Bool) (s : Selection α) : Set α :=
  {x | s.contains dbg x = .ok true}

/-- The selection contains `x` or the value just below it. -/
def Selection.TouchesBelow {α : Type _} [LinearOrder α] [Finite α] (dbg : Bool) (s : Selection α)
    (x : α) : Prop := x ∈ s.pts dbg ∨ ∃ p ∈ s.pts dbg, Finite.pred x = some p

/-- The selection contains `x` or the value just above it. -/
def Selection.TouchesAbove {α : Type _} [LinearOrder α] [Finite α] (dbg : Bool) (s : Selection α)
    (x : α) : Prop := x ∈ s.pts dbg ∨ ∃ q ∈ s.pts dbg, Finite.succ x = some q

/-- The selections that can be built with the operations of `Selection`.  Of `minus` and
`intersect_in_place`, which can leave a corrupt tree behind (see C51 and C53), those results are included whose
tree is a proper one. -/
inductive Selection.Reachable {α : Type _} [LinearOrder α] [Finite α] : Selection α → Prop
  | new : Reachable Selection.new
  | full : Reachable Selection.full
  | ofInterval {i : Interval α} : i.Obtainable → Reachable (Selection.ofInterval i)
  | unionInPlace {dbg s i s'} : Reachable s → Interval.Obtainable i →
      Selection.unionInPlace dbg s i = .ok s' → Reachable s'
  | minusInPlace {dbg s i s'} : Reachable s → Interval.Obtainable i →
      Selection.minusInPlace dbg s i = .ok s' → Reachable s'
  | extend {dbg s is s'} : Reachable s → (∀ i ∈ is, Interval.Obtainable i) →
      Selection.extend dbg s is = .ok s' → Reachable s'
  | fromIntervals {dbg is s'} : (∀ i ∈ is, Interval.Obtainable i) →
      Selection.fromIntervals dbg is = .ok s' → Reachable s'
  | fromPoints {dbg xs s'} : Selection.fromPoints dbg xs = .ok s' → Reachable s'
  | union {dbg a b s'} : Reachable a → Reachable b → Selection.union dbg a b = .ok s' → Reachable s'
  | complement {dbg s s'} : Reachable s → Selection.complement dbg s = .ok s' → Reachable s'
  | intersect {dbg a b s'} : Reachable a → Reachable b → Selection.intersect dbg a b = .ok s' →
      Reachable s'
  | minus {dbg a b s'} : Reachable a → Reachable b → Selection.minus dbg a b = .ok s' →
      TineTree.Reachable s'.tree → Reachable s'
  | intersectInPlace {dbg s i s'} : Reachable s → Interval.Obtainable i →
      Selection.intersectInPlace dbg s i = .ok s' → TineTree.Reachable s'.tree → Reachable s'

/-- The selections that any sequence of operations of `Selection` builds in a debug build without
panicking, corrupt ones included. -/
inductive Selection.Built {α : Type _} [LinearOrder α] [Finite α] : Selection α → Prop
  | new : Built Selection.new
  | full : Built Selection.full
  | ofInterval {i : Interval α} : i.Obtainable → Built (Selection.ofInterval i)
  | unionInPlace {s i s'} : Built s → Interval.Obtainable i →
      Selection.unionInPlace true s i = .ok s' → Built s'
  | minusInPlace {s i s'} : Built s → Interval.Obtainable i →
      Selection.minusInPlace true s i = .ok s' → Built s'
  | intersectInPlace {s i s'} : Built s → Interval.Obtainable i →
      Selection.intersectInPlace true s i = .ok s' → Built s'
  | extend {s is s'} : Built s → (∀ i ∈ is, Interval.Obtainable i) →
      Selection.extend true s is = .ok s' → Built s'
  | fromIntervals {is s'} : (∀ i ∈ is, Interval.Obtainable i) →
      Selection.fromIntervals true is = .ok s' → Built s'
  | fromPoints {xs s'} : Selection.fromPoints true xs = .ok s' → Built s'
  | union {a b s'} : Built a → Built b → Selection.union true a b = .ok s' → Built s'
  | minus {a b s'} : Built a → Built b → Selection.minus true a b = .ok s' → Built s'
  | intersect {a b s'} : Built a → Built b → Selection.intersect true a b = .ok s' → Built s'
  | complement {s s'} : Built s → Selection.complement true s = .ok s' → Built s'

/-- The selections made of single intervals by complement, intersection and union. -/
inductive Selection.Made {α : Type _} [LinearOrder α] [Finite α] : Selection α → Prop
  | ofInterval {i : Interval α} : i.Obtainable → Made (Selection.ofInterval i)
  | complement {s s'} : Made s → Selection.complement true s = .ok s' → Made s'
  | intersect {a b s'} : Made a → Made b → Selection.intersect true a b = .ok s' → Made s'
  | union {a b s'} : Made a → Made b → Selection.union true a b = .ok s' → Made s'

/-- The selections built by uniting intervals and points, the usual way of making one. -/
inductive Selection.UnionBuilt {α : Type _} [LinearOrder α] [Finite α] : Selection α → Prop
  | new : UnionBuilt Selection.new
  | full : UnionBuilt Selection.full
  | ofInterval {i : Interval α} : i.Obtainable → i.Real → UnionBuilt (Selection.ofInterval i)
  | unionInPlace {dbg s i s'} : UnionBuilt s → Interval.Obtainable i → Interval.Real i →
      Selection.unionInPlace dbg s i = .ok s' → UnionBuilt s'
  | extend {dbg s is s'} : UnionBuilt s → (∀ i ∈ is, Interval.Obtainable i ∧ Interval.Real i) →
      Selection.extend dbg s is = .ok s' → UnionBuilt s'
  | fromIntervals {dbg is s'} : (∀ i ∈ is, Interval.Obtainable i ∧ Interval.Real i) →
      Selection.fromIntervals dbg is = .ok s' → UnionBuilt s'
  | fromPoints {dbg xs s'} : Selection.fromPoints dbg xs = .ok s' → UnionBuilt s'
  | union {dbg a b s'} : UnionBuilt a → UnionBuilt b → Selection.union dbg a b = .ok s' →
      UnionBuilt s'

/-- Union-built selections and their complements. -/
def Selection.Tidy {α : Type _} [LinearOrder α] [Finite α] (s : Selection α) : Prop :=
  s.UnionBuilt ∨ ∃ dbg s0, Selection.UnionBuilt s0 ∧ Selection.complement dbg s0 = .ok s

/-- Tidy selections, and what unions and interval removals make of them. -/
inductive Selection.Solid {α : Type _} [LinearOrder α] [Finite α] : Selection α → Prop
  | tidy {s} : Selection.Tidy s → Solid s
  | unionInPlace {dbg s i s'} : Solid s → Interval.Obtainable i → Interval.Real i →
      Selection.unionInPlace dbg s i = .ok s' → Solid s'
  | extend {dbg s is s'} : Solid s → (∀ i ∈ is, Interval.Obtainable i ∧ Interval.Real i) →
      Selection.extend dbg s is = .ok s' → Solid s'
  | union {dbg a b s'} : Solid a → Solid b → Selection.union dbg a b = .ok s' → Solid s'
  | minusInPlace {dbg s i s'} : Solid s → Interval.Obtainable i →
      Selection.minusInPlace dbg s i = .ok s' → Solid s'

/-- Selections made by carving intervals and union-built selections out of one interval, out of a
union-built selection in which no single point is missing between two neighbours, or out of the
complement of a union-built selection. -/
inductive Selection.Carved {α : Type _} [LinearOrder α] [Finite α] : Selection α → Prop
  | new : Carved Selection.new
  | full : Carved Selection.full
  | ofInterval {i : Interval α} : i.Obtainable → Carved (Selection.ofInterval i)
  | built {s : Selection α} : s.UnionBuilt →
      (∀ p x q, Finite.pred x = some p → Finite.succ x = some q → p ∈ s.pts true → q ∈ s.pts true →
        x ∈ s.pts true) → Carved s
  | complement {dbg s s'} : Selection.UnionBuilt s → Selection.complement dbg s = .ok s' → Carved s'
  | minusInPlace {dbg s i s'} : Carved s → Interval.Obtainable i →
      Selection.minusInPlace dbg s i = .ok s' → Carved s'
  | minus {dbg s b s'} : Carved s → Selection.UnionBuilt b →
      Selection.minus dbg s b = .ok s' → Carved s'

/-- Expressions over the constructors, union and complement of `Selection`. -/
inductive SelExpr (α : Type)
  | empty
  | full
  | ofInterval (i : Interval α)
  | collectIntervals (is : List (Interval α))
  | collectPoints (xs : List α)
  | unionInPlace (e : SelExpr α) (i : Interval α)
  | extend (e : SelExpr α) (is : List (Interval α))
  | union (a b : SelExpr α)
  | complement (e : SelExpr α)

namespace SelExpr
variable {α : Type} [LinearOrder α] [Finite α]

/-- Run the expression with the API. -/
def eval (dbg : Bool) : SelExpr α → Except Panic (Selection α)
  | empty => .ok Selection.new
  | full => .ok Selection.full
  | ofInterval i => .ok (Selection.ofInterval i)
  | collectIntervals is => Selection.fromIntervals dbg is
  | collectPoints xs => Selection.fromPoints dbg xs
  | unionInPlace e i => do Selection.unionInPlace dbg (← e.eval dbg) i
  | extend e is => do Selection.extend dbg (← e.eval dbg) is
  | union a b => do Selection.union dbg (← a.eval dbg) (← b.eval dbg)
  | complement e => do Selection.complement dbg (← e.eval dbg)

omit [Finite α] in
/-- The set the expression denotes. -/
def denote : SelExpr α → α → Prop
  | empty => fun _ => False
  | full => fun _ => True
  | ofInterval i => fun x => i.contains x = true
  | collectIntervals is => fun x => ∃ i ∈ is, i.contains x = true
  | collectPoints xs => fun x => x ∈ xs
  | unionInPlace e i => fun x => e.denote x ∨ i.contains x = true
  | extend e is => fun x => e.denote x ∨ ∃ i ∈ is, i.contains x = true
  | union a b => fun x => a.denote x ∨ b.denote x
  | complement e => fun x => ¬ e.denote x

/-- Every interval in the expression is one the API can produce. -/
def Legal : SelExpr α → Prop
  | empty => True
  | full => True
  | ofInterval i => i.Obtainable
  | collectIntervals is => ∀ i ∈ is, i.Obtainable
  | collectPoints _ => True
  | unionInPlace e i => e.Legal ∧ i.Obtainable
  | extend e is => e.Legal ∧ ∀ i ∈ is, i.Obtainable
  | union a b => a.Legal ∧ b.Legal
  | complement e => e.Legal

end SelExpr
end NI
