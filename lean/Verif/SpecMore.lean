import Verif.SpecText

/-!
# Further specification vocabulary (C63 and later)
-/

namespace NI

/-- The `FusedIterator` promise about the results of successive calls: after the first `None` there
are only `None`s. -/
def Fused {β : Type _} (os : List (Option β)) : Prop := os.Pairwise fun a b => a = none → b = none

/-- What a double-ended iterator over a list has to return: each call takes an element from the front
(`next`) or from the back (`nextBack`), and returns `none` exactly if nothing is left. -/
inductive Deque {β : Type _} : List β → List IterCall → List (Option β) → Prop
  | nil l : Deque l [] []
  | next {a l cs os} : Deque l cs os → Deque (a :: l) (.next :: cs) (some a :: os)
  | nextBack {a l cs os} : Deque l cs os → Deque (l ++ [a]) (.nextBack :: cs) (some a :: os)
  | done {c cs os} : Deque [] cs os → Deque [] (c :: cs) (none :: os)

/-- The number of members of `l` that meet no member of `as`. -/
def missed {β γ : Type _} (meets : β → γ → Bool) (as : List β) (l : List γ) : Nat :=
  l.countP fun o => as.all fun s => !meets s o

/-- Two lists run in lock step: if the `p`-th member of the first meets the `k`-th member of the
second, then exactly `p` of the `k` members before that one meet nothing at all.  (So a member of the
second list never meets two of the first, and in the second list exactly one member that meets nothing
separates those that meet one member of the first list from those that meet the next.) -/
def LockStep {β γ : Type _} (meets : β → γ → Bool) (as : List β) (bs : List γ) : Prop :=
  ∀ (p : Fin as.length) (k : Fin bs.length), meets as[p] bs[k] = true →
    (p : Nat) = missed meets as (bs.take k)

instance {β γ : Type _} (meets : β → γ → Bool) (as : List β) (bs : List γ) :
    Decidable (LockStep meets as bs) := by unfold LockStep; infer_instance

/-- Two intervals share a point or contain neighbouring points. -/
def Interval.Near {α : Type _} [LinearOrder α] [Finite α] (i j : Interval α) : Prop :=
  ∃ x ∈ i.pts, ∃ y ∈ j.pts, x = y ∨ Finite.succ x = some y ∨ Finite.succ y = some x

/-- Two intervals share a point. -/
def Interval.Overlap {α : Type _} [LinearOrder α] (i j : Interval α) : Prop :=
  ∃ x, x ∈ i.pts ∧ x ∈ j.pts

namespace RawInterval
variable {α : Type _} [LinearOrder α]

/-- Some interval of `is` covers the stretch just below the place `p` of the extended line. -/
def CoversBelow (is : List (RawInterval α)) (p : WithBot (WithTop α)) : Prop :=
  ∃ j ∈ is, ∃ l u, j.lowerBound = some l ∧ j.upperBound = some u ∧
    (Tine.lower l).pos < p ∧ p ≤ (Tine.upper u).pos

/-- Some interval of `is` covers the stretch just above `p`. -/
def CoversAbove (is : List (RawInterval α)) (p : WithBot (WithTop α)) : Prop :=
  ∃ j ∈ is, ∃ l u, j.lowerBound = some l ∧ j.upperBound = some u ∧
    (Tine.lower l).pos ≤ p ∧ p < (Tine.upper u).pos

/-- Some interval of `is` contains `p`. -/
def CoversAt (is : List (RawInterval α)) (p : WithBot (WithTop α)) : Prop :=
  ∃ j ∈ is, ∃ x : α, p = ((x : WithTop α) : WithBot (WithTop α)) ∧ x ∈ j.pts

/-- Some interval of `is` shares the end `p` of `i` with `i`. -/
def SharesAt (is : List (RawInterval α)) (i : RawInterval α) (p : WithBot (WithTop α)) : Prop :=
  ∃ j ∈ is, ∃ x : α, p = ((x : WithTop α) : WithBot (WithTop α)) ∧ x ∈ j.pts ∧ x ∈ i.pts

/-- The ways in which the ends `p` and `q` of `i` may lie relative to the intervals `is` of a tree for
`intersect_in_place` to be right: both ends are covered on the inner side; or one end is passed over by
the tree while nothing comes near the other; or nothing comes near either end, except that an excluded
end is an isolated point of the tree; or (without debug assertions) both ends are included and are
contained in the tree, which leaves them immediately. -/
def CutClean (dbg : Bool) (is : List (RawInterval α)) (i : RawInterval α) : Prop :=
  ∃ l u, i.lowerBound = some l ∧ i.upperBound = some u ∧
    let p := (Tine.lower l).pos
    let q := (Tine.upper u).pos
    (CoversAbove is p ∧ CoversBelow is q) ∨
    (CoversBelow is p ∧ CoversAbove is p ∧
      ¬ CoversBelow is q ∧ ¬ CoversAbove is q ∧ ¬ SharesAt is i q) ∨
    (¬ CoversBelow is p ∧ ¬ CoversAbove is p ∧ ¬ SharesAt is i p ∧
      CoversBelow is q ∧ CoversAbove is q) ∨
    (¬ CoversBelow is p ∧ ¬ CoversAbove is p ∧ ¬ SharesAt is i p ∧
      ¬ CoversBelow is q ∧ ¬ CoversAbove is q ∧ ¬ SharesAt is i q ∧
      (CoversAt is p ∨ CoversAt is q)) ∨
    (dbg = false ∧ ¬ CoversAbove is p ∧ ¬ CoversBelow is q ∧ SharesAt is i p ∧ SharesAt is i q)

end RawInterval

/-! ## Programs over selections (C69, C70) -/

section Programs
variable {α : Type _}

/-- A program that builds a selection with the operations of the API. -/
inductive SelProg (α : Type _)
  | empty
  | full
  | interval (i : Interval α)
  | intervals (is : List (Interval α))
  | points (xs : List α)
  | complement (p : SelProg α)
  | union (p q : SelProg α)
  | intersect (p q : SelProg α)
  | minus (p q : SelProg α)
  | unionIn (p : SelProg α) (i : Interval α)
  | minusIn (p : SelProg α) (i : Interval α)
  | intersectIn (p : SelProg α) (i : Interval α)
  | extend (p : SelProg α) (is : List (Interval α))

/-- A question put to a selection.  (`points` and `walk` drive the point and the interval iterator
through a series of calls.) -/
inductive SelQuery (α : Type _)
  | contains (x : α)
  | intersects (p : SelProg α)
  | isEmpty
  | isFull
  | infimum
  | supremum
  | lowerBound
  | upperBound
  | isBounded
  | isLeftBounded
  | isRightBounded
  | isHalfBounded
  | enclose
  | closure
  | intervals
  | intervalsBack
  | points (cs : List IterCall)
  | walk (cs : List IterCall)

/-- The answer to a question. -/
inductive SelAnswer (α : Type _)
  | bool (b : Bool)
  | value (x : Option α)
  | bound (b : Option (Bound α))
  | interval (i : Interval α)
  | intervals (is : List (Interval α))
  | points (os : List (Option α))
  | walk (os : List (Option (Interval α)))
  deriving DecidableEq

variable [LinearOrder α] [Finite α]

/-- Run a program, in a build with (`dbg = true`) or without debug assertions. -/
def SelProg.eval (dbg : Bool) : SelProg α → Except Panic (Selection α)
  | .empty => .ok Selection.new
  | .full => .ok Selection.full
  | .interval i => .ok (Selection.ofInterval i)
  | .intervals is => Selection.fromIntervals dbg is
  | .points xs => Selection.fromPoints dbg xs
  | .complement p => do (← p.eval dbg).complement dbg
  | .union p q => do (← p.eval dbg).union dbg (← q.eval dbg)
  | .intersect p q => do (← p.eval dbg).intersect dbg (← q.eval dbg)
  | .minus p q => do (← p.eval dbg).minus dbg (← q.eval dbg)
  | .unionIn p i => do (← p.eval dbg).unionInPlace dbg i
  | .minusIn p i => do (← p.eval dbg).minusInPlace dbg i
  | .intersectIn p i => do (← p.eval dbg).intersectInPlace dbg i
  | .extend p is => do (← p.eval dbg).extend dbg is

/-- Put a question to a selection. -/
def SelQuery.ask (dbg : Bool) (s : Selection α) : SelQuery α → Except Panic (SelAnswer α)
  | .contains x => do .ok (.bool (← s.contains dbg x))
  | .intersects p => do .ok (.bool (← s.intersects dbg (← p.eval dbg)))
  | .isEmpty => .ok (.bool s.isEmpty)
  | .isFull => .ok (.bool s.isFull)
  | .infimum => .ok (.value s.infimum)
  | .supremum => .ok (.value s.supremum)
  | .lowerBound => do .ok (.bound (← s.lowerBound dbg))
  | .upperBound => do .ok (.bound (← s.upperBound dbg))
  | .isBounded => do .ok (.bool (← s.isBounded dbg))
  | .isLeftBounded => do .ok (.bool (← s.isLeftBounded dbg))
  | .isRightBounded => do .ok (.bool (← s.isRightBounded dbg))
  | .isHalfBounded => do .ok (.bool (← s.isHalfBounded dbg))
  | .enclose => do .ok (.interval (← s.enclose dbg))
  | .closure => do .ok (.interval (← s.closure dbg))
  | .intervals => do .ok (.intervals (← s.intervals dbg))
  | .intervalsBack => do .ok (.intervals (← s.intervalsBack dbg))
  | .points cs => do
    .ok (.points (← drive (PointIter.next dbg) (PointIter.nextBack dbg) (PointIter.start s) cs))
  | .walk cs => do
    .ok (.walk (← drive (Selection.intervalNext dbg) (Selection.intervalNextBack dbg)
      (TineIter.start s.tree) cs))

/-- Programs that only unite intervals with points, and points. -/
def SelProg.Plain : SelProg α → Prop
  | .empty | .full | .points _ => True
  | .interval i => i.Obtainable ∧ i.Real
  | .intervals is => ∀ i ∈ is, i.Obtainable ∧ i.Real
  | .union p q => p.Plain ∧ q.Plain
  | .unionIn p i => p.Plain ∧ i.Obtainable ∧ i.Real
  | .extend p is => p.Plain ∧ ∀ i ∈ is, i.Obtainable ∧ i.Real
  | .complement _ | .intersect _ _ | .minus _ _ | .minusIn _ _ | .intersectIn _ _ => False

/-- Programs without `intersect_in_place`, that subtract only the results of plain programs. -/
def SelProg.Safe : SelProg α → Prop
  | .empty | .full | .points _ => True
  | .interval i => i.Obtainable
  | .intervals is => ∀ i ∈ is, i.Obtainable
  | .complement p => p.Safe
  | .union p q | .intersect p q => p.Safe ∧ q.Safe
  | .minus p q => p.Safe ∧ q.Plain
  | .unionIn p i | .minusIn p i => p.Safe ∧ i.Obtainable
  | .extend p is => p.Safe ∧ ∀ i ∈ is, i.Obtainable
  | .intersectIn _ _ => False

/-- Questions other than iterating from the back. -/
def SelQuery.Safe : SelQuery α → Prop
  | .intersects p => p.Safe
  | .intervalsBack => False
  | .points cs | .walk cs => ∀ c ∈ cs, c = .next
  | _ => True

end Programs

section Canonical
variable {α : Type _} [LinearOrder α]

/-- `i` ends before `j` starts and something lies between them: another value of the bound, or the
one point both exclude. -/
def RawInterval.Apart (i j : RawInterval α) : Prop :=
  ∃ u l, i.upperBound = some u ∧ j.lowerBound = some l ∧
    ((∃ p q, u.asRef = some p ∧ l.asRef = some q ∧ p < q) ∨ ∃ p, u = .excl p ∧ l = .excl p)

/-- Lists of non-empty intervals in order with something missing between any two of them. -/
def RawInterval.Canonical (is : List (RawInterval α)) : Prop :=
  (∀ i ∈ is, i.WF ∧ i ≠ .empty) ∧ is.Pairwise RawInterval.Apart

/-- As lower bounds, `a` is not behind `b`. -/
def Bound.NotBehind : Bound α → Bound α → Prop
  | .inf, _ => True
  | _, .inf => False
  | .excl a, .incl b => a < b
  | .incl a, .incl b | .incl a, .excl b | .excl a, .excl b => a ≤ b

/-- `i` does not start behind `j`; nothing is asked if one of them is `Empty`. -/
def RawInterval.StartsBefore (i j : RawInterval α) : Prop :=
  ∀ a ∈ i.lowerBound, ∀ b ∈ j.lowerBound, a.NotBehind b

end Canonical

section Text
variable {α ε : Type} [Text α ε]

/-- The syntax of a lower bound, without anything between the infinity sign and the comma. -/
inductive StrictLower : Str → Bound α → Prop
  | inf : StrictLower ['(', '-', '∞'] .inf
  | excl {v : Str} {p : α} : Text.parse v = .ok p → StrictLower ('(' :: v) (.excl p)
  | incl {v : Str} {p : α} : Text.parse v = .ok p → StrictLower ('[' :: v) (.incl p)

/-- The syntax of an upper bound, without anything between the comma and the infinity sign. -/
inductive StrictUpper : Str → Bound α → Prop
  | inf : StrictUpper ['∞', ')'] .inf
  | excl {v : Str} {p : α} : Text.parse v = .ok p → StrictUpper (v ++ [')']) (.excl p)
  | incl {v : Str} {p : α} : Text.parse v = .ok p → StrictUpper (v ++ [']']) (.incl p)

/-- The strings `Display` can print, up to the spelling of values, and what they stand for. -/
inductive StrictText [LinearOrder α] : Str → RawInterval α → Prop
  | empty : StrictText ['Ø'] .empty
  | point {s : Str} {p : α} : Text.parse s = .ok p → StrictText s (.point p)
  | pair {x y : Str} {lb ub : Bound α} : StrictLower x lb → StrictUpper y ub →
      StrictText (x ++ ',' :: y) (RawInterval.new lb ub)

end Text
end NI
