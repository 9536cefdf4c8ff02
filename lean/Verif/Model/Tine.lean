import Verif.Model.RawInterval

/-! # Model of `src/tine.rs` -/

namespace NI

/-- src/tine.rs:35-42, `enum Tine<T>`. -/
inductive Tine (α : Type _)
  | lower (b : Bound α)
  | point (b : Bound α)
  | upper (b : Bound α)
  deriving DecidableEq, Repr

namespace Tine
variable {α : Type _}

/-- src/tine.rs:47-64, `from_raw_interval`: zero, one or two tines. -/
def fromRawInterval : RawInterval α → List (Tine α)
  | .empty => []
  | .point p => [point (.incl p)]
  | .opn l r => [lower (.excl l), upper (.excl r)]
  | .leftOpen l r => [lower (.excl l), upper (.incl r)]
  | .rightOpen l r => [lower (.incl l), upper (.excl r)]
  | .closed l r => [lower (.incl l), upper (.incl r)]
  | .upTo r => [lower .inf, upper (.excl r)]
  | .upFrom l => [lower (.excl l), upper .inf]
  | .to r => [lower .inf, upper (.incl r)]
  | .frm l => [lower (.incl l), upper .inf]
  | .full => [lower .inf, upper .inf]

/-- src/tine.rs:67-73. -/
def isLowerBound : Tine α → Bool
  | lower _ => true
  | point (.excl _) => true
  | _ => false

/-- src/tine.rs:76-82. -/
def isUpperBound : Tine α → Bool
  | upper _ => true
  | point (.excl _) => true
  | _ => false

/-- src/tine.rs:85-89. -/
def isPointInclude : Tine α → Bool
  | point (.incl _) => true
  | _ => false

/-- src/tine.rs:93-97. -/
def isPointExclude : Tine α → Bool
  | point (.excl _) => true
  | _ => false

/-- src/tine.rs:111-118, `into_inner`. -/
def intoInner : Tine α → Bound α
  | lower x => x
  | point x => x
  | upper x => x

/-- src/tine.rs:101-108, `as_ref`. -/
def asRef (t : Tine α) : Option α := t.intoInner.asRef

variable [LinearOrder α]

/-- src/tine.rs:122-169, `union`.  `ok none` is the annihilation case. -/
def union (dbg : Bool) (s o : Tine α) : Except Panic (Option (Tine α)) := do
  dassert dbg (s.asRef == o.asRef)
  match s, o with
  | lower (.incl l), lower (.excl _) => .ok (some (lower (.incl l)))
  | lower (.excl l), lower (.incl _) => .ok (some (lower (.incl l)))
  | lower lb, lower _ => .ok (some (lower lb))

  | lower (.incl l), point (.incl _) => .ok (some (lower (.incl l)))
  | lower (.incl _), point (.excl _) => .ok none
  | lower (.excl l), point (.incl _) => .ok (some (lower (.incl l)))
  | lower (.excl l), point (.excl _) => .ok (some (point (.excl l)))

  | lower (.incl _), upper (.incl _) => .ok none
  | lower (.incl _), upper (.excl _) => .ok none
  | lower (.excl _), upper (.incl _) => .ok none
  | lower (.excl l), upper (.excl _) => .ok (some (point (.excl l)))

  | point (.incl l), lower _ => .ok (some (lower (.incl l)))
  | point (.incl l), point (.incl _) => .ok (some (point (.incl l)))
  | point (.incl l), upper _ => .ok (some (upper (.incl l)))
  | point (.incl _), _ => .ok none

  | point (.excl l), lower (.excl _) => .ok (some (point (.excl l)))
  | point (.excl l), point (.excl _) => .ok (some (point (.excl l)))
  | point (.excl l), upper (.excl _) => .ok (some (point (.excl l)))
  | point (.excl _), _ => .ok none

  | upper (.incl _), lower (.incl _) => .ok none
  | upper (.incl _), lower (.excl _) => .ok none
  | upper (.excl _), lower (.incl _) => .ok none
  | upper (.excl l), lower (.excl _) => .ok (some (point (.excl l)))

  | upper (.incl l), point (.incl _) => .ok (some (upper (.incl l)))
  | upper (.incl _), point (.excl _) => .ok none
  | upper (.excl l), point (.incl _) => .ok (some (upper (.incl l)))
  | upper (.excl l), point (.excl _) => .ok (some (point (.excl l)))

  | upper (.incl l), upper (.excl _) => .ok (some (upper (.incl l)))
  | upper (.excl l), upper (.incl _) => .ok (some (upper (.incl l)))
  | upper lb, upper _ => .ok (some (upper lb))

  | _, _ => .error .unreachable

/-- src/tine.rs:173-214, `intersect`. -/
def intersect (dbg : Bool) (s o : Tine α) : Except Panic (Option (Tine α)) := do
  dassert dbg (s.asRef == o.asRef)
  match s, o with
  | lower (.incl l), lower (.excl _) => .ok (some (lower (.excl l)))
  | lower (.excl l), lower (.incl _) => .ok (some (lower (.excl l)))
  | lower lb, lower _ => .ok (some (lower lb))

  | lower (.incl l), point (.incl _) => .ok (some (point (.incl l)))
  | lower (.excl l), point (.excl _) => .ok (some (lower (.excl l)))
  | lower _, point _ => .ok none

  | lower (.incl l), upper (.incl _) => .ok (some (point (.incl l)))
  | lower _, upper _ => .ok none

  | point (.incl l), lower (.incl _) => .ok (some (point (.incl l)))
  | point (.incl l), point (.incl _) => .ok (some (point (.incl l)))
  | point (.incl l), upper (.incl _) => .ok (some (point (.incl l)))
  | point (.incl _), _ => .ok none

  | point (.excl l), lower _ => .ok (some (lower (.excl l)))
  | point (.excl _), point (.incl _) => .ok none
  | point (.excl l), point (.excl _) => .ok (some (point (.excl l)))
  | point (.excl l), upper _ => .ok (some (upper (.excl l)))

  | upper (.incl l), lower (.incl _) => .ok (some (point (.incl l)))
  | upper _, lower _ => .ok none

  | upper (.incl l), point (.incl _) => .ok (some (point (.incl l)))
  | upper (.excl l), point (.excl _) => .ok (some (upper (.excl l)))
  | upper _, point _ => .ok none

  | upper (.incl l), upper (.excl _) => .ok (some (upper (.excl l)))
  | upper (.excl l), upper (.incl _) => .ok (some (upper (.excl l)))
  | upper lb, upper _ => .ok (some (upper lb))

  | _, _ => .error .unreachable

/-- src/tine.rs:218-259, `minus`. -/
def minus (dbg : Bool) (s o : Tine α) : Except Panic (Option (Tine α)) := do
  dassert dbg (s.asRef == o.asRef)
  match s, o with
  | lower (.incl l), lower (.excl _) => .ok (some (point (.incl l)))
  | lower _, lower _ => .ok none

  | lower (.incl l), point (.incl _) => .ok (some (lower (.excl l)))
  | lower _, point _ => .ok none

  | lower (.incl l), upper (.incl _) => .ok (some (lower (.excl l)))
  | lower (.incl l), upper (.excl _) => .ok (some (lower (.incl l)))
  | lower (.excl l), upper (.incl _) => .ok (some (lower (.excl l)))
  | lower (.excl l), upper (.excl _) => .ok (some (lower (.excl l)))

  | point (.incl _), lower (.incl _) => .ok none
  | point (.incl _), point (.incl _) => .ok none
  | point (.incl _), upper (.incl _) => .ok none
  | point (.incl l), _ => .ok (some (point (.incl l)))

  | point (.excl l), lower _ => .ok (some (lower (.excl l)))
  | point (.excl l), point (.incl _) => .ok (some (point (.excl l)))
  | point (.excl _), point (.excl _) => .ok none
  | point (.excl l), upper _ => .ok (some (upper (.excl l)))

  | upper (.incl l), lower (.incl _) => .ok (some (upper (.excl l)))
  | upper (.incl l), lower (.excl _) => .ok (some (upper (.incl l)))
  | upper (.excl l), lower (.incl _) => .ok (some (upper (.excl l)))
  | upper (.excl l), lower (.excl _) => .ok (some (upper (.excl l)))

  | upper (.incl l), point (.incl _) => .ok (some (upper (.excl l)))
  | upper _, point _ => .ok none

  | upper (.incl l), upper (.excl _) => .ok (some (point (.incl l)))
  | upper _, upper _ => .ok none

  | _, _ => .error .unreachable

/-- src/tine.rs:267-279, `invert`; panics on infinite tines. -/
def invert : Tine α → Except Panic (Tine α)
  | lower (.incl p) => .ok (upper (.excl p))
  | lower (.excl p) => .ok (upper (.incl p))
  | point (.incl p) => .ok (point (.excl p))
  | point (.excl p) => .ok (point (.incl p))
  | upper (.incl p) => .ok (lower (.excl p))
  | upper (.excl p) => .ok (lower (.incl p))
  | _ => .error .explicit

/-- src/tine.rs:285-314, `partial_cmp` and `cmp`.  `none` is the `unreachable!` branch
(only `Point(Infinite)` reaches it); on two finite tines only the points are compared. -/
def cmp? (s o : Tine α) : Option Ordering :=
  match s.asRef, o.asRef with
  | some l, some r => some (if l < r then .lt else if l = r then .eq else .gt)
  | _, _ =>
    match s, o with
    | lower .inf, lower .inf => some .eq
    | upper .inf, upper .inf => some .eq
    | lower .inf, _ => some .lt
    | upper .inf, _ => some .gt
    | _, upper .inf => some .lt
    | _, lower .inf => some .gt
    | _, _ => none

/-- `Ord::cmp` as used by the `BTreeSet` operations.  The panicking comparison (`cmp? = none`) is
totalised to `eq`; property C34 shows that it never happens for tines that occur in a tree. -/
def cmp (s o : Tine α) : Ordering := (cmp? s o).getD .eq

end Tine
end NI
