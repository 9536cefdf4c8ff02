import Verif.Model.Selection
import Mathlib.Order.Bounds.Basic

/-! # What iterating from the back gives (C133)

All lists here run from the last interval to the first. -/

namespace NI

/-- Every other element of a list, beginning with the first. -/
def everyOther {β : Type _} : List β → List β
  | [] => []
  | [a] => [a]
  | a :: _ :: l => a :: everyOther l

/-- The list cut wherever neighbours are not joined. -/
def groups {β : Type _} (joined : β → β → Bool) : List β → List (List β)
  | [] => []
  | a :: l =>
    match l, groups joined l with
    | b :: _, g :: gs => if joined a b then (a :: g) :: gs else [a] :: g :: gs
    | _, gs => [a] :: gs

section
variable {α : Type _} [LinearOrder α]

/-- Between the interval `b` and `a`, which follows it, just one point is left out. -/
def RawInterval.joined (a b : RawInterval α) : Bool :=
  match b.upperBound, a.lowerBound with
  | some (.excl x), some (.excl y) => decide (x = y)
  | _, _ => false

/-- What a build with debug assertions lists: every other interval of each group of joined intervals. `none` stands
for a failed assertion; there is one if some group has an even number of intervals. -/
def backDebug (is : List (RawInterval α)) : Option (List (RawInterval α)) :=
  if (groups RawInterval.joined is).all (fun g => g.length % 2 == 1) then
    some ((groups RawInterval.joined is).flatMap everyOther)
  else none

/-- Where a build without debug assertions is. -/
inductive BackState (α : Type _)
  /-- it will list the next interval -/
  | list
  /-- it has taken the upper end of the next interval for the lower end `x` of the one before -/
  | skip (x : Bound α)
  /-- it will take the lower end `l` of an interval for an upper end; `x` as above, most recently -/
  | gap (x l : Bound α)

/-- The state after the end next to that of `a` has been used up. -/
def BackState.after (x : Bound α) (a : RawInterval α) (rest : List (RawInterval α)) : BackState α :=
  match rest with
  | b :: _ => if a.joined b then .list else .gap x (a.lowerBound.getD .inf)
  | [] => .gap x (a.lowerBound.getD .inf)

/-- What a build without debug assertions lists. -/
def backRelease : BackState α → List (RawInterval α) → List (RawInterval α)
  | .list, [] => []
  | .list, a :: rest =>
    a :: backRelease (match rest with
      | b :: _ => if a.joined b then .skip (a.lowerBound.getD .inf) else .list
      | [] => .list) rest
  | .skip _, [] => []
  | .skip x, a :: rest => backRelease (.after x a rest) rest
  | .gap x l, [] => [RawInterval.new x l]
  | .gap x l, a :: rest =>
    RawInterval.new (a.upperBound.getD .inf) l ::
      backRelease (match a with
        | .point _ => .list
        | a => .after x a rest) rest

end

/-- Between the run `b` and `a`, which follows it, just one value is missing. -/
def Interval.oneApart {α : Type _} [LinearOrder α] [Finite α] (a b : Interval α) : Bool :=
  match b.upperBound, a.lowerBound with
  | some (.incl u), some (.incl l) => decide ((Finite.succ u).bind Finite.succ = some l)
  | _, _ => false

/-- The groups up to the first one with an even number of members, this one included. -/
def throughEven {β : Type _} : List (List β) → List (List β)
  | [] => []
  | g :: gs => if g.length % 2 = 0 then [g] else g :: throughEven gs

/-- What comes out of an interval that is iterated from the back: its values, or, of an interval that has no value but
still has ends, its upper end. -/
def Interval.fromBack {α : Type _} [LinearOrder α] (i : Interval α) : Set α :=
  {x | i.contains x = true ∨ ((∀ y, i.contains y = false) ∧ i.upperBound = some (.incl x))}

/-- What comes out of an interval that is iterated from the front. -/
def Interval.fromFront {α : Type _} [LinearOrder α] (i : Interval α) : Set α :=
  {x | i.contains x = true ∨ ((∀ y, i.contains y = false) ∧ i.lowerBound = some (.incl x))}

/-- Sets are emptied one after the other, each by taking out the one of its elements that is `first`; `None` comes once
for each set without elements, and from the end on. -/
inductive Turns {α : Type _} (first : Set α → α → Prop) : Set α → List (Set α) → List (Option α) → Prop
  | nil {C l} : Turns first C l []
  | take {C l m os} : first C m → Turns first (C \ {m}) l os → Turns first C l (some m :: os)
  | turn {D l m os} : first D m → Turns first (D \ {m}) l os → Turns first ∅ (D :: l) (some m :: os)
  | skip {l os} : Turns first ∅ l os → Turns first ∅ (∅ :: l) (none :: os)
  | done {os} : Turns first ∅ [] os → Turns first ∅ [] (none :: os)

end NI
