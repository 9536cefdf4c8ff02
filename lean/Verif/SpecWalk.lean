import Verif.SpecMore

/-! # Vocabulary for walking through two lists at once, and for cutting a selection -/

namespace NI

/-- A walk through a list `l` with a finger on a second list `as`, at first on its `n`-th member: each
member of `l` that does not meet the one under the finger moves the finger on by one.  The result is where
the finger ends up. -/
def finger {β γ : Type _} (meets : β → γ → Bool) (as : List β) : List γ → Nat → Nat
  | [], n => n
  | o :: l, n => finger meets as l (if as[n]?.any (meets · o) then n else n + 1)

/-- `s` and `o` come together in the walk through `bs`: `s` is under the finger when `o` is reached. -/
def Together {β γ : Type _} (meets : β → γ → Bool) (as : List β) (bs : List γ) (s : β) (o : γ) : Prop :=
  ∃ k, bs[k]? = some o ∧ as[finger meets as (bs.take k) 0]? = some s

/-- How a selection may lie to the ends of `[l,u]`: it reaches both ends (containing the end itself, or
the value just outside); or it passes over one end and stays clear of the other by two values. -/
def Selection.CutWell {α : Type _} [LinearOrder α] [Finite α] (dbg : Bool) (s : Selection α) (l u : α) :
    Prop :=
  (s.TouchesBelow dbg l ∧ s.TouchesAbove dbg u) ∨
  (s.TouchesBelow dbg l ∧ (∃ p, Finite.pred l = some p ∧ s.TouchesBelow dbg p) ∧
    ¬ s.TouchesAbove dbg u ∧ ∀ q, Finite.succ u = some q → ¬ s.TouchesAbove dbg q) ∨
  (s.TouchesAbove dbg u ∧ (∃ q, Finite.succ u = some q ∧ s.TouchesAbove dbg q) ∧
    ¬ s.TouchesBelow dbg l ∧ ∀ p, Finite.pred l = some p → ¬ s.TouchesBelow dbg p)

end NI
