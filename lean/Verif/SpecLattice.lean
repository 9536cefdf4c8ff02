import Mathlib.Order.Lattice

/-! # Expressions in the language of lattices -/

namespace NI

/-- Expressions in meet and join over named elements. -/
inductive LatExpr
  | var (n : Nat)
  | meet (a b : LatExpr)
  | join (a b : LatExpr)
  deriving DecidableEq, Repr

namespace LatExpr

/-- The value of an expression in a structure with two operations. -/
def eval {σ : Type _} (meet join : σ → σ → σ) (v : Nat → σ) : LatExpr → σ
  | .var n => v n
  | .meet a b => meet (eval meet join v a) (eval meet join v b)
  | .join a b => join (eval meet join v a) (eval meet join v b)

/-- The equation `e = f` follows from the equations `hs` in every lattice.  With no hypotheses: `e = f` is a law of
lattices. -/
def Follows (hs : List (LatExpr × LatExpr)) (e f : LatExpr) : Prop :=
  ∀ (L : Type) [Lattice L] (v : Nat → L),
    (∀ h ∈ hs, h.1.eval (· ⊓ ·) (· ⊔ ·) v = h.2.eval (· ⊓ ·) (· ⊔ ·) v) →
      e.eval (· ⊓ ·) (· ⊔ ·) v = f.eval (· ⊓ ·) (· ⊔ ·) v

end LatExpr
end NI
