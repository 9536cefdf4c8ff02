import Verif.Spec

/-! # Expressions of the algebra of sets -/

namespace NI

/-- Expressions in union and complement over named sets. -/
inductive SetExpr
  | set (n : Nat)
  | none
  | all
  | union (a b : SetExpr)
  | complement (a : SetExpr)
  deriving DecidableEq, Repr

namespace SetExpr

/-- Is something that lies in the sets named in `v` in the set the expression means? -/
def holds (v : Nat → Bool) : SetExpr → Bool
  | .set n => v n
  | .none => false
  | .all => true
  | .union a b => holds v a || holds v b
  | .complement a => !holds v a

/-- The equation `e = f` follows from the equations `hs` in the algebra of sets.  (A finite table decides this.)  With
no hypotheses: `e = f` is a law. -/
def Follows (hs : List (SetExpr × SetExpr)) (e f : SetExpr) : Prop :=
  ∀ v, (∀ h ∈ hs, h.1.holds v = h.2.holds v) → e.holds v = f.holds v

/-- Intersection, by De Morgan's law. -/
def inter (a b : SetExpr) : SetExpr := .complement (.union (.complement a) (.complement b))

/-- Computing an expression with the operations of a type of sets. -/
def compute {σ : Type _} (empty full : σ) (union : σ → σ → Except Panic σ) (complement : σ → Except Panic σ)
    (v : Nat → σ) : SetExpr → Except Panic σ
  | .set n => .ok (v n)
  | .none => .ok empty
  | .all => .ok full
  | .union a b => do
    let x ← compute empty full union complement v a
    let y ← compute empty full union complement v b
    union x y
  | .complement a => do
    let x ← compute empty full union complement v a
    complement x

end SetExpr
end NI
