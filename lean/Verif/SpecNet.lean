import Verif.Spec

/-! # Specification: replicas that exchange their selections

Each replica keeps two selections, of all that was ever put in and of all that was ever taken out.  Replicas send
their state to each other; messages are delivered in any order, late, several times, or not at all.
-/

namespace NI

/-- What happens in the network. -/
inductive NetEvent (ρ : Type _) (ι : Type _)
  /-- at replica `r`: `added.union_in_place(i)` -/
  | add (r : ρ) (i : ι)
  /-- at replica `r`: `removed.union_in_place(i)` -/
  | remove (r : ρ) (i : ι)
  /-- replica `r` sends its state; the message gets the next number -/
  | send (r : ρ)
  /-- message `n` is delivered to replica `r`: `added = added.union(&m.added); removed = removed.union(&m.removed)` -/
  | deliver (n : Nat) (r : ρ)
  deriving DecidableEq, Repr

/-- The intervals of an event can be obtained, and have points unless they are empty. -/
def NetEvent.Legal {ρ : Type _} {α : Type _} [LinearOrder α] [Finite α] : NetEvent ρ (Interval α) → Prop
  | .add _ i => i.Obtainable ∧ i.Real
  | .remove _ i => i.Obtainable ∧ i.Real
  | _ => True

/-- The points of some intervals. -/
def ptsOf {α : Type _} [LinearOrder α] (K : Set (Interval α)) : Set α := {x | ∃ i ∈ K, x ∈ i.pts}

/-- What the replicas hold, and the messages sent. -/
structure Net (ρ : Type _) (σ : Type _) where
  at_ : ρ → σ × σ
  sent : List (σ × σ)

namespace Net
variable {ρ : Type _} [DecidableEq ρ] {α : Type _} [LinearOrder α] [Finite α]

/-- The state of one replica is replaced. -/
def set {σ : Type _} (n : Net ρ σ) (r : ρ) (x : σ × σ) : Net ρ σ := { n with at_ := Function.update n.at_ r x }

/-- One event, the replicas holding selections. -/
def step (dbg : Bool) (n : Net ρ (Selection α)) : NetEvent ρ (Interval α) → Except Panic (Net ρ (Selection α))
  | .add r i => do .ok (n.set r (← (n.at_ r).1.unionInPlace dbg i, (n.at_ r).2))
  | .remove r i => do .ok (n.set r ((n.at_ r).1, ← (n.at_ r).2.unionInPlace dbg i))
  | .send r => .ok { n with sent := n.sent ++ [n.at_ r] }
  | .deliver k r =>
    match n.sent[k]? with
    | none => .ok n
    | some m => do .ok (n.set r (← (n.at_ r).1.union dbg m.1, ← (n.at_ r).2.union dbg m.2))

/-- All events, from empty selections. -/
def run (dbg : Bool) (es : List (NetEvent ρ (Interval α))) : Except Panic (Net ρ (Selection α)) :=
  es.foldlM (step dbg) ⟨fun _ => (.new, .new), []⟩

/-- One event, in terms of the intervals that each replica knows to be put in and taken out. -/
def knows (n : Net ρ (Set (Interval α))) : NetEvent ρ (Interval α) → Net ρ (Set (Interval α))
  | .add r i => n.set r ((n.at_ r).1 ∪ {i}, (n.at_ r).2)
  | .remove r i => n.set r ((n.at_ r).1, (n.at_ r).2 ∪ {i})
  | .send r => { n with sent := n.sent ++ [n.at_ r] }
  | .deliver k r =>
    match n.sent[k]? with
    | none => n
    | some m => n.set r ((n.at_ r).1 ∪ m.1, (n.at_ r).2 ∪ m.2)

/-- What each replica knows in the end. -/
def known (es : List (NetEvent ρ (Interval α))) : Net ρ (Set (Interval α)) :=
  es.foldl knows ⟨fun _ => (∅, ∅), []⟩

/-- What a replica shows: `added.complement().union(&removed).complement()`. -/
def shown (dbg : Bool) (x : Selection α × Selection α) : Except Panic (Selection α) := do
  (← (← x.1.complement dbg).union dbg x.2).complement dbg

end Net
end NI
