import Verif.Spec

/-! # What a loop over an iterator does, without a bound on the number of rounds -/

namespace NI

/-- A complete run of `loop { match iter.next() { None => stop, Some(i) => body } }`.  Each round asks for an item
with `next`.  `body acc i (.ok (true, acc'))` is a body that goes on to the next round, `(false, acc')` one that leaves
the loop.  The result holds the iterator if the body left the loop, and `none` if the items ran out.

A loop that never ends has no complete run, so no result. -/
inductive Loop {σ ι β : Type _} (next : σ → Except Panic (Option ι × σ))
    (body : β → ι → Except Panic (Bool × β) → Prop) : σ → β → Except Panic (Option σ × β) → Prop
  | done {s s' acc} : next s = .ok (none, s') → Loop next body s acc (.ok (none, acc))
  | nextPanic {s acc e} : next s = .error e → Loop next body s acc (.error e)
  | bodyPanic {s s' i acc e} : next s = .ok (some i, s') → body acc i (.error e) → Loop next body s acc (.error e)
  | leave {s s' i acc acc'} : next s = .ok (some i, s') → body acc i (.ok (false, acc')) →
      Loop next body s acc (.ok (some s', acc'))
  | round {s s' i acc acc' r} : next s = .ok (some i, s') → body acc i (.ok (true, acc')) →
      Loop next body s' acc' r → Loop next body s acc r

/-- `for i in iter { acc = f(acc, i) }`, run to its end with the result `r`. -/
def ForLoop {σ ι β : Type _} (next : σ → Except Panic (Option ι × σ)) (f : β → ι → Except Panic β) (s : σ) (acc : β)
    (r : Except Panic β) : Prop :=
  Loop next (fun acc i b => b = (f acc i).map (true, ·)) s acc (r.map (none, ·))

end NI
