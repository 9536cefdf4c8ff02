import Verif.SpecHeap

/-! # Specification: a heap of pages (C131) -/

namespace NI
open _root_.NI.Finite

/-- Whole pages of `k` numbers: their number asked for, or any of them given back. -/
def HeapCall.OfPages {hi : Int} (k : Int) : HeapCall (MInt 0 hi) → Prop
  | .take n => k ∣ n.1 + 1
  | .give l u => k ∣ l.1 ∧ k ∣ u.1 + 1

end NI
