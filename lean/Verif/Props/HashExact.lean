import Verif.Props.Hash
import Verif.Props.Context

/-! # What a hash table with intervals, trees or selections as keys finds (C104, exactly) -/

namespace NI
open _root_.NI.Finite TT

section
variable {α : Type} [LinearOrder α] [Hashes α]

/-- A tree is found exactly if a stored one lists the same intervals. -/
theorem C104_lookup_tree_iff (dbg : Bool) (finish : List HashWrite → Nat) (stored : List (TineTree α))
    (hst : ∀ t ∈ stored, TineTree.Reachable t) (k : TineTree α) (hk : k.Reachable) :
    hashLookup finish TineTree.feed stored k = true ↔ ∃ t ∈ stored, t.intervals dbg = k.intervals dbg := by
  rw [hashLookup_iff]
  refine ⟨fun h => ⟨k, h, rfl⟩, ?_⟩
  rintro ⟨t, ht, e⟩
  have v := TT.reachable_valid (hst t ht)
  have w := TT.reachable_valid hk
  rw [TT.intervals_eq dbg v, TT.intervals_eq dbg w, Except.ok.injEq] at e
  rwa [← valid_ext v w fun aft k' _ => by
    change tcov _ _ _ = tcov _ _ _
    rw [tcov_any v, tcov_any w, e]]

/-- `[0,3)` and `[3,5]` in one tree is the tree of `[0,5]`, and is found for it. -/
example [Hashes Int] (finish : List HashWrite → Nat) : hashLookup finish TineTree.feed
    [TineTree.demo [.closed (7 : Int) 9], TineTree.demo [.rightOpen 0 3, .closed 3 5]]
    (TineTree.demo [.closed (0 : Int) 5]) = true := by
  rw [hashLookup_iff]; decide

variable [Finite α] [LawfulFinite α]

/-- An interval is found exactly if a stored one has the same points, answers the same to `is_degenerate` and has the
same infimum. -/
theorem C104_lookup_interval_iff (finish : List HashWrite → Nat) (stored : List (Interval α))
    (hst : ∀ i ∈ stored, i.Obtainable) (k : Interval α) (hk : k.Obtainable) :
    hashLookup finish Interval.feed stored k = true ↔
      ∃ i ∈ stored, i.pts = k.pts ∧ i.isDegenerate = k.isDegenerate ∧ i.infimum = k.infimum := by
  rw [hashLookup_iff]
  refine ⟨fun h => ⟨k, h, rfl, rfl, rfl⟩, ?_⟩
  rintro ⟨i, hi, e, e1, e2⟩
  rwa [← (C26_exact_iff i k (hst i hi) hk).2 ⟨fun x => Bool.eq_iff_iff.2 (Set.ext_iff.1 e x), e1, e2⟩]

example (finish : List HashWrite → Nat) [Hashes U8] :
    hashLookup finish Interval.feed [.mkLeftOpen (u8 3) (u8 4), .mkClosed (u8 2) (u8 3)] (.mkLeftOpen (u8 1) (u8 3)) = true ∧
    hashLookup finish Interval.feed [.mkLeftOpen (u8 3) (u8 4), .mkClosed (u8 2) (u8 3)] (.point (u8 4)) = false := by
  simp only [← Bool.not_eq_true, hashLookup_iff]; decide

/-- A selection of any history is found exactly if no changes tell a stored one from it. -/
theorem C104_lookup_selection_iff (h3 : ∃ m p q : α, pred m = some p ∧ succ m = some q) (dbg : Bool)
    (finish : List HashWrite → Nat) (stored : List (Selection α)) (hst : ∀ s ∈ stored, s.Reachable)
    (k : Selection α) (hk : k.Reachable) :
    hashLookup finish Selection.feed stored k = true ↔
      ∃ s ∈ stored, ∀ cs : List (Change (Interval α)), (∀ c ∈ cs, c.Uses Interval.Obtainable) →
        ∀ x, s.sees dbg cs x = k.sees dbg cs x := by
  rw [hashLookup_iff]
  refine ⟨fun h => ⟨k, h, fun _ _ _ => rfl⟩, ?_⟩
  rintro ⟨s, hs, e⟩
  rwa [← (C122_selection h3 dbg s k (hst s hs) hk).2 e]

example : (∃ m p q : U8, pred m = some p ∧ succ m = some q) ∧ (Selection.demo [(u8 3, u8 5)]).Reachable ∧
    ∀ (finish : List HashWrite → Nat), hashLookup finish Selection.feed
      [Selection.demo [(u8 9, u8 9)], Selection.demo [(u8 3, u8 4), (u8 5, u8 5)]] (Selection.demo [(u8 3, u8 5)]) = true :=
  ⟨⟨u8 1, u8 0, u8 2, by decide, by decide⟩, (Selection.demo_built _ (by decide)).reachable, fun finish => by
    rw [hashLookup_iff]; decide⟩

end
end NI
