import Verif.SpecHash
import Verif.Props.Collect
import Verif.Props.Strong
import Verif.Props.Sharp

/-!
# Intervals and selections as keys of hash tables (C104)
-/

set_option linter.unusedVariables false
set_option linter.unusedSectionVars false

namespace NI
open _root_.NI.Finite TT

section
variable {α : Type} [Hashes α] [LawfulHashes α]

theorem Bound.feed_free : PrefixFree (Bound.feed (α := α)) := by
  intro a b r s h
  have k : ∀ x y : α, Hashes.feed x ++ r = Hashes.feed y ++ s → x = y ∧ r = s := fun x y =>
    LawfulHashes.prefixFree x y r s
  rcases a with a | a | _ <;> rcases b with b | b | _ <;>
    simp_all [Bound.feed] <;> exact k _ _ h

theorem Tine.feed_free : PrefixFree (Tine.feed (α := α)) := by
  intro a b r s h
  have k : ∀ x y : Bound α, x.feed ++ r = y.feed ++ s → x = y ∧ r = s := fun x y => Bound.feed_free x y r s
  rcases a with a | a | a <;> rcases b with b | b | b <;>
    simp_all [Tine.feed] <;> exact k _ _ h

/-- No raw interval writes what another one writes into a hasher, or a beginning of it. -/
theorem C104_raw : PrefixFree (RawInterval.feed (α := α)) := by
  intro a b r s h
  have k1 : ∀ x y : α, Hashes.feed x ++ r = Hashes.feed y ++ s → x = y ∧ r = s := fun x y =>
    LawfulHashes.prefixFree x y r s
  have k2 : ∀ x y x' y' : α, Hashes.feed x ++ (Hashes.feed x' ++ r) = Hashes.feed y ++ (Hashes.feed y' ++ s) →
      (x = y ∧ x' = y') ∧ r = s := fun x y x' y' h => by
    obtain ⟨h1, h2⟩ := LawfulHashes.prefixFree x y _ _ h
    obtain ⟨h2, h3⟩ := k1 _ _ h2
    exact ⟨⟨h1, h2⟩, h3⟩
  cases a <;> cases b <;>
    simp only [RawInterval.feed, List.cons_append, List.nil_append, List.append_assoc, List.cons.injEq,
      HashWrite.variant.injEq, reduceCtorEq, Nat.reduceEqDiff, true_and, false_and] at h <;>
    first
    | exact ⟨rfl, h⟩
    | exact (k1 _ _ h).imp (fun e => by rw [e]) id
    | exact (k2 _ _ _ _ h).imp (fun e => by rw [e.1, e.2]) id

example : (RawInterval.opn (3 : Int) 7).feed = [.variant 2, .val 3, .val 7] ∧
    (RawInterval.point (3 : Int)).feed = [.variant 1, .val 3] := by decide

/-- Nor does any interval. -/
theorem C104_interval : PrefixFree (Interval.feed (α := α)) := by
  rintro ⟨a⟩ ⟨b⟩ r s h
  obtain ⟨h1, h2⟩ := C104_raw a b r s h
  exact ⟨congrArg _ h1, h2⟩

example : (Interval.mkOpen (u8 3) (u8 7)).feed = [.variant 5, .val 4, .val 6] := by decide

/-- Nor does any tree: its length is written first. -/
theorem C104_tree : PrefixFree (TineTree.feed (α := α)) := by
  intro a b r s h
  simp only [TineTree.feed, List.cons_append, List.cons.injEq, HashWrite.len.injEq] at h
  obtain ⟨hl, h⟩ := h
  induction a generalizing b with
  | nil =>
    have : b = [] := List.length_eq_zero_iff.1 hl.symm
    subst this
    exact ⟨rfl, h⟩
  | cons x xs ih =>
    cases b with
    | nil => simp at hl
    | cons y ys =>
      rw [List.flatMap_cons, List.flatMap_cons, List.append_assoc, List.append_assoc] at h
      obtain ⟨h1, h2⟩ := Tine.feed_free x y _ _ h
      obtain ⟨h3, h4⟩ := ih ys (by simpa using hl) h2
      exact ⟨by rw [h1, h3], h4⟩

example : TineTree.feed (TineTree.demo [.closed 0 9, .upFrom 20]) =
    [.len 4, .variant 0, .variant 0, .val 0, .variant 2, .variant 0, .val 9, .variant 0, .variant 1, .val 20,
      .variant 2, .variant 2] := by decide

/-- Nor does any selection. -/
theorem C104_selection : PrefixFree (Selection.feed (α := α)) := by
  rintro ⟨a⟩ ⟨b⟩ r s h
  obtain ⟨h1, h2⟩ := C104_tree a b r s h
  exact ⟨congrArg _ h1, h2⟩

example : (Selection.demo [(u8 3, u8 255)]).feed = [.len 2, .variant 0, .variant 1, .val 2, .variant 2, .variant 2] := by
  decide

end

/-- A key is found in a hash table exactly if an equal key is stored, whatever hasher is used. -/
theorem hashLookup_iff {κ : Type _} [DecidableEq κ] (finish : List HashWrite → Nat) (feed : κ → List HashWrite)
    (stored : List κ) (k : κ) : hashLookup finish feed stored k = true ↔ k ∈ stored := by
  simp only [hashLookup, List.any_eq_true, Bool.and_eq_true, beq_iff_eq]
  constructor
  · rintro ⟨k', h, -, rfl⟩; exact h
  · intro h; exact ⟨k, h, rfl, rfl⟩

section
variable {α : Type} [LinearOrder α] [Finite α] [LawfulFinite α] [Hashes α]

/-- Selections built by uniting intervals and points are found in a hash table by their points.  Missing: selections
made by other operations, of which `C104_counterexample` is one. -/
theorem C104_lookup_selection_partial (dbg : Bool) (finish : List HashWrite → Nat) (stored : List (Selection α))
    (hst : ∀ s ∈ stored, s.UnionBuilt) (k : Selection α) (hk : k.UnionBuilt) :
    hashLookup finish Selection.feed stored k = true ↔ ∃ s ∈ stored, s.pts dbg = k.pts dbg := by
  rw [hashLookup_iff]
  constructor
  · intro h; exact ⟨k, h, rfl⟩
  · rintro ⟨s, hs, e⟩
    rwa [← (C55_union_built_partial dbg s k (hst s hs) hk).2 e]

example : (Selection.demo [(u8 2, u8 5), (u8 6, u8 9)]).UnionBuilt ∧
    hashLookup List.length Selection.feed [Selection.demo [(u8 2, u8 9)], .full]
      (Selection.demo [(u8 2, u8 5), (u8 6, u8 9)]) = true ∧
    hashLookup List.length Selection.feed [Selection.demo [(u8 2, u8 9)], .full] (Selection.demo [(u8 2, u8 8)]) = false :=
  ⟨Selection.demo_built _ (by decide), by decide, by decide⟩

/-- Intervals of at least two points are found by their points.  Missing: single values, see `C104_counterexample`. -/
theorem C104_lookup_interval_partial (finish : List HashWrite → Nat) (stored : List (Interval α))
    (hst : ∀ i ∈ stored, i.Obtainable) (k : Interval α) (hk : k.Obtainable)
    (h2 : ∃ x y, x ≠ y ∧ k.contains x = true ∧ k.contains y = true) :
    hashLookup finish Interval.feed stored k = true ↔ ∃ i ∈ stored, i.pts = k.pts := by
  rw [hashLookup_iff]
  constructor
  · intro h; exact ⟨k, h, rfl⟩
  · rintro ⟨i, hi, e⟩
    rwa [C26_equality_partial k i hk (hst i hi) (fun x => Bool.eq_iff_iff.2 (Set.ext_iff.1 e x).symm) h2]

example : hashLookup List.length Interval.feed [Interval.mkOpen (u8 3) (u8 7), .point (u8 9)] (.mkClosed (u8 4) (u8 6)) =
      true ∧ (Interval.mkClosed (u8 4) (u8 6)).Obtainable ∧
    ∃ x y, x ≠ y ∧ (Interval.mkClosed (u8 4) (u8 6)).contains x = true ∧
      (Interval.mkClosed (u8 4) (u8 6)).contains y = true :=
  ⟨by decide, .mkClosed _ _, u8 4, u8 5, by decide, by decide, by decide⟩

end

/-- Over dense orders, trees are found by their points. -/
theorem C104_lookup_tree {α : Type} [LinearOrder α] [DenselyOrdered α] [NoMinOrder α] [NoMaxOrder α] [Nonempty α]
    [Hashes α] (dbg : Bool) (finish : List HashWrite → Nat) (stored : List (TineTree α))
    (hst : ∀ t ∈ stored, TineTree.Reachable t) (k : TineTree α) (hk : k.Reachable) :
    hashLookup finish TineTree.feed stored k = true ↔
      ∃ t ∈ stored, ∀ x, TineTree.contains dbg t x = TineTree.contains dbg k x := by
  rw [hashLookup_iff]
  constructor
  · intro h; exact ⟨k, h, fun _ => rfl⟩
  · rintro ⟨t, ht, e⟩
    rwa [← (C44_eq_iff dbg t k (hst t ht) hk).2 e]

example : (TineTree.fromRawInterval (.opn (0 : ℚ) 1)).Reachable := .fromRaw (by show (0 : ℚ) < 1; decide)

/-- A single value as an interval is not found among the intervals of a selection: the selection lists the closed
interval from the value to itself.  A selection cut in two is not found either. -/
theorem C104_counterexample :
    (∃ is, (Selection.demo [(u8 9, u8 9)]).intervals true = .ok is ∧ ∀ finish,
      hashLookup finish Interval.feed is (Interval.point (u8 9)) = false ∧
      ∃ i ∈ is, ∀ x, i.contains x = (Interval.point (u8 9)).contains x) ∧
    ∃ a b : Selection U8, a.Solid ∧ b.UnionBuilt ∧ a.pts true = b.pts true ∧ ∀ finish,
      hashLookup finish Selection.feed [b] a = false := by
  refine ⟨⟨[⟨.closed (u8 9) (u8 9)⟩], by decide, fun finish => ⟨?_, _, List.mem_singleton.2 rfl, fun x => ?_⟩⟩, ?_⟩
  · rw [Bool.eq_false_iff, Ne, hashLookup_iff]; decide
  · rw [Bool.eq_iff_iff]
    simp only [Interval.contains, RawInterval.contains, Interval.point, Bool.and_eq_true, decide_eq_true_eq]
    exact ⟨fun h => le_antisymm h.1 h.2 |>.symm ▸ rfl, fun h => by subst h; exact ⟨le_rfl, le_rfl⟩⟩
  · obtain ⟨a, b, ha, hb, h1, h2⟩ := C55_counterexample
    exact ⟨a, b, ha, hb, h1, fun finish => by
      rw [Bool.eq_false_iff, Ne, hashLookup_iff, List.mem_singleton]; exact h2⟩

end NI
