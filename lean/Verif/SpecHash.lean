import Verif.Model.Hash
import Verif.Spec

/-! # Vocabulary for the properties of hashed values -/

namespace NI

/-- No two values write the same, nor does one write the beginning of what another writes: what is written after a
value cannot be taken for a part of it.  (The documentation of `Hash` asks this of keys.) -/
def PrefixFree {κ : Type _} (feed : κ → List HashWrite) : Prop :=
  ∀ a b r s, feed a ++ r = feed b ++ s → a = b ∧ r = s

/-- An element type that keeps to it. -/
class LawfulHashes (α : Type _) [Hashes α] : Prop where
  prefixFree : PrefixFree (Hashes.feed : α → List HashWrite)

/-- The standard library's `Hash` of integers. -/
instance instHashesMInt {lo hi : Int} : Hashes (MInt lo hi) where
  feed x := [.val x.1]

instance instLawfulHashesMInt {lo hi : Int} : LawfulHashes (MInt lo hi) where
  prefixFree a b r s h := by
    simp only [Hashes.feed, List.cons_append, List.nil_append, List.cons.injEq, HashWrite.val.injEq] at h
    exact ⟨Subtype.ext h.1, h.2⟩

/-- Integers without bounds, for examples. -/
instance instHashesInt : Hashes Int where
  feed x := [.val x]

/-- A lookup in a `HashSet` (or of a `HashMap`'s keys): a stored key is found if its hash is that of the key looked
up and the two are `==`. -/
def hashLookup {κ : Type _} [DecidableEq κ] (finish : List HashWrite → Nat) (feed : κ → List HashWrite)
    (stored : List κ) (k : κ) : Bool :=
  stored.any fun k' => finish (feed k') == finish (feed k) && k' == k

end NI
