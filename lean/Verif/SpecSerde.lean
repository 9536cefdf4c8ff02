import Verif.Model.Serde
import Verif.Spec

/-! # Vocabulary for the properties of the serde support -/

namespace NI

/-- A value type that is read back as it was written, from nothing but what was written. -/
class LawfulSerde (α : Type _) [Serde α] : Prop where
  de_ser (x : α) : de (ser x) = some x
  ser_de (d : Data) (x : α) : de d = some x → ser x = d

/-- The integers of a machine type as serde has them: out of range numbers are refused. -/
instance instSerdeMInt {lo hi : Int} : Serde (MInt lo hi) where
  ser x := .int x.1
  de
    | .int n => if h : lo ≤ n ∧ n ≤ hi then some ⟨n, h⟩ else none
    | _ => none

instance instLawfulSerdeMInt {lo hi : Int} : LawfulSerde (MInt lo hi) where
  de_ser x := by simp [de, ser, x.2]
  ser_de d x h := by
    cases d with
    | int n =>
      simp only [de] at h
      split_ifs at h with hn
      cases h
      rfl
    | _ => cases h

/-- Reading the tines of a tree in order, intervals are opened and closed in turn: a single point lies
outside of the intervals, a missing point inside of one. -/
def TineTree.alternates {α : Type _} : Bool → List (Tine α) → Bool
  | inside, [] => !inside
  | inside, .lower _ :: ts => !inside && alternates true ts
  | inside, .upper _ :: ts => inside && alternates false ts
  | inside, .point (.incl _) :: ts => !inside && alternates false ts
  | inside, .point (.excl _) :: ts => inside && alternates true ts
  | _, .point .inf :: _ => false

end NI
