import Verif.Lemmas.Raw
import Mathlib.Order.Lattice

/-! # The lattice laws of `intersect` and `enclose` -/

namespace NI

variable {α : Type _} [LinearOrder α]

namespace Bound

theorem lu_assoc (a b c : Bound α) : (a.leastUnion b).leastUnion c = a.leastUnion (b.leastUnion c) := by
  rcases a with a | a | _ <;> rcases b with b | b | _ <;> rcases c with c | c | _ <;>
    simp only [leastUnion] <;> (try split_ifs) <;> grind

theorem gu_assoc (a b c : Bound α) :
    (a.greatestUnion b).greatestUnion c = a.greatestUnion (b.greatestUnion c) := by
  rcases a with a | a | _ <;> rcases b with b | b | _ <;> rcases c with c | c | _ <;>
    simp only [greatestUnion] <;> (try split_ifs) <;> grind

theorem lu_self (a : Bound α) : a.leastUnion a = a := by
  rcases a with a | a | _ <;> simp [leastUnion]

theorem gu_self (a : Bound α) : a.greatestUnion a = a := by
  rcases a with a | a | _ <;> simp [greatestUnion]

theorem gi_lu (a b : Bound α) : a.greatestIntersect (a.leastUnion b) = a := by
  rcases a with a | a | _ <;> rcases b with b | b | _ <;>
    simp only [leastUnion] <;> (try split_ifs) <;> simp only [greatestIntersect] <;> grind

theorem li_gu (a b : Bound α) : a.leastIntersect (a.greatestUnion b) = a := by
  rcases a with a | a | _ <;> rcases b with b | b | _ <;>
    simp only [greatestUnion] <;> (try split_ifs) <;> simp only [leastIntersect] <;> grind

theorem lu_gi (a b : Bound α) : a.leastUnion (a.greatestIntersect b) = a := by
  rcases a with a | a | _ <;> rcases b with b | b | _ <;>
    simp only [greatestIntersect] <;> (try split_ifs) <;> simp only [leastUnion] <;> grind

theorem gu_li (a b : Bound α) : a.greatestUnion (a.leastIntersect b) = a := by
  rcases a with a | a | _ <;> rcases b with b | b | _ <;>
    simp only [leastIntersect] <;> (try split_ifs) <;> simp only [greatestUnion] <;> grind

end Bound

namespace RawInterval

theorem enclose_assoc {a b c : RawInterval α} (ha : a.WF) (hb : b.WF) (hc : c.WF) :
    (a.enclose b).enclose c = a.enclose (b.enclose c) := by
  rcases a.bounds_cases with ⟨rfl, -, -⟩ | ⟨la, ua, a1, a2, -⟩
  · rw [enclose_empty_left hb, enclose_empty_left (enclose_wf b c)]
  rcases b.bounds_cases with ⟨rfl, -, -⟩ | ⟨lb, ub, b1, b2, -⟩
  · rw [enclose_empty_right ha, enclose_empty_left hc]
  rcases c.bounds_cases with ⟨rfl, -, -⟩ | ⟨lc, uc, c1, c2, -⟩
  · rw [enclose_empty_right hb, enclose_empty_right (enclose_wf a b)]
  obtain ⟨x1, x2, -⟩ := new_of_compat (Bound.compat_lu la lb ua ub (wf_compat ha a1 a2))
  obtain ⟨y1, y2, -⟩ := new_of_compat (Bound.compat_lu lb lc ub uc (wf_compat hb b1 b2))
  rw [enclose_of_bounds a1 a2 b1 b2, enclose_of_bounds b1 b2 c1 c2, enclose_of_bounds x1 x2 c1 c2,
    enclose_of_bounds a1 a2 y1 y2, Bound.lu_assoc, Bound.gu_assoc]

/-- For all values, also inverted ones. -/
theorem intersect_absorb (a b : RawInterval α) : (a.intersect b).intersect b = a.intersect b := by
  rcases a.bounds_cases with ⟨rfl, -, -⟩ | ⟨la, ua, a1, a2, -⟩
  · rw [intersect_empty_left, intersect_empty_left]
  rcases b.bounds_cases with ⟨rfl, -, -⟩ | ⟨lb, ub, b1, b2, -⟩
  · rw [intersect_empty_right, intersect_empty_right]
  rw [intersect_of_bounds a1 a2 b1 b2]
  split_ifs with h
  · obtain ⟨x1, x2, -⟩ := new_of_compat h
    rw [intersect_of_bounds x1 x2 b1 b2, Bound.gi_assoc, Bound.li_assoc, Bound.gi_self, Bound.li_self, if_pos h]
  · rw [intersect_empty_left]

theorem below_intersect (x a b : RawInterval α) :
    x.intersect (a.intersect b) = x ↔ x.intersect a = x ∧ x.intersect b = x := by
  constructor
  · intro h
    constructor
    · rw [← h, intersect_comm a b, intersect_assoc, intersect_absorb]
    · rw [← h, intersect_assoc, intersect_absorb]
  · rintro ⟨h1, h2⟩
    rw [← intersect_assoc, h1, h2]

theorem below_foldl (x : RawInterval α) (ks : List (RawInterval α)) (s : RawInterval α) :
    x.intersect (ks.foldl (fun acc i => acc.intersect i) s) = x ↔
      x.intersect s = x ∧ ∀ k ∈ ks, x.intersect k = x := by
  induction ks generalizing s with
  | nil => simp
  | cons k ks ih => rw [List.foldl_cons, ih, below_intersect]; simp [and_assoc]

theorem intersectAll_wf (ks : List (RawInterval α)) : (intersectAll ks).WF := by
  have : ∀ (ks : List (RawInterval α)) (s : RawInterval α), s.WF →
      (ks.foldl (fun acc i => acc.intersect i) s).WF := by
    intro ks
    induction ks with
    | nil => intro s hs; exact hs
    | cons k ks ih => intro s hs; exact ih _ (intersect_wf s k)
  exact this ks full trivial

theorem enclose_self {a : RawInterval α} (ha : a.WF) : a.enclose a = a := by
  rcases a.bounds_cases with ⟨rfl, -, -⟩ | ⟨la, ua, a1, a2, -⟩
  · rfl
  rw [enclose_of_bounds a1 a2 a1 a2, Bound.lu_self, Bound.gu_self, ← wf_eq_new ha a1 a2]

theorem intersect_enclose {a b : RawInterval α} (ha : a.WF) (hb : b.WF) : a.intersect (a.enclose b) = a := by
  rcases a.bounds_cases with ⟨rfl, -, -⟩ | ⟨la, ua, a1, a2, -⟩
  · rw [intersect_empty_left]
  rcases b.bounds_cases with ⟨rfl, -, -⟩ | ⟨lb, ub, b1, b2, -⟩
  · rw [enclose_empty_right ha, intersect_self ha]
  obtain ⟨x1, x2, -⟩ := new_of_compat (Bound.compat_lu la lb ua ub (wf_compat ha a1 a2))
  rw [enclose_of_bounds a1 a2 b1 b2, intersect_of_bounds a1 a2 x1 x2, Bound.gi_lu, Bound.li_gu,
    if_pos (wf_compat ha a1 a2), ← wf_eq_new ha a1 a2]

theorem enclose_intersect {a b : RawInterval α} (ha : a.WF) : a.enclose (a.intersect b) = a := by
  rcases a.bounds_cases with ⟨rfl, -, -⟩ | ⟨la, ua, a1, a2, -⟩
  · rw [intersect_empty_left]; rfl
  rcases b.bounds_cases with ⟨rfl, -, -⟩ | ⟨lb, ub, b1, b2, -⟩
  · rw [intersect_empty_right, enclose_empty_right ha]
  rw [intersect_of_bounds a1 a2 b1 b2]
  by_cases h : (la.greatestIntersect lb).Compat (ua.leastIntersect ub)
  · obtain ⟨x1, x2, -⟩ := new_of_compat h
    rw [if_pos h, enclose_of_bounds a1 a2 x1 x2, Bound.lu_gi, Bound.gu_li, ← wf_eq_new ha a1 a2]
  · rw [if_neg h, enclose_empty_right ha]

theorem intersect_full {a : RawInterval α} (ha : a.WF) : a.intersect full = a := by
  have h := intersect_enclose ha (b := full) trivial
  rcases a.bounds_cases with ⟨rfl, -, -⟩ | ⟨la, ua, a1, a2, -⟩
  · rw [intersect_empty_left]
  have e : a.enclose full = full := by
    rw [enclose_of_bounds a1 a2 (lb := .inf) (ub := .inf) rfl rfl]
    rcases la with l | l | _ <;> rcases ua with u | u | _ <;> rfl
  rwa [e] at h

theorem enclose_full (a : RawInterval α) : a.enclose full = full := by
  rcases a.bounds_cases with ⟨rfl, -, -⟩ | ⟨la, ua, a1, a2, -⟩
  · rfl
  rw [enclose_of_bounds a1 a2 (lb := .inf) (ub := .inf) rfl rfl]
  rcases la with l | l | _ <;> rcases ua with u | u | _ <;> rfl

/-- The well formed intervals, as a lattice. -/
@[reducible] def wfLattice : Lattice {i : RawInterval α // i.WF} :=
  letI _m : Min {i : RawInterval α // i.WF} := ⟨fun a b => ⟨a.1.intersect b.1, intersect_wf _ _⟩⟩
  letI _j : Max {i : RawInterval α // i.WF} := ⟨fun a b => ⟨a.1.enclose b.1, enclose_wf _ _⟩⟩
  Lattice.mk'
    (fun a b => Subtype.ext (enclose_comm a.1 b.1))
    (fun a b c => Subtype.ext (enclose_assoc a.2 b.2 c.2))
    (fun a b => Subtype.ext (intersect_comm a.1 b.1))
    (fun a b c => Subtype.ext (intersect_assoc a.1 b.1 c.1))
    (fun a _ => Subtype.ext (enclose_intersect a.2))
    (fun a b => Subtype.ext (intersect_enclose a.2 b.2))

theorem inf_eq_iff {a b : RawInterval α} (ha : a.WF) (hb : b.WF) :
    a.intersect b = a ↔ wfLattice.le ⟨a, ha⟩ ⟨b, hb⟩ :=
  let _ := wfLattice (α := α)
  ⟨fun h => (inf_eq_left (α := {i : RawInterval α // i.WF})).1 (Subtype.ext h),
    fun h => congrArg Subtype.val ((inf_eq_left (α := {i : RawInterval α // i.WF})).2 h)⟩

theorem sup_eq_iff {a b : RawInterval α} (ha : a.WF) (hb : b.WF) :
    a.enclose b = b ↔ wfLattice.le ⟨a, ha⟩ ⟨b, hb⟩ :=
  let _ := wfLattice (α := α)
  ⟨fun h => (sup_eq_right (α := {i : RawInterval α // i.WF})).1 (Subtype.ext h),
    fun h => congrArg Subtype.val ((sup_eq_right (α := {i : RawInterval α // i.WF})).2 h)⟩

end RawInterval
end NI
