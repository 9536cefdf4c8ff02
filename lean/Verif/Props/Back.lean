import Verif.Lemmas.Back
import Verif.Props.SelectionMore

/-!
# C73: reverse iteration, exactly when it is right (also C46, C57)
-/

set_option linter.unusedSimpArgs false
set_option linter.unusedVariables false
set_option linter.unusedSectionVars false

namespace NI
open Finite TT

section Tree
variable {α : Type} [LinearOrder α]

theorem TT.holeFree_iff {t : TineTree α} (v : Valid t) :
    HoleFree t ↔ ∀ p, holeAt t (.fin p) = false := by
  refine ⟨fun hf p => ?_, noHole_holeFree v⟩
  rw [Bool.eq_false_iff]
  intro hh
  obtain ⟨o⟩ := one v (.fin p)
  obtain ⟨v1, v2, v3⟩ := o.views
  rw [holeAt, v1, v2, v3] at hh
  have : Tine.point (.excl p) ∈ t := by
    rw [mem_edge o rfl]
    revert hh
    cases o.b <;> cases o.a <;> cases o.c <;> simp [edge]
  have := hf _ this
  simp [Tine.isPointExclude] at this

/-! ## Trees -/

/-- Iterating a tree from the back yields its intervals in reverse exactly if no single point is left
out between two of them; otherwise it panics or yields other intervals, in both kinds of build. -/
theorem C73_tree_iff (dbg : Bool) (t : TineTree α) (ht : t.Reachable)
    (is : List (RawInterval α)) (his : TineTree.intervals dbg t = .ok is) :
    TineTree.intervalsBack dbg t = .ok is.reverse ↔ ∀ p, ¬ RawInterval.Hole is p := by
  have h := TT.reachable_valid ht
  have his' := his
  rw [TT.intervals_eq dbg h] at his'
  cases his'
  refine ⟨fun hb p hp => ?_, C46_reverse_partial dbg t ht _ his⟩
  refine TT.intervalsBack_ne dbg h (fun hf => ?_) hb
  have := (TT.holeFree_iff h).1 hf p
  rw [Bool.eq_false_iff] at this
  exact this ((hole_iff h p).2 hp)

example : TineTree.intervals true (TineTree.demo [.opn 5 9, .closed 0 2, .opn 2 5]) =
    .ok [.rightOpen (0 : Int) 5, .opn 5 9] := by decide
example : RawInterval.Hole [.rightOpen (0 : Int) 5, .opn 5 9] 5 :=
  ⟨⟨.rightOpen 0 5, by simp, rfl⟩, ⟨.opn 5 9, by simp, rfl⟩⟩

/-- Two neighbouring holes: the interval between them is lost without a panic, in debug builds too. -/
theorem C46_lost_counterexample :
    ∃ t : TineTree Int, t.Reachable ∧
      (∀ dbg, TineTree.intervals dbg t = .ok [.opn 0 2, .opn 2 4, .opn 4 6]) ∧
      ∀ dbg, TineTree.intervalsBack dbg t = .ok [.opn 4 6, .opn 0 2] := by
  exact ⟨TineTree.demo [.opn 0 2, .opn 2 4, .opn 4 6],
    TineTree.fromIter_reachable (dbg := true) (is := [.opn 0 2, .opn 2 4, .opn 4 6]) (by decide)
      (by decide), by decide, by decide⟩

end Tree

section Sel
variable {α : Type} [LinearOrder α] [Finite α] [LawfulFinite α]

/-- A single value is missing between two values of the set. -/
def OneMissing (S : Set α) : Prop :=
  ∃ p x q, pred x = some p ∧ succ x = some q ∧ p ∈ S ∧ q ∈ S ∧ x ∉ S

theorem Selection.holeFree_iff (dbg : Bool) {s : Selection α} (hs : s.UnionBuilt) :
    HoleFree s.tree ↔ ¬ OneMissing (s.pts dbg) := by
  have v := Selection.reachable_valid hs.reachable
  rw [TT.holeFree_iff v]
  simp only [OneMissing, Selection.mem_pts dbg v, hs.do.hole]
  constructor
  · rintro h ⟨p, x, q, h1, h2, h3, h4, h5⟩
    have := h x
    rw [h1, h2] at this
    simp [h3, h4, h5] at this
  · intro h x
    rw [Bool.eq_false_iff]
    intro hx
    cases h1 : pred x with
    | none => rw [h1] at hx; simp at hx
    | some p =>
      cases h2 : succ x with
      | none => rw [h2] at hx; simp at hx
      | some q =>
        rw [h1, h2] at hx
        simp at hx
        exact h ⟨p, x, q, h1, h2, hx.1.2, hx.2, by simp [hx.1.1]⟩

/-! ## Intervals of selections -/

/-- Iterating the intervals of a union-built selection from the back is right exactly if no single
value is missing between two of its values. -/
theorem C73_intervals_iff (dbg : Bool) (s : Selection α) (hs : s.UnionBuilt) (is : List (Interval α))
    (he : s.intervals dbg = .ok is) :
    s.intervalsBack dbg = .ok is.reverse ↔ ¬ OneMissing (s.pts dbg) := by
  have v := Selection.reachable_valid hs.reachable
  rw [Selection.intervals_eq dbg v] at he
  cases he
  rw [← Selection.holeFree_iff dbg hs]
  constructor
  · intro hb
    by_contra hh
    exact Selection.intervalsBack_ne dbg v hs.do hh hb
  · exact Selection.intervalsBack_eq dbg v

example : OneMissing (Selection.pts true (Selection.demo [(u8 2, u8 2), (u8 4, u8 4)])) :=
  ⟨u8 2, u8 3, u8 4, by decide, by decide, show Selection.contains true _ _ = .ok true by decide,
    show Selection.contains true _ _ = .ok true by decide,
    show ¬ Selection.contains true _ _ = .ok true by decide⟩

/-! ## Points of selections -/

/-- Iterating the points of a union-built selection from the back is right exactly if no single
value is missing between two of its values (for types without infinite descending sequences). -/
theorem C73_points_iff [WellFoundedLT α] (dbg : Bool) (s : Selection α) (hs : s.UnionBuilt) :
    (∀ n, ∃ os, drive (PointIter.next dbg) (PointIter.nextBack dbg) (PointIter.start s)
        (List.replicate n .nextBack) = .ok os ∧
      Walk (s.pts dbg) (List.replicate n .nextBack) os) ↔ ¬ OneMissing (s.pts dbg) := by
  have v := Selection.reachable_valid hs.reachable
  constructor
  · intro h
    rw [← Selection.holeFree_iff dbg hs]
    by_contra hh
    exact Selection.points_back_ne dbg v (Selection.np_good v hs.do.np) (.inl hs.do) hh h
  · intro h n
    refine C57_reverse_partial dbg s (.tidy (.inl hs)) (.built hs fun p x q h1 h2 h3 h4 => ?_) n
    by_contra h5
    refine h ⟨p, x, q, h1, h2, ?_⟩
    rw [Selection.mem_pts true v] at h3 h4 h5
    rw [Selection.mem_pts dbg v, Selection.mem_pts dbg v, Selection.mem_pts dbg v]
    exact ⟨h3, h4, h5⟩

end Sel

/-- The integer types have no infinite descending sequences. -/
instance {lo hi : Int} : WellFoundedLT (MInt lo hi) :=
  ⟨(measure fun x : MInt lo hi => (x.1 - lo).toNat).wf.mono (fun a b (h : a.1 < b.1) => by
    have := a.2.1
    show (a.1 - lo).toNat < (b.1 - lo).toNat
    omega)⟩

example : WellFoundedLT U8 := inferInstance

/-- The bytes `{1, 3, 5}` are `5, 1` going down, without a panic. -/
theorem C57_lost_counterexample :
    ∃ s : Selection U8, s.UnionBuilt ∧ u8 3 ∈ s.pts true ∧
      drive (PointIter.next true) (PointIter.nextBack true) (PointIter.start s)
        [.nextBack, .nextBack, .nextBack] = .ok [some (u8 5), some (u8 1), none] :=
  ⟨Selection.demo [(u8 1, u8 1), (u8 3, u8 3), (u8 5, u8 5)], Selection.demo_built _ (by decide),
    show Selection.contains true _ _ = .ok true by decide, by decide⟩

end NI
