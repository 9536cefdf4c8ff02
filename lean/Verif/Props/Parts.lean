import Mathlib.Order.Fin.Basic
import Verif.SpecParts
import Verif.Props.Types

/-! # C153: `Finite` for parts of a type and for dependent fields -/

namespace NI
open Finite

theorem checked_some {α : Type} {p : α → Prop} [DecidablePred p] {a : α} {x : {a // p a}} :
    checked p a = some x ↔ a = x.1 := by
  unfold checked
  split
  · simp [Subtype.ext_iff]
  · next h =>
    constructor
    · intro e
      cases e
    · rintro rfl
      exact absurd x.2 h

theorem checked_none {α : Type} {p : α → Prop} [DecidablePred p] {a : α} : checked p a = none ↔ ¬ p a := by
  unfold checked
  split <;> simp_all

variable {α : Type} [LinearOrder α] [Finite α] [LawfulFinite α]

/-- **C153.** The values from `lo` to `hi`, with a checked constructor. -/
theorem C153_within (lo hi : α) (h : lo ≤ hi) : @LawfulFinite {a : α // lo ≤ a ∧ a ≤ hi} _ (Finite.within lo hi h) := by
  let : Finite {a : α // lo ≤ a ∧ a ≤ hi} := Finite.within lo hi h
  refine .of (fun x => x.2.1) (fun x => x.2.2) (fun x e => ?_) (fun x y e => ?_) (fun x e => ?_) (fun x y e => ?_)
  · replace e : (Finite.pred x.1).bind (checked _) = none := e
    refine Subtype.ext ?_
    change x.1 = lo
    cases k : Finite.pred x.1 with
    | none =>
      rw [LawfulFinite.pred_none] at k
      exact le_antisymm (k ▸ LawfulFinite.min_le _) x.2.1
    | some y =>
      rw [k, Option.bind_some] at e
      have hn := checked_none.1 e
      obtain ⟨k1, k2⟩ := LawfulFinite.pred_some _ _ k
      by_contra hne
      exact hn ⟨k2 _ (lt_of_le_of_ne x.2.1 (Ne.symm hne)), k1.le.trans x.2.2⟩
  · replace e : (Finite.pred x.1).bind (checked _) = some y := e
    obtain ⟨z, k, e⟩ := Option.bind_eq_some_iff.1 e
    obtain rfl := checked_some.1 e
    obtain ⟨k1, k2⟩ := LawfulFinite.pred_some _ _ k
    exact ⟨k1, fun c hc => k2 _ hc⟩
  · replace e : (Finite.succ x.1).bind (checked _) = none := e
    refine Subtype.ext ?_
    change x.1 = hi
    cases k : Finite.succ x.1 with
    | none =>
      rw [LawfulFinite.succ_none] at k
      exact le_antisymm x.2.2 (k ▸ LawfulFinite.le_max _)
    | some y =>
      rw [k, Option.bind_some] at e
      have hn := checked_none.1 e
      obtain ⟨k1, k2⟩ := LawfulFinite.succ_some _ _ k
      by_contra hne
      exact hn ⟨x.2.1.trans k1.le, k2 _ (lt_of_le_of_ne x.2.2 hne)⟩
  · replace e : (Finite.succ x.1).bind (checked _) = some y := e
    obtain ⟨z, k, e⟩ := Option.bind_eq_some_iff.1 e
    obtain rfl := checked_some.1 e
    obtain ⟨k1, k2⟩ := LawfulFinite.succ_some _ _ k
    exact ⟨k1, fun c hc => k2 _ hc⟩

/-- **C153.** Without a checked constructor the same functions are lawful only when there is nothing to check. -/
theorem C153_clamped_iff (lo hi : α) :
    @LawfulFinite α _ (Finite.clamped lo hi) ↔ lo = Finite.minimum ∧ hi = Finite.maximum := by
  constructor
  · intro h
    exact ⟨le_antisymm (h.min_le _) (LawfulFinite.min_le _), le_antisymm (LawfulFinite.le_max _) (h.le_max _)⟩
  · rintro ⟨rfl, rfl⟩
    have e : Finite.clamped (Finite.minimum : α) Finite.maximum = ‹Finite α› := by
      rename_i F _
      have hp : (fun x : α => if x ≤ F.minimum then none else F.pred x) = F.pred := by
        funext x
        split
        · next h => exact ((LawfulFinite.pred_none x).2 (le_antisymm h (LawfulFinite.min_le x))).symm
        · rfl
      have hs : (fun x : α => if F.maximum ≤ x then none else F.succ x) = F.succ := by
        funext x
        split
        · next h => exact ((LawfulFinite.succ_none x).2 (le_antisymm (LawfulFinite.le_max x) h)).symm
        · rfl
      cases F
      simp only [Finite.clamped] at hp hs ⊢
      rw [hp, hs]
    rw [e]
    infer_instance

/-- **C153.** All values but those from `g` to `h`. -/
theorem C153_gap (g h : α) (hg : Finite.minimum < g) (hh : h < Finite.maximum) :
    @LawfulFinite {a : α // a < g ∨ h < a} _ (Finite.gap g h hg hh) := by
  let : Finite {a : α // a < g ∨ h < a} := Finite.gap g h hg hh
  refine .of (fun x => LawfulFinite.min_le x.1) (fun x => LawfulFinite.le_max x.1) (fun x e => ?_) (fun x y e => ?_)
    (fun x e => ?_) (fun x y e => ?_)
  · replace e : (Finite.pred x.1).bind (fun y => (checked _ y).or ((Finite.pred g).bind (checked _))) = none := e
    refine Subtype.ext ?_
    change x.1 = Finite.minimum
    cases k : Finite.pred x.1 with
    | none => exact (LawfulFinite.pred_none _).1 k
    | some y =>
      rw [k, Option.bind_some, Option.or_eq_none_iff] at e
      obtain ⟨-, e⟩ := e
      cases k' : Finite.pred g with
      | none => exact absurd ((LawfulFinite.pred_none _).1 k') hg.ne'
      | some z =>
        rw [k', Option.bind_some] at e
        exact absurd (show z < g ∨ h < z from .inl (LawfulFinite.pred_some _ _ k').1) (checked_none (p := fun a => a < g ∨ h < a).1 e)
  · replace e : (Finite.pred x.1).bind (fun y => (checked _ y).or ((Finite.pred g).bind (checked _))) = some y := e
    obtain ⟨w, k, e⟩ := Option.bind_eq_some_iff.1 e
    obtain ⟨k1, k2⟩ := LawfulFinite.pred_some _ _ k
    rcases Option.or_eq_some_iff.1 e with e | ⟨e0, e⟩
    · obtain rfl := checked_some.1 e
      exact ⟨k1, fun c hc => k2 _ hc⟩
    · have hn := checked_none.1 e0
      obtain ⟨z, k', e⟩ := Option.bind_eq_some_iff.1 e
      obtain rfl := checked_some.1 e
      obtain ⟨j1, j2⟩ := LawfulFinite.pred_some _ _ k'
      push Not at hn
      refine ⟨j1.trans_le (hn.1.trans k1.le), fun c hc => ?_⟩
      rcases c.2 with hc' | hc'
      · exact j2 _ hc'
      · exact absurd (hc'.trans_le (k2 _ hc)) (not_lt.2 hn.2)
  · replace e : (Finite.succ x.1).bind (fun y => (checked _ y).or ((Finite.succ h).bind (checked _))) = none := e
    refine Subtype.ext ?_
    change x.1 = Finite.maximum
    cases k : Finite.succ x.1 with
    | none => exact (LawfulFinite.succ_none _).1 k
    | some y =>
      rw [k, Option.bind_some, Option.or_eq_none_iff] at e
      obtain ⟨-, e⟩ := e
      cases k' : Finite.succ h with
      | none => exact absurd ((LawfulFinite.succ_none _).1 k') hh.ne
      | some z =>
        rw [k', Option.bind_some] at e
        exact absurd (show z < g ∨ h < z from .inr (LawfulFinite.succ_some _ _ k').1) (checked_none (p := fun a => a < g ∨ h < a).1 e)
  · replace e : (Finite.succ x.1).bind (fun y => (checked _ y).or ((Finite.succ h).bind (checked _))) = some y := e
    obtain ⟨w, k, e⟩ := Option.bind_eq_some_iff.1 e
    obtain ⟨k1, k2⟩ := LawfulFinite.succ_some _ _ k
    rcases Option.or_eq_some_iff.1 e with e | ⟨e0, e⟩
    · obtain rfl := checked_some.1 e
      exact ⟨k1, fun c hc => k2 _ hc⟩
    · have hn := checked_none.1 e0
      obtain ⟨z, k', e⟩ := Option.bind_eq_some_iff.1 e
      obtain rfl := checked_some.1 e
      obtain ⟨j1, j2⟩ := LawfulFinite.succ_some _ _ k'
      push Not at hn
      refine ⟨(k1.trans_le hn.2).trans j1, fun c hc => ?_⟩
      rcases c.2 with hc' | hc'
      · exact absurd (lt_of_le_of_lt (k2 _ hc) hc') (not_lt.2 hn.1)
      · exact j2 _ hc'

section
variable {β : α → Type} [∀ a, LinearOrder (β a)] [∀ a, Finite (β a)] [∀ a, LawfulFinite (β a)]

/-- **C153.** A struct whose second field has a range that depends on the first one. -/
theorem C153_dependent : @LawfulFinite (Lex (Sigma β)) Sigma.Lex.linearOrder Finite.dependent := by
  let : Finite (Lex (Sigma β)) := Finite.dependent
  refine @LawfulFinite.of (Lex (Sigma β)) Sigma.Lex.linearOrder _ ?_ ?_ ?_ ?_ ?_ ?_
  · rintro ⟨a, b⟩
    rcases (LawfulFinite.min_le a).lt_or_eq with h | rfl
    · exact Sigma.Lex.left _ _ h
    · exact Sigma.Lex.right _ _ (LawfulFinite.min_le b)
  · rintro ⟨a, b⟩
    rcases (LawfulFinite.le_max a).lt_or_eq with h | rfl
    · exact Sigma.Lex.left _ _ h
    · exact Sigma.Lex.right _ _ (LawfulFinite.le_max b)
  · rintro ⟨a, b⟩ h
    change ((Finite.pred b).map fun b => toLex (⟨a, b⟩ : Sigma β)).or
      ((Finite.pred a).map fun a => toLex (⟨a, Finite.maximum⟩ : Sigma β)) = none at h
    rw [Option.or_eq_none_iff, Option.map_eq_none_iff, Option.map_eq_none_iff, LawfulFinite.pred_none] at h
    obtain ⟨hb, h⟩ := h
    rw [LawfulFinite.pred_none] at h
    subst h hb
    rfl
  · rintro ⟨a, b⟩ y h
    change ((Finite.pred b).map fun b => toLex (⟨a, b⟩ : Sigma β)).or
      ((Finite.pred a).map fun a => toLex (⟨a, Finite.maximum⟩ : Sigma β)) = some y at h
    rcases Option.or_eq_some_iff.1 h with h | ⟨hb, h⟩
    · obtain ⟨b', hb, rfl⟩ := Option.map_eq_some_iff.1 h
      obtain ⟨k1, k2⟩ := LawfulFinite.pred_some _ _ hb
      refine ⟨Sigma.Lex.right _ _ k1, ?_⟩
      rintro _ (⟨_, _, h⟩ | ⟨_, _, h⟩)
      · exact Sigma.Lex.left _ _ h
      · exact Sigma.Lex.right _ _ (k2 _ h)
    · obtain ⟨a', ha, rfl⟩ := Option.map_eq_some_iff.1 h
      obtain ⟨k1, k2⟩ := LawfulFinite.pred_some _ _ ha
      rw [Option.map_eq_none_iff, LawfulFinite.pred_none] at hb
      refine ⟨Sigma.Lex.left _ _ k1, ?_⟩
      rintro ⟨c, d⟩ h
      rcases h with ⟨_, _, h⟩ | ⟨_, _, h⟩
      · rcases (k2 _ h).lt_or_eq with h | rfl
        · exact Sigma.Lex.left _ _ h
        · exact Sigma.Lex.right _ _ (LawfulFinite.le_max _)
      · exact absurd (LawfulFinite.min_le d) (not_le.2 (hb ▸ h))
  · rintro ⟨a, b⟩ h
    change ((Finite.succ b).map fun b => toLex (⟨a, b⟩ : Sigma β)).or
      ((Finite.succ a).map fun a => toLex (⟨a, Finite.minimum⟩ : Sigma β)) = none at h
    rw [Option.or_eq_none_iff, Option.map_eq_none_iff, Option.map_eq_none_iff, LawfulFinite.succ_none] at h
    obtain ⟨hb, h⟩ := h
    rw [LawfulFinite.succ_none] at h
    subst h hb
    rfl
  · rintro ⟨a, b⟩ y h
    change ((Finite.succ b).map fun b => toLex (⟨a, b⟩ : Sigma β)).or
      ((Finite.succ a).map fun a => toLex (⟨a, Finite.minimum⟩ : Sigma β)) = some y at h
    rcases Option.or_eq_some_iff.1 h with h | ⟨hb, h⟩
    · obtain ⟨b', hb, rfl⟩ := Option.map_eq_some_iff.1 h
      obtain ⟨k1, k2⟩ := LawfulFinite.succ_some _ _ hb
      refine ⟨Sigma.Lex.right _ _ k1, ?_⟩
      rintro _ (⟨_, _, h⟩ | ⟨_, _, h⟩)
      · exact Sigma.Lex.left _ _ h
      · exact Sigma.Lex.right _ _ (k2 _ h)
    · obtain ⟨a', ha, rfl⟩ := Option.map_eq_some_iff.1 h
      obtain ⟨k1, k2⟩ := LawfulFinite.succ_some _ _ ha
      rw [Option.map_eq_none_iff, LawfulFinite.succ_none] at hb
      refine ⟨Sigma.Lex.left _ _ k1, ?_⟩
      rintro ⟨c, d⟩ h
      rcases h with ⟨_, _, h⟩ | ⟨_, d, h⟩
      · rcases (k2 _ h).lt_or_eq with h | rfl
        · exact Sigma.Lex.left _ _ h
        · exact Sigma.Lex.right _ _ (LawfulFinite.min_le _)
      · exact absurd (LawfulFinite.le_max d) (not_le.2 (hb ▸ h))

end

/-- **C153.** What the laws give: over each of these types a closed interval holds exactly the values between its ends, and no
other implementation does that. -/
theorem C153_contains :
    (∀ (lo hi : α) (h : lo ≤ hi) (l u x : {a : α // lo ≤ a ∧ a ≤ hi}),
      ((@Interval.mkClosed _ (Finite.within lo hi h) _ l u).contains x = true ↔ l.1 ≤ x.1 ∧ x.1 ≤ u.1) ∧
      ∀ F : Finite {a : α // lo ≤ a ∧ a ≤ hi}, @LawfulFinite _ _ F → F = Finite.within lo hi h) ∧
    (∀ (g h : α) (hg : Finite.minimum < g) (hh : h < Finite.maximum) (l u x : {a : α // a < g ∨ h < a}),
      ((@Interval.mkClosed _ (Finite.gap g h hg hh) _ l u).contains x = true ↔ l.1 ≤ x.1 ∧ x.1 ≤ u.1) ∧
      ∀ F : Finite {a : α // a < g ∨ h < a}, @LawfulFinite _ _ F → F = Finite.gap g h hg hh) := by
  refine ⟨fun lo hi h l u x => ?_, fun g h hg hh l u x => ?_⟩
  · let : Finite {a : α // lo ≤ a ∧ a ≤ hi} := Finite.within lo hi h
    have : LawfulFinite {a : α // lo ≤ a ∧ a ≤ hi} := C153_within lo hi h
    exact ⟨(C21_bounded l u x).2.2.2.1, fun F hF => C99_unique _ _ hF this⟩
  · let : Finite {a : α // a < g ∨ h < a} := Finite.gap g h hg hh
    have : LawfulFinite {a : α // a < g ∨ h < a} := C153_gap g h hg hh
    exact ⟨(C21_bounded l u x).2.2.2.1, fun F hF => C99_unique _ _ hF this⟩

/-- The hours of a day. -/
abbrev Hour := {a : U8 // (⟨0, by decide⟩ : U8) ≤ a ∧ a ≤ ⟨23, by decide⟩}

example : letI : Finite Hour := Finite.within _ _ (by decide)
    (Interval.unboundedUpFrom (⟨u8 20, by decide⟩ : Hour)) = .mkClosed ⟨u8 21, by decide⟩ ⟨u8 23, by decide⟩ := by decide

/-- A small `char`. -/
abbrev Gap := {a : U8 // a < (⟨100, by decide⟩ : U8) ∨ (⟨200, by decide⟩ : U8) < a}

/-- Intervals on the two sides of the gap are listed as one. -/
example : letI : Finite Gap := Finite.gap _ _ (by decide) (by decide)
    (do let s ← Selection.fromIntervals true [Interval.mkClosed (⟨u8 201, by decide⟩ : Gap) ⟨u8 210, by decide⟩,
          Interval.mkClosed ⟨u8 90, by decide⟩ ⟨u8 99, by decide⟩]
        s.intervals true) = .ok [.mkClosed ⟨u8 90, by decide⟩ ⟨u8 210, by decide⟩] := by decide

/-- A month with three days and one with two. -/
abbrev Days (a : Bool) : Type := Fin (bif a then 2 else 3)

/-- The first and the last day of each month. -/
@[reducible] def Days.finite (a : Bool) : Finite (Days a) := match a with
  | false => Finite.array (α := Fin 3) 0 [1, 2]
  | true => Finite.array (α := Fin 2) 0 [1]

example : letI : Finite Bool := Finite.array false [true]
    letI := Days.finite
    letI : Finite (Lex (Sigma Days)) := Finite.dependent
    (Finite.succ (toLex (⟨false, (2 : Fin 3)⟩ : Sigma Days)) = some (toLex ⟨true, (0 : Fin 2)⟩)) ∧
    (Finite.pred (toLex (⟨true, (0 : Fin 2)⟩ : Sigma Days)) = some (toLex ⟨false, (2 : Fin 3)⟩)) ∧
    @LawfulFinite (Lex (Sigma Days)) Sigma.Lex.linearOrder inferInstance := by
  let : Finite Bool := Finite.array false [true]
  let := Days.finite
  have : LawfulFinite Bool := (C152_array_iff false [true]).2 ⟨by decide, by decide⟩
  have : ∀ a, LawfulFinite (Days a) := fun a => match a with
    | false => (C152_array_iff (α := Fin 3) 0 [1, 2]).2 ⟨by decide, by decide⟩
    | true => (C152_array_iff (α := Fin 2) 0 [1]).2 ⟨by decide, by decide⟩
  exact ⟨rfl, rfl, C153_dependent⟩

/-- The hours of a day in a wrapper that checks nothing: the full interval lacks the value 30, the complement of an interval does
too, and the interval from 30 on is empty but for its name. -/
theorem C153_counterexample :
    letI : Finite U8 := Finite.clamped (u8 0) (u8 23)
    ¬ LawfulFinite U8 ∧ (Interval.full : Interval U8).contains (u8 30) = false ∧
      (Interval.mkClosed (u8 2) (u8 5)).complement.all (fun i => !i.contains (u8 30)) = true ∧
      (Interval.unboundedFrom (u8 30)).contains (u8 30) = false ∧ (Interval.unboundedFrom (u8 30)).isEmpty = false := by
  refine ⟨fun h => ?_, by decide, by decide, by decide, by decide⟩
  exact absurd ((C153_clamped_iff (u8 0) (u8 23)).1 h).2 (by decide)

end NI
