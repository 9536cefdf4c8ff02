import Verif.Props.Order
import Verif.Props.ClosureAny

/-! # More in, more out: `enclose` and `closure` of selections of any history (C118) -/

namespace NI
open _root_.NI.Finite TT
variable {α : Type} [LinearOrder α] [Finite α] [LawfulFinite α]

/-- **C118.**  `enclose` of one selection lies in that of another exactly if its bounds are in reverse order or lie within
those of the other. -/
theorem C118_enclose_iff (dbg : Bool) (a a' : Selection α) (ha : a.Reachable) (ha' : a'.Reachable) :
    (∃ e e', a.enclose dbg = .ok e ∧ a'.enclose dbg = .ok e' ∧ e.pts ⊆ e'.pts) ↔
      ∀ l u, a.lowerBound dbg = .ok (some (.incl l)) → a.upperBound dbg = .ok (some (.incl u)) → l ≤ u →
        ∃ l' u', a'.lowerBound dbg = .ok (some (.incl l')) ∧ a'.upperBound dbg = .ok (some (.incl u')) ∧ l' ≤ l ∧ u ≤ u' := by
  obtain ⟨e, e1, -, h⟩ := C61_enclose_any dbg a ha
  obtain ⟨e', e1', -, h'⟩ := C61_enclose_any dbg a' ha'
  rw [e1, e1']
  simp only [Except.ok.injEq, exists_and_left, exists_eq_left']
  rcases h with ⟨-, b1, b2, hp⟩ | ⟨l, u, -, b1, b2, hp⟩
  · rw [b1, hp]
    exact iff_of_true (Set.empty_subset _) fun l u hl => by cases hl
  · rw [b1, b2, hp]
    constructor
    · rintro hsub l0 u0 ⟨⟩ ⟨⟩ hlu
      rcases h' with ⟨-, -, -, hp'⟩ | ⟨l', u', -, b1', b2', hp'⟩
      · rw [hp'] at hsub
        exact (hsub ⟨le_rfl, hlu⟩).elim
      · rw [hp'] at hsub
        exact ⟨l', b1', u', b2', (hsub ⟨le_rfl, hlu⟩).1, (hsub ⟨hlu, le_rfl⟩).2⟩
    · intro H x hx
      obtain ⟨l', c1, u', c2, g1, g2⟩ := H l u rfl rfl (hx.1.trans hx.2)
      rcases h' with ⟨-, b1', -, -⟩ | ⟨l0, u0, -, b1', b2', hp'⟩
      · rw [b1'] at c1; cases c1
      · rw [b1'] at c1; rw [b2'] at c2; cases c1; cases c2
        rw [hp']
        exact ⟨g1.trans hx.1, hx.2.trans g2⟩

example : ∃ e e', (Selection.demo [(u8 2, u8 2), (u8 4, u8 4)]).enclose true = .ok e ∧
    (Selection.demo [(u8 2, u8 2), (u8 4, u8 6)]).enclose true = .ok e' ∧ e.pts ⊆ e'.pts :=
  (C118_enclose_iff true _ _ (Selection.demo_built _ (by decide)).reachable (Selection.demo_built _ (by decide)).reachable).2
    fun l u hl hu _ => ⟨u8 2, u8 6, by decide, by decide, by
      rw [show (Selection.demo [(u8 2, u8 2), (u8 4, u8 4)]).lowerBound true = .ok (some (.incl (u8 2))) by decide] at hl
      cases hl; exact le_rfl, by
      rw [show (Selection.demo [(u8 2, u8 2), (u8 4, u8 4)]).upperBound true = .ok (some (.incl (u8 4))) by decide] at hu
      cases hu; decide⟩

/-- **C118.**  `closure` of one selection lies in that of another exactly if the first is empty, or the other is not and its
infimum and supremum, where it has any, are not inside. -/
theorem C118_closure_iff (dbg : Bool) (a a' : Selection α) (ha : a.Reachable) (ha' : a'.Reachable) :
    (∃ c c', a.closure dbg = .ok c ∧ a'.closure dbg = .ok c' ∧ c.pts ⊆ c'.pts) ↔
      a.isEmpty = true ∨ (a'.isEmpty = false ∧ a'.infimum.getD minimum ≤ a.infimum.getD minimum ∧
        a.supremum.getD maximum ≤ a'.supremum.getD maximum) := by
  have ends : ∀ (s : Selection α) (x : α), ((∀ l, s.infimum = some l → l ≤ x) ∧ ∀ u, s.supremum = some u → x ≤ u) ↔
      s.infimum.getD minimum ≤ x ∧ x ≤ s.supremum.getD maximum := fun s x => by
    refine and_congr ?_ ?_
    · cases s.infimum
      · exact iff_of_true (fun l h => by cases h) (LawfulFinite.min_le x)
      · exact ⟨fun h => h _ rfl, fun h l e => by cases e; exact h⟩
    · cases s.supremum
      · exact iff_of_true (fun l h => by cases h) (LawfulFinite.le_max x)
      · exact ⟨fun h => h _ rfl, fun h l e => by cases e; exact h⟩
  have ord : a.infimum.getD minimum ≤ a.supremum.getD maximum := by
    cases h1 : a.infimum with
    | none => exact LawfulFinite.min_le _
    | some l => cases h2 : a.supremum with
      | none => exact LawfulFinite.le_max _
      | some u => exact Selection.inf_le_sup ha h1 h2
  obtain ⟨c, e, -, h⟩ := C61_closure_any dbg a ha
  obtain ⟨c', e', -, h'⟩ := C61_closure_any dbg a' ha'
  rw [e, e']
  simp only [Except.ok.injEq, exists_and_left, exists_eq_left']
  simp only [ends] at h h'
  constructor
  · intro hsub
    cases he : a.isEmpty with
    | true => exact .inl rfl
    | false =>
      have g1 := (h' _).1 (hsub ((h (a.infimum.getD minimum)).2 ⟨he, le_rfl, ord⟩))
      have g2 := (h' _).1 (hsub ((h (a.supremum.getD maximum)).2 ⟨he, ord, le_rfl⟩))
      exact .inr ⟨g1.1, g1.2.1, g2.2.2⟩
  · rintro (he | ⟨he, g1, g2⟩) x hx
    · have := ((h x).1 hx).1
      rw [he] at this; cases this
    · obtain ⟨-, k1, k2⟩ := (h x).1 hx
      exact (h' x).2 ⟨he, g1.trans k1, k2.trans g2⟩

example : ∃ c c', (Selection.demo [(u8 2, u8 2), (u8 4, u8 4)]).closure true = .ok c ∧
    (Selection.demo [(u8 2, u8 2), (u8 4, u8 6)]).closure true = .ok c' ∧ c.pts ⊆ c'.pts :=
  (C118_closure_iff true _ _ (Selection.demo_built _ (by decide)).reachable (Selection.demo_built _ (by decide)).reachable).2
    (.inr (by decide))

end NI
