import Verif.SpecFree
import Verif.Props.StripFilled

/-! # The free parts of a file or heap (C157) -/

set_option linter.unusedVariables false
set_option linter.unusedSectionVars false

namespace NI
open _root_.NI.Finite TT
variable {α : Type} [LinearOrder α] [Finite α] [LawfulFinite α]

/-- The calls as the selection of what is free sees them. -/
def SparseCalls.turned (cs : SparseCalls α) : SparseCalls α := (.full, true) :: cs.map fun c => (c.1, !c.2)

omit [LawfulFinite α] in
theorem SparseCalls.turned_snoc (cs : SparseCalls α) (i : Interval α) (b : Bool) :
    SparseCalls.turned (cs ++ [(i, b)]) = cs.turned ++ [(i, !b)] := by
  simp [SparseCalls.turned]

omit [LawfulFinite α] in
theorem SparseCalls.turned_written (cs : SparseCalls α) {P : Interval α → Bool} (hP : P .full = true) : cs.turned.written P = !cs.written P := by
  induction cs using List.reverseRecOn with
  | nil => simp [SparseCalls.turned, SparseCalls.written, hP]
  | append_singleton cs c ih =>
    obtain ⟨i, b⟩ := c
    rw [SparseCalls.turned_snoc, SparseCalls.written_snoc, SparseCalls.written_snoc, ih]
    cases P i <;> rfl

theorem Interval.full_contains (x : α) : (Interval.full : Interval α).contains x = true := by
  show (decide (minimum ≤ x) && decide (x ≤ maximum)) = true
  simp [minimum_le, le_maximum]

theorem SparseCalls.turned_bridged (cs : SparseCalls α) (i : Interval α) (y : α) : cs.turned.BridgedAt i y ↔ cs.CutAt i y := by
  refine exists_congr fun x => exists_congr fun z => ?_
  rw [SparseCalls.turned_written cs (Interval.full_contains y), SparseCalls.turned_written cs (by simp [Interval.full_contains]),
    SparseCalls.turned_written cs (by simp [Interval.full_contains])]
  simp

theorem SparseCalls.turned_filled (cs : SparseCalls α) (y : α) : cs.turned.Filled y ↔ cs.Cut y := by
  constructor
  · rintro ⟨A, B, i, e, h, hB⟩
    cases A with
    | nil => simp [SparseCalls.turned] at e
    | cons a A =>
      simp only [SparseCalls.turned, List.cons_append, List.cons.injEq] at e
      obtain ⟨rfl, e⟩ := e
      obtain ⟨A', R, rfl, rfl, e2⟩ := List.map_eq_append_iff.1 e
      obtain ⟨c, B', rfl, e3, rfl⟩ := List.map_eq_cons_iff.1 e2
      obtain ⟨j, b⟩ := c
      simp only [Prod.mk.injEq, Bool.not_eq_false'] at e3
      obtain ⟨rfl, rfl⟩ := e3
      exact ⟨A', B', j, rfl, (SparseCalls.turned_bridged A' j y).1 h, fun c hc => hB (c.1, !c.2) (List.mem_map.2 ⟨c, hc, rfl⟩)⟩
  · rintro ⟨A, B, i, rfl, h, hB⟩
    refine ⟨SparseCalls.turned A, B.map fun c => (c.1, !c.2), i, by simp [SparseCalls.turned], (SparseCalls.turned_bridged A i y).2 h, fun c hc => ?_⟩
    obtain ⟨d, hd, rfl⟩ := List.mem_map.1 hc
    exact hB d hd

theorem SparseCalls.turned_run (dbg : Bool) (cs : SparseCalls α) : cs.turned.run dbg = cs.runFree dbg := by
  rw [SparseCalls.turned, SparseCalls.run, SparseCalls.runFree, List.foldlM_cons]
  have : (Selection.new : Selection α).unionInPlace dbg .full = .ok .full := by
    obtain ⟨s, e, h⟩ := Strip.of_new.add dbg (i := (.full : Interval α)) .full
    rw [e, (h.eq_iff Strip.of_full).2 ⟨fun x => ?_, fun x => ?_⟩]
    · rw [Strip.add_val, Interval.full_contains]; simp [Strip.everything]
    · rw [Strip.add_joint]
      cases hx : succ x with
      | none => rw [Strip.joins_last _ hx]; simp [Strip.everything, Strip.nothing, hx]
      | some y => rw [Interval.real_joins .full Selection.full_real hx, Interval.full_contains]; simp [Strip.everything, hx]
  simp only [if_true, this, bind, Except.bind]
  rw [List.foldlM_map]
  congr 1
  funext s c
  cases c.2 <;> rfl

/-- **C157.**  Nothing panics; after any calls the selection has what is free, and besides exactly the values in use at which a range that has
been allocated was cut, and that were in no range allocated or freed since. -/
theorem C157_every (dbg : Bool) (cs : SparseCalls α) (hc : ∀ c ∈ cs, c.1.Obtainable ∧ c.1.Real) :
    ∃ s, cs.runFree dbg = .ok s ∧ s.Reachable ∧ s.pts dbg = cs.thereᶜ ∪ {y | cs.Cut y} ∧ (∀ y, cs.Cut y → y ∈ cs.there) ∧
      (s.pts dbg = cs.thereᶜ ↔ ∀ y, ¬ cs.Cut y) := by
  have ht : cs.turned.there = cs.thereᶜ := by
    ext x
    rw [SparseCalls.mem_there, SparseCalls.turned_written cs (Interval.full_contains x), Set.mem_compl_iff, SparseCalls.mem_there]
    simp
  obtain ⟨s, e, r, p, d, k⟩ := C156_every dbg cs.turned (by
    intro c h
    simp only [SparseCalls.turned, List.mem_cons, List.mem_map] at h
    rcases h with rfl | ⟨d, hd, rfl⟩
    · exact ⟨.full, .inr ⟨minimum, Interval.full_contains _⟩⟩
    · exact hc d hd)
  simp only [SparseCalls.turned_filled, ht] at p d k
  rw [SparseCalls.turned_run] at e
  exact ⟨s, e, r, p, fun y h => not_not.1 (d y h), k⟩

/-- **C157.**  If the ranges are made of pages of two values or more it is always right. -/
theorem C157_paged (dbg : Bool) (cs : SparseCalls α) (hc : ∀ c ∈ cs, c.1.Obtainable ∧ c.1.Real) (hp : cs.Paged) :
    ∃ s, cs.runFree dbg = .ok s ∧ s.pts dbg = cs.thereᶜ := by
  obtain ⟨s, e, -, -, -, k⟩ := C157_every dbg cs hc
  refine ⟨s, e, k.2 ?_⟩
  rintro y ⟨A, B, i, rfl, ⟨x, z, hy, hz, -, -, h3, h4, h5⟩, -⟩
  obtain ⟨w, hw, hq⟩ := hp y
  have hq : ∀ c ∈ A, c.1.contains y = c.1.contains w := fun c hc => hq c (List.mem_append_left _ hc)
  rcases hw with hw | hw
  · rw [hz] at hw; cases hw
    rw [SparseCalls.written_congr (Q := fun j => j.contains y) fun c hc => by rw [← hq c hc, Bool.or_self], h3] at h5
    cases h5
  · have := pred_eq_iff.2 hw
    rw [pred_eq_iff.2 hy] at this; cases this
    rw [SparseCalls.written_congr (Q := fun j => j.contains y) fun c hc => by rw [← hq c hc, Bool.or_self], h3] at h4
    cases h4

omit [LawfulFinite α] in
theorem SparseCalls.written_any {A : SparseCalls α} (hn : ∀ c ∈ A, c.2 = true) (P : Interval α → Bool) :
    A.written P = A.any fun c => P c.1 := by
  induction A using List.reverseRecOn with
  | nil => rfl
  | append_singleton A c ih =>
    obtain ⟨j, b⟩ := c
    obtain rfl : b = true := hn (j, b) (List.mem_append_right _ (.head _))
    rw [SparseCalls.written_snoc, List.any_append, ih (fun c hc => hn c (List.mem_append_left _ hc))]
    cases hj : P j <;> simp [hj]

/-- **C157.**  As long as nothing is freed it is right. -/
theorem C157_no_free (dbg : Bool) (cs : SparseCalls α) (hc : ∀ c ∈ cs, c.1.Obtainable ∧ c.1.Real) (hn : ∀ c ∈ cs, c.2 = true) :
    ∃ s, cs.runFree dbg = .ok s ∧ s.pts dbg = cs.thereᶜ := by
  obtain ⟨s, e, -, -, -, k⟩ := C157_every dbg cs hc
  refine ⟨s, e, k.2 ?_⟩
  rintro y ⟨A, B, i, rfl, ⟨x, z, hy, hz, -, -, h3, h4, h5⟩, -⟩
  have hn : ∀ c ∈ A, c.2 = true := fun c hc => hn c (List.mem_append_left _ hc)
  rw [SparseCalls.written_any hn, List.any_eq_true] at h3
  obtain ⟨c, hc, h⟩ := h3
  rw [SparseCalls.written_any hn, List.any_eq_false] at h4
  exact absurd h4 (by push Not; exact ⟨c, hc, by simp [h]⟩)

/-- **C157**, a wrong result: 4, 5 and 6 are allocated one by one, 4 and 6 are freed, and 4 is allocated: then 5, that is in use, counts as
free. -/
theorem C157_counterexample : SparseCalls.Cut [((.point (u8 4) : Interval U8), true), (.point (u8 5), true), (.point (u8 6), true), (.point (u8 4), false),
      (.point (u8 6), false), (.point (u8 4), true)] (u8 5) ∧
    ∀ dbg, (do (← SparseCalls.runFree dbg [((.point (u8 4) : Interval U8), true), (.point (u8 5), true), (.point (u8 6), true), (.point (u8 4), false),
      (.point (u8 6), false), (.point (u8 4), true)]).contains dbg (u8 5)) = .ok true :=
  ⟨⟨[(.point (u8 4), true), (.point (u8 5), true), (.point (u8 6), true), (.point (u8 4), false), (.point (u8 6), false)], [], .point (u8 4), rfl,
    ⟨u8 4, u8 6, by decide, by decide, by decide, by decide, by decide, by decide, by decide⟩, by decide⟩, fun dbg => by cases dbg <;> decide⟩

/-- 4 to 7 are allocated and 6 is freed. -/
example : (∀ c ∈ [((.mkClosed (u8 4) (u8 7) : Interval U8), true), (.point (u8 6), false)], c.1.Obtainable ∧ c.1.Real) ∧
    (do (← SparseCalls.runFree true [((.mkClosed (u8 4) (u8 7) : Interval U8), true), (.point (u8 6), false)]).intervals true) =
      .ok [.mkClosed (u8 0) (u8 3), ⟨.closed (u8 6) (u8 6)⟩, .mkClosed (u8 8) (u8 255)] := by
  refine ⟨?_, by decide⟩
  intro c hc
  simp only [List.mem_cons, List.not_mem_nil, or_false] at hc
  rcases hc with rfl | rfl
  · exact ⟨.mkClosed _ _, .inr ⟨u8 4, by decide⟩⟩
  · exact ⟨.point _, .inr ⟨u8 6, by decide⟩⟩

end NI
