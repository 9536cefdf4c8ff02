import Verif.Props.StripDiary

/-! # What the selection of the allocated parts has after any calls (C156) -/

set_option linter.unusedVariables false
set_option linter.unusedSectionVars false

namespace NI
open _root_.NI.Finite TT
variable {α : Type} [LinearOrder α] [Finite α] [LawfulFinite α]

omit [LawfulFinite α] in
theorem SparseCalls.filled_snoc (cs : SparseCalls α) (i : Interval α) (b : Bool) (y : α) :
    SparseCalls.Filled (cs ++ [(i, b)]) y ↔ (cs.Filled y ∧ i.contains y = false) ∨ (b = false ∧ cs.BridgedAt i y) := by
  constructor
  · rintro ⟨A, B, j, e, h, hB⟩
    rcases List.eq_nil_or_concat B with rfl | ⟨B, c, rfl⟩
    · obtain ⟨rfl, e2⟩ := List.append_inj' e rfl
      cases e2
      exact .inr ⟨rfl, h⟩
    · rw [List.concat_eq_append] at e hB
      have e : cs ++ [(i, b)] = (A ++ (j, false) :: B) ++ [c] := by rw [e]; simp
      obtain ⟨e1, e2⟩ := List.append_inj' e rfl
      cases e2
      exact .inl ⟨⟨A, B, j, e1, h, fun c hc => hB c (List.mem_append_left _ hc)⟩, hB (i, b) (List.mem_append_right _ (.head _))⟩
  · rintro (⟨⟨A, B, j, rfl, h, hB⟩, hi⟩ | ⟨rfl, h⟩)
    · refine ⟨A, B ++ [(i, b)], j, by simp, h, fun c hc => ?_⟩
      rcases List.mem_append.1 hc with hc | hc
      · exact hB c hc
      · rw [List.mem_singleton] at hc; subst hc; exact hi
    · exact ⟨cs, [], i, rfl, h, fun c hc => nomatch hc⟩

omit [LawfulFinite α] in
theorem SparseCalls.Filled.not_there {cs : SparseCalls α} {y : α} (h : cs.Filled y) : cs.written (fun j => j.contains y) = false := by
  induction cs using List.reverseRecOn with
  | nil => rfl
  | append_singleton cs c ih =>
    obtain ⟨i, b⟩ := c
    rw [SparseCalls.written_snoc]
    rcases (SparseCalls.filled_snoc cs i b y).1 h with ⟨h, hi⟩ | ⟨-, x, z, -, -, hi, -, h3, -⟩
    · rw [hi]; exact ih h
    · rw [hi]; exact h3

/-- The joints told by the calls. -/
structure Strip.Joined (cs : SparseCalls α) (p : Strip α) : Prop where
  joint : ∀ x y, succ x = some y → p.joint x = cs.written fun j => j.contains x || j.contains y
  last : ∀ x, succ x = none → p.joint x = false

theorem Strip.Joined.bridgedAt {cs : SparseCalls α} {p : Strip α} (k : p.Joined cs) {i : Interval α} (hi : i.Obtainable) (hr : i.Real)
    (y : α) : ((p.joint y && (pred y).any p.joint && i.beside y) = true ∧ cs.written (fun j => j.contains y) = false) ↔ cs.BridgedAt i y := by
  constructor
  · rintro ⟨hc, v⟩
    simp only [Bool.and_eq_true, Option.any_eq_true] at hc
    obtain ⟨⟨j2, x, hx, j1⟩, hb⟩ := hc
    have hy := pred_eq_iff.1 hx
    cases hz : succ y with
    | none => rw [k.last y hz] at j2; cases j2
    | some z =>
      obtain ⟨h1, h2⟩ := (Interval.real_beside hi hr hy hz).1 hb
      exact ⟨x, z, hy, hz, h1, h2, v, by rw [← k.joint x y hy]; exact j1, by rw [← k.joint y z hz]; exact j2⟩
  · rintro ⟨x, z, hy, hz, h1, h2, h3, h4, h5⟩
    refine ⟨?_, h3⟩
    rw [(Interval.real_beside hi hr hy hz).2 ⟨h1, h2⟩, k.joint y z hz, h5, pred_eq_iff.2 hy, Option.any_some, k.joint x y hy, h4]
    rfl

/-- **C156.**  After any calls the selection has what should be there, and besides exactly the values at which a range was bridged that has
been freed, and that were not in a range written or freed since. -/
theorem C156_every (dbg : Bool) (cs : SparseCalls α) (hc : ∀ c ∈ cs, c.1.Obtainable ∧ c.1.Real) :
    ∃ s, cs.run dbg = .ok s ∧ s.Reachable ∧ s.pts dbg = cs.there ∪ {y | cs.Filled y} ∧ (∀ y, cs.Filled y → y ∉ cs.there) ∧
      (s.pts dbg = cs.there ↔ ∀ y, ¬ cs.Filled y) := by
  have hd : ∀ y, cs.Filled y → y ∉ cs.there := fun y h hn => by
    rw [SparseCalls.mem_there, h.not_there] at hn; cases hn
  suffices main : ∃ (s : Selection α) (p : Strip α), cs.run dbg = .ok s ∧ p.Of s ∧ p.Joined cs ∧
      ∀ y, p.val y = true ↔ cs.written (fun j => j.contains y) = true ∨ cs.Filled y by
    obtain ⟨s, p, e, h, -, k⟩ := main
    have hp : s.pts dbg = cs.there ∪ {y | cs.Filled y} := by
      ext y
      rw [Selection.mem_pts dbg (Selection.reachable_valid h.1), h.2.1, k, ← SparseCalls.mem_there]
      rfl
    refine ⟨s, e, h.1, hp, hd, ?_⟩
    rw [hp]
    constructor
    · intro h y hy
      exact hd y hy (h ▸ .inr hy)
    · intro h
      ext y
      exact ⟨fun h' => h'.elim id fun hy => absurd hy (h y), .inl⟩
  clear hd
  induction cs using List.reverseRecOn with
  | nil =>
    refine ⟨.new, _, rfl, Strip.of_new, ⟨fun x y _ => rfl, fun x _ => rfl⟩, fun y => ?_⟩
    constructor
    · intro h; cases h
    · rintro (h | ⟨A, B, i, e, -⟩)
      · cases h
      · simp at e
  | append_singleton cs c ih =>
    obtain ⟨s, p, e, h, k, v⟩ := ih fun c h => hc c (List.mem_append_left _ h)
    obtain ⟨i, b⟩ := c
    obtain ⟨hi, hr⟩ := hc (i, b) (List.mem_append_right _ (.head _))
    cases b with
    | true =>
      obtain ⟨s1, e1, h1⟩ := h.add dbg hi
      refine ⟨s1, _, by rw [SparseCalls.run_snoc dbg cs i true e]; exact e1, h1, ⟨fun x y hy => ?_, fun x hx => ?_⟩, fun y => ?_⟩
      · rw [SparseCalls.written_snoc, Strip.add_joint, k.joint x y hy, Interval.real_joins hi hr hy]
        cases i.contains x || i.contains y <;> simp
      · rw [Strip.add_joint, k.last x hx, Strip.joins_last _ hx]; rfl
      · rw [SparseCalls.written_snoc, SparseCalls.filled_snoc, Strip.add_val, Bool.or_eq_true, v]
        cases i.contains y <;> simp
    | false =>
      obtain ⟨s1, e1, h1⟩ := h.remove dbg hi
      refine ⟨s1, _, by rw [SparseCalls.run_snoc dbg cs i false e]; exact e1, h1, ⟨fun x y hy => ?_, fun x hx => ?_⟩, fun y => ?_⟩
      · rw [SparseCalls.written_snoc, Strip.remove_joint, k.joint x y hy, Interval.real_joins hi hr hy]
        cases i.contains x || i.contains y <;> simp
      · rw [Strip.remove_joint, k.last x hx]; rfl
      · have v := v y
        have h3 := Interval.beside_not_in hi (x := y)
        have hf : SparseCalls.Filled cs y → SparseCalls.written cs (fun j => j.contains y) = false := fun h => h.not_there
        rw [SparseCalls.written_snoc, SparseCalls.filled_snoc, ← k.bridgedAt hi hr, Strip.remove_val, Strip.hole]
        generalize (pred y).any p.joint = a at *
        generalize p.joint y = a' at *
        generalize p.val y = b at *
        generalize i.contains y = c at *
        generalize i.beside y = d at *
        generalize SparseCalls.written cs (fun j => j.contains y) = w at *
        generalize SparseCalls.Filled cs y = F at *
        clear * - v h3 hf
        cases a <;> cases a' <;> cases b <;> cases c <;> cases d <;> cases w <;> grind

/-- 1 to 4 and 6 to 9 are written, 6 to 7 freed, and 9 freed: 5 is there still. -/
example : SparseCalls.Filled [(.mkClosed (u8 1) (u8 4), true), (.mkClosed (u8 6) (u8 9), true), (.mkClosed (u8 6) (u8 7), false), (.point (u8 9), false)]
      (u8 5) ∧
    (do (← SparseCalls.run true [(.mkClosed (u8 1) (u8 4), true), (.mkClosed (u8 6) (u8 9), true), (.mkClosed (u8 6) (u8 7), false),
      (.point (u8 9), false)]).intervals true) = .ok [.mkClosed (u8 1) (u8 5), .point (u8 8)] :=
  ⟨⟨[(.mkClosed (u8 1) (u8 4), true), (.mkClosed (u8 6) (u8 9), true)], [(.point (u8 9), false)], _, rfl,
    ⟨u8 4, u8 6, by decide, by decide, by decide, by decide, by decide, by decide, by decide⟩, by decide⟩, by decide⟩

end NI
