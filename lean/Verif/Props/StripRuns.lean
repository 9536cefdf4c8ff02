import Verif.Props.StripOrder

/-!
# C75: what any number of removals do to a selection of any history
-/

set_option linter.unusedVariables false
set_option linter.unusedSectionVars false

namespace NI
open _root_.NI.Finite TT
variable {α : Type} [LinearOrder α] [Finite α] [LawfulFinite α]

/-- An interval joins two neighbours exactly if it has the one or begins with the other, and so from the other side. -/
theorem Interval.joins_iff {i : Interval α} (hi : i.Obtainable) {u y : α} (hu : succ u = some y) : 
    (i.joins u = true ↔ i.contains u = true ∨ i.lowerBound = some (.incl y)) ∧
    (i.joins u = true ↔ i.contains y = true ∨ i.upperBound = some (.incl u)) := by
  have hlt := (LawfulFinite.succ_some u y hu).1
  have hle := (LawfulFinite.succ_some u y hu).2
  rw [Interval.joins, hu]
  rcases Interval.obtainable_cases hi with rfl | ⟨q, rfl⟩ | ⟨l, r, rfl, h⟩
  · simp [Interval.contains, RawInterval.contains, Interval.lowerBound, Interval.upperBound, RawInterval.lowerBound, RawInterval.upperBound]
  · simp only [Interval.contains, RawInterval.contains, Interval.lowerBound, Interval.upperBound, RawInterval.lowerBound, RawInterval.upperBound,
      Option.some.injEq, Bound.incl.injEq, Bool.or_eq_true, Bool.and_eq_true, decide_eq_true_eq]
    grind
  · simp only [Interval.contains, RawInterval.contains, Interval.lowerBound, Interval.upperBound, RawInterval.lowerBound, RawInterval.upperBound,
      Option.some.injEq, Bound.incl.injEq, Bool.or_eq_true, Bool.and_eq_true, decide_eq_true_eq]
    have h1 := hle l
    have h2 := hle r
    have h3 : succ r = some y → r = u := fun hr => by
      have := pred_eq_iff.2 hr
      rw [pred_eq_iff.2 hu] at this
      exact (Option.some.inj this).symm
    refine ⟨⟨?_, ?_⟩, ?_, ?_⟩
    · rintro ((⟨a, b⟩ | ⟨a, b⟩) | ⟨a, b⟩)
      · exact .inl ⟨a, b⟩
      · rcases le_or_gt l u with c | c
        · exact .inl ⟨c, hlt.le.trans b⟩
        · exact .inr (le_antisymm a (h1 c))
      · exact .inr a
    · rintro (a | rfl)
      · exact .inl (.inl a)
      · rcases h with h | h
        · exact .inl (.inr ⟨le_rfl, h⟩)
        · exact .inr ⟨rfl, h3 h⟩
    · rintro ((⟨a, b⟩ | ⟨a, b⟩) | ⟨a, b⟩)
      · rcases b.lt_or_eq with b' | b'
        · exact .inl ⟨a.trans hlt.le, h2 b'⟩
        · exact .inr b'.symm
      · exact .inl ⟨a, b⟩
      · exact .inr b
    · rintro (a | rfl)
      · exact .inl (.inr a)
      · rcases h with h | h
        · exact .inl (.inl ⟨h, le_rfl⟩)
        · rw [hu] at h; cases h; exact .inr ⟨rfl, rfl⟩

/-- No value of an interval is beside it. -/
theorem Interval.beside_not_in {i : Interval α} (hi : i.Obtainable) {x : α} (h : i.beside x = true) : i.contains x = false := by
  rw [Interval.beside_iff] at h
  rcases Interval.obtainable_cases hi with rfl | ⟨q, rfl⟩ | ⟨l, r, rfl, -⟩
  · rfl
  all_goals
    simp only [Interval.contains, RawInterval.contains, Interval.lowerBound, Interval.upperBound, RawInterval.lowerBound, RawInterval.upperBound,
      Option.some.injEq, Bound.incl.injEq, exists_eq_left'] at h ⊢
    rcases h with h | h
    · have := (LawfulFinite.pred_some _ _ h).1
      grind
    · have := (LawfulFinite.succ_some _ _ h).1
      grind

/-- The joints of a value that an interval cuts. -/
theorem Strip.hole_after (p : Strip α) (hl : ∀ x, succ x = none → p.joint x = false) {i : Interval α} (hi : i.Obtainable) (x : α) :
    (p.remove i).hole x = (p.hole x && !i.contains x && !i.beside x) := by
  have ho := Interval.beside_not_in hi (x := x)
  rw [Strip.hole, Strip.remove_val, Strip.remove_joint]
  cases hp : pred x with
  | none => simp [Strip.hole, hp]
  | some y =>
    have hy := pred_eq_iff.1 hp
    rw [Option.any_some, Strip.remove_joint]
    have j1 := (Interval.joins_iff hi hy).2
    cases hs : succ x with
    | none => simp [Strip.hole, hl x hs]
    | some z =>
      have j2 := (Interval.joins_iff hi hs).1
      have hb : i.beside x = true ↔ i.lowerBound = some (.incl z) ∨ i.upperBound = some (.incl y) := by
        rw [Interval.beside, hp, hs]; simp
      simp only [Strip.hole, hp, Option.any_some]
      generalize i.joins x = a at *
      generalize i.joins y = b at *
      generalize i.contains x = c at *
      generalize i.beside x = d at *
      generalize (i.lowerBound = some (.incl z)) = L at *
      generalize (i.upperBound = some (.incl y)) = U at *
      clear * - j1 j2 hb ho
      generalize p.val x = v
      generalize p.joint x = m
      generalize p.joint y = n
      cases a <;> cases b <;> cases c <;> cases d <;> simp at j1 j2 hb ho ⊢ <;> grind

theorem Strip.removes (is : List (Interval α)) (hi : ∀ i ∈ is, i.Obtainable) (p : Strip α) (hl : ∀ x, succ x = none → p.joint x = false) (x : α) :
    (is.foldl Strip.remove p).val x = (!(is.any (·.contains x)) && (p.val x || (p.hole x && is.any (·.beside x)))) ∧
    (is.foldl Strip.remove p).joint x = (p.joint x && !is.any (·.joins x)) := by
  induction is generalizing p with
  | nil => simp
  | cons i is ih =>
    obtain ⟨h1, h2⟩ := ih (fun j hj => hi j (.tail _ hj)) (p.remove i) fun x hx => by simp [Strip.remove_joint, hl x hx]
    rw [List.foldl_cons, h1, h2, Strip.remove_val, Strip.remove_joint, List.any_cons, List.any_cons, List.any_cons]
    have k := Interval.beside_not_in (hi i (.head _)) (x := x)
    rw [Strip.hole_after p hl (hi i (.head _))]
    refine ⟨?_, by simp [Bool.and_assoc]⟩
    generalize p.hole x = b at *
    generalize i.contains x = c at *
    generalize i.beside x = d at *
    generalize is.any (·.contains x) = e
    generalize is.any (·.beside x) = f
    generalize p.val x = v
    clear * - k
    cases b <;> cases c <;> cases d <;> cases e <;> cases f <;> cases v <;> simp_all

/-- **C75.**  What is left of a selection of any history after any number of removals by `minus_in_place`, of any intervals: the values
it had that are in no interval, and those in no interval that its complement lists as points and that have one of the intervals
beside them. -/
theorem C75_removals_any (dbg : Bool) (s : Selection α) (hs : s.Reachable) (is : List (Interval α)) (hi : ∀ i ∈ is, i.Obtainable) :
    ∃ r, s.removeAll dbg is = .ok r ∧ r.Reachable ∧ ∀ x, x ∈ r.pts dbg ↔
      (∀ i ∈ is, x ∉ i.pts) ∧ (x ∈ s.pts dbg ∨ (s.Pinhole dbg x ∧ ∃ i ∈ is, i.beside x = true)) := by
  have h := Strip.ofTree_of hs
  generalize Strip.ofTree s = p at h
  have v := Selection.reachable_valid hs
  have all : ∀ (is : List (Interval α)) (p : Strip α) (s : Selection α), (∀ i ∈ is, i.Obtainable) → p.Of s →
      ∃ r, s.removeAll dbg is = .ok r ∧ (is.foldl Strip.remove p).Of r := by
    intro is
    induction is with
    | nil => exact fun p s _ h => ⟨s, rfl, h⟩
    | cons i is ih =>
      intro p s hi h
      obtain ⟨s1, e1, h1⟩ := h.remove dbg (hi i (.head _))
      obtain ⟨r, e, k⟩ := ih _ s1 (fun j hj => hi j (.tail _ hj)) h1
      exact ⟨r, by rw [← e]; simp only [Selection.removeAll, e1, bind, Except.bind], k⟩
  obtain ⟨r, e, k⟩ := all is p s hi h
  refine ⟨r, e, k.1, fun x => ?_⟩
  rw [Selection.mem_pts dbg (Selection.reachable_valid k.1), k.2.1, (Strip.removes is hi p h.2.2.2 x).1, Selection.mem_pts dbg v, h.2.1,
    Selection.pinhole_iff dbg v, h.hole]
  simp only [Bool.and_eq_true, Bool.not_eq_true', List.any_eq_false, Bool.or_eq_true, List.any_eq_true]
  rfl

/-- **C75.**  So what any number of removals leave is right exactly if no value outside the intervals that the complement lists as a
point has one of the intervals beside it. -/
theorem C75_exact_any (dbg : Bool) (s : Selection α) (hs : s.Reachable) (is : List (Interval α)) (hi : ∀ i ∈ is, i.Obtainable) :
    ∃ r, s.removeAll dbg is = .ok r ∧ ((∀ x, x ∈ r.pts dbg ↔ x ∈ s.pts dbg ∧ ∀ i ∈ is, x ∉ i.pts) ↔
      ∀ x, s.Pinhole dbg x → (∀ i ∈ is, x ∉ i.pts) → ∀ i ∈ is, i.beside x = false) := by
  obtain ⟨r, e, -, k⟩ := C75_removals_any dbg s hs is hi
  refine ⟨r, e, forall_congr' fun x => ?_⟩
  rw [k]
  have := C73_pinhole dbg s hs x
  constructor
  · intro h hp ho i hm
    cases hb : i.beside x with
    | false => rfl
    | true => exact absurd (h.1 ⟨ho, .inr ⟨hp, i, hm, hb⟩⟩).1 (this hp)
  · intro h
    constructor
    · rintro ⟨ho, hx | ⟨hp, i, hm, hb⟩⟩
      · exact ⟨hx, ho⟩
      · rw [h hp ho i hm] at hb; cases hb
    · exact fun ⟨hx, ho⟩ => ⟨ho, .inl hx⟩

/-- 5 is missing on its own, with 6 beside it: removing 8 and then 6 puts 5 in, removing 5 to 6 and 20 does not. -/
example : (do (← (Selection.demo [(u8 2, u8 4), (u8 6, u8 9)]).removeAll true [.point (u8 8), .point (u8 6)]).intervals true) =
      .ok [.mkClosed (u8 2) (u8 5), ⟨.point (u8 7)⟩, ⟨.closed (u8 9) (u8 9)⟩] ∧
    (do (← (Selection.demo [(u8 2, u8 4), (u8 6, u8 9)]).removeAll true [.mkClosed (u8 5) (u8 6), .point (u8 20)]).contains true (u8 5)) = .ok false ∧
    (Interval.point (u8 6)).beside (u8 5) = true ∧ (Selection.demo [(u8 2, u8 4), (u8 6, u8 9)]).Reachable ∧
    (Selection.demo [(u8 2, u8 4), (u8 6, u8 9)]).Pinhole true (u8 5) :=
  ⟨by decide, by decide, by decide, (Selection.demo_built _ (by decide)).reachable, _, _, rfl, rfl, by decide⟩

end NI
