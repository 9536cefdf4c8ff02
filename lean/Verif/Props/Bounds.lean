import Verif.Props.SharpSel

/-!
# The ends of selections, exactly (C59)
-/

set_option linter.unusedSimpArgs false
set_option linter.unusedVariables false
set_option linter.unusedSectionVars false

namespace NI
open Finite TT
variable {α : Type} [LinearOrder α] [Finite α] [LawfulFinite α]

/-- `infimum` and `supremum` of a union-built selection with a point are never its least and greatest
point. -/
theorem C59_never (dbg : Bool) (s : Selection α) (hs : s.UnionBuilt) (l u : α)
    (hl : IsLeast (s.pts dbg) l) (hu : IsGreatest (s.pts dbg) u) :
    s.infimum ≠ some l ∧ s.supremum ≠ some u := by
  rcases C59_infimum_partial dbg s hs with ⟨h, -, -⟩ | ⟨l', u', h1, h2, h3, h4⟩
  · rw [h] at hl; exact absurd hl.1 (Set.notMem_empty _)
  · cases h1.unique hl
    cases h2.unique hu
    rw [h3, h4]
    exact ⟨fun e => absurd (LawfulFinite.pred_some _ _ e).1 (lt_irrefl _),
      fun e => absurd (LawfulFinite.succ_some _ _ e).1 (lt_irrefl _)⟩

example : (Selection.demo [(u8 3, u8 5)]).UnionBuilt ∧ (Selection.demo [(u8 3, u8 5)]).infimum = some (u8 2) ∧
    (Selection.demo [(u8 3, u8 5)]).supremum = some (u8 6) :=
  ⟨Selection.demo_built _ (by decide), by decide, by decide⟩

/-- On the complement of a union-built selection `infimum` and `supremum` are the least and the greatest
point, except that the least and the greatest value of the type are reported as `None`. -/
theorem C59_complement (dbg : Bool) (s s' : Selection α) (hs : s.UnionBuilt)
    (e : s.complement dbg = .ok s') :
    (s'.pts dbg = ∅ ∧ s'.infimum = none ∧ s'.supremum = none) ∨
    ∃ l u, IsLeast (s'.pts dbg) l ∧ IsGreatest (s'.pts dbg) u ∧
      s'.infimum = (if l = minimum then none else some l) ∧
      s'.supremum = (if u = maximum then none else some u) := by
  have hr : s'.Reachable := .complement hs.reachable e
  have v := Selection.reachable_valid hr
  have hd := Selection.compl_co hs e
  obtain ⟨b1, b2⟩ := Selection.tree_bounds v
  rw [Selection.infimum, Selection.supremum, b1, b2]
  rcases Selection.first_last dbg v (Selection.np_good v hd.np) with ⟨h1, h2⟩ |
    ⟨i, j, l, u, h1, h2, g1, g2, h3, h4, h5, h6⟩
  · left; rw [h1]; exact ⟨h2, rfl, rfl⟩
  rw [Selection.run_pts] at h3 h4
  have hi := List.mem_of_head? h1
  have hj := List.mem_of_getLast? h2
  refine .inr ⟨l, u, h5, h6, ?_, ?_⟩
  · rw [h1, Option.bind_some]
    obtain ⟨lb, ub, e1, e2, -⟩ := piece_bounds v hi
    obtain ⟨_, _, f1, f2, a1, a2⟩ := (RawInterval.contains_iff_bounds i l).1 h3.1
    rw [e1] at f1; rw [e2] at f2; cases f1; cases f2
    have below : ∀ p, p < l → ¬ lb.AdmitsAbove p := fun p hp ha => by
      refine absurd (h3.2 (show i.contains p = true from ?_)) (not_le.2 hp)
      refine (RawInterval.contains_iff_bounds i p).2 ⟨lb, ub, e1, e2, ha, ?_⟩
      rcases ub with b | b | _
      exacts [hp.le.trans a2, hp.trans a2, trivial]
    rw [e1]
    rcases lb with p | p | _
    · have a1 : p ≤ l := a1
      have hpl : p = l := by
        rcases a1.lt_or_eq with h | h
        · exact absurd le_rfl (below p h)
        · exact h
      subst hpl
      have hm : p ≠ minimum := by
        rintro rfl
        have k1 : tcov s'.tree true .bot = true := by
          rw [hd.2]; exact (Selection.mem_pts dbg v _).1 h5.1
        rw [h1, Option.bind_some, e1] at b1
        rcases ht : s'.tree with _ | ⟨x, ts⟩
        · rw [ht] at k1; cases k1
        · rw [ht] at k1 b1 v
          have hx : x.isUpperBound = false := v.2.1
          have hk : x.key = .bot := by
            by_contra hk
            have : Key.bot < x.key := by
              rcases key_cases x.key with e | ⟨y, e⟩ | e
              · exact absurd e hk
              · rw [e]; simp
              · rw [e]; simp
            simp [tcov, cov, this] at k1
          simp only [TineTree.lowerBound, List.head?_cons, Option.map_some, Option.some.injEq] at b1
          rcases x with b | b | b <;> simp only [Tine.intoInner] at b1 <;> subst b1 <;>
            simp [Tine.key] at hk
      simp [Bound.asRef, hm]
    · exact absurd e1 ((hd.closed v hi p).1)
    · have hm : l = minimum := by
        by_contra hm
        exact below minimum (lt_of_le_of_ne (minimum_le l) (Ne.symm hm)) trivial
      simp [Bound.asRef, hm]
  · rw [h2, Option.bind_some]
    obtain ⟨lb, ub, e1, e2, -⟩ := piece_bounds v hj
    obtain ⟨_, _, f1, f2, a1, a2⟩ := (RawInterval.contains_iff_bounds j u).1 h4.1
    rw [e1] at f1; rw [e2] at f2; cases f1; cases f2
    have above : ∀ p, u < p → ¬ ub.AdmitsBelow p := fun p hp ha => by
      refine absurd (h4.2 (show j.contains p = true from ?_)) (not_le.2 hp)
      refine (RawInterval.contains_iff_bounds j p).2 ⟨lb, ub, e1, e2, ?_, ha⟩
      rcases lb with b | b | _
      exacts [le_trans a1 hp.le, lt_trans a1 hp, trivial]
    rw [e2]
    rcases ub with p | p | _
    · have a2 : u ≤ p := a2
      have hpl : p = u := by
        rcases a2.lt_or_eq with h | h
        · exact absurd le_rfl (above p h)
        · exact h.symm
      subst hpl
      have hm : p ≠ maximum := by
        rintro rfl
        obtain ⟨k1, k2⟩ := (closed_upper_iff v maximum).1 ⟨_, hj, e2⟩
        have k1 : at' s'.tree maximum = true := k1
        rw [hd.1, k1, (LawfulFinite.succ_none _).2 rfl] at k2
        cases k2
      simp [Bound.asRef, hm]
    · exact absurd e2 ((hd.closed v hj p).2)
    · have hm : u = maximum := by
        by_contra hm
        exact above maximum (lt_of_le_of_ne (le_maximum u) hm) trivial
      simp [Bound.asRef, hm]

example : Selection.complement true (Selection.demo [(u8 2, u8 5)]) =
    .ok ⟨[.lower .inf, .upper (.incl (u8 1)), .lower (.incl (u8 6)), .upper .inf]⟩ := by decide

end NI
