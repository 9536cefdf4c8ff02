import Verif.Lemmas.MinusAll
import Verif.Props.Minus
import Verif.Props.Pinhole

/-! # Exactly when `minus` is right on any order (C42) and for selections of any history (C53) -/

set_option linter.unusedSimpArgs false
set_option linter.unusedVariables false
set_option linter.unusedSectionVars false

namespace NI
open TT

namespace RawInterval
variable {α : Type _} [LinearOrder α]

/-- The value just before `l` is one of the single points `bs`, and an interval of `as` starts there without
including it. -/
def MendedAt (as bs : List (RawInterval α)) (l : α) : Prop :=
  ∃ p, p ⋖ l ∧ point p ∈ bs ∧ OpenStart as p

/-- One of `bs` starts at the value just after `p`, includes it if one of `as` does, and if it is that single
value then no interval of `as` goes on after it. -/
def ContinuedAt (as bs : List (RawInterval α)) (p : α) : Prop :=
  ∃ o ∈ bs, ∃ l b, p ⋖ l ∧ o.lowerBound = some b ∧ b.asRef = some l ∧
    ((∃ j ∈ as, l ∈ j.pts) → l ∈ o.pts) ∧
    (o = point l → ¬ CoversAbove as ((l : WithTop α) : WithBot (WithTop α)))

/-- Taking away `o`, one of `bs`, from a tree with the intervals `as` goes well, or what goes wrong is put right
by another one of `bs`. -/
def RemovalFine (as bs : List (RawInterval α)) (o : RawInterval α) : Prop :=
  (∀ p, o = point p → (OpenStart as p → ¬ OpenEnd as p ∧ ContinuedAt as bs p) ∧ (OpenEnd as p → MendedAt as bs p)) ∧
  (o.TwoEnded → (∀ b p, o.upperBound = some b → b.asRef = some p → ¬ Hole as p) ∧
    ∀ b p, o.lowerBound = some b → b.asRef = some p → Hole as p → MendedAt as bs p)

end RawInterval

section
variable {α : Type} [LinearOrder α]

theorem TT.lowAt_iff {o : RawInterval α} {l : α} :
    LowAt o (.fin l) ↔ ∃ b, o.lowerBound = some b ∧ b.asRef = some l := by
  constructor
  · rintro ⟨b, e, h⟩
    refine ⟨b, e, ?_⟩
    cases b <;> simp_all [Tine.key, Bound.asRef]
  · rintro ⟨b, e, h⟩
    refine ⟨b, e, ?_⟩
    cases b <;> simp_all [Tine.key, Bound.asRef]

theorem TT.cl_iff {a : TineTree α} (va : Valid a) {bs : List (RawInterval α)} {o : RawInterval α}
    (hb : ∀ i ∈ bs, i.WF ∧ i ≠ .empty) (ho : o ∈ bs) :
    Cl a bs o ↔ RawInterval.RemovalFine (pieces none a) bs o := by
  have hs : ∀ p, St a p ↔ RawInterval.OpenStart (pieces none a) p := fun p => by
    rw [RawInterval.OpenStart, open_lower_iff va p, St]
  have he : ∀ p, En a p ↔ RawInterval.OpenEnd (pieces none a) p := fun p => by
    rw [RawInterval.OpenEnd, open_upper_iff va p, En]
  have hm : ∀ l, Mend a bs l ↔ RawInterval.MendedAt (pieces none a) bs l := fun l => by
    simp only [Mend, RawInterval.MendedAt, hs]
  have hcov : ∀ l, (∃ j ∈ pieces none a, l ∈ j.pts) ↔ tcov a false (.fin l) = true := fun l => by
    rw [← coversAt_iff va]
    constructor
    · rintro ⟨j, h1, h2⟩; exact ⟨j, h1, l, rfl, h2⟩
    · rintro ⟨j, h1, x, h2, h3⟩; cases h2; exact ⟨j, h1, h3⟩
  have hab : ∀ l : α, RawInterval.CoversAbove (pieces none a) ((l : WithTop α) : WithBot (WithTop α)) ↔
      tcov a true (.fin l) = true := fun l => coversAbove_iff va (.fin l)
  have hr : ∀ p, Resc a bs p ↔ RawInterval.ContinuedAt (pieces none a) bs p := by
    intro p
    unfold Resc RawInterval.ContinuedAt
    refine exists_congr fun o => ⟨?_, ?_⟩
    · rintro ⟨ho, l, h1, h2, h3, h4⟩
      obtain ⟨b, e1, e2⟩ := lowAt_iff.1 h2
      refine ⟨ho, l, b, h1, e1, e2, ?_, ?_⟩
      · rw [hcov, ← RawInterval.contains_iff, ← icov_fin (hb o ho).1]; exact h3
      · rw [hab, Bool.not_eq_true]; exact h4
    · rintro ⟨ho, l, b, h1, e1, e2, h3, h4⟩
      refine ⟨ho, l, h1, lowAt_iff.2 ⟨b, e1, e2⟩, ?_, ?_⟩
      · rw [hcov, ← RawInterval.contains_iff, ← icov_fin (hb o ho).1] at h3; exact h3
      · rw [hab, Bool.not_eq_true] at h4; exact h4
  have ht : (∀ p, o ≠ .point p) ↔ o.TwoEnded := ⟨fun h => ⟨(hb o ho).2, h⟩, fun h => h.2⟩
  unfold Cl RawInterval.RemovalFine
  simp only [hs, he, hm, hr, ht]
  refine and_congr Iff.rfl (forall_congr' fun h2 => and_congr ?_ ?_)
  · obtain ⟨u, hu⟩ : ∃ u, o.upperBound = some u := by
      obtain ⟨h2, h3⟩ := h2
      cases o <;> first | exact absurd rfl h2 | exact ⟨_, rfl⟩
    rw [ikey, hu]
    simp only [Option.some.injEq]
    constructor
    · rintro h b p rfl e hh
      rw [show RawInterval.Hole (pieces none a) p ↔ holeAt a (.fin p) = true from (hole_iff va p).symm] at hh
      cases u <;> simp_all [Tine.key, Bound.asRef]
    · intro h
      cases u with
      | inf => exact (hole_inf va).2
      | incl p =>
        rw [Bool.eq_false_iff]
        exact fun hh => h _ p rfl rfl ((hole_iff va p).1 hh)
      | excl p =>
        rw [Bool.eq_false_iff]
        exact fun hh => h _ p rfl rfl ((hole_iff va p).1 hh)
  · constructor
    · intro h b p e1 e2 hh
      exact h p (lowAt_iff.2 ⟨b, e1, e2⟩) ((hole_iff va p).2 hh)
    · intro h l hl hh
      obtain ⟨b, e1, e2⟩ := lowAt_iff.1 hl
      exact h b l e1 e2 ((hole_iff va l).1 hh)

theorem TT.minus_right_iff (dbg : Bool) {a b : TineTree α} (va : Valid a) (vb : Valid b) :
    (∃ t, TineTree.minus dbg a b = .ok t ∧ Valid t ∧
      ∀ x, tcov t false (.fin x) = (tcov a false (.fin x) && !tcov b false (.fin x))) ↔
    ∀ o ∈ pieces none b, RawInterval.RemovalFine (pieces none a) (pieces none b) o := by
  have hw := (pieces_wf vb.1).1
  have h := foldMinus_iff dbg (pieces none b) va hw (pieces_sep vb.1).1
  have : (∀ o ∈ pieces none b, RawInterval.RemovalFine (pieces none a) (pieces none b) o) ↔
      ∀ o ∈ pieces none b, Cl a (pieces none b) o :=
    forall_congr' fun o => forall_congr' fun ho => (cl_iff va hw ho).symm
  rw [this, ← h, RightFold]
  refine exists_congr fun t => ?_
  rw [TineTree.minus, fold_eq dbg _ vb]
  refine and_congr Iff.rfl (and_congr Iff.rfl (forall_congr' fun x => ?_))
  rw [(pieces_cov false (.fin x) vb.1).1 vb.2]; rfl

/-! ## C42 -/

/-- On every linear order: `minus` is right and leaves a proper tree if and only if every removal goes well or
is put right by a later one. -/
theorem C42_every_iff (dbg : Bool) (a b : TineTree α) (ha : a.Reachable) (hb : b.Reachable)
    (as bs : List (RawInterval α)) (has : TineTree.intervals dbg a = .ok as)
    (hbs : TineTree.intervals dbg b = .ok bs) :
    (∃ t, TineTree.minus dbg a b = .ok t ∧ t.Reachable ∧
      ∀ x, TineTree.contains dbg t x = .ok true ↔
        (TineTree.contains dbg a x = .ok true ∧ TineTree.contains dbg b x = .ok false)) ↔
    ∀ o ∈ bs, RawInterval.RemovalFine as bs o := by
  have va := TT.reachable_valid ha
  have vb := TT.reachable_valid hb
  rw [TT.intervals_eq dbg va] at has
  rw [TT.intervals_eq dbg vb] at hbs
  cases has; cases hbs
  rw [← minus_right_iff dbg va vb]
  refine exists_congr fun t => and_congr Iff.rfl ?_
  rw [show t.Reachable ↔ Valid t from ⟨TT.reachable_valid, TT.valid_reachable⟩]
  refine and_congr_right fun v => forall_congr' fun x => ?_
  rw [TT.contains_iff dbg v, TT.contains_iff dbg va, TT.contains_ok dbg vb, Except.ok.injEq]
  cases tcov t false (.fin x) <;> cases tcov a false (.fin x) <;> cases tcov b false (.fin x) <;> simp

/-- Taking `3` from `(3,5)` goes wrong and taking `4..9` puts it right. -/
example : ∀ o ∈ [.point (3 : Int), .closed 4 9], RawInterval.RemovalFine [.opn 3 5] [.point 3, .closed 4 9] o := by
  have c : (3 : Int) ⋖ 4 := ⟨by decide, fun x h1 h2 => by omega⟩
  have os : ∀ p, RawInterval.OpenStart [.opn (3 : Int) 5] p ↔ p = 3 := by
    simp [RawInterval.OpenStart, RawInterval.lowerBound, eq_comm]
  have oe : ∀ p, RawInterval.OpenEnd [.opn (3 : Int) 5] p ↔ p = 5 := by
    simp [RawInterval.OpenEnd, RawInterval.upperBound, eq_comm]
  intro o ho
  rcases List.mem_cons.1 ho with rfl | ho
  · refine ⟨?_, fun h => absurd rfl (h.2 3)⟩
    rintro p ⟨⟩
    rw [os, oe]
    exact ⟨fun _ => ⟨by decide, .closed 4 9, by simp, 4, .incl 4, c, rfl, rfl, fun _ => by simp [RawInterval.pts], by simp⟩,
      fun h => by omega⟩
  · rw [List.mem_singleton] at ho
    subst ho
    refine ⟨by simp, fun _ => ⟨fun b p e1 e2 h => ?_, fun b p e1 e2 h => ?_⟩⟩
    · have h1 := (os p).1 h.2; have h2 := (oe p).1 h.1; omega
    · have h1 := (os p).1 h.2; have h2 := (oe p).1 h.1; omega

end

section
variable {α : Type} [LinearOrder α] [Finite α] [LawfulFinite α]

/-! ## C53 -/

/-- For selections of any history on both sides: `minus` is right and leaves a proper selection if and only if
every removal goes well or is put right by a later one, in terms of the intervals that the two trees hold. -/
theorem C53_every_iff (dbg : Bool) (a b : Selection α) (ha : a.Reachable) (hb : b.Reachable)
    (as bs : List (RawInterval α)) (has : TineTree.intervals dbg a.tree = .ok as)
    (hbs : TineTree.intervals dbg b.tree = .ok bs) :
    (∃ s, a.minus dbg b = .ok s ∧ s.Reachable ∧ s.pts dbg = a.pts dbg \ b.pts dbg) ↔
    ∀ o ∈ bs, RawInterval.RemovalFine as bs o := by
  have va := Selection.reachable_valid ha
  have vb := Selection.reachable_valid hb
  rw [TT.intervals_eq dbg va] at has
  rw [TT.intervals_eq dbg vb] at hbs
  cases has; cases hbs
  rw [← minus_right_iff dbg va vb]
  constructor
  · rintro ⟨s, e, r, h⟩
    have v := Selection.reachable_valid r
    refine ⟨s.tree, ?_, v, fun x => ?_⟩
    · unfold Selection.minus at e
      cases e1 : TineTree.minus dbg a.tree b.tree with
      | error p => rw [e1] at e; cases e
      | ok t => rw [e1] at e; cases e; rfl
    · have := Set.ext_iff.1 h x
      rw [Set.mem_sdiff, Selection.mem_pts dbg v, Selection.mem_pts dbg va, Selection.mem_pts dbg vb] at this
      change (tcov _ _ _ = true ↔ tcov _ _ _ = true ∧ ¬ tcov _ _ _ = true) at this
      rw [Bool.eq_iff_iff, this]; simp
  · rintro ⟨t, e, v, h⟩
    have e' : a.minus dbg b = .ok ⟨t⟩ := by unfold Selection.minus; rw [e]; rfl
    refine ⟨⟨t⟩, e', .minus ha hb e' (TT.valid_reachable v), ?_⟩
    ext x
    rw [Set.mem_sdiff, Selection.mem_pts dbg v, Selection.mem_pts dbg va, Selection.mem_pts dbg vb]
    change (tcov _ _ _ = true ↔ tcov _ _ _ = true ∧ ¬ tcov _ _ _ = true)
    rw [h]; simp

end

/-- A selection without a value that it does not have: `{4}` without the complement of everything but `5`. The
result is not a proper selection, and indeed `5` is a single point on the right and an excluded end on the left. -/
example : (Selection.demo [(u8 0, u8 4), (u8 6, u8 255)]).complement true = .ok ⟨[.point (.incl (u8 5))]⟩ ∧
    Selection.minus true (Selection.demo [(u8 4, u8 4)]) ⟨[.point (.incl (u8 5))]⟩ = .ok ⟨[.lower (.excl (u8 3))]⟩ ∧
    TineTree.intervals true (Selection.demo [(u8 4, u8 4)]).tree = .ok [.opn (u8 3) (u8 5)] ∧
    ¬ RawInterval.RemovalFine [.opn (u8 3) (u8 5)] [.point (u8 5)] (.point (u8 5)) := by
  refine ⟨by decide, by decide, by decide, fun h => ?_⟩
  obtain ⟨p, h1, h2, -⟩ := (h.1 _ rfl).2 ⟨.opn (u8 3) (u8 5), by simp, rfl⟩
  rw [List.mem_singleton] at h2
  cases h2
  exact h1.1.ne rfl

end NI
