import Verif.Props.CutPanics
import Verif.Props.WalkAny
import Verif.Props.MinusEvery
import Verif.Props.Pinhole
import Verif.Props.Programs
import Verif.Props.FusedAny

/-! # Whole programs: when they compute the set they denote (C101), and more that do not panic (C69) -/

set_option linter.unusedSimpArgs false
set_option linter.unusedVariables false
set_option linter.unusedSectionVars false

namespace NI

namespace SelProg
variable {α : Type} [LinearOrder α]

/-- The set of values that a program means. -/
def denote : SelProg α → Set α
  | .empty => ∅
  | .full => Set.univ
  | .interval i => {x | i.contains x = true}
  | .intervals is => {x | ∃ i ∈ is, i.contains x = true}
  | .points xs => {x | x ∈ xs}
  | .complement p => p.denoteᶜ
  | .union p q => p.denote ∪ q.denote
  | .intersect p q => p.denote ∩ q.denote
  | .minus p q => p.denote \ q.denote
  | .unionIn p i => p.denote ∪ {x | i.contains x = true}
  | .minusIn p i => p.denote \ {x | i.contains x = true}
  | .intersectIn p i => p.denote ∩ {x | i.contains x = true}
  | .extend p is => p.denote ∪ {x | ∃ i ∈ is, i.contains x = true}

omit [LinearOrder α] in
/-- The program and everything it computes on the way. -/
def parts : SelProg α → List (SelProg α)
  | .empty => [.empty]
  | .full => [.full]
  | .interval i => [.interval i]
  | .intervals is => [.intervals is]
  | .points xs => [.points xs]
  | .complement p => .complement p :: p.parts
  | .union p q => .union p q :: (p.parts ++ q.parts)
  | .intersect p q => .intersect p q :: (p.parts ++ q.parts)
  | .minus p q => .minus p q :: (p.parts ++ q.parts)
  | .unionIn p i => .unionIn p i :: p.parts
  | .minusIn p i => .minusIn p i :: p.parts
  | .intersectIn p i => .intersectIn p i :: p.parts
  | .extend p is => .extend p is :: p.parts

variable [Finite α]

/-- All intervals in the program are ones that the API hands out. -/
def Legal : SelProg α → Prop
  | .empty | .full | .points _ => True
  | .interval i => i.Obtainable
  | .intervals is => ∀ i ∈ is, i.Obtainable
  | .complement p => p.Legal
  | .union p q | .intersect p q | .minus p q => p.Legal ∧ q.Legal
  | .unionIn p i | .minusIn p i | .intersectIn p i => p.Legal ∧ i.Obtainable
  | .extend p is => p.Legal ∧ ∀ i ∈ is, i.Obtainable

/-- The result is a proper selection of the values that the program means. -/
def Right (dbg : Bool) (p : SelProg α) : Prop :=
  ∃ s, p.eval dbg = .ok s ∧ s.Reachable ∧ s.pts dbg = p.denote

/-- The last step of the program finds operands that it works on: for `intersect`, overlapping intervals kept in
the operands come to stand side by side in the walk (C52); for `minus`, every removal is fine (C53); for
`minus_in_place`, no pinhole next to the interval (C50); for `intersect_in_place`, a clean cut (C98).
The other operations work on everything. -/
def StepFits (dbg : Bool) : SelProg α → Prop
  | .intersect p q => ∀ a b as bs, p.eval dbg = .ok a → q.eval dbg = .ok b →
      a.tree.intervals dbg = .ok as → b.tree.intervals dbg = .ok bs →
      ∀ i ∈ as, ∀ j ∈ bs, (∃ x, x ∈ i.pts ∧ x ∈ j.pts) → Together RawInterval.intersects as bs i j
  | .minus p q => ∀ a b as bs, p.eval dbg = .ok a → q.eval dbg = .ok b →
      a.tree.intervals dbg = .ok as → b.tree.intervals dbg = .ok bs → ∀ o ∈ bs, RawInterval.RemovalFine as bs o
  | .minusIn p i => ∀ s, p.eval dbg = .ok s → ∀ x, s.Pinhole dbg x →
      (∀ l, i.lowerBound = some (.incl l) → Finite.pred l ≠ some x) ∧
      ∀ u, i.upperBound = some (.incl u) → Finite.succ u ≠ some x
  | .intersectIn p i => ∀ s is, p.eval dbg = .ok s → s.tree.intervals dbg = .ok is →
      is = [] ∨ ¬ i.raw.denormalized.TwoEnded ∨ i.raw.denormalized = .full ∨
        RawInterval.CutClean dbg is i.raw.denormalized ∨
        (RawInterval.Untouched is i.raw.denormalized ∧ ∀ x, i.contains x = false)
  | _ => True

end SelProg

variable {α : Type} [LinearOrder α] [Finite α] [LawfulFinite α]
open _root_.NI.Finite TT

theorem Selection.kept (dbg : Bool) {s : Selection α} (hs : s.Reachable) :
    ∃ is, s.tree.intervals dbg = .ok is :=
  ⟨_, TT.intervals_eq dbg (Selection.reachable_valid hs)⟩

theorem Selection.complement_right (dbg : Bool) (s : Selection α) (hs : s.Reachable) :
    ∃ c, s.complement dbg = .ok c ∧ c.Reachable ∧ c.pts dbg = (s.pts dbg)ᶜ := by
  have v := Selection.reachable_valid hs
  obtain ⟨c, e, vc, k⟩ := Selection.complement_ok dbg v
  refine ⟨c, e, .complement hs e, ?_⟩
  ext x
  rw [Selection.mem_pts dbg vc, at', k _ _ ⟨by simp, by simp⟩, Set.mem_compl_iff, Selection.mem_pts dbg v]
  simp [at']

theorem Selection.union_right (dbg : Bool) (a b : Selection α) (ha : a.Reachable) (hb : b.Reachable) :
    ∃ c, a.union dbg b = .ok c ∧ c.Reachable ∧ c.pts dbg = a.pts dbg ∪ b.pts dbg := by
  have va := Selection.reachable_valid ha
  have vb := Selection.reachable_valid hb
  obtain ⟨c, e, vc, k⟩ := Selection.union_ok dbg va vb
  refine ⟨c, e, .union ha hb e, ?_⟩
  ext x
  rw [Selection.mem_pts dbg vc, at', k, Set.mem_union, Selection.mem_pts dbg va, Selection.mem_pts dbg vb]
  simp [at']

/-- `intersect_in_place` of a selection of any history with any interval. -/
theorem C51_every_any (dbg : Bool) (s : Selection α) (hs : s.Reachable) (i : Interval α) (hi : i.Obtainable)
    (is : List (RawInterval α)) (his : s.tree.intervals dbg = .ok is) :
    (∃ s', s.intersectInPlace dbg i = .ok s' ∧ s'.Reachable ∧ s'.pts dbg = s.pts dbg ∩ i.pts) ↔
      is = [] ∨ ¬ i.raw.denormalized.TwoEnded ∨ i.raw.denormalized = .full ∨
        RawInterval.CutClean dbg is i.raw.denormalized ∨
        (RawInterval.Untouched is i.raw.denormalized ∧ ∀ x, i.contains x = false) := by
  have hn := Interval.obtainable_nf hi
  have hc : ∀ x, i.raw.denormalized.contains x = i.contains x := RawInterval.denorm_contains hn
  have h := C98_intersect_in_place_iff dbg s.tree (valid_reachable (Selection.reachable_valid hs)) _
    (RawInterval.denorm_wf hn) is his
  simp only [hc] at h
  rw [← h, Selection.intersectInPlace]
  constructor
  · rintro ⟨s', e, r, hp⟩
    obtain ⟨t, e1, e2⟩ : ∃ t, TineTree.intersectInPlace dbg s.tree i.raw.denormalized = .ok t ∧ s' = ⟨t⟩ := by
      cases h : TineTree.intersectInPlace dbg s.tree i.raw.denormalized with
      | error => rw [h] at e; cases e
      | ok t => rw [h] at e; cases e; exact ⟨t, rfl, rfl⟩
    subst e2
    exact ⟨t, e1, valid_reachable (Selection.reachable_valid r), fun x => Set.ext_iff.1 hp x⟩
  · rintro ⟨t, e, r, hp⟩
    have e' : s.intersectInPlace dbg i = .ok ⟨t⟩ := by rw [Selection.intersectInPlace, e]; rfl
    exact ⟨⟨t⟩, by rw [e]; rfl, .intersectInPlace hs hi e' r, Set.ext hp⟩

example : Selection.cut.Reachable ∧ (Interval.mkClosed (u8 0) (u8 255)).raw.denormalized = .full ∧
    ¬ (Interval.empty : Interval U8).raw.denormalized.TwoEnded ∧
    Selection.cut.intersectInPlace true (Interval.mkClosed (u8 0) (u8 255)) = .ok Selection.cut :=
  ⟨Selection.cut_solid.reachable, by decide, fun h => h.1 rfl, by decide⟩

/-- If what a program works on is right, then the program is right if and only if its last step finds operands
that it works on. -/
theorem C101_step (dbg : Bool) (p : SelProg α) (hl : p.Legal)
    (h : ∀ q ∈ p.parts.tail, q.Right dbg) : p.Right dbg ↔ p.StepFits dbg := by
  have head : ∀ q : SelProg α, q ∈ q.parts := fun q => by cases q <;> simp [SelProg.parts]
  cases p with
  | empty => exact ⟨fun _ => trivial, fun _ => ⟨_, rfl, .new, (C48_start dbg .empty .empty).1⟩⟩
  | full => exact ⟨fun _ => trivial, fun _ => ⟨_, rfl, .full, (C48_start dbg .empty .empty).2.1⟩⟩
  | interval i => exact ⟨fun _ => trivial, fun _ => ⟨_, rfl, .ofInterval hl, (C48_start dbg i hl).2.2⟩⟩
  | intervals is =>
    obtain ⟨s, e, r, c⟩ := C48_from_intervals dbg is hl
    exact ⟨fun _ => trivial, fun _ => ⟨s, e, r, Set.ext c⟩⟩
  | points xs =>
    obtain ⟨s, e, r, c⟩ := C48_from_points dbg xs
    exact ⟨fun _ => trivial, fun _ => ⟨s, e, r, Set.ext c⟩⟩
  | complement p =>
    obtain ⟨a, ea, ra, ca⟩ := h p (head p)
    obtain ⟨s, e, r, c⟩ := Selection.complement_right dbg a ra
    refine ⟨fun _ => trivial, fun _ => ⟨s, by simp only [SelProg.eval, ea, bind, Except.bind, e], r, ?_⟩⟩
    rw [c, ca]; rfl
  | union p q =>
    obtain ⟨a, ea, ra, ca⟩ := h p (List.mem_append_left _ (head p))
    obtain ⟨b, eb, rb, cb⟩ := h q (List.mem_append_right _ (head q))
    obtain ⟨s, e, r, c⟩ := Selection.union_right dbg a b ra rb
    refine ⟨fun _ => trivial, fun _ => ⟨s, by simp only [SelProg.eval, ea, eb, bind, Except.bind, e], r, ?_⟩⟩
    rw [c, ca, cb]; rfl
  | intersect p q =>
    obtain ⟨a, ea, ra, ca⟩ := h p (List.mem_append_left _ (head p))
    obtain ⟨b, eb, rb, cb⟩ := h q (List.mem_append_right _ (head q))
    obtain ⟨as, has⟩ := Selection.kept dbg ra
    obtain ⟨bs, hbs⟩ := Selection.kept dbg rb
    have k := C52_exact_any dbg a b ra rb as bs has hbs
    have e1 : (SelProg.intersect p q).eval dbg = a.intersect dbg b := by
      simp only [SelProg.eval, ea, eb, bind, Except.bind]
    rw [ca, cb] at k
    constructor
    · rintro ⟨s, e, r, c⟩ a' b' as' bs' ea' eb' has' hbs'
      rw [ea] at ea'; cases ea'
      rw [eb] at eb'; cases eb'
      rw [has] at has'; cases has'
      rw [hbs] at hbs'; cases hbs'
      exact k.1 ⟨s, e1 ▸ e, c⟩
    · intro hf
      obtain ⟨s, e, c⟩ := k.2 (hf a b as bs ea eb has hbs)
      exact ⟨s, e1.trans e, .intersect ra rb e, c⟩
  | minus p q =>
    obtain ⟨a, ea, ra, ca⟩ := h p (List.mem_append_left _ (head p))
    obtain ⟨b, eb, rb, cb⟩ := h q (List.mem_append_right _ (head q))
    obtain ⟨as, has⟩ := Selection.kept dbg ra
    obtain ⟨bs, hbs⟩ := Selection.kept dbg rb
    have k := C53_every_iff dbg a b ra rb as bs has hbs
    have e1 : (SelProg.minus p q).eval dbg = a.minus dbg b := by
      simp only [SelProg.eval, ea, eb, bind, Except.bind]
    rw [ca, cb] at k
    constructor
    · rintro ⟨s, e, r, c⟩ a' b' as' bs' ea' eb' has' hbs'
      rw [ea] at ea'; cases ea'
      rw [eb] at eb'; cases eb'
      rw [has] at has'; cases has'
      rw [hbs] at hbs'; cases hbs'
      exact k.1 ⟨s, e1 ▸ e, r, c⟩
    · intro hf
      obtain ⟨s, e, r, c⟩ := k.2 (hf a b as bs ea eb has hbs)
      exact ⟨s, e1.trans e, r, c⟩
  | unionIn p i =>
    obtain ⟨a, ea, ra, ca⟩ := h p (head p)
    obtain ⟨s, e, r, c⟩ := C48_union_in_place dbg a ra i hl.2
    refine ⟨fun _ => trivial, fun _ => ⟨s, by simp only [SelProg.eval, ea, bind, Except.bind, e], r, ?_⟩⟩
    rw [c, ca]; rfl
  | minusIn p i =>
    obtain ⟨a, ea, ra, ca⟩ := h p (head p)
    have k := C50_exact_any dbg a ra i hl.2
    have e1 : (SelProg.minusIn p i).eval dbg = a.minusInPlace dbg i := by
      simp only [SelProg.eval, ea, bind, Except.bind]
    rw [ca] at k
    constructor
    · rintro ⟨s, e, r, c⟩ a' ea'
      rw [ea] at ea'; cases ea'
      exact k.1 ⟨s, e1 ▸ e, c⟩
    · intro hf
      obtain ⟨s, e, c⟩ := k.2 (hf a ea)
      exact ⟨s, e1.trans e, .minusInPlace ra hl.2 e, c⟩
  | intersectIn p i =>
    obtain ⟨a, ea, ra, ca⟩ := h p (head p)
    obtain ⟨as, has⟩ := Selection.kept dbg ra
    have k := C51_every_any dbg a ra i hl.2 as has
    have e1 : (SelProg.intersectIn p i).eval dbg = a.intersectInPlace dbg i := by
      simp only [SelProg.eval, ea, bind, Except.bind]
    rw [ca] at k
    constructor
    · rintro ⟨s, e, r, c⟩ a' as' ea' has'
      rw [ea] at ea'; cases ea'
      rw [has] at has'; cases has'
      exact k.1 ⟨s, e1 ▸ e, r, c⟩
    · intro hf
      obtain ⟨s, e, r, c⟩ := k.2 (hf a as ea has)
      exact ⟨s, e1.trans e, r, c⟩
  | extend p is =>
    obtain ⟨a, ea, ra, ca⟩ := h p (head p)
    obtain ⟨s, e, r, c⟩ := C48_extend dbg a ra is hl.2
    refine ⟨fun _ => trivial, fun _ => ⟨s, by simp only [SelProg.eval, ea, bind, Except.bind, e], r, ?_⟩⟩
    ext x
    rw [c, ca]; rfl

example : (SelProg.unionIn (.points [u8 2, u8 4]) (.mkClosed (u8 4) (u8 10))).Legal ∧
    (SelProg.unionIn (.points [u8 2, u8 4]) (.mkClosed (u8 4) (u8 10))).parts.tail = [.points [u8 2, u8 4]] :=
  ⟨⟨trivial, .mkClosed _ _⟩, rfl⟩

/-- A program and everything it computes on the way are right if and only if every step finds operands that it
works on. -/
theorem C101_program_iff (dbg : Bool) (p : SelProg α) (hl : p.Legal) :
    (∀ q ∈ p.parts, q.Right dbg) ↔ ∀ q ∈ p.parts, q.StepFits dbg := by
  have key : ∀ p : SelProg α, p.Legal → ((∀ q ∈ p.parts.tail, q.Right dbg) ↔ ∀ q ∈ p.parts.tail, q.StepFits dbg) →
      ((∀ q ∈ p.parts, q.Right dbg) ↔ ∀ q ∈ p.parts, q.StepFits dbg) := by
    intro p hl h
    have e : p.parts = p :: p.parts.tail := by cases p <;> rfl
    rw [e]
    simp only [List.forall_mem_cons]
    constructor
    · rintro ⟨h1, h2⟩
      exact ⟨(C101_step dbg p hl h2).1 h1, h.1 h2⟩
    · rintro ⟨h1, h2⟩
      have h3 := h.2 h2
      exact ⟨(C101_step dbg p hl h3).2 h1, h3⟩
  have two {A B : List (SelProg α)} (ha : (∀ q ∈ A, q.Right dbg) ↔ ∀ q ∈ A, q.StepFits dbg)
      (hb : (∀ q ∈ B, q.Right dbg) ↔ ∀ q ∈ B, q.StepFits dbg) :
      (∀ q ∈ A ++ B, q.Right dbg) ↔ ∀ q ∈ A ++ B, q.StepFits dbg := by
    simp only [List.forall_mem_append, ha, hb]
  induction p with
  | empty | full | interval | intervals | points => exact key _ hl (by simp [SelProg.parts])
  | complement p ih => exact key _ hl (ih hl)
  | union p q ihp ihq => exact key _ hl (two (ihp hl.1) (ihq hl.2))
  | intersect p q ihp ihq => exact key _ hl (two (ihp hl.1) (ihq hl.2))
  | minus p q ihp ihq => exact key _ hl (two (ihp hl.1) (ihq hl.2))
  | unionIn p i ih => exact key _ hl (ih hl.1)
  | minusIn p i ih => exact key _ hl (ih hl.1)
  | intersectIn p i ih => exact key _ hl (ih hl.1)
  | extend p is ih => exact key _ hl (ih hl.1)

example : (SelProg.minusIn (.points [u8 2, u8 4]) (.mkClosed (u8 4) (u8 10))).Legal ∧
    (SelProg.minusIn (.points [u8 2, u8 4]) (.mkClosed (u8 4) (u8 10))).eval true >>= (Selection.contains true · (u8 3)) =
      .ok true :=
  ⟨⟨trivial, .mkClosed _ _⟩, by decide⟩

/-! ## More programs that do not panic -/

section Goes
omit [LawfulFinite α]

/-- In a debug build the last step of the program finds operands on which it does not panic and leaves a usable
selection: for `minus`, no single value that is kept on the right is an excluded end on the left, or every removal
is fine (C53); for `intersect_in_place`, the condition of C100, and the selection does not have values strictly
between the ends while being clear of both. -/
def SelProg.StepGoes : SelProg α → Prop
  | .minus p q => ∀ a b as bs, p.eval true = .ok a → q.eval true = .ok b →
      a.tree.intervals true = .ok as → b.tree.intervals true = .ok bs →
      (∀ x, .point x ∈ bs → ¬ RawInterval.OpenEnd as x ∧ ¬ RawInterval.OpenStart as x) ∨
        ∀ o ∈ bs, RawInterval.RemovalFine as bs o
  | .intersectIn p i => ∀ s is, p.eval true = .ok s → s.tree.intervals true = .ok is →
      is = [] ∨ ¬ i.raw.denormalized.TwoEnded ∨ i.raw.denormalized = .full ∨
        (RawInterval.CutReturns is i.raw.denormalized ∧
          (RawInterval.ClearOf is i.raw.denormalized → RawInterval.Untouched is i.raw.denormalized))
  | _ => True

/-- Questions that do not iterate from the back if the selection has a pinhole. -/
def SelQuery.Goes (s : Selection α) : SelQuery α → Prop
  | .intersects p => p.Legal ∧ ∀ q ∈ p.parts, q.StepGoes
  | .intervalsBack => ∀ x, ¬ s.Pinhole true x
  | .points cs | .walk cs => (∀ c ∈ cs, c = .next) ∨ ∀ x, ¬ s.Pinhole true x
  | _ => True

end Goes

theorem SelProg.goes_ok {p : SelProg α} (hl : p.Legal) (h : ∀ q ∈ p.parts, q.StepGoes) :
    ∃ s, p.eval true = .ok s ∧ s.Reachable := by
  induction p with
  | empty => exact ⟨_, rfl, .new⟩
  | full => exact ⟨_, rfl, .full⟩
  | interval i => exact ⟨_, rfl, .ofInterval hl⟩
  | intervals is => obtain ⟨s, e, r, -⟩ := C48_from_intervals true is hl; exact ⟨s, e, r⟩
  | points xs => obtain ⟨s, e, r, -⟩ := C48_from_points true xs; exact ⟨s, e, r⟩
  | complement p ih =>
    obtain ⟨a, ea, ra⟩ := ih hl fun q hq => h q (.tail _ hq)
    obtain ⟨s, e, r, -⟩ := Selection.complement_right true a ra
    exact ⟨s, by simp only [eval, ea, bind, Except.bind, e], r⟩
  | union p q ihp ihq =>
    obtain ⟨a, ea, ra⟩ := ihp hl.1 fun q hq => h q (.tail _ (List.mem_append_left _ hq))
    obtain ⟨b, eb, rb⟩ := ihq hl.2 fun q hq => h q (.tail _ (List.mem_append_right _ hq))
    obtain ⟨s, e, r, -⟩ := Selection.union_right true a b ra rb
    exact ⟨s, by simp only [eval, ea, eb, bind, Except.bind, e], r⟩
  | intersect p q ihp ihq =>
    obtain ⟨a, ea, ra⟩ := ihp hl.1 fun q hq => h q (.tail _ (List.mem_append_left _ hq))
    obtain ⟨b, eb, rb⟩ := ihq hl.2 fun q hq => h q (.tail _ (List.mem_append_right _ hq))
    obtain ⟨s, e, r, -⟩ := C52_subset_partial true a b ra rb
    exact ⟨s, by simp only [eval, ea, eb, bind, Except.bind, e], r⟩
  | minus p q ihp ihq =>
    obtain ⟨a, ea, ra⟩ := ihp hl.1 fun q hq => h q (.tail _ (List.mem_append_left _ hq))
    obtain ⟨b, eb, rb⟩ := ihq hl.2 fun q hq => h q (.tail _ (List.mem_append_right _ hq))
    obtain ⟨as, has⟩ := Selection.kept true ra
    obtain ⟨bs, hbs⟩ := Selection.kept true rb
    have : ∃ s, a.minus true b = .ok s ∧ s.Reachable := by
      rcases h _ (.head _) a b as bs ea eb has hbs with k | k
      · obtain ⟨t, e, r, -⟩ := C42_formula true a.tree b.tree (valid_reachable (Selection.reachable_valid ra))
          (valid_reachable (Selection.reachable_valid rb)) as bs has hbs k
        have e' : a.minus true b = .ok ⟨t⟩ := by rw [Selection.minus, e]; rfl
        exact ⟨⟨t⟩, e', .minus ra rb e' r⟩
      · obtain ⟨s, e, r, -⟩ := (C53_every_iff true a b ra rb as bs has hbs).2 k
        exact ⟨s, e, r⟩
    obtain ⟨s, e, r⟩ := this
    exact ⟨s, by simp only [eval, ea, eb, bind, Except.bind, e], r⟩
  | unionIn p i ih =>
    obtain ⟨a, ea, ra⟩ := ih hl.1 fun q hq => h q (.tail _ hq)
    obtain ⟨s, e, r, -⟩ := C48_union_in_place true a ra i hl.2
    exact ⟨s, by simp only [eval, ea, bind, Except.bind, e], r⟩
  | minusIn p i ih =>
    obtain ⟨a, ea, ra⟩ := ih hl.1 fun q hq => h q (.tail _ hq)
    obtain ⟨s, e, r, -⟩ := C50_removes_partial true a ra i hl.2
    exact ⟨s, by simp only [eval, ea, bind, Except.bind, e], r⟩
  | intersectIn p i ih =>
    obtain ⟨a, ea, ra⟩ := ih hl.1 fun q hq => h q (.tail _ hq)
    obtain ⟨as, has⟩ := Selection.kept true ra
    have k := h _ (.head _) a as ea has
    have hw := RawInterval.denorm_wf (Interval.obtainable_nf hl.2)
    have rt := valid_reachable (Selection.reachable_valid ra)
    obtain ⟨t, e⟩ := (C100_returns_iff true a.tree rt _ hw as has).2 (k.imp id (Or.imp id (Or.imp id And.left)))
    have e' : a.intersectInPlace true i = .ok ⟨t⟩ := by rw [Selection.intersectInPlace, e]; rfl
    refine ⟨⟨t⟩, by simp only [eval, ea, bind, Except.bind, e'], .intersectInPlace ra hl.2 e' ?_⟩
    by_cases h3 : as = [] ∨ ¬ i.raw.denormalized.TwoEnded ∨ i.raw.denormalized = .full
    · obtain ⟨t', e1, r, -⟩ := (C98_intersect_in_place_iff true a.tree rt _ hw as has).2
        (h3.imp id (Or.imp id Or.inl))
      rw [e] at e1; cases e1
      exact r
    · have k : RawInterval.CutReturns as i.raw.denormalized ∧
          (RawInterval.ClearOf as i.raw.denormalized → RawInterval.Untouched as i.raw.denormalized) := by tauto
      rcases C100_debug a.tree t rt _ hw as has e with ⟨r, -⟩ | ⟨hc, ⟨-, rfl⟩ | ⟨hu, -⟩⟩
      · exact r
      · exact valid_reachable (by rw [tree_fromRaw hw]; exact fromRaw_valid hw)
      · exact absurd (k.2 hc) hu
  | extend p is ih =>
    obtain ⟨a, ea, ra⟩ := ih hl.1 fun q hq => h q (.tail _ hq)
    obtain ⟨s, e, r, -⟩ := C48_extend true a ra is hl.2
    exact ⟨s, by simp only [eval, ea, bind, Except.bind, e], r⟩

/-- Programs of all operations run without a panic, with the same results in debug and release builds, if the
operands of each `minus` and each `intersect_in_place` are suitable; so does every question put to the result, except
iteration from the back over a selection with a pinhole.
Missing from the full property: operands that are not suitable, see `C69_counterexample` and `C100_returns_iff`. -/
theorem C69_careful_partial (p : SelProg α) (hl : p.Legal) (h : ∀ q ∈ p.parts, q.StepGoes) :
    ∃ s, (∀ dbg, p.eval dbg = .ok s) ∧ s.Reachable ∧
      ∀ q : SelQuery α, q.Goes s → ∃ a, ∀ dbg, q.ask dbg s = .ok a := by
  obtain ⟨s, e, r⟩ := SelProg.goes_ok hl h
  have v := Selection.reachable_valid r
  refine ⟨s, fun dbg => ?_, r, fun q hq => ?_⟩
  · cases dbg
    exacts [p.eval_ref s e, e]
  · have : ∃ a, q.ask true s = .ok a := by
      cases q with
      | intersects p =>
        obtain ⟨b, eb, rb⟩ := SelProg.goes_ok hq.1 hq.2
        obtain ⟨s', e', -, -, ei⟩ := C52_subset_partial true s b r rb
        exact ⟨_, by simp only [SelQuery.ask, eb, ei, bind, Except.bind]; rfl⟩
      | intervalsBack =>
        have := C56_reverse_any true s r _ (Selection.intervals_eq true v) hq
        exact ⟨_, by simp only [SelQuery.ask, this, bind, Except.bind]; rfl⟩
      | points cs =>
        rcases hq with hq | hq
        · exact SelQuery.safe_ok true v hq
        · obtain ⟨os, e, -⟩ := C67_mixed_any true s r hq cs
          exact ⟨_, by simp only [SelQuery.ask, e, bind, Except.bind]; rfl⟩
      | walk cs =>
        rcases hq with hq | hq
        · exact SelQuery.safe_ok true v hq
        · obtain ⟨os, e, -⟩ := (C68_selection_any true s r _ (Selection.intervals_eq true v)).2 hq cs
          exact ⟨_, by simp only [SelQuery.ask, e, bind, Except.bind]; rfl⟩
      | _ => exact SelQuery.safe_ok true v trivial
    obtain ⟨a, ha⟩ := this
    refine ⟨a, fun dbg => ?_⟩
    cases dbg
    exacts [q.ask_ref s a ha, ha]

/-- `(¬{10} ∖ ¬[3,20]) ∩ [5,8]`, with a complement on the right of `minus` and `intersect_in_place` at the end. -/
def SelProg.demo : SelProg U8 :=
  .intersectIn (.minus (.complement (.points [u8 10])) (.complement (.interval (.mkClosed (u8 3) (u8 20)))))
    (.mkClosed (u8 5) (u8 8))

example : SelProg.demo.Legal := ⟨⟨trivial, .mkClosed _ _⟩, .mkClosed _ _⟩

example : SelProg.demo.eval true = .ok ⟨[.lower (.excl (u8 4)), .upper (.excl (u8 9))]⟩ := by decide

/-- Every step of it is suitable. -/
example : ∀ q ∈ SelProg.demo.parts, q.StepFits true ∧ q.StepGoes := by
  have e1 : (SelProg.complement (.points [u8 10])).eval true =
      .ok ⟨[.lower .inf, .upper (.incl (u8 9)), .lower (.incl (u8 11)), .upper .inf]⟩ := by decide
  have e2 : (SelProg.complement (.interval (.mkClosed (u8 3) (u8 20)))).eval true =
      .ok ⟨[.lower .inf, .upper (.incl (u8 2)), .lower (.incl (u8 21)), .upper .inf]⟩ := by decide
  have e3 : (SelProg.minus (.complement (.points [u8 10]))
      (.complement (.interval (.mkClosed (u8 3) (u8 20))))).eval true = .ok ⟨[.lower (.excl (u8 2)),
        .upper (.incl (u8 9)), .lower (.incl (u8 11)), .upper (.excl (u8 21))]⟩ := by decide
  have cut : RawInterval.CoversAbove [.leftOpen (u8 2) (u8 9), .rightOpen (u8 11) (u8 21)]
        (Tine.lower (.excl (u8 4))).pos ∧
      RawInterval.CoversBelow [.leftOpen (u8 2) (u8 9), .rightOpen (u8 11) (u8 21)]
        (Tine.upper (.excl (u8 9))).pos :=
    ⟨⟨_, .head _, _, _, rfl, rfl, by decide, by decide⟩, _, .head _, _, _, rfl, rfl, by decide, by decide⟩
  have fine : ∀ o ∈ [.to (u8 2), .frm (u8 21)],
      RawInterval.RemovalFine [.to (u8 9), .frm (u8 11)] [.to (u8 2), .frm (u8 21)] o := by
    have no : ∀ p, ¬ RawInterval.Hole [.to (u8 9), .frm (u8 11)] p := by
      rintro p ⟨⟨i, hi, h⟩, -⟩
      simp only [List.mem_cons, List.not_mem_nil, or_false] at hi
      rcases hi with rfl | rfl <;> cases h
    intro o ho
    refine ⟨fun p hp => ?_, fun _ => ⟨fun b p _ _ => no p, fun b p _ _ h => absurd h (no p)⟩⟩
    subst hp
    simp at ho
  intro q hq
  simp only [SelProg.demo, SelProg.parts, List.cons_append, List.nil_append, List.append_assoc, List.mem_cons,
    List.not_mem_nil, or_false] at hq
  rcases hq with rfl | rfl | rfl | rfl | rfl | rfl
  · constructor
    · intro s is h his
      rw [e3] at h; cases h
      cases his
      exact .inr (.inr (.inr (.inl ⟨_, _, rfl, rfl, .inl cut⟩)))
    · intro s is h his
      rw [e3] at h; cases h
      cases his
      refine .inr (.inr (.inr ⟨⟨_, _, rfl, rfl, .inl cut⟩, ?_⟩))
      rintro ⟨l, u, h1, h2, -, -, h3, -⟩
      cases h1
      exact absurd cut.1 h3
  · constructor
    · intro a b as bs ha hb has hbs
      rw [e1] at ha; cases ha
      rw [e2] at hb; cases hb
      cases has; cases hbs
      exact fine
    · intro a b as bs ha hb has hbs
      rw [e1] at ha; cases ha
      rw [e2] at hb; cases hb
      cases has; cases hbs
      exact .inr fine
  all_goals exact ⟨trivial, trivial⟩

/-- A program with a step that is not suitable: `{2, 4}` without `[4,10]` contains `3` (C50). -/
example : ¬ (SelProg.minusIn (.points [u8 2, u8 4]) (.mkClosed (u8 4) (u8 10))).StepFits true := by
  intro h
  have hl : (SelProg.minusIn (.points [u8 2, u8 4]) (.mkClosed (u8 4) (u8 10))).Legal := ⟨trivial, .mkClosed _ _⟩
  have r := (C101_program_iff true _ hl).2 (by
    intro q hq
    simp only [SelProg.parts, List.mem_cons, List.not_mem_nil, or_false] at hq
    rcases hq with rfl | rfl
    · exact h
    · trivial) _ (.head _)
  obtain ⟨s, e, -, hp⟩ := r
  have e' : (SelProg.minusIn (.points [u8 2, u8 4]) (.mkClosed (u8 4) (u8 10))).eval true =
    .ok ⟨[.lower (.excl (u8 1)), .upper (.incl (u8 3))]⟩ := by decide
  rw [e'] at e; cases e
  have : u8 3 ∈ Selection.pts true ⟨[.lower (.excl (u8 1)), .upper (.incl (u8 3))]⟩ :=
    show Selection.contains true _ _ = .ok true by decide
  rw [hp] at this
  have h1 : u8 3 ∈ [u8 2, u8 4] := this.1
  revert h1
  decide

end NI
