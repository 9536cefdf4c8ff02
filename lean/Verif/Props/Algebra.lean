import Verif.SpecBool
import Verif.Props.Contract

/-! # The laws of sets hold as equalities of values (C107) -/

set_option linter.unusedSimpArgs false
set_option linter.unusedVariables false
set_option linter.unusedSectionVars false

namespace NI
open TT

namespace TT
variable {α : Type} [LinearOrder α]

theorem full_valid : Valid ([.lower .inf, .upper .inf] : TineTree α) := by
  have := fromRaw_valid (α := α) (i := .full) trivial
  exact this

theorem full_cov' {aft : Bool} {k : Key α} (h : RealPos aft k) :
    tcov ([.lower .inf, .upper .inf] : TineTree α) aft k = true := by
  exact full_cov h

theorem compute_ok (dbg : Bool) {v : Nat → TineTree α} (hv : ∀ n, Valid (v n)) (e : SetExpr) :
    ∃ t, e.compute TineTree.new (TineTree.fromRawInterval .full) (TineTree.union dbg) (TineTree.complement dbg) v =
      .ok t ∧ Valid t ∧ ∀ aft k, RealPos aft k → tcov t aft k = e.holds fun n => tcov (v n) aft k := by
  induction e with
  | set n => exact ⟨_, rfl, hv n, fun _ _ _ => rfl⟩
  | none => exact ⟨_, rfl, valid_nil, fun _ _ _ => rfl⟩
  | all => exact ⟨_, rfl, full_valid, fun _ _ h => full_cov' h⟩
  | union a b iha ihb =>
    obtain ⟨x, e1, v1, c1⟩ := iha
    obtain ⟨y, e2, v2, c2⟩ := ihb
    obtain ⟨t, e3, v3, c3⟩ := union_ok dbg v1 v2
    refine ⟨t, ?_, v3, fun aft k h => by rw [c3, c1 _ _ h, c2 _ _ h]; rfl⟩
    simp only [SetExpr.compute, bind, Except.bind, e1, e2, e3]
  | complement a iha =>
    obtain ⟨x, e1, v1, c1⟩ := iha
    obtain ⟨t, e3, v3, c3⟩ := complement_ok dbg v1
    refine ⟨t, ?_, v3, fun aft k h => by rw [c3 _ _ h, c1 _ _ h]; rfl⟩
    simp only [SetExpr.compute, bind, Except.bind, e1, e3]
end TT

namespace TineTree
variable {α : Type} [LinearOrder α]

/-- Computing an expression with trees. -/
abbrev algebra (dbg : Bool) (v : Nat → TineTree α) (e : SetExpr) : Except Panic (TineTree α) :=
  e.compute new (fromRawInterval .full) (union dbg) (complement dbg) v

/-- **C107.**  An equation that follows from others in the algebra of sets holds for trees, as equality of values. -/
theorem C107_tree (dbg : Bool) (hs : List (SetExpr × SetExpr)) (e f : SetExpr) (hl : SetExpr.Follows hs e f)
    (v : Nat → TineTree α) (hv : ∀ n, (v n).Reachable) (he : ∀ h ∈ hs, algebra dbg v h.1 = algebra dbg v h.2) :
    ∃ t, algebra dbg v e = .ok t ∧ algebra dbg v f = .ok t := by
  have vv := fun n => TT.reachable_valid (hv n)
  obtain ⟨t, e1, v1, c1⟩ := TT.compute_ok dbg vv e
  obtain ⟨u, e2, v2, c2⟩ := TT.compute_ok dbg vv f
  refine ⟨t, e1, ?_⟩
  have : t = u := TT.valid_ext v1 v2 fun aft k hr => by
    change tcov t aft k = tcov u aft k
    rw [c1 _ _ hr, c2 _ _ hr]
    refine hl _ fun h hh => ?_
    obtain ⟨x, k1, -, d1⟩ := TT.compute_ok dbg vv h.1
    obtain ⟨y, k2, -, d2⟩ := TT.compute_ok dbg vv h.2
    have := he h hh
    rw [algebra, algebra, k1, k2] at this
    cases this
    rw [← d1 _ _ hr, ← d2 _ _ hr]
  rw [this]; exact e2

/-- Absorption, with a tree that has a single gap: `a ∪ (a ∩ b) = a`. -/
example : SetExpr.Follows [] (.union (.set 0) (.inter (.set 0) (.set 1))) (.set 0) ∧
    algebra true (fun n => if n = 0 then TineTree.demo [.rightOpen 1 3, .leftOpen 3 9] else TineTree.demo [.closed 2 4])
      (.union (.set 0) (.inter (.set 0) (.set 1))) = .ok (TineTree.demo [.rightOpen 1 3, .leftOpen 3 9]) :=
  ⟨fun v _ => by simp only [SetExpr.holds, SetExpr.inter]; cases v 0 <;> cases v 1 <;> rfl, by decide⟩

/-- **C107.**  No other equations hold for all trees: one that does not follow fails for some empty and full ones. -/
theorem C107_tree_iff (dbg : Bool) (hs : List (SetExpr × SetExpr)) (e f : SetExpr) :
    SetExpr.Follows hs e f ↔ ∀ v : Nat → TineTree α, (∀ n, (v n).Reachable) →
      (∀ h ∈ hs, algebra dbg v h.1 = algebra dbg v h.2) → algebra dbg v e = algebra dbg v f := by
  refine ⟨fun hl v hv he => ?_, fun h v hh => ?_⟩
  · obtain ⟨t, e1, e2⟩ := C107_tree dbg hs e f hl v hv he
    rw [e1, e2]
  · let w : Nat → TineTree α := fun n => if v n then fromRawInterval .full else new
    have hw : ∀ n, (w n).Reachable := by
      intro n
      show (if v n then fromRawInterval .full else new : TineTree α).Reachable
      split_ifs
      · exact .fromRaw (i := .full) trivial
      · exact .new
    have vv := fun n => TT.reachable_valid (hw n)
    have cw : ∀ aft k, RealPos aft k → (fun n => tcov (w n) aft k) = v := by
      intro aft k hr
      funext n
      show tcov (if v n then fromRawInterval .full else new : TineTree α) aft k = v n
      cases v n
      · rfl
      · exact TT.full_cov' hr
    have val : ∀ g : SetExpr, ∃ t, algebra dbg w g = .ok t ∧ Valid t ∧ ∀ aft k, RealPos aft k → tcov t aft k = g.holds v := by
      intro g
      obtain ⟨t, e1, v1, c1⟩ := TT.compute_ok dbg vv g
      exact ⟨t, e1, v1, fun aft k hr => by rw [c1 _ _ hr, cw _ _ hr]⟩
    have r0 : RealPos true (.bot : Key α) := by simp [RealPos]
    have := h w hw fun g hg => by
      obtain ⟨t, e1, v1, c1⟩ := val g.1
      obtain ⟨u, e2, v2, c2⟩ := val g.2
      rw [e1, e2]
      congr 1
      exact TT.valid_ext v1 v2 fun aft k hr => by
        change tcov t aft k = tcov u aft k
        rw [c1 _ _ hr, c2 _ _ hr, hh g hg]
    obtain ⟨t, e1, -, c1⟩ := val e
    obtain ⟨u, e2, -, c2⟩ := val f
    rw [e1, e2] at this
    cases this
    rw [← c1 _ _ r0, ← c2 _ _ r0]

/-- `a ∪ b = a ∩ b` is no law. -/
example : ¬ SetExpr.Follows [] (.union (.set 0) (.set 1)) (.inter (.set 0) (.set 1)) := fun h =>
  absurd (h (fun n => n == 0) (by simp)) (by decide)

/-- **C107.**  Two trees are equal exactly if either, united with the complement of the other, is full. -/
theorem C107_tree_equal_iff (dbg : Bool) (a b : TineTree α) (ha : a.Reachable) (hb : b.Reachable) :
    a = b ↔ (do let c ← complement dbg a; let u ← union dbg b c; .ok (isFull u)) = (.ok true : Except Panic Bool) ∧
      (do let c ← complement dbg b; let u ← union dbg a c; .ok (isFull u)) = (.ok true : Except Panic Bool) := by
  have key : ∀ a b : TineTree α, a.Reachable → b.Reachable →
      ((do let c ← complement dbg a; let u ← union dbg b c; .ok (isFull u)) = (.ok true : Except Panic Bool) ↔
        ∀ aft k, RealPos aft k → tcov a aft k = true → tcov b aft k = true) := by
    intro a b ha hb
    obtain ⟨c, e1, v1, c1⟩ := complement_ok dbg (TT.reachable_valid ha)
    obtain ⟨u, e2, v2, c2⟩ := union_ok dbg (TT.reachable_valid hb) v1
    simp only [bind, Except.bind, e1, e2, Except.ok.injEq, isFull, decide_eq_true_eq]
    constructor
    · rintro rfl aft k hr h
      have := c2 aft k
      rw [TT.full_cov' hr, c1 _ _ hr, h] at this
      simpa using this.symm
    · intro h
      refine TT.valid_ext v2 TT.full_valid fun aft k hr => ?_
      change tcov u aft k = tcov _ aft k
      rw [TT.full_cov' hr, c2, c1 _ _ hr]
      cases hx : tcov a aft k
      · simp
      · rw [h _ _ hr hx]; rfl
  rw [key a b ha hb, key b a hb ha]
  constructor
  · rintro rfl
    exact ⟨fun _ _ _ h => h, fun _ _ _ h => h⟩
  · rintro ⟨k1, k2⟩
    exact TT.valid_ext (TT.reachable_valid ha) (TT.reachable_valid hb)
      fun aft k hr => Bool.eq_iff_iff.2 ⟨k1 _ _ hr, k2 _ _ hr⟩

example : (do let c ← complement true (TineTree.demo [.closed 1 2]); let u ← union true (TineTree.demo [.opn 0 3]) c
              .ok (isFull u)) = (.ok true : Except Panic Bool) ∧
    (do let c ← complement true (TineTree.demo [.opn 0 3]); let u ← union true (TineTree.demo [.closed 1 2]) c
        .ok (isFull u)) = (.ok false : Except Panic Bool) := by decide

end TineTree

open _root_.NI.Finite

namespace Selection
variable {α : Type} [LinearOrder α] [Finite α] [LawfulFinite α]

/-- Computing an expression with selections. -/
abbrev algebra (dbg : Bool) (v : Nat → Selection α) (e : SetExpr) : Except Panic (Selection α) :=
  e.compute new full (union dbg) (complement dbg) v

theorem compute_ok (dbg : Bool) {v : Nat → Selection α} (hv : ∀ n, (v n).Reachable) (e : SetExpr) :
    ∃ s, algebra dbg v e = .ok s ∧ s.Reachable ∧
      ∀ aft k, RealPos aft k → tcov s.tree aft k = e.holds fun n => tcov (v n).tree aft k := by
  induction e with
  | set n => exact ⟨_, rfl, hv n, fun _ _ _ => rfl⟩
  | none => exact ⟨_, rfl, .new, fun _ _ _ => rfl⟩
  | all => exact ⟨_, rfl, .full, fun _ _ h => by rw [full_tree]; exact TT.full_cov' h⟩
  | union a b iha ihb =>
    obtain ⟨x, e1, v1, c1⟩ := iha
    obtain ⟨y, e2, v2, c2⟩ := ihb
    obtain ⟨t, e3, v3, c3⟩ := union_ok dbg (reachable_valid v1) (reachable_valid v2)
    refine ⟨t, ?_, .union v1 v2 e3, fun aft k h => by rw [c3, c1 _ _ h, c2 _ _ h]; rfl⟩
    rw [algebra] at e1 e2
    simp only [algebra, SetExpr.compute, bind, Except.bind, e1, e2, e3]
  | complement a iha =>
    obtain ⟨x, e1, v1, c1⟩ := iha
    obtain ⟨t, e3, v3, c3⟩ := complement_ok dbg (reachable_valid v1)
    refine ⟨t, ?_, .complement v1 e3, fun aft k h => by rw [c3 _ _ h, c1 _ _ h]; rfl⟩
    rw [algebra] at e1
    simp only [algebra, SetExpr.compute, bind, Except.bind, e1, e3]

theorem reachable_ext {s t : Selection α} (hs : s.Reachable) (ht : t.Reachable)
    (h : ∀ aft k, RealPos aft k → tcov s.tree aft k = tcov t.tree aft k) : s = t := by
  have := TT.valid_ext (reachable_valid hs) (reachable_valid ht) h
  cases s; cases t; exact congrArg _ this

/-- **C107.**  An equation that follows from others in the algebra of sets holds for selections of any history, as
equality of values. -/
theorem C107_selection (dbg : Bool) (hs : List (SetExpr × SetExpr)) (e f : SetExpr) (hl : SetExpr.Follows hs e f)
    (v : Nat → Selection α) (hv : ∀ n, (v n).Reachable) (he : ∀ h ∈ hs, algebra dbg v h.1 = algebra dbg v h.2) :
    ∃ s, algebra dbg v e = .ok s ∧ algebra dbg v f = .ok s := by
  obtain ⟨t, e1, v1, c1⟩ := compute_ok dbg hv e
  obtain ⟨u, e2, v2, c2⟩ := compute_ok dbg hv f
  refine ⟨t, e1, ?_⟩
  have : t = u := reachable_ext v1 v2 fun aft k hr => by
    rw [c1 _ _ hr, c2 _ _ hr]
    refine hl _ fun h hh => ?_
    obtain ⟨x, k1, -, d1⟩ := compute_ok dbg hv h.1
    obtain ⟨y, k2, -, d2⟩ := compute_ok dbg hv h.2
    have := he h hh
    rw [k1, k2] at this
    cases this
    rw [← d1 _ _ hr, ← d2 _ _ hr]
  rw [this]; exact e2

/-- Distributivity, with the selection of all values cut in two. -/
example : SetExpr.Follows [] (.inter (.set 0) (.union (.set 1) (.set 2)))
      (.union (.inter (.set 0) (.set 1)) (.inter (.set 0) (.set 2))) ∧
    (∀ n : Nat, (if n = 0 then Selection.cut else Selection.demo [(u8 3, u8 5)]).Reachable) ∧
    ∃ s, algebra true (fun n => if n = 0 then Selection.cut else Selection.demo [(u8 3, u8 5)])
      (.inter (.set 0) (.union (.set 1) (.set 2))) = .ok s ∧ s.tree ≠ [] :=
  ⟨fun v _ => by simp only [SetExpr.holds, SetExpr.inter]; cases v 0 <;> cases v 1 <;> cases v 2 <;> rfl,
    fun n => by split_ifs; exacts [Selection.cut_solid.reachable, (Selection.demo_built _ (by decide)).reachable],
    _, rfl, by decide⟩

/-- **C107.**  No other equations hold for all selections. -/
theorem C107_selection_iff (dbg : Bool) (hs : List (SetExpr × SetExpr)) (e f : SetExpr) :
    SetExpr.Follows hs e f ↔ ∀ v : Nat → Selection α, (∀ n, (v n).Reachable) →
      (∀ h ∈ hs, algebra dbg v h.1 = algebra dbg v h.2) → algebra dbg v e = algebra dbg v f := by
  refine ⟨fun hl v hv he => ?_, fun h v hh => ?_⟩
  · obtain ⟨t, e1, e2⟩ := C107_selection dbg hs e f hl v hv he
    rw [e1, e2]
  · let w : Nat → Selection α := fun n => if v n then full else new
    have hw : ∀ n, (w n).Reachable := by
      intro n
      show (if v n then full else new : Selection α).Reachable
      split_ifs
      · exact .full
      · exact .new
    have cw : ∀ aft k, RealPos aft k → (fun n => tcov (w n).tree aft k) = v := by
      intro aft k hr
      funext n
      show tcov (if v n then full else new : Selection α).tree aft k = v n
      cases v n
      · rfl
      · rw [if_pos rfl, full_tree]; exact TT.full_cov' hr
    have val : ∀ g : SetExpr, ∃ t, algebra dbg w g = .ok t ∧ t.Reachable ∧
        ∀ aft k, RealPos aft k → tcov t.tree aft k = g.holds v := by
      intro g
      obtain ⟨t, e1, v1, c1⟩ := compute_ok dbg hw g
      exact ⟨t, e1, v1, fun aft k hr => by rw [c1 _ _ hr, cw _ _ hr]⟩
    have r0 : RealPos true (.bot : Key α) := by simp [RealPos]
    have := h w hw fun g hg => by
      obtain ⟨t, e1, v1, c1⟩ := val g.1
      obtain ⟨u, e2, v2, c2⟩ := val g.2
      rw [e1, e2]
      congr 1
      exact reachable_ext v1 v2 fun aft k hr => by rw [c1 _ _ hr, c2 _ _ hr, hh g hg]
    obtain ⟨t, e1, -, c1⟩ := val e
    obtain ⟨u, e2, -, c2⟩ := val f
    rw [e1, e2] at this
    cases this
    rw [← c1 _ _ r0, ← c2 _ _ r0]

/-- From `a ∪ b = b` and `b ∪ c = c` follows `a ∪ c = c`; from nothing it does not. -/
example : SetExpr.Follows [(.union (.set 0) (.set 1), .set 1), (.union (.set 1) (.set 2), .set 2)]
      (.union (.set 0) (.set 2)) (.set 2) ∧ ¬ SetExpr.Follows [] (.union (.set 0) (.set 2)) (.set 2) := by
  refine ⟨fun v h => ?_, fun h => absurd (h (fun n => n == 0) (by simp)) (by decide)⟩
  have h1 := h _ (List.mem_cons_self ..)
  have h2 := h _ (List.mem_cons_of_mem _ (List.mem_cons_self ..))
  simp only [SetExpr.holds] at h1 h2 ⊢
  revert h1 h2
  cases v 0 <;> cases v 1 <;> cases v 2 <;> simp

/-! ## Inclusion and equality by `union`, `complement` and `is_full` -/

/-- The test whether `a` lies in `b`: `b.union(&a.complement()).is_full()`. -/
def within (dbg : Bool) (a b : Selection α) : Except Panic Bool := do
  let c ← a.complement dbg
  let u ← b.union dbg c
  .ok u.isFull

theorem within_eq (dbg : Bool) {a b : Selection α} (ha : a.Reachable) (hb : b.Reachable) :
    ∃ r, within dbg a b = .ok r ∧ (r = true ↔ ∀ aft k, RealPos aft k → tcov a.tree aft k = true → tcov b.tree aft k = true) := by
  obtain ⟨c, e1, v1, c1⟩ := complement_ok dbg (reachable_valid ha)
  obtain ⟨u, e2, v2, c2⟩ := union_ok dbg (reachable_valid hb) v1
  refine ⟨u.isFull, by simp only [within, bind, Except.bind, e1, e2], ?_⟩
  rw [isFull_iff]
  constructor
  · rintro rfl aft k hr h
    have := c2 aft k
    rw [full_tree, TT.full_cov' hr, c1 _ _ hr, h] at this
    simpa using this.symm
  · intro h
    refine reachable_ext (.union hb (.complement ha e1) e2) .full fun aft k hr => ?_
    rw [full_tree, TT.full_cov' hr, c2, c1 _ _ hr]
    cases hx : tcov a.tree aft k
    · simp
    · rw [h _ _ hr hx]; rfl

/-- **C107.**  Two selections of any history are equal exactly if each passes the inclusion test against the other:
selections that are not equal can be told apart with `union`, `complement` and `is_full`. -/
theorem C107_equal_iff (dbg : Bool) (a b : Selection α) (ha : a.Reachable) (hb : b.Reachable) :
    a = b ↔ within dbg a b = .ok true ∧ within dbg b a = .ok true := by
  obtain ⟨r, e1, h1⟩ := within_eq dbg ha hb
  obtain ⟨q, e2, h2⟩ := within_eq dbg hb ha
  rw [e1, e2, Except.ok.injEq, Except.ok.injEq, h1, h2]
  constructor
  · rintro rfl
    exact ⟨fun _ _ _ h => h, fun _ _ _ h => h⟩
  · rintro ⟨k1, k2⟩
    exact reachable_ext ha hb fun aft k hr => Bool.eq_iff_iff.2 ⟨k1 _ _ hr, k2 _ _ hr⟩

/-- All values, and all values cut in two: the same points, not the same selection. -/
example : Selection.cut.Reachable ∧ Selection.cut.pts true = Set.univ ∧ within true Selection.cut Selection.full = .ok true ∧
    within true Selection.full Selection.cut = .ok false :=
  ⟨Selection.cut_solid.reachable, Selection.cut_pts true, by decide, by decide⟩

/-- **C107.**  The inclusion test never accepts wrongly, and it is exact if the first
selection is `Solid` (built so that every listed interval holds a value) and the second is built by union. -/
theorem C107_within (dbg : Bool) (a b : Selection α) (ha : a.Reachable) (hb : b.Reachable) :
    ∃ r, within dbg a b = .ok r ∧ (r = true → a.pts dbg ⊆ b.pts dbg) ∧
      (a.Solid → b.UnionBuilt → a.pts dbg ⊆ b.pts dbg → r = true) := by
  obtain ⟨r, e, h⟩ := within_eq dbg ha hb
  refine ⟨r, e, fun hr x hx => ?_, fun ua ub hs => h.2 ?_⟩
  · rw [mem_pts dbg (reachable_valid ha)] at hx
    rw [mem_pts dbg (reachable_valid hb)]
    exact h.1 hr _ _ ⟨by simp, by simp⟩ hx
  · have hat : ∀ x, at' a.tree x = true → at' b.tree x = true := by
      intro x hx
      rw [← mem_pts dbg (reachable_valid ha)] at hx
      rw [← mem_pts dbg (reachable_valid hb)]
      exact hs hx
    have np := ua.np
    have d := ub.do
    intro aft k hr hx
    rcases key_cases k with rfl | ⟨x, rfl⟩ | rfl
    · obtain rfl := hr.2 rfl
      rw [d.2]; exact hat _ (np.2 hx)
    · cases aft
      · exact hat x hx
      · rw [d.1, Bool.or_eq_true]
        refine (np.1 x hx).imp (hat x) fun hq => ?_
        cases hs : succ x with
        | none => rw [hs] at hq; cases hq
        | some y => rw [hs] at hq; exact hat y hq
    · exact absurd rfl hr.1

example : within true (Selection.demo [(u8 3, u8 4), (u8 9, u8 9)]) (Selection.demo [(u8 2, u8 4), (u8 5, u8 10)]) = .ok true ∧
    within true (Selection.demo [(u8 3, u8 4), (u8 9, u8 9)]) (Selection.demo [(u8 3, u8 8)]) = .ok false := by decide

end Selection
end NI
