import Verif.SpecAny
import Verif.Props.Raw
import Verif.Props.Normalize
import Verif.Props.Serde
import Verif.Props.Histories
import Verif.Lemmas.Whole
import Verif.Lemmas.UnwindNeat

/-!
# C115: what a corrupt tree still guarantees
-/

set_option linter.unusedSectionVars false

namespace NI

section Tree
variable {α : Type} [LinearOrder α]

theorem TineIter.nextWith_wf {dbg : Bool} {x : Tine α} {it it' : TineIter α} {i : RawInterval α}
    (e : TineIter.nextWith dbg x it = .ok (i, it')) : i.WF := by
  unfold TineIter.nextWith at e
  split at e
  · cases e; trivial
  · simp only [bind, Except.bind] at e
    repeat' split at e
    all_goals first | cases e; exact RawInterval.new_wf _ _ | cases e

theorem TineIter.nextBackWith_wf {dbg : Bool} {x : Tine α} {it it' : TineIter α} {i : RawInterval α}
    (e : TineIter.nextBackWith dbg x it = .ok (i, it')) : i.WF := by
  unfold TineIter.nextBackWith at e
  split at e
  · cases e; trivial
  · simp only [bind, Except.bind] at e
    repeat' split at e
    all_goals first | cases e; exact RawInterval.new_wf _ _ | cases e

theorem TineIter.next_wf {dbg : Bool} {it it' : TineIter α} {i : RawInterval α}
    (e : TineIter.next dbg it = .ok (some i, it')) : i.WF := by
  unfold TineIter.next at e
  split at e
  · cases e1 : TineIter.nextWith dbg _ { it with savedLower := none } with
    | error x => rw [e1] at e; cases e
    | ok p => rw [e1] at e; cases e; exact TineIter.nextWith_wf e1
  · split at e
    · rename_i lower rest _
      cases e1 : TineIter.nextWith dbg lower { it with tines := rest } with
      | error x => rw [e1] at e; cases e
      | ok p => rw [e1] at e; cases e; exact TineIter.nextWith_wf e1
    · cases e

theorem TineIter.nextBack_wf {dbg : Bool} {it it' : TineIter α} {i : RawInterval α}
    (e : TineIter.nextBack dbg it = .ok (some i, it')) : i.WF := by
  unfold TineIter.nextBack at e
  split at e
  · cases e1 : TineIter.nextBackWith dbg _ { it with savedUpper := none } with
    | error x => rw [e1] at e; cases e
    | ok p => rw [e1] at e; cases e; exact TineIter.nextBackWith_wf e1
  · split at e
    · rename_i upper _
      cases e1 : TineIter.nextBackWith dbg upper { it with tines := it.tines.dropLast } with
      | error x => rw [e1] at e; cases e
      | ok p => rw [e1] at e; cases e; exact TineIter.nextBackWith_wf e1
    · cases e

/-- What holds of all that two functions return holds of all that a run of them returns. -/
theorem drive_all {σ β : Type} {next nextBack : σ → Except Panic (Option β × σ)} {Q : β → Prop}
    (h1 : ∀ s b s', next s = .ok (some b, s') → Q b) (h2 : ∀ s b s', nextBack s = .ok (some b, s') → Q b)
    (s : σ) (cs : List IterCall) (os : List (Option β)) (e : drive next nextBack s cs = .ok os) :
    ∀ b, some b ∈ os → Q b := by
  induction cs generalizing s os with
  | nil => cases e; simp
  | cons c cs ih =>
    have key : ∀ p : Option β × σ, (c = .next → next s = .ok p) → (c = .nextBack → nextBack s = .ok p) →
        ∀ os', drive next nextBack p.2 cs = .ok os' → ∀ b, some b ∈ p.1 :: os' → Q b := by
      rintro ⟨o, s'⟩ g1 g2 os' e' b hb
      rcases List.mem_cons.1 hb with hb | hb
      · simp only at hb
        subst hb
        cases c
        · exact h1 _ _ _ (g1 rfl)
        · exact h2 _ _ _ (g2 rfl)
      · exact ih _ _ e' b hb
    unfold drive at e
    cases c
    · cases e1 : next s with
      | error x => simp [e1, bind, Except.bind] at e
      | ok p =>
        cases e2 : drive next nextBack p.2 cs with
        | error x => simp [e1, e2, bind, Except.bind] at e
        | ok os' =>
          simp only [e1, e2, bind, Except.bind, pure, Except.pure, Except.ok.injEq] at e
          rw [← e]
          exact key p (fun _ => e1) (fun h => by cases h) os' e2
    · cases e1 : nextBack s with
      | error x => simp [e1, bind, Except.bind] at e
      | ok p =>
        cases e2 : drive next nextBack p.2 cs with
        | error x => simp [e1, e2, bind, Except.bind] at e
        | ok os' =>
          simp only [e1, e2, bind, Except.bind, pure, Except.pure, Except.ok.injEq] at e
          rw [← e]
          exact key p (fun h => by cases h) (fun _ => e1) os' e2

theorem TineTree.enclose_wf {dbg : Bool} {t : TineTree α} {i : RawInterval α} (e : t.enclose dbg = .ok i) :
    i.WF := by
  unfold TineTree.enclose at e
  split at e
  · cases e; trivial
  · rename_i tine
    cases e1 : dassert dbg tine.isPointInclude with
    | error x => rw [e1] at e; cases e
    | ok u =>
      rw [e1] at e
      simp only [bind, Except.bind] at e
      split at e
      · cases e; trivial
      · cases e
  · split at e
    · cases e; exact RawInterval.new_wf _ _
    · cases e

/-- **C115.**  Whatever is in a tree, the intervals taken out of it by any calls of `next` and `next_back`, and those
returned by `enclose` and `closure`, are well formed. -/
theorem C115_intervals (dbg : Bool) (t : TineTree α) :
    (∀ cs os, drive (TineIter.next dbg) (TineIter.nextBack dbg) (TineIter.start t) cs = .ok os →
      ∀ i, some i ∈ os → i.WF) ∧
    (∀ i, t.enclose dbg = .ok i → i.WF) ∧ ∀ i, t.closure dbg = .ok i → i.WF := by
  refine ⟨fun cs os e => drive_all (fun _ _ _ h => TineIter.next_wf h) (fun _ _ _ h => TineIter.nextBack_wf h) _ cs os e,
    fun i e => TineTree.enclose_wf e, fun i e => ?_⟩
  rw [TineTree.closure] at e
  cases e1 : t.enclose dbg with
  | error x => rw [e1] at e; cases e
  | ok j => rw [e1] at e; cases e; exact (C09_closure j (TineTree.enclose_wf e1)).2.1

/-- Also for a tree that starts with an end. -/
example : drive (TineIter.next false) (TineIter.nextBack false)
      (TineIter.start [.upper (.excl (1 : Int)), .lower (.incl 0), .upper .inf]) [.next, .next] =
    .error .expect ∧
    drive (TineIter.next false) (TineIter.nextBack false)
      (TineIter.start [.upper (.excl (1 : Int)), .lower (.incl 0), .upper .inf]) [.next] =
    .ok [some .empty] := by decide

namespace TT

theorem foldAux_neat {P : Tine α → Prop} {dbg : Bool} {f : TineTree α → RawInterval α → Except Panic (TineTree α)}
    (hf : ∀ t i t', Neat P t → i.WF → f t i = .ok t' → Neat P t') (n : Nat) (it : TineIter α) {t t' : TineTree α}
    (ht : Neat P t) (e : TineIter.foldAux dbg f n it t = .ok t') : Neat P t' := by
  induction n generalizing it t with
  | zero => cases e; exact ht
  | succ n ih =>
    rw [TineIter.foldAux] at e
    cases e1 : TineIter.next dbg it with
    | error x => rw [e1] at e; cases e
    | ok p =>
      obtain ⟨o, it'⟩ := p
      rw [e1] at e
      cases o with
      | none => cases e; exact ht
      | some i =>
        simp only [bind, Except.bind] at e
        cases e2 : f t i with
        | error x => rw [e2] at e; cases e
        | ok t1 => rw [e2] at e; exact ih it' (hf _ _ _ ht (TineIter.next_wf e1) e2) e

theorem segment_neat {dbg : Bool} {s : RawInterval α} (n : Nat) (o : TineIter α) {t : TineTree α}
    {r : Option (TineIter α) × TineTree α} (ht : Neat Tine.Ok t)
    (e : TineTree.intersectSegment dbg s n o t = .ok r) : Neat Tine.Ok r.2 := by
  induction n generalizing o t with
  | zero => cases e; exact ht
  | succ n ih =>
    rw [TineTree.intersectSegment] at e
    cases e1 : TineIter.next dbg o with
    | error x => rw [e1] at e; cases e
    | ok p =>
      obtain ⟨oi, o'⟩ := p
      rw [e1] at e
      cases oi with
      | none => cases e; exact ht
      | some i =>
        simp only [bind, Except.bind] at e
        split at e
        · cases e; exact ht
        · cases e2 : TineTree.unionInPlace dbg t (s.intersect i) with
          | error x => rw [e2] at e; cases e
          | ok t1 => rw [e2] at e; exact ih o' (neat_unionInPlace closed_ok ht (raw_ok (C03_wf _ _)) e2) e

theorem loop_neat {dbg : Bool} (n : Nat) (s o : TineIter α) {t t' : TineTree α} (ht : Neat Tine.Ok t)
    (e : TineTree.intersectLoop dbg n s o t = .ok t') : Neat Tine.Ok t' := by
  induction n generalizing s o t with
  | zero => cases e; exact ht
  | succ n ih =>
    rw [TineTree.intersectLoop] at e
    cases e1 : TineIter.next dbg s with
    | error x => rw [e1] at e; cases e
    | ok p =>
      obtain ⟨si, s'⟩ := p
      rw [e1] at e
      cases si with
      | none => cases e; exact ht
      | some i =>
        simp only [bind, Except.bind] at e
        cases e2 : TineTree.intersectSegment dbg i o.size o t with
        | error x => rw [e2] at e; cases e
        | ok r =>
          obtain ⟨o', t1⟩ := r
          rw [e2] at e
          have h1 := segment_neat _ _ ht e2
          cases o' with
          | none => cases e; exact h1
          | some o' => exact ih s' o' h1 e

theorem any_neat {t : TineTree α} (h : t.Any) : Neat Tine.Ok t := by
  have c := closed_ok (α := α)
  induction h with
  | new => exact neat_nil
  | fromRaw h => rw [tree_fromRaw h]; exact ⟨(fromRaw_valid h).1, raw_ok h⟩
  | @fromIter dbg is t' h e =>
    have key : ∀ (is : List (RawInterval α)) (t : TineTree α), Neat Tine.Ok t → (∀ i ∈ is, i.WF) →
        is.foldlM (TineTree.unionInPlace dbg) t = .ok t' → Neat Tine.Ok t' := by
      intro is
      induction is with
      | nil => intro t h _ e; cases e; exact h
      | cons i is ih =>
        intro t h hi e
        rw [List.foldlM_cons] at e
        cases e1 : TineTree.unionInPlace dbg t i with
        | error x => rw [e1] at e; cases e
        | ok t1 =>
          rw [e1] at e
          exact ih _ (neat_unionInPlace c h (raw_ok (hi i (.head _))) e1) (fun j hj => hi j (.tail _ hj)) e
    exact key is _ neat_nil h e
  | unionInPlace _ h e ih => exact neat_unionInPlace c ih (raw_ok h) e
  | minusInPlace _ h e ih => exact neat_minusInPlace c ih (raw_ok h) e
  | intersectInPlace _ h e ih => exact neat_intersectInPlace c ih (raw_ok h) e
  | union _ _ e ha _ =>
    exact foldAux_neat (fun _ _ _ ht hi e => neat_unionInPlace c ht (raw_ok hi) e) _ _ ha e
  | minus _ _ e ha _ =>
    exact foldAux_neat (fun _ _ _ ht hi e => neat_minusInPlace c ht (raw_ok hi) e) _ _ ha e
  | intersect _ _ e _ _ => exact loop_neat _ _ _ neat_nil e
  | complement _ e ih => exact neat_complement c ih e
  | unionPanic _ h e ih => exact keeps_unionInPlace c ih (raw_ok h) _ _ e
  | minusPanic _ h e ih => exact keeps_minusInPlace c ih (raw_ok h) _ _ e
  | intersectPanic _ _ e ih => exact keeps_intersectInPlace ih _ _ e

end TT

/-- **C115.**  A tree of any history, one left by a panic included, is in strictly ascending order, and neither comparing its tines nor comparing one of
them to a tine of an interval reaches the `unreachable!` branch. -/
theorem C115_sorted (t : TineTree α) (ht : t.Any) :
    (t.Pairwise fun a b => a.cmp b = .lt) ∧ ∀ x ∈ t,
      (∀ y ∈ t, (x.cmp? y).isSome = true) ∧
      ∀ i : RawInterval α, i.WF → ∀ y ∈ Tine.fromRawInterval i, (x.cmp? y).isSome = true ∧ (y.cmp? x).isSome = true := by
  have h := TT.any_neat ht
  refine ⟨h.1.2.imp_of_mem fun ha hb hab => Tine.cmp_lt (h.2 _ ha) (h.2 _ hb) hab, fun x hx =>
    ⟨fun y hy => ?_, fun i hi y hy => ⟨?_, ?_⟩⟩⟩
  · rw [Tine.cmp?_eq (h.2 x hx) (h.2 y hy)]; rfl
  · rw [Tine.cmp?_eq (h.2 x hx) (TT.raw_ok hi y hy)]; rfl
  · rw [Tine.cmp?_eq (TT.raw_ok hi y hy) (h.2 x hx)]; rfl

/-- The hypothesis holds for a corrupt tree: it starts with a missing point. -/
example : TineTree.Any (α := Int) [.point (.excl 2), .upper .inf] := by
  have h : TineTree.Any (α := Int) [.lower (.excl 1), .point (.excl 2), .upper .inf] :=
    .fromIter (dbg := false) (is := [.opn 1 2, .upFrom 2]) (by simp [RawInterval.WF]) (by decide)
  exact h.minusInPlace (dbg := false) (i := .point 1) trivial (by decide)

/-- It holds for the tree that a panic leaves: a single upper bound. -/
example : TineTree.Any (α := Int) [.upper (.incl 2)] :=
  .intersectPanic (dbg := true) (i := .closed 0 5) (p := .unreachable) (.fromRaw (i := .closed 0 2) (by decide))
    (by decide) (by decide)

end Tree

section Sel
variable {α : Type} [LinearOrder α] [_root_.NI.Finite α] [LawfulFinite α]

/-- **C115.**  Whatever is in the tree of a selection, the intervals taken out of the selection are intervals that the
constructors make. -/
theorem C115_selection (dbg : Bool) (s : Selection α) :
    (∀ cs os, drive (Selection.intervalNext dbg) (Selection.intervalNextBack dbg) (TineIter.start s.tree) cs = .ok os →
      ∀ i, some i ∈ os → i.Obtainable) ∧
    (∀ i, s.enclose dbg = .ok i → i.Obtainable) ∧ ∀ i, s.closure dbg = .ok i → i.Obtainable := by
  have key : ∀ i : RawInterval α, i.WF → (Interval.ofRaw i.normalized).Obtainable := fun i hi => by
    have : Interval.ofRaw i.normalized = Interval.ofRaw i := by
      simp only [Interval.ofRaw, (C16_normal_form i).1]
    rw [this]
    exact .ofRaw i hi
  have key' : ∀ i : RawInterval α, i.WF → (⟨i.normalized⟩ : Interval α).Obtainable := fun i hi => .ofRaw i hi
  refine ⟨fun cs os e => drive_all (fun it i it' h => ?_) (fun it i it' h => ?_) _ cs os e, fun i e => ?_, fun i e => ?_⟩
  · rw [Selection.intervalNext] at h
    cases e1 : TineIter.next dbg it with
    | error x => rw [e1] at h; cases h
    | ok p =>
      obtain ⟨o, it2⟩ := p
      rw [e1] at h
      cases o with
      | none => cases h
      | some r => cases h; exact key r (TineIter.next_wf e1)
  · rw [Selection.intervalNextBack] at h
    cases e1 : TineIter.nextBack dbg it with
    | error x => rw [e1] at h; cases h
    | ok p =>
      obtain ⟨o, it2⟩ := p
      rw [e1] at h
      cases o with
      | none => cases h
      | some r => cases h; exact key r (TineIter.nextBack_wf e1)
  · rw [Selection.enclose] at e
    cases e1 : s.tree.enclose dbg with
    | error x => rw [e1] at e; cases e
    | ok r => rw [e1] at e; cases e; exact key' r (TineTree.enclose_wf e1)
  · rw [Selection.closure] at e
    cases e1 : s.tree.closure dbg with
    | error x => rw [e1] at e; cases e
    | ok r => rw [e1] at e; cases e; exact key' r ((C115_intervals dbg s.tree).2.2 r e1)

example : drive (Selection.intervalNext false) (Selection.intervalNextBack false)
    (TineIter.start [.point (.excl (u8 2)), .upper .inf]) [.next, .next] =
      .ok [some (.mkClosed (u8 3) (u8 255)), none] := by decide

theorem Selection.any_tree {s : Selection α} (h : s.Any) : s.tree.Any := by
  have fold : ∀ {β : Type} {dbg : Bool} (g : β → Interval α) (is : List β) (s s' : Selection α),
      (∀ i ∈ is, (g i).Obtainable) → s.tree.Any →
      is.foldlM (fun s i => do .ok ⟨← s.tree.unionInPlace dbg (g i).raw.denormalized⟩) s = .ok s' → s'.tree.Any := by
    intro β dbg g is
    induction is with
    | nil => intro s s' _ h e; cases e; exact h
    | cons i is ih =>
      intro s s' hi h e
      rw [List.foldlM_cons] at e
      cases e1 : s.tree.unionInPlace dbg (g i).raw.denormalized with
      | error x => rw [e1] at e; cases e
      | ok t1 =>
        rw [e1] at e
        exact ih ⟨t1⟩ s' (fun j hj => hi j (.tail _ hj))
          (h.unionInPlace (RawInterval.denorm_wf (Interval.obtainable_nf (hi i (.head _)))) e1) e
  have single : ∀ {i : Interval α}, i.Obtainable → (Selection.ofInterval i).tree.Any := fun hi =>
    .fromRaw (RawInterval.denorm_wf (Interval.obtainable_nf hi))
  induction h with
  | new => exact .new
  | full => exact single .full
  | ofInterval h => exact single h
  | @unionInPlace dbg s i s' _ hi e ih =>
    rw [Selection.unionInPlace] at e
    cases e1 : s.tree.unionInPlace dbg i.raw.denormalized with
    | error x => rw [e1] at e; cases e
    | ok t => rw [e1] at e; cases e; exact ih.unionInPlace (RawInterval.denorm_wf (Interval.obtainable_nf hi)) e1
  | @minusInPlace dbg s i s' _ hi e ih =>
    rw [Selection.minusInPlace] at e
    cases e1 : s.tree.minusInPlace dbg i.raw.denormalized with
    | error x => rw [e1] at e; cases e
    | ok t => rw [e1] at e; cases e; exact ih.minusInPlace (RawInterval.denorm_wf (Interval.obtainable_nf hi)) e1
  | @intersectInPlace dbg s i s' _ hi e ih =>
    rw [Selection.intersectInPlace] at e
    cases e1 : s.tree.intersectInPlace dbg i.raw.denormalized with
    | error x => rw [e1] at e; cases e
    | ok t => rw [e1] at e; cases e; exact ih.intersectInPlace (RawInterval.denorm_wf (Interval.obtainable_nf hi)) e1
  | extend _ hi e ih => exact fold id _ _ _ hi ih e
  | fromIntervals hi e => exact fold id _ _ _ hi .new e
  | fromPoints e => exact fold Interval.point _ _ _ (fun i _ => .point i) .new e
  | @union dbg a b s' _ _ e ha hb =>
    rw [Selection.union] at e
    cases e1 : a.tree.union dbg b.tree with
    | error x => rw [e1] at e; cases e
    | ok t => rw [e1] at e; cases e; exact ha.union hb e1
  | @minus dbg a b s' _ _ e ha hb =>
    rw [Selection.minus] at e
    cases e1 : a.tree.minus dbg b.tree with
    | error x => rw [e1] at e; cases e
    | ok t => rw [e1] at e; cases e; exact ha.minus hb e1
  | @intersect dbg a b s' _ _ e ha hb =>
    rw [Selection.intersect] at e
    cases e1 : a.tree.intersect dbg b.tree with
    | error x => rw [e1] at e; cases e
    | ok t => rw [e1] at e; cases e; exact ha.intersect hb e1
  | @complement dbg s s' _ e ih =>
    rw [Selection.complement] at e
    cases e1 : s.tree.complement dbg with
    | error x => rw [e1] at e; cases e
    | ok t => rw [e1] at e; cases e; exact ih.complement e1
  | unionPanic _ hi e ih => exact ih.unionPanic (RawInterval.denorm_wf (Interval.obtainable_nf hi)) e
  | minusPanic _ hi e ih => exact ih.minusPanic (RawInterval.denorm_wf (Interval.obtainable_nf hi)) e
  | intersectPanic _ hi e ih => exact ih.intersectPanic (RawInterval.denorm_wf (Interval.obtainable_nf hi)) e
  | @extendPanic dbg s is p t _ hi e ih =>
    have key : ∀ (is : List (Interval α)) (a : TineTree α), a.Any → (∀ i ∈ is, i.Obtainable) →
        is.foldlM (fun t i => TineTree.unionInPlaceU dbg t i.raw.denormalized) a = .error (p, t) → t.Any := by
      intro is
      induction is with
      | nil => intro a _ _ e; cases e
      | cons i is ih =>
        intro a ha hi e
        have hw := RawInterval.denorm_wf (Interval.obtainable_nf (hi i (.head _)))
        rw [List.foldlM_cons] at e
        cases e1 : TineTree.unionInPlaceU dbg a i.raw.denormalized with
        | error x => rw [e1] at e; cases e; exact ha.unionPanic hw e1
        | ok b =>
          rw [e1] at e
          have e2 := TineTree.unionInPlaceU_forget dbg a i.raw.denormalized
          rw [e1] at e2
          exact ih b (ha.unionInPlace hw e2.symm) (fun j hj => hi j (.tail _ hj)) e
    exact key is s.tree ih hi e

/-- **C115.**  The same for the tree of a selection. -/
theorem C115_selection_sorted (s : Selection α) (hs : s.Any) :
    (s.tree.Pairwise fun a b => a.cmp b = .lt) ∧ ∀ x ∈ s.tree,
      (∀ y ∈ s.tree, (x.cmp? y).isSome = true) ∧
      ∀ i : Interval α, i.Obtainable → ∀ y ∈ Tine.fromRawInterval i.raw.denormalized,
        (x.cmp? y).isSome = true ∧ (y.cmp? x).isSome = true := by
  have h := C115_sorted s.tree (Selection.any_tree hs)
  exact ⟨h.1, fun x hx => ⟨(h.2 x hx).1, fun i hi => (h.2 x hx).2 _ (RawInterval.denorm_wf (Interval.obtainable_nf hi))⟩⟩

/-- The hypothesis holds for a corrupt selection. -/
theorem Selection.any_corrupt : ∃ s : Selection U8, s.Any ∧ ¬ s.Reachable := by
  obtain ⟨a, b, s, ha, hb, e, -, hn⟩ := C93_complement_needed
  have key : ∀ {s : Selection U8}, s.Built → s.Any := by
    intro s h
    induction h with
    | new => exact .new
    | full => exact .full
    | ofInterval h => exact .ofInterval h
    | unionInPlace _ hi e ih => exact .unionInPlace ih hi e
    | minusInPlace _ hi e ih => exact .minusInPlace ih hi e
    | intersectInPlace _ hi e ih => exact .intersectInPlace ih hi e
    | extend _ hi e ih => exact .extend ih hi e
    | fromIntervals hi e => exact .fromIntervals hi e
    | fromPoints e => exact .fromPoints e
    | union _ _ e ha hb => exact .union ha hb e
    | minus _ _ e ha hb => exact .minus ha hb e
    | intersect _ _ e ha hb => exact .intersect ha hb e
    | complement _ e ih => exact .complement ih e
  exact ⟨s, key (.minus (C93_selection_includes a ha) (C93_selection_includes b hb) e), hn⟩

example : ∃ s : Selection U8, s.Any ∧ ¬ s.Reachable := Selection.any_corrupt

end Sel

section Serde
variable {α : Type} [LinearOrder α] [Serde α] [LawfulSerde α]

/-- **C84.**  A tree of any history, corrupt ones included, is read back as it was written. -/
theorem C84_any_tree (t : TineTree α) (ht : t.Any) : TineTree.de t.ser = .ok (some t) :=
  TineTree.deAux_ser (a := []) (TT.any_neat ht).1

example : TineTree.Any (α := U8) [.point (.excl (u8 2)), .upper .inf] := by
  have h : TineTree.Any (α := U8) [.lower (.excl (u8 1)), .point (.excl (u8 2)), .upper .inf] :=
    .fromIter (dbg := false) (is := [.opn (u8 1) (u8 2), .upFrom (u8 2)]) (by
      intro i hi
      rcases List.mem_pair.1 hi with rfl | rfl <;> decide) (by decide)
  exact h.minusInPlace (dbg := false) (i := .point (u8 1)) trivial (by decide)

omit [Serde α] [LawfulSerde α] in
theorem BSet.insert?_exact {x : Tine α} {t : List (Tine α)} (hx : x.Ok) (ht : TT.Sorted t) :
    ∃ t', BSet.insert? x t = .ok t' ∧ TT.Sorted t' ∧
      ∀ y, y ∈ t' ↔ y ∈ t ∨ (y = x ∧ ∀ z ∈ t, z.key ≠ x.key) := by
  obtain ⟨t', h1, h2, -⟩ := BSet.insert?_sorted hx ht
  refine ⟨t', h1, h2, ?_⟩
  clear h2
  induction t generalizing t' with
  | nil => cases h1; simp
  | cons z t ih =>
    have hz := ht.1 z (.head _)
    have hp := List.pairwise_cons.1 ht.2
    rw [BSet.insert?, Tine.cmp?_eq hx hz] at h1
    intro y
    split_ifs at h1 with c1 c2
    · cases h1
      have : ∀ w ∈ z :: t, w.key ≠ x.key := by
        intro w hw
        rcases List.mem_cons.1 hw with rfl | hw
        · exact c1.ne'
        · exact (c1.trans (hp.1 w hw)).ne'
      rw [List.mem_cons]
      constructor
      · rintro (h | h)
        · exact .inr ⟨h, this⟩
        · exact .inl h
      · rintro (h | h)
        · exact .inr h
        · exact .inl h.1
    · cases h1
      exact ⟨.inl, fun h => h.resolve_right fun h => h.2 z (.head _) c2.symm⟩
    · obtain ⟨s, h3, -, -⟩ := BSet.insert?_sorted hx (t := t) ⟨fun w hw => ht.1 w (.tail _ hw), hp.2⟩
      have h4 := ih ⟨fun w hw => ht.1 w (.tail _ hw), hp.2⟩ s h3 y
      rw [h3] at h1
      cases h1
      rw [List.mem_cons, h4, List.mem_cons, List.forall_mem_cons]
      constructor
      · rintro (h | h | h)
        · exact .inl (.inl h)
        · exact .inl (.inr h)
        · exact .inr ⟨h.1, fun e => c2 e.symm, h.2⟩
      · rintro ((h | h) | h)
        · exact .inl h
        · exact .inr (.inl h)
        · exact .inr (.inr ⟨h.1, h.2.2⟩)

/-- **C84.**  What is read from tines in any order, repeated or at the same place: of those at the same place the first
one, and these in ascending order. -/
theorem C84_any_data (xs : List (Tine α)) (hx : .point .inf ∉ xs) :
    ∃ t, TineTree.de (xs.map Tine.ser) = .ok (some t) ∧ (t.Pairwise fun a b => a.cmp b = .lt) ∧
      ∀ x, x ∈ t ↔ ∃ pre post, xs = pre ++ x :: post ∧ ∀ y ∈ pre, y.cmp x ≠ .eq := by
  have hk : ∀ x ∈ xs, Tine.Ok x := by
    rintro x h rfl
    exact hx h
  have key : ∀ (xs a : List (Tine α)), (∀ x ∈ xs, Tine.Ok x) → TT.Sorted a →
      ∃ t, TineTree.deAux (xs.map Tine.ser) a = .ok (some t) ∧ TT.Sorted t ∧
        ∀ x, x ∈ t ↔ x ∈ a ∨ ((∀ y ∈ a, y.key ≠ x.key) ∧
          ∃ pre post, xs = pre ++ x :: post ∧ ∀ y ∈ pre, y.key ≠ x.key) := by
    intro xs
    induction xs with
    | nil => intro a _ ha; exact ⟨a, rfl, ha, by simp⟩
    | cons z xs ih =>
      intro a hk ha
      obtain ⟨b, h1, h2, h3⟩ := BSet.insert?_exact (hk z (.head _)) ha
      obtain ⟨t, h4, h5, h6⟩ := ih b (fun x h => hk x (.tail _ h)) h2
      refine ⟨t, ?_, h5, fun x => ?_⟩
      · rw [List.map_cons, TineTree.deAux, Tine.de_ser]
        show (do TineTree.deAux (xs.map Tine.ser) (← BSet.insert? z a)) = _
        rw [h1]
        exact h4
      rw [h6, h3]
      constructor
      · rintro ((h | ⟨rfl, h⟩) | ⟨h, pre, post, rfl, h'⟩)
        · exact .inl h
        · exact .inr ⟨h, [], xs, rfl, by simp⟩
        · refine .inr ⟨fun y hy => h y ((h3 y).2 (.inl hy)), z :: pre, post, rfl, fun y hy => ?_⟩
          rcases List.mem_cons.1 hy with rfl | hy
          · by_cases hm : ∀ w ∈ a, w.key ≠ y.key
            · exact h y ((h3 y).2 (.inr ⟨rfl, hm⟩))
            · push Not at hm
              obtain ⟨w, hw, e⟩ := hm
              rw [← e]
              exact h w ((h3 w).2 (.inl hw))
          · exact h' y hy
      · rintro (h | ⟨h, pre, post, e, h'⟩)
        · exact .inl (.inl h)
        · cases pre with
          | nil => cases e; exact .inl (.inr ⟨rfl, h⟩)
          | cons w pre =>
            cases e
            refine .inr ⟨fun y hy => ?_, pre, post, rfl, fun y hy => h' y (.tail _ hy)⟩
            rcases (h3 y).1 hy with hy | ⟨rfl, -⟩
            · exact h y hy
            · exact h' y (.head _)
  obtain ⟨t, h1, h2, h3⟩ := key xs [] hk TT.sorted_nil
  refine ⟨t, h1, h2.2.imp_of_mem fun ha hb hab => Tine.cmp_lt (h2.1 _ ha) (h2.1 _ hb) hab, fun x => ?_⟩
  rw [h3]
  have ne : ∀ y x : Tine α, y.Ok → x.Ok → (y.key ≠ x.key ↔ y.cmp x ≠ .eq) := by
    intro y x hy hx
    rcases lt_trichotomy y.key x.key with h | h | h
    · simp [Tine.cmp_lt hy hx h, h.ne]
    · simp [Tine.cmp_eq hy hx h, h]
    · simp [Tine.cmp_gt hy hx h, h.ne']
  constructor
  · rintro (h | ⟨-, pre, post, rfl, h⟩)
    · cases h
    · exact ⟨pre, post, rfl, fun y hy => (ne y x (hk y (by simp [hy])) (hk x (by simp))).1 (h y hy)⟩
  · rintro ⟨pre, post, rfl, h⟩
    exact .inr ⟨by simp, pre, post, rfl, fun y hy => (ne y x (hk y (by simp [hy])) (hk x (by simp))).2 (h y hy)⟩

example : TineTree.de (α := U8) (([.upper (.excl (u8 9)), .lower (.incl (u8 3)), .upper (.incl (u8 9))] : List (Tine U8)).map
    Tine.ser) = .ok (some [.lower (.incl (u8 3)), .upper (.excl (u8 9))]) := by decide

/-- **C84.**  So the tines of a tree of any history may come in any order. -/
theorem C84_shuffled (t : TineTree α) (ht : t.Any) (xs : List (Tine α)) (h : xs.Perm t) :
    TineTree.de (xs.map Tine.ser) = .ok (some t) := by
  have hn := TT.any_neat ht
  obtain ⟨t', h1, h2, h3⟩ := C84_any_data xs fun hm => hn.2 _ (h.subset hm) rfl
  have inj : ∀ x ∈ t, ∀ y ∈ t, x ≠ y → x.key ≠ y.key := by
    have hp : t.Pairwise fun a b => a.key ≠ b.key := hn.1.2.imp fun h => h.ne
    have : Std.Symm fun a b : Tine α => a.key ≠ b.key := ⟨fun _ _ h => h.symm⟩
    exact fun x hx y hy => hp.forall hx hy
  have nd : ∀ l : List (Tine α), l.Pairwise (fun a b => a.key < b.key) → l.Nodup := fun l hl =>
    hl.imp fun {a b} h (e : a = b) => h.ne (congrArg _ e)
  have hnd : xs.Nodup := h.nodup_iff.2 (nd t hn.1.2)
  have hmem : ∀ x, x ∈ t' ↔ x ∈ t := by
    intro x
    rw [h3, ← h.mem_iff]
    constructor
    · rintro ⟨pre, post, rfl, -⟩; simp
    · intro hx
      obtain ⟨pre, post, rfl⟩ := List.append_of_mem hx
      refine ⟨pre, post, rfl, fun y hy e => ?_⟩
      have hy' : y ∈ t := h.subset (by simp [hy])
      have hx' : x ∈ t := h.subset (by simp)
      have hyx : y ≠ x := fun e => by
        subst e
        exact (List.nodup_append.1 hnd).2.2 y hy y (.head _) rfl
      rcases lt_trichotomy y.key x.key with hk | hk | hk
      · rw [Tine.cmp_lt (hn.2 _ hy') (hn.2 _ hx') hk] at e; cases e
      · exact inj y hy' x hx' hyx hk
      · rw [Tine.cmp_gt (hn.2 _ hy') (hn.2 _ hx') hk] at e; cases e
  have hs' : t'.Pairwise fun a b => a.key < b.key := h2.imp_of_mem fun {a b} ha hb hab => by
    have ka := hn.2 _ ((hmem a).1 ha)
    have kb := hn.2 _ ((hmem b).1 hb)
    rcases lt_trichotomy a.key b.key with hk | hk | hk
    · exact hk
    · rw [Tine.cmp_eq ka kb hk] at hab; cases hab
    · rw [Tine.cmp_gt ka kb hk] at hab; cases hab
  have hp : t'.Perm t := (List.perm_ext_iff_of_nodup (nd t' hs') (nd t hn.1.2)).2 hmem
  rw [h1, hp.eq_of_pairwise (fun a b _ _ hab hba => absurd hba hab.asymm) hs' hn.1.2]

example : ([.upper .inf, .point (.excl 2), .lower (.excl 1)] : List (Tine Int)).Perm
    (TineTree.demo [.opn 1 2, .upFrom 2]) := by decide

/-- **C84.**  So is a selection of any history. -/
theorem C84_any_selection [_root_.NI.Finite α] [LawfulFinite α] (s : Selection α) (hs : s.Any) :
    Selection.de s.ser = .ok (some s) := by
  rw [Selection.de, Selection.ser, TineTree.ser]
  have := TineTree.deAux_ser (a := []) (b := s.tree) (TT.any_neat (Selection.any_tree hs)).1
  rw [TineTree.de, this]
  rfl

example : ∃ s : Selection U8, s.Any ∧ ¬ s.Reachable := Selection.any_corrupt

end Serde
end NI
