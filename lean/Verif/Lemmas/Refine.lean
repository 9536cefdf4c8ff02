import Verif.SpecMore

/-!
# Builds with and without debug assertions

Every operation that completes in a build with debug assertions has the same outcome without them.
-/

set_option linter.all false

namespace NI

/-- Whenever `a` does not panic, `b` has the same outcome. -/
def Refines {β : Type _} (a b : Except Panic β) : Prop := ∀ r, a = .ok r → b = .ok r

namespace Refines
variable {β γ : Type _}
theorem refl (a : Except Panic β) : Refines a a := fun _ h => h
theorem bind {a b : Except Panic β} {f g : β → Except Panic γ} (h : Refines a b)
    (h' : ∀ x, Refines (f x) (g x)) : Refines (a >>= f) (b >>= g) := by
  intro r hr
  cases a with
  | error e => cases hr
  | ok x => rw [h x rfl]; exact h' x r hr
theorem dassert (c : Bool) : Refines (dassert true c) (dassert false c) := by
  cases c <;> intro r h
  · cases h
  · exact h
end Refines
variable {α : Type _} [LinearOrder α]

macro "mono1" : tactic => `(tactic| first
  | assumption
  | exact Refines.refl _
  | exact Refines.dassert _
  | (refine Refines.bind ?_ (fun _ => ?_))
  | (split <;> try simp only))

theorem Tine.union_ref (s o : Tine α) : Refines (s.union true o) (s.union false o) := by
  unfold Tine.union
  exact Refines.bind (Refines.dassert _) fun _ => Refines.refl _
theorem Tine.intersect_ref (s o : Tine α) : Refines (s.intersect true o) (s.intersect false o) := by
  unfold Tine.intersect
  exact Refines.bind (Refines.dassert _) fun _ => Refines.refl _
theorem Tine.minus_ref (s o : Tine α) : Refines (s.minus true o) (s.minus false o) := by
  unfold Tine.minus
  exact Refines.bind (Refines.dassert _) fun _ => Refines.refl _
theorem TineIter.nextWith_ref (x : Tine α) (it : TineIter α) : Refines (it.nextWith true x) (it.nextWith false x) := by
  unfold TineIter.nextWith
  repeat mono1
theorem TineIter.next_ref (it : TineIter α) : Refines (it.next true) (it.next false) := by
  unfold TineIter.next
  have := @nextWith_ref α _
  repeat (first | exact this _ _ | mono1)
theorem TineIter.nextBackWith_ref (x : Tine α) (it : TineIter α) : Refines (it.nextBackWith true x) (it.nextBackWith false x) := by
  unfold TineIter.nextBackWith
  repeat mono1
theorem TineIter.nextBack_ref (it : TineIter α) : Refines (it.nextBack true) (it.nextBack false) := by
  unfold TineIter.nextBack
  have := @nextBackWith_ref α _
  repeat (first | exact this _ _ | mono1)
theorem TineTree.unionPoint_ref (t : TineTree α) (p : Tine α) : Refines (t.unionPoint true p) (t.unionPoint false p) := by
  unfold TineTree.unionPoint
  have := @Tine.union_ref α _
  repeat (first | exact this _ _ | mono1)
theorem TineTree.unionProper_ref (t : TineTree α) (l u : Tine α) : Refines (t.unionProper true l u) (t.unionProper false l u) := by
  unfold TineTree.unionProper
  have := @Tine.union_ref α _
  refine Refines.bind (by repeat (first | exact this _ _ | mono1)) fun ml => ?_
  refine Refines.bind (by repeat (first | exact this _ _ | mono1)) fun mu => ?_
  refine Refines.bind (Refines.dassert _) fun _ => Refines.bind (Refines.dassert _) fun _ => ?_
  dsimp only
  generalize someAnd _ Tine.isLowerBound = ob
  generalize someAnd _ Tine.isUpperBound = ca
  cases ob <;> cases ml <;> cases mu <;> cases ca <;> dsimp only <;>
    repeat (first | exact this _ _ | mono1)
theorem TineTree.minusPoint_ref (t : TineTree α) (p : Tine α) : Refines (t.minusPoint true p) (t.minusPoint false p) := by
  unfold TineTree.minusPoint
  have := @Tine.minus_ref α _
  repeat (first | exact this _ _ | mono1)
theorem TineTree.minusProper_ref (t : TineTree α) (l u : Tine α) : Refines (t.minusProper true l u) (t.minusProper false l u) := by
  unfold TineTree.minusProper
  have := @Tine.minus_ref α _
  repeat (first | exact this _ _ | mono1)
theorem TineTree.interiorSplit_ref (t : TineTree α) (l u : Tine α) : Refines (t.interiorSplit true l u) (t.interiorSplit false l u) := by
  unfold TineTree.interiorSplit
  repeat mono1
theorem TineTree.intersectProper_ref (t : TineTree α) (l u : Tine α) : Refines (t.intersectProper true l u) (t.intersectProper false l u) := by
  unfold TineTree.intersectProper
  have := @Tine.intersect_ref α _
  have h := @interiorSplit_ref α _
  repeat (first | exact this _ _ | exact h _ _ _| mono1)

theorem Refines.foldlM {β γ : Type _} {f g : β → γ → Except Panic β} (h : ∀ b c, Refines (f b c) (g b c))
    (l : List γ) (b : β) : Refines (l.foldlM f b) (l.foldlM g b) := by
  induction l generalizing b with
  | nil => exact Refines.refl _
  | cons c l ih =>
    rw [List.foldlM_cons, List.foldlM_cons]
    exact Refines.bind (h b c) fun x => ih x
theorem TineTree.unionInPlace_ref (t : TineTree α) (i : RawInterval α) : Refines (t.unionInPlace true i) (t.unionInPlace false i) := by
  unfold TineTree.unionInPlace
  repeat (first | exact unionPoint_ref _ _ | exact unionProper_ref _ _ _ | mono1)
theorem TineTree.minusInPlace_ref (t : TineTree α) (i : RawInterval α) : Refines (t.minusInPlace true i) (t.minusInPlace false i) := by
  unfold TineTree.minusInPlace
  repeat (first | exact minusPoint_ref _ _ | exact minusProper_ref _ _ _ | mono1)
theorem TineIter.foldAux_ref {β : Type _} {f g : β → RawInterval α → Except Panic β}
    (h : ∀ b c, Refines (f b c) (g b c)) (n : Nat) (it : TineIter α) (acc : β) :
    Refines (foldAux true f n it acc) (foldAux false g n it acc) := by
  induction n generalizing it acc with
  | zero => exact Refines.refl _
  | succ n ih =>
    unfold foldAux
    refine Refines.bind (next_ref it) fun x => ?_
    rcases x with ⟨_ | i, it⟩
    · exact Refines.refl _
    · exact Refines.bind (h _ _) fun y => ih it y
theorem TineIter.collectBackAux_ref (n : Nat) (it : TineIter α) (acc : List (RawInterval α)) :
    Refines (collectBackAux true n it acc) (collectBackAux false n it acc) := by
  induction n generalizing it acc with
  | zero => exact Refines.refl _
  | succ n ih =>
    unfold collectBackAux
    refine Refines.bind (nextBack_ref it) fun x => ?_
    rcases x with ⟨_ | i, it⟩
    · exact Refines.refl _
    · exact ih it _
theorem TineIter.anyContains_ref (x : α) (n : Nat) (it : TineIter α) :
    Refines (anyContains true x n it) (anyContains false x n it) := by
  induction n generalizing it with
  | zero => exact Refines.refl _
  | succ n ih =>
    unfold anyContains
    refine Refines.bind (next_ref it) fun y => ?_
    rcases y with ⟨_ | i, it⟩
    · exact Refines.refl _
    · dsimp only
      split
      · exact Refines.refl _
      · exact ih it
namespace TineTree
theorem intervals_ref (t : TineTree α) : Refines (t.intervals true) (t.intervals false) :=
  TineIter.foldAux_ref (fun _ _ => Refines.refl _) _ _ _
theorem intervalsBack_ref (t : TineTree α) : Refines (t.intervalsBack true) (t.intervalsBack false) :=
  TineIter.collectBackAux_ref _ _ _
theorem contains_ref (t : TineTree α) (x : α) : Refines (t.contains true x) (t.contains false x) :=
  TineIter.anyContains_ref _ _ _
theorem complement_ref (t : TineTree α) : Refines (t.complement true) (t.complement false) := by
  unfold complement
  repeat mono1
theorem intersectInPlace_ref (t : TineTree α) (i : RawInterval α) : Refines (t.intersectInPlace true i) (t.intersectInPlace false i) := by
  unfold intersectInPlace
  repeat (first | exact contains_ref _ _ | exact intersectProper_ref _ _ _ | mono1)
theorem intersectSegment_ref (s : RawInterval α) (n : Nat) (o : TineIter α) (acc : TineTree α) :
    Refines (intersectSegment true s n o acc) (intersectSegment false s n o acc) := by
  induction n generalizing o acc with
  | zero => exact Refines.refl _
  | succ n ih =>
    unfold intersectSegment
    refine Refines.bind (TineIter.next_ref o) fun y => ?_
    rcases y with ⟨_ | i, o⟩
    · exact Refines.refl _
    · dsimp only
      split
      · exact Refines.refl _
      · exact Refines.bind (unionInPlace_ref _ _) fun a => ih o a
theorem intersectLoop_ref (n : Nat) (s o : TineIter α) (acc : TineTree α) :
    Refines (intersectLoop true n s o acc) (intersectLoop false n s o acc) := by
  induction n generalizing s o acc with
  | zero => exact Refines.refl _
  | succ n ih =>
    unfold intersectLoop
    refine Refines.bind (TineIter.next_ref s) fun y => ?_
    rcases y with ⟨_ | i, s⟩
    · exact Refines.refl _
    · refine Refines.bind (intersectSegment_ref _ _ _ _) fun y => ?_
      rcases y with ⟨_ | o, a⟩
      · exact Refines.refl _
      · exact ih s o a
theorem intersect_ref (a b : TineTree α) : Refines (a.intersect true b) (a.intersect false b) :=
  intersectLoop_ref _ _ _ _
theorem union_ref (a b : TineTree α) : Refines (a.union true b) (a.union false b) :=
  TineIter.foldAux_ref unionInPlace_ref _ _ _
theorem minus_ref (a b : TineTree α) : Refines (a.minus true b) (a.minus false b) :=
  TineIter.foldAux_ref minusInPlace_ref _ _ _
theorem enclose_ref (t : TineTree α) : Refines (t.enclose true) (t.enclose false) := by
  unfold enclose
  repeat mono1
theorem closure_ref (t : TineTree α) : Refines (t.closure true) (t.closure false) :=
  Refines.bind (enclose_ref t) fun _ => Refines.refl _
theorem fromIter_ref (is : List (RawInterval α)) : Refines (fromIter true is) (fromIter false is) :=
  Refines.foldlM unionInPlace_ref _ _
end TineTree

namespace Selection
theorem contains_ref (s : Selection α) (x : α) : Refines (s.contains true x) (s.contains false x) :=
  s.tree.contains_ref x
theorem intersects_ref (a b : Selection α) : Refines (a.intersects true b) (a.intersects false b) :=
  Refines.bind (a.tree.intersect_ref b.tree) fun _ => Refines.refl _
theorem complement_ref (s : Selection α) : Refines (s.complement true) (s.complement false) :=
  Refines.bind s.tree.complement_ref fun _ => Refines.refl _
theorem intersect_ref (a b : Selection α) : Refines (a.intersect true b) (a.intersect false b) :=
  Refines.bind (a.tree.intersect_ref b.tree) fun _ => Refines.refl _
theorem union_ref (a b : Selection α) : Refines (a.union true b) (a.union false b) :=
  Refines.bind (a.tree.union_ref b.tree) fun _ => Refines.refl _
theorem minus_ref (a b : Selection α) : Refines (a.minus true b) (a.minus false b) :=
  Refines.bind (a.tree.minus_ref b.tree) fun _ => Refines.refl _
variable [Finite α]
theorem enclose_ref (s : Selection α) : Refines (s.enclose true) (s.enclose false) :=
  Refines.bind s.tree.enclose_ref fun _ => Refines.refl _
theorem closure_ref (s : Selection α) : Refines (s.closure true) (s.closure false) :=
  Refines.bind s.tree.closure_ref fun _ => Refines.refl _
theorem intersectInPlace_ref (s : Selection α) (i : Interval α) :
    Refines (s.intersectInPlace true i) (s.intersectInPlace false i) :=
  Refines.bind (s.tree.intersectInPlace_ref _) fun _ => Refines.refl _
theorem unionInPlace_ref (s : Selection α) (i : Interval α) :
    Refines (s.unionInPlace true i) (s.unionInPlace false i) :=
  Refines.bind (s.tree.unionInPlace_ref _) fun _ => Refines.refl _
theorem minusInPlace_ref (s : Selection α) (i : Interval α) :
    Refines (s.minusInPlace true i) (s.minusInPlace false i) :=
  Refines.bind (s.tree.minusInPlace_ref _) fun _ => Refines.refl _
theorem extend_ref (s : Selection α) (is : List (Interval α)) :
    Refines (s.extend true is) (s.extend false is) :=
  Refines.foldlM (fun s _ => Refines.bind (s.tree.unionInPlace_ref _) fun _ => Refines.refl _) _ _
theorem fromIntervals_ref (is : List (Interval α)) :
    Refines (fromIntervals true is) (fromIntervals false is) :=
  Refines.foldlM (fun s _ => Refines.bind (s.tree.unionInPlace_ref _) fun _ => Refines.refl _) _ _
theorem fromPoints_ref (xs : List α) : Refines (fromPoints true xs) (fromPoints false xs) :=
  Refines.foldlM (fun s _ => Refines.bind (s.tree.unionInPlace_ref _) fun _ => Refines.refl _) _ _
theorem intervalNext_ref (it : TineIter α) : Refines (intervalNext true it) (intervalNext false it) :=
  Refines.bind it.next_ref fun _ => Refines.refl _
theorem intervalNextBack_ref (it : TineIter α) :
    Refines (intervalNextBack true it) (intervalNextBack false it) :=
  Refines.bind it.nextBack_ref fun _ => Refines.refl _
theorem intervals_ref (s : Selection α) : Refines (s.intervals true) (s.intervals false) := by
  unfold intervals
  generalize (TineIter.start s.tree).size = n
  generalize TineIter.start s.tree = it
  generalize ([] : List (Interval α)) = acc
  induction n generalizing it acc with
  | zero => exact Refines.refl _
  | succ n ih =>
    unfold intervalsAux
    refine Refines.bind (intervalNext_ref it) fun x => ?_
    rcases x with ⟨_ | i, it⟩
    · exact Refines.refl _
    · exact ih it _
theorem intervalsBack_ref (s : Selection α) : Refines (s.intervalsBack true) (s.intervalsBack false) := by
  unfold intervalsBack
  generalize (TineIter.start s.tree).size = n
  generalize TineIter.start s.tree = it
  generalize ([] : List (Interval α)) = acc
  induction n generalizing it acc with
  | zero => exact Refines.refl _
  | succ n ih =>
    unfold intervalsBackAux
    refine Refines.bind (intervalNextBack_ref it) fun x => ?_
    rcases x with ⟨_ | i, it⟩
    · exact Refines.refl _
    · exact ih it _
theorem lowerBound_ref (s : Selection α) : Refines (s.lowerBound true) (s.lowerBound false) :=
  Refines.bind (intervalNext_ref _) fun _ => Refines.refl _
theorem upperBound_ref (s : Selection α) : Refines (s.upperBound true) (s.upperBound false) :=
  Refines.bind (intervalNextBack_ref _) fun _ => Refines.refl _
theorem isBounded_ref (s : Selection α) : Refines (s.isBounded true) (s.isBounded false) := by
  unfold isBounded
  refine Refines.bind s.lowerBound_ref fun _ => ?_
  split
  · exact Refines.refl _
  · exact Refines.bind s.upperBound_ref fun _ => Refines.refl _
theorem isLeftBounded_ref (s : Selection α) : Refines (s.isLeftBounded true) (s.isLeftBounded false) :=
  Refines.bind s.lowerBound_ref fun _ => Refines.refl _
theorem isRightBounded_ref (s : Selection α) : Refines (s.isRightBounded true) (s.isRightBounded false) :=
  Refines.bind s.upperBound_ref fun _ => Refines.refl _
theorem isHalfBounded_ref (s : Selection α) : Refines (s.isHalfBounded true) (s.isHalfBounded false) :=
  Refines.bind s.isLeftBounded_ref fun _ => Refines.bind s.isRightBounded_ref fun _ => Refines.refl _
end Selection
theorem PointIter.next_ref [Finite α] (it : PointIter α) : Refines (it.next true) (it.next false) := by
  unfold PointIter.next
  refine Refines.bind (Refines.refl _) fun x => ?_
  rcases x with ⟨_ | x, c⟩
  · exact Refines.bind (Selection.intervalNext_ref _) fun _ => Refines.refl _
  · exact Refines.refl _
theorem PointIter.nextBack_ref [Finite α] (it : PointIter α) : Refines (it.nextBack true) (it.nextBack false) := by
  unfold PointIter.nextBack
  refine Refines.bind (Refines.refl _) fun x => ?_
  rcases x with ⟨_ | x, c⟩
  · exact Refines.bind (Selection.intervalNextBack_ref _) fun _ => Refines.refl _
  · exact Refines.refl _

/-! ## Programs and questions -/

theorem Refines.drive {σ β : Type _} {n n' b b' : σ → Except Panic (Option β × σ)}
    (hn : ∀ s, Refines (n s) (n' s)) (hb : ∀ s, Refines (b s) (b' s)) (cs : List IterCall) :
    ∀ s, Refines (NI.drive n b s cs) (NI.drive n' b' s cs) := by
  induction cs with
  | nil => exact fun s => Refines.refl _
  | cons c cs ih =>
    intro s
    cases c
    · exact Refines.bind (hn s) fun r => Refines.bind (ih _) fun _ => Refines.refl _
    · exact Refines.bind (hb s) fun r => Refines.bind (ih _) fun _ => Refines.refl _

variable [Finite α]

theorem SelProg.eval_ref (p : SelProg α) : Refines (p.eval true) (p.eval false) := by
  induction p with
  | empty => exact Refines.refl _
  | full => exact Refines.refl _
  | interval i => exact Refines.refl _
  | intervals is => exact Selection.fromIntervals_ref _
  | points xs => exact Selection.fromPoints_ref _
  | complement p ih => exact ih.bind fun _ => Selection.complement_ref _
  | union p q ih ih' => exact ih.bind fun _ => ih'.bind fun _ => Selection.union_ref _ _
  | intersect p q ih ih' => exact ih.bind fun _ => ih'.bind fun _ => Selection.intersect_ref _ _
  | minus p q ih ih' => exact ih.bind fun _ => ih'.bind fun _ => Selection.minus_ref _ _
  | unionIn p i ih => exact ih.bind fun _ => Selection.unionInPlace_ref _ _
  | minusIn p i ih => exact ih.bind fun _ => Selection.minusInPlace_ref _ _
  | intersectIn p i ih => exact ih.bind fun _ => Selection.intersectInPlace_ref _ _
  | extend p is ih => exact ih.bind fun _ => Selection.extend_ref _ _

theorem SelQuery.ask_ref (s : Selection α) (q : SelQuery α) :
    Refines (q.ask true s) (q.ask false s) := by
  cases q with
  | contains x => exact (Selection.contains_ref _ _).bind fun _ => Refines.refl _
  | intersects p =>
    exact p.eval_ref.bind fun _ => (Selection.intersects_ref _ _).bind fun _ => Refines.refl _
  | isEmpty => exact Refines.refl _
  | isFull => exact Refines.refl _
  | infimum => exact Refines.refl _
  | supremum => exact Refines.refl _
  | lowerBound => exact (Selection.lowerBound_ref _).bind fun _ => Refines.refl _
  | upperBound => exact (Selection.upperBound_ref _).bind fun _ => Refines.refl _
  | isBounded => exact (Selection.isBounded_ref _).bind fun _ => Refines.refl _
  | isLeftBounded => exact (Selection.isLeftBounded_ref _).bind fun _ => Refines.refl _
  | isRightBounded => exact (Selection.isRightBounded_ref _).bind fun _ => Refines.refl _
  | isHalfBounded => exact (Selection.isHalfBounded_ref _).bind fun _ => Refines.refl _
  | enclose => exact (Selection.enclose_ref _).bind fun _ => Refines.refl _
  | closure => exact (Selection.closure_ref _).bind fun _ => Refines.refl _
  | intervals => exact (Selection.intervals_ref _).bind fun _ => Refines.refl _
  | intervalsBack => exact (Selection.intervalsBack_ref _).bind fun _ => Refines.refl _
  | points cs =>
    exact (Refines.drive PointIter.next_ref PointIter.nextBack_ref cs _).bind fun _ => Refines.refl _
  | walk cs =>
    exact (Refines.drive Selection.intervalNext_ref Selection.intervalNextBack_ref cs _).bind
      fun _ => Refines.refl _

end NI
