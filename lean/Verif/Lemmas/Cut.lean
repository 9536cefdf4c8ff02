import Verif.SpecWalk
import Verif.Lemmas.Isect
import Verif.Lemmas.Ends
import Verif.Props.Selection

/-! # In-place intersection with an open interval, on trees whose intervals have open ends -/

set_option linter.unusedSimpArgs false
set_option linter.unusedVariables false
set_option linter.unnecessarySeqFocus false
set_option linter.unusedSectionVars false
set_option linter.unusedTactic false
set_option linter.unreachableTactic false

namespace NI
namespace TT
variable {α : Type} [LinearOrder α]
open BSet (Lt Gt At)

set_option maxHeartbeats 2000000 in
/-- With excluded ends, at which the tree has excluded ends only, a result other than the expected one
is the interval itself laid around what was inside. -/
theorem intersectProper_open (dbg : Bool) {t : TineTree α} {lb ub : Bound α}
    (hk : (Tine.lower lb).key < (Tine.upper ub).key)
    (w : Two t (Tine.lower lb).key (Tine.upper ub).key)
    (hl : (Tine.lower lb).inclAt = false) (hu : (Tine.upper ub).inclAt = false)
    (ha : w.a = true → w.b = true ∧ w.c = true) (ha2 : w.a2 = true → w.d = true ∧ w.e = true)
    {r : TineTree α} (hr : TineTree.intersectProper dbg t (.lower lb) (.upper ub) = .ok r)
    (hg : IsectGood w.b w.a w.c w.d w.a2 w.e false false = false) :
    w.c = false ∧ w.d = false ∧ r = .lower lb :: (w.M ++ [.upper ub]) := by
  have hl' : (Tine.lower lb).Ok := by simp [Tine.Ok]
  have hu' : (Tine.upper ub).Ok := by simp [Tine.Ok]
  obtain ⟨A, M, B, b, a, c, d, a2, e, eq, fits, fits2, ltA, gtM, ltM, gtB, sA, sM, sB, cA, cM, cB⟩ := w
  have hs := interiorSplit_eq dbg hl' hu' hk
    ⟨A, M, B, b, a, c, d, a2, e, eq, fits, fits2, ltA, gtM, ltM, gtB, sA, sM, sB, cA, cM, cB⟩
  have hb := chain_last cA
  have he := chain_head cB
  have hM : (TineTree.someAnd M.head? Tine.isUpperBound = c ∧
      TineTree.someAnd M.getLast? Tine.isLowerBound = d) ∨ (M = [] ∧ c = d) := by
    rcases M with _ | ⟨m, M⟩
    · exact .inr ⟨rfl, cM⟩
    · refine .inl ⟨cM.1, ?_⟩
      rcases List.eq_nil_or_concat (m :: M) with h | ⟨M', m', h⟩
      · simp at h
      · rw [List.concat_eq_append] at h
        rw [h] at cM ⊢
        obtain ⟨s, _, h2⟩ := chain_append.1 cM
        simp [TineTree.someAnd, Chain] at *
        exact h2.2
  have i1 : BSet.insert (Tine.lower lb) M = .lower lb :: M := by
    have := BSet.insert_split hl' (A := []) (B := M) (.nil _) gtM
    simpa using this
  have i3 : BSet.insert (Tine.upper ub) (.lower lb :: M) = .lower lb :: (M ++ [.upper ub]) := by
    have : Lt (.lower lb :: M) (Tine.upper ub).key := by
      intro t ht
      rcases List.mem_cons.1 ht with rfl | ht
      · exact ⟨hl', hk⟩
      · exact ltM t ht
    have := BSet.insert_split hu' (A := .lower lb :: M) (B := []) this (.nil _)
    simpa using this
  simp only [IsectGood] at hg
  have hs' : TineTree.interiorSplit dbg t (.lower lb) (.upper ub) = _ := hs
  simp only [TineTree.intersectProper, hs', hb, he, bind, Except.bind] at hr
  simp only at ha ha2 hg ⊢
  clear hs hs' ltA gtM ltM gtB sA sM sB cA cM cB hb he eq
  rcases hM with ⟨hM1, hM2⟩ | ⟨rfl, rfl⟩
  · simp only [hM1, hM2] at hr
    clear hM1 hM2
    rcases lb with x | x | _ <;> rcases ub with y | y | _ <;> (try simp [Tine.inclAt] at hl hu) <;>
      cases b <;> cases a <;> cases c <;> cases d <;> cases a2 <;> cases e <;>
      (try simp [Fits, Tine.key] at fits fits2) <;> (try simp at ha ha2 hg) <;> cases dbg <;>
      simp (config := {decide := true}) [edge, Tine.key, Tine.inclAt, Tine.intersect, Tine.asRef,
        Tine.intoInner, Bound.asRef, dassert, bind, Except.bind, TineTree.noneOr, Tine.isLowerBound,
        Tine.isUpperBound, pure, Except.pure, TineTree.insertIf, Tine.isPointExclude] at hr <;>
      (rw [i1, i3] at hr; exact ⟨rfl, rfl, hr.symm⟩)
  · rcases lb with x | x | _ <;> rcases ub with y | y | _ <;> (try simp [Tine.inclAt] at hl hu) <;>
      cases b <;> cases a <;> cases c <;> cases a2 <;> cases e <;>
      (try simp [Fits, Tine.key] at fits fits2) <;> (try simp at ha ha2 hg) <;> cases dbg <;>
      simp (config := {decide := true}) [edge, Tine.key, Tine.inclAt, Tine.intersect, Tine.asRef,
        Tine.intoInner, Bound.asRef, dassert, bind, Except.bind, TineTree.noneOr, Tine.isLowerBound,
        Tine.isUpperBound, pure, Except.pure, TineTree.insertIf, Tine.isPointExclude,
        TineTree.someAnd] at hr <;>
      (rw [i1, i3] at hr; exact ⟨rfl, rfl, hr.symm⟩)

end TT

section Sel
variable {α : Type} [LinearOrder α] [Finite α] [LawfulFinite α]
open Finite TT

/-- In a tree of open stretches a point has both its sides covered. -/
theorem TT.do_sides {t : TineTree α} (h : DO t) {x : α} (hx : tcov t false (.fin x) = true) :
    bef false t (.fin x) = true ∧ tcov t true (.fin x) = true := by
  have hx' : at' t x = true := hx
  refine ⟨?_, by rw [h.1, hx']; rfl⟩
  cases hp : pred x with
  | none => rw [bef_min hp, h.2, ← (LawfulFinite.pred_none x).1 hp, hx']
  | some y => rw [bef_pred hp, h.1, succ_of_pred hp, Option.elim, hx', Bool.or_true]

/-- The ends of an inserted interval, and what the tree has there. -/
theorem Selection.cutWell_iff (dbg : Bool) (s : Selection α) (hs : s.UnionBuilt) (l u : α)
    (hlu : l ≤ u) {lb ub : Bound α}
    (hf : Tine.fromRawInterval (Interval.mkClosed l u).raw.denormalized = [.lower lb, .upper ub]) :
    (Tine.lower lb).inclAt = false ∧ (Tine.upper ub).inclAt = false ∧
    (tcov s.tree false (Tine.lower lb).key = true → bef false s.tree (Tine.lower lb).key = true ∧
      tcov s.tree true (Tine.lower lb).key = true) ∧
    (tcov s.tree false (Tine.upper ub).key = true → bef false s.tree (Tine.upper ub).key = true ∧
      tcov s.tree true (Tine.upper ub).key = true) ∧
    (s.TouchesBelow dbg l ↔ tcov s.tree true (Tine.lower lb).key = true) ∧
    (IsectGood (bef false s.tree (Tine.lower lb).key) (tcov s.tree false (Tine.lower lb).key)
      (tcov s.tree true (Tine.lower lb).key) (bef false s.tree (Tine.upper ub).key)
      (tcov s.tree false (Tine.upper ub).key) (tcov s.tree true (Tine.upper ub).key)
      false false = true ↔ s.CutWell dbg l u) := by
  have v := Selection.reachable_valid hs.reachable
  have hd := hs.do
  have tb : ∀ x y, succ x = some y →
      (s.TouchesBelow dbg y ↔ tcov s.tree true (.fin x) = true) := by
    intro x y hy
    rw [hd.1, hy, Selection.TouchesBelow]
    simp only [Selection.mem_pts dbg v, pred_of_succ hy, Option.some.injEq, Option.elim,
      Bool.or_eq_true]
    constructor
    · rintro (h | ⟨p, h, rfl⟩); exacts [.inr h, .inl h]
    · rintro (h | h); exacts [.inr ⟨x, h, rfl⟩, .inl h]
  have tb0 : ∀ x, pred x = none → (s.TouchesBelow dbg x ↔ tcov s.tree true .bot = true) := by
    intro x hx
    rw [hd.2, Selection.TouchesBelow, hx, (LawfulFinite.pred_none x).1 hx]
    simp [Selection.mem_pts dbg v]
  have bb : ∀ x, (s.TouchesBelow dbg x ↔ bef false s.tree (.fin x) = true) := by
    intro x
    cases hp : pred x with
    | none => rw [tb0 x hp, bef_min hp]
    | some p => rw [tb p x (succ_of_pred hp), bef_pred hp]
  have ta : ∀ x, (s.TouchesAbove dbg x ↔ tcov s.tree true (.fin x) = true) := by
    intro x
    rw [hd.1, Selection.TouchesAbove]
    simp only [Selection.mem_pts dbg v, Bool.or_eq_true]
    cases succ x <;> simp
  have ba : ∀ x y, succ x = some y → (s.TouchesAbove dbg x ↔ bef false s.tree (.fin y) = true) := by
    intro x y hy
    rw [ta, bef_pred (pred_of_succ hy)]
  have ba0 : ∀ x, succ x = none → (s.TouchesAbove dbg x ↔ bef false s.tree .top = true) := by
    intro x hx
    rw [ta, bef_top, (LawfulFinite.succ_none x).1 hx]
  have b0 : bef false s.tree .bot = false := bef_ge fun t _ => not_lt.1 (Key.not_lt_bot _)
  have e0 : tcov s.tree true .top = false := cov_unreal v (by simp [RealPos])
  have a0 : tcov s.tree false .bot = false := cov_unreal v (by simp [RealPos])
  have a1 : tcov s.tree false .top = false := cov_unreal v (by simp [RealPos])
  have sd : ∀ x, tcov s.tree false (.fin x) = true →
    bef false s.tree (.fin x) = true ∧ tcov s.tree true (.fin x) = true := fun x => do_sides hd
  rw [Selection.closed_denorm hlu] at hf
  simp only [RawInterval.denormalized] at hf
  rw [Selection.CutWell]
  cases hp : pred l with
  | none =>
    rw [tb0 l hp]
    cases hq : succ u with
    | none =>
      rw [ba0 u hq]
      rw [hp, hq] at hf
      simp [Tine.fromRawInterval] at hf
      obtain ⟨rfl, rfl⟩ := hf
      simp only [Tine.key, Tine.inclAt, b0, e0, a0, a1, IsectGood]
      cases tcov s.tree true .bot <;> cases bef false s.tree .top <;> simp
    | some q =>
      rw [ba u q hq]
      rw [hp, hq] at hf
      simp [Tine.fromRawInterval] at hf
      obtain ⟨rfl, rfl⟩ := hf
      have := sd q
      simp only [Tine.key, Tine.inclAt, b0, a0, IsectGood, Option.some.injEq, exists_eq_left', ta,
        forall_eq']
      revert this
      cases tcov s.tree true .bot <;> cases bef false s.tree (.fin q) <;>
        cases tcov s.tree true (.fin q) <;> cases tcov s.tree false (.fin q) <;> simp
  | some p =>
    rw [tb p l (succ_of_pred hp)]
    cases hq : succ u with
    | none =>
      rw [ba0 u hq]
      rw [hp, hq] at hf
      simp [Tine.fromRawInterval] at hf
      obtain ⟨rfl, rfl⟩ := hf
      have := sd p
      simp only [Tine.key, Tine.inclAt, e0, a1, IsectGood, Option.some.injEq, exists_eq_left', bb,
        forall_eq']
      revert this
      cases tcov s.tree true (.fin p) <;> cases bef false s.tree .top <;>
        cases bef false s.tree (.fin p) <;> cases tcov s.tree false (.fin p) <;> simp
    | some q =>
      rw [ba u q hq]
      rw [hp, hq] at hf
      simp [Tine.fromRawInterval] at hf
      obtain ⟨rfl, rfl⟩ := hf
      have h1 := sd p
      have h2 := sd q
      simp only [Tine.key, Tine.inclAt, IsectGood, Option.some.injEq, exists_eq_left', bb, ta,
        forall_eq']
      revert h1 h2
      cases tcov s.tree true (.fin p) <;> cases bef false s.tree (.fin q) <;>
        cases bef false s.tree (.fin p) <;> cases tcov s.tree true (.fin q) <;>
        cases tcov s.tree false (.fin p) <;> cases tcov s.tree false (.fin q) <;> simp

end Sel
end NI
