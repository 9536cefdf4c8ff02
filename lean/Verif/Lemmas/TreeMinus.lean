import Verif.Lemmas.TreeCov

/-! # In-place difference and in-place intersection -/

set_option linter.unusedSimpArgs false
set_option linter.unusedVariables false
set_option linter.unnecessarySeqFocus false
set_option linter.unusedSectionVars false
set_option linter.unusedTactic false
set_option linter.unreachableTactic false

namespace NI
namespace TT
variable {α : Type _} [LinearOrder α]
open BSet (Lt Gt At)

/-- What `minus_proper_interval` computes: exact, except that at a hole (`b && !a && c`) lying on a
bound of the interval the missing point is *added*. -/
theorem minusProper_eq (dbg : Bool) {t : TineTree α} {lb ub : Bound α}
    (hk : (Tine.lower lb).key < (Tine.upper ub).key)
    (w : Two t (Tine.lower lb).key (Tine.upper ub).key) :
    TineTree.minusProper dbg t (.lower lb) (.upper ub) = .ok
      (w.A ++ edge (Tine.lower lb).key w.b
          ((w.a && !(Tine.lower lb).inclAt) || (w.b && !w.a && w.c)) false ++
        ([] ++ edge (Tine.upper ub).key false
          ((w.a2 && !(Tine.upper ub).inclAt) || (w.d && !w.a2 && w.e)) w.e ++ w.B)) := by
  have hl : (Tine.lower lb).Ok := by simp [Tine.Ok]
  have hu : (Tine.upper ub).Ok := by simp [Tine.Ok]
  obtain ⟨A, M, B, b, a, c, d, a2, e, eq, fits, fits2, ltA, gtM, ltM, gtB, sA, sM, sB, cA, cM, cB⟩ := w
  have hs := exteriorSplit_eq hl hu hk
    ⟨A, M, B, b, a, c, d, a2, e, eq, fits, fits2, ltA, gtM, ltM, gtB, sA, sM, sB, cA, cM, cB⟩
  have hb := chain_last cA
  have he := chain_head cB
  have i1 : ∀ x : Tine α, x.Ok → x.key = (Tine.lower lb).key →
      BSet.insert x (A ++ B) = A ++ x :: B := fun x hx hxk => by
    rw [insert_mid hx (hxk ▸ ltA) (hxk ▸ gtB.trans hk.le)]; simp
  have i2 : ∀ x : Tine α, x.Ok → x.key = (Tine.upper ub).key →
      BSet.insert x (A ++ B) = A ++ x :: B := fun x hx hxk => by
    rw [insert_mid hx (hxk ▸ ltA.trans hk.le) (hxk ▸ gtB)]; simp
  have i3 : ∀ x y : Tine α, x.Ok → x.key = (Tine.lower lb).key → y.Ok →
      y.key = (Tine.upper ub).key →
      BSet.insert y (A ++ x :: B) = A ++ x :: y :: B := fun x y hx hxk hy hyk => by
    have : Lt (A ++ [x]) y.key := by
      rw [hyk]; refine (ltA.trans hk.le).append ?_
      intro t ht; rw [List.mem_singleton] at ht; subst ht; exact ⟨hx, hxk ▸ hk⟩
    have e : A ++ x :: B = (A ++ [x]) ++ B := by simp
    rw [e, insert_mid hy this (hyk ▸ gtB)]; simp
  have i4 : ∀ x y : Tine α, x.Ok → x.key = (Tine.lower lb).key → y.Ok →
      y.key = (Tine.upper ub).key →
      BSet.insert x (A ++ y :: B) = A ++ x :: y :: B := fun x y hx hxk hy hyk => by
    have : Gt (y :: B) x.key := by
      rw [hxk]
      intro t ht
      rcases List.mem_cons.1 ht with rfl | ht
      · exact ⟨hy, hyk ▸ hk⟩
      · exact gtB.trans hk.le t ht
    exact BSet.insert_split hx (hxk ▸ ltA) this
  simp only [TineTree.minusProper, hs, hb, he]
  clear hs ltA gtM ltM gtB sA sM sB cA cM cB hb he eq
  rcases lb with x | x | _ <;> rcases ub with y | y | _ <;>
    cases b <;> cases a <;> cases c <;> cases d <;> cases a2 <;> cases e <;> cases dbg <;>
    (try simp [Fits, Tine.key] at fits fits2) <;>
    simp (config := {decide := true}) [edge, Tine.key, Tine.inclAt, Tine.minus, Tine.asRef, Tine.intoInner, Bound.asRef, dassert,
      bind, Except.bind, TineTree.noneOr, Tine.isLowerBound, Tine.isUpperBound, pure, Except.pure,
      TineTree.insertIf, Tine.isPointExclude, Tine.isPointInclude, TineTree.orInvert, Tine.invert] <;>
    first
    | (rw [i1, i3] <;> simp [Tine.Ok, Tine.key]; done)
    | (rw [i2, i4] <;> simp [Tine.Ok, Tine.key]; done)
    | (rw [i1] <;> simp [Tine.Ok, Tine.key]; done)
    | (rw [i2] <;> simp [Tine.Ok, Tine.key]; done)

/-- What `minus_point_interval` computes, when the point is not an excluded bound of the tree. -/
theorem minusPoint_eq (dbg : Bool) {t : TineTree α} {p : α} (o : One t (.fin p))
    (h : o.a = true ∨ (o.b = false ∧ o.c = false)) :
    TineTree.minusPoint dbg t (.point (.incl p)) =
      .ok (o.A ++ edge (.fin p) o.b false o.c ++ o.B) := by
  obtain ⟨A, B, b, a, c, eq, fits, ltA, gtB, sA, sB, cA, cB⟩ := o
  have hs := exteriorSplitPoint_eq (p := .point (.incl p)) (pincl_ok p)
    ⟨A, B, b, a, c, eq, fits, ltA, gtB, sA, sB, cA, cB⟩
  have hb := chain_last cA
  have hc := chain_head cB
  have i1 : ∀ x : Tine α, x.Ok → x.key = .fin p → BSet.insert x (A ++ B) = A ++ x :: B :=
    fun x hx hxk => BSet.insert_split hx (by rw [hxk]; exact ltA) (by rw [hxk]; exact gtB)
  simp only [TineTree.minusPoint, hs, hb, hc]
  simp only at h
  clear hs hb hc ltA gtB sA sB cA cB eq fits
  cases b <;> cases a <;> cases c <;> cases dbg <;> simp at h <;>
    simp (config := {decide := true}) [edge, Tine.key, Tine.inclAt, Tine.minus, Tine.asRef,
      Tine.intoInner, Bound.asRef, dassert, bind, Except.bind, Tine.isLowerBound,
      Tine.isUpperBound, pure, Except.pure, Tine.invert] <;>
    (rw [i1] <;> simp [Tine.Ok, Tine.key])

/-- The situations in which `intersect_proper_interval` is right.  The letters are those of `Two`;
`il`/`iu` say whether the interval includes its bounds. -/
def IsectGood (b a c d a2 e il iu : Bool) : Bool :=
  (c && d) ||
  (c && !d && b && !e && !(a2 && iu)) ||
  (!c && d && !b && e && !(a && il)) ||
  (!c && !d && !b && !e && !(a && il) && !(a2 && iu) && (a || a2))

theorem intersectProper_eq (dbg : Bool) {t : TineTree α} {lb ub : Bound α}
    (hk : (Tine.lower lb).key < (Tine.upper ub).key)
    (w : Two t (Tine.lower lb).key (Tine.upper ub).key)
    (hg : IsectGood w.b w.a w.c w.d w.a2 w.e (Tine.lower lb).inclAt (Tine.upper ub).inclAt = true) :
    TineTree.intersectProper dbg t (.lower lb) (.upper ub) = .ok
      ([] ++ edge (Tine.lower lb).key false (w.a && (Tine.lower lb).inclAt) w.c ++
        (w.M ++ edge (Tine.upper ub).key w.d (w.a2 && (Tine.upper ub).inclAt) false ++ [])) := by
  have hl : (Tine.lower lb).Ok := by simp [Tine.Ok]
  have hu : (Tine.upper ub).Ok := by simp [Tine.Ok]
  obtain ⟨A, M, B, b, a, c, d, a2, e, eq, fits, fits2, ltA, gtM, ltM, gtB, sA, sM, sB, cA, cM, cB⟩ := w
  have hs := interiorSplit_eq dbg hl hu hk
    ⟨A, M, B, b, a, c, d, a2, e, eq, fits, fits2, ltA, gtM, ltM, gtB, sA, sM, sB, cA, cM, cB⟩
  have hb := chain_last cA
  have he := chain_head cB
  have hM : (TineTree.someAnd M.head? Tine.isUpperBound = c ∧
      TineTree.someAnd M.getLast? Tine.isLowerBound = d) ∨ (M = [] ∧ c = d) := by
    rcases M with _ | ⟨m, M⟩
    · exact .inr ⟨rfl, cM⟩
    · refine .inl ⟨cM.1, ?_⟩
      rcases List.eq_nil_or_concat (m :: M) with h | ⟨M', m', h⟩
      · simp at h
      · rw [List.concat_eq_append] at h
        rw [h] at cM ⊢
        obtain ⟨s, _, h2⟩ := chain_append.1 cM
        simp [TineTree.someAnd, Chain] at *
        exact h2.2
  have i1 : ∀ x : Tine α, x.Ok → x.key = (Tine.lower lb).key →
      BSet.insert x M = x :: M := fun x hx hxk => by
    have := BSet.insert_split hx (A := []) (B := M) (.nil _) (hxk ▸ gtM)
    simpa using this
  have i2 : ∀ x : Tine α, x.Ok → x.key = (Tine.upper ub).key →
      BSet.insert x M = M ++ [x] := fun x hx hxk => by
    have := BSet.insert_split hx (A := M) (B := []) (hxk ▸ ltM) (.nil _)
    simpa using this
  have i3 : ∀ x y : Tine α, x.Ok → x.key = (Tine.lower lb).key → y.Ok →
      y.key = (Tine.upper ub).key →
      BSet.insert y (x :: M) = x :: (M ++ [y]) := fun x y hx hxk hy hyk => by
    have : Lt (x :: M) y.key := by
      rw [hyk]
      intro t ht
      rcases List.mem_cons.1 ht with rfl | ht
      · exact ⟨hx, hxk ▸ hk⟩
      · exact ltM t ht
    have := BSet.insert_split hy (A := x :: M) (B := []) this (.nil _)
    simpa using this
  simp only [IsectGood] at hg
  have hs' : TineTree.interiorSplit dbg t (.lower lb) (.upper ub) = _ := hs
  simp only [TineTree.intersectProper, hs', hb, he, bind, Except.bind]
  clear hs hs' ltA gtM ltM gtB sA sM sB cA cM cB hb he eq
  rcases hM with ⟨hM1, hM2⟩ | ⟨rfl, rfl⟩
  · simp only [hM1, hM2]
    clear hM1 hM2
    rcases lb with x | x | _ <;> rcases ub with y | y | _ <;>
      cases b <;> cases a <;> cases c <;> cases d <;> cases a2 <;> cases e <;>
      (try simp [Fits, Tine.key] at fits fits2) <;>
      simp [Tine.inclAt] at hg <;> cases dbg <;>
      simp (config := {decide := true}) [edge, Tine.key, Tine.inclAt, Tine.intersect, Tine.asRef, Tine.intoInner, Bound.asRef, dassert,
        bind, Except.bind, TineTree.noneOr, Tine.isLowerBound, Tine.isUpperBound, pure, Except.pure,
        TineTree.insertIf, Tine.isPointExclude] <;>
      first
      | (rw [i1, i3] <;> simp [Tine.Ok, Tine.key]; done)
      | (rw [i1] <;> simp [Tine.Ok, Tine.key]; done)
      | (rw [i2] <;> simp [Tine.Ok, Tine.key]; done)
  · rcases lb with x | x | _ <;> rcases ub with y | y | _ <;>
      cases b <;> cases a <;> cases c <;> cases a2 <;> cases e <;>
      (try simp [Fits, Tine.key] at fits fits2) <;>
      simp [Tine.inclAt] at hg <;> cases dbg <;>
      simp (config := {decide := true}) [edge, Tine.key, Tine.inclAt, Tine.intersect, Tine.asRef, Tine.intoInner, Bound.asRef, dassert,
        bind, Except.bind, TineTree.noneOr, Tine.isLowerBound, Tine.isUpperBound, pure, Except.pure,
        TineTree.insertIf, Tine.isPointExclude, TineTree.someAnd] <;>
      first
      | (rw [i1, i3] <;> simp [Tine.Ok, Tine.key]; done)
      | (rw [i1] <;> simp [Tine.Ok, Tine.key]; done)
      | (rw [i2] <;> simp [Tine.Ok, Tine.key]; done)

end TT
end NI
