import Verif.Lemmas.IsectAll

/-! # When `intersect_proper_interval` returns -/

set_option linter.unusedSimpArgs false
set_option linter.unusedVariables false
set_option linter.unnecessarySeqFocus false
set_option linter.unreachableTactic false
set_option linter.unusedTactic false

namespace NI
namespace TT
variable {α : Type} [LinearOrder α]
open BSet (Lt Gt At)

/-- The situations in which `intersect_proper_interval` does not panic. -/
def IsectGoes (dbg b a c d a2 e il iu : Bool) : Bool :=
  (c && d) ||
  (c && !d && b && !e && !(dbg && (a2 && iu))) ||
  (!c && d && !b && e && !(dbg && (a && il))) ||
  (!c && !d && !(dbg && (a && il)) && !(dbg && (a2 && iu)) &&
    ((!b && !e) || (!dbg && ((a && il) || (!b && !a)) && ((a2 && iu) || (!e && !a2)))))

theorem middle_ends {M : List (Tine α)} {c d : Bool} (cM : Chain c M d) :
    (TineTree.someAnd M.head? Tine.isUpperBound = c ∧
      TineTree.someAnd M.getLast? Tine.isLowerBound = d) ∨ (M = [] ∧ c = d) := by
  rcases M with _ | ⟨m, M⟩
  · exact .inr ⟨rfl, cM⟩
  · refine .inl ⟨cM.1, ?_⟩
    rcases List.eq_nil_or_concat (m :: M) with h | ⟨M', m', h⟩
    · simp at h
    · rw [List.concat_eq_append] at h
      rw [h] at cM ⊢
      obtain ⟨s, _, h2⟩ := chain_append.1 cM
      simp [TineTree.someAnd, Chain] at *
      exact h2.2

set_option maxHeartbeats 2000000 in
theorem intersectProper_goes (dbg : Bool) {t : TineTree α} {lb ub : Bound α}
    (hk : (Tine.lower lb).key < (Tine.upper ub).key)
    (w : Two t (Tine.lower lb).key (Tine.upper ub).key) :
    (∃ r, TineTree.intersectProper dbg t (.lower lb) (.upper ub) = .ok r) ↔
    IsectGoes dbg w.b w.a w.c w.d w.a2 w.e (Tine.lower lb).inclAt (Tine.upper ub).inclAt = true := by
  have hl : (Tine.lower lb).Ok := by simp [Tine.Ok]
  have hu : (Tine.upper ub).Ok := by simp [Tine.Ok]
  obtain ⟨A, M, B, b, a, c, d, a2, e, eq, fits, fits2, ltA, gtM, ltM, gtB, sA, sM, sB, cA, cM, cB⟩ := w
  have hs := interiorSplit_eq dbg hl hu hk
    ⟨A, M, B, b, a, c, d, a2, e, eq, fits, fits2, ltA, gtM, ltM, gtB, sA, sM, sB, cA, cM, cB⟩
  have hb := chain_last cA
  have he := chain_head cB
  have hM := middle_ends cM
  simp only [IsectGoes]
  have hs' : TineTree.interiorSplit dbg t (.lower lb) (.upper ub) = _ := hs
  simp only [TineTree.intersectProper, hs', hb, he, bind, Except.bind]
  clear hs hs' ltA gtM ltM gtB sA sM sB cA cM cB hb he eq
  rcases hM with ⟨hM1, hM2⟩ | ⟨rfl, rfl⟩
  · simp only [hM1, hM2]
    clear hM1 hM2
    rcases lb with x | x | _ <;> rcases ub with y | y | _ <;>
      cases b <;> cases a <;> cases c <;> cases d <;> cases a2 <;> cases e <;>
      (try simp [Fits, Tine.key] at fits fits2) <;> cases dbg <;>
      simp (config := {decide := true}) [edge, Tine.key, Tine.inclAt, Tine.intersect, Tine.asRef, Tine.intoInner,
        Bound.asRef, dassert, bind, Except.bind, TineTree.noneOr, Tine.isLowerBound, Tine.isUpperBound, pure,
        Except.pure]
  · rcases lb with x | x | _ <;> rcases ub with y | y | _ <;>
      cases b <;> cases a <;> cases c <;> cases a2 <;> cases e <;>
      (try simp [Fits, Tine.key] at fits fits2) <;> cases dbg <;>
      simp (config := {decide := true}) [edge, Tine.key, Tine.inclAt, Tine.intersect, Tine.asRef, Tine.intoInner,
        Bound.asRef, dassert, bind, Except.bind, TineTree.noneOr, Tine.isLowerBound, Tine.isUpperBound, pure,
        Except.pure, TineTree.someAnd]

/-- If nothing comes near either end, the ends of the interval are put around whatever lies between. -/
theorem intersectProper_apart (dbg : Bool) {t : TineTree α} {lb ub : Bound α}
    (hk : (Tine.lower lb).key < (Tine.upper ub).key)
    (w : Two t (Tine.lower lb).key (Tine.upper ub).key) (h1 : w.b = false) (h2 : w.a = false) (h3 : w.c = false)
    (h4 : w.d = false) (h5 : w.a2 = false) (h6 : w.e = false) :
    TineTree.intersectProper dbg t (.lower lb) (.upper ub) = .ok (.lower lb :: (w.M ++ [.upper ub])) := by
  have hl : (Tine.lower lb).Ok := by simp [Tine.Ok]
  have hu : (Tine.upper ub).Ok := by simp [Tine.Ok]
  have hs := interiorSplit_eq dbg hl hu hk w
  have em : ∀ k : Key α, edge k false false false = [] := fun k => by cases k <;> rfl
  have hb := chain_last w.cA
  have he := chain_head w.cB
  have hM := middle_ends w.cM
  rw [h1, h2, h3, h4, h5, h6, em, em] at hs
  rw [h1] at hb
  rw [h6] at he
  have i1 : BSet.insert (Tine.lower lb) w.M = .lower lb :: w.M := by
    simpa using BSet.insert_split hl (A := []) (B := w.M) (.nil _) w.gtM
  have i2 : BSet.insert (Tine.upper ub) (.lower lb :: w.M) = .lower lb :: (w.M ++ [.upper ub]) := by
    have : Lt (.lower lb :: w.M) (Tine.upper ub).key := by
      intro t ht
      rcases List.mem_cons.1 ht with rfl | ht
      · exact ⟨hl, hk⟩
      · exact w.ltM t ht
    simpa using BSet.insert_split hu (A := .lower lb :: w.M) (B := []) this (.nil _)
  have m1 : TineTree.someAnd w.M.head? Tine.isUpperBound = false ∧
      TineTree.someAnd w.M.getLast? Tine.isLowerBound = false := by
    rcases hM with ⟨g1, g2⟩ | ⟨g1, g2⟩
    · exact ⟨g1.trans h3, g2.trans h4⟩
    · rw [g1]; exact ⟨rfl, rfl⟩
  simp only [TineTree.intersectProper, hs, hb, he, m1, bind, Except.bind]
  cases dbg <;> simp [TineTree.noneOr, dassert, Tine.isLowerBound, Tine.isUpperBound, i1, i2, pure, Except.pure]

end TT
end NI
