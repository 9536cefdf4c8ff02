import Verif.Lemmas.Unwind
import Verif.Lemmas.Cut

/-! # Every proper result of in-place intersection -/

set_option linter.unusedSimpArgs false
set_option linter.unusedVariables false
set_option linter.unusedSectionVars false
set_option linter.unnecessarySeqFocus false
set_option linter.unusedTactic false
set_option linter.unreachableTactic false

namespace NI
namespace TT
variable {α : Type} [LinearOrder α]
open BSet (Lt Gt At)

theorem Tine.intersect_key {dbg : Bool} {s o m : Tine α} (hs : s.Ok) (ho : o.Ok) (hk : s.key = o.key)
    (h : s.intersect dbg o = .ok (some m)) : m.Ok ∧ m.key = o.key := by
  unfold Tine.intersect at h
  simp only [dassert, bind, Except.bind] at h
  split at h
  · cases h
  · split at h <;> simp only [Except.ok.injEq, Option.some.injEq, reduceCtorEq] at h <;> subst h <;>
      simp_all [Tine.Ok, Tine.key]

/-- The tines that a merge at an end can leave. -/
theorem mergedTine_key {dbg : Bool} {k : Key α} {b a c : Bool} {x m : Tine α} (hx : x.Ok) (hk : x.key = k)
    (h : (match (edge k b a c).head? with
      | some y => y.intersect dbg x
      | none => .ok (some x) : Except Panic (Option (Tine α))) = .ok (some m)) : m.Ok ∧ m.key = k := by
  cases hh : (edge k b a c).head? with
  | none =>
    rw [hh] at h
    cases h
    exact ⟨hx, hk⟩
  | some y =>
    rw [hh] at h
    have := edge_at k b a c y (List.mem_of_mem_head? hh)
    obtain ⟨h1, h2⟩ := Tine.intersect_key this.1 hx (this.2.trans hk.symm) h
    exact ⟨h1, h2.trans hk⟩

/-- What `intersect_proper_interval` returns is what was strictly inside, with at most one tine at each end. -/
theorem intersectProper_shape (dbg : Bool) {t : TineTree α} {lb ub : Bound α}
    (hk : (Tine.lower lb).key < (Tine.upper ub).key)
    (w : Two t (Tine.lower lb).key (Tine.upper ub).key)
    {r : TineTree α} (hr : TineTree.intersectProper dbg t (.lower lb) (.upper ub) = .ok r) :
    ∃ o1 o2 : Option (Tine α), r = o1.toList ++ (w.M ++ o2.toList) ∧
      (∀ x ∈ o1, x.Ok ∧ x.key = (Tine.lower lb).key) ∧ ∀ x ∈ o2, x.Ok ∧ x.key = (Tine.upper ub).key := by
  have hl : (Tine.lower lb).Ok := by simp [Tine.Ok]
  have hu : (Tine.upper ub).Ok := by simp [Tine.Ok]
  have hs := interiorSplit_eq dbg hl hu hk w
  have i1 : ∀ x : Tine α, x.Ok ∧ x.key = (Tine.lower lb).key →
      BSet.insert x w.M = x :: w.M := fun x hx => by
    have := BSet.insert_split hx.1 (A := []) (B := w.M) (.nil _) (by rw [hx.2]; exact w.gtM)
    simpa using this
  have i2 : ∀ x : Tine α, x.Ok ∧ x.key = (Tine.upper ub).key →
      BSet.insert x w.M = w.M ++ [x] := fun x hx => by
    have := BSet.insert_split hx.1 (A := w.M) (B := []) (by rw [hx.2]; exact w.ltM) (.nil _)
    simpa using this
  have i3 : ∀ x y : Tine α, x.Ok ∧ x.key = (Tine.lower lb).key → y.Ok ∧ y.key = (Tine.upper ub).key →
      BSet.insert y (x :: w.M) = x :: (w.M ++ [y]) := fun x y hx hy => by
    have : Lt (x :: w.M) y.key := by
      rw [hy.2]
      intro t ht
      rcases List.mem_cons.1 ht with rfl | ht
      · exact ⟨hx.1, hx.2 ▸ hk⟩
      · exact w.ltM t ht
    have := BSet.insert_split hy.1 (A := x :: w.M) (B := []) this (.nil _)
    simpa using this
  simp only [TineTree.intersectProper, hs, bind, Except.bind] at hr
  split at hr
  · cases hr
  rename_i ml hml
  split at hr
  · cases hr
  rename_i mu hmu
  split at hr
  · cases hr
  split at hr
  · cases hr
  have kl : ∀ x, ml = some x → x.Ok ∧ x.key = (Tine.lower lb).key := by
    rintro x rfl; exact mergedTine_key hl rfl hml
  have ku : ∀ x, mu = some x → x.Ok ∧ x.key = (Tine.upper ub).key := by
    rintro x rfl; exact mergedTine_key hu rfl hmu
  clear hml hmu hs
  generalize TineTree.someAnd w.A.getLast? Tine.isLowerBound = b0,
    TineTree.someAnd w.B.head? Tine.isUpperBound = b5, TineTree.someAnd w.M.head? Tine.isUpperBound = b1,
    TineTree.someAnd w.M.getLast? Tine.isLowerBound = b4 at hr
  have none1 : ∀ x ∈ (none : Option (Tine α)), x.Ok ∧ x.key = (Tine.lower lb).key := by simp
  have none2 : ∀ x ∈ (none : Option (Tine α)), x.Ok ∧ x.key = (Tine.upper ub).key := by simp
  cases ml <;> cases mu <;> cases b0 <;> cases b1 <;> cases b4 <;> cases b5 <;> cases hr <;>
    first
    | exact ⟨some _, some _, by rw [i1 _ (kl _ rfl), i3 _ _ (kl _ rfl) (ku _ rfl)]; rfl, kl, ku⟩
    | exact ⟨some _, none, by rw [i1 _ (kl _ rfl)]; simp, kl, none2⟩
    | exact ⟨none, some _, by rw [i2 _ (ku _ rfl)]; simp, none1, ku⟩
    | exact ⟨none, none, by simp, none1, none2⟩

theorem toList_edge {o : Option (Tine α)} {k : Key α} (h : ∀ x ∈ o, x.Ok ∧ x.key = k) {s e : Bool}
    (hc : Chain s o.toList e) (hse : s = false ∨ e = false) : ∃ x, o.toList = edge k s x e ∧ Fits k s x e := by
  cases o with
  | none =>
    cases (show s = e from hc)
    have hs : s = false := hse.elim id id
    subst hs
    exact ⟨false, by cases k <;> rfl, by cases k <;> simp [Fits]⟩
  | some y =>
    obtain ⟨h1, rfl⟩ := h y rfl
    obtain ⟨h2, h3⟩ := edge_self h1
    obtain ⟨c1, c2⟩ := hc
    cases (show y.isLowerBound = e from c2)
    rw [c1] at h2 h3
    exact ⟨y.inclAt, h2, h3⟩

set_option maxHeartbeats 1000000 in
/-- If nothing is strictly inside and the result covers it all the same, nothing touches the interval. -/
theorem intersectProper_around (dbg : Bool) {t : TineTree α} {lb ub : Bound α}
    (hk : (Tine.lower lb).key < (Tine.upper ub).key)
    (w : Two t (Tine.lower lb).key (Tine.upper ub).key) (hM : w.M = []) (hc : w.c = false) (hd : w.d = false)
    {x y : Bool} (hr : TineTree.intersectProper dbg t (.lower lb) (.upper ub) =
      .ok (edge (Tine.lower lb).key false x true ++ ([] ++ edge (Tine.upper ub).key true y false))) :
    w.b = false ∧ w.a = false ∧ w.a2 = false ∧ w.e = false ∧
      (∀ p, (Tine.lower lb).key = .fin p → x = (Tine.lower lb).inclAt) ∧
      ∀ p, (Tine.upper ub).key = .fin p → y = (Tine.upper ub).inclAt := by
  have hl : (Tine.lower lb).Ok := by simp [Tine.Ok]
  have hu : (Tine.upper ub).Ok := by simp [Tine.Ok]
  have hs := interiorSplit_eq dbg hl hu hk w
  have hb := chain_last w.cA
  have he := chain_head w.cB
  rw [hM, hc, hd] at hs
  have i3 : ∀ p q : Tine α, p.key = (Tine.lower lb).key → q.Ok → q.key = (Tine.upper ub).key →
      p.Ok → BSet.insert q [p] = [p, q] := fun p q hpk hq hqk hp => by
    have : Lt [p] q.key := by
      rw [hqk]
      intro t ht
      rcases List.mem_cons.1 ht with rfl | ht
      · exact ⟨hp, hpk ▸ hk⟩
      · cases ht
    have := BSet.insert_split hq (A := [p]) (B := []) this (.nil _)
    simpa using this
  have f1 := w.fits
  have f2 := w.fits2
  have hs' : TineTree.interiorSplit dbg t (.lower lb) (.upper ub) = _ := hs
  simp only [TineTree.intersectProper, hs', hb, he, bind, Except.bind] at hr
  rw [hc] at f1
  rw [hd] at f2
  generalize w.b = b, w.a = a, w.a2 = a2, w.e = e at hr f1 f2 ⊢
  clear hs hs' hb he hM hc hd w
  have i1 : ∀ p : Tine α, BSet.insert p [] = [p] := fun p => rfl
  rcases lb with p | p | _ <;> rcases ub with q | q | _ <;> cases b <;> cases a <;> cases a2 <;> cases e <;>
    (try simp [Fits, Tine.key] at f1 f2) <;> cases dbg <;>
    simp (config := {decide := true}) [edge, Tine.key, Tine.inclAt, Tine.intersect, Tine.asRef,
        Tine.intoInner, Bound.asRef, dassert, bind, Except.bind, TineTree.noneOr, Tine.isLowerBound,
        Tine.isUpperBound, pure, Except.pure, TineTree.insertIf, Tine.isPointExclude,
        TineTree.someAnd, i1] at hr ⊢ <;>
    first
    | (exfalso; cases x <;> cases y <;> simp at hr; done)
    | (rw [i3] at hr
       · cases x <;> cases y <;> simp [edge, Tine.key] at hr ⊢
       all_goals simp [Tine.Ok, Tine.key])

theorem key_three (k : Key α) : k = .bot ∨ (∃ x, k = .fin x) ∨ k = .top := by
  cases k <;> simp

theorem fits_bot {k : Key α} {b a c : Bool} (h : Fits k b a c) (hk : k = .bot) : b = false ∧ a = false := by
  subst hk; exact h

theorem fits_top {k : Key α} {b a c : Bool} (h : Fits k b a c) (hk : k = .top) : a = false ∧ c = false := by
  subst hk; exact h

/-- A proper result with the right points is the expected tree, or the interval itself where nothing of the tree
touches an interval without points. -/
theorem intersectProper_right (dbg : Bool) {t : TineTree α} {lb ub : Bound α}
    (hk : (Tine.lower lb).key < (Tine.upper ub).key)
    (w : Two t (Tine.lower lb).key (Tine.upper ub).key)
    {r : TineTree α} (hr : TineTree.intersectProper dbg t (.lower lb) (.upper ub) = .ok r) (v : Valid r)
    (hp : ∀ x, tcov r false (.fin x) = (tcov t false (.fin x) && cov false false [.lower lb, .upper ub] (.fin x))) :
    IsectSharp dbg w.b w.a w.c w.d w.a2 w.e (Tine.lower lb).inclAt (Tine.upper ub).inclAt = true ∨
    (w.b = false ∧ w.a = false ∧ w.c = false ∧ w.d = false ∧ w.a2 = false ∧ w.e = false ∧ w.M = [] ∧
      ∀ x, cov false false [.lower lb, .upper ub] (.fin x) = false) := by
  obtain ⟨o1, o2, er, k1, k2⟩ := intersectProper_shape dbg hk w hr
  have hc := v.2
  rw [er] at hc
  obtain ⟨c', hc1, hc⟩ := chain_append.1 hc
  obtain ⟨d', hc2, hc3⟩ := chain_append.1 hc
  obtain ⟨x, e1, f1⟩ := toList_edge k1 hc1 (.inl rfl)
  obtain ⟨y, e2, f2⟩ := toList_edge k2 hc3 (.inr rfl)
  rw [e1, e2] at er
  have cr : ∀ k, tcov r false k = _ := fun k => (congrArg (fun t => tcov t false k)
    (by rw [er]; simp : r = [] ++ edge (Tine.lower lb).key false x c' ++
      (w.M ++ edge (Tine.upper ub).key d' y false ++ []))).trans
    (cov_two hk f1 f2 (.nil _) w.gtM w.ltM (.nil _) rfl hc2 false k)
  have ct : ∀ k, tcov t false k = _ := fun k => (congrArg (fun t => tcov t false k) w.eq).trans
    (cov_two hk w.fits w.fits2 w.ltA w.gtM w.ltM w.gtB w.cA w.cM false k)
  simp only [cr, ct, cov_pair hk] at hp
  have hx : x = (w.a && (Tine.lower lb).inclAt) := by
    rcases key_three (Tine.lower lb).key with hkl | ⟨p, hkl⟩ | hkl
    · rw [(fits_bot f1 hkl).2, (fits_bot w.fits hkl).2]; rfl
    · simpa [hkl] using hp p
    · rw [(fits_top f1 hkl).1, (fits_top w.fits hkl).1]; rfl
  have hy : y = (w.a2 && (Tine.upper ub).inclAt) := by
    rcases key_three (Tine.upper ub).key with hku | ⟨p, hku⟩ | hku
    · rw [(fits_bot f2 hku).2, (fits_bot w.fits2 hku).2]; rfl
    · have hk' := hk
      rw [hku] at hk'
      have := hp p
      simp only [← hku, hk.not_gt, hk.ne', hk'.not_gt] at this
      simpa using this
    · rw [(fits_top f2 hku).1, (fits_top w.fits2 hku).1]; rfl
  by_cases hcd : c' = w.c ∧ d' = w.d
  · left
    rw [← intersectProper_iff dbg hk w, hr, er, hx, hy, hcd.1, hcd.2]
  have hM : w.M = [] := by
    by_contra hM
    have h1 := chain_begins w.cM hc2 hM
    exact hcd ⟨h1.symm, chain_ends hc2 (h1 ▸ w.cM)⟩
  have hcd1 : w.c = w.d := by have := w.cM; rw [hM] at this; exact this
  have hcd2 : c' = d' := by rw [hM] at hc2; exact hc2
  cases hwc : w.c with
  | true => left; simp [IsectSharp, IsectGood, ← hcd1, hwc]
  | false =>
    right
    have hwd : w.d = false := hcd1 ▸ hwc
    have hc' : c' = true := by
      cases c' with
      | true => rfl
      | false => exact absurd ⟨hwc.symm, by rw [hwd]; exact hcd2.symm⟩ hcd
    subst hc'
    subst hcd2
    rw [er, hM] at hr
    obtain ⟨a1, a2, a3, a4, a5, a6⟩ := intersectProper_around dbg hk w hM hwc hwd hr
    refine ⟨a1, a2, rfl, hwd, a3, a4, hM, fun p => ?_⟩
    rw [cov_pair hk]
    have := hp p
    rw [hM, a2, a3, hwc] at this
    rcases lt_trichotomy (Key.fin p) (Tine.lower lb).key with h | h | h
    · simp [h]
    · have := a5 p h.symm
      rw [hx, a2, Bool.false_and] at this
      rw [if_neg (by rw [h]; exact lt_irrefl _), if_pos h, ← this]; rfl
    · rcases lt_trichotomy (Key.fin p) (Tine.upper ub).key with h' | h' | h'
      · simp [h.not_gt, h.ne', h', cov] at this
      · have := a6 p h'.symm
        rw [hy, a3, Bool.false_and] at this
        rw [if_neg h.not_gt, if_neg h.ne', if_neg (by rw [h']; exact lt_irrefl _), if_pos h', ← this]; rfl
      · simp [h.not_gt, h.ne', h'.not_gt, h'.ne']

end TT
end NI
