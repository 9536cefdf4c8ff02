import Verif.Props.Spot
import Verif.Props.Minus
import Verif.Lemmas.Swap
import Verif.Props.Piecewise

/-! # What is said of a point by a tree after any edits (C124) -/

namespace NI
open _root_.NI.Finite TT
variable {α : Type} [LinearOrder α]

theorem TT.raw_looks {i : RawInterval α} (hi : i.WF) (x : α) : Looks (Tine.fromRawInterval i) x (Spot.ofRaw i x) := by
  refine ⟨?_, ?_, ?_⟩
  · cases i <;> simp [Tine.fromRawInterval, bef, Tine.key, Tine.isLowerBound, Spot.ofRaw, RawInterval.lowerBound,
      RawInterval.upperBound, Bound.asRef, key_le_top]
  · rw [show at' (Tine.fromRawInterval i) x = i.contains x from icov_fin hi x]; rfl
  · change icov i true (.fin x) = true ↔ _
    cases i <;> simp [icov, cov, Tine.fromRawInterval, Tine.key, Tine.isLowerBound, Spot.ofRaw, RawInterval.lowerBound,
      RawInterval.upperBound, Bound.asRef]

theorem TT.raws_looks {t : TineTree α} (h : Valid t) (x : α) : Looks t x (Spot.ofRaws (pieces none t) x) := by
  have w : ∀ i ∈ pieces none t, i.WF := fun i hi => ((pieces_wf h.1).1 i hi).1
  refine ⟨?_, ?_, ?_⟩
  · obtain ⟨k0, h0, h1⟩ := last_below (t ++ (pieces none t).flatMap Tine.fromRawInterval) (k := .fin x) (by simp)
    rw [bef_cov h0 fun y hy => h1 y (by simp [hy])]
    change tcov t true k0 = true ↔ _
    rw [tcov_any h, List.any_eq_true]
    refine exists_congr fun i => and_congr_right fun hi => ?_
    rw [← (raw_looks (w i hi) x).1, bef_cov h0 fun y hy => h1 y (List.mem_append_right _ (List.mem_flatMap.2 ⟨i, hi, hy⟩))]
    rfl
  · rw [at', tcov_any h, List.any_eq_true]
    exact exists_congr fun i => and_congr_right fun hi => (raw_looks (w i hi) x).2.1
  · rw [tcov_any h, List.any_eq_true]
    exact exists_congr fun i => and_congr_right fun hi => (raw_looks (w i hi) x).2.2

/-- One change, around one point. -/
theorem TT.change_looks (dbg : Bool) {t : TineTree α} (v : Valid t) {c : Change (RawInterval α)} (hw : c.Uses RawInterval.WF)
    (hp : ∀ p, c ≠ .remove (.point p)) : ∃ t', t.changes dbg [c] = .ok t' ∧ Valid t' ∧
      ∀ x a, Looks t x a → Looks t' x (a.change x c) := by
  have one : ∀ (f : Except Panic (TineTree α)) s', f = .ok s' → (f >>= fun s => (.ok s : Except Panic _)) = .ok s' := by
    rintro _ s' rfl; rfl
  cases c with
  | add i =>
    obtain ⟨t1, e1, v1, c1⟩ := unionInPlace_ok dbg v (i := i) hw
    refine ⟨t1, one _ _ e1, v1, fun x a ⟨a1, a2, a3⟩ => ?_⟩
    obtain ⟨b1, b2, b3⟩ := raw_looks (i := i) hw x
    refine ⟨?_, ?_, ?_⟩
    · rw [bef_cup c1, Bool.or_eq_true, a1, b1]; rfl
    · rw [at', c1, Bool.or_eq_true]; exact or_congr a2 b2
    · rw [c1, Bool.or_eq_true]; exact or_congr a3 b3
  | remove i =>
    obtain ⟨t1, e1, v1, c1⟩ := minusTwo_ok dbg v (d := i) hw fun p h => hp p (h ▸ rfl)
    have ct : ∀ k, tcov t1 true k = (tcov t true k && !icov i true k) := fun k => by rw [c1]; simp
    refine ⟨t1, one _ _ e1, v1, fun x a ⟨a1, a2, a3⟩ => ?_⟩
    obtain ⟨b1, b2, b3⟩ := raw_looks (i := i) hw x
    refine ⟨?_, ?_, ?_⟩
    · rw [bef_minus ct, Bool.and_eq_true, a1, Bool.not_eq_true', ← Bool.not_eq_true, b1]; rfl
    · have e : (∃ y ∈ Tine.fromRawInterval i, y.key = Key.fin x) ↔ i.IsBound x := TT.endAt_iff i x
      rw [at', c1, holeAt]
      simp only [Spot.change, ← a1, ← a2, ← a3, ← b2, ← e, at', icov]
      cases tcov t false (.fin x) <;> simp [and_assoc, tcov]
    · rw [ct, Bool.and_eq_true, a3, Bool.not_eq_true', ← Bool.not_eq_true]
      exact and_congr_right fun _ => not_congr b3
  | complement =>
    obtain ⟨t1, e1, v1, c1⟩ := complement_ok dbg v
    exact ⟨t1, one _ _ e1, v1, fun x a ha => ha.not c1⟩

/-- After any additions, removals (of no single points) and complements a tree has exactly the points that the changes
leave in, each followed alone with what is on both sides of it. -/
theorem C124_tree (dbg : Bool) (t : TineTree α) (ht : t.Reachable) (is : List (RawInterval α))
    (his : t.intervals dbg = .ok is) (cs : List (Change (RawInterval α)))
    (hc : ∀ c ∈ cs, c.Uses RawInterval.WF ∧ ∀ p, c ≠ .remove (.point p)) :
    ∃ t', t.changes dbg cs = .ok t' ∧
      ∀ x, t'.contains dbg x = .ok true ↔ (cs.foldl (Spot.change x) (Spot.ofRaws is x)).here := by
  have all : ∀ (cs : List (Change (RawInterval α))) (t : TineTree α), Valid t →
      (∀ c ∈ cs, c.Uses RawInterval.WF ∧ ∀ p, c ≠ .remove (.point p)) →
      ∃ t', t.changes dbg cs = .ok t' ∧ Valid t' ∧ ∀ x a, Looks t x a → Looks t' x (cs.foldl (Spot.change x) a) := by
    intro cs
    induction cs with
    | nil => exact fun t v _ => ⟨t, rfl, v, fun _ _ h => h⟩
    | cons c cs ih =>
      intro t v hc
      obtain ⟨t1, e1, v1, k1⟩ := change_looks dbg v (hc c (by simp)).1 (hc c (by simp)).2
      obtain ⟨t2, e2, v2, k2⟩ := ih t1 v1 fun c h => hc c (by simp [h])
      refine ⟨t2, ?_, v2, fun x a h => k2 x _ (k1 x a h)⟩
      rw [show c :: cs = [c] ++ cs from rfl, TineTree.changes, List.foldlM_append]
      rw [TineTree.changes] at e1
      rw [e1]
      exact e2
  have v := reachable_valid ht
  obtain ⟨t', e, v', k⟩ := all cs t v hc
  refine ⟨t', e, fun x => ?_⟩
  rw [intervals_eq dbg v] at his; cases his
  rw [contains_ok dbg v']
  exact ⟨fun h => (k x _ (raws_looks v x)).2.1.1 (Except.ok.inj h), fun h => congrArg _ ((k x _ (raws_looks v x)).2.1.2 h)⟩

/-- `(0,5)` and `(5,9)`, turned inside out, with `[8,20]` added, turned back, and without `[5,7)`: 5 has come in. -/
example : (TineTree.demo [.opn (0 : Int) 5, .opn 5 9]).Reachable ∧
    (∀ c ∈ [Change.complement, .add (.closed (8 : Int) 20), .complement, .remove (.rightOpen 5 7)],
      c.Uses RawInterval.WF ∧ ∀ p, c ≠ .remove (.point p)) ∧
    (do (← (TineTree.demo [.opn (0 : Int) 5, .opn 5 9]).changes true
      [.complement, .add (.closed (8 : Int) 20), .complement, .remove (.rightOpen 5 7)]).intervals true) =
      .ok [.leftOpen 0 5, .rightOpen 7 8] := by
  refine ⟨TineTree.fromIter_reachable (dbg := true) (is := [.opn 0 5, .opn 5 9]) (by simp [RawInterval.WF]) rfl, ?_, by decide⟩
  intro c hc
  simp only [List.mem_cons, List.not_mem_nil, or_false] at hc
  rcases hc with rfl | rfl | rfl | rfl <;> exact ⟨by simp [Change.Uses, RawInterval.WF], by simp⟩

end NI
