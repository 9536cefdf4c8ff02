import Verif.Model.Unwind
import Verif.Lemmas.Isect
import Verif.Lemmas.SelOps

/-! # What a panic leaves behind -/

set_option linter.unusedSimpArgs false
set_option linter.unusedSectionVars false

namespace NI
variable {α : Type} [LinearOrder α]

@[simp] theorem forget_ok {β : Type} (b : β) : Unwind.forget (α := α) (.ok b) = .ok b := rfl
@[simp] theorem forget_error {β : Type} (p : Panic) (t : TineTree α) :
    Unwind.forget (β := β) (.error (p, t)) = .error p := rfl
@[simp] theorem forget_leaving {β : Type} (t : TineTree α) (x : Except Panic β) :
    (leaving t x).forget = x := by cases x <;> rfl

theorem forget_bind {β γ : Type} (x : Unwind α β) (f : β → Unwind α γ) :
    Unwind.forget (x >>= f) = x.forget >>= fun b => (f b).forget := by
  rcases x with ⟨p, t⟩ | b <;> rfl

namespace TineTree

theorem interiorSplitU_forget (dbg : Bool) (t : TineTree α) (l u : Tine α) :
    (interiorSplitU dbg t l u).forget = interiorSplit dbg t l u := by
  simp [interiorSplitU, interiorSplit, forget_bind]

theorem intersectProperU_forget (dbg : Bool) (t : TineTree α) (l u : Tine α) :
    (intersectProperU dbg t l u).forget = intersectProper dbg t l u := by
  simp only [intersectProperU, intersectProper, forget_bind, interiorSplitU_forget, forget_leaving]
  refine bind_congr fun ⟨⟨t0, t1, t2, t3, t4, t5⟩, c⟩ => bind_congr fun ml => bind_congr fun mu =>
    bind_congr fun _ => bind_congr fun _ => ?_
  dsimp only
  generalize someAnd t0 _ = b0, someAnd t5 _ = b5, someAnd t1 _ = b1, someAnd t4 _ = b4
  cases b0 <;> cases ml <;> cases b1 <;> cases b4 <;> cases mu <;> cases b5 <;> rfl

theorem intersectInPlaceU_forget (dbg : Bool) (t : TineTree α) (i : RawInterval α) :
    (intersectInPlaceU dbg t i).forget = intersectInPlace dbg t i := by
  have h : ∀ (p : α) (x : TineTree α), Unwind.forget (do
      if ← leaving t (contains dbg t p) then .ok x else .ok new : Unwind α (TineTree α)) = (do
      if ← contains dbg t p then .ok x else .ok new : Except Panic (TineTree α)) := fun p x => by
    rw [forget_bind, forget_leaving]
    exact bind_congr fun b => by cases b <;> rfl
  unfold intersectInPlaceU intersectInPlace
  by_cases h1 : (isEmpty t || i.isFull) = true
  · rw [if_pos h1, if_pos h1]; rfl
  rw [if_neg h1, if_neg h1]
  by_cases h2 : i.isEmpty = true
  · rw [if_pos h2, if_pos h2]; rfl
  rw [if_neg h2, if_neg h2]
  cases i <;> first
    | exact h _ _
    | simp [Tine.fromRawInterval, intersectProperU_forget]

theorem unionPointU_forget (dbg : Bool) (t : TineTree α) (p : Tine α) :
    (unionPointU dbg t p).forget = unionPoint dbg t p := by
  simp only [unionPointU, unionPoint, forget_bind, forget_leaving]
  refine bind_congr fun m => ?_
  generalize someAnd _ _ = b0, someAnd _ Tine.isUpperBound = b5
  cases m <;> cases b0 <;> cases b5 <;> simp [forget_bind]

theorem unionProperU_forget (dbg : Bool) (t : TineTree α) (l u : Tine α) :
    (unionProperU dbg t l u).forget = unionProper dbg t l u := by
  simp only [unionProperU, unionProper, forget_bind, forget_leaving]
  refine bind_congr fun ml => bind_congr fun mu => bind_congr fun _ => bind_congr fun _ => ?_
  generalize someAnd _ _ = b0, someAnd _ Tine.isUpperBound = b5
  cases b0 <;> cases ml <;> cases mu <;> cases b5 <;> simp [forget_bind]

theorem unionInPlaceU_forget (dbg : Bool) (t : TineTree α) (i : RawInterval α) :
    (unionInPlaceU dbg t i).forget = unionInPlace dbg t i := by
  unfold unionInPlaceU unionInPlace
  cases i <;> simp [Tine.fromRawInterval, RawInterval.isFull, unionPointU_forget, unionProperU_forget]

theorem minusPointU_forget (dbg : Bool) (t : TineTree α) (p : Tine α) :
    (minusPointU dbg t p).forget = minusPoint dbg t p := by
  simp only [minusPointU, minusPoint, forget_bind, forget_leaving]
  refine bind_congr fun m => ?_
  generalize someAnd _ _ = b0, someAnd _ Tine.isUpperBound = b5
  cases m <;> cases b0 <;> cases b5 <;> simp [forget_bind]

theorem minusProperU_forget (dbg : Bool) (t : TineTree α) (l u : Tine α) :
    (minusProperU dbg t l u).forget = minusProper dbg t l u := by
  simp only [minusProperU, minusProper, forget_bind, forget_leaving]
  refine bind_congr fun ml => bind_congr fun mu => ?_
  generalize someAnd _ _ = b0, someAnd _ Tine.isUpperBound = b5
  rcases ml with _ | b | (x | x | _) | b <;> rcases mu with _ | d | (x | x | _) | d <;> cases b0 <;> cases b5 <;>
    simp [forget_bind]

theorem minusInPlaceU_forget (dbg : Bool) (t : TineTree α) (i : RawInterval α) :
    (minusInPlaceU dbg t i).forget = minusInPlace dbg t i := by
  unfold minusInPlaceU minusInPlace
  by_cases h1 : (isEmpty t || i.isEmpty) = true
  · rw [if_pos h1, if_pos h1]; rfl
  rw [if_neg h1, if_neg h1]
  cases i <;> simp [Tine.fromRawInterval, RawInterval.isFull, minusPointU_forget, minusProperU_forget]

end TineTree

/-- If the computation panics, the tree it leaves is `c`. -/
def Leaves {β : Type} (c : TineTree α) (x : Unwind α β) : Prop := ∀ p t', x = .error (p, t') → t' = c

theorem Leaves.ok {β : Type} {c : TineTree α} {b : β} : Leaves c (.ok b) := fun _ _ h => by cases h

theorem Leaves.leaving {β : Type} {c : TineTree α} {x : Except Panic β} : Leaves c (leaving c x) := fun p t' h => by
  cases x with
  | ok b => cases h
  | error q => cases h; rfl

theorem Leaves.bind {β γ : Type} {c : TineTree α} {x : Unwind α β} {f : β → Unwind α γ} (hx : Leaves c x)
    (hf : ∀ b, Leaves c (f b)) : Leaves c (x >>= f) := fun p t' h => by
  rcases x with ⟨q, t⟩ | b
  · cases h; exact hx _ _ rfl
  · exact hf b p t' h

theorem ok_of_forget {β : Type} {x : Unwind α β} {b : β} (h : x.forget = .ok b) : x = .ok b := by
  rcases x with ⟨q, t⟩ | b'
  · cases h
  · cases h; rfl

theorem error_of_forget {β : Type} {x : Unwind α β} {p : Panic} {t : TineTree α} (h : x = .error (p, t)) :
    x.forget = .error p := by rw [h]; rfl

namespace TT

theorem chain_ends {s e e' : Bool} {A : List (Tine α)} (h : Chain s A e) (h' : Chain s A e') : e = e' := by
  induction A generalizing s with
  | nil => exact h.symm.trans h'
  | cons x A ih => exact ih h.2 h'.2

theorem chain_begins {s s' e e' : Bool} {A : List (Tine α)} (h : Chain s A e) (h' : Chain s' A e') (hA : A ≠ []) :
    s = s' := by
  cases A with
  | nil => exact absurd rfl hA
  | cons x A => exact h.1.symm.trans h'.1

/-- A panic of `intersect_proper_interval` leaves the tines strictly between the bounds. -/
theorem intersectProperU_left (dbg : Bool) {t : TineTree α} {lb ub : Bound α}
    (hk : (Tine.lower lb).key < (Tine.upper ub).key)
    (w : Two t (Tine.lower lb).key (Tine.upper ub).key) :
    Leaves w.M (TineTree.intersectProperU dbg t (.lower lb) (.upper ub)) := by
  have hl : (Tine.lower lb).Ok := by simp [Tine.Ok]
  have hu : (Tine.upper ub).Ok := by simp [Tine.Ok]
  have hs := ok_of_forget ((TineTree.interiorSplitU_forget dbg t _ _).trans (interiorSplit_eq dbg hl hu hk w))
  unfold TineTree.intersectProperU
  rw [hs]
  change Leaves w.M (Bind.bind (leaving w.M _) _)
  refine .bind .leaving fun ml => .bind .leaving fun mu => .bind .leaving fun _ => .bind .leaving fun _ => ?_
  dsimp only
  split <;> first | exact .ok | exact .leaving

/-- What a panic of `intersect_in_place` leaves, and when that is a proper tree. -/
theorem intersectInPlaceU_left (dbg : Bool) {t : TineTree α} (ht : Valid t) {i : RawInterval α} (hi : i.WF)
    {p : Panic} {t' : TineTree α} (h : TineTree.intersectInPlaceU dbg t i = .error (p, t')) :
    ∃ lb ub, Tine.fromRawInterval i = [.lower lb, .upper ub] ∧
      t'.Sublist t ∧
      (Valid t' ↔ tcov t true (Tine.lower lb).key = false ∧ bef false t (Tine.upper ub).key = false) ∧
      (Valid t' → ∀ aft k, tcov t' aft k = (tcov t aft k && decide ((Tine.lower lb).key < k) &&
        decide (k < (Tine.upper ub).key))) := by
  have hne : t ≠ [] := by
    rintro rfl
    simp [TineTree.intersectInPlaceU, TineTree.isEmpty] at h
  have c1 : TineTree.isEmpty t = false := by simpa [TineTree.isEmpty] using hne
  have hp : ∀ q, i ≠ .point q := by
    rintro q rfl
    have := error_of_forget h
    rw [TineTree.intersectInPlaceU_forget] at this
    simp only [TineTree.intersectInPlace, c1, RawInterval.isFull, RawInterval.isEmpty, contains_eq dbg ht] at this
    simp [bind, Except.bind] at this
    split at this <;> cases this
  have hf : i ≠ .full := by rintro rfl; simp [TineTree.intersectInPlaceU, RawInterval.isFull] at h
  have he : i ≠ .empty := by
    rintro rfl
    simp [TineTree.intersectInPlaceU, c1, RawInterval.isFull, RawInterval.isEmpty] at h
  rcases fromRaw_cases hi with ⟨e0, e⟩ | ⟨q, e0, e⟩ | ⟨lb, ub, e, hk⟩
  · exact absurd e0 he
  · exact absurd e0 (hp q)
  have e1 : TineTree.intersectInPlaceU dbg t i =
      TineTree.intersectProperU dbg t (.lower lb) (.upper ub) := by
    cases i <;> first
      | exact absurd rfl he
      | exact absurd rfl (hp _)
      | exact absurd rfl hf
      | simp [TineTree.intersectInPlaceU, c1, RawInterval.isFull, RawInterval.isEmpty, e]
  rw [e1] at h
  obtain ⟨w⟩ := two ht hk
  cases intersectProperU_left dbg hk w p t' h
  obtain ⟨⟨v1, v2, v3⟩, v4, v5, v6⟩ := w.views hk
  have hcd : ¬ (w.c = true ∧ w.d = true) := by
    rintro ⟨hc, hd⟩
    have := (intersectProper_iff dbg hk w).2 (by simp [IsectSharp, IsectGood, hc, hd])
    rw [← TineTree.intersectProperU_forget, h] at this
    cases this
  have hv : Valid w.M ↔ w.c = false ∧ w.d = false := by
    constructor
    · intro v
      by_cases hM : w.M = []
      · have := w.cM
        rw [hM] at this
        have : w.c = w.d := this
        revert hcd this
        cases w.c <;> cases w.d <;> simp
      · have hc := chain_begins w.cM v.2 hM
        exact ⟨hc, chain_ends (hc ▸ w.cM) v.2⟩
    · rintro ⟨hc, hd⟩
      have := w.cM
      rw [hc, hd] at this
      exact ⟨w.sM, this⟩
  refine ⟨lb, ub, e, ?_, by rw [v3, v4, hv], fun v aft k => ?_⟩
  · conv_rhs => rw [w.eq]
    grind
  · obtain ⟨hc, hd⟩ := hv.1 v
    have e1 : tcov t aft k = _ := (congrArg (fun t => tcov t aft k) w.eq).trans
      (cov_two hk w.fits w.fits2 w.ltA w.gtM w.ltM w.gtB w.cA w.cM aft k)
    rw [e1]
    rcases lt_or_ge (Tine.lower lb).key k with h1 | h1
    · rcases lt_or_ge k (Tine.upper ub).key with h2 | h2
      · simp [h1, h2, h1.not_gt, h1.ne', hc, tcov]
      · have : cov aft false w.M k = false := by
          have h3 : BSet.Lt w.M k := fun x hx => ⟨(w.ltM x hx).1, (w.ltM x hx).2.trans_le h2⟩
          have := cov_lt (aft := aft) (B := []) h3 (hc ▸ w.cM)
          simpa [hd, cov] using this
        simp [tcov, h2.not_gt, this]
    · have : cov aft false w.M k = false := cov_gt (w.gtM.trans h1)
      simp [tcov, h1.not_gt, this]

/-- Removing a point from a proper tree never panics, though the result need not be proper. -/
theorem minusPoint_total (dbg : Bool) {t : TineTree α} (ht : Valid t) (p : α) :
    ∃ t', TineTree.minusPoint dbg t (.point (.incl p)) = .ok t' := by
  obtain ⟨o⟩ := one ht (.fin p)
  by_cases h : o.a = true ∨ (o.b = false ∧ o.c = false)
  · exact ⟨_, minusPoint_eq dbg o h⟩
  obtain ⟨A, B, b, a, c, eq, fits, ltA, gtB, sA, sB, cA, cB⟩ := o
  have hs := exteriorSplitPoint_eq (p := .point (.incl p)) (pincl_ok p)
    ⟨A, B, b, a, c, eq, fits, ltA, gtB, sA, sB, cA, cB⟩
  have hb := chain_last cA
  have hc := chain_head cB
  simp only at h
  simp only [TineTree.minusPoint, hs, hb, hc]
  clear hs hb hc ltA gtB sA sB cA cB eq fits
  cases b <;> cases a <;> cases c <;> cases dbg <;> simp at h <;>
    simp (config := {decide := true}) [edge, Tine.key, Tine.inclAt, Tine.minus, Tine.asRef,
      Tine.intoInner, Bound.asRef, dassert, bind, Except.bind, Tine.isLowerBound,
      Tine.isUpperBound, pure, Except.pure, Tine.invert]

theorem minusInPlace_total (dbg : Bool) {t : TineTree α} (ht : Valid t) {i : RawInterval α} (hi : i.WF) :
    ∃ t', TineTree.minusInPlace dbg t i = .ok t' := by
  by_cases hp : ∃ q, i = .point q
  · obtain ⟨q, rfl⟩ := hp
    by_cases h0 : t = []
    · subst h0; exact ⟨_, rfl⟩
    have c1 : TineTree.isEmpty t = false := by simpa [TineTree.isEmpty] using h0
    obtain ⟨t', e⟩ := minusPoint_total dbg ht q
    exact ⟨t', by simpa [TineTree.minusInPlace, c1, RawInterval.isEmpty, RawInterval.isFull,
      Tine.fromRawInterval] using e⟩
  · obtain ⟨t', e, -⟩ := minusTwo_ok dbg ht hi fun q hq => hp ⟨q, hq⟩
    exact ⟨t', e⟩

end TT
end NI
