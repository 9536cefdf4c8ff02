import Verif.Lemmas.Cut
import Verif.Props.SelectionMore

/-!
# Exactly when C51 holds on union-built selections
-/

set_option linter.unusedSimpArgs false
set_option linter.unusedVariables false
set_option linter.unusedSectionVars false

namespace NI
open Finite TT
variable {α : Type} [LinearOrder α] [Finite α] [LawfulFinite α]

/-- On a union-built selection `intersect_in_place` with `[l,u]` leaves a sound selection of the common
points exactly if the selection is empty, or the interval is everything, or the selection lies well to the
ends of the interval. -/
theorem C51_exact_iff (dbg : Bool) (s : Selection α) (hs : s.UnionBuilt) (l u : α) (hlu : l ≤ u) :
    (∃ s', s.intersectInPlace dbg (Interval.mkClosed l u) = .ok s' ∧ s'.tree.Reachable ∧
      s'.pts dbg = s.pts dbg ∩ Set.Icc l u) ↔
    s.pts dbg = ∅ ∨ (l = minimum ∧ u = maximum) ∨ s.CutWell dbg l u := by
  have v := Selection.reachable_valid hs.reachable
  have hi : (Interval.mkClosed l u).Obtainable := .mkClosed _ _
  have hw := RawInterval.denorm_wf (Interval.obtainable_nf hi)
  have hfull : (Interval.mkClosed l u).raw.denormalized = .full ↔ l = minimum ∧ u = maximum := by
    rw [Selection.closed_denorm hlu, ← LawfulFinite.pred_none, ← LawfulFinite.succ_none]
    simp only [RawInterval.denormalized]
    cases pred l <;> cases succ u <;> simp
  have hdn : ∃ lb ub, Tine.fromRawInterval (Interval.mkClosed l u).raw.denormalized =
      [.lower lb, .upper ub] := by
    rw [Selection.closed_denorm hlu]
    simp only [RawInterval.denormalized]
    cases hp : pred l <;> cases hq : succ u <;> simp [Tine.fromRawInterval]
  have htwo : (Interval.mkClosed l u).raw.denormalized.TwoEnded := by
    rw [Selection.closed_denorm hlu]
    simp only [RawInterval.denormalized]
    cases hp : pred l <;> cases hq : succ u <;> simp [RawInterval.TwoEnded]
  obtain ⟨lb, ub, hf⟩ := hdn
  obtain ⟨il, iu, ha, ha2, htb, hcw⟩ := Selection.cutWell_iff dbg s hs l u hlu hf
  constructor
  · rintro ⟨s', e, hr, h⟩
    by_contra hc
    simp only [not_or] at hc
    obtain ⟨h1, h2, h3⟩ := hc
    have ht0 : s.tree ≠ [] := fun h0 => h1 (by
      ext x
      rw [Selection.mem_pts dbg v, h0]
      simp [at', tcov, cov])
    obtain ⟨t', e'⟩ : ∃ t', TineTree.intersectInPlace dbg s.tree
        (Interval.mkClosed l u).raw.denormalized = .ok t' ∧ s' = ⟨t'⟩ := by
      rw [Selection.intersectInPlace] at e
      cases h : TineTree.intersectInPlace dbg s.tree (Interval.mkClosed l u).raw.denormalized with
      | error => rw [h] at e; cases e
      | ok t' => rw [h] at e; cases e; exact ⟨t', rfl, rfl⟩
    obtain ⟨e', rfl⟩ := e'
    have hk : (Tine.lower lb).key < (Tine.upper ub).key := by
      rcases fromRaw_cases hw with ⟨e0, e⟩ | ⟨p, e0, e⟩ | ⟨lb', ub', e, hk⟩
      · rw [hf] at e; cases e
      · rw [hf] at e; cases e
      · rw [hf] at e; cases e; exact hk
    have e1 : TineTree.intersectInPlace dbg s.tree (Interval.mkClosed l u).raw.denormalized =
        TineTree.intersectProper dbg s.tree (.lower lb) (.upper ub) := by
      have c1 : TineTree.isEmpty s.tree = false := by simpa [TineTree.isEmpty] using ht0
      rw [← hfull] at h2
      generalize (Interval.mkClosed l u).raw.denormalized = i at h2 htwo hf
      cases i <;> first
        | exact absurd rfl htwo.1
        | exact absurd rfl (htwo.2 _)
        | exact absurd rfl h2
        | simp [TineTree.intersectInPlace, c1, RawInterval.isFull, RawInterval.isEmpty, hf]
    rw [e1] at e'
    obtain ⟨w⟩ := two v hk
    obtain ⟨⟨v1, v2, v3⟩, v4, v5, v6⟩ := w.views hk
    rw [v1, v2, v3, v4, v5, v6] at hcw
    rw [v1, v2, v3] at ha
    rw [v4, v5, v6] at ha2
    obtain ⟨hc, hd, rfl⟩ := intersectProper_open dbg hk w il iu ha ha2 e' (by
      rw [← Bool.not_eq_true, hcw]; exact h3)
    have vr := reachable_valid hr
    have hM : w.M = [] := by
      have := w.cM
      rw [hc] at this
      rcases hM : w.M with _ | ⟨m, M⟩
      · rfl
      rw [hM] at this vr
      have h4 := this.1
      have h5 := vr.2.2.1
      simp only [Tine.isLowerBound] at h5
      exact absurd (h4.symm.trans h5) (by simp)
    have hl : l ∈ s.pts dbg ∩ Set.Icc l u := by
      rw [← h, Selection.mem_pts dbg (s := ⟨_⟩) vr]
      have : Selection.ic (Interval.mkClosed l u) false (.fin l) = true := by
        rw [Selection.ic_fin hi, (C21_bounded l u l).2.2.2.1]; exact ⟨le_rfl, hlu⟩
      rw [Selection.ic, icov, hf] at this
      rw [at', tcov, hM]
      exact this
    have := htb.1 (.inl hl.1)
    rw [v3, hc] at this
    cases this
  · intro h
    have hcore : s.tree = [] ∨ ¬ (Interval.mkClosed l u).raw.denormalized.TwoEnded ∨
        (Interval.mkClosed l u).raw.denormalized = .full ∨
        ∀ lb ub, Tine.fromRawInterval (Interval.mkClosed l u).raw.denormalized =
            [.lower lb, .upper ub] →
          IsectGood (bef false s.tree (Tine.lower lb).key) (tcov s.tree false (Tine.lower lb).key)
            (tcov s.tree true (Tine.lower lb).key) (bef false s.tree (Tine.upper ub).key)
            (tcov s.tree false (Tine.upper ub).key) (tcov s.tree true (Tine.upper ub).key)
            (Tine.lower lb).inclAt (Tine.upper ub).inclAt = true := by
      rcases h with h | h | h
      · left
        rcases Selection.first_last dbg v (Selection.np_good v hs.do.np) with
          ⟨h', -⟩ | ⟨i, j, x, y, -, -, -, -, -, -, hl, -⟩
        · exact Selection.tree_nil v h'
        · rw [h] at hl; exact absurd hl.1 (Set.notMem_empty _)
      · exact .inr (.inr (.inl (hfull.2 h)))
      · refine .inr (.inr (.inr fun lb' ub' hf' => ?_))
        rw [hf] at hf'
        cases hf'
        rw [il, iu]
        exact hcw.2 h
    obtain ⟨t', e, v', c⟩ := intersectInPlace_core dbg v hw hcore
    refine ⟨⟨t'⟩, by rw [Selection.intersectInPlace, e]; rfl, valid_reachable v', ?_⟩
    ext x
    rw [Selection.mem_pts dbg (s := ⟨t'⟩) v', at', c _ _ ⟨by simp, by simp⟩]
    change (_ && Selection.ic _ _ _) = true ↔ _
    rw [Selection.ic_fin hi, Bool.and_eq_true, (C21_bounded l u x).2.2.2.1, Set.mem_inter_iff,
      Selection.mem_pts dbg v]
    rfl

/-- `[2,12]` passes over the lower end of `[4,20]` and stays clear of the upper. -/
example : (Selection.demo [(u8 2, u8 12)]).UnionBuilt ∧
    (Selection.demo [(u8 2, u8 12)]).CutWell true (u8 4) (u8 20) ∧
    Selection.intersectInPlace true (Selection.demo [(u8 2, u8 12)]) (Interval.mkClosed (u8 4) (u8 20)) =
      .ok (Selection.demo [(u8 4, u8 12)]) := by
  refine ⟨Selection.demo_built _ (by decide), .inr (.inl ⟨.inl ?_, ⟨u8 3, by decide, .inl ?_⟩, ?_, ?_⟩),
    by decide⟩
  · show Selection.contains true _ _ = .ok true; decide
  · show Selection.contains true _ _ = .ok true; decide
  · rintro (h | ⟨q, h, e⟩)
    · exact absurd (show Selection.contains true _ _ = .ok true from h) (by decide)
    · cases (show some (u8 21) = some q from e)
      exact absurd (show Selection.contains true _ _ = .ok true from h) (by decide)
  · intro q hq
    cases (show some (u8 21) = some q from hq)
    rintro (h | ⟨q, h, e⟩)
    · exact absurd (show Selection.contains true _ _ = .ok true from h) (by decide)
    · cases (show some (u8 22) = some q from e)
      exact absurd (show Selection.contains true _ _ = .ok true from h) (by decide)

/-- If it stops just two values above the end, the code panics. -/
example : Selection.intersectInPlace false (Selection.demo [(u8 2, u8 12), (u8 22, u8 25)])
    (Interval.mkClosed (u8 4) (u8 20)) = .error .unreachable := by decide

end NI
