import Verif.Props.Next
import Verif.Props.Agree

/-!
# C138: what cutting by `intersect` and asking for the lower bound gives
-/

set_option linter.unusedVariables false
set_option linter.unusedSectionVars false

namespace NI
open _root_.NI.Finite TT
variable {α : Type} [LinearOrder α] [Finite α] [LawfulFinite α]

theorem RawInterval.opn_upFrom (c d y : α) :
    (RawInterval.opn c d).intersect (.upFrom y) = if max c y < d then .opn (max c y) d else .empty := by
  rcases lt_or_ge y c with h | h
  · simp [RawInterval.intersect, RawInterval.lowerBound, RawInterval.upperBound, Bound.greatestIntersect, RawInterval.mkOpen,
      Bound.leastIntersect, RawInterval.new, Bound.asRef, Bound.isInclusive, Bound.isExclusive, h, h.le]
  · simp [RawInterval.intersect, RawInterval.lowerBound, RawInterval.upperBound, Bound.greatestIntersect, RawInterval.mkOpen,
      Bound.leastIntersect, RawInterval.new, Bound.asRef, Bound.isInclusive, Bound.isExclusive, h, h.not_gt]

theorem RawInterval.upTo_upFrom (d y : α) :
    (RawInterval.upTo d).intersect (.upFrom y) = if y < d then .opn y d else .empty := by
  simp [RawInterval.intersect, RawInterval.lowerBound, RawInterval.upperBound, Bound.greatestIntersect, RawInterval.mkOpen,
      Bound.leastIntersect, RawInterval.new, Bound.asRef, Bound.isInclusive, Bound.isExclusive]

theorem RawInterval.upFrom_upFrom (c y : α) :
    (RawInterval.upFrom c).intersect (.upFrom y) = .upFrom (max c y) := by
  rcases lt_or_ge y c with h | h
  · simp [RawInterval.intersect, RawInterval.lowerBound, RawInterval.upperBound, Bound.greatestIntersect,
      Bound.leastIntersect, RawInterval.new, Bound.asRef, Bound.isInclusive, Bound.isExclusive, h, h.le]
  · simp [RawInterval.intersect, RawInterval.lowerBound, RawInterval.upperBound, Bound.greatestIntersect,
      Bound.leastIntersect, RawInterval.new, Bound.asRef, Bound.isInclusive, Bound.isExclusive, h, h.not_gt]

theorem RawInterval.full_upFrom (y : α) : (RawInterval.full).intersect (.upFrom y) = .upFrom y := by
  simp [RawInterval.intersect, RawInterval.lowerBound, RawInterval.upperBound, Bound.greatestIntersect,
      Bound.leastIntersect, RawInterval.new, Bound.asRef, Bound.isInclusive, Bound.isExclusive]

/-- Cutting a tree with one interval cuts its first interval only. -/
theorem TT.intersect_one (dbg : Bool) {t : TineTree α} (v : Valid t) {p w : RawInterval α} {ps : List (RawInterval α)}
    (hp : pieces none t = p :: ps) (pw : p.WF) (p0 : p.isEmpty = false) (hw : w.WF) (w0 : w.isEmpty = false) :
    ∃ r, TineTree.intersect dbg t (TineTree.fromRawInterval w) = .ok r ∧ Valid r ∧
      pieces none r = if p.intersects w then [p.intersect w] else [] := by
  obtain ⟨r, e, rr, hr⟩ := C72_intersect dbg p w pw hw
  rw [tree_fromRaw pw, tree_fromRaw hw] at e
  rw [tree_fromRaw hw]
  obtain ⟨r1, e1, -, f1⟩ := intersect_eq dbg (fromRaw_valid pw) (fromRaw_valid hw)
  obtain ⟨r2, e2, v2, f2⟩ := intersect_eq dbg v (fromRaw_valid hw)
  rw [e] at e1; cases e1
  have : isectList (pieces none t) (pieces none (Tine.fromRawInterval w)) =
      isectList (pieces none (Tine.fromRawInterval p)) (pieces none (Tine.fromRawInterval w)) := by
    rw [hp, pieces_single pw, pieces_single hw, p0, w0]
    simp only [Bool.false_eq_true, if_false]
    cases hi : p.intersects w
    · rw [isectList_miss hi, isectList_miss hi]
      cases ps <;> simp [isectList]
    · rw [isectList_meet hi, isectList_meet hi]
      simp [isectList]
  rw [this, f1] at f2; cases f2
  rw [intervals_eq dbg v2, Except.ok.injEq] at hr
  exact ⟨r, e2, v2, hr⟩

theorem Set.Icc_inj' {a b c d : α} (h : Set.Icc a b = Set.Icc c d) (hab : a ≤ b) : a = c ∧ b = d := by
  have h1 : a ∈ Set.Icc c d := h ▸ ⟨le_rfl, hab⟩
  have h2 : b ∈ Set.Icc c d := h ▸ ⟨hab, le_rfl⟩
  have h3 : c ∈ Set.Icc a b := h ▸ ⟨le_rfl, h1.1.trans h1.2⟩
  have h4 : d ∈ Set.Icc a b := h ▸ ⟨h1.1.trans h1.2, le_rfl⟩
  exact ⟨le_antisymm h3.1 h1.1, le_antisymm h2.2 h4.2⟩

/-- What is left of the first interval, from `x` on. -/
theorem RawInterval.cut_from {p : RawInterval α} (pw : p.WF) (op : OpenIv p) {a b x : α} (hab : a ≤ b)
    (hp : (Selection.run p).pts = Set.Icc a b) :
    (if p.intersects (Interval.unboundedFrom x).raw.denormalized then
      (Selection.run (p.intersect (Interval.unboundedFrom x).raw.denormalized)).lowerBound else none) =
      if x ≤ b ∨ succ b = some x then some (.incl (max a x)) else none := by
  have ha : a ∈ (Selection.run p).pts := hp ▸ ⟨le_rfl, hab⟩
  have ends : ∀ {c d : α}, (Selection.run p) = ⟨.closed c d⟩ → c = a ∧ d = b := fun {c d} h => by
    have : Set.Icc c d = Set.Icc a b := by
      rw [← hp, h]; ext z; simp [Interval.pts, Interval.contains, RawInterval.contains]
    obtain ⟨h1, h2⟩ := Set.Icc_inj' this.symm hab
    exact ⟨h1.symm, h2.symm⟩
  have fits : ∀ {y d : α}, pred x = some y → pred d = some b → (y < d ↔ x ≤ b ∨ succ b = some x) := fun {y d} hy hd => by
    obtain ⟨h1, h2⟩ := LawfulFinite.pred_some x y hy
    obtain ⟨g1, g2⟩ := LawfulFinite.pred_some d b hd
    have gs := pred_eq_iff.1 hd
    rw [gs, Option.some.injEq]
    constructor
    · intro h
      rcases lt_trichotomy x d with g | g | g
      · exact .inl (g2 x g)
      · exact .inr g.symm
      · exact absurd h (not_lt.2 (h2 d g))
    · rintro (h | rfl)
      · exact h1.trans (h.trans_lt g1)
      · exact h1
  have hi : ∀ {y c : α}, pred x = some y → succ c = some a → succ (max c y) = some (max a x) := fun {y c} hy hc => by
    have hy' := pred_eq_iff.1 hy
    rcases le_total c y with h | h
    · rw [max_eq_right h, hy', max_eq_right]
      rcases h.lt_or_eq with h | rfl
      · exact ((LawfulFinite.succ_some c a hc).2 y h).trans (LawfulFinite.pred_some x y hy).1.le
      · rw [hc] at hy'; cases hy'; exact le_rfl
    · rw [max_eq_left h, hc, max_eq_left]
      rcases h.lt_or_eq with h | rfl
      · exact ((LawfulFinite.succ_some y x hy').2 c h).trans (LawfulFinite.succ_some c a hc).1.le
      · rw [hc] at hy'; cases hy'; exact le_rfl
  have top : b = maximum → (x ≤ b ∨ succ b = some x) := fun h => .inl (h ▸ LawfulFinite.le_max x)
  have hm : succ (maximum : α) = none := (LawfulFinite.succ_none _).2 rfl
  cases hx : pred x with
  | none =>
    have hxm : x = minimum := (LawfulFinite.pred_none x).1 hx
    have hw : (Interval.unboundedFrom x).raw.denormalized = .full := by
      simp [Interval.unboundedFrom, RawInterval.normalized, RawInterval.denormalized, hx, hm]
    have pf : p.intersect .full = p := RawInterval.intersect_full pw
    have hrun : (Selection.run p).lowerBound = some (.incl a) := by
      rcases op.cases with rfl | ⟨c, d, rfl⟩ | ⟨c, rfl⟩ | ⟨d, rfl⟩ | rfl
      · cases ha
      · cases hc : succ c with
        | none => simp [Selection.run, RawInterval.normalized, hc, Interval.pts, Interval.contains, RawInterval.contains] at ha
        | some l =>
          cases hd : pred d with
          | none => simp [Selection.run, RawInterval.normalized, hc, hd, Interval.pts, Interval.contains, RawInterval.contains] at ha
          | some u =>
            obtain ⟨rfl, rfl⟩ := ends (c := l) (d := u) (by simp [Selection.run, RawInterval.normalized, hc, hd])
            simp [Selection.run, RawInterval.normalized, hc, hd, Interval.lowerBound, RawInterval.lowerBound]
      · cases hc : succ c with
        | none => simp [Selection.run, RawInterval.normalized, hc, Interval.pts, Interval.contains, RawInterval.contains] at ha
        | some l =>
          obtain ⟨rfl, -⟩ := ends (c := l) (d := maximum) (by simp [Selection.run, RawInterval.normalized, hc])
          simp [Selection.run, RawInterval.normalized, hc, Interval.lowerBound, RawInterval.lowerBound]
      · cases hd : pred d with
        | none => simp [Selection.run, RawInterval.normalized, hd, Interval.pts, Interval.contains, RawInterval.contains] at ha
        | some u =>
          obtain ⟨rfl, -⟩ := ends (c := minimum) (d := u) (by simp [Selection.run, RawInterval.normalized, hd])
          simp [Selection.run, RawInterval.normalized, hd, Interval.lowerBound, RawInterval.lowerBound]
      · obtain ⟨rfl, -⟩ := ends (c := minimum) (d := maximum) rfl
        rfl
    have pe : p.isEmpty = false := by
      rw [← Bool.not_eq_true, RawInterval.isEmpty_iff]
      rintro rfl; cases ha
    have hb : x ≤ b ∨ succ b = some x := .inl (hxm ▸ LawfulFinite.min_le b)
    rw [if_pos hb, hw, RawInterval.intersects, pf, pe, hxm, max_eq_left (LawfulFinite.min_le a), hrun]
    rfl
  | some y =>
    have hw : (Interval.unboundedFrom x).raw.denormalized = .upFrom y := by
      simp [Interval.unboundedFrom, RawInterval.normalized, RawInterval.denormalized, hx, hm]
    rw [hw]
    rcases op.cases with rfl | ⟨c, d, rfl⟩ | ⟨c, rfl⟩ | ⟨d, rfl⟩ | rfl
    · cases ha
    · cases hc : succ c with
      | none => simp [Selection.run, RawInterval.normalized, hc, Interval.pts, Interval.contains, RawInterval.contains] at ha
      | some l =>
        cases hd : pred d with
        | none => simp [Selection.run, RawInterval.normalized, hc, hd, Interval.pts, Interval.contains, RawInterval.contains] at ha
        | some u =>
          obtain ⟨rfl, rfl⟩ := ends (c := l) (d := u) (by simp [Selection.run, RawInterval.normalized, hc, hd])
          have hcd : c < d := ((LawfulFinite.succ_some c l hc).1.trans_le hab).trans (LawfulFinite.pred_some d u hd).1
          rw [RawInterval.intersects, RawInterval.opn_upFrom]
          by_cases h : y < d
          · rw [if_pos (max_lt hcd h), if_pos ((fits hx hd).1 h)]
            simp [RawInterval.isEmpty, Selection.run, RawInterval.normalized, hi hx hc, hd, Interval.lowerBound, RawInterval.lowerBound]
          · rw [if_neg (fun g => h ((le_max_right _ _).trans_lt g)), if_neg (fun g => h ((fits hx hd).2 g))]
            rfl
    · cases hc : succ c with
      | none => simp [Selection.run, RawInterval.normalized, hc, Interval.pts, Interval.contains, RawInterval.contains] at ha
      | some l =>
        obtain ⟨rfl, hb⟩ := ends (c := l) (d := maximum) (by simp [Selection.run, RawInterval.normalized, hc])
        rw [RawInterval.intersects, RawInterval.upFrom_upFrom, if_pos (top hb.symm)]
        simp [RawInterval.isEmpty, Selection.run, RawInterval.normalized, hi hx hc, Interval.lowerBound, RawInterval.lowerBound]
    · cases hd : pred d with
      | none => simp [Selection.run, RawInterval.normalized, hd, Interval.pts, Interval.contains, RawInterval.contains] at ha
      | some u =>
        obtain ⟨rfl, rfl⟩ := ends (c := minimum) (d := u) (by simp [Selection.run, RawInterval.normalized, hd])
        rw [RawInterval.intersects, RawInterval.upTo_upFrom, max_eq_right (LawfulFinite.min_le x)]
        by_cases h : y < d
        · rw [if_pos h, if_pos ((fits hx hd).1 h)]
          simp [RawInterval.isEmpty, Selection.run, RawInterval.normalized, pred_eq_iff.1 hx, hd, Interval.lowerBound, RawInterval.lowerBound]
        · rw [if_neg h, if_neg (fun g => h ((fits hx hd).2 g))]
          rfl
    · obtain ⟨rfl, hb⟩ := ends (c := minimum) (d := maximum) rfl
      rw [RawInterval.intersects, RawInterval.full_upFrom, if_pos (top hb.symm), max_eq_right (LawfulFinite.min_le x)]
      simp [RawInterval.isEmpty, Selection.run, RawInterval.normalized, pred_eq_iff.1 hx, Interval.lowerBound, RawInterval.lowerBound]

/-- By `intersect` with what is at least `x`: of a selection built by unions only the first run counts, and the value
after it is taken for one of it. -/
theorem C138_intersect (dbg : Bool) (s : Selection α) (hs : s.UnionBuilt) (x : α) :
    (s.pts dbg = ∅ ∧ s.nextByIntersect dbg x = .ok none) ∨
    ∃ a b, a ≤ b ∧ FirstRun (s.pts dbg) = Set.Icc a b ∧
      s.nextByIntersect dbg x = .ok (if x ≤ b ∨ succ b = some x then some (.incl (max a x)) else none) := by
  have v := Selection.reachable_valid hs.reachable
  have wo : (Interval.unboundedFrom x).Obtainable := .unboundedFrom x
  obtain ⟨js, e, -, -, c⟩ := C56_cover_partial dbg s hs.reachable
  have e' := e
  rw [Selection.intervals_eq dbg v, Except.ok.injEq] at e'
  cases hps : pieces none s.tree with
  | nil =>
    rw [hps] at e'
    simp only [List.map_nil] at e'
    subst e'
    refine .inl ⟨Set.ext fun z => by simp [c], ?_⟩
    obtain ⟨t, f1, v1, f2⟩ := TT.intersect_eq dbg v (Selection.reachable_valid (.ofInterval wo))
    rw [hps] at f2
    cases f2
    rw [Selection.nextByIntersect, Selection.intersect, f1]
    change Selection.lowerBound dbg ⟨[]⟩ = _
    rw [Selection.lowerBound_eq dbg v1]; rfl
  | cons p ps =>
    rw [hps, List.map_cons] at e'
    have hp : p ∈ pieces none s.tree := by simp [hps]
    have gp := Selection.np_good v hs.do.np p hp
    obtain ⟨a, b, hab, hpts, -⟩ := C56_maximal_partial dbg s (.inl hs) js e (Selection.run p) (by simp [← e'])
    refine .inr ⟨a, b, hab, ?_, ?_⟩
    · rw [Selection.first_run dbg hs e (j := Selection.run p) (by simp [← e']), hpts]
    have p0 : p.isEmpty = false := by
      obtain ⟨z, hz⟩ := gp.2
      rw [← Bool.not_eq_true, RawInterval.isEmpty_iff]
      rintro rfl; cases hz
    have w0 : (Interval.unboundedFrom x).raw.denormalized.isEmpty = false := by
      simp only [Interval.unboundedFrom, RawInterval.normalized, RawInterval.denormalized]
      split <;> rfl
    obtain ⟨r, f1, v1, f2⟩ := TT.intersect_one dbg v hps gp.1 p0 (Interval.denorm_wf wo) w0
    rw [Selection.nextByIntersect, Selection.intersect, Selection.ofInterval, f1]
    change Selection.lowerBound dbg ⟨r⟩ = _
    rw [Selection.lowerBound_eq dbg v1, f2, ← RawInterval.cut_from gp.1 (hs.do.open v hp) hab hpts]
    split <;> rfl

/-- 4 comes after 1 to 3; 5 and 6 are not found, though 6 is there. -/
example : (Selection.demo [(u8 1, u8 3), (u8 6, u8 6)]).UnionBuilt ∧
    (Selection.demo [(u8 1, u8 3), (u8 6, u8 6)]).nextByIntersect true (u8 0) = .ok (some (.incl (u8 1))) ∧
    (Selection.demo [(u8 1, u8 3), (u8 6, u8 6)]).nextByIntersect true (u8 3) = .ok (some (.incl (u8 3))) ∧
    (Selection.demo [(u8 1, u8 3), (u8 6, u8 6)]).nextByIntersect true (u8 4) = .ok (some (.incl (u8 4))) ∧
    (Selection.demo [(u8 1, u8 3), (u8 6, u8 6)]).nextByIntersect true (u8 6) = .ok none :=
  ⟨Selection.demo_built _ (by decide), by decide, by decide, by decide, by decide⟩

/-- So it is right exactly if `x` does not come right after the first run, and comes after it only if there is nothing
more. -/
theorem C138_intersect_iff (dbg : Bool) (s : Selection α) (hs : s.UnionBuilt) (x : α) :
    (∃ r : Option α, s.nextByIntersect dbg x = .ok (r.map .incl) ∧ IsNext (s.pts dbg) x r) ↔
      ∀ b, IsGreatest (FirstRun (s.pts dbg)) b → succ b ≠ some x ∧ (b < x → ∀ z ∈ s.pts dbg, z < x) := by
  rcases C138_intersect dbg s hs x with ⟨h0, e⟩ | ⟨a, b, hab, hF, e⟩
  · refine ⟨fun _ b hb => ?_, fun _ => ⟨none, e, by simp [IsNext, h0]⟩⟩
    have := hb.1.1
    rw [h0] at this; exact absurd this (Set.notMem_empty b)
  have gb : IsGreatest (FirstRun (s.pts dbg)) b := by rw [hF]; exact ⟨⟨hab, le_rfl⟩, fun z hz => hz.2⟩
  have ga : IsLeast (s.pts dbg) a := by
    have : a ∈ FirstRun (s.pts dbg) := by rw [hF]; exact ⟨le_rfl, hab⟩
    refine ⟨this.1, fun z hz => ?_⟩
    by_contra g
    rw [not_le] at g
    have : z ∈ FirstRun (s.pts dbg) := ⟨hz, fun w hw => this.2 w (hw.trans g.le)⟩
    rw [hF] at this
    exact absurd this.1 (not_le.2 g)
  rw [e]
  constructor
  · rintro ⟨r, hr, hn⟩ b' hb'
    obtain rfl : b' = b := hb'.unique gb
    have h1 : succ b' ≠ some x := fun hx => by
      have hlt := (LawfulFinite.succ_some b' x hx).1
      rw [if_pos (.inr hx), max_eq_right (hab.trans hlt.le)] at hr
      cases r with
      | none => cases hr
      | some y =>
        cases hr
        have : x ∈ FirstRun (s.pts dbg) := ⟨hn.1.1, fun w hw hm => by
          rcases le_or_gt w b' with g | g
          · exact gb.1.2 w g hm
          · rw [le_antisymm hw ((LawfulFinite.succ_some b' x hx).2 w g)]; exact hn.1.1⟩
        rw [hF] at this
        exact absurd this.2 (not_le.2 hlt)
    refine ⟨h1, fun hx => ?_⟩
    rw [if_neg (by rintro (g | g); exacts [absurd g (not_le.2 hx), h1 g])] at hr
    cases r with
    | none => exact hn
    | some y => cases hr
  · intro h
    obtain ⟨h1, h2⟩ := h b gb
    by_cases hx : x ≤ b
    · refine ⟨some (max a x), by rw [if_pos (.inl hx)]; rfl, ⟨?_, le_max_right _ _⟩, fun z hz => max_le (ga.2 hz.1) hz.2⟩
      have : max a x ∈ FirstRun (s.pts dbg) := by rw [hF]; exact ⟨le_max_left _ _, max_le hab hx⟩
      exact this.1
    · refine ⟨none, by rw [if_neg (by rintro (g | g); exacts [hx g, h1 g])]; rfl, h2 (not_le.1 hx)⟩

/-- Right for 2, and for 7, after which there is nothing. -/
example : (Selection.demo [(u8 1, u8 3)]).UnionBuilt ∧
    (Selection.demo [(u8 1, u8 3)]).nextByIntersect true (u8 2) = .ok (some (.incl (u8 2))) ∧
    (Selection.demo [(u8 1, u8 3)]).nextByIntersect true (u8 7) = .ok none ∧
    (Selection.demo [(u8 1, u8 3)]).nextByIntersect true (u8 4) = .ok (some (.incl (u8 4))) ∧
    (Selection.demo [(u8 1, u8 3)]).contains true (u8 4) = .ok false :=
  ⟨Selection.demo_built _ (by decide), by decide, by decide, by decide, by decide⟩

end NI
