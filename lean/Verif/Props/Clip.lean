import Verif.SpecClip
import Verif.Props.Apart
import Verif.Props.Contract
import Verif.Props.Cut

/-! # Cutting a selection down to a window (C129) -/

namespace NI
open _root_.NI.Finite TT
variable {α : Type} [LinearOrder α] [Finite α] [LawfulFinite α]

theorem Interval.closed_pts (l u : α) : (Interval.mkClosed l u).pts = Set.Icc l u :=
  Set.ext fun x => (C21_bounded l u x).2.2.2.1

/-- By complements: right for selections of any history. -/
theorem C129_complements (dbg : Bool) (s : Selection α) (hs : s.Reachable) (l u : α) :
    ∃ s', s.clipByComplements dbg l u = .ok s' ∧ s'.Reachable ∧ s'.pts dbg = s.pts dbg ∩ Set.Icc l u := by
  have ho : (Interval.mkClosed l u).Obtainable := .mkClosed l u
  obtain ⟨s', e, r, h⟩ := (C81_selection dbg s _ hs (.ofInterval ho)).1
  refine ⟨s', e, r, ?_⟩
  rw [h, Selection.ofInterval_pts dbg ho, Interval.closed_pts]

example : (Selection.demo [(u8 0, u8 2), (u8 4, u8 6), (u8 8, u8 9)]).Reachable ∧
    (Selection.demo [(u8 0, u8 2), (u8 4, u8 6), (u8 8, u8 9)]).clipByComplements true (u8 5) (u8 8) =
      .ok (Selection.demo [(u8 5, u8 6), (u8 8, u8 8)]) :=
  ⟨(Selection.demo_built _ (by decide)).reachable, by decide⟩

/-- Interval by interval: right for selections of any history, and what is left is built by unions. -/
theorem C129_intervals (dbg : Bool) (s : Selection α) (hs : s.Reachable) (l u : α) :
    ∃ s', s.clipByIntervals dbg l u = .ok s' ∧ s'.UnionBuilt ∧ s'.pts dbg = s.pts dbg ∩ Set.Icc l u := by
  obtain ⟨is, e, o, -, c⟩ := C56_cover_partial dbg s hs
  have ho : (Interval.mkClosed l u).Obtainable := .mkClosed l u
  have hok : ∀ i ∈ is.map fun i => i.intersect (.mkClosed l u), i.Obtainable ∧ i.Real := by
    intro i hi
    obtain ⟨j, hj, rfl⟩ := List.mem_map.1 hi
    refine ⟨.intersect (o j hj) ho, ?_⟩
    rcases Interval.tight_intersect (o j hj) ho with h | ⟨p, h⟩ | ⟨a, b, h, g⟩ <;> rw [h]
    · exact .inl rfl
    · exact .inr ⟨p, by simp [Interval.contains, RawInterval.contains]⟩
    · exact .inr ⟨a, by simp [Interval.contains, RawInterval.contains, g.le]⟩
  obtain ⟨s', e', -, h⟩ := C48_from_intervals dbg _ fun i hi => (hok i hi).1
  refine ⟨s', by rw [Selection.clipByIntervals, e]; exact e', .fromIntervals hok e', ?_⟩
  ext x
  rw [h, Set.mem_inter_iff, c]
  constructor
  · rintro ⟨i, hi, hx⟩
    obtain ⟨j, hj, rfl⟩ := List.mem_map.1 hi
    rw [Interval.pts_intersect, Interval.closed_pts] at hx
    exact ⟨⟨j, hj, hx.1⟩, hx.2⟩
  · rintro ⟨⟨j, hj, h1⟩, h2⟩
    exact ⟨_, List.mem_map.2 ⟨j, hj, rfl⟩, by rw [Interval.pts_intersect, Interval.closed_pts]; exact ⟨h1, h2⟩⟩

example : (Selection.demo [(u8 0, u8 2), (u8 4, u8 6), (u8 8, u8 9)]).Reachable ∧
    (Selection.demo [(u8 0, u8 2), (u8 4, u8 6), (u8 8, u8 9)]).clipByIntervals true (u8 5) (u8 8) =
      .ok (Selection.demo [(u8 5, u8 6), (u8 8, u8 8)]) :=
  ⟨(Selection.demo_built _ (by decide)).reachable, by decide⟩

/-- By removing what is below and what is above: for a selection built by unions, the values from `l` to `u`, and an end
of the window in addition if it is a value missing alone. -/
theorem C129_minus (dbg : Bool) (s : Selection α) (hs : s.UnionBuilt) (l u : α) (hlu : l ≤ u) :
    ∃ s', s.clipByMinus dbg l u = .ok s' ∧ s'.Reachable ∧
      s'.pts dbg = (s.pts dbg ∩ Set.Icc l u) ∪ {x | (x = l ∨ x = u) ∧ s.Pinhole dbg x} := by
  have v := Selection.reachable_valid hs.reachable
  have pl : (Interval.unboundedUpTo l).pts = Set.Iio l := Set.ext fun x => (C21_unbounded l x).2.2.2.1
  have pu : (Interval.unboundedUpFrom u).pts = Set.Ioi u := Set.ext fun x => (C21_unbounded u x).2.2.1
  have rl : (Interval.unboundedUpTo l).Real := by
    cases e : pred l with
    | none => exact .inl (by simp [Interval.unboundedUpTo, RawInterval.normalized, e, Interval.isEmpty])
    | some p => exact .inr ⟨p, (C21_unbounded l p).2.2.2.1.2 (LawfulFinite.pred_some l p e).1⟩
  have ru : (Interval.unboundedUpFrom u).Real := by
    cases e : succ u with
    | none => exact .inl (by simp [Interval.unboundedUpFrom, RawInterval.normalized, e, Interval.isEmpty])
    | some p => exact .inr ⟨p, (C21_unbounded u p).2.2.1.2 (LawfulFinite.succ_some u p e).1⟩
  obtain ⟨s1, e1, r1, -⟩ := C50_removes_partial dbg s hs.reachable (.unboundedUpTo l) (.unboundedUpTo l)
  obtain ⟨s2, e2, r2, -⟩ := C50_removes_partial dbg s1 r1 (.unboundedUpFrom u) (.unboundedUpFrom u)
  refine ⟨s2, by rw [Selection.clipByMinus, e1]; exact e2, r2, ?_⟩
  obtain ⟨s3, e3, v3, k⟩ := Selection.steps_looks dbg v
    (cs := [.remove (.unboundedUpTo l), .remove (.unboundedUpFrom u)]) fun d hd => by
      simp only [List.mem_cons, List.not_mem_nil, or_false] at hd
      rcases hd with rfl | rfl
      exacts [⟨.unboundedUpTo l, rl⟩, ⟨.unboundedUpFrom u, ru⟩]
  have : s3 = s2 := by
    simp only [Selection.steps, List.foldlM, e1, bind, Except.bind, e2] at e3
    exact (Except.ok.inj e3).symm
  subst this
  ext x
  have lk := (k x _ (Selection.built_looks dbg hs x)).2.1
  rw [Selection.mem_pts dbg v3, lk]
  simp only [Spot.steps, List.foldl, Spot.step, Spot.remove, Spot.of, pl, pu, Set.mem_Iio, Set.mem_Ioi,
    Set.mem_union, Set.mem_inter_iff, Set.mem_Icc, Set.mem_ofPred_eq, C73_pinhole_built dbg s hs]
  have atl : ∀ p, pred x = some p → p < l → x ≤ l := fun p e h => by
    by_contra g
    exact absurd ((LawfulFinite.pred_some x p e).2 l (not_le.1 g)) (not_le.2 h)
  have atu : ∀ q, succ x = some q → u < q → u ≤ x := fun q e h => by
    by_contra g
    exact absurd ((LawfulFinite.succ_some x q e).2 u (not_le.1 g)) (not_le.2 h)
  have hole : (x ∈ s.pts dbg ∨ ∃ p ∈ s.pts dbg, pred x = some p) → (x ∈ s.pts dbg ∨ ∃ q ∈ s.pts dbg, succ x = some q) →
      x ∈ s.pts dbg ∨ (x ∉ s.pts dbg ∧ (∃ p ∈ s.pts dbg, pred x = some p) ∧ ∃ q ∈ s.pts dbg, succ x = some q) := by
    rintro (h | h) (h' | h')
    · exact .inl h
    · exact .inl h
    · exact .inl h'
    · by_cases g : x ∈ s.pts dbg
      exacts [.inl g, .inr ⟨g, h, h'⟩]
  constructor
  · rintro ⟨hu, ⟨hl, h | ⟨h1, h2, g⟩⟩ | ⟨⟨h1, -⟩, ⟨h2, hl⟩, g⟩⟩
    · exact .inl ⟨h, not_lt.1 hl, not_lt.1 hu⟩
    · rcases hole h1 h2 with h | h
      · exact .inl ⟨h, not_lt.1 hl, not_lt.1 hu⟩
      refine .inr ⟨.inl ?_, h⟩
      rcases g with (g | ⟨p, g, e⟩) | (g | ⟨q, g, e⟩)
      · exact absurd g hl
      · exact le_antisymm (atl p e g) (not_lt.1 hl)
      · exact absurd g hl
      · exact absurd ((LawfulFinite.succ_some x q e).1.trans g) hl
    · have hl : ¬ x < l := fun g => hl (.inl g)
      rcases hole h1 h2 with h | h
      · exact .inl ⟨h, not_lt.1 hl, not_lt.1 hu⟩
      refine .inr ⟨.inr ?_, h⟩
      rcases g with (g | ⟨p, g, e⟩) | (g | ⟨q, g, e⟩)
      · exact absurd g hu
      · exact absurd (lt_trans g (LawfulFinite.pred_some x p e).1) hu
      · exact absurd g hu
      · exact le_antisymm (not_lt.1 hu) (atu q e g)
  · rintro (⟨h, hl, hu⟩ | ⟨hx, -, ⟨p, hp, ep⟩, q, hq, eq⟩)
    · exact ⟨not_lt.2 hu, .inl ⟨not_lt.2 hl, .inl h⟩⟩
    · have gp := LawfulFinite.pred_some x p ep
      have gq := LawfulFinite.succ_some x q eq
      by_cases hxl : x = l
      · exact ⟨not_lt.2 (hxl.le.trans hlu), .inl ⟨not_lt.2 hxl.ge,
          .inr ⟨.inr ⟨p, hp, ep⟩, .inr ⟨q, hq, eq⟩, .inl (.inr ⟨p, gp.1.trans_le hxl.le, ep⟩)⟩⟩⟩
      · obtain rfl : x = u := hx.resolve_left hxl
        have hlx : l < x := lt_of_le_of_ne hlu (Ne.symm hxl)
        refine ⟨lt_irrefl _, .inr ⟨⟨.inr ⟨p, hp, ep⟩, ?_⟩, ⟨.inr ⟨q, hq, eq⟩, ?_⟩, .inr (.inr ⟨q, gq.1, eq⟩)⟩⟩
        · rintro (g | ⟨p', g, e'⟩)
          · exact absurd g hlx.not_gt
          · exact absurd (atl p' e' g) (not_le.2 hlx)
        · rintro (g | ⟨q', g, e'⟩)
          · exact absurd g hlx.not_gt
          · exact absurd ((LawfulFinite.succ_some x q' e').1.trans g) hlx.not_gt

/-- 5 to 7: the 7 comes in. -/
example : (Selection.demo [(u8 0, u8 2), (u8 4, u8 6), (u8 8, u8 9)]).UnionBuilt ∧ u8 5 ≤ u8 7 ∧
    (do (← (Selection.demo [(u8 0, u8 2), (u8 4, u8 6), (u8 8, u8 9)]).clipByMinus true (u8 5) (u8 7)).contains true (u8 8)) =
      .ok false ∧
    (do (← (Selection.demo [(u8 0, u8 2), (u8 4, u8 6), (u8 8, u8 9)]).clipByMinus true (u8 5) (u8 7)).contains true (u8 7)) =
      .ok true :=
  ⟨Selection.demo_built _ (by decide), by decide, by decide, by decide⟩

/-- What a selection of one interval lists. -/
theorem Selection.window_list (dbg : Bool) {l u : α} (hlu : l ≤ u) :
    (Selection.ofInterval (Interval.mkClosed l u)).UnionBuilt ∧
    ∃ w, (Selection.ofInterval (Interval.mkClosed l u)).intervals dbg = .ok [w] ∧ w.pts = Set.Icc l u := by
  have ho : (Interval.mkClosed l u).Obtainable := .mkClosed l u
  have hl : (Interval.mkClosed l u).contains l = true := (C21_bounded l u l).2.2.2.1.2 ⟨le_rfl, hlu⟩
  refine ⟨.ofInterval ho (.inr ⟨l, hl⟩), ?_⟩
  obtain ⟨bs, e, hb⟩ := C105_list dbg _ ho
  split at hb
  · rename_i hn
    rw [Interval.contains, (RawInterval.isEmpty_iff _).1 hn] at hl
    cases hl
  · obtain ⟨w, rfl, hw⟩ := List.map_eq_singleton_iff.1 hb
    exact ⟨w, e, by rw [hw, Interval.closed_pts]⟩

/-- By `intersect` with the window: of a selection built by unions only the first run is cut, the others are lost. -/
theorem C129_intersect (dbg : Bool) (s : Selection α) (hs : s.UnionBuilt) (l u : α) (hlu : l ≤ u) :
    ∃ s', s.clipByIntersect dbg l u = .ok s' ∧ s'.pts dbg = FirstRun (s.pts dbg) ∩ Set.Icc l u := by
  classical
  obtain ⟨uw, w, ew, hw⟩ := Selection.window_list dbg hlu
  obtain ⟨js, e, -, -, c⟩ := C56_cover_partial dbg s hs.reachable
  obtain ⟨⟨s', e', h⟩, -⟩ := C52_formula dbg s _ hs uw js [w] e ew (fun i j => decide (i.Near j)) (by simp)
  refine ⟨s', e', Set.ext fun x => (h x).trans ?_⟩
  cases js with
  | nil =>
    constructor
    · rintro ⟨i, j, h, -⟩
      exact absurd h nil_together
    · rintro ⟨⟨h, -⟩, -⟩
      obtain ⟨j, hj, -⟩ := (c x).1 h; simp at hj
  | cons j js =>
    rw [Set.mem_inter_iff, Selection.first_run dbg hs e (j := j) rfl, ← hw]
    constructor
    · rintro ⟨i, i', ⟨k, h1, h2⟩, hx⟩
      cases k with
      | succ k => simp at h1
      | zero =>
        simp only [List.getElem?_cons_zero, Option.some.injEq] at h1
        simp only [List.take_zero, finger, List.getElem?_cons_zero, Option.some.injEq] at h2
        subst h1 h2
        exact hx
    · exact fun hx => ⟨j, w, ⟨0, rfl, rfl⟩, hx⟩

example : (Selection.demo [(u8 0, u8 2), (u8 4, u8 6), (u8 8, u8 9)]).UnionBuilt ∧ u8 1 ≤ u8 8 ∧
    (Selection.demo [(u8 0, u8 2), (u8 4, u8 6), (u8 8, u8 9)]).clipByIntersect true (u8 1) (u8 8) =
      .ok (Selection.demo [(u8 1, u8 2)]) ∧
    (Selection.demo [(u8 0, u8 2), (u8 4, u8 6), (u8 8, u8 9)]).clipByIntersect true (u8 5) (u8 8) = .ok .new :=
  ⟨Selection.demo_built _ (by decide), by decide, by decide, by decide⟩

theorem single_together {β γ : Type _} {meets : β → γ → Bool} {w s : β} {bs : List γ} {o : γ} :
    Together meets [w] bs s o ↔ s = w ∧ ∃ l1 l2, bs = l1 ++ o :: l2 ∧ ∀ j ∈ l1, meets w j = true := by
  induction bs with
  | nil =>
    constructor
    · rintro ⟨k, h, -⟩; simp at h
    · rintro ⟨-, l1, l2, h, -⟩; simp at h
  | cons b bs ih =>
    have first : ∀ l1 l2, b :: bs = l1 ++ o :: l2 → (l1 = [] ∧ o = b) ∨ ∃ l, l1 = b :: l ∧ bs = l ++ o :: l2 := by
      intro l1 l2 h
      cases l1 with
      | nil => simp only [List.nil_append, List.cons.injEq] at h; exact .inl ⟨rfl, h.1.symm⟩
      | cons c l => simp only [List.cons_append, List.cons.injEq] at h; exact .inr ⟨l, by rw [h.1], h.2⟩
    cases hm : meets w b with
    | true =>
      rw [together_meet hm, ih]
      constructor
      · rintro (⟨rfl, rfl⟩ | ⟨rfl, l1, l2, rfl, h⟩)
        · exact ⟨rfl, [], bs, rfl, by simp⟩
        · exact ⟨rfl, b :: l1, l2, rfl, by simpa [hm] using h⟩
      · rintro ⟨rfl, l1, l2, hb, h⟩
        rcases first l1 l2 hb with ⟨rfl, rfl⟩ | ⟨l, rfl, rfl⟩
        · exact .inl ⟨rfl, rfl⟩
        · exact .inr ⟨rfl, l, l2, rfl, fun j hj => h j (by simp [hj])⟩
    | false =>
      rw [together_miss hm]
      constructor
      · rintro (⟨rfl, rfl⟩ | h)
        · exact ⟨rfl, [], bs, rfl, by simp⟩
        · exact absurd h nil_together
      · rintro ⟨rfl, l1, l2, hb, h⟩
        rcases first l1 l2 hb with ⟨rfl, rfl⟩ | ⟨l, rfl, rfl⟩
        · exact .inl ⟨rfl, rfl⟩
        · have := h b (by simp)
          rw [hm] at this; cases this

/-- The listed intervals are the runs. -/
theorem Selection.run_of (dbg : Bool) {s : Selection α} (hs : s.Tidy) {js : List (Interval α)}
    (e : s.intervals dbg = .ok js) {j : Interval α} (hj : j ∈ js) {m : α} (hm : m ∈ j.pts) :
    RunOf (s.pts dbg) m = j.pts := by
  obtain ⟨l, u, hlu, hp, h1, h2⟩ := C56_maximal_partial dbg s hs js e j hj
  obtain ⟨js', e', -, -, c⟩ := C56_cover_partial dbg s hs.reachable
  rw [e] at e'; cases e'
  rw [hp] at hm
  ext y
  rw [hp]
  constructor
  · intro hy
    constructor
    · by_contra g
      rw [not_le] at g
      cases ep : pred l with
      | none => exact absurd ((LawfulFinite.pred_none l).1 ep ▸ g) (not_lt.2 (LawfulFinite.min_le y))
      | some p =>
        have := LawfulFinite.pred_some l p ep
        exact h1 p ep (hy p ((min_le_right _ _).trans (this.2 y g)) ((this.1.le.trans hm.1).trans (le_max_left _ _)))
    · by_contra g
      rw [not_le] at g
      cases ep : succ u with
      | none => exact absurd ((LawfulFinite.succ_none u).1 ep ▸ g) (not_lt.2 (LawfulFinite.le_max y))
      | some p =>
        have := LawfulFinite.succ_some u p ep
        exact h2 p ep (hy p ((min_le_left _ _).trans (hm.2.trans this.1.le)) ((this.2 y g).trans (le_max_right _ _)))
  · intro hy z hz hz'
    exact (c z).2 ⟨j, hj, hp ▸ ⟨(le_min hm.1 hy.1).trans hz, hz'.trans (max_le hm.2 hy.2)⟩⟩

/-- By `intersect` of the window with the selection: what is kept ends with the first run that does not touch the
window. -/
theorem C129_from_intersect (dbg : Bool) (s : Selection α) (hs : s.UnionBuilt) (l u : α) (hlu : l ≤ u) :
    ∃ s', s.clipFromIntersect dbg l u = .ok s' ∧ s'.pts dbg = NearRuns (s.pts dbg) (Set.Icc l u) ∩ Set.Icc l u := by
  classical
  obtain ⟨uw, w, ew, hw⟩ := Selection.window_list dbg hlu
  obtain ⟨js, e, -, hinc, c⟩ := C56_cover_partial dbg s hs.reachable
  obtain ⟨⟨s', e', h⟩, -⟩ := C52_formula dbg _ s uw hs [w] js ew e (fun i j => decide (i.Near j)) (by simp)
  refine ⟨s', e', Set.ext fun x => (h x).trans ?_⟩
  constructor
  · rintro ⟨i, j, hT, hx, hxj⟩
    obtain ⟨rfl, l1, l2, rfl, hn⟩ := single_together.1 hT
    refine ⟨⟨(c x).2 ⟨j, by simp, hxj⟩, fun m hm hmx => ?_⟩, hw ▸ hx⟩
    obtain ⟨k, hk, hmk⟩ := (c m).1 hm
    rw [Selection.run_of dbg (.inl hs) e hk hmk]
    rw [List.mem_append, List.mem_cons] at hk
    rcases hk with hk | rfl | hk
    · obtain ⟨a, ha, b, hb, g⟩ := of_decide_eq_true (hn k hk)
      exact Touching.symm ⟨a, hw ▸ ha, b, hb, g⟩
    · exact ⟨x, hxj, x, hw ▸ hx, .inl rfl⟩
    · have := (List.pairwise_append.1 hinc).2.1
      exact absurd ((List.pairwise_cons.1 this).1 k hk x hxj m hmk) (not_lt.2 hmx)
  · rintro ⟨⟨hx, hn⟩, hxw⟩
    obtain ⟨j, hj, hxj⟩ := (c x).1 hx
    obtain ⟨l1, l2, rfl⟩ := List.append_of_mem hj
    refine ⟨w, j, single_together.2 ⟨rfl, l1, l2, rfl, fun k hk => ?_⟩, hw ▸ hxw, hxj⟩
    have hk' : k ∈ l1 ++ j :: l2 := by simp [hk]
    obtain ⟨a, b, hab, hp, -⟩ := C56_maximal_partial dbg s (.inl hs) _ e k hk'
    have ha : a ∈ k.pts := hp ▸ ⟨le_rfl, hab⟩
    have hlt := (List.pairwise_append.1 hinc).2.2 k hk j (by simp) a ha x hxj
    have := hn a ((c a).2 ⟨k, hk', ha⟩) hlt.le
    rw [Selection.run_of dbg (.inl hs) e hk' ha] at this
    obtain ⟨y, hy, z, hz, g⟩ := this.symm
    exact decide_eq_true ⟨y, hw.symm ▸ hy, z, hz, g⟩

example : (Selection.demo [(u8 0, u8 2), (u8 4, u8 6), (u8 8, u8 9)]).UnionBuilt ∧ u8 1 ≤ u8 8 ∧
    (Selection.demo [(u8 0, u8 2), (u8 4, u8 6), (u8 8, u8 9)]).clipFromIntersect true (u8 1) (u8 8) =
      .ok (Selection.demo [(u8 1, u8 2), (u8 4, u8 6), (u8 8, u8 8)]) ∧
    (Selection.demo [(u8 0, u8 2), (u8 4, u8 6), (u8 8, u8 9)]).clipFromIntersect true (u8 5) (u8 8) = .ok .new :=
  ⟨Selection.demo_built _ (by decide), by decide, by decide, by decide⟩

end NI
