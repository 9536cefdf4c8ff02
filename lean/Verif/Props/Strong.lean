import Verif.Lemmas.Strong
import Verif.Props.Canon
import Verif.Props.More

/-!
# Sharper forms of C11 (ordered arguments) and of C24, C25, C26, C28, C31, C32, C65 (exactly when)
-/

set_option linter.unusedSimpArgs false
set_option linter.unusedVariables false
set_option linter.unusedSectionVars false

namespace NI

/-! ## C11 on ordered arguments -/

section Raw
variable {α : Type} [LinearOrder α]

/-- On intervals in ascending order `union_all` returns the intervals of the tree collected from
them: non-empty, in order, and with something missing between any two.
Missing from the full property: arguments in other orders, see `C11_counterexample`. -/
theorem C11_ascending_partial (dbg : Bool) (is : List (RawInterval α)) (hw : ∀ i ∈ is, i.WF)
    (hs : is.Pairwise RawInterval.StartsBefore) :
    RawInterval.Canonical (RawInterval.unionAll is) ∧
    ∃ t, TineTree.fromIter dbg is = .ok t ∧
      TineTree.intervals dbg t = .ok (RawInterval.unionAll is) := by
  obtain ⟨h1, h2, h3⟩ := TT.unionAll_ascending is hw hs
  obtain ⟨t, e, v, c⟩ := TT.fromIter_ok dbg is hw
  exact ⟨(TT.canonical_iff _).2 ⟨h1, h2⟩, t, e, by
    rw [TT.intervals_eq dbg v, TT.pieces_unique v h1 h2 fun aft k hr => by
      rw [c]; exact (h3 aft k hr).symm]⟩

example : (∀ i ∈ [RawInterval.to (0 : Int), .closed 0 4, .empty, .opn 4 6, .opn 6 9], i.WF) ∧
    [RawInterval.to (0 : Int), .closed 0 4, .empty, .opn 4 6, .opn 6 9].Pairwise
      RawInterval.StartsBefore ∧
    RawInterval.unionAll [RawInterval.to (0 : Int), .closed 0 4, .empty, .opn 4 6, .opn 6 9] =
      [.upTo 6, .opn 6 9] := by
  refine ⟨by decide, ?_, by decide⟩
  simp [RawInterval.StartsBefore, RawInterval.lowerBound, Bound.NotBehind]

/-- For two intervals `union_all` returns what `union` returns. -/
theorem C11_two (a b : RawInterval α) (ha : a.WF) : RawInterval.unionAll [a, b] = a.union b := by
  cases e1 : a.isEmpty <;> cases e2 : b.isEmpty <;>
    simp only [RawInterval.unionAll, RawInterval.union, List.filter_cons, e1, e2, Bool.not_true,
      Bool.not_false, if_true, Bool.false_eq_true, if_false, List.filter_nil, List.foldl_cons,
      List.foldl_nil, RawInterval.unionAllStep, RawInterval.unionAllMerge]
  split_ifs with h h' h'
  · subst h
    have : ∀ i : RawInterval α, i.enclose .full = .full := by intro i; cases i <;> rfl
    rw [this]
  · subst h
    exfalso
    apply h'
    rw [Bool.or_eq_true]
    left
    rcases a.bounds_cases with ⟨rfl, -⟩ | ⟨la, ua, a1, a2, -⟩
    · cases e1
    · rw [RawInterval.intersect_isEmpty a1 a2 (b := .full) rfl rfl]
      have := RawInterval.wf_compat ha a1 a2
      refine ⟨⟨this, ?_⟩, ?_, ?_⟩
      · trivial
      · cases la <;> trivial
      · cases ua <;> trivial
  · rfl
  · rfl

example : RawInterval.unionAll [RawInterval.closed (4 : Int) 9, .opn 0 4] = [.leftOpen 0 9] := by decide

end Raw

section Interval
variable {α : Type} [LinearOrder α] [Finite α] [LawfulFinite α]
open Finite

/-- The open interval between two neighbours: what it is. -/
theorem Interval.mkOpen_succ {l u : α} (h : succ l = some u) : Interval.mkOpen l u = ⟨.closed u l⟩ := by
  have hlt := (LawfulFinite.succ_some l u h).1
  simp [Interval.mkOpen, RawInterval.mkOpen, hlt, RawInterval.normalized, h, pred_of_succ h]

/-- An obtainable interval either reports emptiness right, or is the open interval between two
neighbours. -/
theorem Interval.real_iff {i : Interval α} (h : i.Obtainable) :
    i.Real ↔ ∀ l u, succ l = some u → i ≠ .mkOpen l u := by
  constructor
  · rintro hr l u hs rfl
    rw [Interval.mkOpen_succ hs, Interval.real_mk_closed] at hr
    exact absurd hr (not_le.2 (LawfulFinite.succ_some l u hs).1)
  · intro hn
    rcases Interval.obtainable_cases h with rfl | ⟨p, rfl⟩ | ⟨l, u, rfl, hlu⟩
    · exact Interval.real_mk_empty
    · exact Interval.real_mk_point p
    · rcases hlu with hlu | hlu
      · exact Interval.real_mk_closed.2 hlu
      · exact absurd (Interval.mkOpen_succ hlu).symm (hn _ _ hlu)

/-- `is_empty` is right about an interval exactly if that is not the open interval between two
neighbours. -/
theorem C24_exact_iff (i : Interval α) (h : i.Obtainable) :
    (i.isEmpty = true ↔ ∀ x, i.contains x = false) ↔ ∀ l u, succ l = some u → i ≠ .mkOpen l u := by
  rw [← Interval.real_iff h]
  refine ⟨fun hi => ?_, C24_real i h⟩
  by_cases he : ∀ x, i.contains x = false
  · exact .inl (hi.2 he)
  · push Not at he
    obtain ⟨x, hx⟩ := he
    exact .inr ⟨x, by simpa using hx⟩

example : (∀ l u : U8, succ l = some u → Interval.mkOpen (u8 3) (u8 5) ≠ .mkOpen l u) ∧
    (∃ l u : U8, succ l = some u ∧ Interval.mkOpen (u8 3) (u8 4) = .mkOpen l u) := by
  refine ⟨?_, u8 3, u8 4, by decide, rfl⟩
  rw [← Interval.real_iff (.mkOpen _ _)]
  exact .inr ⟨u8 4, by decide⟩

/-- The same for `into_non_empty`. -/
theorem C65_exact_iff (i : Interval α) (h : i.Obtainable) :
    (i.intoNonEmpty = none ↔ ∀ x, i.contains x = false) ↔
      ∀ l u, succ l = some u → i ≠ .mkOpen l u := by
  rw [← C24_exact_iff i h]
  have : i.intoNonEmpty = none ↔ i.isEmpty = true := by
    unfold Interval.intoNonEmpty; split_ifs <;> simp [*]
  rw [this]

example : (Interval.mkOpen (u8 3) (u8 4)).intoNonEmpty = some (Interval.mkOpen (u8 3) (u8 4)) ∧
    (Interval.mkOpen (u8 3) (u8 4)).contains (u8 3) = false ∧ (Interval.mkOpen (u8 3) (u8 4)).contains (u8 4) = false := by
  decide

/-- The same for `infimum` and for `supremum`. -/
theorem C31_exact_iff (i : Interval α) (h : i.Obtainable) :
    ((∀ m, i.infimum = some m ↔ IsLeast i.pts m) ↔ ∀ l u, succ l = some u → i ≠ .mkOpen l u) ∧
    ((∀ m, i.supremum = some m ↔ IsGreatest i.pts m) ↔ ∀ l u, succ l = some u → i ≠ .mkOpen l u) := by
  rw [← Interval.real_iff h]
  have key : i.Real ∨ ∃ l u, u < l ∧ i = ⟨.closed l u⟩ := by
    rcases Interval.obtainable_cases h with rfl | ⟨p, rfl⟩ | ⟨l, u, rfl, hlu⟩
    · exact .inl Interval.real_mk_empty
    · exact .inl (Interval.real_mk_point p)
    · rcases le_or_gt l u with hl | hl
      · exact .inl (Interval.real_mk_closed.2 hl)
      · exact .inr ⟨l, u, hl, rfl⟩
  refine ⟨⟨fun hi => ?_, fun hr => (C31_extrema_partial i h hr).1⟩,
    fun hi => ?_, fun hr => (C31_extrema_partial i h hr).2.1⟩
  · refine key.resolve_right ?_
    rintro ⟨l, u, hlu, rfl⟩
    have := ((hi l).1 rfl).1
    rw [Interval.pts_eq] at this
    exact absurd (le_trans this.1 this.2) (not_le.2 hlu)
  · refine key.resolve_right ?_
    rintro ⟨l, u, hlu, rfl⟩
    have := ((hi u).1 rfl).1
    rw [Interval.pts_eq] at this
    exact absurd (le_trans this.1 this.2) (not_le.2 hlu)

example : (Interval.mkOpen (u8 3) (u8 4)).infimum = some (u8 4) ∧ (Interval.mkOpen (u8 3) (u8 4)).supremum = some (u8 3) ∧
    (Interval.mkOpen (u8 3) (u8 7)).infimum = some (u8 4) := by decide

/-- Iteration is right for all sequences of calls exactly if the interval is not the open interval
between two neighbours. -/
theorem C32_exact_iff (i : Interval α) (h : i.Obtainable) :
    (∀ cs, ∃ os, drive Interval.next Interval.nextBack i cs = .ok os ∧ Walk i.pts cs os) ↔
      ∀ l u, succ l = some u → i ≠ .mkOpen l u := by
  rw [← Interval.real_iff h]
  refine ⟨fun hi => ?_, fun hr => C32_iteration_partial i h hr⟩
  rcases Interval.obtainable_cases h with rfl | ⟨p, rfl⟩ | ⟨l, u, rfl, hlu⟩
  · exact Interval.real_mk_empty
  · exact Interval.real_mk_point p
  · obtain ⟨os, e, w⟩ := hi [.next]
    have : ∃ j, drive Interval.next Interval.nextBack (⟨.closed l u⟩ : Interval α) [.next] =
        .ok [some j] := ⟨l, rfl⟩
    obtain ⟨j, ej⟩ := this
    rw [ej] at e
    cases e
    cases w with
    | next hl _ => exact .inr ⟨j, hl.1⟩

example : drive Interval.next Interval.nextBack (Interval.mkOpen (u8 3) (u8 7)) [.nextBack, .next, .next, .next] =
    .ok [some (u8 6), some (u8 4), some (u8 5), none] ∧
    drive Interval.next Interval.nextBack (Interval.mkOpen (u8 3) (u8 4)) [.next] = .ok [some (u8 4)] := by decide

/-- The spelling of an interval tells how many points it has. -/
def Interval.Tight (i : Interval α) : Prop :=
  i = ⟨.empty⟩ ∨ (∃ p, i = ⟨.point p⟩) ∨ ∃ l u, i = ⟨.closed l u⟩ ∧ l < u

theorem Interval.tight_closed (l u : α) : (Interval.mkClosed l u).Tight := by
  rw [Interval.mkClosed, RawInterval.mkClosed]
  split_ifs with h1 h2
  · exact .inr (.inr ⟨l, u, rfl, h1⟩)
  · exact .inr (.inl ⟨l, rfl⟩)
  · exact .inl rfl

theorem Interval.tight_intersect {a b : Interval α} (ha : a.Obtainable) (hb : b.Obtainable) :
    (a.intersect b).Tight := by
  have hid : ∀ l u : α, Interval.ofRaw (RawInterval.mkClosed l u).normalized = .mkClosed l u :=
    fun l u => by rw [Interval.ofRaw, RawInterval.normalized_idem]; rfl
  rcases Interval.incl_bounds ha with rfl | ⟨la, ua, a1, a2, -⟩
  · exact .inl rfl
  rcases Interval.incl_bounds hb with rfl | ⟨lb, ub, b1, b2, -⟩
  · refine .inl ?_
    rw [Interval.intersect, RawInterval.intersect_empty_right]
    rfl
  · have h1 : ∃ l, (Bound.incl la).greatestIntersect (.incl lb) = .incl l := by
      simp only [Bound.greatestIntersect]; split_ifs <;> exact ⟨_, rfl⟩
    have h2 : ∃ u, (Bound.incl ua).leastIntersect (.incl ub) = .incl u := by
      simp only [Bound.leastIntersect]; split_ifs <;> exact ⟨_, rfl⟩
    obtain ⟨l, h1⟩ := h1
    obtain ⟨u, h2⟩ := h2
    rw [Interval.intersect, RawInterval.intersect_of_bounds a1 a2 b1 b2, h1, h2]
    split_ifs
    · rw [show RawInterval.new (.incl l) (.incl u) = RawInterval.mkClosed l u from rfl, hid]
      exact Interval.tight_closed l u
    · exact .inl rfl

theorem Interval.tight_count {i : Interval α} (h : i.Tight) :
    (i.isEmpty = true ↔ ∀ x, i.contains x = false) ∧
    (i.isDegenerate = true ↔ ∃ x, ∀ y, i.contains y = true ↔ y = x) ∧
    (i.isProper = true ↔ ∃ x y, x ≠ y ∧ i.contains x = true ∧ i.contains y = true) := by
  rcases h with rfl | ⟨p, rfl⟩ | ⟨l, u, rfl, hlu⟩
  · refine ⟨by simp [Interval.isEmpty, Interval.contains, RawInterval.contains], ?_, ?_⟩
    · simp only [Interval.isDegenerate, Interval.contains, RawInterval.contains]
      constructor
      · intro h; cases h
      · rintro ⟨x, hx⟩; simpa using hx x
    · simp [Interval.isProper, Interval.contains, RawInterval.contains]
  · refine ⟨?_, ?_, ?_⟩
    · simp only [Interval.isEmpty, Interval.contains, RawInterval.contains]
      exact ⟨fun h => (by cases h), fun h => by simpa using h p⟩
    · simp only [Interval.isDegenerate, Interval.contains, RawInterval.contains]
      exact ⟨fun _ => ⟨p, by simp⟩, fun _ => trivial⟩
    · simp only [Interval.isProper, Interval.contains, RawInterval.contains]
      refine ⟨fun h => (by cases h), ?_⟩
      rintro ⟨x, y, hne, hx, hy⟩
      exact absurd ((of_decide_eq_true hx).trans (of_decide_eq_true hy).symm) hne
  · have hm : ∀ x, (⟨.closed l u⟩ : Interval α).contains x = true ↔ l ≤ x ∧ x ≤ u := by
      intro x; simp [Interval.contains, RawInterval.contains]
    refine ⟨?_, ?_, ?_⟩
    · refine ⟨fun h => (by cases h), fun h => ?_⟩
      have := (hm l).2 ⟨le_refl _, hlu.le⟩
      rw [h l] at this; cases this
    · refine ⟨fun h => (by cases h), ?_⟩
      rintro ⟨x, hx⟩
      have e1 := (hx l).1 ((hm l).2 ⟨le_refl _, hlu.le⟩)
      have e2 := (hx u).1 ((hm u).2 ⟨hlu.le, le_refl _⟩)
      exact absurd (e1.trans e2.symm) (ne_of_lt hlu)
    · exact ⟨fun _ => ⟨l, u, ne_of_lt hlu, (hm l).2 ⟨le_refl _, hlu.le⟩, (hm u).2 ⟨hlu.le, le_refl _⟩⟩,
        fun _ => rfl⟩

theorem Interval.tight_ext {i j : Interval α} (hi : i.Tight) (hj : j.Tight)
    (h : ∀ x, i.contains x = j.contains x) : i = j := by
  have p : ∀ p x : α, (⟨.point p⟩ : Interval α).contains x = true ↔ x = p := by
    intro p x; simp [Interval.contains, RawInterval.contains]
  have c : ∀ l u x : α, (⟨.closed l u⟩ : Interval α).contains x = true ↔ l ≤ x ∧ x ≤ u := by
    intro l u x; simp [Interval.contains, RawInterval.contains]
  have e : ∀ x : α, (⟨.empty⟩ : Interval α).contains x = true ↔ False := by
    intro x; simp [Interval.contains, RawInterval.contains]
  have h : ∀ x, i.contains x = true ↔ j.contains x = true := fun x => by rw [h]
  rcases hi with rfl | ⟨q, rfl⟩ | ⟨l, u, rfl, hlu⟩ <;> rcases hj with rfl | ⟨q', rfl⟩ | ⟨l', u', rfl, hlu'⟩ <;>
    simp only [p, c, e] at h
  · rfl
  · exact absurd rfl (h q').2
  · exact absurd ⟨le_refl _, hlu'.le⟩ (h l').2
  · exact absurd rfl (h q).1
  · rw [(h q).1 rfl]
  · have h1 := (h l').2 ⟨le_refl _, hlu'.le⟩
    have h2 := (h u').2 ⟨hlu'.le, le_refl _⟩
    exact absurd (h1.trans h2.symm) (ne_of_lt hlu')
  · exact absurd ⟨le_refl _, hlu.le⟩ (h l).1
  · have h1 := (h l).1 ⟨le_refl _, hlu.le⟩
    have h2 := (h u).1 ⟨hlu.le, le_refl _⟩
    exact absurd (h1.trans h2.symm) (ne_of_lt hlu)
  · have h1 := (h l).1 ⟨le_refl _, hlu.le⟩
    have h2 := (h u).1 ⟨hlu.le, le_refl _⟩
    have h3 := (h l').2 ⟨le_refl _, hlu'.le⟩
    have h4 := (h u').2 ⟨hlu'.le, le_refl _⟩
    rw [le_antisymm h3.1 h1.1, le_antisymm h2.2 h4.2]

/-- What the three predicates say about an interval made by a constructor. -/
theorem C25_constructors (l u : α) :
    ((Interval.mkClosed l u).isEmpty = true ↔ u < l) ∧
    ((Interval.mkClosed l u).isDegenerate = true ↔ l = u) ∧
    ((Interval.mkClosed l u).isProper = true ↔ l < u) ∧
    ((Interval.mkOpen l u).isEmpty = true ↔ u ≤ l) ∧
    (Interval.mkOpen l u).isDegenerate = false ∧
    ((Interval.mkOpen l u).isProper = true ↔ l < u) ∧
    (∀ i ∈ [Interval.mkLeftOpen l u, .mkRightOpen l u, .mkLeftClosed l u, .mkRightClosed l u],
      (i.isEmpty = true ↔ u < l) ∧ (i.isDegenerate = true ↔ l = u) ∧ (i.isProper = true ↔ l < u)) := by
  have s : l < u → (∃ s, succ l = some s) ∧ ∃ p, pred u = some p := by
    intro h
    constructor
    · cases e : succ l with
      | none => exact absurd (not_gt_of_succ e u) (not_le.2 h)
      | some s => exact ⟨s, rfl⟩
    · cases e : pred u with
      | none => exact absurd (not_lt_of_pred e l) (not_le.2 h)
      | some s => exact ⟨s, rfl⟩
  rcases lt_trichotomy l u with h | h | h
  · obtain ⟨⟨a, ha⟩, b, hb⟩ := s h
    have h1 : ¬ u < l := not_lt.2 h.le
    have h2 : ¬ l = u := ne_of_lt h
    simp [Interval.mkClosed, Interval.mkOpen, Interval.mkLeftOpen, Interval.mkRightOpen,
      Interval.mkLeftClosed, Interval.mkRightClosed, RawInterval.mkClosed, RawInterval.mkOpen,
      RawInterval.mkLeftOpen, RawInterval.mkRightOpen, h, h1, h2, RawInterval.normalized, ha, hb,
      Interval.isEmpty, Interval.isDegenerate, Interval.isProper]
  · subst h
    simp [Interval.mkClosed, Interval.mkOpen, Interval.mkLeftOpen, Interval.mkRightOpen,
      Interval.mkLeftClosed, Interval.mkRightClosed, RawInterval.mkClosed, RawInterval.mkOpen,
      RawInterval.mkLeftOpen, RawInterval.mkRightOpen, RawInterval.normalized,
      Interval.isEmpty, Interval.isDegenerate, Interval.isProper]
  · have h1 : ¬ l < u := not_lt.2 h.le
    have h2 : ¬ l = u := ne_of_gt h
    simp [Interval.mkClosed, Interval.mkOpen, Interval.mkLeftOpen, Interval.mkRightOpen,
      Interval.mkLeftClosed, Interval.mkRightClosed, RawInterval.mkClosed, RawInterval.mkOpen,
      RawInterval.mkLeftOpen, RawInterval.mkRightOpen, h, h.le, h1, h2, RawInterval.normalized,
      Interval.isEmpty, Interval.isDegenerate, Interval.isProper]

example : (Interval.mkLeftOpen (u8 3) (u8 4)).isProper = true ∧
    (Interval.mkLeftOpen (u8 4) (u8 4)).isDegenerate = true := by decide

/-- Intervals made by `closed`, and all intersections, count their points right: none, one, or more. -/
theorem C25_count (a b : Interval α) (ha : a.Obtainable) (hb : b.Obtainable) (l u : α) :
    ∀ i ∈ [Interval.mkClosed l u, a.intersect b],
      (i.isEmpty = true ↔ ∀ x, i.contains x = false) ∧
      (i.isDegenerate = true ↔ ∃ x, ∀ y, i.contains y = true ↔ y = x) ∧
      (i.isProper = true ↔ ∃ x y, x ≠ y ∧ i.contains x = true ∧ i.contains y = true) := by
  intro i hi
  simp only [List.mem_cons, List.not_mem_nil, or_false] at hi
  rcases hi with rfl | rfl
  · exact Interval.tight_count (Interval.tight_closed l u)
  · exact Interval.tight_count (Interval.tight_intersect ha hb)

example : ((Interval.mkLeftOpen (u8 3) (u8 4)).intersect .full).isDegenerate = true ∧
    (Interval.mkClosed (u8 4) (u8 4)).isDegenerate = true := by decide

/-- Among intervals made by `closed`, and among intersections, equal points mean equal values. -/
theorem C26_count (a b c d : Interval α) (ha : a.Obtainable) (hb : b.Obtainable) (hc : c.Obtainable)
    (hd : d.Obtainable) (l u l' u' : α) :
    ∀ i ∈ [Interval.mkClosed l u, a.intersect b], ∀ j ∈ [Interval.mkClosed l' u', c.intersect d],
      (∀ x, i.contains x = j.contains x) ↔ i = j := by
  intro i hi j hj
  refine ⟨Interval.tight_ext ?_ ?_, fun h x => by rw [h]⟩
  · simp only [List.mem_cons, List.not_mem_nil, or_false] at hi
    rcases hi with rfl | rfl
    exacts [Interval.tight_closed l u, Interval.tight_intersect ha hb]
  · simp only [List.mem_cons, List.not_mem_nil, or_false] at hj
    rcases hj with rfl | rfl
    exacts [Interval.tight_closed l' u', Interval.tight_intersect hc hd]

example : (Interval.mkLeftOpen (u8 3) (u8 4)).intersect (.mkClosed (u8 0) (u8 9)) =
    .mkClosed (u8 4) (u8 4) := by decide

/-- `union` is set union exactly if the two intervals are not open intervals between successive
neighbours. -/
theorem C28_exact_iff (a b : Interval α) (ha : a.Obtainable) (hb : b.Obtainable) :
    (∀ x, (∃ c ∈ a.union b, c.contains x = true) ↔ a.contains x = true ∨ b.contains x = true) ↔
      ¬ ∃ p q r, succ p = some q ∧ succ q = some r ∧
        ((a = .mkOpen p q ∧ b = .mkOpen q r) ∨ (a = .mkOpen q r ∧ b = .mkOpen p q)) := by
  have nop : ∀ {l u : α} (h : succ l = some u) (x : α), (Interval.mkOpen l u).contains x = false := by
    intro l u h x
    have hlt := (LawfulFinite.succ_some l u h).1
    rw [Interval.mkOpen_succ h, Bool.eq_false_iff, ne_eq]
    simp only [Interval.contains, RawInterval.contains, Bool.and_eq_true, decide_eq_true_eq]
    rintro ⟨h1, h2⟩
    exact absurd (le_trans h1 h2) (not_le.2 hlt)
  have bad : ∀ {p q r : α}, succ p = some q → succ q = some r →
      (∃ c ∈ (Interval.mkOpen p q).union (.mkOpen q r), c.contains q = true) ∧
      ∃ c ∈ (Interval.mkOpen q r).union (.mkOpen p q), c.contains q = true := by
    intro p q r h1 h2
    have l1 := (LawfulFinite.succ_some p q h1).1
    have l2 := (LawfulFinite.succ_some q r h2).1
    rw [Interval.mkOpen_succ h1, Interval.mkOpen_succ h2]
    constructor <;>
      simp [Interval.union, RawInterval.union, RawInterval.isEmpty, RawInterval.isAdjacentTo,
        RawInterval.lowerBound, RawInterval.upperBound, Bound.isUnionAdjacentTo, RawInterval.enclose,
        Bound.leastUnion, Bound.greatestUnion, RawInterval.new, RawInterval.mkClosed, l1, l2,
        not_lt.2 l1.le, not_lt.2 l2.le, RawInterval.normalized, Interval.contains, RawInterval.contains]
  constructor
  · rintro hu ⟨p, q, r, h1, h2, ⟨rfl, rfl⟩ | ⟨rfl, rfl⟩⟩
    · have := (hu q).1 (bad h1 h2).1
      rw [nop h1, nop h2] at this
      simp at this
    · have := (hu q).1 (bad h1 h2).2
      rw [nop h1, nop h2] at this
      simp at this
  · intro hn x
    by_cases hr : a.Real ∨ b.Real
    · exact C28_union_partial a b ha hb hr x
    · push Not at hr
      obtain ⟨ra, rb⟩ := hr
      rw [Interval.real_iff ha] at ra
      rw [Interval.real_iff hb] at rb
      push Not at ra rb
      obtain ⟨p, q, h1, rfl⟩ := ra
      obtain ⟨p', q', h2, rfl⟩ := rb
      have l1 := (LawfulFinite.succ_some p q h1).1
      have l2 := (LawfulFinite.succ_some p' q' h2).1
      have n1 : q ≠ p' := by
        rintro rfl
        exact hn ⟨p, q, q', h1, h2, .inl ⟨rfl, rfl⟩⟩
      have n2 : q' ≠ p := by
        rintro rfl
        exact hn ⟨p', q', q, h2, h1, .inr ⟨rfl, rfl⟩⟩
      have hm : ((RawInterval.closed q p).intersects (.closed q' p') ||
          (RawInterval.closed q p).isAdjacentTo (.closed q' p')) = false := by
        rw [Bool.or_eq_false_iff]
        constructor
        · rw [Bool.eq_false_iff, ne_eq,
            RawInterval.intersect_isEmpty (a := .closed q p) (b := .closed q' p') rfl rfl rfl rfl]
          rintro ⟨⟨h, -⟩, -⟩
          exact absurd h (not_le.2 l1)
        · simp [RawInterval.isAdjacentTo, RawInterval.lowerBound, RawInterval.upperBound,
            Bound.isUnionAdjacentTo, n1, n2]
      rw [nop h1, nop h2]
      rw [Interval.mkOpen_succ h1, Interval.mkOpen_succ h2]
      have hu : (⟨.closed q p⟩ : Interval α).union ⟨.closed q' p'⟩ =
          [⟨.closed q p⟩, ⟨.closed q' p'⟩] := by
        simp only [Interval.union, RawInterval.union, RawInterval.isEmpty, hm]
        rfl
      rw [hu, ← Interval.mkOpen_succ h1, ← Interval.mkOpen_succ h2]
      simp [nop h1, nop h2]

example : (Interval.mkOpen (u8 3) (u8 4)).Obtainable ∧ (Interval.mkOpen (u8 4) (u8 5)).Obtainable ∧
    succ (u8 3) = some (u8 4) ∧ succ (u8 4) = some (u8 5) ∧
    ((Interval.mkOpen (u8 3) (u8 4)).union (Interval.mkOpen (u8 4) (u8 5))).any (·.contains (u8 4)) = true ∧
    (Interval.mkClosed (u8 3) (u8 6)).union (Interval.mkClosed (u8 5) (u8 8)) = [Interval.mkClosed (u8 3) (u8 8)] :=
  ⟨.ofRaw (.opn (u8 3) (u8 4)) (by decide), .ofRaw (.opn (u8 4) (u8 5)) (by decide), by decide, by decide, by decide,
    by decide⟩

end Interval
end NI
