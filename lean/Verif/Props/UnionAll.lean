import Mathlib.Data.List.Induction
import Verif.Props.Strong

/-!
# Exactly when the intervals returned by `union_all` are disjoint and `enclose_all` is the smallest interval
-/

set_option linter.unusedSimpArgs false
set_option linter.unusedVariables false
set_option linter.unusedSectionVars false

namespace NI
variable {α : Type} [LinearOrder α]

namespace RawInterval

/-- `union_all` takes its arguments one after the other. -/
theorem unionAll_foldl (is : List (RawInterval α)) :
    unionAll is = (is.filter fun i => !i.isEmpty).foldl unionAllStep [] := by
  rw [unionAll]
  cases is.filter fun i => !i.isEmpty with
  | nil => rfl
  | cons st it =>
    rw [List.foldl_cons]
    rw [unionAllStep]
    split_ifs with h
    · rw [h]
    · rfl

theorem unionAll_concat (is : List (RawInterval α)) (n : RawInterval α) :
    unionAll (is ++ [n]) = if n = .empty then unionAll is else unionAllStep (unionAll is) n := by
  rw [unionAll_foldl, unionAll_foldl, List.filter_append, List.foldl_append]
  split_ifs with h
  · subst h; rfl
  · have : n.isEmpty = false := by rw [Bool.eq_false_iff]; simpa [isEmpty_iff] using h
    simp [this]

/-- One argument: it is joined with the first interval that it meets or adjoins, or put at the end. -/
theorem merge_cases {n : RawInterval α} (hn : n.WF) (hne : n ≠ .empty) {l : List (RawInterval α)}
    (hl : ∀ j ∈ l, j.WF ∧ j ≠ .empty) :
    (∀ j ∈ unionAllMerge n l, j.WF ∧ j ≠ .empty) ∧
    ((l.find? (fun i => i.intersects n || i.isAdjacentTo n) = none ∧ unionAllMerge n l = l ++ [n]) ∨
      ∃ A f B, l = A ++ f :: B ∧ l.find? (fun i => i.intersects n || i.isAdjacentTo n) = some f ∧
        unionAllMerge n l = A ++ f.enclose n :: B ∧ (f.enclose n).pts = f.pts ∪ n.pts) := by
  induction l with
  | nil => exact ⟨by simpa [unionAllMerge] using ⟨hn, hne⟩, .inl ⟨rfl, rfl⟩⟩
  | cons a l ih =>
    obtain ⟨h1, h2⟩ := List.forall_mem_cons.1 hl
    obtain ⟨ih1, ih2⟩ := ih h2
    have e1 : a.isEmpty = false := by rw [Bool.eq_false_iff]; simpa [isEmpty_iff] using h1.2
    have e2 : n.isEmpty = false := by rw [Bool.eq_false_iff]; simpa [isEmpty_iff] using hne
    rw [unionAllMerge, List.find?_cons]
    cases hc : (a.intersects n || a.isAdjacentTo n) with
    | true =>
      simp only [if_true]
      refine ⟨?_, .inr ⟨[], a, l, rfl, rfl, rfl, ?_⟩⟩
      · rw [List.forall_mem_cons]
        refine ⟨⟨enclose_wf _ _, ?_⟩, h2⟩
        obtain ⟨_, _⟩ | ⟨la, ua, h1', h2', _⟩ := a.bounds_cases
        · exact absurd ‹_› h1.2
        obtain ⟨_, _⟩ | ⟨lb, ub, h3, h4, _⟩ := n.bounds_cases
        · exact absurd ‹_› hne
        rw [enclose_of_bounds h1' h2' h3 h4]
        exact (new_of_compat (Bound.compat_lu _ _ _ _ (wf_compat h1.1 h1' h2'))).2.2
      · ext x
        have hu := C05_union a n h1.1 hn x
        simp only [union, e1, e2, hc, if_true, List.mem_singleton, exists_eq_left] at hu
        exact hu
    | false =>
      simp only [Bool.false_eq_true, if_false]
      refine ⟨List.forall_mem_cons.2 ⟨h1, ih1⟩, ?_⟩
      rcases ih2 with ⟨h3, h4⟩ | ⟨A, f, B, h3, h4, h5, h6⟩
      · exact .inl ⟨h3, by rw [h4]; rfl⟩
      · exact .inr ⟨a :: A, f, B, by rw [h3]; rfl, h4, by rw [h5]; rfl, h6⟩

/-- A full argument gives the full interval. -/
theorem unionAll_full {is : List (RawInterval α)} (hw : ∀ i ∈ is, i.WF) (h : .full ∈ is) :
    unionAll is = [.full] := by
  induction is using List.reverseRecOn with
  | nil => cases h
  | append_singleton is n ih =>
    rw [unionAll_concat]
    rcases List.mem_append.1 h with h | h
    · rw [ih (fun i hi => hw i (List.mem_append_left _ hi)) h]
      have hn' := hw n (by simp)
      split_ifs with hn
      · rfl
      · cases n <;> first
          | exact absurd rfl hn
          | (simp only [WF] at hn'
             simp [unionAllStep, unionAllMerge, intersects, intersect, enclose, lowerBound, upperBound,
               Bound.greatestIntersect, Bound.leastIntersect, Bound.leastUnion, Bound.greatestUnion,
               Bound.asRef, new, mkClosed, mkOpen, mkLeftOpen, mkRightOpen, isEmpty, Bound.isInclusive, Bound.isExclusive, hn', hn'.ne, hn'.not_gt])
          | (simp [unionAllStep, unionAllMerge, intersects, intersect, enclose, lowerBound, upperBound,
               Bound.greatestIntersect, Bound.leastIntersect, Bound.leastUnion, Bound.greatestUnion,
               Bound.asRef, new, mkClosed, mkOpen, mkLeftOpen, mkRightOpen, isEmpty, Bound.isInclusive, Bound.isExclusive])
    · cases List.mem_singleton.1 h
      rfl

theorem unionAll_wf {is : List (RawInterval α)} (h : ∀ i ∈ is, i.WF) :
    ∀ j ∈ unionAll is, j.WF ∧ j ≠ .empty := by
  induction is using List.reverseRecOn with
  | nil => simp [unionAll]
  | append_singleton is n ih =>
    have ih := ih fun i hi => h i (List.mem_append_left _ hi)
    rw [unionAll_concat]
    split_ifs with hn
    · exact ih
    · rw [unionAllStep]
      split_ifs with hf
      · simp [WF]
      · exact (merge_cases (h n (by simp)) hn ih).1

/-- One argument keeps the intervals disjoint exactly if it has points in common at most with the first
interval that it meets or adjoins. -/
theorem merge_disjoint {n : RawInterval α} (hn : n.WF) (hne : n ≠ .empty) {l : List (RawInterval α)}
    (hl : ∀ j ∈ l, j.WF ∧ j ≠ .empty) :
    (unionAllMerge n l).Pairwise (fun i j => Disjoint i.pts j.pts) ↔
      l.Pairwise (fun i j => Disjoint i.pts j.pts) ∧ ∀ q ∈ l, ¬ Disjoint q.pts n.pts →
        l.find? (fun i => i.intersects n || i.isAdjacentTo n) = some q := by
  rcases (merge_cases hn hne hl).2 with ⟨h1, h2⟩ | ⟨A, f, B, h1, h2, h3, h4⟩
  · rw [h1, h2, List.pairwise_append]
    simp only [List.pairwise_cons, List.mem_singleton, forall_eq, reduceCtorEq, imp_false, not_not]
    simp
  · rw [h2, h3]
    have key : (A ++ f.enclose n :: B).Pairwise (fun i j => Disjoint i.pts j.pts) ↔
        l.Pairwise (fun i j => Disjoint i.pts j.pts) ∧ ∀ q ∈ A ++ B, Disjoint q.pts n.pts := by
      rw [h1]
      simp only [List.pairwise_append, List.pairwise_cons, List.mem_cons, forall_eq_or_imp, h4,
        Set.disjoint_union_right, Set.disjoint_union_left, List.mem_append, disjoint_comm (a := n.pts)]
      grind
    rw [key]
    refine and_congr_right fun hp => ?_
    rw [h1] at hp ⊢
    rw [List.pairwise_append, List.pairwise_cons] at hp
    obtain ⟨-, ⟨pB, -⟩, pA⟩ := hp
    constructor
    · intro h q hq hd
      rcases List.mem_append.1 hq with hq | hq
      · exact absurd (h q (List.mem_append_left _ hq)) hd
      · rcases List.mem_cons.1 hq with rfl | hq
        · rfl
        · exact absurd (h q (List.mem_append_right _ hq)) hd
    · intro h q hq
      by_contra hd
      have hq' : q ∈ A ++ f :: B := by simp only [List.mem_append, List.mem_cons] at hq ⊢; tauto
      obtain rfl := Option.some.inj (h q hq' hd)
      have hs : Disjoint f.pts f.pts := by
        rcases List.mem_append.1 hq with hq | hq
        · exact pA _ hq _ (by simp)
        · exact pB _ hq
      rw [disjoint_self, Set.bot_eq_empty] at hs
      rw [hs] at hd
      exact hd (Set.empty_disjoint _)

end RawInterval

/-! ## C11 -/

/-- The intervals returned by `union_all` are pairwise disjoint exactly if one of the arguments is full,
or every argument has points in common with at most one of the intervals got from the arguments before it,
namely with the first that it meets or adjoins. -/
theorem C11_exact_iff (is : List (RawInterval α)) (h : ∀ i ∈ is, i.WF) :
    (RawInterval.unionAll is).Pairwise (fun i j => Disjoint i.pts j.pts) ↔
    .full ∈ is ∨ ∀ k n, is[k]? = some n → ∀ q ∈ RawInterval.unionAll (is.take k),
      ¬ Disjoint q.pts n.pts →
      (RawInterval.unionAll (is.take k)).find? (fun i => i.intersects n || i.isAdjacentTo n) = some q := by
  by_cases hf : .full ∈ is
  · simp [hf, RawInterval.unionAll_full h hf]
  simp only [hf, false_or]
  induction is using List.reverseRecOn with
  | nil => simp [RawInterval.unionAll]
  | append_singleton is n ih =>
    have hw : ∀ i ∈ is, i.WF := fun i hi => h i (List.mem_append_left _ hi)
    have ih := ih hw fun hh => hf (List.mem_append_left _ hh)
    have hstep : (RawInterval.unionAll (is ++ [n])).Pairwise (fun i j => Disjoint i.pts j.pts) ↔
        (RawInterval.unionAll is).Pairwise (fun i j => Disjoint i.pts j.pts) ∧
        ∀ q ∈ RawInterval.unionAll is, ¬ Disjoint q.pts n.pts →
          (RawInterval.unionAll is).find? (fun i => i.intersects n || i.isAdjacentTo n) = some q := by
      rw [RawInterval.unionAll_concat]
      split_ifs with hn
      · subst hn
        simp [RawInterval.pts, RawInterval.contains]
      · have hn' : n ≠ .full := fun e => hf (by rw [e]; simp)
        rw [RawInterval.unionAllStep, if_neg hn']
        exact RawInterval.merge_disjoint (h n (by simp)) hn (RawInterval.unionAll_wf hw)
    rw [hstep, ih]
    constructor
    · rintro ⟨h1, h2⟩ k m hk
      rcases lt_trichotomy k is.length with hl | rfl | hl
      · rw [List.getElem?_append_left hl] at hk
        rw [List.take_append_of_le_length hl.le]
        exact h1 k m hk
      · rw [List.getElem?_append_right le_rfl] at hk
        simp only [Nat.sub_self, List.getElem?_cons_zero, Option.some.injEq] at hk
        subst hk
        rw [List.take_left]
        exact h2
      · rw [List.getElem?_eq_none (by simp; omega)] at hk
        cases hk
    · intro h1
      refine ⟨fun k m hk => ?_, ?_⟩
      · have hl : k < is.length := by
          by_contra hl
          rw [List.getElem?_eq_none (by omega)] at hk
          cases hk
        have := h1 k m (by rw [List.getElem?_append_left hl]; exact hk)
        rwa [List.take_append_of_le_length hl.le] at this
      · have := h1 is.length n (by simp)
        rwa [List.take_left] at this

/-- In ascending order it works; with `[1,4]` last, both others have a point in common with it. -/
example : RawInterval.unionAll [RawInterval.closed (0 : Int) 1, .closed 1 4, .closed 4 5] = [.closed 0 5] ∧
    RawInterval.unionAll [RawInterval.closed (0 : Int) 1, .closed 4 5] = [.closed 0 1, .closed 4 5] := by decide

/-! ## C12 -/

/-- The result of `enclose_all` is the smallest interval around the arguments exactly if these have points as low and as high as
any. -/
theorem C12_exact_iff (is : List (RawInterval α)) :
    (∀ j : RawInterval α, j.WF → (∀ i ∈ is, i.pts ⊆ j.pts) → (RawInterval.encloseAll is).pts ⊆ j.pts) ↔
      ∀ x, (∃ i ∈ is, ∃ p ∈ i.pts, p ≤ x) ∧ ∃ i ∈ is, ∃ p ∈ i.pts, x ≤ p := by
  rw [C12_always_full]
  constructor
  · intro h x
    constructor
    · by_contra hn
      push Not at hn
      exact lt_irrefl x (h (.upFrom x) trivial (fun i hi p hp => hn i hi p hp) (a := x) trivial)
    · by_contra hn
      push Not at hn
      exact lt_irrefl x (h (.upTo x) trivial (fun i hi p hp => hn i hi p hp) (a := x) trivial)
  · intro h j _ hj x _
    obtain ⟨⟨i, hi, p, hp, h1⟩, k, hk, q, hq, h2⟩ := h x
    have hp := hj i hi hp
    have hq := hj k hk hq
    cases j <;> simp only [RawInterval.pts, Set.mem_empty_iff_false, Set.mem_singleton_iff, Set.mem_Ioo, Set.mem_Ioc,
      Set.mem_Ico, Set.mem_Icc, Set.mem_Iio, Set.mem_Ioi, Set.mem_Iic, Set.mem_Ici, Set.mem_univ] at * <;> grind

/-- Two half lines. -/
example : ∀ x, (∃ i ∈ [RawInterval.to (0 : Int), .frm 9], ∃ p ∈ i.pts, p ≤ x) ∧
    ∃ i ∈ [RawInterval.to (0 : Int), .frm 9], ∃ p ∈ i.pts, x ≤ p := fun x =>
  ⟨⟨.to 0, by simp, min 0 x, by simp [RawInterval.pts], by simp⟩,
    .frm 9, by simp, max 9 x, by simp [RawInterval.pts], by simp⟩

end NI
