import Verif.Lemmas.Ends
import Verif.Props.Sharp

/-!
# Exactly when C50, C53, C58 and C68 hold
-/

set_option linter.unusedSimpArgs false
set_option linter.unusedVariables false
set_option linter.unusedSectionVars false

namespace NI
open Finite TT

/-! ## C68: mixed calls of interval iterators -/

theorem Deque.back_inv {β : Type _} {l : List β} {cs : List IterCall} {o : Option β}
    {os : List (Option β)} (h : Deque l (.nextBack :: cs) (o :: os)) :
    (l = [] ∧ o = none ∧ Deque [] cs os) ∨ ∃ l' a, l = l' ++ [a] ∧ o = some a ∧ Deque l' cs os := by
  generalize hc : IterCall.nextBack :: cs = cs' at h
  generalize ho : o :: os = os' at h
  cases h with
  | nil => cases hc
  | next h => cases hc
  | nextBack h => cases hc; cases ho; exact .inr ⟨_, _, rfl, rfl, h⟩
  | done h => cases hc; cases ho; exact .inl ⟨rfl, rfl, h⟩

section Tree
variable {α : Type} [LinearOrder α]

theorem TT.collect_of_deque (dbg : Bool) (n : Nat) : ∀ (it : TineIter α) (acc l : List (RawInterval α)) (os),
    drive (TineIter.next dbg) (TineIter.nextBack dbg) it (List.replicate n .nextBack) = .ok os →
    Deque l (List.replicate n .nextBack) os → l.length < n →
    it.collectBackAux dbg n acc = .ok (acc ++ l.reverse) := by
  induction n with
  | zero => intro it acc l os _ _ h; omega
  | succ n ih =>
    intro it acc l os hd hq hl
    rw [List.replicate_succ] at hd hq
    simp only [drive, bind, Except.bind] at hd
    simp only [TineIter.collectBackAux, bind, Except.bind]
    cases e : TineIter.nextBack dbg it with
    | error _ => rw [e] at hd; cases hd
    | ok r =>
      obtain ⟨o, it'⟩ := r
      rw [e] at hd
      simp only at hd
      cases e2 : drive (TineIter.next dbg) (TineIter.nextBack dbg) it' (List.replicate n .nextBack) with
      | error _ => rw [e2] at hd; cases hd
      | ok os' =>
        rw [e2] at hd
        cases hd
        rcases hq.back_inv with ⟨rfl, rfl, -⟩ | ⟨l', a, rfl, rfl, h⟩
        · simp
        · simp only
          rw [ih it' _ l' os' e2 h (by simp at hl; omega)]
          simp

/-- The interval iterator of a tree serves all call sequences from both ends exactly if no single point
is left out between two intervals. -/
theorem C68_exact_iff (dbg : Bool) (t : TineTree α) (ht : t.Reachable) (is : List (RawInterval α))
    (his : TineTree.intervals dbg t = .ok is) :
    (∀ cs, ∃ os, drive (TineIter.next dbg) (TineIter.nextBack dbg) (TineIter.start t) cs = .ok os ∧
      Deque is cs os) ↔ ∀ p, ¬ RawInterval.Hole is p := by
  refine ⟨fun h => ?_, fun h => C68_mixed_partial dbg t ht is his h⟩
  rw [← C73_tree_iff dbg t ht is his]
  obtain ⟨os, h1, h2⟩ := h (List.replicate (TineIter.start t).size .nextBack)
  have v := TT.reachable_valid ht
  have e := his
  rw [TT.intervals_eq dbg v] at e
  cases e
  have := TT.collect_of_deque dbg _ _ [] _ os h1 h2 (by
    have := TT.pieces_length (ts := t) none
    simp only [TineIter.size, TineIter.start]; omega)
  exact this

example : (∀ p, ¬ RawInterval.Hole [.rightOpen (0 : Int) 5, .opn 6 9] p) := by
  rintro p ⟨⟨i, hi, h1⟩, ⟨j, hj, h2⟩⟩
  simp only [List.mem_cons, List.not_mem_nil, or_false] at hi hj
  rcases hi with rfl | rfl <;> rcases hj with rfl | rfl <;> cases h1 <;> cases h2

end Tree

section Sel
variable {α : Type} [LinearOrder α] [Finite α] [LawfulFinite α]

theorem Selection.collect_of_deque (dbg : Bool) (n : Nat) : ∀ (it : TineIter α) (acc l : List (Interval α))
    (os), drive (Selection.intervalNext dbg) (Selection.intervalNextBack dbg) it
      (List.replicate n .nextBack) = .ok os →
    Deque l (List.replicate n .nextBack) os → l.length < n →
    Selection.intervalsBackAux dbg n it acc = .ok (acc ++ l.reverse) := by
  induction n with
  | zero => intro it acc l os _ _ h; omega
  | succ n ih =>
    intro it acc l os hd hq hl
    rw [List.replicate_succ] at hd hq
    simp only [drive, bind, Except.bind] at hd
    simp only [Selection.intervalsBackAux, bind, Except.bind]
    cases e : Selection.intervalNextBack dbg it with
    | error _ => rw [e] at hd; cases hd
    | ok r =>
      obtain ⟨o, it'⟩ := r
      rw [e] at hd
      simp only at hd
      cases e2 : drive (Selection.intervalNext dbg) (Selection.intervalNextBack dbg) it'
          (List.replicate n .nextBack) with
      | error _ => rw [e2] at hd; cases hd
      | ok os' =>
        rw [e2] at hd
        cases hd
        rcases hq.back_inv with ⟨rfl, rfl, -⟩ | ⟨l', a, rfl, rfl, h⟩
        · simp
        · simp only
          rw [ih it' _ l' os' e2 h (by simp at hl; omega)]
          simp

/-- The interval iterator of a union-built selection serves all call sequences from both ends exactly
if no single value is missing between two values. -/
theorem C68_selection_iff (dbg : Bool) (s : Selection α) (hs : s.UnionBuilt) (is : List (Interval α))
    (his : s.intervals dbg = .ok is) :
    (∀ cs, ∃ os, drive (Selection.intervalNext dbg) (Selection.intervalNextBack dbg)
      (TineIter.start s.tree) cs = .ok os ∧ Deque is cs os) ↔ ¬ OneMissing (s.pts dbg) := by
  have v := Selection.reachable_valid hs.reachable
  constructor
  · intro h
    rw [← C73_intervals_iff dbg s hs is his]
    obtain ⟨os, h1, h2⟩ := h (List.replicate (TineIter.start s.tree).size .nextBack)
    have e := his
    rw [Selection.intervals_eq dbg v] at e
    cases e
    have := Selection.collect_of_deque dbg _ _ [] _ os h1 h2 (by
      have := Selection.pieces_length (ts := s.tree) none
      simp only [TineIter.size, TineIter.start, List.length_map]; omega)
    exact this
  · intro h
    refine (C68_selection_partial dbg s hs.reachable is his).2 (.built hs fun p x q h1 h2 h3 h4 => ?_)
    by_contra h5
    refine h ⟨p, x, q, h1, h2, ?_⟩
    rw [Selection.mem_pts true v] at h3 h4 h5
    rw [Selection.mem_pts dbg v, Selection.mem_pts dbg v, Selection.mem_pts dbg v]
    exact ⟨h3, h4, h5⟩

example : Selection.UnionBuilt (Selection.demo [(u8 2, u8 2), (u8 4, u8 4)]) ∧
    Selection.intervals true (Selection.demo [(u8 2, u8 2), (u8 4, u8 4)]) = .ok [⟨.closed (u8 2) (u8 2)⟩, ⟨.closed (u8 4) (u8 4)⟩] ∧
    drive (Selection.intervalNext true) (Selection.intervalNextBack true)
      (TineIter.start (Selection.demo [(u8 2, u8 2), (u8 5, u8 5)]).tree) [.next, .nextBack, .next] =
      .ok [some ⟨.closed (u8 2) (u8 2)⟩, some ⟨.closed (u8 5) (u8 5)⟩, none] :=
  ⟨Selection.demo_built _ (by decide), by decide, by decide⟩

/-! ## C50 and C53: removal -/

/-- `minus_in_place` of a union-built selection is right exactly if no single value missing between two
values of the selection is a neighbour of the interval from outside. -/
theorem C50_exact_iff (dbg : Bool) (s : Selection α) (hs : s.UnionBuilt) (i : Interval α)
    (hi : i.Obtainable) (hr : i.Real) :
    (∃ s', s.minusInPlace dbg i = .ok s' ∧ s'.pts dbg = s.pts dbg \ i.pts) ↔
    ∀ p x q, pred x = some p → succ x = some q → p ∈ s.pts dbg → q ∈ s.pts dbg → x ∉ s.pts dbg →
      ¬ IsLeast i.pts q ∧ ¬ IsGreatest i.pts p := by
  obtain ⟨s', e, h⟩ := C50_formula_partial dbg s hs i hi hr
  constructor
  · rintro ⟨s'', e', h'⟩ p x q hp hq h1 h2 h3
    rw [e] at e'; cases e'
    have no : ¬ x ∈ s'.pts dbg := by rw [h']; exact fun hx => h3 hx.1
    rw [h] at no
    constructor
    · intro hl
      exact no (.inr ⟨h3, ⟨p, h1, hp⟩, ⟨q, h2, hq⟩, .inl ⟨q, hl, pred_of_succ hq⟩⟩)
    · intro hg
      exact no (.inr ⟨h3, ⟨p, h1, hp⟩, ⟨q, h2, hq⟩, .inr ⟨p, hg, succ_of_pred hp⟩⟩)
  · intro hn
    refine ⟨s', e, ?_⟩
    ext x
    rw [h]
    refine ⟨?_, .inl⟩
    rintro (hx | ⟨h3, ⟨p, h1, hp⟩, ⟨q, h2, hq⟩, ⟨l, hl, e1⟩ | ⟨u, hu, e1⟩⟩)
    · exact hx
    · have := succ_of_pred e1
      rw [hq] at this; cases this
      exact absurd hl (hn p x q hp hq h1 h2 h3).1
    · have := pred_of_succ e1
      rw [hp] at this; cases this
      exact absurd hu (hn p x q hp hq h1 h2 h3).2

example : Selection.UnionBuilt (Selection.demo [(u8 2, u8 2), (u8 4, u8 4)]) :=
  Selection.demo_built _ (by decide)

/-- `minus` of union-built selections is right exactly if no value missing between two values of the
left selection is missing in the right selection as well but has a neighbour there. -/
theorem C53_exact_iff (dbg : Bool) (a b : Selection α) (ha : a.UnionBuilt) (hb : b.UnionBuilt) :
    (∃ s, a.minus dbg b = .ok s ∧ s.pts dbg = a.pts dbg \ b.pts dbg) ↔
    ∀ p x q, pred x = some p → succ x = some q → p ∈ a.pts dbg → q ∈ a.pts dbg → x ∉ a.pts dbg →
      x ∉ b.pts dbg → p ∉ b.pts dbg ∧ q ∉ b.pts dbg := by
  obtain ⟨s, e, h⟩ := C53_formula_partial dbg a b ha hb
  constructor
  · rintro ⟨s', e', h'⟩ p x q hp hq h1 h2 h3 h4
    rw [e] at e'; cases e'
    have no : ¬ x ∈ s.pts dbg := by rw [h']; exact fun hx => h3 hx.1
    rw [h] at no
    constructor
    · intro hl
      exact no (.inr ⟨h3, h4, ⟨p, h1, hp⟩, ⟨q, h2, hq⟩, .inl ⟨p, hl, hp⟩⟩)
    · intro hg
      exact no (.inr ⟨h3, h4, ⟨p, h1, hp⟩, ⟨q, h2, hq⟩, .inr ⟨q, hg, hq⟩⟩)
  · intro hn
    refine ⟨s, e, ?_⟩
    ext x
    rw [h]
    refine ⟨?_, .inl⟩
    rintro (hx | ⟨h3, h4, ⟨p, h1, hp⟩, ⟨q, h2, hq⟩, ⟨l, hl, e1⟩ | ⟨u, hu, e1⟩⟩)
    · exact hx
    · rw [hp] at e1; cases e1
      exact absurd hl (hn p x q hp hq h1 h2 h3 h4).1
    · rw [hq] at e1; cases e1
      exact absurd hu (hn p x q hp hq h1 h2 h3 h4).2

example : (Selection.demo [(u8 2, u8 2), (u8 4, u8 4)]).UnionBuilt ∧ (Selection.demo [(u8 4, u8 9)]).UnionBuilt ∧
    (Selection.demo [(u8 2, u8 2), (u8 4, u8 4)]).minus true (Selection.demo [(u8 4, u8 9)]) >>=
      (Selection.contains true · (u8 3)) = .ok true :=
  ⟨Selection.demo_built _ (by decide), Selection.demo_built _ (by decide), by decide⟩

/-! ## C61: closure -/

/-- What `closure` of a union-built selection is: the smallest enclosing interval, and the values next
to it on both sides. -/
theorem C61_closure_formula (dbg : Bool) (s : Selection α) (hs : s.UnionBuilt) :
    ∃ c, s.closure dbg = .ok c ∧ c.Obtainable ∧
      ((s.pts dbg = ∅ ∧ c.pts = ∅) ∨
        ∃ l u, IsLeast (s.pts dbg) l ∧ IsGreatest (s.pts dbg) u ∧
          ∀ x, x ∈ c.pts ↔ (l ≤ x ∧ x ≤ u) ∨ pred l = some x ∨ succ u = some x) := by
  have v := Selection.reachable_valid hs.reachable
  have hd := hs.do
  have hso : s.Solid := .tidy (.inl hs)
  obtain ⟨e, h, hw, b1, b2, hc⟩ := enclose_ok dbg v
  have hp : (⟨e.closure.normalized⟩ : Interval α).pts = {x | e.closure.contains x = true} :=
    Selection.run_pts e.closure
  refine ⟨⟨e.closure.normalized⟩, by rw [Selection.closure, TineTree.closure, h]; rfl,
    .ofRaw _ (C09_closure e hw).2.1, ?_⟩
  rw [hp]
  obtain ⟨t1, t2⟩ := Selection.tree_bounds v
  rcases Selection.first_last dbg v (Selection.np_good v hd.np) with ⟨h1, h2⟩ |
    ⟨i, j, l, u, h1, h2, g1, g2, h3, h4, h5, h6⟩
  · left
    refine ⟨h2, ?_⟩
    have := Selection.tree_nil v h1
    rw [this] at h
    cases h
    ext x
    simp [RawInterval.contains, RawInterval.closure]
  right
  have hlu : l ≤ u := h6.2 h5.1
  have ul : ∀ {x}, IsLeast (s.pts dbg) x → x = l := fun h => le_antisymm (h.2 h5.1) (h5.2 h.1)
  have uu : ∀ {x}, IsGreatest (s.pts dbg) x → x = u := fun h => le_antisymm (h6.2 h.1) (h.2 h6.1)
  obtain ⟨f1, f2⟩ : s.infimum = pred l ∧ s.supremum = succ u := by
    rcases C59_infimum_partial dbg s hs with ⟨h0, -⟩ | ⟨l', u', k1, k2, k3, k4⟩
    · have := h5.1; rw [h0] at this; exact this.elim
    · rw [← ul k1, ← uu k2]; exact ⟨k3, k4⟩
  refine ⟨l, u, h5, h6, ?_⟩
  rw [h1, Option.bind_some] at t1
  rw [h2, Option.bind_some] at t2
  have n1 := fun p => (hd.open v (List.mem_of_head? h1) p).1
  have n2 := fun p => (hd.open v (List.mem_of_getLast? h2) p).2
  rw [Selection.infimum, t1] at f1
  rw [Selection.supremum, t2] at f2
  have below : ∀ {p}, pred l = some p → ∀ x, p ≤ x ↔ l ≤ x ∨ p = x := by
    intro p hp x
    obtain ⟨k1, k2⟩ := LawfulFinite.pred_some l p hp
    refine ⟨fun hx => ?_, fun hx => hx.elim (le_trans k1.le) le_of_eq⟩
    rcases le_or_gt l x with hlx | hlx
    · exact .inl hlx
    · exact .inr (le_antisymm hx (k2 x hlx))
  have above : ∀ {p}, succ u = some p → ∀ x, x ≤ p ↔ x ≤ u ∨ p = x := by
    intro p hp x
    obtain ⟨k1, k2⟩ := LawfulFinite.succ_some u p hp
    refine ⟨fun hx => ?_, fun hx => hx.elim (fun h => le_trans h k1.le) ge_of_eq⟩
    rcases le_or_gt x u with hxu | hxu
    · exact .inl hxu
    · exact .inr (le_antisymm (k2 x hxu) hx)
  have below0 : pred l = none → ∀ x, l ≤ x := fun h x => by
    rw [LawfulFinite.pred_none] at h; rw [h]; exact LawfulFinite.min_le x
  have above0 : succ u = none → ∀ x, x ≤ u := fun h x => by
    rw [LawfulFinite.succ_none] at h; rw [h]; exact LawfulFinite.le_max x
  have pl : ∀ {p}, pred l = some p → p < l := fun h => (LawfulFinite.pred_some l _ h).1
  have pu : ∀ {p}, succ u = some p → u < p := fun h => (LawfulFinite.succ_some u _ h).1
  rw [t1] at b1
  rw [t2] at b2
  intro x
  rw [Set.mem_ofPred_eq]
  cases hb1 : i.lowerBound with
  | none =>
    rw [hb1] at b1
    obtain ⟨-, w, hw⟩ := g1
    obtain ⟨_, _, q, -⟩ := (RawInterval.contains_iff_bounds i w).1 hw
    rw [hb1] at q; cases q
  | some lb =>
    cases hb2 : j.upperBound with
    | none =>
      obtain ⟨-, w, hw⟩ := g2
      obtain ⟨_, _, _, q, -⟩ := (RawInterval.contains_iff_bounds j w).1 hw
      rw [hb2] at q; cases q
    | some ub =>
      rw [hb1] at b1 f1
      rw [hb2] at b2 f2
      rcases lb with p | p | _
      · exact absurd hb1 (n1 p)
      · have f1 : pred l = some p := f1.symm
        rcases ub with q | q | _
        · exact absurd hb2 (n2 q)
        · have f2 : succ u = some q := f2.symm
          cases e <;> simp [RawInterval.lowerBound, RawInterval.upperBound] at b1 b2
          subst b1 b2
          simp only [RawInterval.closure, RawInterval.contains, Bool.and_eq_true, decide_eq_true_eq, f1, f2,
            ge_iff_le, below f1 x, above f2 x, Option.some.injEq]
          have := pl f1
          have := pu f2
          grind
        · have f2 : succ u = none := f2.symm
          cases e <;> simp [RawInterval.lowerBound, RawInterval.upperBound] at b1 b2
          subst b1
          simp only [RawInterval.closure, RawInterval.contains, Bool.and_eq_true, decide_eq_true_eq, f1, f2,
            ge_iff_le, below f1 x, above0 f2 x, Option.some.injEq]
          grind
      · have f1 : pred l = none := f1.symm
        rcases ub with q | q | _
        · exact absurd hb2 (n2 q)
        · have f2 : succ u = some q := f2.symm
          cases e <;> simp [RawInterval.lowerBound, RawInterval.upperBound] at b1 b2
          subst b2
          simp only [RawInterval.closure, RawInterval.contains, Bool.and_eq_true, decide_eq_true_eq, f1, f2,
            ge_iff_le, below0 f1 x, above f2 x, Option.some.injEq]
          grind
        · have f2 : succ u = none := f2.symm
          cases e <;> simp [RawInterval.lowerBound, RawInterval.upperBound] at b1 b2
          simp [RawInterval.closure, RawInterval.contains, f1, f2, below0 f1 x, above0 f2 x]

example : (Selection.demo [(u8 3, u8 5), (u8 9, u8 255)]).closure true =
    .ok (Interval.mkClosed (u8 2) (u8 255)) := by decide

/-- `closure` of a union-built selection adds no value to `enclose` exactly if the selection is empty or
contains both the least and the greatest value of the type. -/
theorem C61_exact_iff (dbg : Bool) (s : Selection α) (hs : s.UnionBuilt) :
    (∃ e c, s.enclose dbg = .ok e ∧ s.closure dbg = .ok c ∧ e.pts = c.pts) ↔
      s.pts dbg = ∅ ∨ (minimum ∈ s.pts dbg ∧ maximum ∈ s.pts dbg) := by
  obtain ⟨e, e1, -, e2⟩ := C61_enclose_partial dbg s (.tidy (.inl hs))
  obtain ⟨c, c1, -, c2⟩ := C61_closure_formula dbg s hs
  have : (∃ e c, s.enclose dbg = .ok e ∧ s.closure dbg = .ok c ∧ e.pts = c.pts) ↔ e.pts = c.pts := by
    refine ⟨?_, fun h => ⟨e, c, e1, c1, h⟩⟩
    rintro ⟨e', c', h1, h2, h3⟩
    rw [e1] at h1; rw [c1] at h2; cases h1; cases h2; exact h3
  rw [this]
  rcases e2 with ⟨h0, h1⟩ | ⟨l, u, h1, h2, h3⟩
  · rcases c2 with ⟨-, h2⟩ | ⟨l, u, h2, -⟩
    · rw [h1, h2]; exact iff_of_true rfl (.inl h0)
    · have := h2.1; rw [h0] at this; exact this.elim
  · rcases c2 with ⟨h4, -⟩ | ⟨l', u', k1, k2, k3⟩
    · have := h1.1; rw [h4] at this; exact this.elim
    have el : l' = l := le_antisymm (k1.2 h1.1) (h1.2 k1.1)
    have eu : u' = u := le_antisymm (h2.2 k2.1) (k2.2 h2.1)
    subst el eu
    rw [h3]
    constructor
    · intro he
      right
      have a : pred l' = none := by
        cases hp : pred l' with
        | none => rfl
        | some p =>
          have : p ∈ Set.Icc l' u' := he ▸ (k3 p).2 (.inr (.inl hp))
          exact absurd this.1 (not_le.2 (LawfulFinite.pred_some l' p hp).1)
      have b : succ u' = none := by
        cases hp : succ u' with
        | none => rfl
        | some p =>
          have : p ∈ Set.Icc l' u' := he ▸ (k3 p).2 (.inr (.inr hp))
          exact absurd this.2 (not_le.2 (LawfulFinite.succ_some u' p hp).1)
      rw [LawfulFinite.pred_none] at a
      rw [LawfulFinite.succ_none] at b
      exact ⟨a ▸ h1.1, b ▸ h2.1⟩
    · rintro (h0 | ⟨hm, hM⟩)
      · have := h1.1; rw [h0] at this; exact this.elim
      · have a : pred l' = none := by
          rw [LawfulFinite.pred_none]; exact le_antisymm (h1.2 hm) (LawfulFinite.min_le _)
        have b : succ u' = none := by
          rw [LawfulFinite.succ_none]; exact le_antisymm (LawfulFinite.le_max _) (h2.2 hM)
        ext x
        rw [k3, a, b]
        simp

example : (Selection.demo [(u8 0, u8 5), (u8 9, u8 255)]).UnionBuilt ∧
    (Selection.demo [(u8 0, u8 5), (u8 9, u8 255)]).closure true =
      (Selection.demo [(u8 0, u8 5), (u8 9, u8 255)]).enclose true :=
  ⟨Selection.demo_built _ (by decide), by decide⟩

/-! ## C58: points from both ends -/

/-- Mixed point iteration of a union-built selection is a double-ended walk exactly if no single value
is missing between two of its values and it either is one run or has no neighbouring values
(for types without infinite descending sequences). -/
theorem C58_exact_iff [WellFoundedLT α] (dbg : Bool) (s : Selection α) (hs : s.UnionBuilt) :
    (∀ cs, ∃ os, drive (PointIter.next dbg) (PointIter.nextBack dbg) (PointIter.start s) cs = .ok os ∧
      Walk (s.pts dbg) cs os) ↔
    ¬ OneMissing (s.pts dbg) ∧
      ((∀ x y z, x ∈ s.pts dbg → z ∈ s.pts dbg → x ≤ y → y ≤ z → y ∈ s.pts dbg) ∨
        ∀ p q, succ p = some q → p ∈ s.pts dbg → q ∉ s.pts dbg) := by
  have v := Selection.reachable_valid hs.reachable
  have hso : s.Solid := .tidy (.inl hs)
  have hg := Selection.np_good v hso.np
  have hi := Selection.pieces_inc v
  have hr := Selection.rest_pieces dbg v
  have he := Selection.intervals_eq dbg v
  have hsep := C56_separated_partial dbg s (.inl hs) _ he
  have mem : ∀ {i : RawInterval α}, i ∈ pieces none s.tree → ∀ x ∈ (Selection.run i).pts, x ∈ s.pts dbg := by
    intro i hi x hx
    rw [← hr]; rw [Selection.run_pts] at hx
    exact ⟨i, hi, hx⟩
  have shape : (pieces none s.tree).length ≤ 1 ∨ (∀ i ∈ pieces none s.tree, ∃ p, (Selection.run i).pts = {p}) ↔
      ((∀ x y z, x ∈ s.pts dbg → z ∈ s.pts dbg → x ≤ y → y ≤ z → y ∈ s.pts dbg) ∨
        ∀ p q, succ p = some q → p ∈ s.pts dbg → q ∉ s.pts dbg) := by
    constructor
    · rintro (h | h)
      · left
        intro x y z hx hz h1 h2
        rcases hp : pieces none s.tree with _ | ⟨i, _ | ⟨j, L⟩⟩
        · rw [← hr, hp] at hx
          obtain ⟨i, hi, -⟩ := hx; simp at hi
        · obtain ⟨l, u, -, e, -⟩ := (hg i (by rw [hp]; simp)).cases
          have hS : s.pts dbg = Set.Icc l u := by
            rw [← hr, hp, Selection.rest_cons, e]
            ext w; simp [Selection.rest]
          rw [hS] at hx hz ⊢
          exact ⟨le_trans hx.1 h1, le_trans h2 hz.2⟩
        · rw [hp] at h; simp at h
      · right
        intro p q hpq hp hq
        have hlt := LawfulFinite.succ_some p q hpq
        rw [← hr] at hp hq
        obtain ⟨i, i1, i2⟩ := hp
        obtain ⟨j, j1, j2⟩ := hq
        have i3 : p ∈ (Selection.run i).pts := by rw [Selection.run_pts]; exact i2
        have j3 : q ∈ (Selection.run j).pts := by rw [Selection.run_pts]; exact j2
        by_cases hij : i = j
        · subst hij
          obtain ⟨r, er⟩ := h i i1
          rw [er] at i3 j3
          exact absurd (i3.trans j3.symm) hlt.1.ne
        · obtain ⟨m, hm, em⟩ := List.getElem_of_mem i1
          obtain ⟨n, hn, en⟩ := List.getElem_of_mem j1
          rw [List.pairwise_map, List.pairwise_iff_getElem] at hsep
          rcases lt_trichotomy m n with hmn | hmn | hmn
          · obtain ⟨z, -, z1, z2⟩ := hsep m n hm hn hmn
            rw [em] at z1; rw [en] at z2
            exact absurd (hlt.2 z (z1 p i3)) (not_le.2 (z2 q j3))
          · subst hmn; exact hij (em.symm.trans en)
          · obtain ⟨z, -, z1, z2⟩ := hsep n m hn hm hmn
            rw [en] at z1; rw [em] at z2
            exact absurd (lt_trans (z1 q j3) (z2 p i3)) (not_lt.2 hlt.1.le)
    · rintro (h | h)
      · left
        rcases hp : pieces none s.tree with _ | ⟨i, _ | ⟨j, L⟩⟩
        · simp
        · simp
        · exfalso
          rw [hp] at hsep
          obtain ⟨z, z0, z1, z2⟩ := (List.pairwise_cons.1 hsep).1 (Selection.run j) (by simp)
          obtain ⟨-, -, x, hx⟩ := (hg i (by rw [hp]; simp)).run_ok
          obtain ⟨-, -, y, hy⟩ := (hg j (by rw [hp]; simp)).run_ok
          exact z0 (h x z y (mem (by rw [hp]; simp) x hx) (mem (by rw [hp]; simp) y hy) (z1 x hx).le
            (z2 y hy).le)
      · right
        intro i hi
        obtain ⟨l, u, hlu, e, -⟩ := (hg i hi).cases
        rcases eq_or_lt_of_le hlu with rfl | hlt
        · refine ⟨l, ?_⟩
          rw [e]; ext x
          exact ⟨fun hx => le_antisymm hx.2 hx.1, fun hx => ⟨ge_of_eq hx, le_of_eq hx⟩⟩
        · exfalso
          cases hq : succ l with
          | none =>
            rw [LawfulFinite.succ_none] at hq
            exact absurd (LawfulFinite.le_max u) (not_le.2 (hq ▸ hlt))
          | some q =>
            have hq' := LawfulFinite.succ_some l q hq
            exact h l q hq (mem hi l (e ▸ ⟨le_refl _, hlu⟩)) (mem hi q (e ▸ ⟨hq'.1.le, hq'.2 u hlt⟩))
  rw [← shape]
  constructor
  · intro h
    have hm : ¬ OneMissing (s.pts dbg) := by
      rw [← C73_points_iff dbg s hs]
      exact fun n => h _
    refine ⟨hm, ?_⟩
    rw [← hr] at h
    exact Selection.walks_single dbg _ rfl v.1.1 ((Selection.holeFree_iff dbg hs).2 hm) v.2 hg hi h
  · rintro ⟨hm, h | h⟩ cs
    · exact C58_single_partial dbg s hso _ he (by simpa using h) cs
    · rw [← hr]
      exact Selection.single_walks dbg cs v.1.1 ((Selection.holeFree_iff dbg hs).2 hm) v.2 hg hi h

/-- One run; separate values; and neither. -/
example : (∀ s ∈ [Selection.demo [(u8 2, u8 5)], Selection.demo [(u8 2, u8 2), (u8 5, u8 5)]],
      drive (PointIter.next true) (PointIter.nextBack true) (PointIter.start s) [.next, .nextBack] =
        .ok [some (u8 2), some (u8 5)]) ∧
    drive (PointIter.next true) (PointIter.nextBack true)
      (PointIter.start (Selection.demo [(u8 2, u8 3), (u8 5, u8 6)])) [.next, .nextBack] =
        .ok [some (u8 2), some (u8 3)] := by
  decide

end Sel
/-! ## C66: what the parser accepts -/

/-- Beyond the properly written strings the parser accepts exactly those that start with the empty sign,
and those with something between minus infinity and the first comma, or between that comma and infinity. -/
theorem C66_exact_iff {lo hi : Int} (s : Str) (i : RawInterval (MInt lo hi)) :
    RawInterval.fromStr s = .ok (.ok i) ↔ StrictText s i ∨ (∃ v, s = 'Ø' :: v ∧ i = .empty) ∨
      ∃ x y lb ub, s = x ++ ',' :: y ∧ ',' ∉ x ∧ LowerText x lb ∧ UpperText y ub ∧
        (lb = .inf ∨ ub = .inf) ∧ i = RawInterval.new lb ub := by
  constructor
  · intro h
    rcases (C14_accepts s i).1 h with ⟨⟨v, rfl⟩, rfl⟩ | ⟨-, r, hr, rfl⟩ |
      ⟨-, -, x, y, lb, ub, rfl, hc, hx, hy, rfl⟩
    · exact .inr (.inl ⟨v, rfl, rfl⟩)
    · exact .inl (.point hr)
    · cases hx with
      | inf v => exact .inr (.inr ⟨_, y, _, ub, rfl, hc, .inf v, hy, .inl rfl, rfl⟩)
      | excl hn hp =>
        cases hy with
        | inf w => exact .inr (.inr ⟨_, _, _, _, rfl, hc, .excl hn hp, .inf w, .inr rfl, rfl⟩)
        | excl hm hq => exact .inl (.pair (.excl hp) (.excl hq))
        | incl hq => exact .inl (.pair (.excl hp) (.incl hq))
      | incl hp =>
        cases hy with
        | inf w => exact .inr (.inr ⟨_, _, _, _, rfl, hc, .incl hp, .inf w, .inr rfl, rfl⟩)
        | excl hm hq => exact .inl (.pair (.incl hp) (.excl hq))
        | incl hq => exact .inl (.pair (.incl hp) (.incl hq))
  · rintro (h | ⟨v, rfl, rfl⟩ | ⟨x, y, lb, ub, rfl, hc, hx, hy, -, rfl⟩)
    · exact C66_complete s i h
    · exact RawInterval.fromStr_empty ⟨v, rfl⟩
    · exact RawInterval.fromStr_pair (MInt.plain lo hi).noBracket hc hx hy

example : RawInterval.fromStr (α := I8) "(-∞ or so,5]".toList = .ok (.ok (.to (MInt.lit 5))) ∧
    RawInterval.fromStr (α := I8) "(3 or so,5]".toList = .ok (.error (.invalidValue .invalidDigit)) := by decide

end NI
