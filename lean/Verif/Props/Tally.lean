import Mathlib.Data.Set.Card
import Mathlib.Data.Int.Interval
import Verif.Props.Collect

/-!
# How many points an iterator yields (C103)

What `count()`, `nth()` and the like return: they call `next` until it returns `None`.  The number of points an
iterator yields is the number of points of the interval or selection, the `k`-th point is the one with `k` smaller
points, and `size` plus one is the number of points of an interval.
-/

set_option linter.unusedVariables false
set_option linter.unusedSectionVars false

namespace NI
open _root_.NI.Finite TT

theorem Walk.drain {β : Type _} [LinearOrder β] {S : Set β} {cs : List IterCall} {os : List (Option β)}
    (h : Walk S cs os) : Drain S os := by
  induction h with
  | nil S => exact .nil S
  | next hm _ ih => exact .some hm.1 ih
  | nextBack hm _ ih => exact .some hm.1 ih
  | done hS _ ih => exact .none hS ih

theorem Walk.length {β : Type _} [LinearOrder β] {S : Set β} {cs : List IterCall} {os : List (Option β)}
    (h : Walk S cs os) : os.length = cs.length := by
  induction h <;> simp_all

theorem Drain.tally {β : Type _} {S : Set β} {os : List (Option β)} (h : Drain S os) (hf : S.Finite) :
    os.countP (·.isSome) = min os.length S.ncard := by
  induction h with
  | nil S => simp
  | @some S m os hm _ ih =>
    have h1 := Set.ncard_sdiff_singleton_add_one hm hf
    rw [List.countP_cons_of_pos (by simp), ih (hf.subset Set.sdiff_subset), List.length_cons]
    omega
  | none hS _ ih => subst hS; simpa using ih hf

theorem Walk.nth {β : Type _} [LinearOrder β] {n : Nat} {S : Set β} {os : List (Option β)}
    (h : Walk S (List.replicate n .next) os) (hf : S.Finite) (k : Nat) (hk : k < n) (x : β) :
    os[k]? = some (some x) ↔ x ∈ S ∧ (S ∩ Set.Iio x).ncard = k := by
  induction n generalizing S os k with
  | zero => omega
  | succ n ih =>
    rw [List.replicate_succ] at h
    cases h with
    | @next _ m _ os hm h =>
      cases k with
      | zero =>
        rw [List.getElem?_cons_zero, Option.some_inj, Option.some_inj, Set.ncard_eq_zero (hf.subset Set.inter_subset_left)]
        constructor
        · rintro rfl
          exact ⟨hm.1, Set.eq_empty_of_forall_notMem fun y hy => absurd (hm.2 hy.1) (not_le.2 hy.2)⟩
        · rintro ⟨hx, he⟩
          rcases (hm.2 hx).lt_or_eq with hl | he'
          · exact absurd (he ▸ ⟨hm.1, hl⟩ : m ∈ (∅ : Set β)) (Set.notMem_empty m)
          · exact he'
      | succ k =>
        rw [List.getElem?_cons_succ, ih h (hf.subset Set.sdiff_subset) k (by omega)]
        by_cases hx : x ∈ S
        · rcases (hm.2 hx).lt_or_eq with hl | rfl
          · have h1 : (S \ {m}) ∩ Set.Iio x = (S ∩ Set.Iio x) \ {m} := by
              ext y; simp [and_right_comm]
            have h2 := Set.ncard_sdiff_singleton_add_one (show m ∈ S ∩ Set.Iio x from ⟨hm.1, hl⟩)
              (hf.subset Set.inter_subset_left)
            rw [h1]
            simp only [Set.mem_sdiff, hx, Set.mem_singleton_iff, hl.ne', not_false_eq_true, true_and]
            omega
          · have h0 : S ∩ Set.Iio m = ∅ :=
              Set.eq_empty_of_forall_notMem fun y hy => absurd (hm.2 hy.1) (not_le.2 hy.2)
            simp [h0]
        · simp [hx]
    | done hS h =>
      subst hS
      have := h.all_none rfl
      constructor
      · intro e
        cases k with
        | zero => simp at e
        | succ k =>
          rw [List.getElem?_cons_succ] at e
          have := this _ (List.mem_of_getElem? e)
          simp at this
      · rintro ⟨h, -⟩; cases h

/-- Machine integers have finitely many values. -/
theorem MInt.finite {lo hi : Int} (S : Set (MInt lo hi)) : S.Finite := by
  refine Set.Finite.of_finite_image ((Set.finite_Icc lo hi).subset ?_) Subtype.val_injective.injOn
  rintro _ ⟨x, -, rfl⟩
  exact x.2

section
variable {α : Type} [LinearOrder α] [Finite α] [LawfulFinite α]

/-- An interval's iterator yields as many points as the interval has, whichever ends they are taken from. -/
theorem C103_interval (i : Interval α) (h : i.Obtainable) (hr : i.Real) (hf : i.pts.Finite) (cs : List IterCall) :
    ∃ os, drive Interval.next Interval.nextBack i cs = .ok os ∧ os.length = cs.length ∧
      os.countP (·.isSome) = min cs.length i.pts.ncard := by
  obtain ⟨os, e, w⟩ := C32_iteration_partial i h hr cs
  exact ⟨os, e, w.length, by rw [w.drain.tally hf, w.length]⟩

example : (Interval.mkClosed (u8 3) (u8 6)).Obtainable ∧ (Interval.mkClosed (u8 3) (u8 6)).Real ∧
    (Interval.mkClosed (u8 3) (u8 6)).pts.Finite ∧
    drive Interval.next Interval.nextBack (Interval.mkClosed (u8 3) (u8 6)) [.next, .nextBack, .next, .next, .next] =
      .ok [some (u8 3), some (u8 6), some (u8 4), some (u8 5), none] :=
  ⟨.ofRaw (.closed (u8 3) (u8 6)) (by decide), .inr ⟨u8 4, by decide⟩, MInt.finite _, by decide⟩

/-- The `k`-th point an interval's iterator yields is the one with `k` smaller points. -/
theorem C103_interval_nth (i : Interval α) (h : i.Obtainable) (hr : i.Real) (hf : i.pts.Finite) (n : Nat) :
    ∃ os, drive Interval.next Interval.nextBack i (List.replicate n .next) = .ok os ∧
      ∀ k < n, ∀ x, os[k]? = some (some x) ↔ x ∈ i.pts ∧ (i.pts ∩ Set.Iio x).ncard = k := by
  obtain ⟨os, e, w⟩ := C32_iteration_partial i h hr (List.replicate n .next)
  exact ⟨os, e, fun k hk x => w.nth hf k hk x⟩

example : (Interval.mkClosed (u8 3) (u8 6)).pts ∩ Set.Iio (u8 5) = {u8 3, u8 4} ∧
    drive Interval.next Interval.nextBack (Interval.mkClosed (u8 3) (u8 6)) (List.replicate 3 .next) =
      .ok [some (u8 3), some (u8 4), some (u8 5)] := by
  refine ⟨Set.ext fun x => ?_, by decide⟩
  rw [Set.mem_inter_iff, Set.mem_Iio, Set.mem_insert_iff, Set.mem_singleton_iff,
    show x ∈ (Interval.mkClosed (u8 3) (u8 6)).pts ↔ _ from (C21_bounded (u8 3) (u8 6) x).2.2.2.1]
  obtain ⟨x, hx⟩ := x
  simp only [u8, Subtype.mk_le_mk, Subtype.mk_lt_mk, Subtype.mk.injEq]
  omega

/-- A selection's iterator yields as many points as the selection has. -/
theorem C103_selection (dbg : Bool) (s : Selection α) (hs : s.Reachable) (is : List (Interval α))
    (he : s.intervals dbg = .ok is) (hg : ∀ i ∈ is, i.pts.Nonempty) (hf : (s.pts dbg).Finite) (n : Nat) :
    ∃ os, drive (PointIter.next dbg) (PointIter.nextBack dbg) (PointIter.start s) (List.replicate n .next) = .ok os ∧
      os.countP (·.isSome) = min n (s.pts dbg).ncard ∧
      ∀ k < n, ∀ x, os[k]? = some (some x) ↔ x ∈ s.pts dbg ∧ (s.pts dbg ∩ Set.Iio x).ncard = k := by
  obtain ⟨os, e, w⟩ := C57_forward_runs dbg s hs is he hg n
  exact ⟨os, e, by rw [w.drain.tally hf, w.length, List.length_replicate], fun k hk x => w.nth hf k hk x⟩

example : (Selection.demo [(u8 3, u8 4), (u8 9, u8 9)]).Reachable ∧
    (∃ is, (Selection.demo [(u8 3, u8 4), (u8 9, u8 9)]).intervals true = .ok is ∧ ∀ i ∈ is, i.HoldsStart = true) ∧
    ((Selection.demo [(u8 3, u8 4), (u8 9, u8 9)]).pts true).Finite ∧
    drive (PointIter.next true) (PointIter.nextBack true) (PointIter.start (Selection.demo [(u8 3, u8 4), (u8 9, u8 9)]))
      (List.replicate 5 .next) = .ok [some (u8 3), some (u8 4), some (u8 9), none, none] :=
  ⟨(Selection.demo_built _ (by decide)).reachable, ⟨_, rfl, by decide⟩, MInt.finite _, by decide⟩

/-- Also if points are taken from both ends, unless a single value is missing from the selection. -/
theorem C103_selection_mixed (dbg : Bool) (s : Selection α) (hs : s.Reachable) (is : List (Interval α))
    (he : s.intervals dbg = .ok is) (hg : ∀ i ∈ is, i.pts.Nonempty) (hp : ∀ x, ¬ s.Pinhole dbg x)
    (hf : (s.pts dbg).Finite) (cs : List IterCall) :
    ∃ os, drive (PointIter.next dbg) (PointIter.nextBack dbg) (PointIter.start s) cs = .ok os ∧
      os.countP (·.isSome) = min os.length (s.pts dbg).ncard := by
  obtain ⟨os, e, w⟩ := C58_drain_any dbg s hs is he hg hp cs
  exact ⟨os, e, w.tally hf⟩

example : drive (PointIter.next true) (PointIter.nextBack true) (PointIter.start (Selection.demo [(u8 3, u8 4), (u8 9, u8 9)]))
      [.nextBack, .next, .nextBack, .next] = .ok [some (u8 9), some (u8 3), some (u8 4), none] := by decide

/-- The number of points of a selection is the sum of those of its listed intervals. -/
theorem C103_sum (dbg : Bool) (s : Selection α) (hs : s.Reachable) (is : List (Interval α))
    (he : s.intervals dbg = .ok is) (hf : (s.pts dbg).Finite) :
    (s.pts dbg).ncard = (is.map fun i => i.pts.ncard).sum := by
  obtain ⟨is', e, ho, hp, c⟩ := C56_cover_partial dbg s hs
  rw [he] at e; cases e
  have key : ∀ (L : List (Interval α)) (S : Set α), S.Finite →
      L.Pairwise (fun i j => ∀ x ∈ i.pts, ∀ y ∈ j.pts, x < y) → (∀ x, x ∈ S ↔ ∃ i ∈ L, x ∈ i.pts) →
      S.ncard = (L.map fun i => i.pts.ncard).sum := by
    intro L
    induction L with
    | nil =>
      intro S _ _ h
      have : S = ∅ := Set.eq_empty_of_forall_notMem fun x hx => by simpa using (h x).1 hx
      simp [this]
    | cons i L ih =>
      intro S hS hL h
      rw [List.pairwise_cons] at hL
      have h1 : S = i.pts ∪ {x | ∃ j ∈ L, x ∈ j.pts} := by
        ext x; rw [h]; simp
      have hd : Disjoint i.pts {x | ∃ j ∈ L, x ∈ j.pts} := Set.disjoint_left.2 fun x hx ⟨j, hj, hxj⟩ =>
        lt_irrefl x (hL.1 j hj x hx x hxj)
      have f1 : i.pts.Finite := hS.subset (h1 ▸ Set.subset_union_left)
      have f2 : {x | ∃ j ∈ L, x ∈ j.pts}.Finite := hS.subset (h1 ▸ Set.subset_union_right)
      rw [h1, Set.ncard_union_eq hd f1 f2, List.map_cons, List.sum_cons, ih _ f2 hL.2 fun x => Iff.rfl]
  exact key is _ hf hp c
end

example : Nonempty (Fintype U8) := ⟨@Fintype.ofFinite _ (Set.finite_univ_iff.1 (MInt.finite Set.univ))⟩

/-- `size` plus one is the number of points of an interval of machine integers; debug builds panic exactly if that
number minus one is no value of the type. -/
theorem C103_size {lo hi : Int} [Fact (lo ≤ hi)] (i : Interval (MInt lo hi)) (h : i.Obtainable) (hr : i.Real) :
    (i.size MInt.sub = .ok none ↔ i.pts.ncard = 0) ∧
    (∀ d, i.size MInt.sub = .ok (some d) → (i.pts.ncard : Int) = d.1 + 1) ∧
    (i.size MInt.sub = .error .overflow ↔
      i.pts.ncard ≠ 0 ∧ ¬ (lo ≤ (i.pts.ncard : Int) - 1 ∧ (i.pts.ncard : Int) - 1 ≤ hi)) := by
  have hc : ∀ l u : MInt lo hi, l ≤ u → ((Set.Icc l u).ncard : Int) = u.1 - l.1 + 1 := by
    intro l u hlu
    have h1 : Subtype.val '' (Set.Icc l u) = Set.Icc l.1 u.1 := by
      ext z
      constructor
      · rintro ⟨x, hx, rfl⟩; exact hx
      · rintro ⟨h1, h2⟩; exact ⟨⟨z, l.2.1.trans h1, h2.trans u.2.2⟩, ⟨h1, h2⟩, rfl⟩
    rw [← Set.ncard_image_of_injective _ Subtype.val_injective, h1, ← Finset.coe_Icc, Set.ncard_coe_finset,
      Int.card_Icc]
    have : l.1 ≤ u.1 := hlu
    omega
  obtain ⟨h0, h1⟩ := C33_exact_iff i h
  rcases Interval.ends_cases h with rfl | ⟨l, u, hraw, hm, hl, hu, hlu⟩
  · have e : (⟨.empty⟩ : Interval (MInt lo hi)).pts = ∅ := Set.eq_empty_of_forall_notMem fun x hx => by cases hx
    have e2 : (⟨.empty⟩ : Interval (MInt lo hi)).size MInt.sub = .ok none := h0.2 rfl
    rw [e, e2]
    simp
  · have hle : l ≤ u := by
      have hne : i.isEmpty = false := by
        rcases hraw with hr | ⟨hr, -⟩ <;> rw [Interval.isEmpty, hr]
      rcases hr with hr | ⟨x, hx⟩
      · rw [hne] at hr; cases hr
      · exact ((hm x).1 hx).1.trans ((hm x).1 hx).2
    have hp : i.pts = Set.Icc l u := Set.ext hm
    have hk := hc l u hle
    obtain ⟨h2, h3⟩ := h1 l u hl hu
    rw [← hp] at hk
    have hpos : i.pts.ncard ≠ 0 := by
      have : l.1 ≤ u.1 := hle
      omega
    refine ⟨⟨fun e => ?_, fun e => absurd e hpos⟩, fun d hd => ?_, ?_⟩
    · have := h0.1 e
      rcases hraw with hr | ⟨hr, -⟩ <;> rw [Interval.isEmpty, hr] at this <;> cases this
    · have := (h2 d).1 hd
      omega
    · rw [h3, show (i.pts.ncard : Int) - 1 = u.1 - l.1 by omega]
      exact ⟨fun h => ⟨hpos, h⟩, fun h => h.2⟩

/-- The interval `[3,6]` has size 3 and four points; the full interval of bytes has all 256. -/
example : (Interval.mkClosed (u8 3) (u8 6)).Obtainable ∧ (Interval.mkClosed (u8 3) (u8 6)).size MInt.sub = .ok (some (u8 3)) ∧
    (Interval.full : Interval U8).size MInt.sub = .ok (some (u8 255)) ∧
    (Interval.full : Interval I8).size MInt.sub = .error .overflow ∧
    drive Interval.next Interval.nextBack (Interval.mkClosed (u8 3) (u8 6)) (List.replicate 6 .next) =
      .ok [some (u8 3), some (u8 4), some (u8 5), some (u8 6), none, none] :=
  ⟨.ofRaw (.closed (u8 3) (u8 6)) (by decide), by decide, by decide, by decide, by decide⟩

end NI
