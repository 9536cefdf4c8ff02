import Verif.Lemmas.Spot
import Verif.Props.Local
import Verif.Props.Order

/-! # What is said of a value after any edits (C124) -/

namespace NI
open _root_.NI.Finite TT

section
variable {α : Type} [LinearOrder α] [Finite α] [LawfulFinite α]

/-- After any steps a selection built by unions has exactly the values that the steps leave in, each followed
alone with what is between it and its neighbours. -/
theorem C124_exact (dbg : Bool) (s : Selection α) (hs : s.UnionBuilt) (cs : List (SelStep α))
    (hc : ∀ c ∈ cs, c.Legal) :
    ∃ s', s.steps dbg cs = .ok s' ∧ ∀ x, x ∈ s'.pts dbg ↔ ((Spot.of (s.pts dbg) x).steps dbg x cs).here := by
  have v := Selection.reachable_valid hs.reachable
  obtain ⟨s', e, v', k⟩ := Selection.steps_looks dbg v hc
  refine ⟨s', e, fun x => ?_⟩
  rw [Selection.mem_pts dbg v']
  exact (k x _ (hs.do.looks x fun y => (Selection.mem_pts dbg v y).symm)).2.1

/-- `{2,4}` turned inside out, without `[1,2]`, and turned back: 3 has gone; without `[4,9]` it comes in. -/
example : (Selection.demo [(u8 2, u8 2), (u8 4, u8 4)]).UnionBuilt ∧
    (∀ c ∈ [SelStep.complement, .remove (.mkClosed (u8 1) (u8 2)), .complement, .minus (Selection.demo [(u8 4, u8 9)])],
      c.Legal) ∧
    (do (← (Selection.demo [(u8 2, u8 2), (u8 4, u8 4)]).steps true
        [.complement, .remove (.mkClosed (u8 1) (u8 2)), .complement, .minus (Selection.demo [(u8 4, u8 9)])]).intervals true) =
      .ok [.mkClosed (u8 1) (u8 3)] := by
  refine ⟨Selection.demo_built _ (by decide), ?_, by decide⟩
  simp only [List.mem_cons, List.not_mem_nil, or_false, forall_eq_or_imp, forall_eq, SelStep.Legal, true_and]
  exact ⟨⟨.mkClosed _ _, Interval.closed_real (by decide)⟩, Selection.demo_built _ (by decide)⟩

/-- `y` is `x` or one of its neighbours. -/
def Near (x y : α) : Prop := y = x ∨ pred x = some y ∨ succ x = some y

omit [LinearOrder α] [LawfulFinite α] in
theorem Spot.of_congr {X Y : Set α} {x : α} (h : ∀ y, Near x y → (y ∈ X ↔ y ∈ Y)) : Spot.of X x = Spot.of Y x := by
  have h1 := h x (.inl rfl)
  rw [Spot.of, Spot.of, Spot.mk.injEq, h1]
  refine ⟨?_, rfl, ?_⟩
  · refine propext (or_congr_right ⟨?_, ?_⟩)
    · rintro ⟨p, a, b⟩; exact ⟨p, (h p (.inr (.inl b))).1 a, b⟩
    · rintro ⟨p, a, b⟩; exact ⟨p, (h p (.inr (.inl b))).2 a, b⟩
  · refine propext (or_congr_right ⟨?_, ?_⟩)
    · rintro ⟨p, a, b⟩; exact ⟨p, (h p (.inr (.inr b))).1 a, b⟩
    · rintro ⟨p, a, b⟩; exact ⟨p, (h p (.inr (.inr b))).2 a, b⟩

/-- Two sequences of steps that treat a value and its neighbours alike leave it in or leave it out alike. -/
theorem C124_local (dbg : Bool) (s t : Selection α) (hs : s.UnionBuilt) (ht : t.UnionBuilt) (x : α)
    (h : ∀ y, Near x y → (y ∈ s.pts dbg ↔ y ∈ t.pts dbg)) (cs ds : List (SelStep α)) (hc : ∀ c ∈ cs, c.Legal)
    (hd : ∀ d ∈ ds, d.Legal) (hcd : List.Forall₂ (fun c d => c.kind = d.kind ∧
      ∀ y, Near x y → (y ∈ c.pts dbg ↔ y ∈ d.pts dbg)) cs ds) :
    ∃ s' t', s.steps dbg cs = .ok s' ∧ t.steps dbg ds = .ok t' ∧ (x ∈ s'.pts dbg ↔ x ∈ t'.pts dbg) := by
  obtain ⟨s', e, k⟩ := C124_exact dbg s hs cs hc
  obtain ⟨t', e', k'⟩ := C124_exact dbg t ht ds hd
  refine ⟨s', t', e, e', ?_⟩
  rw [k, k', Spot.of_congr h]
  have : ∀ a : Spot, a.steps dbg x cs = a.steps dbg x ds := by
    clear e k e' k' hc hd
    induction hcd with
    | nil => exact fun a => rfl
    | @cons c d cs ds h1 _ ih =>
      intro a
      have : a.step dbg x c = a.step dbg x d := by
        have o := Spot.of_congr h1.2
        have q := h1.1
        cases c <;> cases d <;> simp only [SelStep.kind, reduceCtorEq] at q <;>
          first | (exact absurd q (by decide)) | (simp only [SelStep.pts] at o; simp only [Spot.step, o])
      rw [Spot.steps, List.foldl_cons, this]
      exact ih _
  rw [this]

/-- `[0,2]` and `[2,2]` are alike beside 3, so are `[4,9]` and `[4,200]`. -/
example : (∀ y, Near (u8 3) y → (y ∈ (Selection.demo [(u8 0, u8 2), (u8 4, u8 4)]).pts true ↔
      y ∈ (Selection.demo [(u8 2, u8 2), (u8 4, u8 4)]).pts true)) ∧
    (∀ y, Near (u8 3) y → (y ∈ (SelStep.remove (.mkClosed (u8 4) (u8 9))).pts true ↔
      y ∈ (SelStep.remove (.mkClosed (u8 4) (u8 200))).pts true)) ∧
    (do (← (Selection.demo [(u8 0, u8 2), (u8 4, u8 4)]).steps true [.remove (.mkClosed (u8 4) (u8 9))]).contains true (u8 3)) =
      .ok true ∧
    (do (← (Selection.demo [(u8 2, u8 2), (u8 4, u8 4)]).steps true [.remove (.mkClosed (u8 4) (u8 200))]).contains true (u8 3)) =
      .ok true := by
  refine ⟨?_, ?_, by decide, by decide⟩
  · rintro y (rfl | h | h)
    · simp only [Selection.demo_mem]; decide
    · rw [show pred (u8 3) = some (u8 2) by decide] at h; cases h; simp only [Selection.demo_mem]; decide
    · rw [show succ (u8 3) = some (u8 4) by decide] at h; cases h; simp only [Selection.demo_mem]; decide
  · rintro y (rfl | h | h)
    · exact (C21_bounded _ _ _).2.2.2.1.trans (.trans (by decide) (C21_bounded _ _ _).2.2.2.1.symm)
    · rw [show pred (u8 3) = some (u8 2) by decide] at h; cases h
      exact (C21_bounded _ _ _).2.2.2.1.trans (.trans (by decide) (C21_bounded _ _ _).2.2.2.1.symm)
    · rw [show succ (u8 3) = some (u8 4) by decide] at h; cases h
      exact (C21_bounded _ _ _).2.2.2.1.trans (.trans (by decide) (C21_bounded _ _ _).2.2.2.1.symm)

/-- What is put in or taken out elsewhere makes no difference to a value. -/
theorem C124_elsewhere (dbg : Bool) (s : Selection α) (hs : s.UnionBuilt) (x : α) (cs ds : List (SelStep α))
    (c : SelStep α) (hc : ∀ c ∈ cs, c.Legal) (hd : ∀ d ∈ ds, d.Legal) (h : c.Legal) (hk : c ≠ .complement)
    (hx : ∀ y, Near x y → y ∉ c.pts dbg) :
    ∃ r r', s.steps dbg (cs ++ ds) = .ok r ∧ s.steps dbg (cs ++ c :: ds) = .ok r' ∧
      (x ∈ r'.pts dbg ↔ x ∈ r.pts dbg) := by
  obtain ⟨r, e, k⟩ := C124_exact dbg s hs (cs ++ ds) fun c hm => (List.mem_append.1 hm).elim (hc c) (hd c)
  obtain ⟨r', e', k'⟩ := C124_exact dbg s hs (cs ++ c :: ds) fun d hm => by
    rcases List.mem_append.1 hm with hm | hm
    · exact hc d hm
    · rcases List.mem_cons.1 hm with rfl | hm
      · exact h
      · exact hd d hm
  refine ⟨r, r', e, e', ?_⟩
  rw [k, k', Spot.steps, Spot.steps, List.foldl_append, List.foldl_append, List.foldl_cons]
  have none : Spot.of (c.pts dbg) x = ⟨False, False, False⟩ := by
    rw [Spot.of_congr (Y := ∅) fun y hy => by simp [hx y hy]]
    simp [Spot.of]
  have : ∀ a : Spot, a.step dbg x c = a := by
    intro a
    cases c <;> simp only [SelStep.pts] at none <;>
      first | (exact absurd rfl hk) | (simp [Spot.step, none, Spot.add, Spot.remove])
  rw [this]

/-- 3 with what is done at 1 and below, and at 5 and above. -/
example : (∀ y, Near (u8 3) y → y ∉ (SelStep.remove (.mkClosed (u8 5) (u8 9))).pts true) ∧
    (SelStep.remove (.mkClosed (u8 5) (u8 9))).Legal ∧
    (do (← (Selection.demo [(u8 2, u8 2), (u8 4, u8 6)]).steps true ([] ++ [SelStep.remove (.mkClosed (u8 4) (u8 6))])).contains true (u8 3)) =
      .ok true ∧
    (do (← (Selection.demo [(u8 2, u8 2), (u8 4, u8 6)]).steps true
      ([] ++ SelStep.remove (.mkClosed (u8 5) (u8 9)) :: [SelStep.remove (.mkClosed (u8 4) (u8 6))])).contains true (u8 3)) = .ok true := by
  refine ⟨?_, ⟨.mkClosed _ _, Interval.closed_real (by decide)⟩, by decide, by decide⟩
  rintro y (rfl | h | h) hy
  · exact absurd ((C21_bounded _ _ _).2.2.2.1.1 hy) (by decide)
  · rw [show pred (u8 3) = some (u8 2) by decide] at h; cases h
    exact absurd ((C21_bounded _ _ _).2.2.2.1.1 hy) (by decide)
  · rw [show succ (u8 3) = some (u8 4) by decide] at h; cases h
    exact absurd ((C21_bounded _ _ _).2.2.2.1.1 hy) (by decide)

theorem Spot.aux {F H C B A E b a : Prop} (h : C → B) :
    F ∧ (¬ C ∧ (H ∨ b ∧ a ∧ (B ∨ A)) ∨ (b ∧ ¬ B) ∧ (a ∧ ¬ A) ∧ E) ↔
      (¬ C ∧ F) ∧ (H ∨ b ∧ a ∧ ((B ∨ A) ∨ E)) := by
  by_cases hC : C
  · simp [hC, h hC]
  · by_cases hB : B <;> by_cases hA : A <;> simp [hC, hB, hA]

/-- After any number of removals: what was in and is not taken out, and what was missing alone, is not taken out, and
has had a neighbour taken out. -/
theorem C124_removals (dbg : Bool) (s : Selection α) (hs : s.UnionBuilt) (cs : List (SelStep α))
    (hc : ∀ c ∈ cs, c.Legal) (hk : ∀ c ∈ cs, c.kind = 1) :
    ∃ s', s.steps dbg cs = .ok s' ∧ ∀ x, x ∈ s'.pts dbg ↔ (∀ c ∈ cs, x ∉ c.pts dbg) ∧
      (x ∈ s.pts dbg ∨ ((∃ p ∈ s.pts dbg, pred x = some p) ∧ (∃ q ∈ s.pts dbg, succ x = some q) ∧
        ∃ c ∈ cs, ∃ y ∈ c.pts dbg, Near x y)) := by
  obtain ⟨s', e, k⟩ := C124_exact dbg s hs cs hc
  refine ⟨s', e, fun x => (k x).trans ?_⟩
  have step : ∀ (a : Spot) (c : SelStep α), c.kind = 1 → a.step dbg x c = a.remove (Spot.of (c.pts dbg) x) := by
    intro a c h
    cases c <;> simp only [SelStep.kind] at h <;> first | rfl | (exact absurd h (by decide))
  have all : ∀ a : Spot, (a.steps dbg x cs).here ↔ (∀ c ∈ cs, x ∉ c.pts dbg) ∧
      (a.here ∨ (a.before ∧ a.after ∧ ∃ c ∈ cs, (Spot.of (c.pts dbg) x).before ∨ (Spot.of (c.pts dbg) x).after)) := by
    clear e k hc
    induction cs with
    | nil => intro a; simp [Spot.steps]
    | cons c cs ih =>
      intro a
      rw [Spot.steps, List.foldl_cons, step _ _ (hk c (by simp))]
      refine (ih (fun c hm => hk c (by simp [hm])) _).trans ?_
      have h1 : (Spot.of (c.pts dbg) x).here ↔ x ∈ c.pts dbg := Iff.rfl
      have h2 : x ∈ c.pts dbg → (Spot.of (c.pts dbg) x).before := .inl
      simp only [Spot.remove, List.mem_cons, forall_eq_or_imp, exists_eq_or_imp, h1]
      exact Spot.aux h2
  rw [all]
  refine and_congr_right fun _ => ?_
  have near : ∀ c : SelStep α, ((Spot.of (c.pts dbg) x).before ∨ (Spot.of (c.pts dbg) x).after) ↔
      ∃ y ∈ c.pts dbg, Near x y := by
    intro c
    simp only [Spot.of, Near]
    constructor
    · rintro ((h | ⟨p, h1, h2⟩) | (h | ⟨p, h1, h2⟩))
      · exact ⟨x, h, .inl rfl⟩
      · exact ⟨p, h1, .inr (.inl h2)⟩
      · exact ⟨x, h, .inl rfl⟩
      · exact ⟨p, h1, .inr (.inr h2)⟩
    · rintro ⟨y, h1, rfl | h2 | h2⟩
      · exact .inl (.inl h1)
      · exact .inl (.inr ⟨y, h1, h2⟩)
      · exact .inr (.inr ⟨y, h1, h2⟩)
  simp only [near]
  simp only [Spot.of]
  constructor
  · rintro (h | ⟨h | h, g | g, k⟩)
    · exact .inl h
    · exact .inl h
    · exact .inl h
    · exact .inl g
    · exact .inr ⟨h, g, k⟩
  · rintro (h | ⟨h, g, k⟩)
    · exact .inl h
    · exact .inr ⟨.inr h, .inr g, k⟩

example : (Selection.demo [(u8 2, u8 2), (u8 4, u8 4), (u8 6, u8 8)]).UnionBuilt ∧
    (∀ c ∈ [SelStep.remove (.mkClosed (u8 4) (u8 4)), .remove (.mkClosed (u8 5) (u8 5))], c.Legal ∧ c.kind = 1) ∧
    (do (← (Selection.demo [(u8 2, u8 2), (u8 4, u8 4), (u8 6, u8 8)]).steps true
      [.remove (.mkClosed (u8 4) (u8 4)), .remove (.mkClosed (u8 5) (u8 5))]).intervals true) =
      .ok [.mkClosed (u8 2) (u8 3), .mkClosed (u8 6) (u8 8)] := by
  refine ⟨Selection.demo_built _ (by decide), ?_, by decide⟩
  intro c hc
  simp only [List.mem_cons, List.not_mem_nil, or_false] at hc
  rcases hc with rfl | rfl <;> exact ⟨⟨.mkClosed _ _, Interval.closed_real (by decide)⟩, rfl⟩

end

/-- The number `k` as a value of `u64`. -/
def U64.nat (k : Nat) : U64 := if h : k ≤ 18446744073709551615 then ⟨k, by omega⟩ else ⟨0, by decide⟩

theorem U64.nat_val {k : Nat} (h : k ≤ 18446744073709551615) : (U64.nat k).1 = k := by
  rw [U64.nat, dif_pos h]

/-- Two wrong values for every interval removed, for any number of removals: of all odd numbers every other one is
removed. -/
theorem C117_attained (dbg : Bool) (n : Nat) (hn : n < 2 ^ 62) :
    ∃ (s s' : Selection U64) (es : List (Edit (Interval U64))), s.UnionBuilt ∧
      (∀ e ∈ es, e.interval.Obtainable) ∧ (Edit.removed es).length = n ∧ s.edits dbg es = .ok s' ∧
      {x | ¬ (x ∈ s'.pts dbg ↔ x ∈ Edit.all Interval.pts es (s.pts dbg))}.encard = 2 * n := by
  have val : ∀ k, k ≤ 4 * n + 1 → (U64.nat k).1 = k := fun k hk => U64.nat_val (by omega)
  have inj : ∀ j k, j ≤ 4 * n + 1 → k ≤ 4 * n + 1 → U64.nat j = U64.nat k → j = k := fun j k hj hk h => by
    have := congrArg Subtype.val h
    rw [val j hj, val k hk] at this
    exact_mod_cast this
  have next : ∀ k, k + 1 ≤ 4 * n + 1 → succ (U64.nat k) = some (U64.nat (k + 1)) := fun k hk => by
    rw [MInt.succ_eq, val _ hk, val k (by omega)]
    push_cast; rfl
  obtain ⟨s, e, -, k⟩ := C48_from_points dbg ((List.range (2 * n + 1)).map fun k => U64.nat (2 * k + 1))
  have hs : s.UnionBuilt := .fromPoints e
  have hL : ∀ c ∈ (List.range n).map fun k => SelStep.remove (Interval.point (U64.nat (4 * k + 3))), c.Legal ∧ c.kind = 1 := by
    intro c hc
    obtain ⟨k, -, rfl⟩ := List.mem_map.1 hc
    exact ⟨⟨.point _, Interval.real_mk_point _⟩, rfl⟩
  obtain ⟨s', e', k'⟩ := C124_removals dbg s hs _ (fun c hc => (hL c hc).1) fun c hc => (hL c hc).2
  refine ⟨s, s', (List.range n).map fun k => .remove (Interval.point (U64.nat (4 * k + 3))), hs, ?_, ?_, ?_, ?_⟩
  · intro c hc
    obtain ⟨k, -, rfl⟩ := List.mem_map.1 hc
    exact .point _
  · simp [Edit.removed, List.filterMap_map]
  · rw [← e', Selection.edits, Selection.steps, List.foldlM_map, List.foldlM_map]
  · refine le_antisymm ?_ ?_
    · refine (C117_selection_count dbg s hs.reachable _ ?_ s' ?_).trans ?_
      · intro c hc
        obtain ⟨k, -, rfl⟩ := List.mem_map.1 hc
        exact .point _
      · rw [← e', Selection.edits, Selection.steps, List.foldlM_map, List.foldlM_map]
      · simp [Edit.removed, List.filterMap_map]
    · have sub : ∀ (L : List Nat) (X : Set U64), Edit.all Interval.pts
          (L.map fun k => Edit.remove (Interval.point (U64.nat (4 * k + 3)))) X ⊆ X := by
        intro L
        induction L with
        | nil => exact fun X => subset_rfl
        | cons k L ih => exact fun X => (ih _).trans Set.sdiff_subset
      have mem : ∀ j, j ≤ 4 * n + 1 → (U64.nat j ∈ s.pts dbg ↔ j % 2 = 1) := fun j hj => by
        rw [k]
        simp only [List.mem_map, List.mem_range]
        constructor
        · rintro ⟨i, hi, h⟩
          have := inj _ _ (by omega) hj h
          omega
        · exact fun h => ⟨j / 2, by omega, congrArg _ (by omega)⟩
      have pt : ∀ j i : Nat, U64.nat j ∈ (Interval.point (U64.nat i)).pts ↔ U64.nat j = U64.nat i := fun j i => by
        simp [Interval.pts, Interval.contains, Interval.point, RawInterval.contains]
      have big : (((fun j => U64.nat (2 * j + 2)) '' (↑(Finset.range (2 * n)) : Set Nat)).encard : ENat) = 2 * n := by
        rw [Set.InjOn.encard_image]
        · rw [Set.encard_coe_eq_coe_finsetCard, Finset.card_range]; norm_cast
        · intro i hi j hj h
          have hi := Finset.mem_range.1 hi
          have hj := Finset.mem_range.1 hj
          have := inj _ _ (by omega) (by omega) h
          omega
      rw [← big]
      refine Set.encard_le_encard ?_
      rintro _ ⟨j, hj, rfl⟩
      have hj := Finset.mem_range.1 (Finset.mem_coe.1 hj)
      have out : U64.nat (2 * j + 2) ∉ s.pts dbg := fun h => by
        have := (mem _ (by omega)).1 h; omega
      have inn : U64.nat (2 * j + 2) ∈ s'.pts dbg := by
        rw [k']
        refine ⟨fun c hc => ?_, .inr ⟨⟨U64.nat (2 * j + 1), (mem _ (by omega)).2 (by omega),
          pred_of_succ (next _ (by omega))⟩, ⟨U64.nat (2 * j + 3), (mem _ (by omega)).2 (by omega), next _ (by omega)⟩, ?_⟩⟩
        · obtain ⟨i, hi, rfl⟩ := List.mem_map.1 hc
          have hi := List.mem_range.1 hi
          intro h
          have := inj _ _ (by omega) (by omega) ((pt _ _).1 h)
          omega
        · rcases Nat.even_or_odd' j with ⟨i, rfl | rfl⟩
          · exact ⟨_, List.mem_map.2 ⟨i, List.mem_range.2 (by omega), rfl⟩, U64.nat (4 * i + 3), (pt _ _).2 rfl,
              .inr (.inr ((next _ (by omega)).trans (congrArg _ (congrArg _ (by omega)))))⟩
          · exact ⟨_, List.mem_map.2 ⟨i, List.mem_range.2 (by omega), rfl⟩, U64.nat (4 * i + 3), (pt _ _).2 rfl,
              .inr (.inl (pred_of_succ ((next _ (by omega)).trans (congrArg _ (congrArg _ (by omega))))))⟩
      exact fun h => out (sub _ _ (h.1 inn))

example : 1000000 < 2 ^ 62 := by decide

end NI
