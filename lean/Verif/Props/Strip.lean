import Verif.Lemmas.Strip

/-!
# C154: a selection as a strip of values and joints
-/

set_option linter.unusedVariables false
set_option linter.unusedSectionVars false

namespace NI
open _root_.NI.Finite TT
variable {α : Type} [LinearOrder α] [Finite α] [LawfulFinite α]

/-- No program panics, and the flags tell which values the selection contains, in both build kinds. -/
theorem C154_values (dbg : Bool) (p : StripProg α) (hp : p.Legal) :
    ∃ s, p.run dbg = .ok s ∧ ∀ x, s.contains dbg x = .ok (p.strip.val x) := by
  obtain ⟨s, e, h⟩ := StripProg.of dbg p hp
  exact ⟨s, e, fun x => by rw [Selection.contains_ok dbg (Selection.reachable_valid h.1), h.2.1]⟩

/-- 3 is a hole of `{2, 4}`, and comes in when 4 to 10 are removed; 5 then is put in again. -/
example : (StripProg.add (.remove (.add (.add .new (.point (u8 2))) (.point (u8 4))) (.mkClosed (u8 4) (u8 10))) (.point (u8 5))).Legal ∧
    [u8 1, u8 2, u8 3, u8 4, u8 5, u8 6].map (StripProg.add (.remove (.add (.add .new (.point (u8 2))) (.point (u8 4)))
      (.mkClosed (u8 4) (u8 10))) (.point (u8 5))).strip.val = [false, true, true, false, true, false] :=
  ⟨⟨⟨⟨⟨trivial, .point _⟩, .point _⟩, .mkClosed _ _⟩, .point _⟩, by decide⟩

/-- What is only added is joined to the next value. -/
theorem Strip.adds_joined (is : List (Interval α)) (p : Strip α)
    (h : ∀ x, p.val x = true → (succ x).isSome = true → p.joint x = true) :
    ∀ x, (is.foldl Strip.add p).val x = true → (succ x).isSome = true → (is.foldl Strip.add p).joint x = true := by
  induction is generalizing p with
  | nil => exact h
  | cons i is ih =>
    refine ih _ fun x hx hs => ?_
    obtain ⟨y, hy⟩ := Option.isSome_iff_exists.1 hs
    rcases Bool.or_eq_true _ _ ▸ hx with h1 | h1
    · simp [Strip.add, h x h1 hs]
    · simp [Strip.add, Interval.joins, hy, h1]

theorem Strip.no_lone {q : Strip α} (h : ∀ x, q.val x = true → (succ x).isSome = true → q.joint x = true) (x : α) :
    q.flip.hole x = false := by
  have := h x
  cases h1 : q.val x <;> cases h2 : (succ x).isSome <;> simp_all [Strip.hole, Strip.flip]

/-- 3 is a hole of `{2, 4}`, and an edge of 3 to 9: `minus` puts it in. -/
example : (StripProg.minus (.points [u8 2, u8 4]) (.collect [.mkClosed (u8 4) (u8 9), .mkClosed (u8 20) (u8 30)])).Legal ∧
    (StripProg.minus (.points [u8 2, u8 4]) (.collect [.mkClosed (u8 4) (u8 9), .mkClosed (u8 20) (u8 30)])).strip.val (u8 3) = true ∧
    (do (← (StripProg.minus (.points [u8 2, u8 4]) (.collect [.mkClosed (u8 4) (u8 9), .mkClosed (u8 20) (u8 30)])).run true).intervals true) =
      .ok [⟨.closed (u8 2) (u8 3)⟩] := by
  refine ⟨⟨trivial, fun i hi => ?_, fun x hx => ?_⟩, by decide, by decide⟩
  · simp only [List.mem_cons, List.not_mem_nil, or_false] at hi
    rcases hi with rfl | rfl <;> exact .mkClosed _ _
  · exact absurd hx (Bool.eq_false_iff.1 (Strip.no_lone (Strip.adds_joined [.mkClosed (u8 4) (u8 9), .mkClosed (u8 20) (u8 30)]
      .nothing fun x h => by cases h) x))

/-- `==` compares all the flags. -/
theorem C154_equal (dbg : Bool) (p q : StripProg α) (hp : p.Legal) (hq : q.Legal) :
    ∃ s t, p.run dbg = .ok s ∧ q.run dbg = .ok t ∧
      (s = t ↔ (∀ x, p.strip.val x = q.strip.val x) ∧ ∀ x, p.strip.joint x = q.strip.joint x) := by
  obtain ⟨s, e, h⟩ := StripProg.of dbg p hp
  obtain ⟨t, e', g⟩ := StripProg.of dbg q hq
  refine ⟨s, t, e, e', ?_, ?_⟩
  · rintro rfl
    have := h.unique g
    rw [this]; simp
  · rintro ⟨h1, h2⟩
    have : p.strip = q.strip := by
      rcases hp' : p.strip with ⟨v, j⟩
      rcases hq' : q.strip with ⟨w, k⟩
      rw [hp', hq'] at h1 h2
      congr 1
      exacts [funext h1, funext h2]
    rw [this] at h
    exact h.determines g

/-- 2 to 4 and not 3: by two additions it is joined to 3 on both sides, by one removal it is not. -/
example : (StripProg.add (.add .new (.point (u8 2))) (.point (u8 4))).Legal ∧
    (StripProg.remove (.add .new (.mkClosed (u8 2) (u8 4))) (.point (u8 3))).Legal ∧
    [u8 1, u8 2, u8 3, u8 4, u8 5].map (StripProg.add (.add .new (.point (u8 2))) (.point (u8 4))).strip.val =
      [u8 1, u8 2, u8 3, u8 4, u8 5].map (StripProg.remove (.add .new (.mkClosed (u8 2) (u8 4))) (.point (u8 3))).strip.val ∧
    (StripProg.add (.add .new (.point (u8 2))) (.point (u8 4))).strip.joint (u8 3) = true ∧
    (StripProg.remove (.add .new (.mkClosed (u8 2) (u8 4))) (.point (u8 3))).strip.joint (u8 3) = false :=
  ⟨⟨⟨trivial, .point _⟩, .point _⟩, ⟨⟨trivial, .mkClosed _ _⟩, .point _⟩, by decide, by decide, by decide⟩

/-- `is_empty` asks whether all flags are off, and `is_full` whether all are on. -/
theorem C154_empty_full (dbg : Bool) (p : StripProg α) (hp : p.Legal) :
    ∃ s, p.run dbg = .ok s ∧ (s.isEmpty = true ↔ ∀ x, p.strip.val x = false ∧ p.strip.joint x = false) ∧
      (s.isFull = true ↔ ∀ x, p.strip.val x = true ∧ ((succ x).isSome = true → p.strip.joint x = true)) := by
  obtain ⟨s, e, h⟩ := StripProg.of dbg p hp
  refine ⟨s, e, ⟨fun g => ?_, fun g => ?_⟩, ⟨fun g => ?_, fun g => ?_⟩⟩
  · obtain rfl : s = .new := by
      rcases s with ⟨_ | ⟨a, t⟩⟩
      · rfl
      · cases g
    rw [h.unique Strip.of_new]
    exact fun x => ⟨rfl, rfl⟩
  · have : p.strip = .nothing := by
      rcases hq : p.strip with ⟨v, j⟩
      rw [hq] at g
      exact congrArg₂ Strip.mk (funext fun x => (g x).1) (funext fun x => (g x).2)
    rw [this] at h
    obtain rfl := h.determines Strip.of_new
    rfl
  · obtain rfl : s = .full := by
      rcases s with ⟨t⟩
      rw [Selection.isFull, TineTree.isFull, decide_eq_true_eq] at g
      rw [show (Selection.full : Selection α) = ⟨_⟩ from congrArg Selection.mk Selection.full_tree]
      exact congrArg Selection.mk g
    rw [h.unique Strip.of_full]
    exact fun x => ⟨rfl, id⟩
  · have : p.strip = .everything := by
      have last := h.2.2.2
      rcases hq : p.strip with ⟨v, j⟩
      rw [hq] at g last
      refine congrArg₂ Strip.mk (funext fun x => (g x).1) (funext fun x => ?_)
      cases hs : succ x with
      | none => exact last x hs
      | some y => exact (g x).2 (by rw [hs]; rfl)
    rw [this] at h
    obtain rfl := h.determines Strip.of_full
    rw [Selection.isFull, Selection.full_tree]; rfl

/-- All values are in, but 5 and 6 are not joined: not full, though `contains` holds for every value. -/
example : (StripProg.union (.remove (.points [u8 4, u8 6]) (.mkClosed (u8 6) (u8 255)))
      (.complement (.collect [.mkClosed (u8 4) (u8 5)]))).Legal ∧
    (do .ok (← (StripProg.union (.remove (.points [u8 4, u8 6]) (.mkClosed (u8 6) (u8 255)))
      (.complement (.collect [.mkClosed (u8 4) (u8 5)]))).run true).isFull) = (.ok false : Except Panic Bool) ∧
    (do (← (StripProg.union (.remove (.points [u8 4, u8 6]) (.mkClosed (u8 6) (u8 255)))
      (.complement (.collect [.mkClosed (u8 4) (u8 5)]))).run true).intervals true) =
        .ok [⟨.closed (u8 0) (u8 5)⟩, ⟨.closed (u8 6) (u8 255)⟩] :=
  ⟨⟨⟨trivial, .mkClosed _ _⟩, fun i hi => by rw [List.mem_singleton.1 hi]; exact .mkClosed _ _⟩, by decide, by decide⟩

/-- The listed intervals: two values are in one of them exactly if all from the one to the other are in and joined; the
intervals without values are the joints between two values that are not in; and the point intervals are the values that
are not joined to either side. -/
theorem C154_intervals (dbg : Bool) (p : StripProg α) (hp : p.Legal) :
    ∃ s is, p.run dbg = .ok s ∧ s.intervals dbg = .ok is ∧
      is.Pairwise (fun i j => ∀ x ∈ i.pts, ∀ y ∈ j.pts, x < y) ∧
      (∀ x y, (∃ i ∈ is, i.contains x = true ∧ i.contains y = true) ↔ p.strip.together x y) ∧
      (∀ x y, succ x = some y → ((⟨.closed y x⟩ : Interval α) ∈ is ↔
        p.strip.val x = false ∧ p.strip.joint x = true ∧ p.strip.val y = false)) ∧
      ∀ x, Interval.point x ∈ is ↔ p.strip.flip.hole x = true := by
  obtain ⟨s, e, h⟩ := StripProg.of dbg p hp
  have v := Selection.reachable_valid h.1
  obtain ⟨is, e1, -, hlt, -⟩ := C56_cover_partial dbg s h.1
  have e2 := e1
  rw [Selection.intervals_eq dbg v, Except.ok.injEq] at e2
  subst e2
  refine ⟨s, _, e, e1, hlt, fun x y => ?_, fun x y hy => ?_, fun x => ?_⟩
  · have one : ∀ x y, x ≤ y → ((∃ i ∈ (pieces none s.tree).map Selection.run, i.contains x = true ∧ i.contains y = true) ↔
        (∀ z, x ≤ z → z ≤ y → p.strip.val z = true) ∧ ∀ z, x ≤ z → z < y → p.strip.joint z = true) := fun x y hxy => by
      have mem : ∀ {i : RawInterval α} {z}, (Selection.run i).contains z = true ↔ i.contains z = true := fun {i z} => by
        have := Set.ext_iff.1 (Selection.run_pts i) z
        exact this
      have next : ∀ {z : α}, z < y → ∃ w, succ z = some w := fun {z} hz => by
        cases hs : succ z with
        | none => exact absurd hz (not_lt.2 ((LawfulFinite.succ_none z).1 hs ▸ LawfulFinite.le_max y))
        | some w => exact ⟨w, rfl⟩
      have turn : ((∀ z, x ≤ z → z ≤ y → p.strip.val z = true) ∧ ∀ z, x ≤ z → z < y → p.strip.joint z = true) ↔
          (∀ z, x ≤ z → z ≤ y → at' s.tree z = true) ∧ ∀ z, x ≤ z → z < y → tcov s.tree true (.fin z) = true := by
        refine and_congr (forall_congr' fun z => by rw [h.2.1]) (forall_congr' fun z => ?_)
        refine imp_congr_right fun _ => ⟨fun g hz => ?_, fun g hz => ?_⟩ <;>
          obtain ⟨w, hw⟩ := next hz
        · rw [h.2.2.1 z w hw]; exact g hz
        · rw [← h.2.2.1 z w hw]; exact g hz
      rw [turn]
      constructor
      · rintro ⟨i, hi, h1, h2⟩
        obtain ⟨j, hj, rfl⟩ := List.mem_map.1 hi
        exact (piece_up v hj hxy (mem.1 h1)).1 (mem.1 h2)
      · intro g
        have hx : x ∈ s.pts dbg := (Selection.mem_pts dbg v x).2 (g.1 x le_rfl hxy)
        obtain ⟨is', e3, -, -, hc⟩ := C56_cover_partial dbg s h.1
        rw [e1] at e3; cases e3
        obtain ⟨i, hi, hxi⟩ := (hc x).1 hx
        obtain ⟨j, hj, rfl⟩ := List.mem_map.1 hi
        exact ⟨_, hi, hxi, mem.2 ((piece_up v hj hxy (mem.1 hxi)).2 g)⟩
    rcases le_total x y with hxy | hxy
    · rw [one x y hxy, Strip.together, min_eq_left hxy, max_eq_right hxy]
    · rw [Strip.together, min_eq_right hxy, max_eq_left hxy, ← one y x hxy]
      simp only [and_comm]
  · rw [← h.2.1, ← h.2.1, ← h.2.2.1 x y hy, ← gap_piece v hy, List.mem_map]
    constructor
    · rintro ⟨i, hi, g⟩
      rwa [← (Selection.run_gap ((pieces_wf v.1).1 i hi).1 hy).1 g]
    · exact fun g => ⟨_, g, (Selection.run_gap ((pieces_wf v.1).1 _ g).1 hy).2 rfl⟩
  · obtain ⟨c, ec, hc⟩ := h.flip dbg
    rw [← hc.hole, ← Selection.pinhole_iff dbg (Selection.reachable_valid hc.1)]
    obtain ⟨s', es, hs⟩ := hc.flip dbg
    have ff : p.strip.flip.flip = p.strip := by
      rcases hp' : p.strip with ⟨w, j⟩
      rw [hp'] at h
      have : ∀ z, ((succ z).isSome && !((succ z).isSome && !j z)) = j z := fun z => by
        cases hz : succ z with
        | none => have := h.2.2.2 z hz; simp only at this; simp [this]
        | some y => simp
      simp only [Strip.flip, Bool.not_not]
      congr 1
      exact funext this
    rw [ff] at hs
    obtain rfl := hs.determines h
    constructor
    · exact fun g => ⟨s', _, es, e1, g⟩
    · rintro ⟨c', cs, e3, e4, g⟩
      rw [es] at e3; cases e3
      rw [e1] at e4; cases e4
      exact g

example : (StripProg.remove (.add (.add .new (.point (u8 2))) (.mkClosed (u8 4) (u8 6))) (.point (u8 6))).Legal ∧
    (do (← (StripProg.remove (.add (.add .new (.point (u8 2))) (.mkClosed (u8 4) (u8 6))) (.point (u8 6))).run true).intervals true) =
      .ok [⟨.closed (u8 2) (u8 2)⟩, ⟨.closed (u8 4) (u8 5)⟩] :=
  ⟨⟨⟨⟨trivial, .point _⟩, .mkClosed _ _⟩, .point _⟩, by decide⟩

theorem Strip.adds_val (is : List (Interval α)) (p : Strip α) (x : α) :
    (is.foldl Strip.add p).val x = true ↔ p.val x = true ∨ ∃ i ∈ is, i.contains x = true := by
  induction is generalizing p with
  | nil => simp
  | cons i is ih => rw [List.foldl_cons, ih]; simp [Strip.add, or_assoc]

theorem StripProg.careful_right : ∀ (p : StripProg α), p.Careful → ∀ x, p.strip.val x = true ↔ x ∈ p.meaning
  | .new, _, x => by simp [StripProg.strip, Strip.nothing, StripProg.meaning]
  | .full, _, x => by simp [StripProg.strip, Strip.everything, StripProg.meaning]
  | .add p i, h, x => by
    simp [StripProg.strip, Strip.add, StripProg.meaning, ← StripProg.careful_right p h x]
  | .remove p i, h, x => by
    simp [StripProg.strip, Strip.remove, StripProg.meaning, ← StripProg.careful_right p h.1 x, h.2 x]
  | .complement p, h, x => by
    simp [StripProg.strip, Strip.flip, StripProg.meaning, ← StripProg.careful_right p h x]
  | .union p q, h, x => by
    simp [StripProg.strip, Strip.both, StripProg.meaning, ← StripProg.careful_right p h.1 x, ← StripProg.careful_right q h.2 x]
  | .minus p q, h, x => by
    simp [StripProg.strip, Strip.minus, StripProg.meaning, ← StripProg.careful_right p h.1 x, ← StripProg.careful_right q h.2.1 x,
      h.2.2 x]
  | .collect is, _, x => by
    rw [StripProg.strip, Strip.adds_val]; simp [Strip.nothing, StripProg.meaning]
  | .points xs, _, x => by
    have : (StripProg.points xs).strip = (xs.map Interval.point).foldl Strip.add .nothing := by rw [List.foldl_map]; rfl
    rw [this, Strip.adds_val]
    simp [Strip.nothing, StripProg.meaning, Interval.point, Interval.contains, RawInterval.contains]
  | .extend p is, h, x => by
    rw [StripProg.strip, Strip.adds_val, StripProg.careful_right p h x]; rfl

theorem StripProg.self_stage {α : Type _} (p : StripProg α) : p ∈ p.stages := by cases p <;> simp [StripProg.stages]

/-- Every stage of a program has the values it should have exactly if no interval is removed that has a hole beside it. -/
theorem C154_right_iff (dbg : Bool) (p : StripProg α) (hp : p.Legal) :
    (∀ q ∈ p.stages, ∃ s, q.run dbg = .ok s ∧ s.pts dbg = q.meaning) ↔ p.Careful := by
  have val : ∀ q : StripProg α, q.Legal → ((∃ s, q.run dbg = .ok s ∧ s.pts dbg = q.meaning) ↔
      ∀ x, q.strip.val x = true ↔ x ∈ q.meaning) := fun q hq => by
    obtain ⟨s, e, h⟩ := C154_values dbg q hq
    have : ∀ x, x ∈ s.pts dbg ↔ q.strip.val x = true := fun x => by
      change s.contains dbg x = .ok true ↔ _
      rw [h]; simp
    constructor
    · rintro ⟨s', e', g⟩ x
      rw [e] at e'; cases e'
      rw [← g, this]
    · exact fun g => ⟨s, e, Set.ext fun x => (this x).trans (g x)⟩
  induction p with
  | new => exact ⟨fun _ => trivial, fun _ q hq => by
      obtain rfl := List.mem_singleton.1 hq
      exact (val .new trivial).2 (StripProg.careful_right .new trivial)⟩
  | full => exact ⟨fun _ => trivial, fun _ q hq => by
      obtain rfl := List.mem_singleton.1 hq
      exact (val .full trivial).2 (StripProg.careful_right .full trivial)⟩
  | add p i ih =>
    have hv := val _ hp
    have hi := ih hp.1
    refine Iff.trans List.forall_mem_cons (Iff.trans (and_congr hv hi) ?_)
    exact ⟨fun h => h.2, fun h => ⟨StripProg.careful_right (.add p i) h, h⟩⟩
  | remove p i ih =>
    have hv := val _ hp
    have hi := ih hp.1
    refine Iff.trans List.forall_mem_cons (Iff.trans (and_congr hv hi) ?_)
    refine ⟨fun ⟨h, hc⟩ => ⟨hc, fun x => ?_⟩, fun h => ⟨StripProg.careful_right (.remove p i) h, h.1⟩⟩
    by_contra hf
    rw [Bool.not_eq_false, Bool.and_eq_true] at hf
    have h1 : (StripProg.remove p i).strip.val x = true := by
      simp [StripProg.strip, Strip.remove, hf.1, hf.2]
    have h2 : p.strip.val x = true := (StripProg.careful_right p hc x).2 ((h x).1 h1).1
    have h3 := hf.1
    rw [Strip.hole, h2] at h3
    simp at h3
  | complement p ih =>
    have hv := val _ hp
    have hi := ih hp
    refine Iff.trans List.forall_mem_cons (Iff.trans (and_congr hv hi) ?_)
    exact ⟨fun h => h.2, fun h => ⟨StripProg.careful_right (.complement p) h, h⟩⟩
  | union p q ih1 ih2 =>
    have hv := val _ hp
    have hi := and_congr (ih1 hp.1) (ih2 hp.2)
    refine Iff.trans List.forall_mem_cons (Iff.trans (and_congr hv (Iff.trans List.forall_mem_append hi)) ?_)
    exact ⟨fun h => h.2, fun h => ⟨StripProg.careful_right (.union p q) h, h⟩⟩
  | minus p q ih1 ih2 =>
    have hv := val _ hp
    have hi := and_congr (ih1 hp.1) (ih2 hp.2.1)
    refine Iff.trans List.forall_mem_cons (Iff.trans (and_congr hv (Iff.trans List.forall_mem_append hi)) ?_)
    refine ⟨fun ⟨h, hc, hd⟩ => ⟨hc, hd, fun x => ?_⟩, fun h => ⟨StripProg.careful_right (.minus p q) h, h.1, h.2.1⟩⟩
    by_contra hf
    rw [Bool.not_eq_false, Bool.and_eq_true] at hf
    have h1 : (StripProg.minus p q).strip.val x = true := by
      simp [StripProg.strip, Strip.minus, hf.1, hf.2]
    have h2 : p.strip.val x = true := (StripProg.careful_right p hc x).2 ((h x).1 h1).1
    have h3 := hf.1
    rw [Strip.hole, h2] at h3
    simp at h3
  | collect is => exact ⟨fun _ => trivial, fun _ q hq => by
      obtain rfl := List.mem_singleton.1 hq
      exact (val (.collect is) hp).2 (StripProg.careful_right (.collect is) trivial)⟩
  | points xs => exact ⟨fun _ => trivial, fun _ q hq => by
      obtain rfl := List.mem_singleton.1 hq
      exact (val (.points xs) hp).2 (StripProg.careful_right (.points xs) trivial)⟩
  | extend p is ih =>
    have hv := val _ hp
    have hi := ih hp.1
    refine Iff.trans List.forall_mem_cons (Iff.trans (and_congr hv hi) ?_)
    exact ⟨fun h => h.2, fun h => ⟨StripProg.careful_right (.extend p is) h, h⟩⟩

/-- Not careful: 3 is a hole beside 4. -/
example : (StripProg.remove (.add (.add .new (.point (u8 2))) (.point (u8 4))) (.point (u8 4))).Legal ∧
    ¬ (StripProg.remove (.add (.add .new (.point (u8 2))) (.point (u8 4))) (.point (u8 4))).Careful :=
  ⟨⟨⟨⟨trivial, .point _⟩, .point _⟩, .point _⟩, fun h => absurd (h.2 (u8 3)) (by decide)⟩

end NI
