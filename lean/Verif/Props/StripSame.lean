import Verif.Props.StripMinus

/-!
# C81: where unions and complements give the same selection as the calls they stand for
-/

set_option linter.unusedVariables false
set_option linter.unusedSectionVars false

namespace NI
open _root_.NI.Finite TT
variable {α : Type} [LinearOrder α] [Finite α] [LawfulFinite α]

/-- **C81.**  `minus` gives the same selection (by `==`) as union and complements exactly if each value of the right that is
not joined to its neighbours is a value of the left or has no joint of the left beside it, and no hole of the left is at an
edge of the right. -/
theorem C81_minus_same_iff (dbg : Bool) (p q : StripProg α) (hp : p.Legal) (hq : q.Legal) :
    (StripProg.minus p q).run dbg = (StripProg.complement (.union (.complement p) q)).run dbg ↔
      p.strip.Clear q.strip ∧ ∀ x, (p.strip.hole x && q.strip.edge x) = false := by
  obtain ⟨s, e1, h1⟩ := StripProg.of dbg p hp
  obtain ⟨t, e2, h2⟩ := StripProg.of dbg q hq
  obtain ⟨u, e3, h3⟩ := StripProg.of dbg (.complement (.union (.complement p) q)) ⟨hp, hq⟩
  have val : ∀ x, (StripProg.complement (.union (.complement p) q)).strip.val x = (p.strip.val x && !q.strip.val x) := fun x => by
    simp [StripProg.strip, Strip.flip, Strip.both]
  have joint : ∀ x, (StripProg.complement (.union (.complement p) q)).strip.joint x = (p.strip.joint x && !q.strip.joint x) :=
    fun x => by
      cases hs : succ x with
      | none => simp [StripProg.strip, Strip.flip, Strip.both, hs, h1.2.2.2 x hs]
      | some y => simp [StripProg.strip, Strip.flip, Strip.both, hs]
  have run : (StripProg.minus p q).run dbg = s.minus dbg t := by rw [StripProg.run, e1, e2]; rfl
  rw [run, e3]
  constructor
  · intro e
    have hc := h1.minus_clear dbg h2 e h3 (fun x _ hv => by rw [val, hv]; rfl) fun x hj => by rw [joint, hj, Bool.not_false, Bool.and_true]
    refine ⟨hc, fun x => ?_⟩
    obtain ⟨u', e', h'⟩ := h1.minus dbg h2 hc
    rw [e] at e'; cases e'
    have := (h'.2.1 x).symm.trans (h3.2.1 x)
    rw [val] at this
    simp only [Strip.minus, Strip.hole] at this ⊢
    cases hv : p.strip.val x
    · simpa [hv] using this
    · rfl
  · rintro ⟨hc, hh⟩
    obtain ⟨u', e', h'⟩ := h1.minus dbg h2 hc
    rw [e']
    have : p.strip.minus q.strip = (StripProg.complement (.union (.complement p) q)).strip := by
      rcases hq' : (StripProg.complement (.union (.complement p) q)).strip with ⟨v, j⟩
      rw [hq'] at val joint
      exact congrArg₂ Strip.mk (funext fun x => by rw [hh, Bool.or_false]; exact (val x).symm) (funext fun x => (joint x).symm)
    rw [this] at h'
    rw [h'.determines h3]

/-- Taking 4 to 5 from 2 to 9 is the same both ways, taking 4 to 9 from `{2, 4}` is not. -/
example : (StripProg.minus (.collect [.mkClosed (u8 2) (u8 9)]) (.collect [.mkClosed (u8 4) (u8 5)])).run true =
      (StripProg.complement (.union (.complement (.collect [.mkClosed (u8 2) (u8 9)])) (.collect [.mkClosed (u8 4) (u8 5)]))).run true ∧
    (StripProg.minus (.points [u8 2, u8 4]) (.collect [.mkClosed (u8 4) (u8 9)])).run true ≠
      (StripProg.complement (.union (.complement (.points [u8 2, u8 4])) (.collect [.mkClosed (u8 4) (u8 9)]))).run true := by
  decide

/-- **C81.**  `minus_in_place` gives the same selection as union and complements exactly if no hole is beside the interval. -/
theorem C81_remove_same_iff (dbg : Bool) (p : StripProg α) (hp : p.Legal) (i : Interval α) (hi : i.Obtainable) :
    (StripProg.remove p i).run dbg = (StripProg.complement (.add (.complement p) i)).run dbg ↔
      ∀ x, (p.strip.hole x && i.beside x) = false := by
  obtain ⟨s, e1, h1⟩ := StripProg.of dbg (.remove p i) ⟨hp, hi⟩
  obtain ⟨u, e3, h3⟩ := StripProg.of dbg (.complement (.add (.complement p) i)) ⟨hp, hi⟩
  obtain ⟨s0, -, h0⟩ := StripProg.of dbg p hp
  have val : ∀ x, (StripProg.complement (.add (.complement p) i)).strip.val x = (p.strip.val x && !i.contains x) := fun x => by
    simp [StripProg.strip, Strip.flip, Strip.add]
  have joint : ∀ x, (StripProg.complement (.add (.complement p) i)).strip.joint x = (p.strip.joint x && !i.joins x) :=
    fun x => by
      cases hs : succ x with
      | none => simp [StripProg.strip, Strip.flip, Strip.add, hs, h0.2.2.2 x hs]
      | some y => simp [StripProg.strip, Strip.flip, Strip.add, hs]
  rw [e1, e3]
  constructor
  · intro e x
    cases e
    have := (h1.2.1 x).symm.trans (h3.2.1 x)
    rw [val] at this
    simp only [StripProg.strip, Strip.remove, Strip.hole] at this ⊢
    cases hv : p.strip.val x
    · simpa [hv] using this
    · rfl
  · intro hh
    have : (StripProg.remove p i).strip = (StripProg.complement (.add (.complement p) i)).strip := by
      rcases hq' : (StripProg.complement (.add (.complement p) i)).strip with ⟨v, j⟩
      rw [hq'] at val joint
      exact congrArg₂ Strip.mk (funext fun x => by rw [hh, Bool.or_false]; exact (val x).symm) (funext fun x => (joint x).symm)
    rw [this] at h1
    rw [h1.determines h3]

example : (StripProg.points [u8 2, u8 4]).strip.hole (u8 3) = true ∧ (Interval.mkClosed (u8 4) (u8 9)).beside (u8 3) = true ∧
    (StripProg.remove (.points [u8 2, u8 4]) (.mkClosed (u8 4) (u8 9))).run true ≠
      (StripProg.complement (.add (.complement (.points [u8 2, u8 4])) (.mkClosed (u8 4) (u8 9)))).run true := by
  decide

/-- **C81.**  `intersect` gives the same selection as union and complements exactly if all intervals of the trees that
intersect come together in the walk. -/
theorem C81_intersect_same_iff (dbg : Bool) (a b : Selection α) (ha : a.Reachable) (hb : b.Reachable)
    (as bs : List (RawInterval α)) (has : a.tree.intervals dbg = .ok as) (hbs : b.tree.intervals dbg = .ok bs) :
    a.intersect dbg b = (do (← (← a.complement dbg).union dbg (← b.complement dbg)).complement dbg) ↔
      ∀ i ∈ as, ∀ j ∈ bs, i.intersects j = true → Together RawInterval.intersects as bs i j := by
  have va := Selection.reachable_valid ha
  have vb := Selection.reachable_valid hb
  rw [TT.intervals_eq dbg va, Except.ok.injEq] at has
  rw [TT.intervals_eq dbg vb, Except.ok.injEq] at hbs
  subst has hbs
  obtain ⟨a', e1, v1, c1⟩ := Selection.complement_ok dbg va
  obtain ⟨b', e2, v2, c2⟩ := Selection.complement_ok dbg vb
  obtain ⟨c, e3, v3, c3⟩ := Selection.union_ok dbg v1 v2
  obtain ⟨d, e4, v4, c4⟩ := Selection.complement_ok dbg v3
  have run : (do (← (← a.complement dbg).union dbg (← b.complement dbg)).complement dbg) = (.ok d : Except Panic _) := by
    simp [e1, e2, e3, e4, bind, Except.bind]
  have cd : ∀ aft k, RealPos aft k → tcov d.tree aft k = (tcov a.tree aft k && tcov b.tree aft k) := fun aft k hr => by
    rw [c4 _ _ hr, c3, c1 _ _ hr, c2 _ _ hr]; simp
  rw [run, ← intersect_exact_iff dbg va vb]
  obtain ⟨t, e, v, -⟩ := intersect_eq dbg va vb
  have he : a.intersect dbg b = .ok ⟨t⟩ := by rw [Selection.intersect, e]; rfl
  rw [he]
  constructor
  · intro h
    cases h
    exact ⟨_, e, cd⟩
  · rintro ⟨t', e', h⟩
    rw [e] at e'; cases e'
    have : t = d.tree := valid_ext v v4 fun aft k hr => (h aft k hr).trans (cd aft k hr).symm
    rw [this]

/-- The walk misses what 9 to 20 and 10 to 30 share. -/
example : ∃ a b : Selection U8, a.Reachable ∧ b.Reachable ∧
    a.intersect true b ≠ (do (← (← a.complement true).union true (← b.complement true)).complement true) :=
  ⟨(Selection.ofInterval (.mkClosed (u8 9) (u8 20))), ⟨[.lower (.excl (u8 1)), .upper (.excl (u8 4)), .lower (.excl (u8 9)), .upper (.excl (u8 31))]⟩,
    .ofInterval (.mkClosed _ _),
    .fromIntervals (dbg := true) (is := [.mkClosed (u8 2) (u8 3), .mkClosed (u8 10) (u8 30)])
      (fun i hi => by
        simp only [List.mem_cons, List.not_mem_nil, or_false] at hi
        rcases hi with rfl | rfl <;> exact .mkClosed _ _) (by decide), by decide⟩

end NI
