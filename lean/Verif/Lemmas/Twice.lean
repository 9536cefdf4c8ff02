import Verif.Lemmas.MirrorOps
import Verif.Lemmas.Pinhole
import Verif.Lemmas.Lattice

/-! # The same operation again, and a tree with itself -/

namespace NI
namespace TT
variable {α : Type} [LinearOrder α]
open BSet (Lt Gt At)

/-! ## Union -/

theorem unionInPlace_twice (dbg : Bool) {t t' : TineTree α} (h : Valid t) {i : RawInterval α} (hi : i.WF)
    (e : TineTree.unionInPlace dbg t i = .ok t') : TineTree.unionInPlace dbg t' i = .ok t' := by
  obtain ⟨t1, e1, v1, c1⟩ := unionInPlace_ok dbg h hi
  rw [e1] at e; cases e
  obtain ⟨t2, e2, v2, c2⟩ := unionInPlace_ok dbg v1 hi
  rw [e2]
  congr 1
  refine valid_ext v2 v1 fun aft k _ => ?_
  rw [← tcov, ← tcov, c2, c1, Bool.or_assoc, Bool.or_self]

theorem union_twice (dbg : Bool) {a b t' : TineTree α} (ha : Valid a) (hb : Valid b)
    (e : TineTree.union dbg a b = .ok t') : TineTree.union dbg t' b = .ok t' := by
  obtain ⟨t1, e1, v1, c1⟩ := union_ok dbg ha hb
  rw [e1] at e; cases e
  obtain ⟨t2, e2, v2, c2⟩ := union_ok dbg v1 hb
  rw [e2]
  congr 1
  refine valid_ext v2 v1 fun aft k _ => ?_
  rw [← tcov, ← tcov, c2, c1, Bool.or_assoc, Bool.or_self]

theorem union_self (dbg : Bool) {a : TineTree α} (ha : Valid a) : TineTree.union dbg a a = .ok a := by
  obtain ⟨t2, e2, v2, c2⟩ := union_ok dbg ha ha
  rw [e2]
  congr 1
  refine valid_ext v2 ha fun aft k _ => ?_
  rw [← tcov, ← tcov, c2, Bool.or_self]

/-! ## Difference -/

/-- If two trees share no stretch above a key, they share none below one. -/
theorem bef_disjoint {t b : TineTree α} (ht : Valid t) (hb : Valid b)
    (h : ∀ k, tcov t true k = true → tcov b true k = false) {k : Key α} (hk : bef false t k = true) :
    bef false b k = false := by
  by_contra hn
  rw [Bool.not_eq_false] at hn
  obtain ⟨i, hi, l, u, i1, i2, i3, i4⟩ := (coversBelow_iff ht k).2 hk
  obtain ⟨j, hj, l', u', j1, j2, j3, j4⟩ := (coversBelow_iff hb k).2 hn
  rw [Tine.pos_eq, ← Key.lt_def] at i3 j3
  rw [Tine.pos_eq, ← Key.le_def] at i4 j4
  rcases le_total (Tine.lower l).key (Tine.lower l').key with g | g
  · have g1 := (inside_piece (k := (Tine.lower l').key) ht hi i1 i2).1 g (j3.trans_le i4)
    have g2 := (inside_piece (k := (Tine.lower l').key) hb hj j1 j2).1 le_rfl (j3.trans_le j4)
    rw [h _ g1] at g2
    cases g2
  · have g1 := (inside_piece (k := (Tine.lower l).key) ht hi i1 i2).1 le_rfl (i3.trans_le i4)
    have g2 := (inside_piece (k := (Tine.lower l).key) hb hj j1 j2).1 g (i3.trans_le j4)
    rw [h _ g1] at g2
    cases g2

/-- A tree that shares no stretch with `b` has no hole at the end of an interval of `b`. -/
theorem no_hole_at_end {t b : TineTree α} (ht : Valid t) (hb : Valid b)
    (h : ∀ k, tcov t true k = true → tcov b true k = false) {i : RawInterval α} (hi : i ∈ pieces none b)
    (hp : ∀ p, i ≠ .point p) {k : Key α} (hk : EndAt i k) : holeAt t k = false := by
  obtain ⟨hw, hne⟩ := (pieces_wf hb.1).1 i hi
  rcases fromRaw_cases hw with ⟨e0, e⟩ | ⟨p, e0, e⟩ | ⟨l, u, e, hlu⟩
  · exact absurd e0 hne
  · exact absurd e0 (hp p)
  obtain ⟨b1, b2⟩ := bounds_of_tines e
  obtain ⟨x, hx, rfl⟩ := hk
  rw [e] at hx
  simp only [List.mem_cons, List.not_mem_nil, or_false] at hx
  rcases hx with rfl | rfl
  · have g := (inside_piece (k := (Tine.lower l).key) hb hi b1 b2).1 le_rfl hlu
    have : tcov t true (Tine.lower l).key = false := by
      by_contra hn
      rw [Bool.not_eq_false] at hn
      rw [h _ hn] at g
      cases g
    rw [holeAt, this, Bool.and_false]
  · have g := (inside_piece (k := (Tine.upper u).key) hb hi b1 b2).2 hlu le_rfl
    have : bef false t (Tine.upper u).key = false := by
      by_contra hn
      rw [Bool.not_eq_false] at hn
      rw [bef_disjoint ht hb h hn] at g
      cases g
    rw [holeAt, this]; rfl

open Classical in
/-- Removing a tree without single points twice: the second time removes the ends that the first time filled in. -/
theorem minus_again (dbg : Bool) {a b t : TineTree α} (ha : Valid a) (hb : Valid b)
    (hp : ∀ p, .point p ∉ pieces none b) (e : TineTree.minus dbg a b = .ok t) :
    ∃ t2, TineTree.minus dbg t b = .ok t2 ∧ Valid t2 ∧
      (∀ aft k, tcov t2 aft k = (tcov t aft k && !tcov b aft k)) ∧
      TineTree.minus dbg t2 b = .ok t2 ∧
      (t2 = t ↔ ∀ k, holeAt a k = true → (∃ i ∈ pieces none b, EndAt i k) → tcov b false k = false) := by
  obtain ⟨t1, e1, v1, c1⟩ := minus_eq dbg ha hb fun p hh => absurd hh (hp p)
  rw [e1] at e; cases e
  obtain ⟨t2, e2, v2, c2⟩ := minus_eq dbg v1 hb fun p hh => absurd hh (hp p)
  obtain ⟨t3, e3, v3, c3⟩ := minus_eq dbg v2 hb fun p hh => absurd hh (hp p)
  have d1 : ∀ k, tcov t true k = true → tcov b true k = false := by
    intro k h
    rw [c1] at h
    simp only [Bool.not_true, Bool.false_and, Bool.or_false, Bool.and_eq_true, Bool.not_eq_true'] at h
    exact h.2
  have n1 : ∀ k, (∃ i ∈ pieces none b, EndAt i k) → holeAt t k = false := by
    rintro k ⟨i, hi, hk⟩
    exact no_hole_at_end v1 hb d1 hi (by rintro p rfl; exact hp p hi) hk
  have c2' : ∀ aft k, tcov t2 aft k = (tcov t aft k && !tcov b aft k) := by
    intro aft k
    rw [c2]
    by_cases he : ∃ i ∈ pieces none b, EndAt i k
    · rw [n1 k he]; simp
    · simp [he]
  have d2 : ∀ k, tcov t2 true k = true → tcov b true k = false := by
    intro k h
    rw [c2'] at h
    simp only [Bool.and_eq_true, Bool.not_eq_true'] at h
    exact h.2
  refine ⟨t2, e2, v2, c2', ?_, ?_⟩
  · rw [e3]
    congr 1
    refine valid_ext v3 v2 fun aft k _ => ?_
    rw [← tcov, ← tcov, c3, c2']
    by_cases he : ∃ i ∈ pieces none b, EndAt i k
    · obtain ⟨i, hi, hk⟩ := he
      rw [no_hole_at_end v2 hb d2 hi (by rintro p rfl; exact hp p hi) hk]
      simp only [Bool.and_false, Bool.false_and, Bool.or_false]
      rw [Bool.and_assoc, Bool.and_self]
    · simp only [he, decide_false, Bool.and_false, Bool.or_false]
      rw [Bool.and_assoc, Bool.and_self]
  · constructor
    · rintro rfl k hh he
      have g := c2' false k
      rw [c1] at g
      simp only [hh, he, Bool.not_false, Bool.and_true, decide_true, Bool.or_true, Bool.true_and] at g
      simpa using g
    · intro hh
      refine valid_ext v2 v1 fun aft k _ => ?_
      rw [← tcov, ← tcov, c2', c1]
      cases aft with
      | true => simp
      | false =>
        by_cases hf : holeAt a k = true
        · by_cases he : ∃ i ∈ pieces none b, EndAt i k
          · rw [hh k hf he]; simp
          · simp [he]
        · simp [hf]

theorem pieces_one {i : RawInterval α} (h : i.WF) (hn : i ≠ .empty) :
    pieces none (Tine.fromRawInterval i) = [i] := by
  cases i with
  | empty => exact absurd rfl hn
  | opn | leftOpen | rightOpen | closed =>
    have h : _ < _ := h
    simp [Tine.fromRawInterval, pieces, RawInterval.new, h, RawInterval.mkOpen,
      RawInterval.mkLeftOpen, RawInterval.mkRightOpen, RawInterval.mkClosed]
  | _ => simp [Tine.fromRawInterval, pieces, RawInterval.new]

/-- `minus` of a tree made of one interval is `minus_in_place`. -/
theorem minus_one (dbg : Bool) (t : TineTree α) {i : RawInterval α} (hi : i.WF) (hn : i ≠ .empty) :
    TineTree.minus dbg t (Tine.fromRawInterval i) = TineTree.minusInPlace dbg t i := by
  rw [TineTree.minus, fold_eq dbg _ (fromRaw_valid hi), pieces_one hi hn, List.foldlM_cons]
  cases TineTree.minusInPlace dbg t i <;> rfl

/-- Between a key and the tines of a list below it there is always a last one. -/
theorem last_below (ts : List (Tine α)) {k : Key α} (hk : Key.bot < k) :
    ∃ k0, k0 < k ∧ ∀ x ∈ ts, k0 < x.key → k ≤ x.key := by
  induction ts with
  | nil => exact ⟨.bot, hk, by simp⟩
  | cons x ts ih =>
    obtain ⟨k0, h0, h1⟩ := ih
    by_cases hx : k ≤ x.key
    · refine ⟨k0, h0, fun y hy => ?_⟩
      rcases List.mem_cons.1 hy with rfl | hy
      · exact fun _ => hx
      · exact h1 y hy
    · rcases le_total x.key k0 with g | g
      · refine ⟨k0, h0, fun y hy => ?_⟩
        rcases List.mem_cons.1 hy with rfl | hy
        · exact fun h => absurd h (not_lt.2 g)
        · exact h1 y hy
      · refine ⟨x.key, not_le.1 hx, fun y hy => ?_⟩
        rcases List.mem_cons.1 hy with rfl | hy
        · exact fun h => absurd h (lt_irrefl _)
        · exact fun h => h1 y hy (lt_of_le_of_lt g h)

/-- What a tree covers below a key follows from what it covers above the other keys. -/
theorem bef_congr {t t' : TineTree α} (h : ∀ k, tcov t true k = tcov t' true k) (p : α) :
    bef false t (.fin p) = bef false t' (.fin p) := by
  obtain ⟨k0, h0, h1⟩ := last_below (t ++ t') (k := .fin p) (by simp)
  rw [bef_cov h0 fun x hx => h1 x (by simp [hx]), bef_cov h0 fun x hx => h1 x (by simp [hx])]
  exact h k0

/-- Removing a point again from a tree from which it was removed properly. -/
theorem minusPoint_twice (dbg : Bool) {t t' : TineTree α} (h : Valid t) {p : α} (hm : MinusOk t (.point p))
    (e : TineTree.minusInPlace dbg t (.point p) = .ok t') :
    TineTree.minusInPlace dbg t' (.point p) = .ok t' ↔
      (tcov t false (.fin p) = false ∨ .point p ∈ pieces none t) := by
  obtain ⟨t1, e1, v1, c1, -⟩ := minusInPlace_ok dbg h (i := .point p) trivial hm
  rw [e1] at e; cases e
  have ht : ∀ k, tcov t' true k = tcov t true k := fun k => by rw [c1, icov_pt]; simp
  have hp : tcov t' false (.fin p) = false := by rw [c1, icov_pt]; simp
  have key : MinusOk t' (.point p) ↔ (tcov t false (.fin p) = false ∨ .point p ∈ pieces none t) := by
    rw [point_iff h]
    simp only [MinusOk] at hm ⊢
    rw [hp, ht, bef_congr ht]
    generalize bef false t (.fin p) = b, tcov t false (.fin p) = a, tcov t true (.fin p) = c at *
    clear * - hm
    cases a <;> cases b <;> cases c <;> simp_all
  rw [← key, ← minusPoint_iff dbg v1]
  constructor
  · intro e2
    exact ⟨t', e2, v1⟩
  · intro hh
    obtain ⟨t3, e3, v3, c3, -⟩ := minusInPlace_ok dbg v1 (i := .point p) trivial ((minusPoint_iff dbg v1 p).1 hh)
    rw [e3]
    congr 1
    refine valid_ext v3 v1 fun aft k _ => ?_
    rw [← tcov, ← tcov, c3, c1, Bool.and_assoc, Bool.and_self]

/-! ## Intersection in place -/

/-- Cutting a tree again that was cut properly: it must reach both ends. -/
theorem intersectInPlace_twice (dbg : Bool) {t t' : TineTree α} (h : Valid t) (ht0 : t ≠ []) {i : RawInterval α}
    (hi : i.WF) (h2 : i.TwoEnded) (hf : i ≠ .full) (hc : RawInterval.CutClean dbg (pieces none t) i)
    (e : TineTree.intersectInPlace dbg t i = .ok t') {l u : Bound α} (hl : i.lowerBound = some l)
    (hu : i.upperBound = some u) :
    TineTree.intersectInPlace dbg t' i = .ok t' ↔ t' = [] ∨
      (RawInterval.CoversAbove (pieces none t') (Tine.lower l).pos ∧
        RawInterval.CoversBelow (pieces none t') (Tine.upper u).pos) ∨
      (dbg = false ∧ ¬ RawInterval.CoversAbove (pieces none t') (Tine.lower l).pos ∧
        ¬ RawInterval.CoversBelow (pieces none t') (Tine.upper u).pos ∧
        RawInterval.CoversAt (pieces none t') (Tine.lower l).pos ∧
        RawInterval.CoversAt (pieces none t') (Tine.upper u).pos) := by
  obtain ⟨r, v, c, hr⟩ := intersectInPlace_sharp dbg h ht0 hi h2 hf
  rw [hr.2 hc] at e; cases e
  by_cases h0 : t' = []
  · subst h0
    exact iff_of_true (by simp [TineTree.intersectInPlace, TineTree.isEmpty]) (.inl rfl)
  rcases fromRaw_cases hi with ⟨e0, e⟩ | ⟨p, e0, e⟩ | ⟨lb, ub, e, hk⟩
  · exact absurd e0 h2.1
  · exact absurd e0 (h2.2 p)
  obtain ⟨b1, b2⟩ := bounds_of_tines e
  rw [b1] at hl; cases hl
  rw [b2] at hu; cases hu
  obtain ⟨r2, w, c2, hr2⟩ := intersectInPlace_sharp dbg v h0 hi h2 hf
  have : r2 = t' := valid_ext w v fun aft k _ => by
    rw [← tcov, ← tcov, c2, c, Bool.and_assoc, Bool.and_self]
  subst this
  have cl : ∀ aft k, tcov r2 aft k = true → cov aft false [Tine.lower l, Tine.upper u] k = true := by
    intro aft k hh
    rw [c, Bool.and_eq_true, icov, e] at hh
    exact hh.2
  have f1 : bef false r2 (Tine.lower l).key = false := by
    by_contra hn
    rw [Bool.not_eq_false] at hn
    obtain ⟨j, hj, l', u', j1, j2, j3, j4⟩ := (coversBelow_iff v _).2 hn
    rw [Tine.pos_eq, ← Key.lt_def] at j3
    rw [Tine.pos_eq, ← Key.le_def] at j4
    have g := cl _ _ ((inside_piece (k := (Tine.lower l').key) v hj j1 j2).1 le_rfl (j3.trans_le j4))
    rw [cov_pair hk, if_pos j3] at g
    cases g
  have f2 : tcov r2 true (Tine.upper u).key = false := by
    by_contra hn
    rw [Bool.not_eq_false] at hn
    have g := cl _ _ hn
    rw [cov_pair hk] at g
    simp [hk.not_gt, hk.ne'] at g
  have f3 : tcov r2 false (Tine.lower l).key = true → (Tine.lower l).inclAt = true := fun hh => by
    have g := cl _ _ hh
    rw [cov_pair hk] at g
    simpa using g
  have f4 : tcov r2 false (Tine.upper u).key = true → (Tine.upper u).inclAt = true := fun hh => by
    have g := cl _ _ hh
    rw [cov_pair hk] at g
    simpa [hk.not_gt, hk.ne'] using g
  rw [hr2, cutClean_iff dbg v hi e hk, Tine.pos_eq, Tine.pos_eq, coversAbove_iff v, coversBelow_iff v, coversAt_iff v,
    coversAt_iff v, f1, f2]
  generalize tcov r2 false (Tine.lower l).key = a, tcov r2 true (Tine.lower l).key = c1,
    bef false r2 (Tine.upper u).key = d, tcov r2 false (Tine.upper u).key = a2,
    (Tine.lower l).inclAt = il, (Tine.upper u).inclAt = iu at f3 f4 ⊢
  clear * - f3 f4 h0
  simp only [h0, false_or, IsectSharp, IsectGood]
  cases c1 <;> cases d <;> cases a <;> cases a2 <;> simp_all

/-! ## Intersection of two trees -/

/-- `intersect` is exact, between the points too, exactly if all intersecting intervals come together. -/
theorem intersect_exact_iff (dbg : Bool) {a b : TineTree α} (ha : Valid a) (hb : Valid b) :
    (∃ t, TineTree.intersect dbg a b = .ok t ∧ ∀ aft k, RealPos aft k → tcov t aft k = (tcov a aft k && tcov b aft k)) ↔
    ∀ s ∈ pieces none a, ∀ o ∈ pieces none b, s.intersects o = true →
      Together RawInterval.intersects (pieces none a) (pieces none b) s o := by
  obtain ⟨t, e1, v, e2⟩ := intersect_eq dbg ha hb
  obtain ⟨t1, f1, -, c1⟩ := fromIter_ok dbg (isectList (pieces none a) (pieces none b)) fun i hi => by
    obtain ⟨s, _, o, _, rfl⟩ := isectList_mem hi
    exact RawInterval.intersect_wf s o
  rw [f1] at e2; cases e2
  have wa := fun i hi => ((pieces_wf ha.1).1 i hi).1
  have wb := fun i hi => ((pieces_wf hb.1).1 i hi).1
  constructor
  · rintro ⟨t', e', c⟩ s hs o ho hm
    rw [e1] at e'; cases e'
    have ne : s.intersect o ≠ .empty := fun h => by
      rw [RawInterval.intersects, h] at hm; cases hm
    obtain ⟨aft, k, hr, hk⟩ := icov_some_real ne (RawInterval.intersect_wf s o)
    rw [icov_intersect (wa s hs) (wb o ho) hr, Bool.and_eq_true] at hk
    have g := c aft k hr
    rw [c1, show tcov a aft k = true by
        rw [tcov, ← (pieces_cov aft k ha.1).1 ha.2, List.any_eq_true]; exact ⟨s, hs, hk.1⟩,
      show tcov b aft k = true by
        rw [tcov, ← (pieces_cov aft k hb.1).1 hb.2, List.any_eq_true]; exact ⟨o, ho, hk.2⟩, Bool.and_self,
      List.any_eq_true] at g
    obtain ⟨i, hi, hik⟩ := g
    obtain ⟨s', o', hT, hm', rfl⟩ := (isectList_together _ _ _).1 hi
    rw [icov_intersect (wa s' hT.mem.1) (wb o' hT.mem.2) hr, Bool.and_eq_true] at hik
    rwa [pieces_meet ha hs hT.mem.1 hr hk.1 hik.1, pieces_meet hb ho hT.mem.2 hr hk.2 hik.2]
  · intro h
    refine ⟨t, e1, fun aft k hr => ?_⟩
    rw [c1, Bool.eq_iff_iff, List.any_eq_true, Bool.and_eq_true, tcov, tcov, ← (pieces_cov aft k ha.1).1 ha.2,
      ← (pieces_cov aft k hb.1).1 hb.2, List.any_eq_true, List.any_eq_true]
    constructor
    · rintro ⟨i, hi, hik⟩
      obtain ⟨s', o', hT, hm', rfl⟩ := (isectList_together _ _ _).1 hi
      rw [icov_intersect (wa s' hT.mem.1) (wb o' hT.mem.2) hr, Bool.and_eq_true] at hik
      exact ⟨⟨s', hT.mem.1, hik.1⟩, o', hT.mem.2, hik.2⟩
    · rintro ⟨⟨s, hs, h1⟩, o, ho, h2⟩
      have hk : icov (s.intersect o) aft k = true := by
        rw [icov_intersect (wa s hs) (wb o ho) hr, h1, h2]; rfl
      have hm : s.intersects o = true := by
        rw [RawInterval.intersects, Bool.not_eq_true', Bool.eq_false_iff, ne_eq, RawInterval.isEmpty_iff]
        intro h0
        rw [h0] at hk
        simp [icov, Tine.fromRawInterval, cov] at hk
      exact ⟨_, (isectList_together _ _ _).2 ⟨s, o, h s hs o ho hm, hm, rfl⟩, hk⟩

/-- The result of `intersect` lies within both trees. -/
theorem intersect_within (dbg : Bool) {a b t : TineTree α} (ha : Valid a) (hb : Valid b)
    (e : TineTree.intersect dbg a b = .ok t) : Valid t ∧ ∀ aft k, RealPos aft k → tcov t aft k = true →
      tcov a aft k = true ∧ tcov b aft k = true := by
  obtain ⟨t', e1, v, e2⟩ := intersect_eq dbg ha hb
  rw [e1] at e; cases e
  obtain ⟨t1, f1, -, c1⟩ := fromIter_ok dbg (isectList (pieces none a) (pieces none b)) fun i hi => by
    obtain ⟨s, _, o, _, rfl⟩ := isectList_mem hi
    exact RawInterval.intersect_wf s o
  rw [f1] at e2; cases e2
  refine ⟨v, fun aft k hr h => ?_⟩
  rw [c1, List.any_eq_true] at h
  obtain ⟨i, hi, hik⟩ := h
  obtain ⟨s, hs, o, ho, rfl⟩ := isectList_mem hi
  rw [icov_intersect ((pieces_wf ha.1).1 s hs).1 ((pieces_wf hb.1).1 o ho).1 hr, Bool.and_eq_true] at hik
  rw [tcov, tcov, ← (pieces_cov aft k ha.1).1 ha.2, ← (pieces_cov aft k hb.1).1 hb.2, List.any_eq_true, List.any_eq_true]
  exact ⟨⟨s, hs, hik.1⟩, o, ho, hik.2⟩

theorem intersect_twice (dbg : Bool) {a b t : TineTree α} (ha : Valid a) (hb : Valid b)
    (e : TineTree.intersect dbg a b = .ok t) : TineTree.intersect dbg t b = .ok t ↔
    ∀ s ∈ pieces none t, ∀ o ∈ pieces none b, s.intersects o = true →
      Together RawInterval.intersects (pieces none t) (pieces none b) s o := by
  obtain ⟨v, c⟩ := intersect_within dbg ha hb e
  rw [← intersect_exact_iff dbg v hb]
  have hc : ∀ aft k, RealPos aft k → (tcov t aft k && tcov b aft k) = tcov t aft k := fun aft k hr => by
    cases ht : tcov t aft k
    · rfl
    · rw [(c aft k hr ht).2]; rfl
  constructor
  · intro e2
    exact ⟨t, e2, fun aft k hr => (hc aft k hr).symm⟩
  · rintro ⟨t', e', c'⟩
    obtain ⟨t2, e2, v2, -⟩ := intersect_eq dbg v hb
    rw [e2] at e'; cases e'
    rw [e2]
    congr 1
    exact valid_ext v2 v fun aft k hr => (c' aft k hr).trans (hc aft k hr)

/-! ## A tree with itself -/

theorem isectList_shift (s : RawInterval α) (ss : List (RawInterval α))
    (h : (s :: ss).Pairwise fun a b => (a.intersect b).isEmpty = true) : isectList (s :: ss) ss = [] := by
  induction ss generalizing s with
  | nil => simp [isectList]
  | cons o os ih =>
    rw [List.pairwise_cons] at h
    have h1 := h.1 o (by simp)
    rw [isectList]
    simp only [List.takeWhile_cons, List.dropWhile_cons, h1, Bool.not_true, Bool.false_eq_true, if_false, List.map_nil,
      List.nil_append]
    exact ih o h.2

/-- The walk through a list against itself stops at the first interval. -/
theorem isectList_self (as : List (RawInterval α)) (hn : ∀ i ∈ as, (i.intersect i).isEmpty = false)
    (h : as.Pairwise fun a b => (a.intersect b).isEmpty = true) :
    isectList as as = (as.take 1).map fun i => i.intersect i := by
  cases as with
  | nil => rfl
  | cons s ss =>
    rw [isectList]
    simp only [List.takeWhile_cons, List.dropWhile_cons, hn s (by simp), Bool.not_false, if_true]
    cases ss with
    | nil => simp
    | cons o os =>
      rw [List.pairwise_cons] at h
      have h1 := h.1 o (by simp)
      simp only [List.takeWhile_cons, List.dropWhile_cons, h1, Bool.not_true, Bool.false_eq_true, if_false,
        List.map_cons, List.map_nil]
      rw [isectList_shift o os h.2]
      simp

/-- `intersect` of a tree with itself leaves its first interval. -/
theorem intersect_self (dbg : Bool) {a : TineTree α} (ha : Valid a) :
    ∃ t, TineTree.intersect dbg a a = .ok t ∧ Valid t ∧ pieces none t = (pieces none a).take 1 := by
  obtain ⟨t, e1, v, e2⟩ := intersect_eq dbg ha ha
  have w := fun i hi => (pieces_wf ha.1).1 i hi
  refine ⟨t, e1, v, ?_⟩
  rw [isectList_self] at e2
  rotate_left
  · intro i hi
    rw [RawInterval.intersect_self (w i hi).1, Bool.eq_false_iff, ne_eq, RawInterval.isEmpty_iff]
    exact (w i hi).2
  · refine (List.Pairwise.and_mem.1 (pieces_sep ha.1).1).imp fun {x y} h => ?_
    have := sep_no_meet (w x h.1).1 (w y h.2.1).1 h.2.2
    rw [Bool.or_eq_false_iff] at this
    simpa [RawInterval.intersects] using this.1
  cases hp : pieces none a with
  | nil =>
    rw [hp] at e2
    cases e2
    rfl
  | cons s ss =>
    obtain ⟨ws, ns⟩ := w s (by simp [hp])
    have := fromIter_pieces dbg (fromRaw_valid ws)
    rw [hp] at e2
    simp only [List.take_succ_cons, List.take_zero, List.map_cons, List.map_nil, RawInterval.intersect_self ws] at e2
    rw [pieces_one ws ns, e2] at this
    cases this
    exact pieces_one ws ns

end TT
end NI
