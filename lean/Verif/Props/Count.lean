import Verif.Lemmas.Count
import Verif.Props.Histories

/-!
# How many intervals there can be (C96)

Every single interval added, removed or cut out makes at most one more interval; the operations on two trees
or selections at most as many as the operands have together.
-/

set_option linter.unusedVariables false
set_option linter.unusedSectionVars false

namespace NI
open _root_.NI.Finite TT

section Tree
variable {α : Type} [LinearOrder α]

/-- Iterating over the tree yields `n` intervals. -/
def TineTree.HasIntervals (dbg : Bool) (t : TineTree α) (n : Nat) : Prop :=
  ∃ is, TineTree.intervals dbg t = .ok is ∧ is.length = n

theorem TineTree.hasIntervals_iff {dbg : Bool} {t : TineTree α} (v : Valid t) {n : Nat} :
    TineTree.HasIntervals dbg t n ↔ cnt t = n := by
  rw [HasIntervals, TT.intervals_eq dbg v]
  constructor
  · rintro ⟨is, e, rfl⟩
    cases e
    exact (((TT.pieces_cnt v.1.1).1 v.2)).symm
  · rintro rfl
    exact ⟨_, rfl, (TT.pieces_cnt v.1.1).1 v.2⟩

/-! ## C96 -/

/-- Adding one interval makes at most one more. -/
theorem C96_tree_union_in_place (dbg : Bool) (t t' : TineTree α) (ht : t.Reachable) (i : RawInterval α)
    (hi : i.WF) (h : TineTree.unionInPlace dbg t i = .ok t') (n n' : Nat)
    (hn : TineTree.HasIntervals dbg t n) (hn' : TineTree.HasIntervals dbg t' n') : n' ≤ n + 1 := by
  have v := TT.reachable_valid ht
  obtain ⟨r, e, v', -⟩ := TT.unionInPlace_ok dbg v hi
  rw [h] at e; cases e
  rw [TineTree.hasIntervals_iff v] at hn
  rw [TineTree.hasIntervals_iff v'] at hn'
  rw [← hn, ← hn']
  exact unionInPlace_cnt dbg v hi h

example : TineTree.unionInPlace true (TineTree.demo [.closed 0 9, .closed 20 29]) (.closed 5 25) =
      .ok (TineTree.demo [.closed 0 29]) ∧
    TineTree.HasIntervals true (TineTree.demo [.closed 0 9, .closed 20 29]) 2 ∧
    TineTree.HasIntervals true (TineTree.demo [.closed 0 29]) 1 :=
  ⟨by decide, ⟨_, rfl, rfl⟩, ⟨_, rfl, rfl⟩⟩

/-- A union has at most as many as both together. -/
theorem C96_tree_union (dbg : Bool) (a b t : TineTree α) (ha : a.Reachable) (hb : b.Reachable)
    (h : TineTree.union dbg a b = .ok t) (n m k : Nat) (hn : TineTree.HasIntervals dbg a n)
    (hm : TineTree.HasIntervals dbg b m) (hk : TineTree.HasIntervals dbg t k) : k ≤ n + m := by
  have va := TT.reachable_valid ha
  have vb := TT.reachable_valid hb
  obtain ⟨t', e, v, c⟩ := fold_cnt (f := TineTree.unionInPlace dbg) RawInterval.WF (fun t i vt hi => by
    obtain ⟨t', e, v, -⟩ := TT.unionInPlace_ok dbg vt hi
    exact ⟨t', e, v, unionInPlace_cnt dbg vt hi e⟩) (pieces none b) va
    (fun i hi => ((pieces_wf vb.1).1 i hi).1)
  rw [TineTree.union, fold_eq dbg _ vb, e] at h; cases h
  rw [TineTree.hasIntervals_iff va] at hn
  rw [TineTree.hasIntervals_iff vb] at hm
  rw [TineTree.hasIntervals_iff v] at hk
  rw [← hn, ← hm, ← hk, ← (TT.pieces_cnt vb.1.1).1 vb.2]
  exact c

example : TineTree.union true (TineTree.demo [.closed 0 9, .closed 20 29]) (TineTree.demo [.closed 40 49]) =
      .ok (TineTree.demo [.closed 0 9, .closed 20 29, .closed 40 49]) ∧
    TineTree.HasIntervals true (TineTree.demo [.closed 0 9, .closed 20 29, .closed 40 49]) 3 :=
  ⟨by decide, ⟨_, rfl, rfl⟩⟩

/-- A tree collected from a list has at most as many intervals as the list. -/
theorem C96_tree_collect (dbg : Bool) (is : List (RawInterval α)) (his : ∀ i ∈ is, i.WF) (t : TineTree α)
    (h : TineTree.fromIter dbg is = .ok t) (k : Nat) (hk : TineTree.HasIntervals dbg t k) :
    k ≤ is.length := by
  obtain ⟨t', e, v, c⟩ := fold_cnt (f := TineTree.unionInPlace dbg) RawInterval.WF (fun t i vt hi => by
    obtain ⟨t', e, v, -⟩ := TT.unionInPlace_ok dbg vt hi
    exact ⟨t', e, v, unionInPlace_cnt dbg vt hi e⟩) is (valid_nil (α := α)) his
  rw [TineTree.fromIter] at h
  rw [show (TineTree.new : TineTree α) = [] from rfl, e] at h; cases h
  rw [TineTree.hasIntervals_iff v] at hk
  rw [← hk]
  simpa [cnt] using c

example : TineTree.fromIter true [.closed (20 : Int) 29, .closed 0 9, .opn 9 20] =
      .ok (TineTree.demo [.closed 0 29]) ∧ TineTree.HasIntervals true (TineTree.demo [.closed 0 29]) 1 :=
  ⟨by decide, ⟨_, rfl, rfl⟩⟩

/-- A complement has exactly one interval more, less one for each side on which the tree is unbounded. -/
theorem C96_tree_complement (dbg : Bool) (t t' : TineTree α) (ht : t.Reachable)
    (h : TineTree.complement dbg t = .ok t') (is : List (RawInterval α))
    (his : TineTree.intervals dbg t = .ok is) (k : Nat) (hk : TineTree.HasIntervals dbg t' k) :
    ∃ c d : Bool, (c = true ↔ ∃ i ∈ is, i.lowerBound = some .inf) ∧
      (d = true ↔ ∃ i ∈ is, i.upperBound = some .inf) ∧ k + c.toNat + d.toNat = is.length + 1 := by
  have v := TT.reachable_valid ht
  obtain ⟨r, e, v', -⟩ := TT.complement_ok dbg v
  rw [h] at e; cases e
  rw [TT.intervals_eq dbg v] at his; cases his
  rw [TineTree.hasIntervals_iff v'] at hk
  refine ⟨tcov t true .bot, bef false t .top, ?_, ?_, ?_⟩
  · rw [← coversAbove_iff v]
    constructor
    · rintro ⟨j, hj, l, u, h1, h2, h3, h4⟩
      rw [Tine.pos_eq, ← Key.le_def] at h3
      rcases l with p | p | _
      · exact absurd h3 (by simp [Tine.key])
      · exact absurd h3 (by simp [Tine.key])
      · exact ⟨j, hj, h1⟩
    · rintro ⟨j, hj, h1⟩
      obtain ⟨hw, hne⟩ := (pieces_wf v.1).1 j hj
      rcases fromRaw_cases hw with ⟨e0, e⟩ | ⟨p, e0, e⟩ | ⟨lb, ub, e, hk'⟩
      · exact absurd e0 hne
      · subst e0; cases h1
      · obtain ⟨b1, b2⟩ := bounds_of_tines e
        rw [h1] at b1; cases b1
        exact ⟨j, hj, _, ub, h1, b2, by rw [Tine.pos_eq, ← Key.le_def]; simp [Tine.key],
          by rw [Tine.pos_eq, ← Key.lt_def]; exact hk'⟩
  · rw [← coversBelow_iff v]
    constructor
    · rintro ⟨j, hj, l, u, h1, h2, h3, h4⟩
      rw [Tine.pos_eq, ← Key.le_def] at h4
      rcases u with p | p | _
      · exact absurd h4 (by simp [Tine.key])
      · exact absurd h4 (by simp [Tine.key])
      · exact ⟨j, hj, h2⟩
    · rintro ⟨j, hj, h1⟩
      obtain ⟨hw, hne⟩ := (pieces_wf v.1).1 j hj
      rcases fromRaw_cases hw with ⟨e0, e⟩ | ⟨p, e0, e⟩ | ⟨lb, ub, e, hk'⟩
      · exact absurd e0 hne
      · subst e0; cases h1
      · obtain ⟨b1, b2⟩ := bounds_of_tines e
        rw [h1] at b2; cases b2
        exact ⟨j, hj, lb, _, b1, h1, by rw [Tine.pos_eq, ← Key.lt_def]; exact hk',
          by rw [Tine.pos_eq, ← Key.le_def]; simp [Tine.key]⟩
  · rw [(TT.pieces_cnt v.1.1).1 v.2, ← hk]
    exact complement_cnt dbg v h

example : TineTree.complement true (TineTree.demo [.to 0, .closed 20 29]) =
      .ok (TineTree.demo [.opn 0 20, .upFrom 29]) ∧
    TineTree.intervals true (TineTree.demo [.to 0, .closed 20 29]) = .ok [.to 0, .closed 20 29] ∧
    TineTree.HasIntervals true (TineTree.demo [.opn 0 20, .upFrom 29]) 2 :=
  ⟨by decide, by decide, ⟨_, rfl, rfl⟩⟩

/-- Removing one interval makes at most one more, if what is left is a proper tree. -/
theorem C96_tree_minus_in_place (dbg : Bool) (t t' : TineTree α) (ht : t.Reachable) (i : RawInterval α)
    (hi : i.WF) (h : TineTree.minusInPlace dbg t i = .ok t') (ht' : t'.Reachable) (n n' : Nat)
    (hn : TineTree.HasIntervals dbg t n) (hn' : TineTree.HasIntervals dbg t' n') : n' ≤ n + 1 := by
  have v := TT.reachable_valid ht
  rw [TineTree.hasIntervals_iff v] at hn
  rw [TineTree.hasIntervals_iff (TT.reachable_valid ht')] at hn'
  rw [← hn, ← hn']
  exact minusInPlace_cnt dbg v hi h

example : TineTree.minusInPlace true (TineTree.demo [.closed 0 9]) (.closed 3 5) =
      .ok (TineTree.demo [.rightOpen 0 3, .leftOpen 5 9]) ∧
    TineTree.HasIntervals true (TineTree.demo [.closed 0 9]) 1 ∧
    TineTree.HasIntervals true (TineTree.demo [.rightOpen 0 3, .leftOpen 5 9]) 2 ∧
    (TineTree.demo [.rightOpen 0 3, .leftOpen 5 9]).Reachable :=
  ⟨by decide, ⟨_, rfl, rfl⟩, ⟨_, rfl, rfl⟩,
    TineTree.fromIter_reachable (dbg := true) (is := [.rightOpen 0 3, .leftOpen 5 9]) (by simp [RawInterval.WF]) rfl⟩

/-- A difference has at most as many as both together, if the right tree has no single points. -/
theorem C96_tree_minus (dbg : Bool) (a b t : TineTree α) (ha : a.Reachable) (hb : b.Reachable)
    (h : TineTree.minus dbg a b = .ok t) (bs : List (RawInterval α)) (hbs : TineTree.intervals dbg b = .ok bs)
    (hp : ∀ p, .point p ∉ bs) (n k : Nat) (hn : TineTree.HasIntervals dbg a n)
    (hk : TineTree.HasIntervals dbg t k) : k ≤ n + bs.length := by
  have va := TT.reachable_valid ha
  have vb := TT.reachable_valid hb
  rw [TT.intervals_eq dbg vb] at hbs; cases hbs
  obtain ⟨t', e, v, c⟩ := fold_cnt (f := TineTree.minusInPlace dbg) (fun i => i.WF ∧ ∀ p, i ≠ .point p)
    (fun t i vt hi => by
      obtain ⟨t', e, v, -⟩ := TT.minusTwo_ok dbg vt hi.1 hi.2
      exact ⟨t', e, v, minusInPlace_cnt dbg vt hi.1 e⟩) (pieces none b) va
    (fun i hi => ⟨((pieces_wf vb.1).1 i hi).1, fun p hip => hp p (hip ▸ hi)⟩)
  rw [TineTree.minus, fold_eq dbg _ vb, e] at h; cases h
  rw [TineTree.hasIntervals_iff va] at hn
  rw [TineTree.hasIntervals_iff v] at hk
  rw [← hn, ← hk]
  exact c

example : TineTree.minus true (TineTree.demo [.closed 0 30]) (TineTree.demo [.closed 5 9, .closed 20 21]) =
      .ok (TineTree.demo [.rightOpen 0 5, .opn 9 20, .leftOpen 21 30]) ∧
    TineTree.HasIntervals true (TineTree.demo [.rightOpen 0 5, .opn 9 20, .leftOpen 21 30]) 3 :=
  ⟨by decide, ⟨_, rfl, rfl⟩⟩

/-- `intersect` yields at most as many intervals as its argument has. -/
theorem C96_tree_intersect (dbg : Bool) (a b t : TineTree α) (ha : a.Reachable) (hb : b.Reachable)
    (h : TineTree.intersect dbg a b = .ok t) (m k : Nat) (hm : TineTree.HasIntervals dbg b m)
    (hk : TineTree.HasIntervals dbg t k) : k ≤ m := by
  have va := TT.reachable_valid ha
  have vb := TT.reachable_valid hb
  obtain ⟨t', e, v, c⟩ := TT.intersect_eq dbg va vb
  rw [h] at e; cases e
  have hw : ∀ i ∈ isectList (pieces none a) (pieces none b), i.WF := fun i hi => by
    obtain ⟨s, hs, o, ho, rfl⟩ := isectList_mem hi
    exact RawInterval.intersect_wf _ _
  have := C96_tree_collect dbg _ hw t c k hk
  rw [TineTree.hasIntervals_iff vb, ← (TT.pieces_cnt vb.1.1).1 vb.2] at hm
  rw [← hm]
  exact this.trans (isectList_length _ _)

example : TineTree.intersect true (TineTree.demo [.closed 0 30]) (TineTree.demo [.closed 5 9, .closed 20 49]) =
      .ok (TineTree.demo [.closed 5 9, .closed 20 30]) ∧
    TineTree.HasIntervals true (TineTree.demo [.closed 5 9, .closed 20 30]) 2 :=
  ⟨by decide, ⟨_, rfl, rfl⟩⟩

/-- Cutting a tree down to one interval makes no more, wherever it does what it should (C38). -/
theorem C96_tree_intersect_in_place (dbg : Bool) (t t' : TineTree α) (ht : t.Reachable) (i : RawInterval α)
    (hi : i.WF) (h : TineTree.intersectInPlace dbg t i = .ok t') (is : List (RawInterval α))
    (his : TineTree.intervals dbg t = .ok is) (h2 : i.TwoEnded) (hc : RawInterval.CutClean dbg is i) (n' : Nat)
    (hn' : TineTree.HasIntervals dbg t' n') : n' ≤ is.length := by
  have v := TT.reachable_valid ht
  rw [TT.intervals_eq dbg v] at his; cases his
  rw [(TT.pieces_cnt v.1.1).1 v.2]
  by_cases ht0 : t = []
  · subst ht0
    simp [TineTree.intersectInPlace, TineTree.isEmpty] at h
    subst h
    rw [TineTree.hasIntervals_iff v] at hn'
    exact hn'.ge
  by_cases hf : i = .full
  · subst hf
    simp [TineTree.intersectInPlace, RawInterval.isFull] at h
    subst h
    rw [TineTree.hasIntervals_iff v] at hn'
    exact hn'.ge
  obtain ⟨r, vr, c, e⟩ := TT.intersectInPlace_sharp dbg v ht0 hi h2 hf
  have := e.2 hc
  rw [h] at this; cases this
  rw [TineTree.hasIntervals_iff vr] at hn'
  rw [← hn']
  exact isect_cnt v hi vr c

/-- The bounds are reached: `[0,9] ∪ [20,29]` and an interval apart from both, the interval `[3,5]` taken out of
it, the complement, and a cut. -/
example : TineTree.HasIntervals true (TineTree.demo [.closed 0 9, .closed 20 29]) 2 ∧
    (∃ t, TineTree.unionInPlace true (TineTree.demo [.closed 0 9, .closed 20 29]) (.closed 40 50) = .ok t ∧
      TineTree.HasIntervals true t 3) ∧
    (∃ t, TineTree.minusInPlace true (TineTree.demo [.closed 0 9, .closed 20 29]) (.closed 3 5) = .ok t ∧
      TineTree.HasIntervals true t 3) ∧
    (∃ t, TineTree.complement true (TineTree.demo [.closed 0 9, .closed 20 29]) = .ok t ∧
      TineTree.HasIntervals true t 3) ∧
    (∃ t, TineTree.intersect true (TineTree.demo [.closed 0 29]) (TineTree.demo [.closed 0 9, .closed 20 29]) =
      .ok t ∧ TineTree.HasIntervals true t 2) :=
  ⟨⟨[.closed 0 9, .closed 20 29], by decide, rfl⟩,
    ⟨TineTree.demo [.closed 0 9, .closed 20 29, .closed 40 50], by decide,
      [.closed 0 9, .closed 20 29, .closed 40 50], by decide, rfl⟩,
    ⟨TineTree.demo [.rightOpen 0 3, .leftOpen 5 9, .closed 20 29], by decide,
      [.rightOpen 0 3, .leftOpen 5 9, .closed 20 29], by decide, rfl⟩,
    ⟨TineTree.demo [.upTo 0, .opn 9 20, .upFrom 29], by decide,
      [.upTo 0, .opn 9 20, .upFrom 29], by decide, rfl⟩,
    ⟨TineTree.demo [.closed 0 9, .closed 20 29], by decide, [.closed 0 9, .closed 20 29], by decide, rfl⟩⟩

end Tree

variable {α : Type} [LinearOrder α] [Finite α] [LawfulFinite α]

/-- Iterating over the selection yields `n` intervals. -/
def Selection.HasIntervals (dbg : Bool) (s : Selection α) (n : Nat) : Prop :=
  ∃ is, s.intervals dbg = .ok is ∧ is.length = n

theorem Selection.hasIntervals_tree {dbg : Bool} {s : Selection α} (v : Valid s.tree) {n : Nat} :
    s.HasIntervals dbg n ↔ TineTree.HasIntervals dbg s.tree n := by
  rw [HasIntervals, TineTree.HasIntervals, Selection.intervals_eq dbg v, TT.intervals_eq dbg v]
  simp

/-- Adding one interval to a selection makes at most one more. -/
theorem C96_union_in_place (dbg : Bool) (s s' : Selection α) (hs : s.Reachable) (i : Interval α)
    (hi : i.Obtainable) (h : s.unionInPlace dbg i = .ok s') (n n' : Nat)
    (hn : s.HasIntervals dbg n) (hn' : s'.HasIntervals dbg n') : n' ≤ n + 1 := by
  have v := Selection.reachable_valid hs
  have hw := RawInterval.denorm_wf (Interval.obtainable_nf hi)
  obtain ⟨r, e, v', -⟩ := TT.unionInPlace_ok dbg v hw
  rw [Selection.unionInPlace, e] at h; cases h
  rw [Selection.hasIntervals_tree v] at hn
  rw [Selection.hasIntervals_tree v'] at hn'
  exact C96_tree_union_in_place dbg _ _ (valid_reachable v) _ hw e n n' hn hn'

example : (Selection.demo [(u8 3, u8 5), (u8 9, u8 12)]).unionInPlace true (Interval.mkClosed (u8 6) (u8 8)) =
      .ok (Selection.demo [(u8 3, u8 12)]) ∧
    (Selection.demo [(u8 3, u8 5), (u8 9, u8 12)]).HasIntervals true 2 ∧
    (Selection.demo [(u8 3, u8 12)]).HasIntervals true 1 :=
  ⟨by decide, ⟨_, rfl, rfl⟩, ⟨_, rfl, rfl⟩⟩

/-- A union has at most as many as both together. -/
theorem C96_union (dbg : Bool) (a b s : Selection α) (ha : a.Reachable) (hb : b.Reachable)
    (h : a.union dbg b = .ok s) (n m k : Nat) (hn : a.HasIntervals dbg n)
    (hm : b.HasIntervals dbg m) (hk : s.HasIntervals dbg k) : k ≤ n + m := by
  have va := Selection.reachable_valid ha
  have vb := Selection.reachable_valid hb
  have hs := Selection.reachable_valid (Selection.Reachable.union ha hb h)
  cases e : a.tree.union dbg b.tree with
  | error x => rw [Selection.union, e] at h; cases h
  | ok t =>
    rw [Selection.union, e] at h; cases h
    rw [Selection.hasIntervals_tree va] at hn
    rw [Selection.hasIntervals_tree vb] at hm
    rw [Selection.hasIntervals_tree hs] at hk
    exact C96_tree_union dbg _ _ _ (valid_reachable va) (valid_reachable vb) e n m k hn hm hk

example : (Selection.demo [(u8 3, u8 5)]).union true (Selection.demo [(u8 9, u8 12)]) =
      .ok (Selection.demo [(u8 3, u8 5), (u8 9, u8 12)]) ∧
    (Selection.demo [(u8 3, u8 5), (u8 9, u8 12)]).HasIntervals true 2 :=
  ⟨by decide, ⟨_, rfl, rfl⟩⟩

theorem fromIntervals_tree (dbg : Bool) (is : List (Interval α)) {s : Selection α}
    (h : Selection.fromIntervals dbg is = .ok s) :
    TineTree.fromIter dbg (is.map fun i => i.raw.denormalized) = .ok s.tree := by
  have key : ∀ (is : List (Interval α)) (r s : Selection α), is.foldlM (fun s i => do
      (.ok ⟨← s.tree.unionInPlace dbg i.raw.denormalized⟩ : Except Panic (Selection α))) r = .ok s →
      (is.map fun i => i.raw.denormalized).foldlM (TineTree.unionInPlace dbg) r.tree = .ok s.tree := by
    intro is
    induction is with
    | nil => intro r s h; cases h; rfl
    | cons i is ih =>
      intro r s h
      rw [List.foldlM_cons] at h
      rw [List.map_cons, List.foldlM_cons]
      cases e : r.tree.unionInPlace dbg i.raw.denormalized with
      | error x => rw [e] at h; cases h
      | ok t =>
        rw [e] at h
        exact ih ⟨t⟩ s h
  exact key is _ s h

/-- A selection collected from a list of intervals has at most as many intervals as the list. -/
theorem C96_collect (dbg : Bool) (is : List (Interval α)) (his : ∀ i ∈ is, i.Obtainable) (s : Selection α)
    (h : Selection.fromIntervals dbg is = .ok s) (k : Nat) (hk : s.HasIntervals dbg k) : k ≤ is.length := by
  have hs := Selection.reachable_valid (Selection.Reachable.fromIntervals his h)
  rw [Selection.hasIntervals_tree hs] at hk
  have := C96_tree_collect dbg (is.map fun i => i.raw.denormalized) (by
    intro i hi
    obtain ⟨j, hj, rfl⟩ := List.mem_map.1 hi
    exact RawInterval.denorm_wf (Interval.obtainable_nf (his j hj))) s.tree ?_ k hk
  · simpa using this
  · exact fromIntervals_tree dbg is h

example : Selection.fromIntervals true [Interval.mkClosed (u8 9) (u8 12), Interval.mkClosed (u8 3) (u8 8)] =
      .ok (Selection.demo [(u8 3, u8 12)]) ∧ (Selection.demo [(u8 3, u8 12)]).HasIntervals true 1 :=
  ⟨by decide, ⟨_, rfl, rfl⟩⟩

/-- So has one collected from a list of points. -/
theorem C96_collect_points (dbg : Bool) (xs : List α) (s : Selection α) (h : Selection.fromPoints dbg xs = .ok s)
    (k : Nat) (hk : s.HasIntervals dbg k) : k ≤ xs.length := by
  have e : Selection.fromIntervals dbg (xs.map Interval.point) = .ok s := by
    rw [← h, Selection.fromIntervals, Selection.fromPoints, List.foldlM_map]
  have := C96_collect dbg (xs.map Interval.point) (fun i hi => by
    obtain ⟨x, _, rfl⟩ := List.mem_map.1 hi
    exact .point x) s e k hk
  simpa using this

example : Selection.fromPoints true [u8 7, u8 3, u8 4] = .ok (Selection.demo [(u8 3, u8 4), (u8 7, u8 7)]) ∧
    (Selection.demo [(u8 3, u8 4), (u8 7, u8 7)]).HasIntervals true 2 :=
  ⟨by decide, ⟨_, rfl, rfl⟩⟩

/-- A complement has exactly one interval more, less one for each end of the type in the selection. -/
theorem C96_complement (dbg : Bool) (s s' : Selection α) (hs : s.Reachable) (h : s.complement dbg = .ok s')
    (n n' : Nat) (hn : s.HasIntervals dbg n) (hn' : s'.HasIntervals dbg n') :
    ∃ c d : Bool, (c = true ↔ minimum ∈ s.pts dbg) ∧ (d = true ↔ maximum ∈ s.pts dbg) ∧
      n' + c.toNat + d.toNat = n + 1 := by
  obtain ⟨v, f⟩ := Selection.reachable_iff.1 hs
  obtain ⟨f1, f2⟩ := (fit_iff v).2 f
  obtain ⟨r, e, v', -⟩ := TT.complement_ok dbg v
  rw [Selection.complement, e] at h; cases h
  rw [Selection.hasIntervals_tree v, TineTree.hasIntervals_iff v] at hn
  rw [Selection.hasIntervals_tree v', TineTree.hasIntervals_iff v'] at hn'
  refine ⟨tcov s.tree true .bot, bef false s.tree .top, ?_, ?_, ?_⟩
  · rw [f1, Selection.mem_pts dbg v]
  · rw [bef_top, f2, Selection.mem_pts dbg v]
  · rw [← hn, ← hn']; exact complement_cnt dbg v e

example : (Selection.demo [(u8 0, u8 5), (u8 9, u8 12)]).HasIntervals true 2 ∧
    (∃ s, (Selection.demo [(u8 0, u8 5), (u8 9, u8 12)]).complement true = .ok s ∧ s.HasIntervals true 2) ∧
    (Selection.demo [(u8 0, u8 5), (u8 9, u8 12)]).contains true (u8 0) = .ok true ∧
    (Selection.demo [(u8 0, u8 5), (u8 9, u8 12)]).contains true (u8 255) = .ok false :=
  ⟨⟨_, rfl, rfl⟩, ⟨_, rfl, _, rfl, rfl⟩, by decide, by decide⟩

/-- Removing one interval makes at most one more. -/
theorem C96_minus_in_place (dbg : Bool) (s s' : Selection α) (hs : s.Reachable) (i : Interval α)
    (hi : i.Obtainable) (h : s.minusInPlace dbg i = .ok s') (n n' : Nat)
    (hn : s.HasIntervals dbg n) (hn' : s'.HasIntervals dbg n') : n' ≤ n + 1 := by
  have v := Selection.reachable_valid hs
  have hf := Interval.obtainable_nf hi
  obtain ⟨r, e, v', -⟩ := TT.minusTwo_ok dbg v (RawInterval.denorm_wf hf) (RawInterval.denorm_not_point hf)
  rw [Selection.minusInPlace, e] at h; cases h
  rw [Selection.hasIntervals_tree v, TineTree.hasIntervals_iff v] at hn
  rw [Selection.hasIntervals_tree v', TineTree.hasIntervals_iff v'] at hn'
  rw [← hn, ← hn']
  exact minusInPlace_cnt dbg v (RawInterval.denorm_wf hf) e

example : (Selection.demo [(u8 0, u8 5)]).HasIntervals true 1 ∧
    ∃ s, (Selection.demo [(u8 0, u8 5)]).minusInPlace true (Interval.mkClosed (u8 2) (u8 3)) = .ok s ∧
      s.HasIntervals true 2 :=
  ⟨⟨_, rfl, rfl⟩, _, rfl, _, rfl, rfl⟩

/-- A difference has at most as many as both together, if the right selection was built by unions. -/
theorem C96_minus (dbg : Bool) (a b s : Selection α) (ha : a.Reachable) (hb : b.UnionBuilt)
    (h : a.minus dbg b = .ok s) (n m k : Nat) (hn : a.HasIntervals dbg n)
    (hm : b.HasIntervals dbg m) (hk : s.HasIntervals dbg k) : k ≤ n + m := by
  have va := Selection.reachable_valid ha
  have vb := Selection.reachable_valid hb.reachable
  obtain ⟨r, e, vs, -⟩ := Selection.minusOpen_ok dbg va vb hb.do
  rw [h] at e; cases e
  cases e : a.tree.minus dbg b.tree with
  | error x => rw [Selection.minus, e] at h; cases h
  | ok t =>
    rw [Selection.minus, e] at h; cases h
    rw [Selection.hasIntervals_tree va] at hn
    rw [Selection.hasIntervals_tree vb, TineTree.hasIntervals_iff vb, ← (TT.pieces_cnt vb.1.1).1 vb.2] at hm
    rw [Selection.hasIntervals_tree vs] at hk
    rw [← hm]
    exact C96_tree_minus dbg _ _ _ (valid_reachable va) (valid_reachable vb) e _ (TT.intervals_eq dbg vb)
      (fun p hp => Selection.do_pieces vb hb.do hp p rfl) n k hn hk

example : (Selection.demo [(u8 5, u8 6), (u8 9, u8 12)]).HasIntervals true 2 ∧
    ∃ s, (Selection.demo [(u8 3, u8 30)]).minus true (Selection.demo [(u8 5, u8 6), (u8 9, u8 12)]) = .ok s ∧
      s.HasIntervals true 3 :=
  ⟨⟨_, rfl, rfl⟩, _, rfl, ⟨_, rfl, rfl⟩⟩

/-- `intersect` yields at most as many intervals as its argument has. -/
theorem C96_intersect (dbg : Bool) (a b s : Selection α) (ha : a.Reachable) (hb : b.Reachable)
    (h : a.intersect dbg b = .ok s) (m k : Nat) (hm : b.HasIntervals dbg m) (hk : s.HasIntervals dbg k) :
    k ≤ m := by
  have va := Selection.reachable_valid ha
  have vb := Selection.reachable_valid hb
  obtain ⟨r, e, vs, -⟩ := Selection.intersect_ok dbg va vb
  rw [h] at e; cases e
  cases e : a.tree.intersect dbg b.tree with
  | error x => rw [Selection.intersect, e] at h; cases h
  | ok t =>
    rw [Selection.intersect, e] at h; cases h
    rw [Selection.hasIntervals_tree vb] at hm
    rw [Selection.hasIntervals_tree vs] at hk
    exact C96_tree_intersect dbg _ _ _ (valid_reachable va) (valid_reachable vb) e m k hm hk

/-- The bytes 3 to 5 and 9 to 12: the complement has three intervals, and the complement of that two. -/
example : (∃ s, (Selection.demo [(u8 3, u8 5), (u8 9, u8 12)]).complement true = .ok s ∧ s.HasIntervals true 3 ∧
      ∃ r, s.complement true = .ok r ∧ r.HasIntervals true 2) ∧
    (Selection.demo [(u8 3, u8 5), (u8 9, u8 12)]).Reachable :=
  ⟨⟨_, rfl, ⟨_, rfl, rfl⟩, _, rfl, _, rfl, rfl⟩, (Selection.demo_built _ (by decide)).reachable⟩

end NI
