import Verif.Props.Pinhole
import Verif.Props.Tree
import Verif.SpecEdit

/-! # What an edit can get wrong is at the ends of the interval (C117) -/

namespace NI
open _root_.NI.Finite TT

/-- If every step keeps what it should keep and adds points beside the removed interval at most, then so does a
sequence of steps. -/
theorem Edit.track {σ ι α : Type} (pts : ι → Set α) (set : σ → Set α) (step : σ → Edit ι → Except Panic σ)
    (ok : σ → Prop) (good : Edit ι → Prop) (beside : ι → α → Prop)
    (h : ∀ s e, ok s → good e → ∃ s', step s e = .ok s' ∧ ok s' ∧ e.on pts (set s) ⊆ set s' ∧
      ∀ x ∈ set s', x ∉ e.on pts (set s) → ∃ i, e = .remove i ∧ beside i x)
    (es : List (Edit ι)) (s : σ) (X : Set α) (hX : X ⊆ set s) (he : ∀ e ∈ es, good e) (hs : ok s) :
    ∃ s', es.foldlM step s = .ok s' ∧ ok s' ∧ Edit.all pts es X ⊆ set s' ∧
      ∀ x ∈ set s', x ∉ Edit.all pts es X → (x ∈ set s ∧ x ∉ X) ∨ ∃ i ∈ Edit.removed es, beside i x := by
  induction es generalizing s X with
  | nil => exact ⟨s, rfl, hs, hX, fun x h1 h2 => .inl ⟨h1, h2⟩⟩
  | cons e es ih =>
    obtain ⟨s1, e1, k1, sub, ex⟩ := h s e hs (he e (by simp))
    have sub' : e.on pts X ⊆ set s1 := fun x hx => sub (by
      cases e
      · exact hx.imp (fun h => hX h) id
      · exact ⟨hX hx.1, hx.2⟩)
    obtain ⟨s2, e2, k2, sub2, ex2⟩ := ih s1 (e.on pts X) sub' (fun e h => he e (by simp [h])) k1
    refine ⟨s2, by rw [List.foldlM_cons, e1]; exact e2, k2, sub2, fun x h1 h2 => ?_⟩
    have mono : ∀ i ∈ Edit.removed es, i ∈ Edit.removed (e :: es) := fun i hi => by
      cases e <;> simp_all [Edit.removed]
    rcases ex2 x h1 h2 with ⟨a, b⟩ | ⟨i, a, b⟩
    · by_cases hx : x ∈ e.on pts (set s)
      · left
        cases e with
        | add i =>
          refine ⟨hx.resolve_right fun h => b (.inr h), fun h => b (.inl h)⟩
        | remove i => exact ⟨hx.1, fun h => b ⟨h, hx.2⟩⟩
      · obtain ⟨i, rfl, hb⟩ := ex x a hx
        exact .inr ⟨i, by simp [Edit.removed], hb⟩
    · exact .inr ⟨i, mono i a, b⟩

/-- At most two points lie beside each of a list of intervals. -/
theorem Edit.two {ι α : Type} (beside : ι → α → Prop) (h : ∀ i, ∃ p q : Option α, ∀ x, beside i x → p = some x ∨ q = some x)
    (is : List ι) : {x | ∃ i ∈ is, beside i x}.encard ≤ 2 * is.length := by
  induction is with
  | nil => simp
  | cons i is ih =>
    obtain ⟨p, q, hpq⟩ := h i
    have one : ∀ o : Option α, {x | o = some x}.encard ≤ 1 := fun o => by
      rw [Set.encard_le_one_iff]
      rintro a b ha hb
      simpa using ha.symm.trans hb
    have sub : {x | ∃ j ∈ i :: is, beside j x} ⊆ ({x | p = some x} ∪ {x | q = some x}) ∪ {x | ∃ j ∈ is, beside j x} := by
      rintro x ⟨j, hj, hx⟩
      rcases List.mem_cons.1 hj with rfl | hj
      · exact .inl (hpq x hx)
      · exact .inr ⟨j, hj, hx⟩
    calc _ ≤ _ := Set.encard_le_encard sub
      _ ≤ _ := Set.encard_union_le _ _
      _ ≤ (1 + 1) + 2 * (is.length : ℕ∞) :=
        add_le_add ((Set.encard_union_le _ _).trans (add_le_add (one p) (one q))) ih
      _ = _ := by rw [List.length_cons, Nat.cast_add, Nat.cast_one, mul_add, mul_one, add_comm, one_add_one_eq_two]

section Tree
variable {α : Type} [LinearOrder α]

/-- After any edits a tree contains what it should, and beyond that ends of the removed intervals at most (where no
single points are removed). -/
theorem C117_tree_edits (dbg : Bool) (t : TineTree α) (ht : t.Reachable) (es : List (Edit (RawInterval α)))
    (hw : ∀ e ∈ es, e.interval.WF) (h2 : ∀ i ∈ Edit.removed es, ∀ p, i ≠ .point p) :
    ∃ t', t.edits dbg es = .ok t' ∧ t'.Reachable ∧
      (∀ x ∈ Edit.all RawInterval.pts es {x | t.contains dbg x = .ok true}, t'.contains dbg x = .ok true) ∧
      ∀ x, t'.contains dbg x = .ok true → x ∉ Edit.all RawInterval.pts es {x | t.contains dbg x = .ok true} →
        ∃ i ∈ Edit.removed es, i.IsBound x := by
  obtain ⟨t', e, r, sub, ex⟩ := Edit.track RawInterval.pts (fun t : TineTree α => {x | t.contains dbg x = .ok true})
    (fun t e => match e with
      | .add i => t.unionInPlace dbg i
      | .remove i => t.minusInPlace dbg i) TineTree.Reachable
    (fun e => e.interval.WF ∧ ∀ i, e = .remove i → ∀ p, i ≠ .point p) RawInterval.IsBound
    (by
      rintro t (i | i) ht ⟨hw, hp⟩
      · obtain ⟨t', e, r, c⟩ := C36_union_in_place dbg t ht i hw
        refine ⟨t', e, r, fun x hx => (c x).2 (hx.imp id (RawInterval.contains_iff i x).2), fun x hx hn => ?_⟩
        exact absurd (((c x).1 hx).imp id (RawInterval.contains_iff i x).1) hn
      · by_cases h0 : i = .empty
        · subst h0
          refine ⟨t, ?_, ht, fun x hx => hx.1, fun x hx hn => absurd ⟨hx, fun h => h⟩ hn⟩
          cases t <;> rfl
        · obtain ⟨t', e, r, c⟩ := C37_minus_proper_exact dbg t ht i hw ⟨h0, hp i rfl⟩ _
            (intervals_eq dbg (reachable_valid ht))
          refine ⟨t', e, r, fun x hx => (c x).2 (.inl ⟨hx.1, ?_⟩), fun x hx hn => ⟨i, rfl, ?_⟩⟩
          · rw [← Bool.not_eq_true, RawInterval.contains_iff]; exact hx.2
          · rcases (c x).1 hx with h | h
            · exact absurd ⟨h.1, fun hh => by
                rw [(RawInterval.contains_iff i x).2 hh] at h; exact absurd h.2 (by simp)⟩ hn
            · exact h.1)
    es t _ (fun x hx => hx) (fun e he => ⟨hw e he, fun i h p => h2 i (by
      subst h; simpa [Edit.removed] using ⟨_, he, rfl⟩) p⟩) ht
  exact ⟨t', e, r, sub, fun x h1 h2 => (ex x h1 h2).resolve_left fun h => h.2 h.1⟩

example : (TineTree.demo [.opn (0 : Int) 4, .opn 4 9]).Reachable ∧
    (∀ e ∈ ([.remove (.closed 4 6), .add (.opn 7 12), .remove (.opn 2 4)] : List (Edit (RawInterval Int))), e.interval.WF) ∧
    ∃ t, (TineTree.demo [.opn (0 : Int) 4, .opn 4 9]).edits true
      [.remove (.closed 4 6), .add (.opn 7 12), .remove (.opn 2 4)] = .ok t ∧ t.contains true 5 = .ok false ∧
      t.contains true 1 = .ok true ∧ t.contains true 11 = .ok true ∧ t.contains true 3 = .ok false :=
  ⟨TineTree.fromIter_reachable (dbg := true) (is := [.opn 0 4, .opn 4 9]) (by simp [RawInterval.WF]) rfl, by decide, _, rfl, by decide, by decide, by decide, by decide⟩

/-- Removing a single point that is an open end of the tree has effects far away: `1` is removed from `(1,5)` and
`(7,9)`, and a release build then finds `6` in the tree and `3` and `8` no more, while a debug build panics when
asked for any of them. -/
theorem C117_tree_point : ∃ t : TineTree Int,
    (∀ dbg, (TineTree.demo [.opn (1 : Int) 5, .opn 7 9]).minusInPlace dbg (.point 1) = .ok t) ∧
    t.contains false 6 = .ok true ∧ t.contains false 3 ≠ .ok true ∧ t.contains false 8 ≠ .ok true ∧
    (TineTree.demo [.opn (1 : Int) 5, .opn 7 9]).contains false 6 = .ok false ∧
    (TineTree.demo [.opn (1 : Int) 5, .opn 7 9]).contains false 3 = .ok true ∧
    (TineTree.demo [.opn (1 : Int) 5, .opn 7 9]).contains false 8 = .ok true ∧
    ∀ x ∈ [(3 : Int), 6, 8], (t.contains true x).isOk = false := by
  refine ⟨_, fun dbg => by cases dbg <;> rfl, ?_⟩
  decide

end Tree

section Sel
variable {α : Type} [LinearOrder α] [Finite α] [LawfulFinite α]

/-- After any edits a selection contains what it should, and beyond that values beside the removed intervals at
most. -/
theorem C117_selection_edits (dbg : Bool) (s : Selection α) (hs : s.Reachable) (es : List (Edit (Interval α)))
    (ho : ∀ e ∈ es, e.interval.Obtainable) :
    ∃ s', s.edits dbg es = .ok s' ∧ s'.Reachable ∧ Edit.all Interval.pts es (s.pts dbg) ⊆ s'.pts dbg ∧
      ∀ x ∈ s'.pts dbg, x ∉ Edit.all Interval.pts es (s.pts dbg) → ∃ i ∈ Edit.removed es, i.Beside x := by
  obtain ⟨s', e, r, sub, ex⟩ := Edit.track Interval.pts (Selection.pts dbg)
    (fun (s : Selection α) e => match e with
      | .add i => s.unionInPlace dbg i
      | .remove i => s.minusInPlace dbg i) Selection.Reachable
    (fun e => e.interval.Obtainable) Interval.Beside
    (by
      rintro s (i | i) hs ho
      · obtain ⟨s', e, r, c⟩ := C48_union_in_place dbg s hs i ho
        exact ⟨s', e, r, c.symm.subset, fun x hx hn => absurd (c.subset hx) hn⟩
      · obtain ⟨s', e, r, c⟩ := C50_formula_any dbg s hs i ho
        refine ⟨s', e, r, fun x hx => (c x).2 (.inl hx), fun x hx hn => ⟨i, rfl, ?_⟩⟩
        exact ((c x).1 hx).resolve_left hn |>.2)
    es s _ (fun x hx => hx) ho hs
  exact ⟨s', e, r, sub, fun x h1 h2 => (ex x h1 h2).resolve_left fun h => h.2 h.1⟩

example : (Selection.demo [(u8 3, u8 5), (u8 7, u8 12)]).Reachable ∧
    (∀ e ∈ [Edit.remove (Interval.mkClosed (u8 7) (u8 8)), .add (Interval.mkClosed (u8 20) (u8 30))],
      e.interval.Obtainable) ∧
    ∃ s', (Selection.demo [(u8 3, u8 5), (u8 7, u8 12)]).edits true
      [.remove (Interval.mkClosed (u8 7) (u8 8)), .add (Interval.mkClosed (u8 20) (u8 30))] = .ok s' ∧
      s'.intervals true = .ok [Interval.mkClosed (u8 3) (u8 6), Interval.mkClosed (u8 9) (u8 12),
        Interval.mkClosed (u8 20) (u8 30)] :=
  ⟨(Selection.demo_built _ (by decide)).reachable, by
    intro e he; simp only [List.mem_cons, List.not_mem_nil, or_false] at he
    rcases he with rfl | rfl <;> exact .mkClosed _ _, _, rfl, by decide⟩

/-- So at most two values are wrong for every interval removed. -/
theorem C117_selection_count (dbg : Bool) (s : Selection α) (hs : s.Reachable) (es : List (Edit (Interval α)))
    (ho : ∀ e ∈ es, e.interval.Obtainable) (s' : Selection α) (h : s.edits dbg es = .ok s') :
    {x | ¬ (x ∈ s'.pts dbg ↔ x ∈ Edit.all Interval.pts es (s.pts dbg))}.encard ≤ 2 * (Edit.removed es).length := by
  obtain ⟨s1, e, -, sub, ex⟩ := C117_selection_edits dbg s hs es ho
  rw [h] at e; cases e
  refine (Set.encard_le_encard fun x hx => ?_).trans (Edit.two Interval.Beside (fun i => ?_) _)
  · by_cases h1 : x ∈ s'.pts dbg
    · exact ex x h1 fun h2 => hx ⟨fun _ => h2, fun _ => h1⟩
    · exact absurd ⟨fun h => absurd h h1, fun h => absurd (sub h) h1⟩ hx
  · refine ⟨i.infimum.bind pred, i.supremum.bind succ, fun x hx => ?_⟩
    rcases hx with ⟨l, h1, h2⟩ | ⟨u, h1, h2⟩
    · left
      rw [Interval.infimum, RawInterval.infimum, show i.raw.lowerBound = _ from h1]; exact h2
    · right
      rw [Interval.supremum, RawInterval.supremum, show i.raw.upperBound = _ from h1]; exact h2

/-- Both values beside one removed interval can be wrong. -/
example : (Selection.demo [(u8 2, u8 2), (u8 4, u8 6), (u8 8, u8 8)]).Reachable ∧
    (∀ e ∈ [Edit.remove (Interval.mkClosed (u8 4) (u8 6))], e.interval.Obtainable) ∧
    ∃ s', (Selection.demo [(u8 2, u8 2), (u8 4, u8 6), (u8 8, u8 8)]).edits true
      [.remove (Interval.mkClosed (u8 4) (u8 6))] = .ok s' ∧
      s'.intervals true = .ok [Interval.mkClosed (u8 2) (u8 3), Interval.mkClosed (u8 7) (u8 8)] :=
  ⟨(Selection.demo_built _ (by decide)).reachable, by
    intro e he; cases List.mem_singleton.1 he; exact .mkClosed _ _, _, rfl, by decide⟩

end Sel
end NI
