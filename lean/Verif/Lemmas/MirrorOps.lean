import Verif.Lemmas.MirrorTree
import Verif.Lemmas.Back
import Verif.Lemmas.Walk
import Verif.Lemmas.Minus
import Verif.Lemmas.Strong

/-! # Mirror images: whole operations on trees -/

set_option linter.unusedSimpArgs false
set_option linter.unusedVariables false
set_option linter.unnecessarySeqFocus false
set_option linter.unusedSectionVars false

namespace NI
open BSet

namespace TT
variable {α β : Type} [LinearOrder α] [LinearOrder β] {g : α → β}

theorem wf_mir (hg : StrictAnti g) {i : RawInterval α} (h : i.WF) : (i.mirror g).WF := by
  cases i <;> first | trivial | exact hg h

theorem fromRaw_mir (hg : StrictAnti g) {i : RawInterval α} (h : i.WF) :
    TineTree.fromRawInterval (i.mirror g) = TineTree.mirror g (TineTree.fromRawInterval i) := by
  rw [tree_fromRaw h, tree_fromRaw (wf_mir hg h), Tine.mir_fromRaw]; rfl

theorem isEmpty_mir (t : TineTree α) : (t.mirror g).isEmpty = t.isEmpty := by
  simp [TineTree.isEmpty, TineTree.mirror]

theorem isFull_mir (t : TineTree α) : (t.mirror g).isFull = t.isFull := by
  unfold TineTree.isFull
  congr 1
  rw [eq_iff_iff]
  constructor
  · intro h
    rcases t with _ | ⟨x, _ | ⟨y, _ | ⟨z, t⟩⟩⟩ <;> simp [TineTree.mirror] at h
    · obtain ⟨h1, h2⟩ := h
      rcases x with (a | a | _) | (a | a | _) | (a | a | _) <;> simp [Tine.mirror, Bound.map] at h2 <;>
      rcases y with (a | a | _) | (a | a | _) | (a | a | _) <;> simp [Tine.mirror, Bound.map] at h1 ⊢
    · have := congrArg List.length h
      simp at this
  · rintro rfl; rfl

theorem mir_unionInPlace (hg : StrictAnti g) (dbg : Bool) {t : TineTree α} (h : Valid t) {i : RawInterval α}
    (hi : i.WF) : TineTree.unionInPlace dbg (t.mirror g) (i.mirror g) =
      (TineTree.unionInPlace dbg t i).map (TineTree.mirror g) := by
  unfold TineTree.unionInPlace
  rw [RawInterval.mir_isFull, Tine.mir_fromRaw]
  by_cases hf : i.isFull = true
  · rw [if_pos hf, if_pos hf]; rfl
  · rw [if_neg hf, if_neg hf]
    rcases fromRaw_cases hi with ⟨_, e⟩ | ⟨p, _, e⟩ | ⟨lb, ub, e, hk⟩ <;> rw [e]
    · rfl
    · exact mir_unionPoint hg dbg h p
    · exact mir_unionProper hg dbg h hk

theorem mir_minusInPlace (hg : StrictAnti g) (dbg : Bool) {t : TineTree α} (h : Valid t) {i : RawInterval α}
    (hi : i.WF) : TineTree.minusInPlace dbg (t.mirror g) (i.mirror g) =
      (TineTree.minusInPlace dbg t i).map (TineTree.mirror g) := by
  unfold TineTree.minusInPlace
  rw [RawInterval.mir_isFull, RawInterval.mir_isEmpty, Tine.mir_fromRaw, isEmpty_mir]
  split_ifs
  · rfl
  · rfl
  · rcases fromRaw_cases hi with ⟨_, e⟩ | ⟨p, _, e⟩ | ⟨lb, ub, e, hk⟩ <;> rw [e]
    · rfl
    · exact mir_minusPoint hg dbg h p
    · exact mir_minusProper hg dbg h hk

theorem mir_contains (hg : StrictAnti g) (dbg : Bool) {t : TineTree α} (h : Valid t) (x : α) :
    TineTree.contains dbg (t.mirror g) (g x) = TineTree.contains dbg t x := by
  rw [contains_ok dbg h, contains_ok dbg (valid_mir hg h)]
  obtain ⟨o⟩ := one h (.fin x)
  have h1 := (o.mirror hg).views.2.1
  have h2 := o.views.2.1
  rw [h2]; exact congrArg _ h1

theorem mir_intersectInPlace (hg : StrictAnti g) (dbg : Bool) {t : TineTree α} (h : Valid t) {i : RawInterval α}
    (hi : i.WF) : TineTree.intersectInPlace dbg (t.mirror g) (i.mirror g) =
      (TineTree.intersectInPlace dbg t i).map (TineTree.mirror g) := by
  unfold TineTree.intersectInPlace
  rw [RawInterval.mir_isFull, RawInterval.mir_isEmpty, isEmpty_mir]
  split_ifs
  · rfl
  · rfl
  · rcases fromRaw_cases hi with ⟨rfl, e⟩ | ⟨p, rfl, e⟩ | ⟨lb, ub, e, hk⟩
    · rfl
    · show (TineTree.contains dbg (t.mirror g) (g p) >>= _) = Except.map _ (TineTree.contains dbg t p >>= _)
      rw [mir_contains hg dbg h]
      obtain ⟨r, hr⟩ : ∃ r, TineTree.contains dbg t p = .ok r := ⟨_, contains_ok dbg h p⟩
      rw [hr]
      cases r <;> rfl
    · have e' : Tine.fromRawInterval (i.mirror g) = [.lower (ub.map g), .upper (lb.map g)] := by
        rw [Tine.mir_fromRaw, e]; rfl
      have key := mir_intersectProper hg dbg h hk
      have hp : ∀ p, i ≠ .point p := by rintro p rfl; simp [Tine.fromRawInterval] at e
      cases i <;> first | exact absurd rfl (hp _) | (simp only [RawInterval.mirror] at e' ⊢; simp only [e, e']; exact key)

/-! ## Iteration -/

/-- The upper tine that closes a stretch. -/
def close : Option (Bound α) → List (Tine α)
  | none => []
  | some u => [.upper u]

theorem pieces_split {s : Option (Bound α)} {A B : List (Tine α)} {e : Bool} (hok : ∀ t ∈ A, t.Ok)
    (hc : Chain s.isSome A e) : ∃ q : Option (Bound α), q.isSome = e ∧
      ∀ B, pieces s (A ++ B) = pieces s A ++ pieces q B := by
  induction A generalizing s with
  | nil =>
    refine ⟨s, hc, fun B => ?_⟩
    cases s <;> simp [pieces]
  | cons a A ih =>
    have hok' : ∀ t ∈ A, t.Ok := fun t ht => hok t (List.mem_cons_of_mem _ ht)
    obtain ⟨h1, h2⟩ := hc
    cases s with
    | none =>
      rcases a with b | (b | b | _) | b <;> simp [Tine.isUpperBound, Tine.isLowerBound] at h1 h2
      · obtain ⟨q, hq, hB⟩ := ih (s := some b) hok' h2
        exact ⟨q, hq, fun B => by simp [pieces, hB]⟩
      · obtain ⟨q, hq, hB⟩ := ih (s := none) hok' h2
        exact ⟨q, hq, fun B => by simp [pieces, hB]⟩
      · exact absurd rfl (hok _ (List.mem_cons_self))
    | some b0 =>
      rcases a with b | (b | b | _) | b <;> simp [Tine.isUpperBound, Tine.isLowerBound] at h1 h2
      · obtain ⟨q, hq, hB⟩ := ih (s := some (.excl b)) hok' h2
        exact ⟨q, hq, fun B => by simp [pieces, hB]⟩
      · obtain ⟨q, hq, hB⟩ := ih (s := none) hok' h2
        exact ⟨q, hq, fun B => by simp [pieces, hB]⟩

theorem pieces_mirror (hg : StrictAnti g) {T : List (Tine α)} {s e : Option (Bound α)} (hok : ∀ t ∈ T, t.Ok)
    (hc : Chain s.isSome T e.isSome) :
    pieces (e.map (Bound.map · g)) (TineTree.mirror g T ++ close (s.map (Bound.map · g))) =
      ((pieces s (T ++ close e)).map (RawInterval.mirror g)).reverse := by
  induction T generalizing s with
  | nil =>
    cases s <;> cases e <;> simp [Chain] at hc
    · simp [pieces, close]
    · simp [pieces, close, RawInterval.mir_new hg]
  | cons a T ih =>
    have hok' : ∀ t ∈ T, t.Ok := fun t ht => hok t (List.mem_cons_of_mem _ ht)
    obtain ⟨h1, h2⟩ := hc
    have hokm : ∀ t ∈ TineTree.mirror g T, t.Ok := fun t ht => by
      obtain ⟨y, hy, rfl⟩ := mem_mir.1 ht
      exact ok_mir (hok' y hy)
    have hes : (e.map (Bound.map · g)).isSome = e.isSome := by cases e <;> rfl
    obtain ⟨q, hq, hB⟩ := pieces_split (B := []) (s := e.map (Bound.map · g)) hokm (by rw [hes]; exact chain_mir h2)
    rw [mir_cons]
    cases s with
    | none =>
      rcases a with b | (b | b | _) | b <;> simp [Tine.isUpperBound, Tine.isLowerBound] at h1 h2 hq
      · have := ih (s := some b) hok' h2
        simpa [close, pieces, Tine.mirror] using this
      · have := ih (s := none) hok' h2
        subst hq
        simp only [Option.map_none, close, List.append_nil] at this ⊢
        rw [hB, this]
        simp [pieces, Tine.mirror, Bound.map, RawInterval.mirror]
      · exact absurd rfl (hok _ (List.mem_cons_self))
    | some b0 =>
      rcases a with b | (b | b | _) | b <;> simp [Tine.isUpperBound, Tine.isLowerBound] at h1 h2 hq
      · have := ih (s := some (.excl b)) hok' h2
        obtain ⟨q, rfl⟩ := Option.isSome_iff_exists.1 hq
        simp only [Option.map_some, close, List.append_assoc] at this ⊢
        rw [hB] at this ⊢
        simp only [List.cons_append, pieces, List.map_cons, List.reverse_cons, ← this]
        simp [pieces, Tine.mirror, ← RawInterval.mir_new hg, Bound.map]
      · have := ih (s := none) hok' h2
        subst hq
        simp only [Option.map_none, Option.map_some, close, List.append_nil, List.append_assoc] at this ⊢
        rw [hB, this]
        simp [pieces, Tine.mirror, ← RawInterval.mir_new hg, Bound.map]

theorem pieces_mir (hg : StrictAnti g) {t : TineTree α} (h : Valid t) :
    pieces none (t.mirror g) = ((pieces none t).map (RawInterval.mirror g)).reverse := by
  have := pieces_mirror hg (s := none) (e := none) h.1.1 h.2
  simpa [close] using this

theorem mir_intervals (hg : StrictAnti g) (dbg : Bool) {t : TineTree α} (h : Valid t) :
    TineTree.intervals dbg (t.mirror g) =
      (TineTree.intervals dbg t).map fun is => (is.map (RawInterval.mirror g)).reverse := by
  rw [intervals_eq dbg h, intervals_eq dbg (valid_mir hg h), pieces_mir hg h]; rfl

/-! ## Folds -/

theorem mir_foldUnion (hg : StrictAnti g) (dbg : Bool) {t : TineTree α} (h : Valid t) (is : List (RawInterval α))
    (hi : ∀ i ∈ is, i.WF) : (is.map (RawInterval.mirror g)).foldlM (TineTree.unionInPlace dbg) (t.mirror g) =
      (is.foldlM (TineTree.unionInPlace dbg) t).map (TineTree.mirror g) := by
  induction is generalizing t with
  | nil => rfl
  | cons i is ih =>
    obtain ⟨t1, e1, v1, -⟩ := unionInPlace_ok dbg h (hi i List.mem_cons_self)
    rw [List.map_cons, List.foldlM_cons, List.foldlM_cons, mir_unionInPlace hg dbg h (hi i List.mem_cons_self), e1]
    exact ih v1 fun j hj => hi j (List.mem_cons_of_mem _ hj)

/-- Uniting in another order, or more than once, changes nothing. -/
theorem foldUnion_mem (dbg : Bool) {t : TineTree α} (h : Valid t) {is js : List (RawInterval α)}
    (hi : ∀ i ∈ is, i.WF) (hm : ∀ i, i ∈ js ↔ i ∈ is) :
    js.foldlM (TineTree.unionInPlace dbg) t = is.foldlM (TineTree.unionInPlace dbg) t := by
  obtain ⟨t1, e1, v1, c1⟩ := foldUnion_ok dbg h is hi
  obtain ⟨t2, e2, v2, c2⟩ := foldUnion_ok dbg h js fun j hj => hi j ((hm j).1 hj)
  rw [e1, e2]
  congr 1
  refine valid_ext v2 v1 fun aft k _ => ?_
  have := c2 aft k
  rw [show cov aft false t2 k = _ from c2 aft k, show cov aft false t1 k = _ from c1 aft k]
  congr 1
  rw [Bool.eq_iff_iff, List.any_eq_true, List.any_eq_true]
  simp only [hm]

theorem mir_fromIter (hg : StrictAnti g) (dbg : Bool) (is : List (RawInterval α)) (hi : ∀ i ∈ is, i.WF) :
    TineTree.fromIter dbg (is.map (RawInterval.mirror g)) = (TineTree.fromIter dbg is).map (TineTree.mirror g) :=
  mir_foldUnion hg dbg valid_nil is hi

theorem mir_union (hg : StrictAnti g) (dbg : Bool) {a b : TineTree α} (ha : Valid a) (hb : Valid b) :
    TineTree.union dbg (a.mirror g) (b.mirror g) = (TineTree.union dbg a b).map (TineTree.mirror g) := by
  have hw : ∀ i ∈ pieces none b, i.WF := fun i hi => ((pieces_wf hb.1).1 i hi).1
  rw [TineTree.union, TineTree.union, fold_eq dbg _ hb, fold_eq dbg _ (valid_mir hg hb), pieces_mir hg hb,
    ← mir_foldUnion hg dbg ha _ hw]
  refine foldUnion_mem dbg (valid_mir hg ha) ?_ (by simp)
  intro i hi
  obtain ⟨j, hj, rfl⟩ := List.mem_map.1 hi
  exact wf_mir hg (hw j hj)

theorem inv_mir {t : Tine α} (h : Fin t) : inv (t.mirror g) = (inv t).mirror g := by
  obtain ⟨x, hx⟩ := h
  rcases t with (a | a | _) | (a | a | _) | (a | a | _) <;> rfl

theorem fin_mir {t : Tine α} (h : Fin t) : Fin (t.mirror g) := by
  obtain ⟨x, hx⟩ := h
  rcases t with (a | a | _) | (a | a | _) | (a | a | _) <;> first | exact ⟨_, rfl⟩ | simp [Tine.key] at hx

theorem mir_complement (hg : StrictAnti g) (dbg : Bool) {t : TineTree α} (h : Valid t) :
    TineTree.complement dbg (t.mirror g) = (TineTree.complement dbg t).map (TineTree.mirror g) := by
  obtain ⟨F, c, d, rfl, hF, hs, hc⟩ := middle h
  rw [complement_eq dbg hF hs hc]
  have hF' : ∀ t ∈ TineTree.mirror g F, Fin t := fun t ht => by
    obtain ⟨y, hy, rfl⟩ := mem_mir.1 ht
    exact fin_mir (hF y hy)
  have e := complement_eq dbg hF' (sorted_mir hg hs) (chain_mir (g := g) hc)
  rw [mir_append, mir_append, edge_mir, edge_mir, ← List.append_assoc]
  refine e.trans ?_
  have hm : List.map inv (TineTree.mirror g F) = TineTree.mirror g (List.map inv F) := by
    simp only [TineTree.mirror, List.map_reverse, List.map_map]
    congr 1
    exact List.map_congr_left fun x hx => inv_mir (hF x hx)
  simp only [Except.map, compl, mir_append, edge_mir, hm, Key.mirror, List.append_assoc]

theorem mir_enclose (hg : StrictAnti g) (dbg : Bool) {t : TineTree α} (h : Valid t) :
    TineTree.enclose dbg (t.mirror g) = (TineTree.enclose dbg t).map (RawInterval.mirror g) := by
  rcases t with _ | ⟨x, _ | ⟨y, ts⟩⟩
  · rfl
  · have h1 := h.1.1 x (by simp)
    have h2 := h.2
    rcases x with b | (p | p | _) | b <;> simp [Chain, Tine.isUpperBound, Tine.isLowerBound] at h2
    · cases dbg <;> rfl
    · exact absurd rfl h1
  · obtain ⟨T, z, e⟩ : ∃ T z, y :: ts = T ++ [z] := ⟨_, _, (List.dropLast_concat_getLast (List.cons_ne_nil y ts)).symm⟩
    have e1 : TineTree.enclose dbg (x :: y :: ts) = .ok (RawInterval.new x.intoInner z.intoInner) := by
      rw [TineTree.enclose, e]; simp
    have e2 : TineTree.mirror g (x :: y :: ts) = z.mirror g :: (TineTree.mirror g T ++ [x.mirror g]) := by
      rw [e]; simp [TineTree.mirror]
    rw [e1, e2]
    obtain ⟨w, W, hW⟩ : ∃ w W, TineTree.mirror g T ++ [x.mirror g] = w :: W := by
      cases h : TineTree.mirror g T ++ [x.mirror g] with
      | nil => simp at h
      | cons w W => exact ⟨w, W, rfl⟩
    have e3 : (w :: W).getLast? = some (x.mirror g) := by rw [← hW]; simp
    rw [hW, TineTree.enclose, e3]
    simp [Except.map, Tine.mir_intoInner, RawInterval.mir_new hg]

theorem mir_closure (hg : StrictAnti g) (dbg : Bool) {t : TineTree α} (h : Valid t) :
    TineTree.closure dbg (t.mirror g) = (TineTree.closure dbg t).map (RawInterval.mirror g) := by
  unfold TineTree.closure
  rw [mir_enclose hg dbg h]
  obtain ⟨e, he, -⟩ := enclose_ok dbg h
  rw [he]
  simp [Except.map, bind, Except.bind, RawInterval.mir_closure]

/-! ## Difference, intersection and backward iteration, where they are right -/

theorem bind_map_ok {γ δ : Type} (x : Except Panic γ) (f : γ → δ) (y : γ) (h : x = .ok y) :
    x.map f = .ok (f y) := by rw [h]; rfl

theorem minusOk_mir (hg : StrictAnti g) {t : TineTree α} (h : Valid t) {i : RawInterval α} (hi : i.WF)
    (hm : MinusOk t i) : MinusOk (t.mirror g) (i.mirror g) := by
  have one' : ∀ k : Key α, bef false (t.mirror g) (k.mirror g) = tcov t true k ∧
      tcov (t.mirror g) false (k.mirror g) = tcov t false k ∧
      tcov (t.mirror g) true (k.mirror g) = bef false t k := fun k => by
    obtain ⟨o⟩ := one h k
    obtain ⟨h1, h2, h3⟩ := o.views
    obtain ⟨g1, g2, g3⟩ := (o.mirror hg).views
    rw [h1, h2, h3]
    exact ⟨g1, g2, g3⟩
  have hole' : ∀ k : Key α, holeAt (t.mirror g) (k.mirror g) = holeAt t k := fun k => by
    obtain ⟨h1, h2, h3⟩ := one' k
    rw [holeAt, holeAt, h1, h2, h3]
    cases tcov t true k <;> cases tcov t false k <;> cases bef false t k <;> rfl
  by_cases hp : ∃ p, i = .point p
  · obtain ⟨p, rfl⟩ := hp
    obtain ⟨h1, h2, h3⟩ := one' (.fin p)
    have hm : tcov t false (.fin p) = true ∨
      (bef false t (.fin p) = false ∧ tcov t true (.fin p) = false) := hm
    show tcov (t.mirror g) false (Key.mirror g (.fin p)) = true ∨
      (bef false (t.mirror g) (Key.mirror g (.fin p)) = false ∧ tcov (t.mirror g) true (Key.mirror g (.fin p)) = false)
    rw [h1, h2, h3]; tauto
  · have hm' : ∀ x ∈ Tine.fromRawInterval i, holeAt t x.key = false := by
      cases i <;> first | exact absurd ⟨_, rfl⟩ hp | exact hm
    have hk : ∀ x ∈ Tine.fromRawInterval (i.mirror g), holeAt (t.mirror g) x.key = false := by
      intro x hx
      rw [Tine.mir_fromRaw, List.mem_reverse, List.mem_map] at hx
      obtain ⟨y, hy, rfl⟩ := hx
      have hy' : y.Ok := by
        cases i <;> simp [Tine.fromRawInterval] at hy <;> (rcases hy with rfl | rfl) <;>
          simp [Tine.Ok]
      rw [key_mir hy', hole', hm' y hy]
    cases i <;> first | exact absurd ⟨_, rfl⟩ hp | exact hk

/-! ### `minus`, holes included -/

theorem one_mir (hg : StrictAnti g) {t : TineTree α} (h : Valid t) (k : Key α) :
    bef false (t.mirror g) (k.mirror g) = tcov t true k ∧
      tcov (t.mirror g) false (k.mirror g) = tcov t false k ∧
      tcov (t.mirror g) true (k.mirror g) = bef false t k := by
  obtain ⟨o⟩ := one h k
  obtain ⟨h1, h2, h3⟩ := o.views
  obtain ⟨g1, g2, g3⟩ := (o.mirror hg).views
  rw [h1, h2, h3]
  exact ⟨g1, g2, g3⟩

theorem holeAt_mir (hg : StrictAnti g) {t : TineTree α} (h : Valid t) (k : Key α) :
    holeAt (t.mirror g) (k.mirror g) = holeAt t k := by
  obtain ⟨h1, h2, h3⟩ := one_mir hg h k
  rw [holeAt, holeAt, h1, h2, h3]
  cases tcov t true k <;> cases tcov t false k <;> cases bef false t k <;> rfl

open Classical in
/-- The holes of `a` at which an interval of `b` starts or ends. -/
noncomputable def filled (a b : TineTree α) : List (RawInterval α) :=
  (pieces none a).filterMap fun i => match i.upperBound with
    | some (.excl p) => if holeAt a (.fin p) = true ∧ ∃ j ∈ pieces none b, EndAt j (.fin p) then some (.point p) else none
    | _ => none

theorem mem_filled {a b : TineTree α} (ha : Valid a) {i : RawInterval α} : i ∈ filled a b ↔
    ∃ p, i = .point p ∧ holeAt a (.fin p) = true ∧ ∃ j ∈ pieces none b, EndAt j (.fin p) := by
  simp only [filled, List.mem_filterMap]
  constructor
  · rintro ⟨j, hj, e⟩
    split at e
    · split_ifs at e with h
      cases e
      exact ⟨_, rfl, h⟩
    · cases e
  · rintro ⟨p, rfl, h1, h2⟩
    obtain ⟨⟨j, hj, e⟩, -⟩ := (hole_iff ha p).1 h1
    exact ⟨j, hj, by rw [e]; simp only [if_pos (And.intro h1 h2)]⟩

theorem filled_wf {a b : TineTree α} (ha : Valid a) : ∀ i ∈ filled a b, i.WF := by
  intro i hi
  obtain ⟨p, rfl, -⟩ := (mem_filled ha).1 hi
  trivial

theorem endAt_mir (hg : StrictAnti g) {i : RawInterval α} (p : α) :
    EndAt (i.mirror g) (.fin (g p)) ↔ EndAt i (.fin p) := by
  cases i <;> simp [EndAt, RawInterval.mirror, Tine.fromRawInterval, Tine.key, hg.injective.eq_iff, or_comm]

theorem mem_filled_mir (hg : StrictAnti g) {a b : TineTree α} (ha : Valid a) (hb : Valid b) {i : RawInterval β} :
    i ∈ filled (a.mirror g) (b.mirror g) ↔ i ∈ (filled a b).map (RawInterval.mirror g) := by
  have key : ∀ p, (∃ j ∈ pieces none (b.mirror g), EndAt j (.fin (g p))) ↔ ∃ j ∈ pieces none b, EndAt j (.fin p) := by
    intro p
    simp [pieces_mir hg hb, endAt_mir hg]
  rw [mem_filled (valid_mir hg ha), List.mem_map]
  constructor
  · rintro ⟨q, rfl, h1, h2⟩
    obtain ⟨⟨j, hj, e⟩, -⟩ := (hole_iff (valid_mir hg ha) q).1 h1
    rw [pieces_mir hg ha, List.mem_reverse, List.mem_map] at hj
    obtain ⟨j, -, rfl⟩ := hj
    have : ∃ p, g p = q := by
      cases j <;> simp [RawInterval.mirror, RawInterval.upperBound] at e <;> exact ⟨_, e⟩
    obtain ⟨p, rfl⟩ := this
    exact ⟨.point p, (mem_filled ha).2 ⟨p, rfl, (holeAt_mir hg ha (.fin p)).symm.trans h1, (key p).1 h2⟩, rfl⟩
  · rintro ⟨i, hi, rfl⟩
    obtain ⟨p, rfl, h1, h2⟩ := (mem_filled ha).1 hi
    exact ⟨g p, rfl, (holeAt_mir hg ha (.fin p)).trans h1, (key p).2 h2⟩

theorem icov_pt (p : α) (aft : Bool) (k : Key α) : icov (.point p) aft k = (!aft && decide (k = .fin p)) := by
  simp only [icov, Tine.fromRawInterval, cov, Tine.key, Tine.isLowerBound, Tine.inclAt]
  rcases lt_trichotomy k (.fin p) with h | h | h
  · simp [h, h.ne]
  · subst h; cases aft <;> simp
  · simp [h.not_gt, h.ne']

open Classical in
/-- Difference through complement and union, then the holes that `minus` fills. -/
theorem minus_by_fill (dbg : Bool) {a b : TineTree α} (ha : Valid a) (hb : Valid b)
    (hm : ∀ p, .point p ∈ pieces none b → MinusOk a (.point p)) : TineTree.minus dbg a b =
      (TineTree.complement dbg a >>= fun c => TineTree.union dbg c b >>= fun u => TineTree.complement dbg u >>= fun r =>
        (filled a b).foldlM (TineTree.unionInPlace dbg) r) := by
  obtain ⟨t, e, v, c⟩ := minus_eq dbg ha hb hm
  obtain ⟨a1, e1, v1, c1⟩ := complement_ok dbg ha
  obtain ⟨u, e2, v2, c2⟩ := union_ok dbg v1 hb
  obtain ⟨r, e3, v3, c3⟩ := complement_ok dbg v2
  obtain ⟨z, e4, v4, c4⟩ := foldUnion_ok dbg v3 (filled a b) (filled_wf ha)
  rw [e, e1]
  show _ = (TineTree.union dbg a1 b >>= _)
  rw [e2]
  show _ = (TineTree.complement dbg u >>= _)
  rw [e3]
  show _ = List.foldlM _ _ _
  rw [e4]
  congr 1
  refine valid_ext v v4 fun aft k hr => ?_
  have h1 := c aft k
  have h2 := c4 aft k
  rw [c3 aft k hr, c2, c1 aft k hr] at h2
  have h3 : ((filled a b).any fun i => icov i aft k) =
      (!aft && holeAt a k && decide (∃ i ∈ pieces none b, EndAt i k)) := by
    rw [Bool.eq_iff_iff, List.any_eq_true]
    simp only [Bool.and_eq_true, Bool.not_eq_true', decide_eq_true_eq]
    constructor
    · rintro ⟨i, hi, h⟩
      obtain ⟨p, rfl, g1, g2⟩ := (mem_filled ha).1 hi
      rw [icov_pt] at h
      simp only [Bool.and_eq_true, Bool.not_eq_true', decide_eq_true_eq] at h
      obtain ⟨h, rfl⟩ := h
      exact ⟨⟨h, g1⟩, g2⟩
    · rintro ⟨⟨h, g1⟩, g2⟩
      rcases k with _ | p | _
      · rw [(hole_inf ha).1] at g1; cases g1
      · exact ⟨.point p, (mem_filled ha).2 ⟨p, rfl, g1, g2⟩, by rw [icov_pt, h]; simp⟩
      · rw [(hole_inf ha).2] at g1; cases g1
  rw [h3] at h2
  rw [tcov] at h1 h2
  rw [h1, h2]
  simp [Bool.not_or]

theorem mir_minus (hg : StrictAnti g) (dbg : Bool) {a b : TineTree α} (ha : Valid a) (hb : Valid b)
    (hm : ∀ p, .point p ∈ pieces none b → MinusOk a (.point p)) :
    TineTree.minus dbg (a.mirror g) (b.mirror g) = (TineTree.minus dbg a b).map (TineTree.mirror g) := by
  rw [minus_by_fill dbg ha hb hm, minus_by_fill dbg (valid_mir hg ha) (valid_mir hg hb), mir_complement hg dbg ha]
  · obtain ⟨a1, e1, v1, c1⟩ := complement_ok dbg ha
    obtain ⟨u, e2, v2, c2⟩ := union_ok dbg v1 hb
    obtain ⟨r, e3, v3, c3⟩ := complement_ok dbg v2
    rw [e1]
    show (TineTree.union dbg (a1.mirror g) (b.mirror g) >>= _) = Except.map _ (TineTree.union dbg a1 b >>= _)
    rw [mir_union hg dbg v1 hb, e2]
    show (TineTree.complement dbg (u.mirror g) >>= _) = Except.map _ (TineTree.complement dbg u >>= _)
    rw [mir_complement hg dbg v2, e3]
    show List.foldlM _ (r.mirror g) _ = Except.map _ (List.foldlM _ r _)
    rw [← mir_foldUnion hg dbg v3 _ (filled_wf ha)]
    refine foldUnion_mem dbg (valid_mir hg v3) ?_ fun i => mem_filled_mir hg ha hb
    intro i hi
    exact filled_wf (valid_mir hg ha) i ((mem_filled_mir hg ha hb).2 hi)
  · intro p hi
    rw [pieces_mir hg hb, List.mem_reverse, List.mem_map] at hi
    obtain ⟨j, hj, e⟩ := hi
    rw [← e]
    refine minusOk_mir hg ha ((pieces_wf hb.1).1 j hj).1 ?_
    cases j <;> simp [RawInterval.mirror] at e
    exact hm _ hj

/-- What `intersect` gives on mirrored trees: the same walk, from the other end. -/
theorem mir_intersect_walk (hg : StrictAnti g) (dbg : Bool) {a b : TineTree α} (ha : Valid a) (hb : Valid b) :
    TineTree.intersect dbg (a.mirror g) (b.mirror g) =
      (TineTree.fromIter dbg (isectList (pieces none a).reverse (pieces none b).reverse)).map (TineTree.mirror g) := by
  have hw : ∀ i ∈ isectList (pieces none a).reverse (pieces none b).reverse, i.WF := fun i hi => by
    obtain ⟨s, _, o, _, rfl⟩ := isectList_mem hi
    exact RawInterval.intersect_wf s o
  obtain ⟨t, e, v, e2⟩ := intersect_eq dbg (valid_mir hg ha) (valid_mir hg hb)
  rw [e, ← e2, ← mir_fromIter hg dbg _ hw]
  refine foldUnion_mem dbg valid_nil ?_ fun i => ?_
  · intro i hi
    obtain ⟨j, hj, rfl⟩ := List.mem_map.1 hi
    exact wf_mir hg (hw j hj)
  · rw [isectList_together, List.mem_map, pieces_mir hg ha, pieces_mir hg hb, ← List.map_reverse, ← List.map_reverse]
    have hT := together_map (as := (pieces none a).reverse) (bs := (pieces none b).reverse) (f := RawInterval.mirror g)
      (g := RawInterval.mirror g) (meets := RawInterval.intersects) (meets' := RawInterval.intersects)
      (fun i _ j _ => RawInterval.mir_intersects hg i j)
    constructor
    · rintro ⟨s, o, h1, h2, rfl⟩
      obtain ⟨s', rfl, o', rfl, h⟩ := (hT s o).1 h1
      rw [RawInterval.mir_intersects hg] at h2
      exact ⟨s'.intersect o', (isectList_together _ _ _).2 ⟨s', o', h, h2, rfl⟩, (RawInterval.mir_intersect hg s' o').symm⟩
    · rintro ⟨j, hj, rfl⟩
      obtain ⟨s, o, h1, h2, rfl⟩ := (isectList_together _ _ _).1 hj
      exact ⟨_, _, (hT _ _).2 ⟨s, rfl, o, rfl, h1⟩, by rw [RawInterval.mir_intersects hg]; exact h2,
        (RawInterval.mir_intersect hg s o).symm⟩

theorem mir_intersect (hg : StrictAnti g) (dbg : Bool) {a b : TineTree α} (ha : Valid a) (hb : Valid b)
    (h : ∀ s o, s.intersects o = true → (Together RawInterval.intersects (pieces none a) (pieces none b) s o ↔
      Together RawInterval.intersects (pieces none a).reverse (pieces none b).reverse s o)) :
    TineTree.intersect dbg (a.mirror g) (b.mirror g) = (TineTree.intersect dbg a b).map (TineTree.mirror g) := by
  obtain ⟨t, e, v, e2⟩ := intersect_eq dbg ha hb
  rw [mir_intersect_walk hg dbg ha hb, e, ← e2]
  congr 1
  refine foldUnion_mem dbg valid_nil (fun i hi => ?_) fun i => ?_
  · obtain ⟨s, _, o, _, rfl⟩ := isectList_mem hi
    exact RawInterval.intersect_wf s o
  · rw [isectList_together, isectList_together]
    exact exists_congr fun s => exists_congr fun o =>
      ⟨fun ⟨h1, h2, h3⟩ => ⟨(h s o h2).2 h1, h2, h3⟩, fun ⟨h1, h2, h3⟩ => ⟨(h s o h2).1 h1, h2, h3⟩⟩

theorem mirror_inj (hg : StrictAnti g) : Function.Injective (RawInterval.mirror g) := by
  intro a b h
  cases a <;> cases b <;> simp only [RawInterval.mirror, reduceCtorEq] at h <;>
    first
      | rfl
      | (simp only [RawInterval.point.injEq, RawInterval.opn.injEq, RawInterval.leftOpen.injEq,
          RawInterval.rightOpen.injEq, RawInterval.closed.injEq, RawInterval.upTo.injEq, RawInterval.upFrom.injEq,
          RawInterval.to.injEq, RawInterval.frm.injEq, hg.injective.eq_iff] at h; simp [h])

theorem icov_some_real {i : RawInterval α} (h : i ≠ .empty) (hw : i.WF) :
    ∃ aft k, RealPos aft k ∧ icov i aft k = true := by
  cases i with
  | empty => exact absurd rfl h
  | point p => exact ⟨false, .fin p, ⟨by simp, by simp⟩, by simp [icov, Tine.fromRawInterval, cov, Tine.key, Tine.inclAt]⟩
  | upTo r => exact ⟨true, .bot, ⟨by simp, by simp⟩, by simp [icov, Tine.fromRawInterval, cov, Tine.key, Tine.isLowerBound]⟩
  | «to» r => exact ⟨true, .bot, ⟨by simp, by simp⟩, by simp [icov, Tine.fromRawInterval, cov, Tine.key, Tine.isLowerBound]⟩
  | full => exact ⟨true, .bot, ⟨by simp, by simp⟩, by simp [icov, Tine.fromRawInterval, cov, Tine.key, Tine.isLowerBound]⟩
  | upFrom l | frm l =>
    exact ⟨true, .fin l, ⟨by simp, by simp⟩, by simp [icov, Tine.fromRawInterval, cov, Tine.key, Tine.isLowerBound]⟩
  | opn l r | leftOpen l r | rightOpen l r | closed l r =>
    have : l < r := hw
    exact ⟨true, .fin l, ⟨by simp, by simp⟩, by simp [icov, Tine.fromRawInterval, cov, Tine.key, Tine.isLowerBound, this]⟩

/-- Two intervals of a tree that cover the same place are one. -/
theorem pieces_meet {t : TineTree α} (h : Valid t) {s s' : RawInterval α} (h1 : s ∈ pieces none t)
    (h2 : s' ∈ pieces none t) {aft : Bool} {k : Key α} (hr : RealPos aft k) (c1 : icov s aft k = true)
    (c2 : icov s' aft k = true) : s = s' := by
  have no : ∀ {a b : RawInterval α}, a ∈ pieces none t → b ∈ pieces none t → SepI a b → icov a aft k = true →
      icov b aft k = true → False := by
    intro a b ha hb hs ca cb
    have wa := ((pieces_wf h.1).1 a ha).1
    have wb := ((pieces_wf h.1).1 b hb).1
    have := sep_no_meet wa wb hs
    rw [Bool.or_eq_false_iff, RawInterval.intersects, Bool.not_eq_false', RawInterval.isEmpty_iff] at this
    have e := icov_intersect wa wb hr
    rw [this.1, ca, cb] at e
    cases e
  obtain ⟨i, hi, rfl⟩ := List.getElem_of_mem h1
  obtain ⟨j, hj, rfl⟩ := List.getElem_of_mem h2
  have sep := List.pairwise_iff_getElem.1 (pieces_sep h.1).1
  rcases lt_trichotomy i j with lt | rfl | lt
  · exact (no h1 h2 (sep i j hi hj lt) c1 c2).elim
  · rfl
  · exact (no h2 h1 (sep j i hj hi lt) c2 c1).elim

theorem together_sub {as bs : List (RawInterval α)} {s o : RawInterval α}
    (h : Together RawInterval.intersects as bs s o) : s ∈ as ∧ o ∈ bs := by
  obtain ⟨k, h1, h2⟩ := h
  exact ⟨List.mem_of_getElem? h2, List.mem_of_getElem? h1⟩

theorem tine_mirror_inj (hg : StrictAnti g) : Function.Injective (Tine.mirror g) := by
  intro a b h
  rcases a with (a | a | _) | (a | a | _) | (a | a | _) <;> rcases b with (b | b | _) | (b | b | _) | (b | b | _) <;>
    simp_all [Tine.mirror, Bound.map, hg.injective.eq_iff]

theorem tree_mirror_inj (hg : StrictAnti g) : Function.Injective (TineTree.mirror g) := by
  intro a b h
  exact (List.map_inj_right fun _ _ h => tine_mirror_inj hg h).1 (List.reverse_inj.1 h)

/-- `intersect` gives the mirror image exactly if both walks bring the same intersecting intervals together. -/
theorem mir_intersect_iff (hg : StrictAnti g) (dbg : Bool) {a b : TineTree α} (ha : Valid a) (hb : Valid b) :
    TineTree.intersect dbg (a.mirror g) (b.mirror g) = (TineTree.intersect dbg a b).map (TineTree.mirror g) ↔
    ∀ s o, s.intersects o = true → (Together RawInterval.intersects (pieces none a) (pieces none b) s o ↔
      Together RawInterval.intersects (pieces none a).reverse (pieces none b).reverse s o) := by
  refine ⟨fun e => ?_, mir_intersect hg dbg ha hb⟩
  obtain ⟨t, e1, v, e2⟩ := intersect_eq dbg ha hb
  have w : ∀ as bs : List (RawInterval α), ∀ i ∈ isectList as bs, i.WF := fun as bs i hi => by
    obtain ⟨s, _, o, _, rfl⟩ := isectList_mem hi
    exact RawInterval.intersect_wf s o
  obtain ⟨t1, f1, v1, c1⟩ := fromIter_ok dbg _ (w (pieces none a) (pieces none b))
  obtain ⟨t2, f2, v2, c2⟩ := fromIter_ok dbg _ (w (pieces none a).reverse (pieces none b).reverse)
  rw [mir_intersect_walk hg dbg ha hb, e1, ← e2, f1, f2] at e
  simp only [Except.map, Except.ok.injEq] at e
  have e := tree_mirror_inj hg e
  subst e
  have key : ∀ (as bs cs ds : List (RawInterval α)), (∀ x, x ∈ as ↔ x ∈ pieces none a) →
      (∀ x, x ∈ bs ↔ x ∈ pieces none b) → (∀ x, x ∈ cs ↔ x ∈ pieces none a) → (∀ x, x ∈ ds ↔ x ∈ pieces none b) →
      (∀ aft k, ((isectList as bs).any fun i => icov i aft k) = (isectList cs ds).any fun i => icov i aft k) →
      ∀ s o, s.intersects o = true → Together RawInterval.intersects as bs s o →
        Together RawInterval.intersects cs ds s o := by
    intro as bs cs ds ma mb mc md hc s o hm hT
    obtain ⟨ms, mo⟩ := together_sub hT
    rw [ma] at ms
    rw [mb] at mo
    have ws := ((pieces_wf ha.1).1 s ms).1
    have wo := ((pieces_wf hb.1).1 o mo).1
    have ne : s.intersect o ≠ .empty := fun h => by
      rw [RawInterval.intersects, h] at hm; cases hm
    obtain ⟨aft, k, hr, hk⟩ := icov_some_real ne (RawInterval.intersect_wf s o)
    have h1 : ((isectList as bs).any fun i => icov i aft k) = true :=
      List.any_eq_true.2 ⟨_, (isectList_together _ _ _).2 ⟨s, o, hT, hm, rfl⟩, hk⟩
    rw [hc, List.any_eq_true] at h1
    obtain ⟨i, hi, hik⟩ := h1
    obtain ⟨s', o', hT', hm', rfl⟩ := (isectList_together _ _ _).1 hi
    obtain ⟨ms', mo'⟩ := together_sub hT'
    rw [mc] at ms'
    rw [md] at mo'
    rw [icov_intersect ws wo hr, Bool.and_eq_true] at hk
    rw [icov_intersect ((pieces_wf ha.1).1 s' ms').1 ((pieces_wf hb.1).1 o' mo').1 hr, Bool.and_eq_true] at hik
    rw [pieces_meet ha ms ms' hr hk.1 hik.1, pieces_meet hb mo mo' hr hk.2 hik.2]
    exact hT'
  have hc : ∀ aft k, ((isectList (pieces none a) (pieces none b)).any fun i => icov i aft k) =
      (isectList (pieces none a).reverse (pieces none b).reverse).any fun i => icov i aft k := fun aft k => by
    rw [← c1, ← c2]
  exact fun s o hm => ⟨key _ _ _ _ (by simp) (by simp) (by simp) (by simp) hc s o hm,
    key _ _ _ _ (by simp) (by simp) (by simp) (by simp) (fun aft k => (hc aft k).symm) s o hm⟩

/-- Backward iteration gives the intervals of the mirrored tree exactly when no value is cut out of the middle of
an interval. -/
theorem mir_back_iff (hg : StrictAnti g) (dbg : Bool) {t : TineTree α} (h : Valid t) :
    TineTree.intervals dbg (t.mirror g) = (TineTree.intervalsBack dbg t).map (List.map (RawInterval.mirror g)) ↔
      HoleFree t := by
  rw [mir_intervals hg dbg h, intervals_eq dbg h]
  constructor
  · intro e
    by_contra hh
    refine intervalsBack_ne dbg h hh ?_
    cases hb : TineTree.intervalsBack dbg t with
    | error p => rw [hb] at e; cases e
    | ok l =>
      rw [hb] at e
      simp only [Except.map, Except.ok.injEq] at e
      rw [← List.map_reverse] at e
      rw [(List.map_inj_right fun _ _ h => mirror_inj hg h).1 e]
  · intro hf
    rw [intervalsBack_eq dbg h hf]
    simp [Except.map]

end TT
end NI
