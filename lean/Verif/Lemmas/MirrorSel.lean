import Verif.Lemmas.MirrorOps
import Verif.Lemmas.NaturalSel
import Verif.Lemmas.SelOps
import Verif.Lemmas.SelIter

/-! # Mirror images: intervals and selections -/

set_option linter.unusedSimpArgs false
set_option linter.unusedVariables false
set_option linter.unusedSectionVars false

namespace NI
variable {α β : Type} [LinearOrder α] [LinearOrder β] [Finite α] [Finite β] {g : α → β}

/-- Turning the order around completely is enough: the order settles everything else. -/
theorem Reflects.of_surjective [LawfulFinite α] [LawfulFinite β] (hg : StrictAnti g) (hs : Function.Surjective g) :
    Reflects g := by
  have mn : (Finite.minimum : β) = g Finite.maximum := by
    obtain ⟨x, hx⟩ := hs Finite.minimum
    refine le_antisymm (LawfulFinite.min_le _) ?_
    rw [← hx]; exact hg.le_iff_ge.2 (LawfulFinite.le_max x)
  have mx : (Finite.maximum : β) = g Finite.minimum := by
    obtain ⟨x, hx⟩ := hs Finite.maximum
    refine le_antisymm ?_ (LawfulFinite.le_max _)
    rw [← hx]; exact hg.le_iff_ge.2 (LawfulFinite.min_le x)
  refine ⟨hg, mn, mx, fun x => ?_, fun x => ?_⟩
  · cases h : Finite.succ x with
    | none =>
      have := (LawfulFinite.succ_none x).1 h
      subst this
      exact (LawfulFinite.pred_none _).2 mn.symm
    | some y =>
      obtain ⟨h1, h2⟩ := LawfulFinite.succ_some x y h
      cases h' : Finite.pred (g x) with
      | none =>
        have := (LawfulFinite.pred_none _).1 h'
        rw [mn, hg.injective.eq_iff] at this
        rw [(LawfulFinite.succ_none x).2 this] at h
        exact absurd h (by simp)
      | some z =>
        obtain ⟨h3, h4⟩ := LawfulFinite.pred_some _ z h'
        obtain ⟨w, rfl⟩ := hs z
        exact congrArg some (le_antisymm (hg.le_iff_ge.2 (h2 _ (hg.lt_iff_gt.1 h3))) (h4 _ (hg h1)))
  · cases h : Finite.pred x with
    | none =>
      have := (LawfulFinite.pred_none x).1 h
      subst this
      exact (LawfulFinite.succ_none _).2 mx.symm
    | some y =>
      obtain ⟨h1, h2⟩ := LawfulFinite.pred_some x y h
      cases h' : Finite.succ (g x) with
      | none =>
        have := (LawfulFinite.succ_none _).1 h'
        rw [mx, hg.injective.eq_iff] at this
        rw [(LawfulFinite.pred_none x).2 this] at h
        exact absurd h (by simp)
      | some z =>
        obtain ⟨h3, h4⟩ := LawfulFinite.succ_some _ z h'
        obtain ⟨w, rfl⟩ := hs z
        exact congrArg some (le_antisymm (h4 _ (hg h1)) (hg.le_iff_ge.2 (h2 _ (hg.lt_iff_gt.1 h3))))

namespace RawInterval
variable (R : Reflects g)
include R

theorem mir_normalized (i : RawInterval α) : (i.mirror g).normalized = i.normalized.mirror g := by
  cases i <;> simp only [mirror, normalized, R.minimum, R.maximum, R.pred, R.succ] <;> try rfl
  case opn l r => cases Finite.succ l <;> cases Finite.pred r <;> rfl
  case leftOpen l r => cases Finite.succ l <;> rfl
  case rightOpen l r => cases Finite.pred r <;> rfl
  case upTo r => cases Finite.pred r <;> rfl
  case upFrom l => cases Finite.succ l <;> rfl

theorem mir_denormalized (i : RawInterval α) : (i.mirror g).denormalized = i.denormalized.mirror g := by
  cases i <;> simp only [mirror, denormalized, R.pred, R.succ] <;> try rfl
  case point p => cases Finite.pred p <;> cases Finite.succ p <;> rfl
  case leftOpen l r => cases Finite.succ r <;> rfl
  case rightOpen l r => cases Finite.pred l <;> rfl
  case closed l r => cases Finite.pred l <;> cases Finite.succ r <;> rfl
  case «to» r => cases Finite.pred r <;> rfl
  case frm l => cases Finite.succ l <;> rfl

end RawInterval

namespace Interval
variable (R : Reflects g)
include R

theorem mir_ofRaw (r : RawInterval α) : ofRaw (r.mirror g) = (ofRaw r).mirror g := by
  rw [ofRaw, RawInterval.mir_normalized R]; rfl

theorem mir_new (a b : Bound α) : new (b.map g) (a.map g) = (new a b).mirror g := by
  rw [new, RawInterval.mir_new R.anti, RawInterval.mir_normalized R]; rfl

theorem mir_list (rs : List (RawInterval α)) :
    ((rs.map (RawInterval.mirror g)).reverse).map (fun r => (⟨r.normalized⟩ : Interval β)) =
    ((rs.map fun r => (⟨r.normalized⟩ : Interval α)).map (mirror g)).reverse := by
  rw [List.map_reverse, List.map_map, List.map_map]
  congr 1
  exact List.map_congr_left fun r _ => by simp [mirror, RawInterval.mir_normalized R]

theorem mir_complement (i : Interval α) : (i.mirror g).complement = (i.complement.map (mirror g)).reverse := by
  rw [complement, mirror, RawInterval.mir_complement, mir_list R]; rfl

theorem mir_closure (i : Interval α) : (i.mirror g).closure = i.closure.mirror g := by
  rw [closure, mirror, RawInterval.mir_closure, RawInterval.mir_normalized R, mir_ofRaw R]; rfl

theorem mir_intersect (a b : Interval α) : (a.mirror g).intersect (b.mirror g) = (a.intersect b).mirror g := by
  rw [intersect, mirror, mirror, RawInterval.mir_intersect R.anti, RawInterval.mir_normalized R, mir_ofRaw R]; rfl

theorem mir_enclose (a b : Interval α) : (a.mirror g).enclose (b.mirror g) = (a.enclose b).mirror g := by
  rw [enclose, mirror, mirror, RawInterval.mir_enclose R.anti, RawInterval.mir_normalized R, mir_ofRaw R]; rfl

theorem mir_union (a b : Interval α) : (a.mirror g).union (b.mirror g) = (a.union b).map (mirror g) := by
  rw [union, mirror, mirror, RawInterval.mir_union R.anti, List.map_map]
  unfold union
  rw [List.map_map]
  exact List.map_congr_left fun r _ => by simp [mirror, RawInterval.mir_normalized R]

theorem mir_minus (a b : Interval α) : (a.mirror g).minus (b.mirror g) = ((a.minus b).map (mirror g)).reverse := by
  rw [minus, mirror, mirror, RawInterval.mir_minus R.anti, mir_list R]; rfl

theorem mir_point (p : α) : ofPoint (g p) = (ofPoint p).mirror g := rfl

theorem mir_full : (full : Interval β) = (full : Interval α).mirror g := mir_ofRaw R RawInterval.full

omit R [LinearOrder β] [Finite β] in
/-- Removing an end point leaves at most one interval. -/
theorem minus_end (i : Interval α) (p : α) (h : i.lowerBound = some (.incl p) ∨ i.upperBound = some (.incl p)) :
    (i.minus (ofPoint p)).length ≤ 1 := by
  obtain ⟨r⟩ := i
  unfold minus
  rw [List.length_map]
  have e : ∀ x y : RawInterval α, (x.isEmpty = true ∨ y.isEmpty = true) →
      ([x, y].filter fun i => !i.isEmpty).length ≤ 1 := by
    intro x y h
    cases hx : x.isEmpty <;> cases hy : y.isEmpty <;> simp_all
  have key : (r.intersect (.upTo p)).isEmpty = true ∨ (r.intersect (.upFrom p)).isEmpty = true := by
    have nc : ∀ p : α, ¬ (Bound.incl p).Compat (.excl p) ∧ ¬ (Bound.excl p).Compat (.incl p) := fun p => by
      simp [Bound.Compat]
    have neg : ∀ {x : RawInterval α}, ¬ r.intersects x = true → (r.intersect x).isEmpty = true := fun hx => by
      rw [RawInterval.intersects] at hx; simpa using hx
    rcases r.bounds_cases with ⟨rfl, _⟩ | ⟨la, ua, h1, h2, _⟩
    · left; rfl
    · rcases h with h | h
      · left
        have h : r.lowerBound = some (.incl p) := h
        refine neg fun hx => ?_
        exact (nc p).1 ((RawInterval.intersect_isEmpty (b := .upTo p) h h2 rfl rfl).1 hx).2.1
      · right
        have h : r.upperBound = some (.incl p) := h
        refine neg fun hx => ?_
        exact (nc p).2 ((RawInterval.intersect_isEmpty (b := .upFrom p) h1 h rfl rfl).1 hx).2.2
  exact e _ _ key

omit R [LinearOrder α] [LinearOrder β] [Finite α] [Finite β] in
theorem head_mir {γ δ : Type} (f : γ → δ) {l : List γ} (h : l.length ≤ 1) : (l.map f).reverse.head? = l.head?.map f := by
  rcases l with _ | ⟨x, _ | ⟨y, l⟩⟩
  · rfl
  · rfl
  · simp at h

theorem mir_next (i : Interval α) :
    (i.mirror g).next = i.nextBack.map fun x => (x.1.map g, x.2.mirror g) := by
  unfold next nextBack
  have h : (i.mirror g).lowerBound = i.upperBound.map (Bound.map · g) := RawInterval.mir_lowerBound i.raw
  rw [h]
  rcases hu : i.upperBound with _ | (b | b | _)
  · rfl
  · have e := minus_end i b (.inr hu)
    simp only [Option.map_some, Bound.map, mir_point R, mir_minus R, Except.map, head_mir _ e]
    cases (i.minus (ofPoint b)).head? <;> rfl
  · rfl
  · rfl

theorem mir_nextBack (i : Interval α) :
    (i.mirror g).nextBack = i.next.map fun x => (x.1.map g, x.2.mirror g) := by
  unfold next nextBack
  have h : (i.mirror g).upperBound = i.lowerBound.map (Bound.map · g) := RawInterval.mir_upperBound i.raw
  rw [h]
  rcases hu : i.lowerBound with _ | (b | b | _)
  · rfl
  · have e := minus_end i b (.inl hu)
    simp only [Option.map_some, Bound.map, mir_point R, mir_minus R, Except.map, head_mir _ e]
    cases (i.minus (ofPoint b)).head? <;> rfl
  · rfl
  · rfl

end Interval

namespace Selection
open TT

/-- The wrapping of a tree operation in a selection operation. -/
theorem wrap_mir {x : Except Panic (TineTree α)} {x' : Except Panic (TineTree β)} (h : x' = x.map (TineTree.mirror g)) :
    (x'.bind fun t => .ok (⟨t⟩ : Selection β)) = (x.bind fun t => .ok (⟨t⟩ : Selection α)).map (mirror g) :=
  bind_step (TineTree.mirror g) h fun _ => rfl

variable [LawfulFinite α] (R : Reflects g)
include R

theorem mir_ofInterval {i : Interval α} (hi : i.Obtainable) : ofInterval (i.mirror g) = (ofInterval i).mirror g := by
  rw [ofInterval, Interval.mirror, RawInterval.mir_denormalized R,
    fromRaw_mir R.anti (RawInterval.denorm_wf (Interval.obtainable_nf hi))]; rfl

theorem mir_full : (full : Selection β) = (full : Selection α).mirror g := by
  rw [full, Interval.mir_full R, mir_ofInterval R full_obtainable]; rfl

theorem mir_unionInPlace (dbg : Bool) {s : Selection α} (v : Valid s.tree) {i : Interval α} (hi : i.Obtainable) :
    (s.mirror g).unionInPlace dbg (i.mirror g) = (s.unionInPlace dbg i).map (mirror g) :=
  wrap_mir (by
    rw [Interval.mirror, RawInterval.mir_denormalized R]
    exact TT.mir_unionInPlace R.anti dbg v (RawInterval.denorm_wf (Interval.obtainable_nf hi)))
theorem mir_minusInPlace (dbg : Bool) {s : Selection α} (v : Valid s.tree) {i : Interval α} (hi : i.Obtainable) :
    (s.mirror g).minusInPlace dbg (i.mirror g) = (s.minusInPlace dbg i).map (mirror g) :=
  wrap_mir (by
    rw [Interval.mirror, RawInterval.mir_denormalized R]
    exact TT.mir_minusInPlace R.anti dbg v (RawInterval.denorm_wf (Interval.obtainable_nf hi)))
theorem mir_intersectInPlace (dbg : Bool) {s : Selection α} (v : Valid s.tree) {i : Interval α} (hi : i.Obtainable) :
    (s.mirror g).intersectInPlace dbg (i.mirror g) = (s.intersectInPlace dbg i).map (mirror g) :=
  wrap_mir (by
    rw [Interval.mirror, RawInterval.mir_denormalized R]
    exact TT.mir_intersectInPlace R.anti dbg v (RawInterval.denorm_wf (Interval.obtainable_nf hi)))

theorem mir_extend (dbg : Bool) (is : List (Interval α)) : ∀ s : Selection α, Valid s.tree → (∀ i ∈ is, i.Obtainable) →
    (s.mirror g).extend dbg (is.map (Interval.mirror g)) = (s.extend dbg is).map (mirror g) := by
  induction is with
  | nil => intro s _ _; rfl
  | cons i is ih =>
    intro s v hi
    obtain ⟨t, e, v', -⟩ := TT.unionInPlace_ok dbg v (i := i.raw.denormalized)
      (RawInterval.denorm_wf (Interval.obtainable_nf (hi i (by simp))))
    have h := mir_unionInPlace R dbg v (hi i (by simp))
    have e' : s.unionInPlace dbg i = .ok ⟨t⟩ := by rw [unionInPlace, e]; rfl
    show ((s.mirror g).unionInPlace dbg (i.mirror g) >>= fun s => s.extend dbg (is.map (Interval.mirror g))) =
      (s.unionInPlace dbg i >>= fun s => s.extend dbg is).map (mirror g)
    rw [h, e']
    exact ih ⟨t⟩ v' fun j hj => hi j (by simp [hj])

theorem mir_fromIntervals (dbg : Bool) (is : List (Interval α)) (hi : ∀ i ∈ is, i.Obtainable) :
    fromIntervals dbg (is.map (Interval.mirror g)) = (fromIntervals dbg is).map (mirror g) :=
  mir_extend R dbg is new valid_nil hi

theorem mir_fromPoints (dbg : Bool) (xs : List α) :
    fromPoints dbg (xs.map g) = (fromPoints dbg xs).map (mirror g) := by
  have : ∀ (xs : List α), fromPoints dbg xs = fromIntervals dbg (xs.map Interval.point) := by
    intro xs; simp only [fromPoints, fromIntervals, List.foldlM_map]
  have this' : ∀ (xs : List β), fromPoints dbg xs = fromIntervals dbg (xs.map Interval.point) := by
    intro xs; simp only [fromPoints, fromIntervals, List.foldlM_map]
  rw [this, this', ← mir_fromIntervals R, List.map_map, List.map_map]
  · rfl
  · intro i hi
    obtain ⟨x, -, rfl⟩ := List.mem_map.1 hi
    exact .point x

theorem mir_enclose (dbg : Bool) {s : Selection α} (v : Valid s.tree) :
    (s.mirror g).enclose dbg = (s.enclose dbg).map (Interval.mirror g) :=
  bind_step (RawInterval.mirror g) (TT.mir_enclose R.anti dbg v) fun i => by
    rw [RawInterval.mir_normalized R]; rfl
theorem mir_closure (dbg : Bool) {s : Selection α} (v : Valid s.tree) :
    (s.mirror g).closure dbg = (s.closure dbg).map (Interval.mirror g) :=
  bind_step (RawInterval.mirror g) (TT.mir_closure R.anti dbg v) fun i => by
    rw [RawInterval.mir_normalized R]; rfl

theorem mir_run (i : RawInterval α) : run (i.mirror g) = (run i).mirror g := Interval.mir_ofRaw R i

theorem mir_intervals [LawfulFinite β] (dbg : Bool) {s : Selection α} (v : Valid s.tree) :
    (s.mirror g).intervals dbg = (s.intervals dbg).map fun is => (is.map (Interval.mirror g)).reverse := by
  rw [intervals_eq dbg v, intervals_eq (s := s.mirror g) dbg (valid_mir R.anti v)]
  show Except.ok (List.map run (pieces none (s.tree.mirror g))) = _
  rw [pieces_mir R.anti v, List.map_reverse, List.map_map]
  simp only [Except.map, List.map_map]
  congr 2
  exact List.map_congr_left fun i _ => mir_run R i

end Selection
end NI
