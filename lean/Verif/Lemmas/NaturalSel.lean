import Verif.Lemmas.NaturalTree

/-! # The functions of `Interval` and `Selection` commute with renamings of the values -/

set_option linter.unusedSimpArgs false
set_option linter.unusedVariables false
set_option linter.unusedSectionVars false

namespace NI
variable {α β : Type} [LinearOrder α] [LinearOrder β] [Finite α] [Finite β] {g : α ↪o β}

/-- An order isomorphism between lawful types is a renaming: the order settles everything else. -/
theorem Renames.of_iso [LawfulFinite α] [LawfulFinite β] (e : α ≃o β) : Renames e.toOrderEmbedding := by
  have mn : (Finite.minimum : β) = e Finite.minimum := by
    refine le_antisymm (LawfulFinite.min_le _) ?_
    have := LawfulFinite.min_le (e.symm Finite.minimum)
    rwa [e.le_symm_apply] at this
  have mx : (Finite.maximum : β) = e Finite.maximum := by
    refine le_antisymm ?_ (LawfulFinite.le_max _)
    have := LawfulFinite.le_max (e.symm Finite.maximum)
    rwa [e.symm_apply_le] at this
  refine ⟨mn, mx, fun x => ?_, fun x => ?_⟩
  · change Finite.pred (e x) = (Finite.pred x).map e
    cases h : Finite.pred x with
    | none =>
      have := (LawfulFinite.pred_none x).1 h
      subst this
      exact (LawfulFinite.pred_none _).2 mn.symm
    | some y =>
      obtain ⟨h1, h2⟩ := LawfulFinite.pred_some x y h
      cases h' : Finite.pred (e x) with
      | none =>
        have := (LawfulFinite.pred_none _).1 h'
        rw [mn, e.apply_eq_iff_eq] at this
        rw [(LawfulFinite.pred_none x).2 this] at h
        exact absurd h (by simp)
      | some z =>
        obtain ⟨h3, h4⟩ := LawfulFinite.pred_some _ z h'
        refine congrArg some (le_antisymm ?_ (h4 _ (e.lt_iff_lt.2 h1)))
        rw [← e.symm_apply_le]
        exact h2 _ (by rwa [e.symm_apply_lt])
  · change Finite.succ (e x) = (Finite.succ x).map e
    cases h : Finite.succ x with
    | none =>
      have := (LawfulFinite.succ_none x).1 h
      subst this
      exact (LawfulFinite.succ_none _).2 mx.symm
    | some y =>
      obtain ⟨h1, h2⟩ := LawfulFinite.succ_some x y h
      cases h' : Finite.succ (e x) with
      | none =>
        have := (LawfulFinite.succ_none _).1 h'
        rw [mx, e.apply_eq_iff_eq] at this
        rw [(LawfulFinite.succ_none x).2 this] at h
        exact absurd h (by simp)
      | some z =>
        obtain ⟨h3, h4⟩ := LawfulFinite.succ_some _ z h'
        refine congrArg some (le_antisymm (h4 _ (e.lt_iff_lt.2 h1)) ?_)
        rw [← e.le_symm_apply]
        exact h2 _ (by rwa [e.lt_symm_apply])

namespace RawInterval
variable (R : Renames g)
include R

theorem map_normalized (i : RawInterval α) : (i.map g).normalized = i.normalized.map g := by
  cases i <;> simp only [map, normalized, R.minimum, R.maximum, R.pred, R.succ] <;> try rfl
  case opn l r => cases Finite.succ l <;> cases Finite.pred r <;> rfl
  case leftOpen l r => cases Finite.succ l <;> rfl
  case rightOpen l r => cases Finite.pred r <;> rfl
  case upTo r => cases Finite.pred r <;> rfl
  case upFrom l => cases Finite.succ l <;> rfl

theorem map_denormalized (i : RawInterval α) : (i.map g).denormalized = i.denormalized.map g := by
  cases i <;> simp only [map, denormalized, R.pred, R.succ] <;> try rfl
  case point p => cases Finite.pred p <;> cases Finite.succ p <;> rfl
  case leftOpen l r => cases Finite.succ r <;> rfl
  case rightOpen l r => cases Finite.pred l <;> rfl
  case closed l r => cases Finite.pred l <;> cases Finite.succ r <;> rfl
  case «to» r => cases Finite.pred r <;> rfl
  case frm l => cases Finite.succ l <;> rfl

end RawInterval

namespace Interval
variable (R : Renames g)
include R

theorem map_ofRaw (r : RawInterval α) : ofRaw (r.map g) = (ofRaw r).map g := by
  rw [ofRaw, RawInterval.map_normalized R]; rfl

theorem map_new (a b : Bound α) : new (a.map g) (b.map g) = (new a b).map g := by
  rw [new, RawInterval.map_new, RawInterval.map_normalized R]; rfl

theorem map_list (rs : List (RawInterval α)) : (rs.map (RawInterval.map g)).map (fun r => (⟨r.normalized⟩ : Interval β)) =
    (rs.map fun r => (⟨r.normalized⟩ : Interval α)).map (map g) := by
  rw [List.map_map, List.map_map]
  exact List.map_congr_left fun r _ => by simp [map, RawInterval.map_normalized R]

theorem map_complement (i : Interval α) : (i.map g).complement = i.complement.map (map g) := by
  rw [complement, map, RawInterval.map_complement]
  unfold complement
  rw [List.map_map, List.map_map]
  exact List.map_congr_left fun r _ => by
    simp [RawInterval.map_normalized R, map_ofRaw R, map]

theorem map_closure (i : Interval α) : (i.map g).closure = i.closure.map g := by
  rw [closure, map, RawInterval.map_closure, RawInterval.map_normalized R, map_ofRaw R]; rfl

theorem map_intersect (a b : Interval α) : (a.map g).intersect (b.map g) = (a.intersect b).map g := by
  rw [intersect, map, map, RawInterval.map_intersect, RawInterval.map_normalized R, map_ofRaw R]; rfl

theorem map_enclose (a b : Interval α) : (a.map g).enclose (b.map g) = (a.enclose b).map g := by
  rw [enclose, map, map, RawInterval.map_enclose, RawInterval.map_normalized R, map_ofRaw R]; rfl

theorem map_union (a b : Interval α) : (a.map g).union (b.map g) = (a.union b).map (map g) := by
  rw [union, map, map, RawInterval.map_union, map_list R]; rfl

theorem map_minus (a b : Interval α) : (a.map g).minus (b.map g) = (a.minus b).map (map g) := by
  rw [minus, map, map, RawInterval.map_minus, map_list R]; rfl

theorem map_point (p : α) : ofPoint (g p) = (ofPoint p).map g := rfl

theorem map_next (i : Interval α) :
    (i.map g).next = i.next.map fun x => (x.1.map g, x.2.map g) := by
  unfold next
  have h : (i.map g).lowerBound = i.lowerBound.map (Bound.map · g) := RawInterval.map_lowerBound g i.raw
  rw [h]
  rcases i.lowerBound with _ | (b | b | _)
  · rfl
  · simp only [Option.map_some, Bound.map, map_point R, map_minus R, Except.map, List.head?_map]
    cases (i.minus (ofPoint b)).head? <;> rfl
  · rfl
  · rfl

theorem map_nextBack (i : Interval α) :
    (i.map g).nextBack = i.nextBack.map fun x => (x.1.map g, x.2.map g) := by
  unfold nextBack
  have h : (i.map g).upperBound = i.upperBound.map (Bound.map · g) := RawInterval.map_upperBound g i.raw
  rw [h]
  rcases i.upperBound with _ | (b | b | _)
  · rfl
  · simp only [Option.map_some, Bound.map, map_point R, map_minus R, Except.map, List.head?_map]
    cases (i.minus (ofPoint b)).head? <;> rfl
  · rfl
  · rfl

end Interval

namespace Selection

/-- The wrapping of a tree operation in a selection operation. -/
theorem wrap {x : Except Panic (TineTree α)} {x' : Except Panic (TineTree β)} (h : x' = x.map (TineTree.map g)) :
    (x'.bind fun t => .ok (⟨t⟩ : Selection β)) = (x.bind fun t => .ok (⟨t⟩ : Selection α)).map (map g) :=
  bind_step (TineTree.map g) h fun _ => rfl

theorem map_complement (dbg : Bool) (s : Selection α) : (s.map g).complement dbg = (s.complement dbg).map (map g) :=
  wrap (TineTree.map_complement g dbg s.tree)
theorem map_union (dbg : Bool) (a b : Selection α) :
    (a.map g).union dbg (b.map g) = (a.union dbg b).map (map g) := wrap (TineTree.map_union g dbg a.tree b.tree)
theorem map_minus (dbg : Bool) (a b : Selection α) :
    (a.map g).minus dbg (b.map g) = (a.minus dbg b).map (map g) := wrap (TineTree.map_minus g dbg a.tree b.tree)
theorem map_intersect (dbg : Bool) (a b : Selection α) :
    (a.map g).intersect dbg (b.map g) = (a.intersect dbg b).map (map g) :=
  wrap (TineTree.map_intersect g dbg a.tree b.tree)
theorem map_intersects (dbg : Bool) (a b : Selection α) : (a.map g).intersects dbg (b.map g) = a.intersects dbg b := by
  change (TineTree.intersect dbg (a.tree.map g) (b.tree.map g)).bind _ = (TineTree.intersect dbg a.tree b.tree).bind _
  rw [TineTree.map_intersect, except_bind_map]
  exact except_bind_congr fun t => by rw [TineTree.map_isEmpty]
theorem map_contains (dbg : Bool) (s : Selection α) (x : α) : (s.map g).contains dbg (g x) = s.contains dbg x :=
  TineTree.map_contains g dbg s.tree x

variable (R : Renames g)
include R

theorem map_ofInterval (i : Interval α) : ofInterval (i.map g) = (ofInterval i).map g := by
  rw [ofInterval, Interval.map, RawInterval.map_denormalized R, TineTree.map_fromRaw]; rfl

theorem map_full : (full : Selection β) = (full : Selection α).map g := by
  have : (Interval.full : Interval β) = (Interval.full : Interval α).map g :=
    Interval.map_ofRaw R RawInterval.full
  rw [full, this, map_ofInterval R]; rfl

theorem map_unionInPlace (dbg : Bool) (s : Selection α) (i : Interval α) :
    (s.map g).unionInPlace dbg (i.map g) = (s.unionInPlace dbg i).map (map g) :=
  wrap (by rw [Interval.map, RawInterval.map_denormalized R]; exact TineTree.map_unionInPlace g dbg s.tree _)
theorem map_minusInPlace (dbg : Bool) (s : Selection α) (i : Interval α) :
    (s.map g).minusInPlace dbg (i.map g) = (s.minusInPlace dbg i).map (map g) :=
  wrap (by rw [Interval.map, RawInterval.map_denormalized R]; exact TineTree.map_minusInPlace g dbg s.tree _)
theorem map_intersectInPlace (dbg : Bool) (s : Selection α) (i : Interval α) :
    (s.map g).intersectInPlace dbg (i.map g) = (s.intersectInPlace dbg i).map (map g) :=
  wrap (by rw [Interval.map, RawInterval.map_denormalized R]; exact TineTree.map_intersectInPlace g dbg s.tree _)

theorem map_extend (dbg : Bool) (is : List (Interval α)) : ∀ s : Selection α,
    (s.map g).extend dbg (is.map (Interval.map g)) = (s.extend dbg is).map (map g) := by
  induction is with
  | nil => intro s; rfl
  | cons i is ih =>
    intro s
    exact bind_step (map g) (map_unionInPlace R dbg s i) ih

theorem map_fromIntervals (dbg : Bool) (is : List (Interval α)) :
    fromIntervals dbg (is.map (Interval.map g)) = (fromIntervals dbg is).map (map g) := map_extend R dbg is new

theorem map_fromPoints (dbg : Bool) (xs : List α) :
    fromPoints dbg (xs.map g) = (fromPoints dbg xs).map (map g) := by
  have : ∀ (xs : List α), fromPoints dbg xs = fromIntervals dbg (xs.map Interval.point) := by
    intro xs; simp only [fromPoints, fromIntervals, List.foldlM_map]
  have this' : ∀ (xs : List β), fromPoints dbg xs = fromIntervals dbg (xs.map Interval.point) := by
    intro xs; simp only [fromPoints, fromIntervals, List.foldlM_map]
  rw [this, this', ← map_fromIntervals R, List.map_map, List.map_map]
  rfl

theorem map_enclose (dbg : Bool) (s : Selection α) :
    (s.map g).enclose dbg = (s.enclose dbg).map (Interval.map g) :=
  bind_step (RawInterval.map g) (TineTree.map_enclose g dbg s.tree) fun i => by
    rw [RawInterval.map_normalized R]; rfl
theorem map_closure (dbg : Bool) (s : Selection α) :
    (s.map g).closure dbg = (s.closure dbg).map (Interval.map g) :=
  bind_step (RawInterval.map g) (TineTree.map_closure g dbg s.tree) fun i => by
    rw [RawInterval.map_normalized R]; rfl

/-- What the interval iterator gives, with other values in the same places. -/
def rename (g : α → β) (x : Option (Interval α) × TineIter α) : Option (Interval β) × TineIter β :=
  (x.1.map (Interval.map g), x.2.map g)

theorem map_intervalNext (dbg : Bool) (it : TineIter α) :
    intervalNext dbg (it.map g) = (intervalNext dbg it).map (rename g) :=
  bind_step (TineIter.item? g) (TineIter.map_next g dbg it) fun x => by
    obtain ⟨_ | i, it'⟩ := x
    · rfl
    · simp only [TineIter.item?, rename, Except.map, Option.map_some, RawInterval.map_normalized R, Interval.map_ofRaw R]

theorem map_intervalNextBack (dbg : Bool) (it : TineIter α) :
    intervalNextBack dbg (it.map g) = (intervalNextBack dbg it).map (rename g) :=
  bind_step (TineIter.item? g) (TineIter.map_nextBack g dbg it) fun x => by
    obtain ⟨_ | i, it'⟩ := x
    · rfl
    · simp only [TineIter.item?, rename, Except.map, Option.map_some, RawInterval.map_normalized R, Interval.map_ofRaw R]

theorem map_intervalsAux (dbg : Bool) : ∀ (n : Nat) (it : TineIter α) (acc : List (Interval α)),
    intervalsAux dbg n (it.map g) (acc.map (Interval.map g)) =
      (intervalsAux dbg n it acc).map (List.map (Interval.map g)) := by
  intro n
  induction n with
  | zero => intro it acc; rfl
  | succ n ih =>
    intro it acc
    refine bind_step (rename g) (map_intervalNext R dbg it) fun x => ?_
    obtain ⟨_ | i, it'⟩ := x
    · rfl
    · have := ih it' (acc ++ [i])
      rw [List.map_append] at this
      exact this

theorem map_intervalsBackAux (dbg : Bool) : ∀ (n : Nat) (it : TineIter α) (acc : List (Interval α)),
    intervalsBackAux dbg n (it.map g) (acc.map (Interval.map g)) =
      (intervalsBackAux dbg n it acc).map (List.map (Interval.map g)) := by
  intro n
  induction n with
  | zero => intro it acc; rfl
  | succ n ih =>
    intro it acc
    refine bind_step (rename g) (map_intervalNextBack R dbg it) fun x => ?_
    obtain ⟨_ | i, it'⟩ := x
    · rfl
    · have := ih it' (acc ++ [i])
      rw [List.map_append] at this
      exact this

theorem map_intervals (dbg : Bool) (s : Selection α) :
    (s.map g).intervals dbg = (s.intervals dbg).map (List.map (Interval.map g)) := by
  have := map_intervalsAux R dbg (TineIter.start s.tree).size (TineIter.start s.tree) []
  rw [← TineIter.map_size g] at this
  exact this.trans (by rw [TineIter.map_size]; rfl)

theorem map_intervalsBack (dbg : Bool) (s : Selection α) :
    (s.map g).intervalsBack dbg = (s.intervalsBack dbg).map (List.map (Interval.map g)) := by
  have := map_intervalsBackAux R dbg (TineIter.start s.tree).size (TineIter.start s.tree) []
  rw [← TineIter.map_size g] at this
  exact this.trans (by rw [TineIter.map_size]; rfl)

theorem map_lowerBound (dbg : Bool) (s : Selection α) :
    (s.map g).lowerBound dbg = (s.lowerBound dbg).map (Option.map (Bound.map · g)) :=
  bind_step (rename g) (map_intervalNext R dbg (TineIter.start s.tree)) fun x => by
    obtain ⟨_ | i, it'⟩ := x
    · rfl
    · exact congrArg Except.ok (RawInterval.map_lowerBound g i.raw)

theorem map_upperBound (dbg : Bool) (s : Selection α) :
    (s.map g).upperBound dbg = (s.upperBound dbg).map (Option.map (Bound.map · g)) :=
  bind_step (rename g) (map_intervalNextBack R dbg (TineIter.start s.tree)) fun x => by
    obtain ⟨_ | i, it'⟩ := x
    · rfl
    · exact congrArg Except.ok (RawInterval.map_upperBound g i.raw)

end Selection

namespace PointIter
variable (R : Renames g)
include R

theorem map_next (dbg : Bool) (it : PointIter α) :
    (it.map g).next dbg = (it.next dbg).map fun x => (x.1.map g, x.2.map g) := by
  refine bind_step (fun x : Option α × Interval α => (x.1.map g, x.2.map g)) (Interval.map_next R it.current) fun x => ?_
  obtain ⟨_ | v, cur⟩ := x
  · refine bind_step (Selection.rename g) (Selection.map_intervalNext R dbg it.intervals) fun y => ?_
    obtain ⟨_ | i, is⟩ := y
    · rfl
    · exact bind_step (fun x : Option α × Interval α => (x.1.map g, x.2.map g)) (Interval.map_next R i) fun z => rfl
  · rfl

theorem map_nextBack (dbg : Bool) (it : PointIter α) :
    (it.map g).nextBack dbg = (it.nextBack dbg).map fun x => (x.1.map g, x.2.map g) := by
  refine bind_step (fun x : Option α × Interval α => (x.1.map g, x.2.map g)) (Interval.map_nextBack R it.current) fun x => ?_
  obtain ⟨_ | v, cur⟩ := x
  · refine bind_step (Selection.rename g) (Selection.map_intervalNextBack R dbg it.intervals) fun y => ?_
    obtain ⟨_ | i, is⟩ := y
    · rfl
    · exact bind_step (fun x : Option α × Interval α => (x.1.map g, x.2.map g)) (Interval.map_nextBack R i) fun z => rfl
  · rfl

end PointIter
end NI
