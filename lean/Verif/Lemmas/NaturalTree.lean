import Verif.Lemmas.Natural

/-! # The functions of `TineTree` commute with order embeddings -/

set_option linter.unusedSimpArgs false
set_option linter.unusedVariables false
set_option linter.unusedSectionVars false

namespace NI
variable {α β : Type _} [LinearOrder α] [LinearOrder β] (g : α ↪o β)

theorem except_map_ok {ε γ δ : Type _} (F : γ → δ) (x : γ) : (Except.ok x : Except ε γ).map F = .ok (F x) := rfl
theorem except_map_error {ε γ δ : Type _} (F : γ → δ) (e : ε) : (Except.error e : Except ε γ).map F = .error e := rfl
theorem except_map_bind {ε γ δ η : Type _} (F : δ → η) (x : Except ε γ) (k : γ → Except ε δ) :
    (x.bind k).map F = x.bind fun a => (k a).map F := by cases x <;> rfl
theorem except_bind_map {ε γ δ η : Type _} (F : γ → δ) (x : Except ε γ) (k : δ → Except ε η) :
    (x.map F).bind k = x.bind fun a => k (F a) := by cases x <;> rfl
theorem except_bind_congr {ε γ δ : Type _} {x : Except ε γ} {k k' : γ → Except ε δ} (h : ∀ a, k a = k' a) :
    x.bind k = x.bind k' := by cases x <;> simp [Except.bind, h]

theorem bind_step {ε γ γ' δ δ' : Type _} (F : γ → γ') {G : δ → δ'} {x : Except ε γ} {x' : Except ε γ'}
    {k : γ → Except ε δ} {k' : γ' → Except ε δ'} (hx : x' = x.map F) (h : ∀ a, k' (F a) = (k a).map G) :
    x'.bind k' = (x.bind k).map G := by
  subst hx
  cases x with
  | error e => rfl
  | ok a => exact h a

namespace TineIter

theorem map_start (t : TineTree α) : start (t.map g) = (start t).map g := rfl
theorem map_size (it : TineIter α) : (it.map g).size = it.size := by simp [size, map]

/-- What `next` and `next_back` give, with other values in the same places. -/
def item (f : α → β) (x : RawInterval α × TineIter α) : RawInterval β × TineIter β := (x.1.map f, x.2.map f)
def item? (f : α → β) (x : Option (RawInterval α) × TineIter α) : Option (RawInterval β) × TineIter β :=
  (x.1.map (RawInterval.map f), x.2.map f)

theorem map_nextWith (dbg : Bool) (l : Tine α) (it : TineIter α) :
    nextWith dbg (l.map g) (it.map g) = (nextWith dbg l it).map (item g) := by
  have main : ∀ l : Tine α, (∀ p, l ≠ .point (.incl p)) →
      nextWith dbg (l.map g) (it.map g) = (nextWith dbg l it).map (item g) := by
    intro l hl
    have hl' : ∀ p, l.map g ≠ .point (.incl p) := by
      intro p
      rcases l with b | b | b <;> cases b <;> simp_all [Tine.map, Bound.map]
    obtain ⟨ts, sl, su⟩ := it
    have key : ∀ (γ : Type _) (m : Tine γ) [LinearOrder γ] (i : TineIter γ), (∀ p, m ≠ .point (.incl p)) → nextWith dbg m i =
        (dassert dbg m.isLowerBound).bind fun _ =>
          ((match i.tines, i.savedUpper with
            | u :: rest, _ => .ok (u, { i with tines := rest })
            | [], some u => .ok (u, { i with savedUpper := none })
            | [], none => .error .expect : Except Panic (Tine γ × TineIter γ))).bind fun x =>
          (dassert dbg x.1.isUpperBound).bind fun _ =>
          .ok (RawInterval.new m.intoInner x.1.intoInner,
            if x.1.isPointExclude then { x.2 with savedLower := some x.1 } else x.2) := by
      intro γ m _ i hm
      unfold nextWith
      split
      · rename_i p; exact absurd rfl (hm p)
      · rfl
    rw [key _ _ _ hl, key _ _ _ hl', Tine.map_isLowerBound]
    cases dassert dbg l.isLowerBound with
    | error e => rfl
    | ok _ =>
      cases ts with
      | cons u rest =>
        simp only [map, List.map_cons, Except.bind, Tine.map_isUpperBound, Tine.map_isPointExclude, Tine.map_intoInner,
          RawInterval.map_new]
        cases dassert dbg u.isUpperBound with
        | error e => rfl
        | ok _ => simp only [Except.map, item, map]; split_ifs <;> rfl
      | nil =>
        cases su with
        | none => rfl
        | some u =>
          simp only [map, List.map_nil, Option.map_some, Except.bind, Tine.map_isUpperBound, Tine.map_isPointExclude,
            Tine.map_intoInner, RawInterval.map_new]
          cases dassert dbg u.isUpperBound with
          | error e => rfl
          | ok _ => simp only [Except.map, item, map]; split_ifs <;> rfl
  rcases l with b | b | b <;> cases b
  case point.incl => rfl
  all_goals exact main _ (by simp)

theorem map_next (dbg : Bool) (it : TineIter α) : (it.map g).next dbg = (it.next dbg).map (item? g) := by
  obtain ⟨ts, sl, su⟩ := it
  cases sl with
  | some l =>
    have := map_nextWith g dbg l ⟨ts, none, su⟩
    change (nextWith dbg (l.map g) (map g ⟨ts, none, su⟩)).bind _ = Except.map _ ((nextWith dbg l ⟨ts, none, su⟩).bind _)
    rw [this]
    cases nextWith dbg l ⟨ts, none, su⟩ <;> rfl
  | none =>
    cases ts with
    | nil => rfl
    | cons l ts =>
      have := map_nextWith g dbg l ⟨ts, none, su⟩
      change (nextWith dbg (l.map g) (map g ⟨ts, none, su⟩)).bind _ = Except.map _ ((nextWith dbg l ⟨ts, none, su⟩).bind _)
      rw [this]
      cases nextWith dbg l ⟨ts, none, su⟩ <;> rfl

theorem map_nextBackWith (dbg : Bool) (l : Tine α) (it : TineIter α) :
    nextBackWith dbg (l.map g) (it.map g) = (nextBackWith dbg l it).map (item g) := by
  have main : ∀ l : Tine α, (∀ p, l ≠ .point (.incl p)) →
      nextBackWith dbg (l.map g) (it.map g) = (nextBackWith dbg l it).map (item g) := by
    intro l hl
    have hl' : ∀ p, l.map g ≠ .point (.incl p) := by
      intro p
      rcases l with b | b | b <;> cases b <;> simp_all [Tine.map, Bound.map]
    obtain ⟨ts, sl, su⟩ := it
    have key : ∀ (γ : Type _) (m : Tine γ) [LinearOrder γ] (i : TineIter γ), (∀ p, m ≠ .point (.incl p)) →
        nextBackWith dbg m i =
        (dassert dbg m.isUpperBound).bind fun _ =>
          ((match i.tines.getLast?, i.savedLower with
            | some l, _ => .ok (l, { i with tines := i.tines.dropLast })
            | none, some l => .ok (l, { i with savedLower := none })
            | none, none => .error .expect : Except Panic (Tine γ × TineIter γ))).bind fun x =>
          (dassert dbg x.1.isLowerBound).bind fun _ =>
          .ok (RawInterval.new x.1.intoInner m.intoInner,
            if x.1.isPointExclude then { x.2 with savedLower := some x.1 } else x.2) := by
      intro γ m _ i hm
      unfold nextBackWith
      split
      · rename_i p; exact absurd rfl (hm p)
      · rfl
    rw [key _ _ _ hl, key _ _ _ hl', Tine.map_isUpperBound]
    cases dassert dbg l.isUpperBound with
    | error e => rfl
    | ok _ =>
      simp only [map, List.getLast?_map, ← List.map_dropLast]
      cases ts.getLast? with
      | some u =>
        simp only [Option.map_some, Except.bind, Tine.map_isLowerBound, Tine.map_isPointExclude, Tine.map_intoInner,
          RawInterval.map_new]
        cases dassert dbg u.isLowerBound with
        | error e => rfl
        | ok _ => simp only [Except.map, item, map]; split_ifs <;> rfl
      | none =>
        cases sl with
        | none => rfl
        | some u =>
          simp only [Option.map_none, Option.map_some, Except.bind, Tine.map_isLowerBound, Tine.map_isPointExclude,
            Tine.map_intoInner, RawInterval.map_new]
          cases dassert dbg u.isLowerBound with
          | error e => rfl
          | ok _ => simp only [Except.map, item, map]; split_ifs <;> rfl
  rcases l with b | b | b <;> cases b
  case point.incl => rfl
  all_goals exact main _ (by simp)

theorem map_nextBack (dbg : Bool) (it : TineIter α) : (it.map g).nextBack dbg = (it.nextBack dbg).map (item? g) := by
  obtain ⟨ts, sl, su⟩ := it
  cases su with
  | some l =>
    have := map_nextBackWith g dbg l ⟨ts, sl, none⟩
    change (nextBackWith dbg (l.map g) (map g ⟨ts, sl, none⟩)).bind _ =
      Except.map _ ((nextBackWith dbg l ⟨ts, sl, none⟩).bind _)
    rw [this]
    cases nextBackWith dbg l ⟨ts, sl, none⟩ <;> rfl
  | none =>
    unfold nextBack
    simp only [map, List.getLast?_map, Option.map_none]
    cases ts.getLast? with
    | none => rfl
    | some l =>
      have := map_nextBackWith g dbg l ⟨ts.dropLast, sl, none⟩
      simp only [map, Option.map_none, List.map_dropLast] at this
      simp only [Option.map_some, bind]
      rw [this]
      cases nextBackWith dbg l ⟨ts.dropLast, sl, none⟩ <;> rfl

theorem map_foldAux {γ δ : Type _} (H : γ → δ) (dbg : Bool) (f : γ → RawInterval α → Except Panic γ)
    (f' : δ → RawInterval β → Except Panic δ) (h : ∀ a i, f' (H a) (i.map g) = (f a i).map H) :
    ∀ (n : Nat) (it : TineIter α) (acc : γ),
      foldAux dbg f' n (it.map g) (H acc) = (foldAux dbg f n it acc).map H := by
  intro n
  induction n with
  | zero => intro it acc; rfl
  | succ n ih =>
    intro it acc
    simp only [foldAux, bind, map_next]
    cases it.next dbg with
    | error e => rfl
    | ok x =>
      obtain ⟨i, it'⟩ := x
      cases i with
      | none => rfl
      | some i =>
        simp only [Except.map, item?, Option.map_some, Except.bind, h]
        cases f acc i with
        | error e => rfl
        | ok a => exact ih it' a

theorem map_fold {γ δ : Type _} (H : γ → δ) (dbg : Bool) (f : γ → RawInterval α → Except Panic γ)
    (f' : δ → RawInterval β → Except Panic δ) (h : ∀ a i, f' (H a) (i.map g) = (f a i).map H)
    (it : TineIter α) (acc : γ) : fold dbg f' (it.map g) (H acc) = (fold dbg f it acc).map H := by
  rw [fold, map_size]; exact map_foldAux g H dbg f f' h _ it acc

theorem map_collectBackAux (dbg : Bool) : ∀ (n : Nat) (it : TineIter α) (acc : List (RawInterval α)),
    collectBackAux dbg n (it.map g) (acc.map (RawInterval.map g)) =
      (collectBackAux dbg n it acc).map (List.map (RawInterval.map g)) := by
  intro n
  induction n with
  | zero => intro it acc; rfl
  | succ n ih =>
    intro it acc
    simp only [collectBackAux, bind, map_nextBack]
    cases it.nextBack dbg with
    | error e => rfl
    | ok x =>
      obtain ⟨i, it'⟩ := x
      cases i with
      | none => rfl
      | some i =>
        have := ih it' (acc ++ [i])
        simpa [Except.map, item?, Except.bind] using this

theorem map_anyContains (dbg : Bool) (x : α) : ∀ (n : Nat) (it : TineIter α),
    anyContains dbg (g x) n (it.map g) = anyContains dbg x n it := by
  intro n
  induction n with
  | zero => intro it; rfl
  | succ n ih =>
    intro it
    simp only [anyContains, bind, map_next]
    cases it.next dbg with
    | error e => rfl
    | ok y =>
      obtain ⟨i, it'⟩ := y
      cases i with
      | none => rfl
      | some i =>
        simp only [Except.map, item?, Option.map_some, Except.bind, RawInterval.map_contains, ih]

end TineIter

namespace TineTree

theorem map_intervals (dbg : Bool) (t : TineTree α) :
    intervals dbg (t.map g) = (intervals dbg t).map (List.map (RawInterval.map g)) := by
  unfold intervals TineIter.collect
  rw [TineIter.map_start]
  exact TineIter.map_fold g (List.map (RawInterval.map g)) dbg _ _ (fun a i => by simp [Except.map]) _ []

theorem map_intervalsBack (dbg : Bool) (t : TineTree α) :
    intervalsBack dbg (t.map g) = (intervalsBack dbg t).map (List.map (RawInterval.map g)) := by
  unfold intervalsBack TineIter.collectBack
  rw [TineIter.map_start, TineIter.map_size]
  exact TineIter.map_collectBackAux g dbg _ _ []

theorem map_contains (dbg : Bool) (t : TineTree α) (x : α) : contains dbg (t.map g) (g x) = contains dbg t x := by
  unfold contains
  rw [TineIter.map_start, TineIter.map_size]
  exact TineIter.map_anyContains g dbg x _ _

theorem map_fromRaw (i : RawInterval α) : fromRawInterval (i.map g) = (fromRawInterval i).map g := by
  rw [fromRawInterval, Tine.map_fromRaw, BSet.map_ofTines]; rfl

theorem map_lowerBound (t : TineTree α) : (t.map g).lowerBound = t.lowerBound.map (Bound.map · g) := by
  cases t with
  | nil => rfl
  | cons x t => simp [lowerBound, map]

theorem map_upperBound (t : TineTree α) : (t.map g).upperBound = t.upperBound.map (Bound.map · g) := by
  unfold upperBound map
  rw [List.getLast?_map]
  cases t.getLast? <;> simp

theorem map_isEmpty (t : TineTree α) : (t.map g).isEmpty = t.isEmpty := by cases t <;> rfl

theorem tine_map_inj : Function.Injective (Tine.map g) := by
  intro a b h
  rcases a with a | a | a <;> rcases b with b | b | b <;> cases a <;> cases b <;>
    simp_all [Tine.map, Bound.map]

theorem map_isFull (t : TineTree α) : (t.map g).isFull = t.isFull := by
  unfold isFull
  have : ([Tine.lower .inf, Tine.upper .inf] : List (Tine β)) =
    ([Tine.lower .inf, Tine.upper .inf] : List (Tine α)).map (Tine.map g) := rfl
  rw [this]
  unfold map
  simp only [List.map_inj_right (fun x y h => tine_map_inj g h)]

theorem map_complementRest (ts : List (Tine α)) : ∀ c : TineTree α,
    complementRest (ts.map (Tine.map g)) (c.map g) = (complementRest ts c).map (map g) := by
  induction ts with
  | nil => intro c; rfl
  | cons t ts ih =>
    intro c
    simp only [List.map_cons, complementRest, bind, Tine.map_invert]
    cases t.invert with
    | error e => rfl
    | ok t' =>
      simp only [Except.map, Except.bind]
      have := ih (BSet.insert t' c)
      rw [map, ← BSet.map_insert] at this
      exact this

theorem map_complement (dbg : Bool) (t : TineTree α) :
    complement dbg (t.map g) = (complement dbg t).map (map g) := by
  match t with
  | [] => rfl
  | [tine] =>
    change ((tine.map g).invert).bind _ = Except.map _ (tine.invert.bind _)
    rw [Tine.map_invert]
    cases tine.invert with
    | error e => rfl
    | ok x =>
      simp only [Except.map, Except.bind, bind, Tine.map_isPointExclude]
      cases dassert dbg x.isPointExclude with
      | error e => rfl
      | ok _ =>
        simp only [map, ← BSet.map_insert]
        rfl
  | first :: second :: rest =>
    have hl : ((second :: rest).map (Tine.map g)).getLast? = (second :: rest).getLast?.map (Tine.map g) :=
      List.getLast?_map
    have hd : ((second :: rest).map (Tine.map g)).dropLast = (second :: rest).dropLast.map (Tine.map g) :=
      List.map_dropLast.symm
    have h1 : (match first.map g with
      | .lower .inf => .ok new
      | tine => do .ok (BSet.insert (← tine.invert) (BSet.insert (.lower .inf) new)) : Except Panic (TineTree β)) =
      (match first with
      | .lower .inf => .ok new
      | tine => do .ok (BSet.insert (← tine.invert) (BSet.insert (.lower .inf) new)) :
        Except Panic (TineTree α)).map (map g) := by
      rcases first with b | b | b <;> cases b <;> rfl
    have h2 : ∀ c : TineTree α, (match (second :: rest).getLast?.map (Tine.map g) with
      | some (.upper .inf) => .ok (c.map g)
      | some tine => do .ok (BSet.insert (← tine.invert) (BSet.insert (.upper .inf) (c.map g)))
      | none => .error .unreachable : Except Panic (TineTree β)) =
      (match (second :: rest).getLast? with
      | some (.upper .inf) => .ok c
      | some tine => do .ok (BSet.insert (← tine.invert) (BSet.insert (.upper .inf) c))
      | none => .error .unreachable : Except Panic (TineTree α)).map (map g) := by
      intro c
      have hu : (Tine.upper (.inf : Bound β)) = (Tine.upper .inf).map g := rfl
      cases (second :: rest).getLast? with
      | none => rfl
      | some x =>
        rcases x with b | b | b <;> cases b <;> try rfl
        all_goals simp only [Option.map_some, Tine.map, Bound.map, Tine.invert, bind, Except.bind, Except.map, map,
          ← BSet.map_insert]
    refine bind_step (map g) h1 fun c => bind_step (map g) ?_ fun c => ?_
    · have := h2 c
      rw [← hl] at this
      exact this
    · have := map_complementRest g (second :: rest).dropLast c
      rw [← hd] at this
      exact this

theorem map_enclose (dbg : Bool) (t : TineTree α) :
    enclose dbg (t.map g) = (enclose dbg t).map (RawInterval.map g) := by
  match t with
  | [] => rfl
  | [tine] =>
    refine bind_step id ?_ fun _ => ?_
    · rw [Tine.map_isPointInclude]; cases dassert dbg tine.isPointInclude <;> rfl
    · rw [Tine.map_asRef]; cases tine.asRef <;> rfl
  | first :: second :: rest =>
    have hl : ((second :: rest).map (Tine.map g)).getLast? = (second :: rest).getLast?.map (Tine.map g) :=
      List.getLast?_map
    change (match ((second :: rest).map (Tine.map g)).getLast? with
      | some last => .ok (RawInterval.new (first.map g).intoInner last.intoInner)
      | none => .error .expect) = Except.map _ (match (second :: rest).getLast? with
      | some last => .ok (RawInterval.new first.intoInner last.intoInner)
      | none => .error .expect)
    rw [hl]
    cases (second :: rest).getLast? with
    | none => rfl
    | some last => simp [Except.map, RawInterval.map_new]

theorem map_closure (dbg : Bool) (t : TineTree α) :
    closure dbg (t.map g) = (closure dbg t).map (RawInterval.map g) := by
  change (enclose dbg (t.map g)).bind _ = Except.map _ ((enclose dbg t).bind _)
  rw [map_enclose, except_bind_map, except_map_bind]
  exact except_bind_congr fun a => by simp [Except.map, RawInterval.map_closure]

theorem map_exteriorSplitPoint (t : TineTree α) (p : Tine α) :
    exteriorSplitPoint (t.map g) (p.map g) =
      (((exteriorSplitPoint t p).1.1.map (Tine.map g), (exteriorSplitPoint t p).1.2.1.map (Tine.map g),
        (exteriorSplitPoint t p).1.2.2.map (Tine.map g)), (exteriorSplitPoint t p).2.map g) := by
  simp only [exteriorSplitPoint, map, BSet.map_taken, BSet.map_remove, BSet.map_above, BSet.map_below,
    List.getLast?_map, List.head?_map, BSet.append, List.map_append]

theorem map_exteriorSplit (t : TineTree α) (l u : Tine α) :
    exteriorSplit (t.map g) (l.map g) (u.map g) =
      (((exteriorSplit t l u).1.1.map (Tine.map g), (exteriorSplit t l u).1.2.1.map (Tine.map g),
        (exteriorSplit t l u).1.2.2.1.map (Tine.map g), (exteriorSplit t l u).1.2.2.2.map (Tine.map g)),
        (exteriorSplit t l u).2.map g) := by
  simp only [exteriorSplit, map, BSet.map_taken, BSet.map_remove, BSet.map_above, BSet.map_below,
    List.getLast?_map, List.head?_map, BSet.append, List.map_append]

@[simp] theorem map_someAnd_lower (o : Option (Tine α)) :
    someAnd (o.map (Tine.map g)) Tine.isLowerBound = someAnd o Tine.isLowerBound := by cases o <;> simp [someAnd]
@[simp] theorem map_someAnd_upper (o : Option (Tine α)) :
    someAnd (o.map (Tine.map g)) Tine.isUpperBound = someAnd o Tine.isUpperBound := by cases o <;> simp [someAnd]
@[simp] theorem map_noneOr_lower (o : Option (Tine α)) :
    noneOr (o.map (Tine.map g)) Tine.isLowerBound = noneOr o Tine.isLowerBound := by cases o <;> simp [noneOr]
@[simp] theorem map_noneOr_upper (o : Option (Tine α)) :
    noneOr (o.map (Tine.map g)) Tine.isUpperBound = noneOr o Tine.isUpperBound := by cases o <;> simp [noneOr]

theorem map_insert (x : Tine α) (t : TineTree α) : BSet.insert (x.map g) (t.map g) = map g (BSet.insert x t) :=
  BSet.map_insert g x t

theorem map_insertIf (c : Bool) (x : Tine α) (t : TineTree α) :
    insertIf c (x.map g) (t.map g) = map g (insertIf c x t) := by
  cases c
  · rfl
  · exact BSet.map_insert g x t

theorem map_orInvert (c : Bool) (x : Tine α) : orInvert c (x.map g) = (orInvert c x).map (Tine.map g) := by
  cases c
  · exact Tine.map_invert g x
  · rfl

theorem map_unionPoint (dbg : Bool) (t : TineTree α) (p : Tine α) :
    unionPoint dbg (t.map g) (p.map g) = (unionPoint dbg t p).map (map g) := by
  unfold unionPoint
  rw [map_exteriorSplitPoint]
  obtain ⟨⟨t0, t1, t2⟩, t⟩ := exteriorSplitPoint t p
  simp only [bind]
  refine bind_step (Option.map (Tine.map g)) (by cases t1; exacts [rfl, Tine.map_union g dbg _ _]) fun m => ?_
  cases m with
  | none => rfl
  | some p =>
    simp only [Option.map_some, map_someAnd_lower, map_someAnd_upper, Tine.map_isLowerBound, Tine.map_isUpperBound,
      map_insert]
    cases someAnd t0 Tine.isLowerBound <;> cases someAnd t2 Tine.isUpperBound <;> simp only [] <;> try rfl
    all_goals
      rw [except_map_bind]
      rfl

theorem map_unionProper (dbg : Bool) (t : TineTree α) (l u : Tine α) :
    unionProper dbg (t.map g) (l.map g) (u.map g) = (unionProper dbg t l u).map (map g) := by
  unfold unionProper
  rw [map_exteriorSplit]
  obtain ⟨⟨t0, t1, t2, t3⟩, t⟩ := exteriorSplit t l u
  simp only [bind]
  refine bind_step (Option.map (Tine.map g)) (by cases t1; exacts [rfl, Tine.map_union g dbg _ _]) fun ml => ?_
  refine bind_step (Option.map (Tine.map g)) (by cases t2; exacts [rfl, Tine.map_union g dbg _ _]) fun mu => ?_
  simp only [map_noneOr_lower, map_noneOr_upper]
  rw [except_map_bind]
  refine except_bind_congr fun _ => ?_
  rw [except_map_bind]
  refine except_bind_congr fun _ => ?_
  cases ml <;> cases mu <;>
    simp only [Option.map_some, Option.map_none, map_someAnd_lower, map_someAnd_upper, Tine.map_isLowerBound,
      Tine.map_isUpperBound, Tine.map_isPointExclude, map_insert, map_insertIf] <;>
    cases someAnd t0 Tine.isLowerBound <;> cases someAnd t3 Tine.isUpperBound <;>
    simp only [except_map_bind, except_map_ok, except_bind_map, Tine.map_isLowerBound,
        Tine.map_isUpperBound, Tine.map_isPointExclude, Tine.map_isPointInclude, Tine.map_invert, map_insert, map_insertIf,
        map_orInvert] <;> rfl

theorem map_unionInPlace (dbg : Bool) (t : TineTree α) (i : RawInterval α) :
    unionInPlace dbg (t.map g) (i.map g) = (unionInPlace dbg t i).map (map g) := by
  unfold unionInPlace
  rw [RawInterval.map_isFull, Tine.map_fromRaw]
  split_ifs
  · rfl
  · rcases Tine.fromRawInterval i with _ | ⟨a, _ | ⟨b, _ | ⟨c, ts⟩⟩⟩
    · rfl
    · exact map_unionPoint g dbg t a
    · exact map_unionProper g dbg t a b
    · rfl

theorem map_minusPoint (dbg : Bool) (t : TineTree α) (p : Tine α) :
    minusPoint dbg (t.map g) (p.map g) = (minusPoint dbg t p).map (map g) := by
  unfold minusPoint
  rw [map_exteriorSplitPoint]
  obtain ⟨⟨t0, t1, t2⟩, t⟩ := exteriorSplitPoint t p
  simp only [bind]
  refine bind_step (Option.map (Tine.map g)) (by cases t1; exacts [rfl, Tine.map_minus g dbg _ _]) fun m => ?_
  cases m with
  | none => rfl
  | some p =>
    simp only [Option.map_some, map_someAnd_lower, map_someAnd_upper, Tine.map_isLowerBound, Tine.map_isUpperBound,
      Tine.map_invert, except_bind_map, map_insert]
    cases someAnd t0 Tine.isLowerBound <;> cases someAnd t2 Tine.isUpperBound <;>
      simp only [except_map_bind, except_map_ok, except_bind_map, Tine.map_isLowerBound,
        Tine.map_isUpperBound, Tine.map_isPointExclude, Tine.map_isPointInclude, Tine.map_invert, map_insert, map_insertIf,
        map_orInvert]

theorem map_minusProper (dbg : Bool) (t : TineTree α) (l u : Tine α) :
    minusProper dbg (t.map g) (l.map g) (u.map g) = (minusProper dbg t l u).map (map g) := by
  unfold minusProper
  rw [map_exteriorSplit]
  obtain ⟨⟨t0, t1, t2, t3⟩, t⟩ := exteriorSplit t l u
  simp only [bind]
  refine bind_step (Option.map (Tine.map g)) (by cases t1; exacts [rfl, Tine.map_minus g dbg _ _]) fun ml => ?_
  refine bind_step (Option.map (Tine.map g)) (by cases t2; exacts [rfl, Tine.map_minus g dbg _ _]) fun mu => ?_
  have pt : ∀ (o : Option (Tine α)) (t : TineTree α), (match o.map (Tine.map g) with
      | some (.point (.incl p)) => .ok (BSet.insert (.point (.incl p)) (t.map g))
      | _ => .ok (t.map g) : Except Panic (TineTree β)) =
      (match o with
      | some (.point (.incl p)) => .ok (BSet.insert (.point (.incl p)) t)
      | _ => .ok t : Except Panic (TineTree α)).map (map g) := by
    intro o t
    rcases o with _ | (b | b | b)
    · rfl
    all_goals cases b <;> try rfl
    exact congrArg Except.ok (map_insert g (.point (.incl _)) t)
  cases ml with
  | none =>
    cases mu with
    | none => 
      simp only [Option.map_none, map_someAnd_lower, map_someAnd_upper]
      cases someAnd t0 Tine.isLowerBound <;> cases someAnd t3 Tine.isUpperBound <;> rfl
    | some u =>
      simp only [Option.map_some, Option.map_none, map_someAnd_lower, map_someAnd_upper, Tine.map_isLowerBound,
        Tine.map_isUpperBound, Tine.map_isPointInclude, map_insert, map_insertIf, map_orInvert, except_bind_map]
      cases someAnd t0 Tine.isLowerBound <;> cases someAnd t3 Tine.isUpperBound <;>
        simp only [except_map_bind, except_map_ok, except_bind_map, Tine.map_isLowerBound,
        Tine.map_isUpperBound, Tine.map_isPointExclude, Tine.map_isPointInclude, Tine.map_invert, map_insert, map_insertIf,
        map_orInvert] <;> rfl
  | some l =>
    cases mu with
    | none =>
      simp only [Option.map_some, Option.map_none, map_someAnd_lower, map_someAnd_upper, Tine.map_isLowerBound,
        Tine.map_isUpperBound, Tine.map_isPointInclude, map_insert, map_insertIf, map_orInvert, except_bind_map]
      cases someAnd t0 Tine.isLowerBound <;> cases someAnd t3 Tine.isUpperBound <;>
        simp only [except_map_bind, except_map_ok, except_bind_map, Tine.map_isLowerBound,
        Tine.map_isUpperBound, Tine.map_isPointExclude, Tine.map_isPointInclude, Tine.map_invert, map_insert, map_insertIf,
        map_orInvert] <;> rfl
    | some u =>
      have pl := pt (some l)
      have pu := pt (some u)
      simp only [Option.map_some] at pl pu
      simp only [Option.map_some, Option.map_none, map_someAnd_lower, map_someAnd_upper, Tine.map_isLowerBound,
        Tine.map_isUpperBound, Tine.map_isPointInclude, map_insert, map_insertIf, map_orInvert, except_bind_map]
      cases someAnd t0 Tine.isLowerBound <;> cases someAnd t3 Tine.isUpperBound <;>
        simp only [except_map_bind, except_map_ok, except_bind_map, Tine.map_isLowerBound,
        Tine.map_isUpperBound, Tine.map_isPointExclude, Tine.map_isPointInclude, Tine.map_invert, map_insert, map_insertIf,
        map_orInvert]
      · exact except_bind_congr fun a => pl _
      · exact except_bind_congr fun a => pu _

theorem map_minusInPlace (dbg : Bool) (t : TineTree α) (i : RawInterval α) :
    minusInPlace dbg (t.map g) (i.map g) = (minusInPlace dbg t i).map (map g) := by
  unfold minusInPlace
  rw [RawInterval.map_isFull, RawInterval.map_isEmpty, map_isEmpty, Tine.map_fromRaw]
  split_ifs
  · rfl
  · rfl
  · rcases Tine.fromRawInterval i with _ | ⟨a, _ | ⟨b, _ | ⟨c, ts⟩⟩⟩
    · rfl
    · exact map_minusPoint g dbg t a
    · exact map_minusProper g dbg t a b
    · rfl

theorem map_interiorSplit (dbg : Bool) (t : TineTree α) (l u : Tine α) :
    interiorSplit dbg (t.map g) (l.map g) (u.map g) =
      (interiorSplit dbg t l u).map fun x =>
        ((x.1.1.map (Tine.map g), x.1.2.1.map (Tine.map g), x.1.2.2.1.map (Tine.map g), x.1.2.2.2.1.map (Tine.map g),
          x.1.2.2.2.2.1.map (Tine.map g), x.1.2.2.2.2.2.map (Tine.map g)), x.2.map g) := by
  simp only [interiorSplit, bind, map, Tine.map_cmp, BSet.map_taken, BSet.map_remove, BSet.map_above, BSet.map_below,
    List.getLast?_map, List.head?_map, Option.isSome_map, except_map_bind, except_map_ok]

theorem map_intersectProper (dbg : Bool) (t : TineTree α) (l u : Tine α) :
    intersectProper dbg (t.map g) (l.map g) (u.map g) = (intersectProper dbg t l u).map (map g) := by
  unfold intersectProper
  simp only [bind]
  rw [map_interiorSplit, except_bind_map, except_map_bind]
  refine except_bind_congr fun x => ?_
  obtain ⟨⟨t0, t1, t2, t3, t4, t5⟩, c⟩ := x
  simp only []
  refine bind_step (Option.map (Tine.map g)) (by cases t2; exacts [rfl, Tine.map_intersect g dbg _ _]) fun ml => ?_
  refine bind_step (Option.map (Tine.map g)) (by cases t3; exacts [rfl, Tine.map_intersect g dbg _ _]) fun mu => ?_
  simp only [map_noneOr_lower, map_noneOr_upper, map_someAnd_lower, map_someAnd_upper]
  rw [except_map_bind]
  refine except_bind_congr fun _ => ?_
  rw [except_map_bind]
  refine except_bind_congr fun _ => ?_
  cases ml <;> cases mu <;>
    cases someAnd t0 Tine.isLowerBound <;> cases someAnd t5 Tine.isUpperBound <;>
    cases someAnd t1 Tine.isUpperBound <;> cases someAnd t4 Tine.isLowerBound <;>
    simp only [Option.map_some, Option.map_none, map_insert, except_map_ok] <;> rfl

theorem map_intersectInPlace (dbg : Bool) (t : TineTree α) (i : RawInterval α) :
    intersectInPlace dbg (t.map g) (i.map g) = (intersectInPlace dbg t i).map (map g) := by
  have pt : ∀ p : α, ((contains dbg (t.map g) (g p)).bind fun b =>
      if b then .ok (fromRawInterval (.point (g p))) else .ok new : Except Panic (TineTree β)) =
      Except.map (map g) ((contains dbg t p).bind fun b =>
      if b then .ok (fromRawInterval (.point p)) else .ok new) := by
    intro p
    rw [map_contains, except_map_bind]
    exact except_bind_congr fun b => by cases b <;> rfl
  have tines : ∀ ts : List (Tine α), (match ts.map (Tine.map g) with
      | [] => .ok new
      | [.point (.incl p)] => do
        if ← contains dbg (t.map g) p then .ok (fromRawInterval (.point p)) else .ok new
      | [l, u] => intersectProper dbg (t.map g) l u
      | _ => .error .unreachable : Except Panic (TineTree β)) =
      (match ts with
      | [] => .ok new
      | [.point (.incl p)] => do
        if ← contains dbg t p then .ok (fromRawInterval (.point p)) else .ok new
      | [l, u] => intersectProper dbg t l u
      | _ => .error .unreachable : Except Panic (TineTree α)).map (map g) := by
    intro ts
    rcases ts with _ | ⟨a, _ | ⟨b, _ | ⟨c, ts⟩⟩⟩
    · rfl
    · rcases a with a | a | a <;> cases a
      case point.incl p => exact pt p
      all_goals rfl
    · have h := map_intersectProper g dbg t a b
      rcases a with a | a | a <;> cases a <;> exact h
    · rcases a with a | a | a <;> cases a <;> rfl
  unfold intersectInPlace
  rw [RawInterval.map_isFull, RawInterval.map_isEmpty, map_isEmpty]
  split_ifs
  · rfl
  · rfl
  · have h := tines (Tine.fromRawInterval i)
    rw [← Tine.map_fromRaw] at h
    cases i
    case point p _ _ => exact pt p
    all_goals exact h

theorem map_intersectSegment (dbg : Bool) (s : RawInterval α) : ∀ (n : Nat) (o : TineIter α) (acc : TineTree α),
    intersectSegment dbg (s.map g) n (o.map g) (acc.map g) =
      (intersectSegment dbg s n o acc).map fun x => (x.1.map (TineIter.map g), x.2.map g) := by
  intro n
  induction n with
  | zero => intro o acc; rfl
  | succ n ih =>
    intro o acc
    simp only [intersectSegment, bind, TineIter.map_next]
    rw [except_bind_map, except_map_bind]
    refine except_bind_congr fun x => ?_
    obtain ⟨i, o'⟩ := x
    cases i with
    | none => rfl
    | some i =>
      simp only [TineIter.item?, Option.map_some, RawInterval.map_intersect, RawInterval.map_isEmpty,
        map_unionInPlace]
      split_ifs
      · rfl
      · rw [except_bind_map, except_map_bind]
        exact except_bind_congr fun a => ih o' a

theorem map_intersectLoop (dbg : Bool) : ∀ (n : Nat) (s o : TineIter α) (acc : TineTree α),
    intersectLoop dbg n (s.map g) (o.map g) (acc.map g) = (intersectLoop dbg n s o acc).map (map g) := by
  intro n
  induction n with
  | zero => intro s o acc; rfl
  | succ n ih =>
    intro s o acc
    simp only [intersectLoop, bind, TineIter.map_next]
    rw [except_bind_map, except_map_bind]
    refine except_bind_congr fun x => ?_
    obtain ⟨i, s'⟩ := x
    cases i with
    | none => rfl
    | some i =>
      simp only [TineIter.item?, Option.map_some, TineIter.map_size, map_intersectSegment]
      rw [except_bind_map, except_map_bind]
      refine except_bind_congr fun y => ?_
      obtain ⟨o', a⟩ := y
      cases o' with
      | none => rfl
      | some o' => exact ih s' o' a

theorem map_intersect (dbg : Bool) (a b : TineTree α) :
    intersect dbg (a.map g) (b.map g) = (intersect dbg a b).map (map g) := by
  unfold intersect
  rw [TineIter.map_start, TineIter.map_start, TineIter.map_size]
  exact map_intersectLoop g dbg _ _ _ new

theorem map_union (dbg : Bool) (a b : TineTree α) :
    union dbg (a.map g) (b.map g) = (union dbg a b).map (map g) := by
  unfold union
  rw [TineIter.map_start]
  exact TineIter.map_fold g (map g) dbg _ _ (map_unionInPlace g dbg) _ a

theorem map_minus (dbg : Bool) (a b : TineTree α) :
    minus dbg (a.map g) (b.map g) = (minus dbg a b).map (map g) := by
  unfold minus
  rw [TineIter.map_start]
  exact TineIter.map_fold g (map g) dbg _ _ (map_minusInPlace g dbg) _ a

theorem map_fromIter (dbg : Bool) (is : List (RawInterval α)) :
    fromIter dbg (is.map (RawInterval.map g)) = (fromIter dbg is).map (map g) := by
  have : ∀ (is : List (RawInterval α)) (acc : TineTree α),
      (is.map (RawInterval.map g)).foldlM (unionInPlace dbg) (acc.map g) =
      (is.foldlM (unionInPlace dbg) acc).map (map g) := by
    intro is
    induction is with
    | nil => intro acc; rfl
    | cons i is ih =>
      intro acc
      simp only [List.map_cons, List.foldlM_cons, bind, map_unionInPlace]
      rw [except_bind_map, except_map_bind]
      exact except_bind_congr fun a => ih a
  exact this is new

end TineTree
end NI
