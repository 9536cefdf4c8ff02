import Verif.SpecLoop
import Verif.Props.FusedAny
import Verif.Props.Tally

/-! # Every loop over intervals ends, on any tree (C106)

Nothing is assumed of the tree: the theorems hold for corrupted trees as well. -/

set_option linter.unusedSimpArgs false
set_option linter.unusedVariables false
set_option linter.unusedSectionVars false

namespace NI

/-! ## Runs of a loop are unique -/

theorem Loop.det {σ ι β : Type _} {next : σ → Except Panic (Option ι × σ)}
    {body : β → ι → Except Panic (Bool × β) → Prop}
    (hb : ∀ acc i b b', body acc i b → body acc i b' → b = b') {s acc r r'}
    (h : Loop next body s acc r) (h' : Loop next body s acc r') : r = r' := by
  induction h generalizing r' with
  | done e => cases h' <;> simp_all
  | nextPanic e => cases h' <;> simp_all
  | bodyPanic e b =>
    cases h' with
    | done e' => simp_all
    | nextPanic e' => simp_all
    | bodyPanic e' b' => rw [e] at e'; cases e'; cases hb _ _ _ _ b b'; rfl
    | leave e' b' => rw [e] at e'; cases e'; cases hb _ _ _ _ b b'
    | round e' b' l' => rw [e] at e'; cases e'; cases hb _ _ _ _ b b'
  | leave e b =>
    cases h' with
    | done e' => simp_all
    | nextPanic e' => simp_all
    | bodyPanic e' b' => rw [e] at e'; cases e'; cases hb _ _ _ _ b b'
    | leave e' b' => rw [e] at e'; cases e'; cases hb _ _ _ _ b b'; rfl
    | round e' b' l' => rw [e] at e'; cases e'; cases hb _ _ _ _ b b'
  | round e b l ih =>
    cases h' with
    | done e' => simp_all
    | nextPanic e' => simp_all
    | bodyPanic e' b' => rw [e] at e'; cases e'; cases hb _ _ _ _ b b'
    | leave e' b' => rw [e] at e'; cases e'; cases hb _ _ _ _ b b'
    | round e' b' l' => rw [e] at e'; cases e'; cases hb _ _ _ _ b b'; exact ih l'

namespace TineIter
variable {α : Type _} [LinearOrder α]

/-- How many tines the iterator holds, those put aside included. -/
def weight (it : TineIter α) : Nat :=
  it.tines.length + it.savedLower.toList.length + it.savedUpper.toList.length

theorem weight_start (t : TineTree α) : (start t).weight = t.length := rfl

theorem weight_le_size_start (t : TineTree α) : (start t).weight ≤ (start t).size := by
  simp [weight, size, start]; omega

theorem weight_nextWith {dbg : Bool} {l : Tine α} {it it' : TineIter α} {i}
    (h : nextWith dbg l it = .ok (i, it')) : it'.weight ≤ it.weight := by
  have step : ∀ (u : Tine α) (j j' : TineIter α) (b : Bool) (x : RawInterval α),
      j.weight + 1 ≤ it.weight →
      (do
        let it := if u.isPointExclude then { j with savedLower := some u } else j
        dassert b u.isUpperBound
        .ok (x, it) : Except Panic (RawInterval α × TineIter α)) = .ok (i, j') → j'.weight ≤ it.weight := by
    intro l j j' b x hj e
    simp only [bind, Except.bind] at e
    cases hd : dassert b l.isUpperBound with
    | error _ => rw [hd] at e; cases e
    | ok _ =>
      rw [hd] at e
      cases e
      split_ifs
      · simp [weight] at hj ⊢; omega
      · omega
  have main : (do
      dassert dbg l.isLowerBound
      let (upper, it) ← (match it.tines, it.savedUpper with
        | u :: rest, _ => .ok (u, { it with tines := rest })
        | [], some u => .ok (u, { it with savedUpper := none })
        | [], none => .error .expect : Except Panic (Tine α × TineIter α))
      let it := if upper.isPointExclude then { it with savedLower := some upper } else it
      dassert dbg upper.isUpperBound
      .ok (RawInterval.new l.intoInner upper.intoInner, it) : Except Panic (RawInterval α × TineIter α)) =
        .ok (i, it') → it'.weight ≤ it.weight := by
    intro e
    simp only [bind, Except.bind] at e
    cases hd : dassert dbg l.isLowerBound with
    | error _ => rw [hd] at e; cases e
    | ok _ =>
      rw [hd] at e
      cases hg : it.tines with
      | cons u rest =>
        rw [hg] at e
        refine step u _ _ _ _ ?_ e
        simp [weight, hg]
      | nil =>
        rw [hg] at e
        cases hl : it.savedUpper with
        | none => rw [hl] at e; cases e
        | some l =>
          rw [hl] at e
          refine step l _ _ _ _ ?_ e
          simp [weight, hl, hg]
  unfold nextWith at h
  split at h
  · cases h; exact le_refl _
  · exact main h

theorem weight_next {dbg : Bool} {it it' : TineIter α} {i} (h : next dbg it = .ok (some i, it')) :
    it'.weight < it.weight := by
  unfold next at h
  split at h
  · rename_i l hl
    cases hw : nextWith dbg l { it with savedLower := none } with
    | error e => rw [hw] at h; cases h
    | ok r =>
      rw [hw] at h; cases h
      have := weight_nextWith hw
      simp [weight, hl] at this ⊢; omega
  · rename_i hl
    split at h
    · rename_i l rest ht
      cases hw : nextWith dbg l { it with tines := rest } with
      | error e => rw [hw] at h; cases h
      | ok r =>
        rw [hw] at h; cases h
        have := weight_nextWith hw
        simp [weight, hl, ht] at this ⊢; omega
    · cases h

theorem weight_nextBackWith {dbg : Bool} {u : Tine α} {it it' : TineIter α} {i}
    (h : nextBackWith dbg u it = .ok (i, it')) : it'.weight ≤ it.weight := by
  have step : ∀ (l : Tine α) (j j' : TineIter α) (b : Bool) (x : RawInterval α),
      j.weight + 1 ≤ it.weight →
      (do
        let it := if l.isPointExclude then { j with savedLower := some l } else j
        dassert b l.isLowerBound
        .ok (x, it) : Except Panic (RawInterval α × TineIter α)) = .ok (i, j') → j'.weight ≤ it.weight := by
    intro l j j' b x hj e
    simp only [bind, Except.bind] at e
    cases hd : dassert b l.isLowerBound with
    | error _ => rw [hd] at e; cases e
    | ok _ =>
      rw [hd] at e
      cases e
      split_ifs
      · simp [weight] at hj ⊢; omega
      · omega
  have main : (do
      dassert dbg u.isUpperBound
      let (lower, it) ← (match it.tines.getLast?, it.savedLower with
        | some l, _ => .ok (l, { it with tines := it.tines.dropLast })
        | none, some l => .ok (l, { it with savedLower := none })
        | none, none => .error .expect : Except Panic (Tine α × TineIter α))
      let it := if lower.isPointExclude then { it with savedLower := some lower } else it
      dassert dbg lower.isLowerBound
      .ok (RawInterval.new lower.intoInner u.intoInner, it) : Except Panic (RawInterval α × TineIter α)) =
        .ok (i, it') → it'.weight ≤ it.weight := by
    intro e
    simp only [bind, Except.bind] at e
    cases hd : dassert dbg u.isUpperBound with
    | error _ => rw [hd] at e; cases e
    | ok _ =>
      rw [hd] at e
      cases hg : it.tines.getLast? with
      | some l =>
        rw [hg] at e
        refine step l _ _ _ _ ?_ e
        have : it.tines ≠ [] := by rintro h; rw [h] at hg; cases hg
        have := List.length_pos_of_ne_nil this
        simp [weight]; omega
      | none =>
        rw [hg] at e
        cases hl : it.savedLower with
        | none => rw [hl] at e; cases e
        | some l =>
          rw [hl] at e
          refine step l _ _ _ _ ?_ e
          simp [weight, hl]
  unfold nextBackWith at h
  split at h
  · cases h; exact le_refl _
  · exact main h

theorem weight_nextBack {dbg : Bool} {it it' : TineIter α} {i} (h : nextBack dbg it = .ok (some i, it')) :
    it'.weight < it.weight := by
  unfold nextBack at h
  split at h
  · rename_i l hl
    cases hw : nextBackWith dbg l { it with savedUpper := none } with
    | error e => rw [hw] at h; cases h
    | ok r =>
      rw [hw] at h; cases h
      have := weight_nextBackWith hw
      simp [weight, hl] at this ⊢; omega
  · rename_i hl
    split at h
    · rename_i l hg
      cases hw : nextBackWith dbg l { it with tines := it.tines.dropLast } with
      | error e => rw [hw] at h; cases h
      | ok r =>
        rw [hw] at h; cases h
        have := weight_nextBackWith hw
        have h' : it.tines ≠ [] := by rintro h; rw [h] at hg; cases hg
        have h'' := List.length_pos_of_ne_nil h'
        simp [weight, hl] at this ⊢; omega
    · cases h

/-- Nothing held: both ends report `None`. -/
theorem weight_zero {dbg : Bool} {it : TineIter α} (h : it.weight = 0) :
    next dbg it = .ok (none, it) ∧ nextBack dbg it = .ok (none, it) := by
  obtain ⟨ts, sl, su⟩ := it
  cases ts <;> cases sl <;> cases su <;> simp [weight] at h
  exact ⟨rfl, rfl⟩

/-- A call that reports `None` leaves the iterator as it was. -/
theorem next_none {dbg : Bool} {it it' : TineIter α} (h : next dbg it = .ok (none, it')) : it' = it := by
  unfold next at h
  split at h
  · rename_i l hl
    cases hw : nextWith dbg l { it with savedLower := none } <;> rw [hw] at h <;> cases h
  · split at h
    · rename_i l rest ht
      cases hw : nextWith dbg l { it with tines := rest } <;> rw [hw] at h <;> cases h
    · cases h; rfl

theorem nextBack_none {dbg : Bool} {it it' : TineIter α} (h : nextBack dbg it = .ok (none, it')) : it' = it := by
  unfold nextBack at h
  split at h
  · rename_i l hl
    cases hw : nextBackWith dbg l { it with savedUpper := none } <;> rw [hw] at h <;> cases h
  · split at h
    · rename_i l ht
      cases hw : nextBackWith dbg l { it with tines := it.tines.dropLast } <;> rw [hw] at h <;> cases h
    · cases h; rfl

end TineIter

/-- A count that every item takes from bounds the number of items. -/
theorem drive_bounded {σ β : Type _} {next nextBack : σ → Except Panic (Option β × σ)} (P : σ → Prop) (w : σ → Nat)
    (hn : ∀ s s' o, P s → next s = .ok (o, s') → P s' ∧ w s' + o.toList.length ≤ w s)
    (hb : ∀ s s' o, P s → nextBack s = .ok (o, s') → P s' ∧ w s' + o.toList.length ≤ w s) (cs : List IterCall) :
    ∀ {s os}, P s → drive next nextBack s cs = .ok os → os.countP (·.isSome) ≤ w s := by
  induction cs with
  | nil => intro s os _ h; cases h; exact Nat.zero_le _
  | cons c cs ih =>
    intro s os hp h
    have fin : ∀ r : Except Panic (Option β × σ), (∀ o s', r = .ok (o, s') → P s' ∧ w s' + o.toList.length ≤ w s) →
        (do let (o, s') ← r
            return o :: (← drive next nextBack s' cs) : Except Panic (List (Option β))) = .ok os →
        os.countP (·.isSome) ≤ w s := by
      intro r hr e
      cases r with
      | error _ => cases e
      | ok r =>
        obtain ⟨o, s'⟩ := r
        obtain ⟨hp', hw⟩ := hr _ _ rfl
        simp only [bind, Except.bind, pure, Except.pure] at e
        cases hd : drive next nextBack s' cs with
        | error _ => rw [hd] at e; cases e
        | ok os' =>
          rw [hd] at e; cases e
          have := ih hp' hd
          cases o <;> simp at hw ⊢ <;> omega
    cases c
    · exact fin (next s) (fun o s' e => hn s s' o hp e) h
    · exact fin (nextBack s) (fun o s' e => hb s s' o hp e) h

namespace TineTree
variable {α : Type _} [LinearOrder α]
open TineIter

/-! ## The property theorems -/

/-- **C106.**  Whatever the tree and whatever the mix of calls from the two ends, the iterator hands out no more
intervals than the tree has entries; every further call returns `None` or panics. -/
theorem C106_interval_calls (dbg : Bool) (t : TineTree α) (cs : List IterCall) (os : List (Option (RawInterval α)))
    (h : drive (TineIter.next dbg) (TineIter.nextBack dbg) (TineIter.start t) cs = .ok os) :
    os.countP (·.isSome) ≤ t.length := by
  refine drive_bounded (fun _ => True) weight ?_ ?_ cs trivial h
  · intro s s' o _ e
    refine ⟨trivial, ?_⟩
    cases o with
    | none => rw [next_none e]; simp
    | some i => have := weight_next e; simp; omega
  · intro s s' o _ e
    refine ⟨trivial, ?_⟩
    cases o with
    | none => rw [nextBack_none e]; simp
    | some i => have := weight_nextBack e; simp; omega

/-- Five entries in no order: three intervals, then nothing. -/
example : drive (TineIter.next false) (TineIter.nextBack false)
    (TineIter.start [.lower (.incl (7 : Int)), .upper (.incl 8), .lower (.incl 1), .upper (.incl 2), .point (.incl 5)])
    [.next, .nextBack, .next, .nextBack, .next] =
    .ok [some (.closed 7 8), some (.point 5), some (.closed 1 2), none, none] := by decide

/-- A `for` loop, with any body, over any iterator: the model's loop is the complete run. -/
theorem foldAux_run {β : Type _} (dbg : Bool) (f : β → RawInterval α → Except Panic β) (n : Nat) :
    ∀ (it : TineIter α) (acc : β), it.weight ≤ n → ForLoop (TineIter.next dbg) f it acc (foldAux dbg f n it acc) := by
  induction n with
  | zero => intro it acc h; exact .done (weight_zero (Nat.le_zero.1 h)).1
  | succ n ih =>
    intro it acc h
    unfold foldAux
    cases e : TineIter.next dbg it with
    | error p => exact .nextPanic e
    | ok r =>
      obtain ⟨o, it'⟩ := r
      cases o with
      | none => exact .done e
      | some i =>
        have hw := weight_next e
        simp only [bind, Except.bind]
        cases eb : f acc i with
        | error p => exact .bodyPanic e (by rw [eb]; rfl)
        | ok acc' => exact .round e (by rw [eb]; rfl) (ih it' acc' (by omega))

theorem ForLoop.det {σ ι β : Type _} {next : σ → Except Panic (Option ι × σ)} {f : β → ι → Except Panic β} {s acc r r'}
    (h : ForLoop next f s acc r) (h' : ForLoop next f s acc r') : r = r' := by
  have := Loop.det (fun _ _ _ _ e e' => e.trans e'.symm) h h'
  cases r <;> cases r' <;> simp_all [Except.map]

theorem fold_run {β : Type _} (dbg : Bool) (f : β → RawInterval α → Except Panic β) (t : TineTree α) (acc : β)
    (r : Except Panic β) : ForLoop (TineIter.next dbg) f (TineIter.start t) acc r ↔ (TineIter.start t).fold dbg f acc = r := by
  have := foldAux_run dbg f _ (TineIter.start t) acc (weight_le_size_start t)
  exact ⟨fun h => ForLoop.det this h, fun h => h ▸ this⟩

/-- **C106.**  `union`: the loop over the other tree ends, for any two trees, and what it ends with is what the model
says. -/
theorem C106_union (dbg : Bool) (a b : TineTree α) (r : Except Panic (TineTree α)) :
    ForLoop (TineIter.next dbg) (unionInPlace dbg) (TineIter.start b) a r ↔ union dbg a b = r :=
  fold_run dbg _ b a r

example : ForLoop (TineIter.next true) (unionInPlace true) (TineIter.start (TineTree.demo [.closed 4 6]))
    (TineTree.demo [.closed 1 2]) (.ok (TineTree.demo [.closed 1 2, .closed 4 6])) :=
  (C106_union _ _ _ _).2 (by decide)

/-- **C106.**  `minus` likewise. -/
theorem C106_minus (dbg : Bool) (a b : TineTree α) (r : Except Panic (TineTree α)) :
    ForLoop (TineIter.next dbg) (minusInPlace dbg) (TineIter.start b) a r ↔ minus dbg a b = r :=
  fold_run dbg _ b a r

example : ForLoop (TineIter.next true) (minusInPlace true) (TineIter.start (TineTree.demo [.closed 2 3]))
    (TineTree.demo [.closed 1 6]) (.ok (TineTree.demo [.rightOpen 1 2, .leftOpen 3 6])) :=
  (C106_minus _ _ _ _).2 (by decide)

/-- **C106.**  Collecting the intervals from the front ends. -/
theorem C106_intervals (dbg : Bool) (t : TineTree α) (r : Except Panic (List (RawInterval α))) :
    ForLoop (TineIter.next dbg) (fun acc i => .ok (acc ++ [i])) (TineIter.start t) [] r ↔ intervals dbg t = r :=
  fold_run dbg _ t [] r

example : ForLoop (TineIter.next true) (fun acc i => .ok (acc ++ [i])) (TineIter.start (TineTree.demo [.closed 1 2, .point 5]))
    [] (.ok [.closed 1 2, .point 5]) :=
  (C106_intervals _ _ _).2 (by decide)

theorem collectBackAux_run (dbg : Bool) (n : Nat) : ∀ (it : TineIter α) (acc : List (RawInterval α)), it.weight ≤ n →
    ForLoop (TineIter.nextBack dbg) (fun acc i => .ok (acc ++ [i])) it acc (collectBackAux dbg n it acc) := by
  induction n with
  | zero => intro it acc h; exact .done (weight_zero (Nat.le_zero.1 h)).2
  | succ n ih =>
    intro it acc h
    unfold collectBackAux
    cases e : TineIter.nextBack dbg it with
    | error p => exact .nextPanic e
    | ok r =>
      obtain ⟨o, it'⟩ := r
      cases o with
      | none => exact .done e
      | some i =>
        have hw := weight_nextBack e
        exact .round e rfl (ih it' _ (by omega))

/-- **C106.**  Collecting them from the back ends. -/
theorem C106_intervals_back (dbg : Bool) (t : TineTree α) (r : Except Panic (List (RawInterval α))) :
    ForLoop (TineIter.nextBack dbg) (fun acc i => .ok (acc ++ [i])) (TineIter.start t) [] r ↔
      intervalsBack dbg t = r := by
  have := collectBackAux_run dbg _ (TineIter.start t) [] (weight_le_size_start t)
  exact ⟨fun h => ForLoop.det this h, fun h => h ▸ this⟩

example : ForLoop (TineIter.nextBack true) (fun acc i => .ok (acc ++ [i]))
    (TineIter.start (TineTree.demo [.closed 1 2, .point 5])) [] (.ok [.point 5, .closed 1 2]) :=
  (C106_intervals_back _ _ _).2 (by decide)

/-- The loop of `contains` (src/tine_tree.rs:112-115): leave with `true` at the first interval holding the point. -/
def ContainsLoop (dbg : Bool) (x : α) (t : TineTree α) (r : Except Panic Bool) : Prop :=
  ∃ r', Loop (TineIter.next dbg) (fun _ i b => b = .ok (if i.contains x then (false, true) else (true, false)))
    (TineIter.start t) false r' ∧ r = r'.map Prod.snd

theorem anyContains_run (dbg : Bool) (x : α) (n : Nat) : ∀ (it : TineIter α), it.weight ≤ n →
    ∃ r', Loop (TineIter.next dbg) (fun _ i b => b = .ok (if i.contains x then (false, true) else (true, false)))
      it false r' ∧ anyContains dbg x n it = r'.map Prod.snd := by
  induction n with
  | zero => intro it h; exact ⟨_, .done (weight_zero (Nat.le_zero.1 h)).1, rfl⟩
  | succ n ih =>
    intro it h
    unfold anyContains
    cases e : TineIter.next dbg it with
    | error p => exact ⟨_, .nextPanic e, rfl⟩
    | ok r =>
      obtain ⟨o, it'⟩ := r
      cases o with
      | none => exact ⟨_, .done e, rfl⟩
      | some i =>
        have hw := weight_next e
        simp only [bind, Except.bind]
        by_cases hc : i.contains x = true
        · rw [if_pos hc]
          exact ⟨_, .leave e (by rw [if_pos hc]), rfl⟩
        · rw [if_neg hc]
          obtain ⟨r', h1, h2⟩ := ih it' (by omega)
          exact ⟨r', .round e (by rw [if_neg hc]) h1, h2⟩

/-- **C106.**  `contains`: the search ends, for any tree. -/
theorem C106_contains (dbg : Bool) (x : α) (t : TineTree α) (r : Except Panic Bool) :
    ContainsLoop dbg x t r ↔ contains dbg t x = r := by
  obtain ⟨r', h1, h2⟩ := anyContains_run dbg x _ (TineIter.start t) (weight_le_size_start t)
  constructor
  · rintro ⟨r'', h, rfl⟩
    rw [Loop.det (fun _ _ _ _ e e' => e.trans e'.symm) h h1]; exact h2
  · rintro rfl
    exact ⟨r', h1, h2⟩

example : ContainsLoop true 5 (TineTree.demo [.closed 1 2, .point 5]) (.ok true) :=
  (C106_contains _ _ _ _).2 (by decide)

/-- The body of the inner loop of `intersect` (src/tine_tree.rs:189-200): intersect with the interval `o` of the other
tree; leave if nothing is shared, otherwise add the shared interval. -/
def IsectInner (dbg : Bool) (s : RawInterval α) (acc : TineTree α) (o : RawInterval α)
    (b : Except Panic (Bool × TineTree α)) : Prop :=
  b = if (s.intersect o).isEmpty then .ok (false, acc) else (unionInPlace dbg acc (s.intersect o)).map (true, ·)

/-- The body of the outer loop (src/tine_tree.rs:187-203): run the inner loop on the other tree's iterator, where it
stands, to its end; the function returns when that iterator has run out. -/
def IsectOuter (dbg : Bool) (st : TineIter α × TineTree α) (s : RawInterval α)
    (b : Except Panic (Bool × (TineIter α × TineTree α))) : Prop :=
  ∃ r, Loop (TineIter.next dbg) (IsectInner dbg s) st.1 st.2 r ∧
    b = r.map fun p => match p.1 with
      | some o => (true, (o, p.2))
      | none => (false, (st.1, p.2))

/-- The two nested loops of `intersect`, run to their end. -/
def IsectLoop (dbg : Bool) (a b : TineTree α) (r : Except Panic (TineTree α)) : Prop :=
  ∃ r', Loop (TineIter.next dbg) (IsectOuter dbg) (TineIter.start a) (TineIter.start b, new) r' ∧
    r = r'.map fun p => p.2.2

theorem IsectOuter.det {dbg : Bool} {st : TineIter α × TineTree α} {s b b'} (h : IsectOuter dbg st s b)
    (h' : IsectOuter dbg st s b') : b = b' := by
  obtain ⟨r, h1, rfl⟩ := h
  obtain ⟨r', h2, rfl⟩ := h'
  rw [Loop.det (fun _ _ _ _ e e' => e.trans e'.symm) h1 h2]

theorem segment_run (dbg : Bool) (s : RawInterval α) (n : Nat) : ∀ (o : TineIter α) (acc : TineTree α), o.weight ≤ n →
    Loop (TineIter.next dbg) (IsectInner dbg s) o acc (intersectSegment dbg s n o acc) := by
  induction n with
  | zero => intro o acc h; exact .done (weight_zero (Nat.le_zero.1 h)).1
  | succ n ih =>
    intro o acc h
    unfold intersectSegment
    cases e : TineIter.next dbg o with
    | error p => exact .nextPanic e
    | ok r =>
      obtain ⟨oi, o'⟩ := r
      cases oi with
      | none => exact .done e
      | some i =>
        have hw := weight_next e
        simp only [bind, Except.bind]
        by_cases hc : (s.intersect i).isEmpty = true
        · rw [if_pos hc]
          exact .leave e (by rw [IsectInner, if_pos hc])
        · rw [if_neg hc]
          cases eb : unionInPlace dbg acc (s.intersect i) with
          | error p => exact .bodyPanic e (by rw [IsectInner, if_neg hc, eb]; rfl)
          | ok acc' => exact .round e (by rw [IsectInner, if_neg hc, eb]; rfl) (ih o' acc' (by omega))

theorem weight_le_size (it : TineIter α) : it.savedUpper.toList.length + it.savedLower.toList.length ≤ 2 ∧
    it.weight ≤ it.size := by
  obtain ⟨ts, sl, su⟩ := it
  cases sl <;> cases su <;> simp [weight, size] <;> omega

theorem isectLoop_run (dbg : Bool) (n : Nat) : ∀ (s o : TineIter α) (acc : TineTree α), s.weight ≤ n →
    ∃ r', Loop (TineIter.next dbg) (IsectOuter dbg) s (o, acc) r' ∧
      intersectLoop dbg n s o acc = r'.map fun p => p.2.2 := by
  induction n with
  | zero => intro s o acc h; exact ⟨_, .done (weight_zero (Nat.le_zero.1 h)).1, rfl⟩
  | succ n ih =>
    intro s o acc h
    unfold intersectLoop
    cases e : TineIter.next dbg s with
    | error p => exact ⟨_, .nextPanic e, rfl⟩
    | ok r =>
      obtain ⟨si, s'⟩ := r
      cases si with
      | none => exact ⟨_, .done e, rfl⟩
      | some i =>
        have hw := weight_next e
        simp only [bind, Except.bind]
        have hr := segment_run dbg i o.size o acc (weight_le_size o).2
        cases es : intersectSegment dbg i o.size o acc with
        | error p =>
          rw [es] at hr
          exact ⟨_, .bodyPanic e ⟨_, hr, rfl⟩, rfl⟩
        | ok q =>
          obtain ⟨o', acc'⟩ := q
          rw [es] at hr
          cases o' with
          | none => exact ⟨_, .leave e ⟨_, hr, rfl⟩, rfl⟩
          | some o' =>
            obtain ⟨r', h1, h2⟩ := ih s' o' acc' (by omega)
            exact ⟨r', .round e ⟨_, hr, rfl⟩ h1, h2⟩

/-- **C106.**  `intersect`: the two nested loops end, for any two trees, and what they end with is what the model
says. -/
theorem C106_intersect (dbg : Bool) (a b : TineTree α) (r : Except Panic (TineTree α)) :
    IsectLoop dbg a b r ↔ intersect dbg a b = r := by
  obtain ⟨r', h1, h2⟩ := isectLoop_run dbg _ (TineIter.start a) (TineIter.start b) new (weight_le_size_start a)
  constructor
  · rintro ⟨r'', h, rfl⟩
    have := Loop.det (body := IsectOuter dbg) (fun _ _ _ _ b b' => IsectOuter.det b b') h h1
    rw [this]; exact h2
  · rintro rfl
    exact ⟨r', h1, h2⟩

example : IsectLoop true (TineTree.demo [.closed 1 4]) (TineTree.demo [.closed 2 8]) (.ok (TineTree.demo [.closed 2 4])) :=
  (C106_intersect _ _ _ _).2 (by decide)

end TineTree

/-! ## The points of intervals and selections -/

open _root_.NI.Finite TT

namespace Interval
variable {α : Type} [LinearOrder α] [Finite α] [LawfulFinite α] [_root_.Finite α]

/-- How many points an interval can still hand out. -/
noncomputable def budget (i : Interval α) : Nat := by
  classical exact if i.Real then i.pts.ncard else 1

theorem budget_empty : (Interval.empty : Interval α).budget = 0 := by
  unfold budget
  rw [if_pos (show (Interval.empty : Interval α).Real from real_mk_empty), pts_eq]
  exact Set.ncard_empty α

theorem budget_le (i : Interval α) : i.budget ≤ Nat.card α := by
  unfold budget
  split_ifs
  · have := Set.ncard_le_ncard (Set.subset_univ i.pts) Set.finite_univ
    rwa [Set.ncard_univ] at this
  · have : Nonempty α := ⟨minimum⟩
    exact Nat.card_pos

theorem budget_step {i : Interval α} (h : i.Obtainable) :
    (∀ o j, i.next = .ok (o, j) → j.Obtainable ∧ j.budget + o.toList.length ≤ i.budget) ∧
    (∀ o j, i.nextBack = .ok (o, j) → j.Obtainable ∧ j.budget + o.toList.length ≤ i.budget) := by
  by_cases hr : i.Real
  · have key : ∀ (m : α) (j : Interval α), m ∈ i.pts → j.Real → j.pts = i.pts \ {m} → j.budget + 1 ≤ i.budget := by
      intro m j hm hj e
      unfold budget
      rw [if_pos hr, if_pos hj, e, Set.ncard_sdiff_singleton_add_one hm (Set.toFinite _)]
    rcases Interval.iter_step h hr with ⟨-, e, e'⟩ | ⟨⟨m, i', hm, e, h', k, q⟩, ⟨m', i'', hm', e', h'', k', q'⟩⟩
    · rw [e, e']
      constructor <;> (intro o j e; cases e; exact ⟨h, le_refl _⟩)
    · rw [e, e']
      constructor
      · intro o j e; cases e; exact ⟨h', key m _ hm.1 k q⟩
      · intro o j e; cases e; exact ⟨h'', key m' _ hm'.1 k' q'⟩
  · obtain ⟨l, u, -, -, e, e'⟩ := Interval.not_real_step h hr
    have hb : i.budget = 1 := by unfold budget; rw [if_neg hr]
    rw [e, e']
    constructor <;> (intro o j e; cases e; refine ⟨.empty, ?_⟩; rw [budget_empty, hb]; rfl)

/-- **C106.**  An interval of a type with finitely many values hands out at most that many points, whatever the
interval (also those without a point in them, like `closed 5 4`) and the mix of calls. -/
theorem C106_interval_points {i : Interval α} (h : i.Obtainable) (cs : List IterCall) (os : List (Option α))
    (hd : drive Interval.next Interval.nextBack i cs = .ok os) :
    os.countP (·.isSome) ≤ Nat.card α :=
  le_trans (drive_bounded (fun i => i.Obtainable) budget
    (fun s s' o hp e => (budget_step hp).1 o s' e) (fun s s' o hp e => (budget_step hp).2 o s' e) cs h hd) (budget_le i)

example : (Interval.mkClosed (u8 3) (u8 5)).Obtainable ∧ _root_.Finite U8 ∧
    drive Interval.next Interval.nextBack (Interval.mkClosed (u8 3) (u8 5)) [.nextBack, .next, .next, .nextBack] =
      .ok [some (u8 5), some (u8 3), some (u8 4), none] :=
  ⟨.ofRaw (.closed (u8 3) (u8 5)) (by decide), Set.finite_univ_iff.1 (MInt.finite Set.univ), by decide⟩

end Interval

namespace Selection
variable {α : Type} [LinearOrder α] [Finite α]
open TineIter

theorem intervalNext_weight {dbg : Bool} {it it' : TineIter α} {o} (h : intervalNext dbg it = .ok (o, it')) :
    it'.weight + o.toList.length ≤ it.weight := by
  unfold intervalNext at h
  cases e : it.next dbg with
  | error p => rw [e] at h; cases h
  | ok r =>
    obtain ⟨i, j⟩ := r
    rw [e] at h; cases h
    cases i with
    | none => rw [TineIter.next_none e]; simp
    | some i => have := TineIter.weight_next e; simp; omega

theorem intervalNextBack_weight {dbg : Bool} {it it' : TineIter α} {o} (h : intervalNextBack dbg it = .ok (o, it')) :
    it'.weight + o.toList.length ≤ it.weight := by
  unfold intervalNextBack at h
  cases e : it.nextBack dbg with
  | error p => rw [e] at h; cases h
  | ok r =>
    obtain ⟨i, j⟩ := r
    rw [e] at h; cases h
    cases i with
    | none => rw [TineIter.nextBack_none e]; simp
    | some i => have := TineIter.weight_nextBack e; simp; omega

/-- **C106.**  A selection's interval iterator hands out no more intervals than its tree has entries. -/
theorem C106_selection_calls (dbg : Bool) (s : Selection α) (cs : List IterCall) (os : List (Option (Interval α)))
    (h : drive (intervalNext dbg) (intervalNextBack dbg) (TineIter.start s.tree) cs = .ok os) :
    os.countP (·.isSome) ≤ s.tree.length :=
  drive_bounded (fun _ => True) weight (fun _ _ _ _ e => ⟨trivial, intervalNext_weight e⟩)
    (fun _ _ _ _ e => ⟨trivial, intervalNextBack_weight e⟩) cs trivial h

example : drive (intervalNext true) (intervalNextBack true)
    (TineIter.start (Selection.demo [(u8 3, u8 5), (u8 9, u8 9)]).tree) [.nextBack, .next, .next] =
    .ok [some ⟨.closed (u8 9) (u8 9)⟩, some ⟨.closed (u8 3) (u8 5)⟩, none] := by decide

theorem intervalsAux_run (dbg : Bool) (n : Nat) : ∀ (it : TineIter α) (acc : List (Interval α)), it.weight ≤ n →
    ForLoop (intervalNext dbg) (fun acc i => .ok (acc ++ [i])) it acc (intervalsAux dbg n it acc) := by
  induction n with
  | zero =>
    intro it acc h
    refine .done (s' := it) ?_
    rw [intervalNext, (weight_zero (Nat.le_zero.1 h)).1]; rfl
  | succ n ih =>
    intro it acc h
    unfold intervalsAux
    cases e : intervalNext dbg it with
    | error p => exact .nextPanic e
    | ok r =>
      obtain ⟨o, it'⟩ := r
      cases o with
      | none => exact .done e
      | some i =>
        have hw := intervalNext_weight e
        exact .round e rfl (ih it' _ (by simp at hw; omega))

theorem intervalsBackAux_run (dbg : Bool) (n : Nat) : ∀ (it : TineIter α) (acc : List (Interval α)), it.weight ≤ n →
    ForLoop (intervalNextBack dbg) (fun acc i => .ok (acc ++ [i])) it acc (intervalsBackAux dbg n it acc) := by
  induction n with
  | zero =>
    intro it acc h
    refine .done (s' := it) ?_
    rw [intervalNextBack, (weight_zero (Nat.le_zero.1 h)).2]; rfl
  | succ n ih =>
    intro it acc h
    unfold intervalsBackAux
    cases e : intervalNextBack dbg it with
    | error p => exact .nextPanic e
    | ok r =>
      obtain ⟨o, it'⟩ := r
      cases o with
      | none => exact .done e
      | some i =>
        have hw := intervalNextBack_weight e
        exact .round e rfl (ih it' _ (by simp at hw; omega))

/-- **C106.**  Collecting a selection's intervals ends, from either end, whatever the selection. -/
theorem C106_selection_intervals (dbg : Bool) (s : Selection α) (r : Except Panic (List (Interval α))) :
    (ForLoop (intervalNext dbg) (fun acc i => .ok (acc ++ [i])) (TineIter.start s.tree) [] r ↔ s.intervals dbg = r) ∧
    (ForLoop (intervalNextBack dbg) (fun acc i => .ok (acc ++ [i])) (TineIter.start s.tree) [] r ↔
      s.intervalsBack dbg = r) := by
  have h1 := intervalsAux_run dbg _ (TineIter.start s.tree) [] (weight_le_size_start s.tree)
  have h2 := intervalsBackAux_run dbg _ (TineIter.start s.tree) [] (weight_le_size_start s.tree)
  exact ⟨⟨fun h => TineTree.ForLoop.det h1 h, fun h => h ▸ h1⟩, ⟨fun h => TineTree.ForLoop.det h2 h, fun h => h ▸ h2⟩⟩

example : ForLoop (intervalNextBack true) (fun acc i => .ok (acc ++ [i]))
    (TineIter.start (Selection.demo [(u8 3, u8 5), (u8 9, u8 9)]).tree) []
    (.ok [⟨.closed (u8 9) (u8 9)⟩, ⟨.closed (u8 3) (u8 5)⟩]) :=
  (C106_selection_intervals _ _ _).2.2 (by decide)

theorem nextWith_wf {dbg : Bool} {l : Tine α} {it it' : TineIter α} {i} (h : nextWith dbg l it = .ok (i, it')) :
    i.WF := by
  unfold nextWith at h
  split at h
  · cases h; trivial
  · simp only [bind, Except.bind] at h
    split at h
    · cases h
    · split at h
      · cases h
      · split at h
        · cases h
        · cases h; exact RawInterval.new_wf _ _

theorem nextBackWith_wf {dbg : Bool} {l : Tine α} {it it' : TineIter α} {i}
    (h : nextBackWith dbg l it = .ok (i, it')) : i.WF := by
  unfold nextBackWith at h
  split at h
  · cases h; trivial
  · simp only [bind, Except.bind] at h
    split at h
    · cases h
    · split at h
      · cases h
      · split at h
        · cases h
        · cases h; exact RawInterval.new_wf _ _

theorem intervalNext_obtainable {dbg : Bool} {it it' : TineIter α} {i}
    (h : intervalNext dbg it = .ok (some i, it')) : ∃ r : RawInterval α, r.WF ∧ i = ⟨r.normalized.normalized⟩ := by
  unfold intervalNext at h
  cases e : it.next dbg with
  | error p => rw [e] at h; cases h
  | ok q =>
    obtain ⟨o, j⟩ := q
    rw [e] at h
    cases o with
    | none => cases h
    | some r =>
      cases h
      refine ⟨r, ?_, rfl⟩
      unfold TineIter.next at e
      split at e
      · rename_i l hl
        cases hw : nextWith dbg l { it with savedLower := none } <;> rw [hw] at e <;> cases e
        exact nextWith_wf hw
      · split at e
        · rename_i l rest ht
          cases hw : nextWith dbg l { it with tines := rest } <;> rw [hw] at e <;> cases e
          exact nextWith_wf hw
        · cases e

theorem intervalNextBack_obtainable {dbg : Bool} {it it' : TineIter α} {i}
    (h : intervalNextBack dbg it = .ok (some i, it')) :
    ∃ r : RawInterval α, r.WF ∧ i = ⟨r.normalized.normalized⟩ := by
  unfold intervalNextBack at h
  cases e : it.nextBack dbg with
  | error p => rw [e] at h; cases h
  | ok q =>
    obtain ⟨o, j⟩ := q
    rw [e] at h
    cases o with
    | none => cases h
    | some r =>
      cases h
      refine ⟨r, ?_, rfl⟩
      unfold TineIter.nextBack at e
      split at e
      · rename_i l hl
        cases hw : nextBackWith dbg l { it with savedUpper := none } <;> rw [hw] at e <;> cases e
        exact nextBackWith_wf hw
      · split at e
        · rename_i l ht
          cases hw : nextBackWith dbg l { it with tines := it.tines.dropLast } <;> rw [hw] at e <;> cases e
          exact nextBackWith_wf hw
        · cases e

end Selection

namespace PointIter
variable {α : Type} [LinearOrder α] [Finite α] [LawfulFinite α] [_root_.Finite α]

theorem step_bounded {get : TineIter α → Except Panic (Option (Interval α) × TineIter α)}
    {one : Interval α → Except Panic (Option α × Interval α)}
    (hg : ∀ it it' o, get it = .ok (o, it') → it'.weight + o.toList.length ≤ it.weight)
    (ho : ∀ it it' i, get it = .ok (some i, it') → i.Obtainable)
    (h1 : ∀ i : Interval α, i.Obtainable → ∀ o j, one i = .ok (o, j) →
      j.Obtainable ∧ j.budget + o.toList.length ≤ i.budget)
    {it it' : PointIter α} {o} (hc : it.current.Obtainable)
    (h : (do
      let (x, cur) ← one it.current
      match x with
      | some x => .ok (some x, { it with current := cur })
      | none =>
        let (i, is) ← get it.intervals
        match i with
        | none => .ok (none, ⟨is, cur⟩)
        | some i =>
          let (x, cur) ← one i
          .ok (x, ⟨is, cur⟩) : Except Panic (Option α × PointIter α)) = .ok (o, it')) :
    it'.current.Obtainable ∧
      it'.intervals.weight * Nat.card α + it'.current.budget + o.toList.length ≤
        it.intervals.weight * Nat.card α + it.current.budget := by
  simp only [bind, Except.bind] at h
  cases e : one it.current with
  | error p => rw [e] at h; cases h
  | ok q =>
    obtain ⟨x, cur⟩ := q
    obtain ⟨k1, k2⟩ := h1 _ hc _ _ e
    rw [e] at h
    cases x with
    | some x =>
      cases h
      exact ⟨k1, by simp at k2 ⊢; omega⟩
    | none =>
      simp only at h
      cases e2 : get it.intervals with
      | error p => rw [e2] at h; cases h
      | ok q =>
        obtain ⟨i, is⟩ := q
        have hw := hg _ _ _ e2
        rw [e2] at h
        cases i with
        | none =>
          cases h
          have := Nat.mul_le_mul_right (Nat.card α) (show is.weight ≤ it.intervals.weight by simpa using hw)
          exact ⟨k1, by simp at k2 ⊢; omega⟩
        | some i =>
          simp only at h
          cases e3 : one i with
          | error p => rw [e3] at h; cases h
          | ok q =>
            obtain ⟨y, cur'⟩ := q
            rw [e3] at h
            cases h
            obtain ⟨k3, k4⟩ := h1 _ (ho _ _ _ e2) _ _ e3
            have hb := Interval.budget_le i
            have := Nat.mul_le_mul_right (Nat.card α) (show is.weight + 1 ≤ it.intervals.weight by simpa using hw)
            rw [Nat.add_mul] at this
            exact ⟨k3, by simp at k4 ⊢; omega⟩

/-- **C106.**  Iterating over the points of any selection of a type with finitely many values ends: it hands out at
most (entries of the tree) × (values of the type) points, whatever the selection and the mix of calls. -/
theorem C106_selection_points (dbg : Bool) (s : Selection α) (cs : List IterCall) (os : List (Option α))
    (h : drive (PointIter.next dbg) (PointIter.nextBack dbg) (PointIter.start s) cs = .ok os) :
    os.countP (·.isSome) ≤ s.tree.length * Nat.card α := by
  have ob : ∀ i : Interval α, (∃ r : RawInterval α, r.WF ∧ i = ⟨r.normalized.normalized⟩) → i.Obtainable := by
    rintro _ ⟨r, hr, rfl⟩
    rw [RawInterval.normalized_idem]
    exact .ofRaw r hr
  have := drive_bounded (next := PointIter.next dbg) (nextBack := PointIter.nextBack dbg)
    (fun it => it.current.Obtainable)
    (fun it => it.intervals.weight * Nat.card α + it.current.budget)
    (fun s s' o hp e => step_bounded (get := Selection.intervalNext dbg) (one := Interval.next)
      (fun _ _ _ e => Selection.intervalNext_weight e)
      (fun _ _ _ e => ob _ (Selection.intervalNext_obtainable e)) (fun i hi => (Interval.budget_step hi).1) hp e)
    (fun s s' o hp e => step_bounded (get := Selection.intervalNextBack dbg) (one := Interval.nextBack)
      (fun _ _ _ e => Selection.intervalNextBack_weight e)
      (fun _ _ _ e => ob _ (Selection.intervalNextBack_obtainable e)) (fun i hi => (Interval.budget_step hi).2) hp e)
    cs (s := PointIter.start s) .empty h
  have hb : (PointIter.start s).current.budget = 0 := Interval.budget_empty
  rw [hb] at this
  exact this

example : _root_.Finite U8 ∧ drive (PointIter.next true) (PointIter.nextBack true)
    (PointIter.start (Selection.demo [(u8 3, u8 4), (u8 9, u8 9)])) [.next, .nextBack, .next, .next, .next] =
    .ok [some (u8 3), some (u8 4), some (u8 9), none, none] :=
  ⟨Set.finite_univ_iff.1 (MInt.finite Set.univ), by decide⟩

end PointIter
end NI
