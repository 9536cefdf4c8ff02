import Verif.Model.Owned
import Verif.Props.SharpSel

/-!
# C83: owning iterators, and the conversions that do what another one does
-/

namespace NI

/-- Iterators that simulate each other yield the same. -/
theorem drive_congr {σ τ β : Type} {n1 b1 : σ → Except Panic (Option β × σ)}
    {n2 b2 : τ → Except Panic (Option β × τ)} (f : σ → τ)
    (hn : ∀ s, n2 (f s) = (n1 s).map fun p => (p.1, f p.2))
    (hb : ∀ s, b2 (f s) = (b1 s).map fun p => (p.1, f p.2)) (cs : List IterCall) :
    ∀ s, drive n1 b1 s cs = drive n2 b2 (f s) cs := by
  induction cs with
  | nil => intro s; rfl
  | cons c cs ih =>
    intro s
    cases c with
    | next =>
      simp only [drive, hn]
      cases n1 s with
      | error e => rfl
      | ok p => simp only [Except.map, bind, Except.bind, ih]
    | nextBack =>
      simp only [drive, hb]
      cases b1 s with
      | error e => rfl
      | ok p => simp only [Except.map, bind, Except.bind, ih]

/-- `as_mut` shows what `as_ref` shows; assigning through it changes the value and nothing else. -/
theorem C63_as_mut {α : Type} (b : Bound α) :
    (b.asMut.map Prod.fst = b.asRef) ∧
    ∀ v set, b.asMut = some (v, set) → set v = b ∧ ∀ w, (set w).asRef = some w ∧
      (set w).isInclusive = b.isInclusive ∧ (set w).isExclusive = b.isExclusive := by
  cases b <;> simp [Bound.asMut, Bound.asRef, Bound.isInclusive, Bound.isExclusive]

example : ((Bound.excl (3 : Int)).asMut.map fun p => p.2 7) = some (.excl 7) := by decide

variable {α : Type} [LinearOrder α]

/-- The borrowing iterator in the same state. -/
def IntoTineIter.borrow (it : IntoTineIter α) : TineIter α := ⟨it.inner, it.savedLower, it.savedUpper⟩

theorem IntoTineIter.next_borrow (dbg : Bool) (it : IntoTineIter α) :
    it.borrow.next dbg = (it.next dbg).map fun p => (p.1, p.2.borrow) := by
  obtain ⟨ts, sl, su⟩ := it
  rcases sl with _ | l
  · rcases ts with _ | ⟨l, ts⟩
    · rfl
    · rcases l with b | b | b <;> rcases b with p | p | _ <;> rcases ts with _ | ⟨u, ts⟩ <;>
        rcases su with _ | su <;> cases dbg <;>
        simp [TineIter.next, TineIter.nextWith, IntoTineIter.next, IntoTineIter.pop, borrow, dassert, bind,
          Except.bind, Except.map, Tine.isLowerBound] <;> grind
  · rcases l with b | b | b <;> rcases b with p | p | _ <;> rcases ts with _ | ⟨u, ts⟩ <;>
      rcases su with _ | su <;> cases dbg <;>
      simp [TineIter.next, TineIter.nextWith, IntoTineIter.next, IntoTineIter.pop, borrow, dassert, bind,
        Except.bind, Except.map, Tine.isLowerBound] <;> grind

theorem IntoTineIter.nextBack_borrow (dbg : Bool) (it : IntoTineIter α) :
    it.borrow.nextBack dbg = (it.nextBack dbg).map fun p => (p.1, p.2.borrow) := by
  obtain ⟨ts, sl, su⟩ := it
  rcases su with _ | u
  · rcases List.eq_nil_or_concat ts with rfl | ⟨ts, u, rfl⟩
    · rfl
    · rcases u with b | b | b <;> rcases b with p | p | _ <;>
        rcases List.eq_nil_or_concat ts with rfl | ⟨ts, l, rfl⟩ <;>
        rcases sl with _ | sl <;> cases dbg <;>
        simp [TineIter.nextBack, TineIter.nextBackWith, IntoTineIter.nextBack, IntoTineIter.popBack, borrow,
          dassert, bind, Except.bind, Except.map, Tine.isUpperBound, List.concat_eq_append] <;> grind
  · rcases u with b | b | b <;> rcases b with p | p | _ <;>
      rcases List.eq_nil_or_concat ts with rfl | ⟨ts, l, rfl⟩ <;>
      rcases sl with _ | sl <;> cases dbg <;>
      simp [TineIter.nextBack, TineIter.nextBackWith, IntoTineIter.nextBack, IntoTineIter.popBack, borrow,
        dassert, bind, Except.bind, Except.map, Tine.isUpperBound, List.concat_eq_append] <;> grind

/-- `tree.into_iter()` and `tree.interval_iter()` yield the same intervals (or panic alike) under every
series of calls, for every tree whatsoever. -/
theorem C83_tree (dbg : Bool) (t : TineTree α) (cs : List IterCall) :
    drive (IntoTineIter.next dbg) (IntoTineIter.nextBack dbg) (IntoTineIter.start t) cs =
      drive (TineIter.next dbg) (TineIter.nextBack dbg) (TineIter.start t) cs :=
  drive_congr IntoTineIter.borrow (IntoTineIter.next_borrow dbg) (IntoTineIter.nextBack_borrow dbg) cs _

example : drive (IntoTineIter.next true) (IntoTineIter.nextBack true)
    (IntoTineIter.start [.lower (.incl 0), .point (.excl 2), .upper (.excl (4 : Int)), .point (.incl 6)])
    [.next, .nextBack, .next, .next] =
      .ok [some (.rightOpen 0 2), some (.point 6), some (.opn 2 4), none] := by decide

/-- The conversions of iterators and of one interval make the same trees as the other ways to make
them. -/
theorem C83_conversions (dbg : Bool) (is : List (RawInterval α)) (i : RawInterval α) :
    TineTree.ofIterator dbg is = TineTree.fromIter dbg is ∧
      TineTree.ofRaw i = TineTree.fromRawInterval i ∧
      (TineTree.default' : TineTree α) = TineTree.new := by
  refine ⟨?_, rfl, rfl⟩
  unfold TineTree.ofIterator TineTree.fromIter
  generalize (TineTree.new : TineTree α) = t
  induction is generalizing t with
  | nil => rfl
  | cons i is ih =>
    rw [TineTree.ofIterator.go, List.foldlM_cons]
    cases t.unionInPlace dbg i with
    | error e => rfl
    | ok t => exact ih t

example : TineTree.ofIterator true [.closed 0 1, .closed (4 : Int) 5] =
    .ok [.lower (.incl 0), .upper (.incl 1), .lower (.incl 4), .upper (.incl 5)] := by decide

variable [Finite α]

/-- `selection.into_interval_iter()` and `selection.interval_iter()` yield the same. -/
theorem C83_intervals (dbg : Bool) (s : Selection α) (cs : List IterCall) :
    drive (Selection.intoIntervalNext dbg) (Selection.intoIntervalNextBack dbg) s.intoIntervalIter cs =
      drive (Selection.intervalNext dbg) (Selection.intervalNextBack dbg) (TineIter.start s.tree) cs := by
  refine drive_congr IntoTineIter.borrow (fun it => ?_) (fun it => ?_) cs _
  · rw [Selection.intervalNext, Selection.intoIntervalNext, it.next_borrow]
    cases it.next dbg with
    | error e => rfl
    | ok p => rcases p with ⟨_ | r, it⟩ <;> rfl
  · rw [Selection.intervalNextBack, Selection.intoIntervalNextBack, it.nextBack_borrow]
    cases it.nextBack dbg with
    | error e => rfl
    | ok p => rcases p with ⟨_ | r, it⟩ <;> rfl

example : drive (Selection.intoIntervalNext true) (Selection.intoIntervalNextBack true)
    (Selection.demo [(u8 3, u8 5), (u8 9, u8 255)]).intoIntervalIter [.nextBack, .next, .next] =
      .ok [some (Interval.mkClosed (u8 9) (u8 255)), some (Interval.mkClosed (u8 3) (u8 5)), none] := by decide

/-- The borrowing point iterator in the same state. -/
def IntoPointIter.borrow (it : IntoPointIter α) : PointIter α := ⟨it.intervals.borrow, it.current⟩

/-- `selection.into_iter()` and `selection.iter()` yield the same. -/
theorem C83_points (dbg : Bool) (s : Selection α) (cs : List IterCall) :
    drive (IntoPointIter.next dbg) (IntoPointIter.nextBack dbg) (IntoPointIter.start s) cs =
      drive (PointIter.next dbg) (PointIter.nextBack dbg) (PointIter.start s) cs := by
  refine drive_congr IntoPointIter.borrow (fun it => ?_) (fun it => ?_) cs _
  · rw [PointIter.next, IntoPointIter.next]
    simp only [IntoPointIter.borrow, Selection.intervalNext, it.intervals.next_borrow]
    cases it.current.next with
    | error e => rfl
    | ok p =>
      rcases p with ⟨_ | x, cur⟩
      · cases it.intervals.next dbg with
        | error e => rfl
        | ok p =>
          rcases p with ⟨_ | r, is⟩
          · rfl
          · simp only [Except.map, bind, Except.bind, Option.map]
            cases (Interval.ofRaw r.normalized).next <;> rfl
      · rfl
  · rw [PointIter.nextBack, IntoPointIter.nextBack]
    simp only [IntoPointIter.borrow, Selection.intervalNextBack, it.intervals.nextBack_borrow]
    cases it.current.nextBack with
    | error e => rfl
    | ok p =>
      rcases p with ⟨_ | x, cur⟩
      · cases it.intervals.nextBack dbg with
        | error e => rfl
        | ok p =>
          rcases p with ⟨_ | r, is⟩
          · rfl
          · simp only [Except.map, bind, Except.bind, Option.map]
            cases (Interval.ofRaw r.normalized).nextBack <;> rfl
      · rfl

example : drive (IntoPointIter.next true) (IntoPointIter.nextBack true)
    (IntoPointIter.start (Selection.demo [(u8 3, u8 5), (u8 9, u8 9)])) [.nextBack, .next, .next, .next, .next] =
      .ok [some (u8 9), some (u8 3), some (u8 4), some (u8 5), none] := by decide

end NI
