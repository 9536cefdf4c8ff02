import Verif.Lemmas.SelOps

/-! # Iterators over selections -/

set_option linter.unusedSimpArgs false
set_option linter.unusedVariables false
set_option linter.unnecessarySeqFocus false
set_option linter.unusedSectionVars false
set_option linter.unusedTactic false
set_option linter.unreachableTactic false
set_option linter.unnecessarySimpa false

namespace NI
open Finite

namespace TT
variable {α : Type} [LinearOrder α]
open BSet (Lt Gt At)

theorem pieces_app {A B : List (Tine α)} (hok : ∀ t ∈ A, t.Ok) :
    (Chain false A false → pieces none (A ++ B) = pieces none A ++ pieces none B) ∧
    (∀ b, Chain true A false → pieces (some b) (A ++ B) = pieces (some b) A ++ pieces none B) := by
  induction A with
  | nil => simp [pieces, Chain]
  | cons t ts ih =>
    obtain ⟨ih1, ih2⟩ := ih (fun x hx => hok x (by simp [hx]))
    have h0 := hok t (by simp)
    constructor
    · rintro ⟨h1, h2⟩
      rcases t with b | (b | b | _) | b <;> simp [Tine.isUpperBound, Tine.isLowerBound] at h1 h2
      · simp [pieces, ih2 _ h2]
      · simp [pieces, ih1 h2]
      · exact absurd rfl h0
    · rintro b0 ⟨h1, h2⟩
      rcases t with b | (b | b | _) | b <;> simp [Tine.isUpperBound, Tine.isLowerBound] at h1 h2
      · simp [pieces, ih2 _ h2]
      · simp [pieces, ih1 h2]

/-- The last piece of a list of tines that ends inside. -/
theorem pieces_last {A : List (Tine α)} (u : Bound α) (y : Tine α) (hy : y.isLowerBound = true)
    (hok : ∀ t ∈ A ++ [y], t.Ok) :
    (Chain false (A ++ [y]) true →
      ∃ Q, pieces none (A ++ [y, .upper u]) = Q ++ [RawInterval.new y.intoInner u]) ∧
    (∀ b, Chain true (A ++ [y]) true →
      ∃ Q, pieces (some b) (A ++ [y, .upper u]) = Q ++ [RawInterval.new y.intoInner u]) := by
  induction A with
  | nil =>
    have h0 := hok y (by simp)
    constructor
    · rintro ⟨h1, h2⟩
      rcases y with b | (b | b | _) | b <;> simp [Tine.isUpperBound, Tine.isLowerBound] at h1 hy
      exact ⟨[], by simp [pieces, Tine.intoInner]⟩
    · rintro b0 ⟨h1, h2⟩
      rcases y with b | (b | b | _) | b <;> simp [Tine.isUpperBound, Tine.isLowerBound] at h1 hy
      exact ⟨[RawInterval.new b0 (.excl b)], by simp [pieces, Tine.intoInner]⟩
  | cons t ts ih =>
    obtain ⟨ih1, ih2⟩ := ih (fun x hx => hok x (by simp at hx ⊢; tauto))
    have h0 := hok t (by simp)
    constructor
    · rintro ⟨h1, h2⟩
      rcases t with b | (b | b | _) | b <;> simp [Tine.isUpperBound, Tine.isLowerBound] at h1 h2
      · obtain ⟨Q, e⟩ := ih2 b h2
        exact ⟨Q, by simpa [pieces] using e⟩
      · obtain ⟨Q, e⟩ := ih1 h2
        exact ⟨.point b :: Q, by simp [pieces, e]⟩
      · exact absurd rfl h0
    · rintro b0 ⟨h1, h2⟩
      rcases t with b | (b | b | _) | b <;> simp [Tine.isUpperBound, Tine.isLowerBound] at h1 h2
      · obtain ⟨Q, e⟩ := ih2 (.excl b) h2
        exact ⟨RawInterval.new b0 (.excl b) :: Q, by simp [pieces, e]⟩
      · obtain ⟨Q, e⟩ := ih1 h2
        exact ⟨RawInterval.new b0 b :: Q, by simp [pieces, e]⟩

/-- The first `next_back` call returns the last piece, whatever the tree. -/
theorem nextBack_first (dbg : Bool) {t : TineTree α} (h : Valid t) :
    ∃ it, (TineIter.start t).nextBack dbg = .ok ((pieces none t).getLast?, it) := by
  rcases List.eq_nil_or_concat t with rfl | ⟨A, x, rfl⟩
  · exact ⟨_, rfl⟩
  rw [List.concat_eq_append] at *
  obtain ⟨m, c1, c2, c3⟩ := chain_append.1 h.2
  have hok := h.1.1
  have h1 := hok x (by simp)
  rcases x with b | (p | p | _) | u <;>
    simp [Tine.isUpperBound, Tine.isLowerBound, Chain] at c2 c3
  · subst c2
    rw [(pieces_app fun t ht => hok t (by simp [ht])).1 c1]
    refine ⟨⟨A, none, none⟩, ?_⟩
    simp [TineIter.start, TineIter.nextBack, TineIter.nextBackWith, bind, Except.bind, pieces]
  · exact absurd rfl h1
  · subst c2
    rcases List.eq_nil_or_concat A with rfl | ⟨A, y, rfl⟩
    · simp [Chain] at c1
    · rw [List.concat_eq_append] at *
      have hc1 := c1
      obtain ⟨m, c4, c5, c6⟩ := chain_append.1 c1
      simp only [Chain] at c5 c6
      obtain ⟨Q, e⟩ := (pieces_last u y c6 fun t ht => hok t
        (by simp at ht ⊢; tauto)).1 hc1
      have e2 : pieces none ((A ++ [y]) ++ [Tine.upper u]) = Q ++ [RawInterval.new y.intoInner u] := by
        rw [List.append_assoc]; exact e
      rw [e2]
      refine ⟨if y.isPointExclude then ⟨A, some y, none⟩ else ⟨A, none, none⟩, ?_⟩
      cases dbg <;> simp [TineIter.start, TineIter.nextBack, TineIter.nextBackWith, bind,
        Except.bind, dassert, Tine.isUpperBound, c6, Tine.isPointExclude, Tine.intoInner]

theorem next_first (dbg : Bool) {t : TineTree α} (h : Valid t) :
    ∃ it, (TineIter.start t).next dbg = .ok ((pieces none t).head?, it) := by
  rcases next_step dbg t none h.1.1 h.2 with ⟨_, _, e, h1⟩ | ⟨i, ts', sv, h1, _, _, _, h2⟩
  · refine ⟨itState [] none, h1.trans ?_⟩; rw [show pieces none t = [] from e]; rfl
  · refine ⟨itState ts' sv, h2.trans ?_⟩; rw [show pieces none t = _ from h1]; rfl

/-- Both ends of a hole-free tree. -/
theorem deque_step (dbg : Bool) {t : TineTree α} (hok : ∀ x ∈ t, x.Ok) (hf : HoleFree t)
    (hc : Chain false t false) :
    (t = [] ∧ TineIter.next dbg ⟨t, none, none⟩ = .ok (none, ⟨t, none, none⟩) ∧
      TineIter.nextBack dbg ⟨t, none, none⟩ = .ok (none, ⟨t, none, none⟩)) ∨
    ((∃ i A, pieces none t = i :: pieces none A ∧ (∀ x ∈ A, x.Ok) ∧ HoleFree A ∧
        Chain false A false ∧ TineIter.next dbg ⟨t, none, none⟩ = .ok (some i, ⟨A, none, none⟩)) ∧
     (∃ i A, pieces none t = pieces none A ++ [i] ∧ (∀ x ∈ A, x.Ok) ∧ HoleFree A ∧
        Chain false A false ∧
        TineIter.nextBack dbg ⟨t, none, none⟩ = .ok (some i, ⟨A, none, none⟩))) := by
  by_cases h0 : t = []
  · subst h0; exact .inl ⟨rfl, rfl, rfl⟩
  refine .inr ⟨?_, ?_⟩
  · rcases t with _ | ⟨x, t⟩
    · exact absurd rfl h0
    obtain ⟨c1, c2⟩ := hc
    have h1 := hok x (by simp)
    rcases x with b | (p | p | _) | u <;> simp [Tine.isUpperBound, Tine.isLowerBound] at c1 c2
    · rcases t with _ | ⟨y, t⟩
      · simp [Chain] at c2
      obtain ⟨c3, c4⟩ := c2
      have h2 := hok y (by simp)
      have h3 := hf y (by simp)
      rcases y with b' | (p | p | _) | u <;>
        simp [Tine.isUpperBound, Tine.isLowerBound, Tine.isPointExclude] at c3 c4 h3
      refine ⟨_, t, by simp [pieces]; rfl, fun x hx => hok x (by simp [hx]),
        fun x hx => hf x (by simp [hx]), c4, ?_⟩
      cases dbg <;> simp [TineIter.next, TineIter.nextWith, bind, Except.bind, dassert,
        Tine.isUpperBound, Tine.isLowerBound, Tine.isPointExclude, Tine.intoInner]
    · refine ⟨.point p, t, by simp [pieces], fun x hx => hok x (by simp [hx]),
        fun x hx => hf x (by simp [hx]), c2, ?_⟩
      simp [TineIter.next, TineIter.nextWith, bind, Except.bind]
    · exact absurd rfl h1
  · rcases last_piece hok hf hc with rfl | ⟨A, p, rfl, hA⟩ | ⟨A, l, u, rfl, hA⟩
    · exact absurd rfl h0
    · have hokA : ∀ x ∈ A, x.Ok := fun x hx => hok x (by simp [hx])
      have hfA : HoleFree A := fun x hx => hf x (by simp [hx])
      refine ⟨.point p, A, by rw [(pieces_append hokA hfA).1 hA]; simp [pieces], hokA, hfA, hA, ?_⟩
      simp [TineIter.nextBack, TineIter.nextBackWith, bind, Except.bind]
    · have hokA : ∀ x ∈ A, x.Ok := fun x hx => hok x (by simp [hx])
      have hfA : HoleFree A := fun x hx => hf x (by simp [hx])
      refine ⟨RawInterval.new l u, A, by rw [(pieces_append hokA hfA).1 hA]; simp [pieces], hokA,
        hfA, hA, ?_⟩
      have e : A ++ [Tine.lower l, Tine.upper u] = (A ++ [Tine.lower l]) ++ [Tine.upper u] := by simp
      rw [e]
      cases dbg <;> simp [TineIter.nextBack, TineIter.nextBackWith, bind, Except.bind, dassert,
        Tine.isUpperBound, Tine.isLowerBound, Tine.isPointExclude, Tine.intoInner]

end TT

namespace Selection
variable {α : Type} [LinearOrder α] [Finite α] [LawfulFinite α]
open TT

/-- A piece as the selection reports it. -/
def run (i : RawInterval α) : Interval α := ⟨i.normalized⟩

theorem run_eq (i : RawInterval α) : Interval.ofRaw i.normalized = run i := by
  rw [Interval.ofRaw, run, RawInterval.normalized_idem]

theorem intervalsAux_eq (dbg : Bool) (n : Nat) (ts : List (Tine α)) (saved : Option α)
    (hok : ∀ t ∈ ts, t.Ok) (hc : Chain saved.isSome ts false) (hn : ts.length < n)
    (acc : List (Interval α)) : intervalsAux dbg n (itState ts saved) acc =
      .ok (acc ++ (pieces (saved.map .excl) ts).map run) := by
  induction n generalizing ts saved acc with
  | zero => omega
  | succ n ih =>
    rcases next_step dbg ts saved hok hc with ⟨h1, h2, h3, h4⟩ | ⟨i, ts', saved', h1, h2, h3, h4, h5⟩
    · simp [intervalsAux, intervalNext, h4, h3, bind, Except.bind]
    · simp only [intervalsAux, intervalNext, h5, bind, Except.bind, Option.map_some]
      rw [ih ts' saved' (fun t ht => hok t (h4 t ht)) h2 (by omega), h1]
      simp [run_eq]

theorem intervals_eq (dbg : Bool) {s : Selection α} (h : Valid s.tree) :
    s.intervals dbg = .ok ((pieces none s.tree).map run) := by
  have := intervalsAux_eq dbg (TineIter.start s.tree).size s.tree none h.1.1 h.2
    (by simp [TineIter.size, TineIter.start]; omega) []
  exact this

theorem intervalsBackAux_eq (dbg : Bool) (n : Nat) {t : TineTree α} (hok : ∀ x ∈ t, x.Ok)
    (hf : HoleFree t) (hc : Chain false t false) (hn : (pieces none t).length < n)
    (acc : List (Interval α)) : intervalsBackAux dbg n ⟨t, none, none⟩ acc =
      .ok (acc ++ ((pieces none t).map run).reverse) := by
  induction n generalizing t acc with
  | zero => omega
  | succ n ih =>
    rcases deque_step dbg hok hf hc with ⟨rfl, _, h⟩ | ⟨_, i, A, h1, h2, h3, h4, h5⟩
    · simp [intervalsBackAux, intervalNextBack, h, bind, Except.bind, pieces]
    · simp only [intervalsBackAux, intervalNextBack, h5, bind, Except.bind, Option.map_some]
      rw [ih h2 h3 h4 (by rw [h1] at hn; simp at hn; omega), h1]
      simp [run_eq]

theorem pieces_length {ts : List (Tine α)} (o : Option (Bound α)) : (pieces o ts).length ≤ ts.length := by
  induction ts generalizing o with
  | nil => cases o <;> simp [pieces]
  | cons t ts ih =>
    cases o <;> rcases t with b | (b | b | _) | b <;> simp [pieces] <;>
      first | exact ih _ | exact (ih _).trans (Nat.le_succ _)

theorem intervalsBack_eq (dbg : Bool) {s : Selection α} (h : Valid s.tree) (hf : HoleFree s.tree) :
    s.intervalsBack dbg = .ok ((pieces none s.tree).map run).reverse := by
  have := intervalsBackAux_eq dbg (TineIter.start s.tree).size h.1.1 hf h.2
    (by have := pieces_length (ts := s.tree) none
        simp only [TineIter.size, TineIter.start]; omega) []
  exact this

/-- A piece with a point. -/
def Good (i : RawInterval α) : Prop := i.WF ∧ ∃ x, i.contains x = true

theorem run_pts (i : RawInterval α) : (run i).pts = {x | i.contains x = true} := by
  rw [Interval.pts_eq, run]
  change i.normalized.pts = _
  rw [RawInterval.normalized_pts]
  ext x; exact (RawInterval.contains_iff i x).symm

theorem run_contains (i : RawInterval α) (x : α) : (run i).contains x = i.contains x := by
  have := Set.ext_iff.1 (run_pts i) x
  simp only [Interval.pts, Set.mem_ofPred_eq] at this
  rw [Bool.eq_iff_iff]; exact this

theorem Good.run_ok {i : RawInterval α} (h : Good i) : (run i).Obtainable ∧ (run i).Real ∧
    (run i).pts.Nonempty := by
  obtain ⟨hw, x, hx⟩ := h
  have : (run i).contains x = true := by rw [run_contains, hx]
  exact ⟨.ofRaw i hw, .inr ⟨x, this⟩, x, this⟩

/-- A non-empty run is a point or a closed interval. -/
theorem Good.cases {i : RawInterval α} (h : Good i) : ∃ l u, l ≤ u ∧ (run i).pts = Set.Icc l u ∧
    (run i).lowerBound = some (.incl l) ∧ (run i).upperBound = some (.incl u) ∧
    (run i).isEmpty = false := by
  obtain ⟨h1, h2, h3⟩ := h.run_ok
  rcases Interval.real_cases h1 h2 with e | ⟨p, e⟩ | ⟨l, u, e, hlu⟩
  · rw [e] at h3; obtain ⟨x, hx⟩ := h3; cases hx
  · refine ⟨p, p, le_refl _, ?_, by rw [e]; rfl, by rw [e]; rfl, by rw [e]; rfl⟩
    rw [e, Interval.pts_eq]
    change ({p} : Set α) = _
    ext x
    refine ⟨?_, fun h => le_antisymm h.2 h.1⟩
    rintro rfl; exact ⟨le_refl _, le_refl _⟩
  · exact ⟨l, u, hlu, by rw [e, Interval.pts_eq]; rfl, by rw [e]; rfl, by rw [e]; rfl, by rw [e]; rfl⟩

theorem np_good {t : TineTree α} (v : Valid t) (h : NP t) : ∀ i ∈ pieces none t, Good i := fun i hi =>
  ⟨((pieces_wf v.1).1 i hi).1, h.piece v hi⟩

/-- Points of a list of pieces. -/
def rest (l : List (RawInterval α)) : Set α := {x | ∃ i ∈ l, i.contains x = true}

/-- Strictly increasing pieces. -/
def Inc (l : List (RawInterval α)) : Prop :=
  l.Pairwise fun i j => ∀ x y, i.contains x = true → j.contains y = true → x < y

theorem pieces_inc {t : TineTree α} (v : Valid t) : Inc (pieces none t) :=
  (pieces_sep v.1).1.imp fun ⟨u, l, h1, h2, h3⟩ x y hx hy => by
    obtain ⟨_, u', _, e2, _, g1⟩ := (RawInterval.contains_iff_bounds _ x).1 hx
    obtain ⟨l', _, e3, _, g2, _⟩ := (RawInterval.contains_iff_bounds _ y).1 hy
    rw [h1] at e2; rw [h2] at e3
    cases e2; cases e3
    exact sep_lt h3 g1 g2

theorem rest_pieces (dbg : Bool) {s : Selection α} (h : Valid s.tree) :
    rest (pieces none s.tree) = s.pts dbg := by
  ext x
  rw [pts, Set.mem_ofPred_eq, contains_iff dbg h]
  exact ⟨fun ⟨i, hi, hx⟩ => piece_in h hi hx, fun hx => in_piece h hx⟩

/-- Forward iteration. -/
theorem fwd_walk (dbg : Bool) (n : Nat) : ∀ {ts : List (Tine α)} {saved : Option α} {cur : Interval α},
    (∀ t ∈ ts, t.Ok) → Chain saved.isSome ts false → cur.Obtainable → cur.Real →
    (∀ i ∈ pieces (saved.map .excl) ts, Good i) → Inc (pieces (saved.map .excl) ts) →
    (∀ x ∈ cur.pts, ∀ y ∈ rest (pieces (saved.map .excl) ts), x < y) →
    ∃ os, drive (PointIter.next dbg) (PointIter.nextBack dbg) ⟨itState ts saved, cur⟩
        (List.replicate n .next) = .ok os ∧
      Walk (cur.pts ∪ rest (pieces (saved.map .excl) ts)) (List.replicate n .next) os := by
  induction n with
  | zero => intros; exact ⟨[], rfl, .nil _⟩
  | succ n ih =>
    intro ts saved cur hok hc ho hr hg hi hlt
    rw [List.replicate_succ]
    rcases Interval.iter_step ho hr with ⟨he, h1, -⟩ | ⟨⟨m, c', hm, h1, h2, h3, h4⟩, -⟩
    · rcases next_step dbg ts saved hok hc with ⟨k1, k2, k3, k4⟩ | ⟨i, ts', saved', k1, k2, k3, k4, k5⟩
      · subst k1 k2
        obtain ⟨os, e, w⟩ := ih (ts := []) (saved := none) (by simp) rfl ho hr hg hi hlt
        refine ⟨none :: os, ?_, .done ?_ w⟩
        · simp only [drive, PointIter.next, h1, intervalNext, k4, bind, Except.bind, Option.map_none, e]
          rfl
        · rw [he, k3]; ext x; simp [rest]
      · rw [k1] at hg hi hlt ⊢
        obtain ⟨g1, g2, g3⟩ := (hg i (by simp)).run_ok
        rcases Interval.iter_step g1 g2 with ⟨z, -⟩ | ⟨⟨m, c', hm, j1, j2, j3, j4⟩, -⟩
        · rw [z] at g3; exact absurd g3 (by simp)
        have hlt' : ∀ x ∈ (run i).pts, ∀ y ∈ rest (pieces (saved'.map .excl) ts'), x < y := by
          rw [run_pts]
          rintro x hx y ⟨j, hj, hy⟩
          exact (List.pairwise_cons.1 hi).1 j hj x y hx hy
        obtain ⟨os, e, w⟩ := ih (ts := ts') (saved := saved') (cur := c')
          (fun t ht => hok t (k4 t ht)) k2 j2 j3 (fun j hj => hg j (by simp [hj]))
          (List.pairwise_cons.1 hi).2 (fun x hx => hlt' x (by rw [j4] at hx; exact hx.1))
        have hS : cur.pts ∪ rest (i :: pieces (saved'.map .excl) ts') =
            (run i).pts ∪ rest (pieces (saved'.map .excl) ts') := by
          rw [he, run_pts]; ext x; simp [rest]
        refine ⟨some m :: os, ?_, .next ?_ ?_⟩
        · simp only [drive, PointIter.next, h1, intervalNext, k5, bind, Except.bind, Option.map_some,
            run_eq, j1, e]
          rfl
        · rw [hS]
          refine ⟨.inl hm.1, ?_⟩
          rintro x (hx | hx)
          · exact hm.2 hx
          · exact (hlt' m hm.1 x hx).le
        · rw [hS]
          have : ((run i).pts ∪ rest (pieces (saved'.map .excl) ts')) \ {m} =
              c'.pts ∪ rest (pieces (saved'.map .excl) ts') := by
            rw [j4]
            ext x
            simp only [Set.mem_sdiff, Set.mem_union, Set.mem_singleton_iff]
            constructor
            · rintro ⟨h | h, h'⟩
              · exact .inl ⟨h, h'⟩
              · exact .inr h
            · rintro (⟨h, h'⟩ | h)
              · exact ⟨.inl h, h'⟩
              · exact ⟨.inr h, (hlt' m hm.1 x h).ne'⟩
          rw [this]; exact w
    · obtain ⟨os, e, w⟩ := ih (ts := ts) (saved := saved) (cur := c') hok hc h2 h3 hg hi
        (fun x hx => hlt x (by rw [h4] at hx; exact hx.1))
      refine ⟨some m :: os, ?_, .next ?_ ?_⟩
      · simp only [drive, PointIter.next, h1, bind, Except.bind, e]
        rfl
      · refine ⟨.inl hm.1, ?_⟩
        rintro x (hx | hx)
        · exact hm.2 hx
        · exact (hlt m hm.1 x hx).le
      · have : (cur.pts ∪ rest (pieces (saved.map .excl) ts)) \ {m} =
            c'.pts ∪ rest (pieces (saved.map .excl) ts) := by
          rw [h4]
          ext x
          simp only [Set.mem_sdiff, Set.mem_union, Set.mem_singleton_iff]
          constructor
          · rintro ⟨h | h, h'⟩
            · exact .inl ⟨h, h'⟩
            · exact .inr h
          · rintro (⟨h, h'⟩ | h)
            · exact ⟨.inl h, h'⟩
            · exact ⟨.inr h, (hlt m hm.1 x h).ne'⟩
        rw [this]; exact w

/-- Reverse iteration of hole-free trees. -/
theorem bwd_walk (dbg : Bool) (n : Nat) : ∀ {t : List (Tine α)} {cur : Interval α},
    (∀ x ∈ t, x.Ok) → HoleFree t → Chain false t false → cur.Obtainable → cur.Real →
    (∀ i ∈ pieces none t, Good i) → Inc (pieces none t) →
    (∀ x ∈ cur.pts, ∀ y ∈ rest (pieces none t), y < x) →
    ∃ os, drive (PointIter.next dbg) (PointIter.nextBack dbg) ⟨⟨t, none, none⟩, cur⟩
        (List.replicate n .nextBack) = .ok os ∧
      Walk (cur.pts ∪ rest (pieces none t)) (List.replicate n .nextBack) os := by
  induction n with
  | zero => intros; exact ⟨[], rfl, .nil _⟩
  | succ n ih =>
    intro t cur hok hf hc ho hr hg hi hlt
    rw [List.replicate_succ]
    rcases Interval.iter_step ho hr with ⟨he, -, h1⟩ | ⟨-, ⟨m, c', hm, h1, h2, h3, h4⟩⟩
    · rcases deque_step dbg hok hf hc with ⟨k1, -, k4⟩ | ⟨-, i, A, k1, k2, k3, k4, k5⟩
      · subst k1
        obtain ⟨os, e, w⟩ := ih (t := []) (by simp) (by simp [HoleFree]) rfl ho hr hg hi hlt
        refine ⟨none :: os, ?_, .done ?_ w⟩
        · simp only [drive, PointIter.nextBack, h1, intervalNextBack, k4, bind, Except.bind,
            Option.map_none, e]
          rfl
        · rw [he]; ext x; simp [rest, pieces]
      · rw [k1] at hg hi hlt ⊢
        obtain ⟨g1, g2, g3⟩ := (hg i (by simp)).run_ok
        rcases Interval.iter_step g1 g2 with ⟨z, -⟩ | ⟨-, ⟨m, c', hm, j1, j2, j3, j4⟩⟩
        · rw [z] at g3; exact absurd g3 (by simp)
        have hlt' : ∀ x ∈ (run i).pts, ∀ y ∈ rest (pieces none A), y < x := by
          rw [run_pts]
          rintro x hx y ⟨j, hj, hy⟩
          exact (List.pairwise_append.1 hi).2.2 j hj i (by simp) y x hy hx
        obtain ⟨os, e, w⟩ := ih (t := A) (cur := c') k2 k3 k4 j2 j3
          (fun j hj => hg j (by simp [hj]))
          (List.pairwise_append.1 hi).1 (fun x hx => hlt' x (by rw [j4] at hx; exact hx.1))
        have hS : cur.pts ∪ rest (pieces none A ++ [i]) = (run i).pts ∪ rest (pieces none A) := by
          rw [he, run_pts]; ext x; simp [rest]
          exact Or.comm
        refine ⟨some m :: os, ?_, .nextBack ?_ ?_⟩
        · simp only [drive, PointIter.nextBack, h1, intervalNextBack, k5, bind, Except.bind,
            Option.map_some, run_eq, j1, e]
          rfl
        · rw [hS]
          refine ⟨.inl hm.1, ?_⟩
          rintro x (hx | hx)
          · exact hm.2 hx
          · exact (hlt' m hm.1 x hx).le
        · rw [hS]
          have : ((run i).pts ∪ rest (pieces none A)) \ {m} = c'.pts ∪ rest (pieces none A) := by
            rw [j4]
            ext x
            simp only [Set.mem_sdiff, Set.mem_union, Set.mem_singleton_iff]
            constructor
            · rintro ⟨h | h, h'⟩
              · exact .inl ⟨h, h'⟩
              · exact .inr h
            · rintro (⟨h, h'⟩ | h)
              · exact ⟨.inl h, h'⟩
              · exact ⟨.inr h, (hlt' m hm.1 x h).ne⟩
          rw [this]; exact w
    · obtain ⟨os, e, w⟩ := ih (t := t) (cur := c') hok hf hc h2 h3 hg hi
        (fun x hx => hlt x (by rw [h4] at hx; exact hx.1))
      refine ⟨some m :: os, ?_, .nextBack ?_ ?_⟩
      · simp only [drive, PointIter.nextBack, h1, bind, Except.bind, e]
        rfl
      · refine ⟨.inl hm.1, ?_⟩
        rintro x (hx | hx)
        · exact hm.2 hx
        · exact (hlt m hm.1 x hx).le
      · have : (cur.pts ∪ rest (pieces none t)) \ {m} = c'.pts ∪ rest (pieces none t) := by
          rw [h4]
          ext x
          simp only [Set.mem_sdiff, Set.mem_union, Set.mem_singleton_iff]
          constructor
          · rintro ⟨h | h, h'⟩
            · exact .inl ⟨h, h'⟩
            · exact .inr h
          · rintro (⟨h, h'⟩ | h)
            · exact ⟨.inl h, h'⟩
            · exact ⟨.inr h, (hlt m hm.1 x h).ne⟩
        rw [this]; exact w

/-- Any interleaving, hole-free trees: every point is returned once, in some order. -/
theorem mix_drain (dbg : Bool) (cs : List IterCall) : ∀ {t : List (Tine α)} {cur : Interval α},
    (∀ x ∈ t, x.Ok) → HoleFree t → Chain false t false → cur.Obtainable → cur.Real →
    (∀ i ∈ pieces none t, Good i) → Inc (pieces none t) →
    (∀ x ∈ cur.pts, x ∉ rest (pieces none t)) →
    ∃ os, drive (PointIter.next dbg) (PointIter.nextBack dbg) ⟨⟨t, none, none⟩, cur⟩ cs = .ok os ∧
      Drain (cur.pts ∪ rest (pieces none t)) os := by
  induction cs with
  | nil => intros; exact ⟨[], rfl, .nil _⟩
  | cons c cs ih =>
    intro t cur hok hf hc ho hr hg hi hlt
    have diff : ∀ {c' cur : Set α} {R : Set α} {m : α}, m ∈ cur → (∀ x ∈ cur, x ∉ R) → c' = cur \ {m} →
        (cur ∪ R) \ {m} = c' ∪ R := by
      intro c' cur R m hm hd e
      subst e
      ext x
      simp only [Set.mem_sdiff, Set.mem_union, Set.mem_singleton_iff]
      constructor
      · rintro ⟨h | h, h'⟩
        · exact .inl ⟨h, h'⟩
        · exact .inr h
      · rintro (⟨h, h'⟩ | h)
        · exact ⟨.inl h, h'⟩
        · exact ⟨.inr h, by rintro rfl; exact hd _ hm h⟩
    rcases Interval.iter_step ho hr with ⟨he, h1, h1'⟩ |
        ⟨⟨m, c', hm, h1, h2, h3, h4⟩, ⟨m', d', hm', h1', h2', h3', h4'⟩⟩
    · rcases deque_step dbg hok hf hc with ⟨k1, k4, k4'⟩ |
        ⟨⟨i, A, k1, k2, k3, k4, k5⟩, ⟨i', A', k1', k2', k3', k4', k5'⟩⟩
      · subst k1
        obtain ⟨os, e, w⟩ := ih (t := []) (by simp) (by simp [HoleFree]) rfl ho hr hg hi hlt
        refine ⟨none :: os, ?_, .none ?_ w⟩
        · cases c <;> simp only [drive, PointIter.nextBack, PointIter.next, h1, h1', intervalNext,
            intervalNextBack, k4, k4', bind, Except.bind, Option.map_none, e] <;> rfl
        · rw [he]; ext x; simp [rest, pieces]
      · cases c
        · rw [k1] at hg hi hlt ⊢
          obtain ⟨g1, g2, g3⟩ := (hg i (by simp)).run_ok
          rcases Interval.iter_step g1 g2 with ⟨z, -⟩ | ⟨⟨m, c', hm, j1, j2, j3, j4⟩, -⟩
          · rw [z] at g3; exact absurd g3 (by simp)
          have hlt' : ∀ x ∈ (run i).pts, x ∉ rest (pieces none A) := by
            rw [run_pts]
            rintro x hx ⟨j, hj, hy⟩
            exact lt_irrefl _ ((List.pairwise_cons.1 hi).1 j hj x x hx hy)
          obtain ⟨os, e, w⟩ := ih (t := A) (cur := c') k2 k3 k4 j2 j3
            (fun j hj => hg j (by simp [hj]))
            (List.pairwise_cons.1 hi).2 (fun x hx => hlt' x (by rw [j4] at hx; exact hx.1))
          have hS : cur.pts ∪ rest (i :: pieces none A) = (run i).pts ∪ rest (pieces none A) := by
            rw [he, run_pts]; ext x; simp [rest]
          refine ⟨some m :: os, ?_, .some ?_ ?_⟩
          · simp only [drive, PointIter.next, h1, intervalNext, k5, bind, Except.bind,
              Option.map_some, run_eq, j1, e]
            rfl
          · rw [hS]; exact .inl hm.1
          · rw [hS, diff hm.1 hlt' j4]; exact w
        · rw [k1'] at hg hi hlt ⊢
          obtain ⟨g1, g2, g3⟩ := (hg i' (by simp)).run_ok
          rcases Interval.iter_step g1 g2 with ⟨z, -⟩ | ⟨-, ⟨m, c', hm, j1, j2, j3, j4⟩⟩
          · rw [z] at g3; exact absurd g3 (by simp)
          have hlt' : ∀ x ∈ (run i').pts, x ∉ rest (pieces none A') := by
            rw [run_pts]
            rintro x hx ⟨j, hj, hy⟩
            exact lt_irrefl _ ((List.pairwise_append.1 hi).2.2 j hj i' (by simp) x x hy hx)
          obtain ⟨os, e, w⟩ := ih (t := A') (cur := c') k2' k3' k4' j2 j3
            (fun j hj => hg j (by simp [hj]))
            (List.pairwise_append.1 hi).1 (fun x hx => hlt' x (by rw [j4] at hx; exact hx.1))
          have hS : cur.pts ∪ rest (pieces none A' ++ [i']) = (run i').pts ∪ rest (pieces none A') := by
            rw [he, run_pts]; ext x; simp [rest]
            exact Or.comm
          refine ⟨some m :: os, ?_, .some ?_ ?_⟩
          · simp only [drive, PointIter.nextBack, h1', intervalNextBack, k5', bind, Except.bind,
              Option.map_some, run_eq, j1, e]
            rfl
          · rw [hS]; exact .inl hm.1
          · rw [hS, diff hm.1 hlt' j4]; exact w
    · cases c
      · obtain ⟨os, e, w⟩ := ih (t := t) (cur := c') hok hf hc h2 h3 hg hi
          (fun x hx => hlt x (by rw [h4] at hx; exact hx.1))
        refine ⟨some m :: os, ?_, .some (.inl hm.1) (by rw [diff hm.1 hlt h4]; exact w)⟩
        simp only [drive, PointIter.next, h1, bind, Except.bind, e]
        rfl
      · obtain ⟨os, e, w⟩ := ih (t := t) (cur := d') hok hf hc h2' h3' hg hi
          (fun x hx => hlt x (by rw [h4'] at hx; exact hx.1))
        refine ⟨some m' :: os, ?_, .some (.inl hm'.1) (by rw [diff hm'.1 hlt h4']; exact w)⟩
        simp only [drive, PointIter.nextBack, h1', bind, Except.bind, e]
        rfl

/-- Once the last interval is being walked, the iterator is that interval's. -/
theorem tail_walk (dbg : Bool) (cs : List IterCall) : ∀ {cur : Interval α},
    cur.Obtainable → cur.Real →
    ∃ os, drive (PointIter.next dbg) (PointIter.nextBack dbg) ⟨⟨[], none, none⟩, cur⟩ cs = .ok os ∧
      Walk cur.pts cs os := by
  induction cs with
  | nil => intros; exact ⟨[], rfl, .nil _⟩
  | cons c cs ih =>
    intro cur ho hr
    rcases Interval.iter_step ho hr with ⟨he, h1, h1'⟩ |
        ⟨⟨m, c', hm, h1, h2, h3, h4⟩, ⟨m', d', hm', h1', h2', h3', h4'⟩⟩
    · obtain ⟨os, e, w⟩ := ih ho hr
      refine ⟨none :: os, ?_, .done he w⟩
      cases c <;> simp only [drive, PointIter.nextBack, PointIter.next, h1, h1', intervalNext,
        intervalNextBack, TineIter.next, TineIter.nextBack, List.getLast?_nil, bind, Except.bind,
        Option.map_none, e] <;> rfl
    · cases c
      · obtain ⟨os, e, w⟩ := ih h2 h3
        refine ⟨some m :: os, ?_, .next hm (h4 ▸ w)⟩
        simp only [drive, PointIter.next, h1, bind, Except.bind, e]; rfl
      · obtain ⟨os, e, w⟩ := ih h2' h3'
        refine ⟨some m' :: os, ?_, .nextBack hm' (h4' ▸ w)⟩
        simp only [drive, PointIter.nextBack, h1', bind, Except.bind, e]; rfl

/-- A tree of one piece. -/
theorem single_walk (dbg : Bool) {t : TineTree α} (v : Valid t) (h1 : (pieces none t).length ≤ 1)
    (hg : ∀ i ∈ pieces none t, Good i) (cs : List IterCall) :
    ∃ os, drive (PointIter.next dbg) (PointIter.nextBack dbg) ⟨⟨t, none, none⟩, .empty⟩ cs = .ok os ∧
      Walk (rest (pieces none t)) cs os := by
  have hn : NoHole t := by
    intro x
    rw [Bool.eq_false_iff]
    intro hh
    rw [hole_iff v] at hh
    obtain ⟨⟨i, hi, g1⟩, j, hj, g2⟩ := hh
    have : i = j := by
      rcases hp : pieces none t with _ | ⟨a, _ | ⟨b, l⟩⟩ <;> rw [hp] at h1 hi hj <;> simp at h1 hi hj
      rw [hi, hj]
    subst this
    have hw := (pieces_wf v.1).1 i hi
    cases i <;> simp_all [RawInterval.upperBound, RawInterval.lowerBound, RawInterval.WF]
  have hf := noHole_holeFree v hn
  cases cs with
  | nil => exact ⟨[], rfl, .nil _⟩
  | cons c cs =>
    have n1 : (Interval.empty : Interval α).next = .ok (none, .empty) := rfl
    have n2 : (Interval.empty : Interval α).nextBack = .ok (none, .empty) := rfl
    rcases deque_step dbg v.1.1 hf v.2 with ⟨rfl, -, -⟩ |
      ⟨⟨i, A, k1, k2, k3, k4, k5⟩, ⟨i', A', k1', k2', k3', k4', k5'⟩⟩
    · obtain ⟨os, e, w⟩ := tail_walk dbg (c :: cs) (cur := (.empty : Interval α)) .empty
        Interval.real_mk_empty
      refine ⟨os, e, ?_⟩
      have : rest (pieces none ([] : TineTree α)) = (Interval.empty : Interval α).pts := by
        rw [Interval.pts_eq]; ext x; simp [rest, pieces]; exact fun h => h
      rw [this]; exact w
    · have nilA : ∀ {A : List (Tine α)}, (∀ x ∈ A, x.Ok) → HoleFree A → Chain false A false →
          pieces none A = [] → A = [] := by
        intro A a1 a2 a3 a4
        rcases deque_step dbg a1 a2 a3 with ⟨h, -⟩ | ⟨⟨j, B, h, -⟩, -⟩
        · exact h
        · rw [a4] at h; cases h
      have hA : A = [] := nilA k2 k3 k4 (by rw [k1] at h1; simpa using h1)
      have hA' : A' = [] := nilA k2' k3' k4' (by
        rw [k1'] at h1; simpa using h1)
      subst hA hA'
      have hi : i = i' := by rw [k1] at k1'; simpa [pieces] using k1'
      subst hi
      have hS : rest (pieces none t) = (run i).pts := by rw [k1, run_pts]; ext x; simp [rest, pieces]
      obtain ⟨g1, g2, g3⟩ := (hg i (by simp [k1])).run_ok
      rw [hS]
      rcases Interval.iter_step g1 g2 with ⟨z, -⟩ |
        ⟨⟨m, c', hm, j1, j2, j3, j4⟩, ⟨m', d', hm', j1', j2', j3', j4'⟩⟩
      · rw [z] at g3; exact absurd g3 (by simp)
      cases c
      · obtain ⟨os, e, w⟩ := tail_walk dbg cs j2 j3
        refine ⟨some m :: os, ?_, .next hm (j4 ▸ w)⟩
        simp only [drive, PointIter.next, n1, intervalNext, k5, bind, Except.bind,
          Option.map_some, run_eq, j1, e]; rfl
      · obtain ⟨os, e, w⟩ := tail_walk dbg cs j2' j3'
        refine ⟨some m' :: os, ?_, .nextBack hm' (j4' ▸ w)⟩
        simp only [drive, PointIter.nextBack, n2, intervalNextBack, k5', bind, Except.bind,
          Option.map_some, run_eq, j1', e]; rfl

end Selection
end NI
