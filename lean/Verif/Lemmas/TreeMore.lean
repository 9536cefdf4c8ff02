import Verif.Lemmas.TreeMinus

/-! # Tree intersection, order of pieces, reverse iteration, dense orders, enclosure -/

set_option linter.unusedSimpArgs false
set_option linter.unusedVariables false
set_option linter.unnecessarySeqFocus false
set_option linter.unusedSectionVars false
set_option linter.unusedTactic false

namespace NI
namespace TT
variable {α : Type} [LinearOrder α]
open BSet (Lt Gt At)

/-! ## `intersect` -/

/-- The list of intersections that `TineTree::intersect` forms and unites. -/
def isectList : List (RawInterval α) → List (RawInterval α) → List (RawInterval α)
  | [], _ => []
  | s :: ss, os =>
    (os.takeWhile fun o => !(s.intersect o).isEmpty).map (s.intersect ·) ++
      match os.dropWhile fun o => !(s.intersect o).isEmpty with
      | [] => []
      | _ :: rest => isectList ss rest

theorem isectSegment_ok (dbg : Bool) (s : RawInterval α) (n : Nat) (ts : List (Tine α))
    (saved : Option α) (hok : ∀ t ∈ ts, t.Ok) (hc : Chain saved.isSome ts false)
    (hn : ts.length < n) {acc : TineTree α} (ha : Valid acc) :
    ∃ acc', (((pieces (saved.map .excl) ts).takeWhile fun o => !(s.intersect o).isEmpty).map
        (s.intersect ·)).foldlM (TineTree.unionInPlace dbg) acc = .ok acc' ∧ Valid acc' ∧
      (((pieces (saved.map .excl) ts).dropWhile (fun o => !(s.intersect o).isEmpty) = [] ∧
        TineTree.intersectSegment dbg s n (itState ts saved) acc = .ok (none, acc')) ∨
      ∃ x ts' saved', (pieces (saved.map .excl) ts).dropWhile (fun o => !(s.intersect o).isEmpty) =
          x :: pieces (saved'.map .excl) ts' ∧ Chain saved'.isSome ts' false ∧
          ts'.length < ts.length ∧ (∀ t ∈ ts', t ∈ ts) ∧
        TineTree.intersectSegment dbg s n (itState ts saved) acc =
          .ok (some (itState ts' saved'), acc')) := by
  induction n generalizing ts saved acc with
  | zero => omega
  | succ n ih =>
    rcases next_step dbg ts saved hok hc with ⟨h1, h2, h3, h4⟩ | ⟨i, ts', saved', h1, h2, h3, h4, h5⟩
    · refine ⟨acc, by rw [h3]; rfl, ha, .inl ⟨by rw [h3]; rfl, ?_⟩⟩
      rw [TineTree.intersectSegment, h4]; rfl
    · cases he : (s.intersect i).isEmpty with
      | true =>
        refine ⟨acc, by simp [h1, he]; rfl, ha, .inr ⟨i, ts', saved', by simp [h1, he], h2, h3, h4, ?_⟩⟩
        rw [TineTree.intersectSegment, h5]
        simp [bind, Except.bind, he]
      | false =>
        obtain ⟨t1, e1, v1, c1⟩ := unionInPlace_ok dbg ha (RawInterval.intersect_wf s i)
        obtain ⟨acc', g1, g2, g3⟩ := ih ts' saved' (fun t ht => hok t (h4 t ht)) h2 (by omega) v1
        have step : TineTree.intersectSegment dbg s (n + 1) (itState ts saved) acc =
            TineTree.intersectSegment dbg s n (itState ts' saved') t1 := by
          rw [TineTree.intersectSegment, h5]
          simp [bind, Except.bind, he, e1]
        refine ⟨acc', ?_, g2, ?_⟩
        · rw [h1]
          simp only [List.takeWhile_cons, he, Bool.not_false, if_true, List.map_cons,
            List.foldlM_cons, e1]
          exact g1
        · rw [h1, step]
          simp only [List.dropWhile_cons, he, Bool.not_false, if_true]
          rcases g3 with g3 | ⟨x, ts2, s2, k1, k2, k3, k4, k5⟩
          · exact .inl g3
          · exact .inr ⟨x, ts2, s2, k1, k2, by omega, fun t ht => h4 t (k4 t ht), k5⟩

theorem isectLoop_ok (dbg : Bool) (n : Nat) (ts : List (Tine α)) (saved : Option α)
    (hok : ∀ t ∈ ts, t.Ok) (hc : Chain saved.isSome ts false) (hn : ts.length < n)
    (us : List (Tine α)) (saved2 : Option α)
    (hok2 : ∀ t ∈ us, t.Ok) (hc2 : Chain saved2.isSome us false)
    {acc : TineTree α} (ha : Valid acc) :
    ∃ acc', (isectList (pieces (saved.map .excl) ts) (pieces (saved2.map .excl) us)).foldlM
        (TineTree.unionInPlace dbg) acc = .ok acc' ∧ Valid acc' ∧
      TineTree.intersectLoop dbg n (itState ts saved) (itState us saved2) acc = .ok acc' := by
  induction n generalizing ts saved us saved2 acc with
  | zero => omega
  | succ n ih =>
    rcases next_step dbg ts saved hok hc with ⟨h1, h2, h3, h4⟩ | ⟨i, ts', saved', h1, h2, h3, h4, h5⟩
    · refine ⟨acc, by rw [h3]; rfl, ha, ?_⟩
      rw [TineTree.intersectLoop, h4]; rfl
    · obtain ⟨acc1, g1, g2, g3⟩ := isectSegment_ok dbg i (itState us saved2).size us saved2 hok2 hc2
        (by simp [TineIter.size, itState]; omega) ha
      rcases g3 with ⟨k1, k2⟩ | ⟨x, us', s2, k1, k2, k3, k4, k5⟩
      · refine ⟨acc1, ?_, g2, ?_⟩
        · rw [h1, isectList, k1]
          simpa using g1
        · rw [TineTree.intersectLoop, h5]
          simp [bind, Except.bind, k2]
      · obtain ⟨acc2, m1, m2, m3⟩ := ih ts' saved' (fun t ht => hok t (h4 t ht)) h2 (by omega) us' s2
          (fun t ht => hok2 t (k4 t ht)) k2 g2
        refine ⟨acc2, ?_, m2, ?_⟩
        · rw [h1, isectList, k1, List.foldlM_append, g1]
          exact m1
        · rw [TineTree.intersectLoop, h5]
          simp only [bind, Except.bind, k5]
          exact m3

/-- What `intersect` computes. -/
theorem intersect_eq (dbg : Bool) {a b : TineTree α} (ha : Valid a) (hb : Valid b) :
    ∃ t', TineTree.intersect dbg a b = .ok t' ∧ Valid t' ∧
      TineTree.fromIter dbg (isectList (pieces none a) (pieces none b)) = .ok t' := by
  obtain ⟨t', e1, v, e2⟩ := isectLoop_ok dbg (TineIter.start a).size a none ha.1.1 ha.2
    (by simp [TineIter.size, TineIter.start]; omega) b none hb.1.1 hb.2 valid_nil
  exact ⟨t', e2, v, e1⟩

theorem isectList_mem {ss os : List (RawInterval α)} {i : RawInterval α}
    (h : i ∈ isectList ss os) : ∃ s ∈ ss, ∃ o ∈ os, i = s.intersect o := by
  induction ss generalizing os with
  | nil => simp [isectList] at h
  | cons s ss ih =>
    rw [isectList, List.mem_append] at h
    rcases h with h | h
    · obtain ⟨o, ho, rfl⟩ := List.mem_map.1 h
      exact ⟨s, by simp, o, (List.takeWhile_subset _) ho, rfl⟩
    · split at h
      · simp at h
      · rename_i x rest e
        obtain ⟨s', h1, o, h2, h3⟩ := ih h
        refine ⟨s', by simp [h1], o, ?_, h3⟩
        have : o ∈ os.dropWhile fun o => !(s.intersect o).isEmpty := by rw [e]; simp [h2]
        exact (List.dropWhile_suffix _).subset this

/-! ## Reachable is valid -/

theorem reachable_valid {t : TineTree α} (h : TineTree.Reachable t) : Valid t := by
  induction h with
  | new => exact valid_nil
  | fromRaw h => rw [tree_fromRaw h]; exact fromRaw_valid h
  | @unionInPlace dbg t i t' h hi e ih =>
    obtain ⟨t1, e1, v, _⟩ := unionInPlace_ok dbg ih hi
    rw [e1] at e; injection e with e; exact e ▸ v
  | @union dbg a b t' ha hb e ih1 ih2 =>
    obtain ⟨t1, e1, v, _⟩ := union_ok dbg ih1 ih2
    rw [e1] at e; injection e with e; exact e ▸ v
  | @complement dbg t t' h e ih =>
    obtain ⟨t1, e1, v, _⟩ := complement_ok dbg ih
    rw [e1] at e; injection e with e; exact e ▸ v
  | @intersect dbg a b t' ha hb e ih1 ih2 =>
    obtain ⟨t1, e1, v, _⟩ := intersect_eq dbg ih1 ih2
    rw [e1] at e; injection e with e; exact e ▸ v

theorem fold_reachable {dbg : Bool} {t t' : TineTree α} (ht : TineTree.Reachable t)
    {is : List (RawInterval α)} (hi : ∀ i ∈ is, i.WF)
    (e : is.foldlM (TineTree.unionInPlace dbg) t = .ok t') : TineTree.Reachable t' := by
  induction is generalizing t with
  | nil => cases e; exact ht
  | cons i is ih =>
    rw [List.foldlM_cons] at e
    cases h : TineTree.unionInPlace dbg t i with
    | error p => rw [h] at e; cases e
    | ok t1 =>
      rw [h] at e
      exact ih (.unionInPlace ht (hi i (by simp)) h) (fun j hj => hi j (by simp [hj])) e

theorem valid_reachable {t : TineTree α} (h : Valid t) : TineTree.Reachable t :=
  fold_reachable .new (fun i hi => ((pieces_wf h.1).1 i hi).1) (fromIter_pieces true h)

/-! ## Order of the pieces -/

/-- An upper bound that comes before a lower bound with a gap between them. -/
def Sep (u l : Bound α) : Prop :=
  (Tine.upper u).key < (Tine.lower l).key ∨ ∃ p, u = .excl p ∧ l = .excl p

theorem new_bounds {b u : Bound α} (h : (Tine.lower b).key < (Tine.upper u).key) :
    (RawInterval.new b u).lowerBound = some b ∧ (RawInterval.new b u).upperBound = some u := by
  rcases b with x | x | _ <;> rcases u with y | y | _ <;> first
    | exact ⟨rfl, rfl⟩
    | (have h : x < y := by simpa [Tine.key] using h
       simp [RawInterval.new, RawInterval.mkClosed, RawInterval.mkOpen,
         RawInterval.mkLeftOpen, RawInterval.mkRightOpen, h, h.not_gt, h.ne, h.le,
         RawInterval.lowerBound, RawInterval.upperBound])

theorem pieces_lower {ts : List (Tine α)} (hs : Sorted ts) :
    (∀ K, Gt ts K → ∀ i ∈ pieces none ts, ∃ l, i.lowerBound = some l ∧ K < (Tine.lower l).key) ∧
    (∀ b, Gt ts (Tine.lower b).key → ∀ i ∈ pieces (some b) ts, ∃ l, i.lowerBound = some l ∧
      (l = b ∨ (Tine.lower b).key < (Tine.lower l).key)) := by
  induction ts with
  | nil => simp [pieces]
  | cons t ts ih =>
    obtain ⟨h1, h2, h3⟩ := sorted_cons.1 hs
    obtain ⟨ih1, ih2⟩ := ih h3
    constructor
    · intro K hK
      have hk := (hK t (List.mem_cons_self)).2
      have hK' : Gt ts K := fun x hx => hK x (List.mem_cons_of_mem _ hx)
      rcases t with b | (p | p | _) | b <;> simp only [pieces, List.mem_cons]
      · intro i hi
        obtain ⟨l, e, g⟩ := ih2 b h2 i hi
        refine ⟨l, e, ?_⟩
        rcases g with rfl | g
        · exact hk
        · exact hk.trans g
      · rintro i (rfl | hi)
        · exact ⟨.incl p, rfl, hk⟩
        · exact ih1 K hK' i hi
      all_goals simp
    · intro b hgt
      have hbk := (hgt t (List.mem_cons_self)).2
      have hgt' : Gt ts (Tine.lower b).key := fun x hx => hgt x (List.mem_cons_of_mem _ hx)
      rcases t with u | (p | p | _) | u <;> simp only [pieces, List.mem_cons]
      · simp
      · simp
      · rintro i (rfl | hi)
        · exact ⟨b, (new_bounds (u := .excl p) (show (Tine.lower b).key < _ from hbk)).1, .inl rfl⟩
        · obtain ⟨l, e, g⟩ := ih2 (.excl p) h2 i hi
          refine ⟨l, e, .inr ?_⟩
          rcases g with rfl | g
          · exact hbk
          · exact lt_trans hbk g
      · simp
      · rintro i (rfl | hi)
        · exact ⟨b, (new_bounds hbk).1, .inl rfl⟩
        · obtain ⟨l, e, g⟩ := ih1 _ hgt' i hi
          exact ⟨l, e, .inr g⟩

/-- Pieces are separated from each other. -/
theorem pieces_sep {ts : List (Tine α)} (hs : Sorted ts) :
    (pieces none ts).Pairwise (fun i j => ∃ u l, i.upperBound = some u ∧ j.lowerBound = some l ∧
      Sep u l) ∧
    (∀ b, Gt ts (Tine.lower b).key → (pieces (some b) ts).Pairwise
      (fun i j => ∃ u l, i.upperBound = some u ∧ j.lowerBound = some l ∧ Sep u l)) := by
  induction ts with
  | nil => simp [pieces]
  | cons t ts ih =>
    obtain ⟨h1, h2, h3⟩ := sorted_cons.1 hs
    obtain ⟨ih1, ih2⟩ := ih h3
    obtain ⟨p1, p2⟩ := pieces_lower h3
    constructor
    · rcases t with b | (p | p | _) | b <;> simp only [pieces, List.pairwise_cons]
      · exact ih2 b h2
      · refine ⟨fun j hj => ?_, ih1⟩
        obtain ⟨l, e, g⟩ := p1 _ h2 j hj
        exact ⟨.incl p, l, rfl, e, .inl g⟩
      all_goals simp
    · intro b hgt
      have hbk := (hgt t (List.mem_cons_self)).2
      rcases t with u | (p | p | _) | u <;> simp only [pieces, List.pairwise_cons]
      · simp
      · simp
      · refine ⟨fun j hj => ?_, ih2 (.excl p) h2⟩
        obtain ⟨l, e, g⟩ := p2 (.excl p) h2 j hj
        refine ⟨.excl p, l, (new_bounds (u := .excl p) (show (Tine.lower b).key < _ from hbk)).2, e, ?_⟩
        rcases g with rfl | g
        · exact .inr ⟨p, rfl, rfl⟩
        · exact .inl g
      · simp
      · refine ⟨fun j hj => ?_, ih1⟩
        obtain ⟨l, e, g⟩ := p1 _ h2 j hj
        exact ⟨u, l, (new_bounds hbk).2, e, .inl g⟩

/-- Separated bounds: no common point, in order. -/
theorem sep_lt {u l : Bound α} (h : Sep u l) {x y : α} (hx : u.AdmitsBelow x)
    (hy : l.AdmitsAbove y) : x < y := by
  rcases h with h | ⟨p, rfl, rfl⟩
  · rcases u with a | a | _ <;> rcases l with b | b | _ <;>
      simp [Tine.key, Bound.AdmitsBelow, Bound.AdmitsAbove] at h hx hy <;> grind
  · simp [Bound.AdmitsBelow, Bound.AdmitsAbove] at hx hy; grind

/-- Separated intervals are not merged by `union`. -/
theorem sep_union {i j : RawInterval α} (hi : i.WF) (hj : j.WF) {u l : Bound α}
    (h1 : i.upperBound = some u) (h2 : j.lowerBound = some l) (h : Sep u l) :
    i.union j = [i, j] := by
  rcases i.bounds_cases with ⟨rfl, e1, e2⟩ | ⟨li, ui, e1, e2, e3⟩
  · rw [e2] at h1; cases h1
  rcases j.bounds_cases with ⟨rfl, e4, e5⟩ | ⟨lj, uj, e4, e5, e6⟩
  · rw [e4] at h2; cases h2
  rw [e2] at h1; cases h1
  rw [e4] at h2; cases h2
  have n1 : i.isEmpty = false := by
    rw [Bool.eq_false_iff, ne_eq, RawInterval.isEmpty_iff]; exact e3
  have n2 : j.isEmpty = false := by
    rw [Bool.eq_false_iff, ne_eq, RawInterval.isEmpty_iff]; exact e6
  have c1 := RawInterval.wf_compat hi e1 e2
  have c2 := RawInterval.wf_compat hj e4 e5
  have k1 : i.intersects j = false := by
    rw [Bool.eq_false_iff, ne_eq, RawInterval.intersect_isEmpty e1 e2 e4 e5]
    rintro ⟨-, -, hc⟩
    rcases h with h | ⟨p, rfl, rfl⟩
    · rcases u with a | a | _ <;> rcases l with b | b | _ <;>
        simp [Tine.key, Bound.Compat] at h hc <;> grind
    · simp [Bound.Compat] at hc
  have k2 : i.isAdjacentTo j = false := by
    simp only [RawInterval.isAdjacentTo, e1, e2, e4, e5]
    clear k1 n1 n2 e1 e2 e3 e4 e5 e6 hi hj
    rcases h with h | ⟨p, rfl, rfl⟩
    · rcases u with a | a | _ <;> rcases l with b | b | _ <;>
      rcases li with c | c | _ <;> rcases uj with d | d | _ <;>
        simp [Tine.key, Bound.Compat] at h c1 c2 <;> simp [Bound.isUnionAdjacentTo] <;> grind
    · rcases li with c | c | _ <;> rcases uj with d | d | _ <;>
        simp [Tine.key, Bound.Compat] at c1 c2 <;> simp [Bound.isUnionAdjacentTo] <;> grind
  rw [RawInterval.union, n1, n2]
  simp [k1, k2]

/-! ## Reverse iteration -/

/-- No excluded single point inside an interval. -/
def HoleFree (t : TineTree α) : Prop := ∀ x ∈ t, x.isPointExclude = false

theorem pieces_append {A B : List (Tine α)} (hok : ∀ t ∈ A, t.Ok) (hf : HoleFree A) :
    (Chain false A false → pieces none (A ++ B) = pieces none A ++ pieces none B) ∧
    (∀ b, Chain true A false → pieces (some b) (A ++ B) = pieces (some b) A ++ pieces none B) := by
  induction A with
  | nil => simp [pieces, Chain]
  | cons t ts ih =>
    obtain ⟨ih1, ih2⟩ := ih (fun x hx => hok x (by simp [hx])) (fun x hx => hf x (by simp [hx]))
    have h1 := hok t (by simp)
    have h2 := hf t (by simp)
    constructor
    · rintro ⟨c1, c2⟩
      rcases t with b | (p | p | _) | b <;>
        simp [Tine.isUpperBound, Tine.isLowerBound] at c1 c2
      · simp only [List.cons_append, pieces]; exact ih2 b c2
      · simp only [List.cons_append, pieces, ih1 c2]
      · exact absurd rfl h1
    · rintro b ⟨c1, c2⟩
      rcases t with u | (p | p | _) | u <;>
        simp [Tine.isUpperBound, Tine.isLowerBound] at c1 c2
      · simp [Tine.isPointExclude] at h2
      · simp only [List.cons_append, pieces, ih1 c2]

/-- The last piece of a hole-free tree. -/
theorem last_piece {t : TineTree α} (hok : ∀ x ∈ t, x.Ok) (hf : HoleFree t)
    (hc : Chain false t false) : t = [] ∨
    (∃ A p, t = A ++ [.point (.incl p)] ∧ Chain false A false) ∨
    (∃ A l u, t = A ++ [.lower l, .upper u] ∧ Chain false A false) := by
  rcases List.eq_nil_or_concat t with rfl | ⟨A, x, rfl⟩
  · exact .inl rfl
  right
  rw [List.concat_eq_append] at *
  obtain ⟨m, c1, c2, c3⟩ := chain_append.1 hc
  have h1 := hok x (by simp)
  have h2 := hf x (by simp)
  rcases x with b | (p | p | _) | u <;>
    simp [Tine.isUpperBound, Tine.isLowerBound, Tine.isPointExclude, Chain] at c2 c3 h2
  · subst c2; exact .inl ⟨A, p, rfl, c1⟩
  · exact absurd rfl h1
  · subst c2
    rcases List.eq_nil_or_concat A with rfl | ⟨A, y, rfl⟩
    · simp [Chain] at c1
    · rw [List.concat_eq_append] at *
      obtain ⟨m, c4, c5, c6⟩ := chain_append.1 c1
      have h3 := hok y (by simp)
      have h4 := hf y (by simp)
      rcases y with b | (p | p | _) | u' <;>
        simp [Tine.isUpperBound, Tine.isLowerBound, Tine.isPointExclude, Chain] at c5 c6 h4
      subst c5
      exact .inr ⟨A, b, u, by simp, c4⟩

theorem collectBackAux_eq (dbg : Bool) (n : Nat) {t : TineTree α} (hok : ∀ x ∈ t, x.Ok)
    (hf : HoleFree t) (hc : Chain false t false) (hn : t.length < n)
    (acc : List (RawInterval α)) :
    TineIter.collectBackAux dbg n ⟨t, none, none⟩ acc = .ok (acc ++ (pieces none t).reverse) := by
  induction n generalizing t acc with
  | zero => omega
  | succ n ih =>
    rcases last_piece hok hf hc with rfl | ⟨A, p, rfl, hA⟩ | ⟨A, l, u, rfl, hA⟩
    · simp [TineIter.collectBackAux, TineIter.nextBack, pieces, bind, Except.bind]
    · have hokA : ∀ x ∈ A, x.Ok := fun x hx => hok x (by simp [hx])
      have hfA : HoleFree A := fun x hx => hf x (by simp [hx])
      rw [(pieces_append hokA hfA).1 hA]
      simp only [TineIter.collectBackAux, TineIter.nextBack, TineIter.nextBackWith, bind,
        Except.bind, List.getLast?_append, List.getLast?_singleton, Option.some_or,
        List.dropLast_concat]
      rw [ih hokA hfA hA (by simp at hn; omega)]
      simp [pieces]
    · have hokA : ∀ x ∈ A, x.Ok := fun x hx => hok x (by simp [hx])
      have hfA : HoleFree A := fun x hx => hf x (by simp [hx])
      rw [(pieces_append hokA hfA).1 hA]
      have e : A ++ [Tine.lower l, Tine.upper u] = (A ++ [Tine.lower l]) ++ [Tine.upper u] := by simp
      have step : TineIter.nextBack dbg ⟨A ++ [Tine.lower l, Tine.upper u], none, none⟩ =
          .ok (some (RawInterval.new l u), ⟨A, none, none⟩) := by
        rw [e]
        cases dbg <;> simp [TineIter.nextBack, TineIter.nextBackWith, bind, Except.bind, dassert,
          Tine.isUpperBound, Tine.isLowerBound, Tine.isPointExclude, Tine.intoInner]
      simp only [TineIter.collectBackAux, step, bind, Except.bind]
      rw [ih hokA hfA hA (by simp at hn; omega)]
      simp [pieces]

theorem intervalsBack_eq (dbg : Bool) {t : TineTree α} (h : Valid t) (hf : HoleFree t) :
    TineTree.intervalsBack dbg t = .ok (pieces none t).reverse := by
  unfold TineTree.intervalsBack TineIter.collectBack TineIter.start
  rw [collectBackAux_eq dbg _ h.1.1 hf h.2 (by simp [TineIter.size]; omega)]
  simp

/-! ## Dense orders -/

section Dense

/-- Coverage just after a point is coverage at the next points. -/
theorem near_right [NoMaxOrder α] {t : TineTree α} (h : Valid t) (x : α) :
    ∃ y, x < y ∧ ∀ z, x < z → z < y → tcov t false (.fin z) = tcov t true (.fin x) := by
  obtain ⟨o⟩ := one h (.fin x)
  have e : ∀ aft k, tcov t aft k = _ := fun aft k =>
    (congrArg (fun t => tcov t aft k) o.eq).trans (cov_one o.fits o.ltA o.gtB o.cA aft k)
  have key : ∃ y, x < y ∧ ∀ z, z < y → Gt o.B (.fin z) ∨ z ≤ x := by
    have hs := o.sB
    have hg := o.gtB
    cases hB : o.B with
    | nil =>
      obtain ⟨y, hy⟩ := exists_gt x
      exact ⟨y, hy, fun z _ => .inl (.nil _)⟩
    | cons b B =>
      rw [hB] at hs hg
      obtain ⟨h1, h2, h3⟩ := sorted_cons.1 hs
      have hb := (hg b (by simp)).2
      have : ∀ k, k < b.key → Gt (b :: B) k := by
        intro k hk t ht
        rcases List.mem_cons.1 ht with rfl | ht
        · exact ⟨h1, hk⟩
        · exact ⟨(h2 t ht).1, hk.trans (h2 t ht).2⟩
      cases hbk : b.key with
      | bot => rw [hbk] at hb; exact absurd hb (Key.not_lt_bot _)
      | top =>
        obtain ⟨y, hy⟩ := exists_gt x
        exact ⟨y, hy, fun z _ => .inl (this _ (by rw [hbk]; simp))⟩
      | fin y =>
        rw [hbk] at hb
        exact ⟨y, by simpa using hb, fun z hz => .inl (this _ (by rw [hbk]; simpa using hz))⟩
  obtain ⟨y, hy, hz⟩ := key
  refine ⟨y, hy, fun z h1 h2 => ?_⟩
  rw [e, e]
  rcases hz z h2 with hz | hz
  · simp [h1.not_gt, h1.ne', cov_gt hz]
  · exact absurd h1 hz.not_gt

/-- Coverage just before a point is coverage at the previous points. -/
theorem near_left [NoMinOrder α] {t : TineTree α} {x : α} (o : One t (.fin x)) :
    ∃ y, y < x ∧ ∀ z, y < z → z < x → tcov t false (.fin z) = o.b := by
  have e : ∀ aft k, tcov t aft k = _ := fun aft k =>
    (congrArg (fun t => tcov t aft k) o.eq).trans (cov_one o.fits o.ltA o.gtB o.cA aft k)
  have key : ∃ y, y < x ∧ ∀ z, y < z → Lt o.A (.fin z) := by
    have hs := o.sA
    have hg := o.ltA
    rcases List.eq_nil_or_concat o.A with hA | ⟨A, a, hA⟩
    · obtain ⟨y, hy⟩ := exists_lt x
      exact ⟨y, hy, fun z _ => hA ▸ .nil _⟩
    · rw [List.concat_eq_append] at hA
      rw [hA] at hs hg ⊢
      obtain ⟨h1, h2, h3⟩ := sorted_append.1 hs
      have hb := hg a (by simp)
      have : ∀ k, a.key < k → Lt (A ++ [a]) k := by
        intro k hk t ht
        rcases List.mem_append.1 ht with ht | ht
        · exact ⟨h1.1 t ht, (h3 t ht a (by simp)).trans hk⟩
        · rw [List.mem_singleton] at ht; subst ht; exact ⟨hb.1, hk⟩
      cases hbk : a.key with
      | top => have hb := hb.2; rw [hbk] at hb; exact absurd hb (Key.not_top_lt _)
      | bot =>
        obtain ⟨y, hy⟩ := exists_lt x
        exact ⟨y, hy, fun z _ => this _ (by rw [hbk]; simp)⟩
      | fin y =>
        have hb := hb.2; rw [hbk] at hb
        exact ⟨y, by simpa using hb, fun z hz => this _ (by rw [hbk]; simpa using hz)⟩
  obtain ⟨y, hy, hz⟩ := key
  refine ⟨y, hy, fun z h1 h2 => ?_⟩
  rw [e]
  have := cov_lt (aft := false) (B := []) (hz z h1) o.cA
  rw [List.append_nil] at this
  simp [h2, this, cov]

theorem near_bot [Nonempty α] {t : TineTree α} (h : Valid t) :
    ∃ y, ∀ z, z < y → tcov t false (.fin z) = tcov t true .bot := by
  obtain ⟨o⟩ := one h .bot
  have e : ∀ aft k, tcov t aft k = _ := fun aft k =>
    (congrArg (fun t => tcov t aft k) o.eq).trans (cov_one o.fits o.ltA o.gtB o.cA aft k)
  have key : ∃ y, ∀ z, z < y → Gt o.B (.fin z) := by
    have hs := o.sB
    have hg := o.gtB
    cases hB : o.B with
    | nil => exact ⟨Classical.arbitrary α, fun z _ => .nil _⟩
    | cons b B =>
      rw [hB] at hs hg
      obtain ⟨h1, h2, h3⟩ := sorted_cons.1 hs
      have hb := (hg b (by simp)).2
      have : ∀ k, k < b.key → Gt (b :: B) k := by
        intro k hk t ht
        rcases List.mem_cons.1 ht with rfl | ht
        · exact ⟨h1, hk⟩
        · exact ⟨(h2 t ht).1, hk.trans (h2 t ht).2⟩
      cases hbk : b.key with
      | bot => rw [hbk] at hb; exact absurd hb (Key.not_lt_bot _)
      | top => exact ⟨Classical.arbitrary α, fun z _ => this _ (by rw [hbk]; simp)⟩
      | fin y => exact ⟨y, fun z hz => this _ (by rw [hbk]; simpa using hz)⟩
  obtain ⟨y, hz⟩ := key
  refine ⟨y, fun z h2 => ?_⟩
  rw [e, e]
  have h0 : ¬ (Key.fin z < .bot) := Key.not_lt_bot _
  simp [cov_gt (hz z h2)]

theorem near_top [Nonempty α] {t : TineTree α} (o : One t .top) :
    ∃ y, ∀ z, y < z → tcov t false (.fin z) = o.b := by
  have e : ∀ aft k, tcov t aft k = _ := fun aft k =>
    (congrArg (fun t => tcov t aft k) o.eq).trans (cov_one o.fits o.ltA o.gtB o.cA aft k)
  have key : ∃ y, ∀ z, y < z → Lt o.A (.fin z) := by
    have hs := o.sA
    have hg := o.ltA
    rcases List.eq_nil_or_concat o.A with hA | ⟨A, a, hA⟩
    · exact ⟨Classical.arbitrary α, fun z _ => hA ▸ .nil _⟩
    · rw [List.concat_eq_append] at hA
      rw [hA] at hs hg ⊢
      obtain ⟨h1, h2, h3⟩ := sorted_append.1 hs
      have hb := hg a (by simp)
      have : ∀ k, a.key < k → Lt (A ++ [a]) k := by
        intro k hk t ht
        rcases List.mem_append.1 ht with ht | ht
        · exact ⟨h1.1 t ht, (h3 t ht a (by simp)).trans hk⟩
        · rw [List.mem_singleton] at ht; subst ht; exact ⟨hb.1, hk⟩
      cases hbk : a.key with
      | top => have hb := hb.2; rw [hbk] at hb; exact absurd hb (Key.not_top_lt _)
      | bot => exact ⟨Classical.arbitrary α, fun z _ => this _ (by rw [hbk]; simp)⟩
      | fin y => exact ⟨y, fun z hz => this _ (by rw [hbk]; simpa using hz)⟩
  obtain ⟨y, hz⟩ := key
  refine ⟨y, fun z h1 => ?_⟩
  rw [e]
  have := cov_lt (aft := false) (B := []) (hz z h1) o.cA
  rw [List.append_nil] at this
  simp [this, cov]

variable [DenselyOrdered α] [NoMinOrder α] [NoMaxOrder α] [Nonempty α]

/-- Over dense orders the contained points determine the tree. -/
theorem dense_ext {t t' : TineTree α} (h : Valid t) (h' : Valid t')
    (hp : ∀ x, tcov t false (.fin x) = tcov t' false (.fin x)) : t = t' := by
  refine valid_ext h h' fun aft k hr => ?_
  obtain ⟨r1, r2⟩ := hr
  cases k with
  | top => exact absurd rfl r1
  | bot =>
    rw [r2 rfl]
    obtain ⟨y, hy⟩ := near_bot h
    obtain ⟨y', hy'⟩ := near_bot h'
    obtain ⟨z, hz⟩ := exists_lt (min y y')
    have := hp z
    rw [hy z (hz.trans_le (min_le_left _ _)), hy' z (hz.trans_le (min_le_right _ _))] at this
    exact this
  | fin x =>
    cases aft with
    | false => exact hp x
    | true =>
      obtain ⟨y, h1, hy⟩ := near_right h x
      obtain ⟨y', h1', hy'⟩ := near_right h' x
      obtain ⟨z, hz1, hz2⟩ := exists_between (lt_min h1 h1')
      have := hp z
      rw [hy z hz1 (hz2.trans_le (min_le_left _ _)), hy' z hz1 (hz2.trans_le (min_le_right _ _))]
        at this
      exact this

end Dense

end TT
end NI
