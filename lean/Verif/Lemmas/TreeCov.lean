import Verif.Lemmas.TreeOps
import Verif.Lemmas.Raw

/-! # Coverage of intervals; point union; in-place union; collecting -/

set_option linter.unusedSimpArgs false
set_option linter.unusedVariables false
set_option linter.unnecessarySeqFocus false
set_option linter.unusedSectionVars false
set_option linter.unusedTactic false

namespace NI
namespace TT
variable {α : Type _} [LinearOrder α]
open BSet (Lt Gt At)

/-- Coverage of a tree. -/
noncomputable def tcov (t : TineTree α) (aft : Bool) (k : Key α) : Bool := cov aft false t k

/-- Coverage of an interval. -/
noncomputable def icov (i : RawInterval α) (aft : Bool) (k : Key α) : Bool :=
  cov aft false (Tine.fromRawInterval i) k

theorem lower_ok (b : Bound α) : (Tine.lower b).Ok := by simp [Tine.Ok]
theorem upper_ok (b : Bound α) : (Tine.upper b).Ok := by simp [Tine.Ok]
theorem pincl_ok (p : α) : (Tine.point (.incl p)).Ok := by simp [Tine.Ok]

/-- Well formed intervals are nothing, a point, or two tines in order. -/
theorem fromRaw_cases {i : RawInterval α} (h : i.WF) :
    (i = .empty ∧ Tine.fromRawInterval i = []) ∨
    (∃ p, i = .point p ∧ Tine.fromRawInterval i = [.point (.incl p)]) ∨
    (∃ lb ub, Tine.fromRawInterval i = [.lower lb, .upper ub] ∧
      (Tine.lower lb).key < (Tine.upper ub).key) := by
  cases i with
  | empty => exact .inl ⟨rfl, rfl⟩
  | point p => exact .inr (.inl ⟨p, rfl, rfl⟩)
  | opn | leftOpen | rightOpen | closed =>
    exact .inr (.inr ⟨_, _, rfl, by simpa [Tine.key, RawInterval.WF] using h⟩)
  | _ => exact .inr (.inr ⟨_, _, rfl, by simp [Tine.key]⟩)

theorem valid_nil : Valid ([] : TineTree α) := ⟨sorted_nil, rfl⟩

theorem fromRaw_valid {i : RawInterval α} (h : i.WF) : Valid (Tine.fromRawInterval i) := by
  rcases fromRaw_cases h with ⟨_, e⟩ | ⟨p, _, e⟩ | ⟨lb, ub, e, hk⟩ <;> rw [e]
  · exact valid_nil
  · refine ⟨⟨by simp [Tine.Ok], by simp⟩, ?_⟩
    simp [Chain, Tine.isUpperBound, Tine.isLowerBound]
  · refine ⟨⟨by simp [Tine.Ok], by simpa using hk⟩, ?_⟩
    simp [Chain, Tine.isUpperBound, Tine.isLowerBound]

theorem tree_fromRaw {i : RawInterval α} (h : i.WF) :
    TineTree.fromRawInterval i = Tine.fromRawInterval i := by
  unfold TineTree.fromRawInterval
  rcases fromRaw_cases h with ⟨_, e⟩ | ⟨p, _, e⟩ | ⟨lb, ub, e, hk⟩ <;> rw [e]
  · rfl
  · rfl
  · have := Tine.cmp_lt (lower_ok lb) (upper_ok ub) hk
    simp [BSet.ofTines, this]

/-- The points of an interval are its finite coverage. -/
theorem icov_fin {i : RawInterval α} (h : i.WF) (x : α) :
    icov i false (.fin x) = i.contains x := by
  rw [Bool.eq_iff_iff, RawInterval.contains_iff]
  cases i with
  | empty => simp [icov, Tine.fromRawInterval, cov, RawInterval.pts]
  | point p =>
    simp [icov, Tine.fromRawInterval, cov, RawInterval.pts, Tine.key, Tine.inclAt,
      Tine.isLowerBound]
    exact fun h => h.ge
  | opn l r =>
    simp only [RawInterval.WF] at h
    simp [icov, Tine.fromRawInterval, cov, RawInterval.pts, Tine.key, Tine.inclAt,
      Tine.isLowerBound]
    grind
  | leftOpen l r =>
    simp only [RawInterval.WF] at h
    simp [icov, Tine.fromRawInterval, cov, RawInterval.pts, Tine.key, Tine.inclAt,
      Tine.isLowerBound]
    grind
  | rightOpen l r =>
    simp only [RawInterval.WF] at h
    simp [icov, Tine.fromRawInterval, cov, RawInterval.pts, Tine.key, Tine.inclAt,
      Tine.isLowerBound]
    grind
  | closed l r =>
    simp only [RawInterval.WF] at h
    simp [icov, Tine.fromRawInterval, cov, RawInterval.pts, Tine.key, Tine.inclAt,
      Tine.isLowerBound]
    grind
  | upTo r =>
    have hb := (Key.bot_lt_fin x).not_gt
    simp [icov, Tine.fromRawInterval, cov, RawInterval.pts, Tine.key, Tine.inclAt,
      Tine.isLowerBound, hb]
    try grind
  | upFrom r =>
    simp [icov, Tine.fromRawInterval, cov, RawInterval.pts, Tine.key, Tine.inclAt,
      Tine.isLowerBound]
    grind
  | «to» r =>
    simp [icov, Tine.fromRawInterval, cov, RawInterval.pts, Tine.key, Tine.inclAt,
      Tine.isLowerBound]
    try grind
  | frm r =>
    simp [icov, Tine.fromRawInterval, cov, RawInterval.pts, Tine.key, Tine.inclAt,
      Tine.isLowerBound]
    try grind
  | full =>
    simp [icov, Tine.fromRawInterval, cov, RawInterval.pts, Tine.key, Tine.inclAt,
      Tine.isLowerBound]

/-! ## Point union -/

theorem unionPoint_eq (dbg : Bool) {t : TineTree α} {p : α} (o : One t (.fin p)) :
    TineTree.unionPoint dbg t (.point (.incl p)) =
      .ok (o.A ++ edge (.fin p) o.b true o.c ++ o.B) := by
  obtain ⟨A, B, b, a, c, eq, fits, ltA, gtB, sA, sB, cA, cB⟩ := o
  have hs := exteriorSplitPoint_eq (p := .point (.incl p)) (pincl_ok p)
    ⟨A, B, b, a, c, eq, fits, ltA, gtB, sA, sB, cA, cB⟩
  have hb := chain_last cA
  have hc := chain_head cB
  have i1 : ∀ x : Tine α, x.Ok → x.key = .fin p → BSet.insert x (A ++ B) = A ++ x :: B :=
    fun x hx hxk => BSet.insert_split hx (by rw [hxk]; exact ltA) (by rw [hxk]; exact gtB)
  simp only [TineTree.unionPoint, hs, hb, hc]
  clear hs hb hc ltA gtB sA sB cA cB eq fits
  cases b <;> cases a <;> cases c <;> cases dbg <;>
    simp (config := {decide := true}) [edge, Tine.key, Tine.inclAt, Tine.union, Tine.asRef,
      Tine.intoInner, Bound.asRef, dassert, bind, Except.bind, Tine.isLowerBound,
      Tine.isUpperBound, pure, Except.pure] <;>
    (rw [i1] <;> simp [Tine.Ok, Tine.key])

/-! ## In-place union -/

theorem unionInPlace_ok (dbg : Bool) {t : TineTree α} (ht : Valid t) {i : RawInterval α}
    (hi : i.WF) : ∃ t', TineTree.unionInPlace dbg t i = .ok t' ∧ Valid t' ∧
      ∀ aft k, tcov t' aft k = (tcov t aft k || icov i aft k) := by
  unfold TineTree.unionInPlace
  by_cases hf : i.isFull = true
  · have : i = .full := by cases i <;> simp_all [RawInterval.isFull]
    subst this
    refine ⟨_, if_pos rfl, ?_, ?_⟩
    · rw [tree_fromRaw hi]; exact fromRaw_valid hi
    · intro aft k
      rw [tree_fromRaw hi]
      by_cases hr : RealPos aft k
      · have : icov (.full : RawInterval α) aft k = true := by
          obtain ⟨h1, h2⟩ := hr
          cases k <;> cases aft <;>
            simp_all [icov, Tine.fromRawInterval, cov, Tine.key, Tine.isLowerBound]
        rw [this, Bool.or_true]; exact this
      · rw [tcov, tcov, cov_unreal ht hr]; rfl
  rw [if_neg hf]
  rcases fromRaw_cases hi with ⟨_, e⟩ | ⟨p, _, e⟩ | ⟨lb, ub, e, hk⟩
  · refine ⟨t, by rw [e], ht, fun aft k => ?_⟩
    rw [icov, e]; simp [cov]
  · obtain ⟨o⟩ := one ht (.fin p)
    refine ⟨_, by simp only [e]; exact unionPoint_eq dbg o, o.valid' trivial, fun aft k => ?_⟩
    have e1 := by
      have := congrArg (fun t => tcov t aft k) o.eq
      exact this.trans <| cov_one o.fits o.ltA o.gtB o.cA aft k
    have e2 := by
      have := congrArg (fun t => cov aft false t k) e
      exact this.trans <| cov_one (A := []) (B := []) (s := false) (k' := .fin p) (b := false) (a := true)
        (c := false) trivial (.nil _) (.nil _) rfl aft k
    have ft : Fits (.fin p) o.b true o.c := trivial
    rw [e1, icov, e2, tcov, cov_one ft o.ltA o.gtB o.cA]
    split_ifs <;> simp [cov]
  · obtain ⟨w⟩ := two ht hk
    have f1 : ∀ a' : Bool, Fits (Tine.lower lb).key w.b (w.a || (Tine.lower lb).inclAt) true := by
      have := w.fits
      rcases lb with x | x | _ <;> simp_all [Fits, Tine.key, Tine.inclAt]
    have f2 : Fits (Tine.upper ub).key true (w.a2 || (Tine.upper ub).inclAt) w.e := by
      have := w.fits2
      rcases ub with x | x | _ <;> simp_all [Fits, Tine.key, Tine.inclAt]
    have f3 : Fits (Tine.lower lb).key false (Tine.lower lb).inclAt true := by
      rcases lb with x | x | _ <;> simp_all [Fits, Tine.key, Tine.inclAt]
    have f4 : Fits (Tine.upper ub).key true (Tine.upper ub).inclAt false := by
      rcases ub with x | x | _ <;> simp_all [Fits, Tine.key, Tine.inclAt]
    refine ⟨_, by simp only [e]; exact unionProper_eq dbg hk w,
      two_valid hk (f1 true) f2 w.ltA (.nil _) (.nil _) w.gtB w.sA sorted_nil w.sB w.cA rfl w.cB,
      fun aft k => ?_⟩
    have e1 := by
      have := congrArg (fun t => tcov t aft k) w.eq
      exact this.trans <| cov_two hk w.fits w.fits2 w.ltA w.gtM w.ltM w.gtB w.cA w.cM aft k
    have e2 := by
      have : Tine.fromRawInterval i = [] ++ edge (Tine.lower lb).key false (Tine.lower lb).inclAt true
          ++ ([] ++ edge (Tine.upper ub).key true (Tine.upper ub).inclAt false ++ []) := by
        rw [e]
        rcases lb with x | x | _ <;> rcases ub with y | y | _ <;> rfl
      have := congrArg (fun t => cov aft false t k) this
      exact this.trans <| cov_two (s := false) hk f3 f4 (.nil _) (.nil _) (.nil _) (.nil _) rfl rfl aft k
    rw [e1, icov, e2, tcov, cov_two hk (f1 true) f2 w.ltA (.nil _) (.nil _) w.gtB w.cA rfl]
    split_ifs <;> simp [cov]

/-- Folding `union_in_place` over a list of intervals. -/
theorem foldUnion_ok (dbg : Bool) {t : TineTree α} (ht : Valid t) (is : List (RawInterval α))
    (hi : ∀ i ∈ is, i.WF) : ∃ t', is.foldlM (TineTree.unionInPlace dbg) t = .ok t' ∧ Valid t' ∧
      ∀ aft k, tcov t' aft k = (tcov t aft k || is.any fun i => icov i aft k) := by
  induction is generalizing t with
  | nil => exact ⟨t, rfl, ht, by simp⟩
  | cons i is ih =>
    obtain ⟨t1, e1, v1, c1⟩ := unionInPlace_ok dbg ht (hi i (List.mem_cons_self))
    obtain ⟨t2, e2, v2, c2⟩ := ih v1 fun j hj => hi j (List.mem_cons_of_mem _ hj)
    refine ⟨t2, ?_, v2, fun aft k => ?_⟩
    · rw [List.foldlM_cons, e1]; exact e2
    · rw [c2, c1, List.any_cons, Bool.or_assoc]

theorem fromIter_ok (dbg : Bool) (is : List (RawInterval α)) (hi : ∀ i ∈ is, i.WF) :
    ∃ t', TineTree.fromIter dbg is = .ok t' ∧ Valid t' ∧
      ∀ aft k, tcov t' aft k = is.any fun i => icov i aft k := by
  obtain ⟨t', e, v, c⟩ := foldUnion_ok dbg valid_nil is hi
  exact ⟨t', e, v, fun aft k => by rw [c]; simp [tcov, cov]⟩

/-! ## Forward iteration -/

/-- The pieces of a stretch of tines; `saved` is the lower bound already passed. -/
def pieces : Option (Bound α) → List (Tine α) → List (RawInterval α)
  | none, .point (.incl p) :: ts => .point p :: pieces none ts
  | none, .lower b :: ts => pieces (some b) ts
  | some b, .point (.excl x) :: ts => RawInterval.new b (.excl x) :: pieces (some (.excl x)) ts
  | some b, .upper u :: ts => RawInterval.new b u :: pieces none ts
  | _, _ => []

/-- The iterator state for a stretch with a saved exclusion. -/
def itState (ts : List (Tine α)) (saved : Option α) : TineIter α :=
  ⟨ts, saved.map fun x => .point (.excl x), none⟩

/-- One step of the forward iterator. -/
theorem next_step (dbg : Bool) (ts : List (Tine α)) (saved : Option α)
    (hok : ∀ t ∈ ts, t.Ok) (hc : Chain saved.isSome ts false) :
    (ts = [] ∧ saved = none ∧ pieces (saved.map .excl) ts = [] ∧
      (itState ts saved).next dbg = .ok (none, itState [] none)) ∨
    ∃ i ts' saved', pieces (saved.map .excl) ts = i :: pieces (saved'.map .excl) ts' ∧
      Chain saved'.isSome ts' false ∧ ts'.length < ts.length ∧
      (∀ t ∈ ts', t ∈ ts) ∧
      (itState ts saved).next dbg = .ok (some i, itState ts' saved') := by
  cases saved with
  | some x =>
    cases ts with
    | nil => exact absurd hc (by simp [Chain])
    | cons t ts =>
      obtain ⟨h1, h2⟩ := hc
      rcases t with b | (b | b | _) | b <;>
        simp [Tine.isUpperBound, Tine.isLowerBound] at h1 h2
      · refine .inr ⟨_, ts, some b, rfl, h2, by simp, by simp; tauto, ?_⟩
        cases dbg <;> rfl
      · refine .inr ⟨_, ts, none, rfl, h2, by simp, by simp; tauto, ?_⟩
        cases dbg <;> rfl
  | none =>
    cases ts with
    | nil => exact .inl ⟨rfl, rfl, rfl, rfl⟩
    | cons t ts =>
      obtain ⟨h1, h2⟩ := hc
      rcases t with b | (b | b | _) | b <;>
        simp [Tine.isUpperBound, Tine.isLowerBound] at h1 h2
      · cases ts with
        | nil => exact absurd h2 (by simp [Chain])
        | cons t ts =>
          obtain ⟨h1, h2⟩ := h2
          rcases t with b' | (b' | b' | _) | b' <;>
            simp [Tine.isUpperBound, Tine.isLowerBound] at h1 h2
          · refine .inr ⟨_, ts, some b', rfl, h2, by simp; omega, by simp; tauto, ?_⟩
            cases dbg <;> rfl
          · refine .inr ⟨_, ts, none, rfl, h2, by simp; omega, by simp; tauto, ?_⟩
            cases dbg <;> rfl
      · refine .inr ⟨_, ts, none, rfl, h2, by simp, by simp; tauto, ?_⟩
        cases dbg <;> rfl
      · exact absurd rfl (hok _ (List.mem_cons_self))

theorem foldAux_eq {β : Type} (dbg : Bool) (f : β → RawInterval α → Except Panic β) (n : Nat)
    (ts : List (Tine α)) (saved : Option α) (hok : ∀ t ∈ ts, t.Ok)
    (hc : Chain saved.isSome ts false) (hn : ts.length < n) (acc : β) :
    TineIter.foldAux dbg f n (itState ts saved) acc =
      (pieces (saved.map .excl) ts).foldlM f acc := by
  induction n generalizing ts saved acc with
  | zero => omega
  | succ n ih =>
    rcases next_step dbg ts saved hok hc with ⟨h1, h2, h3, h4⟩ | ⟨i, ts', saved', h1, h2, h3, h4, h5⟩
    · rw [TineIter.foldAux, h4, h3]; rfl
    · rw [TineIter.foldAux, h5, h1, List.foldlM_cons]
      show (f acc i >>= fun a => TineIter.foldAux dbg f n (itState ts' saved') a) = _
      congr 1
      funext a
      exact ih ts' saved' (fun t ht => hok t (h4 t ht)) h2 (by omega) a

theorem fold_eq {β : Type} (dbg : Bool) (f : β → RawInterval α → Except Panic β) {t : TineTree α}
    (h : Valid t) (acc : β) : (TineIter.start t).fold dbg f acc = (pieces none t).foldlM f acc :=
  foldAux_eq dbg f _ t none h.1.1 h.2 (by simp [TineIter.size, TineIter.start]; omega) acc

theorem foldlM_snoc {β : Type _} (l acc : List β) :
    l.foldlM (fun acc i => (Except.ok (acc ++ [i]) : Except Panic _)) acc = .ok (acc ++ l) := by
  induction l generalizing acc with
  | nil => simp; rfl
  | cons a l ih =>
    rw [List.foldlM_cons]
    show l.foldlM (fun acc i => (Except.ok (acc ++ [i]) : Except Panic _)) (acc ++ [a]) = _
    rw [ih]; simp

/-- Forward interval iteration gives the pieces. -/
theorem intervals_eq (dbg : Bool) {t : TineTree α} (h : Valid t) :
    TineTree.intervals dbg t = .ok (pieces none t) := by
  unfold TineTree.intervals TineIter.collect
  rw [fold_eq dbg _ h, foldlM_snoc]; rfl

theorem anyContains_eq (dbg : Bool) (x : α) (n : Nat)
    (ts : List (Tine α)) (saved : Option α) (hok : ∀ t ∈ ts, t.Ok)
    (hc : Chain saved.isSome ts false) (hn : ts.length < n) :
    TineIter.anyContains dbg x n (itState ts saved) =
      .ok ((pieces (saved.map .excl) ts).any fun i => i.contains x) := by
  induction n generalizing ts saved with
  | zero => omega
  | succ n ih =>
    rcases next_step dbg ts saved hok hc with ⟨h1, h2, h3, h4⟩ | ⟨i, ts', saved', h1, h2, h3, h4, h5⟩
    · rw [TineIter.anyContains, h4, h3]; rfl
    · rw [TineIter.anyContains, h5, h1, List.any_cons]
      show (if i.contains x = true then Except.ok true
        else TineIter.anyContains dbg x n (itState ts' saved')) = _
      rw [ih ts' saved' (fun t ht => hok t (h4 t ht)) h2 (by omega)]
      cases i.contains x <;> rfl

theorem contains_eq (dbg : Bool) {t : TineTree α} (h : Valid t) (x : α) :
    TineTree.contains dbg t x = .ok ((pieces none t).any fun i => i.contains x) :=
  anyContains_eq dbg x _ t none h.1.1 h.2 (by simp [TineIter.size, TineIter.start]; omega)

/-- Bounds in order make a two-tine interval. -/
theorem new_tines {b u : Bound α} (h : (Tine.lower b).key < (Tine.upper u).key) :
    (RawInterval.new b u).WF ∧ Tine.fromRawInterval (RawInterval.new b u) = [.lower b, .upper u] := by
  refine ⟨RawInterval.new_wf _ _, ?_⟩
  rcases b with x | x | _ <;> rcases u with y | y | _ <;> first
    | rfl
    | (have h : x < y := by simpa [Tine.key] using h
       simp [RawInterval.new, Tine.fromRawInterval, RawInterval.mkClosed, RawInterval.mkOpen,
         RawInterval.mkLeftOpen, RawInterval.mkRightOpen, h, h.not_gt, h.ne, h.le])

/-- The coverage of the pieces is the coverage of the stretch. -/
theorem pieces_cov (aft : Bool) (k : Key α) {ts : List (Tine α)} (hs : Sorted ts) :
    (Chain false ts false →
      ((pieces none ts).any fun i => icov i aft k) = cov aft false ts k) ∧
    (∀ b, Chain true ts false → Gt ts (Tine.lower b).key →
      ((pieces (some b) ts).any fun i => icov i aft k) =
        (cov aft false [.lower b] k && cov aft true ts k)) := by
  induction ts with
  | nil => exact ⟨fun _ => rfl, fun b hc => absurd hc (by simp [Chain])⟩
  | cons t ts ih =>
    obtain ⟨h1, h2, h3⟩ := sorted_cons.1 hs
    obtain ⟨ih1, ih2⟩ := ih h3
    constructor
    · intro hc
      obtain ⟨hc1, hc2⟩ := hc
      rcases t with b | (p | p | _) | b <;>
        simp [Tine.isUpperBound, Tine.isLowerBound] at hc1 hc2
      · rw [pieces, ih2 b hc2 h2]
        simp only [cov]
        split_ifs with g1 g2
        · rfl
        · rw [g2.1, cov_gt h2, Bool.and_true]
        · simp [Tine.isLowerBound]
      · rw [pieces, List.any_cons, ih1 hc2]
        simp only [icov, Tine.fromRawInterval, cov]
        split_ifs with g1 g2
        · rw [cov_gt (h2.trans g1.le)]; rfl
        · rw [g2.1, cov_gt h2]; rfl
        · simp [Tine.isLowerBound]
      · exact absurd rfl h1
    · intro b hc hgt
      obtain ⟨hc1, hc2⟩ := hc
      have hbk := (hgt t (List.mem_cons_self)).2
      rcases t with u | (p | p | _) | u <;>
        simp [Tine.isUpperBound, Tine.isLowerBound] at hc1 hc2
      · have hk : (Tine.lower b).key < (Tine.upper (.excl p)).key := hbk
        obtain ⟨n1, n2⟩ := new_tines hk
        have e0 : (Tine.point (.excl p)).key = (Tine.lower (.excl p)).key := rfl
        have e1 : (Tine.upper (.excl p)).key = (Tine.lower (.excl p)).key := rfl
        rw [pieces, List.any_cons, ih2 _ hc2 (e0 ▸ h2), icov, n2]
        simp only [cov, e0, e1]
        rw [e1] at hk
        rw [e0] at h2
        generalize (Tine.lower (.excl p)).key = K at hk h2
        generalize (Tine.lower b).key = kb at hk
        rcases lt_trichotomy k K with g | rfl | g
        · simp [g, g.ne, cov_gt (h2.trans g.le), Tine.isLowerBound]
        · simp [hk.not_gt, hk.ne', Tine.isLowerBound, Tine.inclAt, cov_gt h2]
        · simp [g.not_gt, g.ne', (hk.trans g).not_gt, (hk.trans g).ne', Tine.isLowerBound,
            Tine.inclAt]
      · obtain ⟨n1, n2⟩ := new_tines hbk
        rw [pieces, List.any_cons, ih1 hc2, icov, n2]
        simp only [cov]
        generalize (Tine.upper u).key = K at hbk h2
        generalize (Tine.lower b).key = kb at hbk
        rcases lt_trichotomy k K with g | rfl | g
        · simp [g, g.ne, cov_gt (h2.trans g.le), Tine.isLowerBound]
        · simp [hbk.not_gt, hbk.ne', Tine.isLowerBound, Tine.inclAt, cov_gt h2]
        · simp [g.not_gt, g.ne', (hbk.trans g).not_gt, (hbk.trans g).ne', Tine.isLowerBound,
            Tine.inclAt]

/-- The pieces are well formed and not Empty. -/
theorem pieces_wf {ts : List (Tine α)} (hs : Sorted ts) :
    (∀ i ∈ pieces none ts, i.WF ∧ i ≠ .empty) ∧
    (∀ b, Gt ts (Tine.lower b).key → ∀ i ∈ pieces (some b) ts, i.WF ∧ i ≠ .empty) := by
  induction ts with
  | nil => simp [pieces]
  | cons t ts ih =>
    obtain ⟨h1, h2, h3⟩ := sorted_cons.1 hs
    obtain ⟨ih1, ih2⟩ := ih h3
    constructor
    · rcases t with b | (p | p | _) | b <;> simp only [pieces, List.mem_cons]
      · exact ih2 b h2
      · rintro i (rfl | hi)
        · simp [RawInterval.WF]
        · exact ih1 i hi
      all_goals simp
    · intro b hgt
      have hbk := (hgt t (List.mem_cons_self)).2
      rcases t with u | (p | p | _) | u <;> simp only [pieces, List.mem_cons]
      · simp
      · simp
      · rintro i (rfl | hi)
        · obtain ⟨n1, n2⟩ := new_tines (u := .excl p) (show (Tine.lower b).key < _ from hbk)
          refine ⟨n1, fun e => ?_⟩
          rw [e] at n2; simp [Tine.fromRawInterval] at n2
        · exact ih2 (.excl p) h2 i hi
      · simp
      · rintro i (rfl | hi)
        · obtain ⟨n1, n2⟩ := new_tines hbk
          refine ⟨n1, fun e => ?_⟩
          rw [e] at n2; simp [Tine.fromRawInterval] at n2
        · exact ih1 i hi

theorem contains_ok (dbg : Bool) {t : TineTree α} (h : Valid t) (x : α) :
    TineTree.contains dbg t x = .ok (tcov t false (.fin x)) := by
  rw [contains_eq dbg h, tcov, ← (pieces_cov false (.fin x) h.1).1 h.2]
  congr 1
  rw [Bool.eq_iff_iff, List.any_eq_true, List.any_eq_true]
  constructor <;> rintro ⟨i, hi, hx⟩ <;> refine ⟨i, hi, ?_⟩
  · rw [icov_fin ((pieces_wf h.1).1 i hi).1]; exact hx
  · rwa [icov_fin ((pieces_wf h.1).1 i hi).1] at hx

/-- Rebuilding a tree from its pieces. -/
theorem fromIter_pieces (dbg : Bool) {t : TineTree α} (h : Valid t) :
    TineTree.fromIter dbg (pieces none t) = .ok t := by
  obtain ⟨t', e, v, c⟩ := fromIter_ok dbg (pieces none t) (fun i hi => ((pieces_wf h.1).1 i hi).1)
  rw [e]
  congr 1
  refine valid_ext v h fun aft k _ => ?_
  rw [← tcov, c, (pieces_cov aft k h.1).1 h.2]

theorem union_ok (dbg : Bool) {a b : TineTree α} (ha : Valid a) (hb : Valid b) :
    ∃ t', TineTree.union dbg a b = .ok t' ∧ Valid t' ∧
      ∀ aft k, tcov t' aft k = (tcov a aft k || tcov b aft k) := by
  obtain ⟨t', e, v, c⟩ := foldUnion_ok dbg ha (pieces none b)
    (fun i hi => ((pieces_wf hb.1).1 i hi).1)
  refine ⟨t', ?_, v, fun aft k => ?_⟩
  · rw [TineTree.union, fold_eq dbg _ hb]; exact e
  · rw [c, (pieces_cov aft k hb.1).1 hb.2]; rfl

/-! ## Complement -/

/-- Inversion of a finite tine. -/
def inv : Tine α → Tine α
  | .lower (.incl p) => .upper (.excl p)
  | .lower (.excl p) => .upper (.incl p)
  | .point (.incl p) => .point (.excl p)
  | .point (.excl p) => .point (.incl p)
  | .upper (.incl p) => .lower (.excl p)
  | .upper (.excl p) => .lower (.incl p)
  | t => t

/-- A tine at a finite key. -/
def Fin (t : Tine α) : Prop := ∃ x, t.key = .fin x

theorem inv_ok {t : Tine α} (h : Fin t) : t.invert = .ok (inv t) ∧ (inv t).key = t.key ∧
    (inv t).Ok ∧ (inv t).isUpperBound = !t.isUpperBound ∧ (inv t).isLowerBound = !t.isLowerBound ∧
    (inv t).inclAt = !t.inclAt ∧ Fin (inv t) := by
  obtain ⟨x, hx⟩ := h
  rcases t with (a | a | _) | (a | a | _) | (a | a | _) <;> simp [Tine.key] at hx <;>
    simp [inv, Tine.invert, Tine.key, Tine.Ok, Tine.isUpperBound, Tine.isLowerBound, Tine.inclAt,
      Fin]

theorem cov_map_inv (aft s : Bool) (k : Key α) {F : List (Tine α)} (hF : ∀ t ∈ F, Fin t) :
    cov aft (!s) (F.map inv) k = !cov aft s F k := by
  induction F generalizing s with
  | nil => rfl
  | cons t F ih =>
    obtain ⟨-, e2, -, -, e5, e6, -⟩ := inv_ok (hF t (List.mem_cons_self))
    simp only [List.map_cons, cov, e2, e5, e6]
    rw [ih _ fun t ht => hF t (List.mem_cons_of_mem _ ht)]
    split_ifs <;> rfl

theorem chain_map_inv {s e : Bool} {F : List (Tine α)} (hF : ∀ t ∈ F, Fin t) (h : Chain s F e) :
    Chain (!s) (F.map inv) (!e) := by
  induction F generalizing s with
  | nil => simp only [Chain] at h; subst h; rfl
  | cons t F ih =>
    obtain ⟨-, e2, -, e4, e5, e6, -⟩ := inv_ok (hF t (List.mem_cons_self))
    refine ⟨by rw [e4, h.1], ?_⟩
    rw [e5]
    exact ih (fun t ht => hF t (List.mem_cons_of_mem _ ht)) h.2

theorem sorted_map_inv {F : List (Tine α)} (hF : ∀ t ∈ F, Fin t) (h : Sorted F) :
    Sorted (F.map inv) := by
  refine ⟨fun t ht => ?_, ?_⟩
  · obtain ⟨t0, h0, rfl⟩ := List.mem_map.1 ht
    exact (inv_ok (hF t0 h0)).2.2.1
  · rw [List.pairwise_map]
    refine h.2.imp_of_mem fun ha hb hab => ?_
    rw [(inv_ok (hF _ ha)).2.1, (inv_ok (hF _ hb)).2.1]; exact hab

/-- Inserting a new key keeps the list sorted and adds the tine. -/
theorem insert_new {x : Tine α} (hx : x.Ok) {S : List (Tine α)} (hS : Sorted S)
    (hnew : ∀ t ∈ S, t.key ≠ x.key) : Sorted (BSet.insert x S) ∧
    (BSet.insert x S).Perm (x :: S) := by
  induction S with
  | nil => exact ⟨sorted_cons.2 ⟨hx, .nil _, sorted_nil⟩, List.Perm.refl _⟩
  | cons s S ih =>
    obtain ⟨h1, h2, h3⟩ := sorted_cons.1 hS
    obtain ⟨g1, g2⟩ := ih h3 fun t ht => hnew t (List.mem_cons_of_mem _ ht)
    rcases lt_trichotomy x.key s.key with hlt | heq | hgt
    · rw [BSet.insert, Tine.cmp_lt hx h1 hlt]
      refine ⟨sorted_cons.2 ⟨hx, fun t ht => ?_, hS⟩, List.Perm.refl _⟩
      rcases List.mem_cons.1 ht with rfl | ht
      · exact ⟨h1, hlt⟩
      · exact ⟨(h2 t ht).1, hlt.trans (h2 t ht).2⟩
    · exact absurd heq.symm (hnew s (List.mem_cons_self))
    · rw [BSet.insert, Tine.cmp_gt hx h1 hgt]
      refine ⟨sorted_cons.2 ⟨h1, fun t ht => ?_, g1⟩, ?_⟩
      · rcases List.mem_cons.1 (g2.mem_iff.1 ht) with rfl | ht
        · exact ⟨hx, hgt⟩
        · exact h2 t ht
      · exact (g2.cons s).trans (List.Perm.swap _ _ _)

theorem sorted_perm_eq {S T : List (Tine α)} (hS : Sorted S) (hT : Sorted T) (h : S.Perm T) :
    S = T :=
  h.eq_of_pairwise (fun a b _ _ h1 h2 => absurd h1 h2.not_gt) hS.2 hT.2

/-- Inserting many tines with different keys, in any order. -/
theorem insAll {xs c : List (Tine α)} (hc : Sorted c) (hok : ∀ x ∈ xs, x.Ok)
    (hn : ((xs ++ c).map Tine.key).Nodup) :
    Sorted (xs.foldl (fun c x => BSet.insert x c) c) ∧
    (xs.foldl (fun c x => BSet.insert x c) c).Perm (xs ++ c) := by
  induction xs generalizing c with
  | nil => exact ⟨hc, List.Perm.refl _⟩
  | cons x xs ih =>
    rw [List.cons_append, List.map_cons, List.nodup_cons] at hn
    obtain ⟨g1, g2⟩ := insert_new (hok x (List.mem_cons_self)) hc fun t ht e =>
      hn.1 (List.mem_map.2 ⟨t, List.mem_append.2 (.inr ht), e⟩)
    have hp : (xs ++ BSet.insert x c).Perm (x :: (xs ++ c)) :=
      (g2.append_left xs).trans List.perm_middle
    obtain ⟨k1, k2⟩ := ih g1 (fun y hy => hok y (List.mem_cons_of_mem _ hy))
      (((hp.map Tine.key).nodup_iff).2 (by rw [List.map_cons, List.nodup_cons]; exact hn))
    exact ⟨k1, k2.trans hp⟩

theorem sorted_nodup {T : List (Tine α)} (h : Sorted T) : (T.map Tine.key).Nodup := by
  rw [List.Nodup, List.pairwise_map]
  exact h.2.imp fun h => h.ne

theorem insAll_eq {xs T : List (Tine α)} (hT : Sorted T) (hp : xs.Perm T) :
    xs.foldl (fun c x => BSet.insert x c) [] = T := by
  have := insAll (xs := xs) (c := []) sorted_nil (fun x hx => hT.1 x (hp.mem_iff.1 hx))
    (by rw [List.append_nil]; exact ((hp.map Tine.key).nodup_iff).2 (sorted_nodup hT))
  refine sorted_perm_eq this.1 hT (this.2.trans ?_)
  rw [List.append_nil]; exact hp

theorem complementRest_eq {ts : List (Tine α)} (h : ∀ t ∈ ts, Fin t) (c : TineTree α) :
    TineTree.complementRest ts c = .ok ((ts.map inv).foldl (fun c x => BSet.insert x c) c) := by
  induction ts generalizing c with
  | nil => rfl
  | cons t ts ih =>
    rw [TineTree.complementRest, (inv_ok (h t (List.mem_cons_self))).1]
    exact ih (fun t ht => h t (List.mem_cons_of_mem _ ht)) _

/-- The middle of a valid tree. -/
theorem middle {t : TineTree α} (h : Valid t) : ∃ F c d, t = edge .bot false false c ++ F ++
    edge .top d false false ∧ (∀ x ∈ F, Fin x) ∧ Sorted F ∧ Chain c F d := by
  obtain ⟨w⟩ := two h (Key.bot_lt_top (α := α))
  have hA : w.A = [] := by
    cases hA : w.A with
    | nil => rfl
    | cons x A => exact absurd (w.ltA x (by simp [hA])).2 (Key.not_lt_bot _)
  have hB : w.B = [] := by
    cases hB : w.B with
    | nil => rfl
    | cons x A => exact absurd (w.gtB x (by simp [hB])).2 (Key.not_top_lt _)
  refine ⟨w.M, w.c, w.d, ?_, ?_, w.sM, w.cM⟩
  · have := w.eq
    rw [hA, hB, List.nil_append, List.append_nil] at this
    rw [List.append_assoc]
    exact this
  · intro x hx
    have h1 := (w.gtM x hx).2
    have h2 := (w.ltM x hx).2
    unfold Fin
    cases hk : x.key with
    | bot => rw [hk] at h1; exact absurd h1 (lt_irrefl _)
    | top => rw [hk] at h2; exact absurd h2 (lt_irrefl _)
    | fin y => exact ⟨y, rfl⟩

/-- What `complement` computes. -/
def compl (c d : Bool) (F : List (Tine α)) : List (Tine α) :=
  edge .bot false false (!c) ++ F.map inv ++ edge .top (!d) false false

theorem fin_lt {F : List (Tine α)} (hF : ∀ t ∈ F, Fin t) (hs : Sorted F) :
    Gt F .bot ∧ Lt F .top := by
  refine ⟨fun t ht => ⟨hs.1 t ht, ?_⟩, fun t ht => ⟨hs.1 t ht, ?_⟩⟩ <;>
  · obtain ⟨y, hy⟩ := hF t ht
    rw [hy]; simp

theorem middle_valid {c d : Bool} {F : List (Tine α)} (hF : ∀ t ∈ F, Fin t) (hs : Sorted F)
    (hc : Chain c F d) : Valid (edge .bot false false c ++ F ++ edge .top d false false) := by
  obtain ⟨h1, h2⟩ := fin_lt hF hs
  have := two_valid (A := []) (B := []) (b := false) (a := false) (a2 := false) (e := false)
    (Key.bot_lt_top (α := α)) ⟨rfl, rfl⟩ ⟨rfl, rfl⟩ (.nil _) h1 h2 (.nil _) sorted_nil hs
    sorted_nil rfl hc rfl
  simpa using this

theorem middle_cov {c d : Bool} {F : List (Tine α)} (hF : ∀ t ∈ F, Fin t) (hs : Sorted F)
    (hc : Chain c F d) {aft : Bool} {k : Key α} (hr : RealPos aft k) :
    tcov (edge .bot false false c ++ F ++ edge .top d false false) aft k = cov aft c F k := by
  obtain ⟨h1, h2⟩ := fin_lt hF hs
  have := cov_two (A := []) (B := []) (b := false) (a := false) (a2 := false) (e := false)
    (s := false) (Key.bot_lt_top (α := α)) ⟨rfl, rfl⟩ ⟨rfl, rfl⟩ (.nil _) h1 h2 (.nil _) rfl hc aft k
  simp only [List.nil_append, List.append_nil] at this
  rw [tcov, List.append_assoc, this]
  obtain ⟨r1, r2⟩ := hr
  cases k with
  | bot => simp [r2 rfl, cov_gt h1]
  | top => exact absurd rfl r1
  | fin x => simp

/-- The tines `complement` inserts for the first tine of a tree. -/
def firstIns : Tine α → List (Tine α)
  | .lower .inf => []
  | t => [.lower .inf, inv t]

/-- The tines `complement` inserts for the last tine of a tree. -/
def lastIns : Tine α → List (Tine α)
  | .upper .inf => []
  | t => [.upper .inf, inv t]

theorem complement_two (dbg : Bool) {x y : Tine α} {m : List (Tine α)}
    (hx : x = .lower .inf ∨ Fin x) (hy : y = .upper .inf ∨ Fin y) (hm : ∀ t ∈ m, Fin t) :
    TineTree.complement dbg (x :: (m ++ [y])) =
      .ok ((firstIns x ++ lastIns y ++ m.map inv).foldl (fun c x => BSet.insert x c) []) := by
  have e1 : ∃ s r, m ++ [y] = s :: r := by cases m <;> simp
  obtain ⟨s, r, e1⟩ := e1
  have e2 : (s :: r).getLast? = some y := by rw [← e1]; simp
  have e3 : (s :: r).dropLast = m := by rw [← e1]; simp
  rw [e1]
  unfold TineTree.complement
  simp only [e2, e3]
  rw [List.foldl_append, ← complementRest_eq hm]
  have hx' : x = .lower .inf ∨ ∃ z, x.key = .fin z := hx
  have hy' : y = .upper .inf ∨ ∃ z, y.key = .fin z := hy
  clear hx hy e1 e2 e3
  rcases x with (a | a | _) | (a | a | _) | (a | a | _) <;> simp [Tine.key] at hx' <;>
  rcases y with (b | b | _) | (b | b | _) | (b | b | _) <;> simp [Tine.key] at hy' <;> rfl

theorem firstIns_fin {x : Tine α} (h : Fin x) : firstIns x = [.lower .inf, inv x] := by
  obtain ⟨z, hz⟩ := h
  rcases x with (a | a | _) | (a | a | _) | (a | a | _) <;> simp [Tine.key] at hz <;> rfl

theorem lastIns_fin {x : Tine α} (h : Fin x) : lastIns x = [.upper .inf, inv x] := by
  obtain ⟨z, hz⟩ := h
  rcases x with (a | a | _) | (a | a | _) | (a | a | _) <;> simp [Tine.key] at hz <;> rfl

theorem compl_sorted (c d : Bool) {F : List (Tine α)} (hF : ∀ t ∈ F, Fin t) (hs : Sorted F) :
    Sorted (compl c d F) := by
  have hF' : ∀ t ∈ F.map inv, Fin t := fun t ht => by
    obtain ⟨t0, h0, rfl⟩ := List.mem_map.1 ht
    exact (inv_ok (hF t0 h0)).2.2.2.2.2.2
  have hs' := sorted_map_inv hF hs
  obtain ⟨h1, h2⟩ := fin_lt hF' hs'
  refine sorted_append.2 ⟨sorted_append.2 ⟨edge_sorted _ _ _ _, hs', fun a ha b hb => ?_⟩,
    edge_sorted _ _ _ _, fun a ha b hb => ?_⟩
  · rw [(edge_at _ _ _ _ a ha).2]; exact (h1 b hb).2
  · rw [(edge_at _ _ _ _ b hb).2]
    rcases List.mem_append.1 ha with ha | ha
    · rw [(edge_at _ _ _ _ a ha).2]; exact Key.bot_lt_top
    · exact (h2 a ha).2

/-- What `complement` computes of increasing tines. -/
theorem complement_sorted (dbg : Bool) {F : List (Tine α)} {c d : Bool} (hF : ∀ t ∈ F, Fin t)
    (hs : Sorted F) (h0 : F = [] → c = d)
    (h1 : c = false → d = false → ∀ x, F = [x] → ∃ p, x = .point (.incl p)) :
    TineTree.complement dbg (edge .bot false false c ++ F ++ edge .top d false false) =
      .ok (compl c d F) := by
  have hT : Sorted (compl c d F) := compl_sorted c d hF hs
  have key : ∀ xs : List (Tine α), xs.Perm (compl c d F) →
      xs.foldl (fun c x => BSet.insert x c) [] = compl c d F :=
    fun xs h => insAll_eq hT h
  cases c <;> cases d
  · -- no infinite ends
    rcases F with _ | ⟨x, F⟩
    · have := tree_fromRaw (α := α) (i := .full) trivial
      simp [edge, TineTree.complement, compl, this, Tine.fromRawInterval]
    · rcases List.eq_nil_or_concat F with rfl | ⟨F, y, rfl⟩
      · have hx := h1 rfl rfl x rfl
        obtain ⟨p, rfl⟩ := hx
        have := key [.lower .inf, .point (.excl p), .upper .inf] (by
          simp [compl, edge, inv])
        simp only [List.foldl] at this
        rw [← this]
        cases dbg <;> rfl
      · rw [List.concat_eq_append] at *
        have hx := hF x (by simp)
        have hy := hF y (by simp)
        have e := complement_two dbg (m := F) (.inr hx) (.inr hy) fun t ht => hF t (by simp [ht])
        simp only [edge, List.nil_append, List.append_nil, Bool.false_eq_true, if_false]
        rw [e, firstIns_fin hx, lastIns_fin hy]
        congr 1
        refine key _ ?_
        have p1 : ([Tine.upper .inf, inv y] ++ F.map inv).Perm
          (F.map inv ++ [inv y, Tine.upper .inf]) :=
          List.perm_append_comm.trans (List.Perm.append_left _ (List.Perm.swap _ _ _))
        have := ((p1.cons (inv x)).cons (Tine.lower .inf))
        simpa [compl, edge] using this
  · rcases F with _ | ⟨x, F⟩
    · exact absurd (h0 rfl) (by simp)
    · have hx := hF x (by simp)
      have e := complement_two dbg (m := F) (.inr hx) (.inl rfl) fun t ht => hF t (by simp [ht])
      simp only [edge, List.nil_append, List.append_nil, Bool.false_eq_true, if_false, if_true,
        List.cons_append]
      rw [e, firstIns_fin hx]
      congr 1
      refine key _ ?_
      simp [compl, edge, lastIns]
  · rcases List.eq_nil_or_concat F with rfl | ⟨F, y, rfl⟩
    · exact absurd (h0 rfl) (by simp)
    · rw [List.concat_eq_append] at *
      have hy := hF y (by simp)
      have e := complement_two dbg (m := F) (.inl rfl) (.inr hy) fun t ht => hF t (by simp [ht])
      simp only [edge, List.nil_append, List.append_nil, Bool.false_eq_true, if_false, if_true,
        List.cons_append]
      rw [e, lastIns_fin hy]
      congr 1
      refine key _ ?_
      have p1 : ([Tine.upper .inf, inv y] ++ F.map inv).Perm
          (F.map inv ++ [inv y, Tine.upper .inf]) :=
        List.perm_append_comm.trans (List.Perm.append_left _ (List.Perm.swap _ _ _))
      simpa [compl, edge, firstIns] using p1
  · have e := complement_two dbg (m := F) (.inl rfl) (.inl rfl) hF
    simp only [edge, if_true, List.cons_append, List.nil_append]
    rw [e]
    congr 1
    refine key _ ?_
    simp [compl, edge, firstIns, lastIns]

theorem complement_eq (dbg : Bool) {F : List (Tine α)} {c d : Bool} (hF : ∀ t ∈ F, Fin t)
    (hs : Sorted F) (hc : Chain c F d) :
    TineTree.complement dbg (edge .bot false false c ++ F ++ edge .top d false false) =
      .ok (compl c d F) := by
  refine complement_sorted dbg hF hs (fun h => by subst h; exact hc) ?_
  rintro rfl rfl x rfl
  obtain ⟨h1, h2⟩ := hc
  rcases x with (a | a | _) | (a | a | _) | (a | a | _) <;>
    simp [Tine.isUpperBound, Tine.isLowerBound, Chain] at h1 h2
  · exact ⟨a, rfl⟩
  · obtain ⟨y, hy⟩ := hF _ (List.mem_cons_self)
    simp [Tine.key] at hy

theorem complement_ok (dbg : Bool) {t : TineTree α} (h : Valid t) :
    ∃ t', TineTree.complement dbg t = .ok t' ∧ Valid t' ∧
      ∀ aft k, RealPos aft k → tcov t' aft k = !tcov t aft k := by
  obtain ⟨F, c, d, rfl, hF, hs, hc⟩ := middle h
  have hF' : ∀ t ∈ F.map inv, Fin t := fun t ht => by
    obtain ⟨t0, h0, rfl⟩ := List.mem_map.1 ht
    exact (inv_ok (hF t0 h0)).2.2.2.2.2.2
  have hs' := sorted_map_inv hF hs
  have hc' := chain_map_inv hF hc
  refine ⟨_, complement_eq dbg hF hs hc, middle_valid hF' hs' hc', fun aft k hr => ?_⟩
  rw [middle_cov hF hs hc hr, compl, middle_cov hF' hs' hc' hr, cov_map_inv aft c k hF]


end TT
end NI
