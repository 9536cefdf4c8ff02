import Verif.Lemmas.Neat
import Verif.Lemmas.Pinhole
import Verif.Lemmas.Runs

/-!
# All selections

Exactly the proper trees that fit (`FitL`) are trees of selections, and single intervals with complement,
intersection and union are enough to make them.
-/

set_option linter.unusedSimpArgs false
set_option linter.unusedVariables false
set_option linter.unusedSectionVars false

namespace NI
open Finite

namespace TT
variable {α : Type} [LinearOrder α] [Finite α] [LawfulFinite α]
open BSet (Lt Gt At)

/-- The intervals listed by a tree fit if the tree does. -/
theorem FitL.piece {t : TineTree α} (v : Valid t) (h : FitL t) {i : RawInterval α} (hi : i ∈ pieces none t) :
    FitL (Tine.fromRawInterval i) := by
  have hw := ((pieces_wf v.1).1 i hi).1
  have key : ∀ x : Tine α, FitT x → x.Ok → (x.isLowerBound = true → FitT (.lower x.intoInner)) ∧
      (x.isUpperBound = true → FitT (.upper x.intoInner)) := by
    intro x hx ho
    rcases x with (p | p | _) | (p | p | _) | (p | p | _) <;>
      simp_all [FitT, Tine.isLowerBound, Tine.isUpperBound, Tine.intoInner]
  rcases (piece_tines v.1).1 i hi with ⟨p, rfl⟩ | ⟨A, x, y, B, e, g1, g2, g3, g4⟩
  · have := ((pieces_point v.1 p).1 v.2).1 hi
    intro x hx
    simp only [Tine.fromRawInterval, List.mem_singleton] at hx
    subst hx
    exact h _ this
  · have kx := (key x (h x (by simp [e])) (v.1.1 x (by simp [e]))).1 g1
    have ky := (key y (h y (by simp [e])) (v.1.1 y (by simp [e]))).2 g2
    clear key e
    intro z hz
    cases i <;> simp only [RawInterval.lowerBound, RawInterval.upperBound, Option.some.injEq, reduceCtorEq] at g3 g4 <;>
      rw [← g3] at kx <;> rw [← g4] at ky <;> simp [Tine.fromRawInterval] at hz <;> clear g3 g4 <;>
      first
      | (rcases hz with rfl | rfl <;> assumption)
      | (subst hz; exact ⟨kx, ky⟩)

end TT

namespace Selection
variable {α : Type} [LinearOrder α] [Finite α] [LawfulFinite α]
open TT

theorem made_denorm {i : Interval α} (hi : i.Obtainable) {r : RawInterval α}
    (h : i.raw.denormalized = r) : (⟨Tine.fromRawInterval r⟩ : Selection α).Made := by
  have := Made.ofInterval hi
  rw [show ofInterval i = ⟨_⟩ from rfl] at this
  subst h
  rw [← ofInterval_tree hi]
  exact this

theorem made_upTo {q : α} (h : q ≠ minimum) :
    (⟨Tine.fromRawInterval (.upTo q)⟩ : Selection α).Made := by
  have hp : pred q ≠ none := fun e => h ((LawfulFinite.pred_none q).1 e)
  obtain ⟨p, hp⟩ := Option.ne_none_iff_exists'.1 hp
  refine made_denorm (.mkClosed minimum p) ?_
  have hs := succ_of_pred hp
  have hm := (LawfulFinite.pred_none (minimum : α)).2 rfl
  have hl := LawfulFinite.min_le p
  rcases hl.lt_or_eq with hl | hl
  · simp [Interval.mkClosed, RawInterval.mkClosed, hl, RawInterval.normalized, RawInterval.denormalized, hm, hs]
  · subst hl
    simp [Interval.mkClosed, RawInterval.mkClosed, RawInterval.normalized, RawInterval.denormalized, hm, hs]

theorem made_upFrom {p : α} (h : p ≠ maximum) :
    (⟨Tine.fromRawInterval (.upFrom p)⟩ : Selection α).Made := by
  have hq : succ p ≠ none := fun e => h ((LawfulFinite.succ_none p).1 e)
  obtain ⟨q, hq⟩ := Option.ne_none_iff_exists'.1 hq
  refine made_denorm (.mkClosed q maximum) ?_
  have hs := pred_of_succ hq
  have hm := (LawfulFinite.succ_none (maximum : α)).2 rfl
  have hl := LawfulFinite.le_max q
  rcases hl.lt_or_eq with hl | hl
  · simp [Interval.mkClosed, RawInterval.mkClosed, hl, RawInterval.normalized, RawInterval.denormalized, hm, hs]
  · subst hl
    simp [Interval.mkClosed, RawInterval.mkClosed, RawInterval.normalized, RawInterval.denormalized, hm, hs]

theorem made_compl {i j : RawInterval α} (hi : i.WF) (hj : j.WF)
    (hr : (⟨Tine.fromRawInterval i⟩ : Selection α).Made)
    (hc : ∀ aft k, RealPos aft k → icov j aft k = !icov i aft k) :
    (⟨Tine.fromRawInterval j⟩ : Selection α).Made := by
  obtain ⟨s', e, v, c⟩ := complement_ok true (s := ⟨Tine.fromRawInterval i⟩) (fromRaw_valid hi)
  have : s' = ⟨Tine.fromRawInterval j⟩ := by
    cases s'
    congr 1
    exact valid_ext v (fromRaw_valid hj) fun aft k hk => (c aft k hk).trans (hc aft k hk).symm
  exact this ▸ hr.complement e

theorem made_isect {i j k : RawInterval α} (hi : i.WF) (hj : j.WF) (hk : k.WF)
    (ni : i ≠ .empty) (nj : j ≠ .empty)
    (ri : (⟨Tine.fromRawInterval i⟩ : Selection α).Made)
    (rj : (⟨Tine.fromRawInterval j⟩ : Selection α).Made)
    (hc : ∀ aft x, RealPos aft x → icov k aft x = (icov i aft x && icov j aft x)) :
    (⟨Tine.fromRawInterval k⟩ : Selection α).Made := by
  obtain ⟨s', e, v, c⟩ := intersect_ok true (a := ⟨Tine.fromRawInterval i⟩) (b := ⟨Tine.fromRawInterval j⟩)
    (fromRaw_valid hi) (fromRaw_valid hj)
  have : s' = ⟨Tine.fromRawInterval k⟩ := by
    cases s' with | mk t' =>
    congr 1
    simp only [pieces_fromRaw hi ni, pieces_fromRaw hj nj] at c
    obtain ⟨t2, e2, v2, c2⟩ := fromIter_ok true [i.intersect j] (by
      intro x hx; cases List.mem_singleton.1 hx; exact RawInterval.intersect_wf i j)
    have hcov : ∀ aft x, RealPos aft x → tcov t' aft x = (icov i aft x && icov j aft x) := by
      intro aft x hr
      rw [← icov_intersect hi hj hr]
      cases hm : (i.intersect j).isEmpty
      · have : isectList [i] [j] = [i.intersect j] := by simp [isectList, hm]
        rw [this, e2] at c; cases c
        rw [c2]; simp
      · have : isectList [i] [j] = [] := by simp [isectList, hm]
        rw [this] at c; cases c
        have : i.intersect j = .empty := by
          revert hm; cases i.intersect j <;> simp [RawInterval.isEmpty]
        rw [this]; rfl
    exact valid_ext v (fromRaw_valid hk) fun aft x hx => (hcov aft x hx).trans (hc aft x hx).symm
  exact this ▸ ri.intersect rj e

/-- The half-line above a lower bound. -/
def above : Bound α → RawInterval α
  | .incl p => .frm p
  | .excl p => .upFrom p
  | .inf => .full

/-- The half-line below an upper bound. -/
def below : Bound α → RawInterval α
  | .incl p => .to p
  | .excl p => .upTo p
  | .inf => .full

theorem above_spec (l : Bound α) : (above l).WF ∧ above l ≠ .empty ∧ (above l).lowerBound = some l ∧
    (above l).upperBound = some .inf := by
  cases l <;> simp [above, RawInterval.WF, RawInterval.lowerBound, RawInterval.upperBound]

theorem below_spec (u : Bound α) : (below u).WF ∧ below u ≠ .empty ∧ (below u).lowerBound = some .inf ∧
    (below u).upperBound = some u := by
  cases u <;> simp [below, RawInterval.WF, RawInterval.lowerBound, RawInterval.upperBound]

theorem above_cov (l : Bound α) {aft : Bool} {k : Key α} (hr : RealPos aft k) :
    icov (above l) aft k = true ↔ lowS l aft k := by
  obtain ⟨h1, -, h2, h3⟩ := above_spec l
  rw [icov_iff h1 h2 h3 hr]
  have : upS (.inf : Bound α) aft k := by
    refine .inl ?_
    cases k with
    | top => exact absurd rfl hr.1
    | _ => simp [Tine.key]
  simp [this]

theorem below_cov (u : Bound α) {aft : Bool} {k : Key α} (hr : RealPos aft k) :
    icov (below u) aft k = true ↔ upS u aft k := by
  obtain ⟨h1, -, h2, h3⟩ := below_spec u
  rw [icov_iff h1 h2 h3 hr]
  have : lowS (.inf : Bound α) aft k := by
    cases k with
    | bot => exact .inr ⟨rfl, .inl (hr.2 rfl)⟩
    | _ => exact .inl (by simp [Tine.key])
  simp [this]

theorem made_above {l : Bound α} (h : FitT (.lower l)) :
    (⟨Tine.fromRawInterval (above l)⟩ : Selection α).Made := by
  cases l with
  | incl p =>
    refine made_compl (i := .upTo p) trivial (above_spec _).1 (made_upTo h) fun aft k hr => ?_
    rw [Bool.eq_iff_iff, above_cov _ hr, Bool.not_eq_true', Bool.eq_false_iff, Ne,
      show RawInterval.upTo p = below (.excl p) from rfl, below_cov _ hr]
    simp only [lowS, upS, Tine.key, Bound.isInclusive]
    grind
  | excl p => exact made_upFrom h
  | inf =>
    have := Made.ofInterval (α := α) .full
    rw [show ofInterval Interval.full = (⟨full.tree⟩ : Selection α) from rfl, full_tree] at this
    exact this

theorem made_below {u : Bound α} (h : FitT (.upper u)) :
    (⟨Tine.fromRawInterval (below u)⟩ : Selection α).Made := by
  cases u with
  | incl p =>
    refine made_compl (i := .upFrom p) trivial (below_spec _).1 (made_upFrom h) fun aft k hr => ?_
    rw [Bool.eq_iff_iff, below_cov _ hr, Bool.not_eq_true', Bool.eq_false_iff, Ne,
      show RawInterval.upFrom p = above (.excl p) from rfl, above_cov _ hr]
    simp only [lowS, upS, Tine.key, Bound.isInclusive]
    grind
  | excl p => exact made_upTo h
  | inf => exact made_above (l := .inf) trivial

theorem made_raw {i : RawInterval α} (hw : i.WF) (h : FitL (Tine.fromRawInterval i)) :
    (⟨Tine.fromRawInterval i⟩ : Selection α).Made := by
  rcases i.bounds_cases with ⟨rfl, -⟩ | ⟨l, u, h1, h2, hn⟩
  · exact .ofInterval .empty
  have hl : FitT (.lower l) ∧ FitT (.upper u) := by
    cases i <;> simp only [RawInterval.lowerBound, RawInterval.upperBound, Option.some.injEq, reduceCtorEq] at h1 h2 <;>
      subst h1 <;> subst h2
    case point p => exact h (.point (.incl p)) (by simp [Tine.fromRawInterval])
    all_goals exact ⟨h _ (by simp [Tine.fromRawInterval]), h _ (by simp [Tine.fromRawInterval])⟩
  refine made_isect (above_spec l).1 (below_spec u).1 hw (above_spec l).2.1 (below_spec u).2.1
    (made_above hl.1) (made_below hl.2) fun aft k hr => ?_
  rw [Bool.eq_iff_iff, icov_iff hw h1 h2 hr, Bool.and_eq_true, above_cov _ hr, below_cov _ hr]

theorem Made.reachable {s : Selection α} (h : s.Made) : s.Reachable := by
  induction h with
  | ofInterval h => exact .ofInterval h
  | complement _ e ih => exact ih.complement e
  | intersect _ _ e iha ihb => exact iha.intersect ihb e
  | union _ _ e iha ihb => exact iha.union ihb e

theorem Made.built {s : Selection α} (h : s.Made) : s.Built := by
  induction h with
  | ofInterval h => exact .ofInterval h
  | complement _ e ih => exact ih.complement e
  | intersect _ _ e iha ihb => exact iha.intersect ihb e
  | union _ _ e iha ihb => exact iha.union ihb e

/-- Proper trees that fit are trees of selections. -/
theorem made_of_fit {s : Selection α} (v : Valid s.tree) (hf : FitL s.tree) : s.Made := by
  have key : ∀ is : List (RawInterval α), (∀ i ∈ is, i.WF ∧ FitL (Tine.fromRawInterval i)) →
      ∃ s' : Selection α, s'.Made ∧ ∀ aft k, tcov s'.tree aft k = is.any fun i => icov i aft k := by
    intro is
    induction is with
    | nil => exact fun _ => ⟨_, .ofInterval .empty, fun _ _ => rfl⟩
    | cons i is ih =>
      intro h
      obtain ⟨s1, r1, c1⟩ := ih fun j hj => h j (List.mem_cons_of_mem _ hj)
      obtain ⟨hw, hfi⟩ := h i List.mem_cons_self
      have r2 := made_raw hw hfi
      obtain ⟨s2, e, v2, c2⟩ := union_ok true (reachable_valid r2.reachable) (reachable_valid r1.reachable)
      refine ⟨s2, r2.union r1 e, fun aft k => ?_⟩
      rw [c2, c1, List.any_cons]; rfl
  obtain ⟨s', r, c⟩ := key (pieces none s.tree) fun i hi =>
    ⟨((pieces_wf v.1).1 i hi).1, hf.piece v hi⟩
  have : s' = s := by
    cases s; cases s'
    congr 1
    refine valid_ext (reachable_valid r.reachable) v fun aft k _ => ?_
    exact (c aft k).trans ((pieces_cov aft k v.1).1 v.2)
  exact this ▸ r

/-- Exactly the proper trees that fit are trees of selections. -/
theorem reachable_iff {s : Selection α} : s.Reachable ↔ Valid s.tree ∧ FitL s.tree :=
  ⟨fun h => ⟨reachable_valid h, (fit_iff (reachable_valid h)).1 h.fit⟩, fun ⟨v, hf⟩ => (made_of_fit v hf).reachable⟩

theorem Reachable.made {s : Selection α} (h : s.Reachable) : s.Made :=
  have := reachable_iff.1 h
  made_of_fit this.1 this.2

end Selection

namespace TT
variable {α : Type} [LinearOrder α]

theorem closed_ok : Closed (α := α) Tine.Ok where
  ok _ h := h
  low := by simp [Tine.Ok]
  up := by simp [Tine.Ok]
  inv x m _ h := by
    rcases x with (a | a | _) | (a | a | _) | (a | a | _) <;> simp [Tine.invert] at h <;> subst h <;> simp [Tine.Ok]
  union dbg s o m hs ho hc h := by
    unfold Tine.union at h
    simp only [dassert, bind, Except.bind] at h
    split at h
    · cases h
    · split at h <;> simp only [Except.ok.injEq, Option.some.injEq, reduceCtorEq] at h <;> subst h <;> simp [Tine.Ok]
  intersect dbg s o m hs ho hc h := by
    unfold Tine.intersect at h
    simp only [dassert, bind, Except.bind] at h
    split at h
    · cases h
    · split at h <;> simp only [Except.ok.injEq, Option.some.injEq, reduceCtorEq] at h <;> subst h <;> simp [Tine.Ok]
  minus dbg s o m hs ho hc h := by
    unfold Tine.minus at h
    simp only [dassert, bind, Except.bind] at h
    split at h
    · cases h
    · split at h <;> simp only [Except.ok.injEq, Option.some.injEq, reduceCtorEq] at h <;> subst h <;> simp [Tine.Ok]
  half x _ := by simp [Tine.Ok]
  point p := by simp [Tine.Ok]

theorem raw_ok {i : RawInterval α} (h : i.WF) : ∀ x ∈ Tine.fromRawInterval i, x.Ok := (fromRaw_valid h).1.1

theorem neat_foldUnion {P : Tine α → Prop} (c : Closed P) {t t' : TineTree α} (ht : Neat P t)
    {is : List (RawInterval α)} (hi : ∀ i ∈ is, ∀ x ∈ Tine.fromRawInterval i, P x)
    (e : is.foldlM (TineTree.unionInPlace true) t = .ok t') : Neat P t' := by
  induction is generalizing t with
  | nil => cases e; exact ht
  | cons i is ih =>
    rw [List.foldlM_cons] at e
    cases e1 : TineTree.unionInPlace true t i with
    | error x => rw [e1] at e; cases e
    | ok t1 =>
      rw [e1] at e
      exact ih (neat_unionInPlace c ht (hi i (.head _)) e1) (fun j hj => hi j (.tail _ hj)) e

theorem built_sorted {t : TineTree α} (h : TineTree.Built t) : Neat Tine.Ok t := by
  have c := closed_ok (α := α)
  induction h with
  | new => exact neat_nil
  | fromRaw h => rw [tree_fromRaw h]; exact ⟨(fromRaw_valid h).1, raw_ok h⟩
  | fromIter h e => exact neat_foldUnion c neat_nil (fun i hi => raw_ok (h i hi)) e
  | unionInPlace _ h e ih => exact neat_unionInPlace c ih (raw_ok h) e
  | minusInPlace _ h e ih => exact neat_minusInPlace c ih (raw_ok h) e
  | intersectInPlace _ h e ih => exact neat_intersectInPlace c ih (raw_ok h) e
  | union _ _ e ha hb => exact neat_union c ha hb e
  | minus _ _ e ha hb => exact neat_minus c ha hb e
  | intersect _ _ e ha hb => exact neat_intersect c ha hb e
  | complement _ e ih => exact neat_complement c ih e

theorem reachable_of_valid {t : TineTree α} (v : Valid t) : TineTree.Reachable t := by
  have key : ∀ (is : List (RawInterval α)) (t t' : TineTree α), TineTree.Reachable t → (∀ i ∈ is, i.WF) →
      is.foldlM (TineTree.unionInPlace true) t = .ok t' → TineTree.Reachable t' := by
    intro is
    induction is with
    | nil => intro t t' h _ e; cases e; exact h
    | cons i is ih =>
      intro t t' h hi e
      rw [List.foldlM_cons] at e
      cases e1 : TineTree.unionInPlace true t i with
      | error x => rw [e1] at e; cases e
      | ok t1 =>
        rw [e1] at e
        exact ih _ _ (.unionInPlace h (hi i (.head _)) e1) (fun j hj => hi j (.tail _ hj)) e
  exact key _ _ _ .new (fun i hi => ((pieces_wf v.1).1 i hi).1) (fromIter_pieces true v)

theorem built_of_valid {t : TineTree α} (v : Valid t) : TineTree.Built t :=
  .fromIter (fun i hi => ((pieces_wf v.1).1 i hi).1) (fromIter_pieces true v)

/-- A debug build notices a corrupt tree by iterating over it and over its complement. -/
theorem built_iff {t : TineTree α} (h : TineTree.Built t) : TineTree.Reachable t ↔
    (∃ is, TineTree.intervals true t = .ok is) ∧
      ∃ c cs, TineTree.complement true t = .ok c ∧ TineTree.intervals true c = .ok cs := by
  constructor
  · intro hr
    have v := reachable_valid hr
    obtain ⟨c, e, vc, -⟩ := complement_ok true v
    exact ⟨⟨_, intervals_eq true v⟩, c, _, e, intervals_eq true vc⟩
  · rintro ⟨⟨is, e⟩, c, cs, ec, e'⟩
    exact reachable_of_valid (valid_of_loose (built_sorted h).1 (intervals_loose e) ec (intervals_loose e'))

end TT

namespace Selection
variable {α : Type} [LinearOrder α] [Finite α] [LawfulFinite α]
open TT

theorem closed_fit : Closed (α := α) fun x => x.Ok ∧ FitT x where
  ok _ h := h.1
  low := ⟨closed_ok.low, trivial⟩
  up := ⟨closed_ok.up, trivial⟩
  inv x m hx h := ⟨closed_ok.inv x m hx.1 h, hx.2.invert h⟩
  union dbg s o m hs ho hc h := by
    refine ⟨closed_ok.union dbg s o m hs.1 ho.1 hc h, ?_⟩
    replace hs := hs.2
    replace ho := ho.2
    unfold Tine.union at h
    simp only [dassert, bind, Except.bind] at h
    split at h
    · cases h
    · have hc' : ∀ a b, o.asRef = some a → s.asRef = some b → b = a := fun a b h1 h2 => cmp_eq_fin hc h1 h2
      clear hc
      split at h <;> simp only [Except.ok.injEq, Option.some.injEq, reduceCtorEq] at h <;> subst h <;>
        simp_all [FitT, Tine.asRef, Tine.intoInner, Bound.asRef]
  intersect dbg s o m hs ho hc h :=
    ⟨closed_ok.intersect dbg s o m hs.1 ho.1 hc h, hs.2.intersect ho.2 hc h⟩
  minus dbg s o m hs ho hc h :=
    ⟨closed_ok.minus dbg s o m hs.1 ho.1 hc h, hs.2.minus ho.2 hc h⟩
  half x hx := by
    obtain ⟨h1, h2⟩ := hx
    rcases x with (p | p | _) | (p | p | _) | (p | p | _) <;>
      simp_all [FitT, Tine.isLowerBound, Tine.isUpperBound, Tine.intoInner, Tine.Ok]
  point p := by simp [Tine.Ok, FitT]

theorem denorm_fitL {i : Interval α} (hi : i.Obtainable) :
    ∀ x ∈ Tine.fromRawInterval i.raw.denormalized, x.Ok ∧ FitT x := by
  have v := denorm_valid hi
  intro x hx
  exact ⟨v.1.1 x hx, (fit_iff v).1 (denorm_fit hi) x hx⟩

theorem built_neat {s : Selection α} (h : s.Built) : Neat (fun x => x.Ok ∧ FitT x) s.tree := by
  have c := closed_fit (α := α)
  have ok : ∀ {t : Except Panic (TineTree α)} {s' : Selection α},
      (do .ok ⟨← t⟩ : Except Panic (Selection α)) = .ok s' → t = .ok s'.tree := by
    intro t s' e
    cases t with
    | error x => cases e
    | ok t => cases e; rfl
  have ext : ∀ (is : List (Interval α)) {s s' : Selection α}, Neat (fun x => x.Ok ∧ FitT x) s.tree →
      (∀ i ∈ is, Interval.Obtainable i) → s.extend true is = .ok s' → Neat (fun x => x.Ok ∧ FitT x) s'.tree := by
    intro is
    induction is with
    | nil => intro s s' h _ e; cases e; exact h
    | cons i is ih =>
      intro s s' h hi e
      unfold extend at e
      rw [List.foldlM_cons] at e
      change (s.unionInPlace true i >>= fun s' => s'.extend true is) = _ at e
      cases e1 : s.unionInPlace true i with
      | error x => rw [e1] at e; cases e
      | ok s1 =>
        rw [e1] at e
        exact ih (neat_unionInPlace c h (denorm_fitL (hi i (.head _))) (ok e1)) (fun j hj => hi j (.tail _ hj)) e
  induction h with
  | new => exact neat_nil
  | full => rw [full, ofInterval_tree .full]; exact ⟨(denorm_valid .full).1, denorm_fitL .full⟩
  | ofInterval hi => rw [ofInterval_tree hi]; exact ⟨(denorm_valid hi).1, denorm_fitL hi⟩
  | unionInPlace _ hi e ih => exact neat_unionInPlace c ih (denorm_fitL hi) (ok e)
  | minusInPlace _ hi e ih => exact neat_minusInPlace c ih (denorm_fitL hi) (ok e)
  | intersectInPlace _ hi e ih => exact neat_intersectInPlace c ih (denorm_fitL hi) (ok e)
  | extend _ hi e ih => exact ext _ ih hi e
  | fromIntervals hi e => exact ext _ neat_nil hi e
  | fromPoints e =>
    rw [fromPoints_eq] at e
    refine ext _ neat_nil ?_ e
    simp only [List.mem_map]
    rintro i ⟨x, -, rfl⟩
    exact .point x
  | union _ _ e ha hb => exact neat_union c ha hb (ok e)
  | minus _ _ e ha hb => exact neat_minus c ha hb (ok e)
  | intersect _ _ e ha hb => exact neat_intersect c ha hb (ok e)
  | complement _ e ih => exact neat_complement c ih (ok e)

theorem intervalsAux_fold (n : Nat) (it : TineIter α) (acc : List (Interval α)) :
    intervalsAux true n it acc =
      TineIter.foldAux true (fun acc i => .ok (acc ++ [Interval.ofRaw i.normalized])) n it acc := by
  induction n generalizing it acc with
  | zero => rfl
  | succ n ih =>
    simp only [intervalsAux, TineIter.foldAux, intervalNext, bind, Except.bind]
    cases hn : it.next true with
    | error y => rfl
    | ok r =>
      obtain ⟨i, it'⟩ := r
      cases i with
      | none => rfl
      | some i => exact ih _ _

/-- A debug build notices a corrupt selection by iterating over it and over its complement. -/
theorem built_iff {s : Selection α} (h : s.Built) : s.Reachable ↔
    (∃ is, s.intervals true = .ok is) ∧
      ∃ c cs, s.complement true = .ok c ∧ c.intervals true = .ok cs := by
  constructor
  · intro hr
    have v := Selection.reachable_valid hr
    obtain ⟨c, e, vc, -⟩ := complement_ok true v
    exact ⟨⟨_, intervals_eq true v⟩, c, _, e, intervals_eq true vc⟩
  · rintro ⟨⟨is, e⟩, c, cs, ec, e'⟩
    have hn := built_neat h
    have conv : ∀ {s : Selection α} {is}, s.intervals true = .ok is → Loose false s.tree := by
      intro s is e
      rw [Selection.intervals, intervalsAux_fold] at e
      exact foldAux_loose _ (sl := none) (fun x h => by cases h) (by simp [TineIter.size, TineIter.start]; omega) e
    have ec : TineTree.complement true s.tree = .ok c.tree := by
      simp only [complement] at ec
      cases h : TineTree.complement true s.tree with
      | error x => rw [h] at ec; cases ec
      | ok t => rw [h] at ec; cases ec; rfl
    exact reachable_iff.2 ⟨valid_of_loose hn.1 (conv e) ec (conv e'), fun x hx => (hn.2 x hx).2⟩

end Selection

namespace Selection
variable {α : Type} [LinearOrder α] [Finite α] [LawfulFinite α]
open TT

/-- The values from `l` to `u` as a raw interval whose tines fit. -/
def span (l u : α) : RawInterval α :=
  .new (if l = minimum then .inf else .incl l) (if u = maximum then .inf else .incl u)

theorem span_spec {l u : α} (h : l ≤ u) : (span l u).WF ∧ span l u ≠ .empty ∧
    FitL (Tine.fromRawInterval (span l u)) ∧ (run (span l u)).pts = Set.Icc l u ∧
    (l ≠ minimum → (span l u).lowerBound = some (.incl l)) ∧
    (u ≠ maximum → (span l u).upperBound = some (.incl u)) := by
  have hc : ∀ x, (span l u).contains x = true ↔ l ≤ x ∧ x ≤ u := by
    intro x
    have h1 := LawfulFinite.min_le x
    have h2 := LawfulFinite.le_max x
    rw [span, RawInterval.new_contains (by split_ifs <;> simp [Bound.Compat, h])]
    split_ifs with a b b <;> simp [Bound.AdmitsAbove, Bound.AdmitsBelow, *]
  refine ⟨RawInterval.new_wf _ _, ?_, ?_, ?_, ?_, ?_⟩
  · intro e
    have := (hc l).2 ⟨le_rfl, h⟩
    rw [e] at this; cases this
  · intro x hx
    rw [span] at hx
    split_ifs at hx with a b b <;> simp [RawInterval.new, RawInterval.mkClosed, Tine.fromRawInterval] at hx
    · rcases hx with rfl | rfl <;> trivial
    · rcases hx with rfl | rfl
      · trivial
      · exact b
    · rcases hx with rfl | rfl
      · exact a
      · trivial
    · split_ifs at hx with c d <;> simp [Tine.fromRawInterval] at hx
      · rcases hx with rfl | rfl <;> assumption
      · subst hx; subst d; exact ⟨a, b⟩
  · rw [run_pts]
    ext x; exact hc x
  · intro a
    rw [span, if_neg a]
    exact (RawInterval.new_of_compat (by split_ifs <;> simp [Bound.Compat, h])).1
  · intro a
    rw [span, if_neg a]
    exact (RawInterval.new_of_compat (by split_ifs <;> simp [Bound.Compat, h])).2.1

/-- Any ascending list of ranges is listed by some selection. -/
theorem exists_listing (ps : List (α × α)) (h : ∀ p ∈ ps, p.1 ≤ p.2) (ha : ps.Pairwise fun p q => p.2 < q.1) :
    ∃ s : Selection α, s.Reachable ∧ pieces none s.tree = ps.map fun p => span p.1 p.2 := by
  obtain ⟨t, v, e, -⟩ := exists_tree (ps.map fun p => span p.1 p.2)
    (by
      intro i hi
      obtain ⟨p, hp, rfl⟩ := List.mem_map.1 hi
      have := span_spec (h p hp)
      exact ⟨this.1, this.2.1⟩)
    (by
      rw [List.pairwise_map]
      refine List.Pairwise.imp_of_mem ?_ ha
      intro p q hp hq hlt
      have h1 := (span_spec (h p hp)).2.2.2.2.2 (fun z => absurd (hlt.trans_le (LawfulFinite.le_max q.1)) (by simp [z]))
      have h2 := (span_spec (h q hq)).2.2.2.2.1 (fun z => absurd ((LawfulFinite.min_le p.2).trans_lt hlt) (by simp [z]))
      exact ⟨_, _, h1, h2, .inl (by simp [Tine.key, hlt])⟩)
  refine ⟨⟨t⟩, reachable_iff.2 ⟨v, (fit_iff v).1 ?_⟩, e⟩
  have key : ∀ L : List (RawInterval α), (∀ i ∈ L, i.WF ∧ FitL (Tine.fromRawInterval i)) →
      Fit fun aft k => L.any fun i => icov i aft k := by
    intro L
    induction L with
    | nil => exact fun _ => ⟨rfl, rfl⟩
    | cons i L ih =>
      intro hL
      refine Fit.or (c := icov i) ((fit_iff (fromRaw_valid (hL i (by simp)).1)).2 (hL i (by simp)).2)
        (ih fun j hj => hL j (List.mem_cons_of_mem _ hj)) fun aft k => ?_
      rw [List.any_cons]
  have hcov : tcov t = fun aft k => (pieces none t).any fun i => icov i aft k := by
    funext aft k
    exact ((pieces_cov aft k v.1).1 v.2).symm
  rw [hcov, e]
  refine key _ fun i hi => ?_
  obtain ⟨p, hp, rfl⟩ := List.mem_map.1 hi
  have := span_spec (h p hp)
  exact ⟨this.1, this.2.2.1⟩

/-- Intervals with a value are ranges. -/
theorem ranges : ∀ (L : List (Interval α)), (∀ i ∈ L, i.Obtainable ∧ i.pts.Nonempty) →
    ∃ ps : List (α × α), (∀ p ∈ ps, p.1 ≤ p.2) ∧ L.map Interval.pts = ps.map fun p => Set.Icc p.1 p.2
  | [], _ => ⟨[], by simp, rfl⟩
  | i :: L, h => by
    obtain ⟨ps, h1, h2⟩ := ranges L fun j hj => h j (List.mem_cons_of_mem _ hj)
    obtain ⟨ho, x, hx⟩ := h i (by simp)
    have : ∃ l u, l ≤ u ∧ i.pts = Set.Icc l u := by
      rcases Interval.real_cases ho (.inr ⟨x, hx⟩) with rfl | ⟨p, rfl⟩ | ⟨l, u, rfl, hlu⟩
      · cases hx
      · refine ⟨p, p, le_rfl, ?_⟩
        ext y
        simp [Interval.pts, Interval.contains, RawInterval.contains, eq_comm]
      · refine ⟨l, u, hlu, ?_⟩
        ext y
        simp [Interval.pts, Interval.contains, RawInterval.contains]
    obtain ⟨l, u, h3, h4⟩ := this
    refine ⟨(l, u) :: ps, ?_, by simp [h4, h2]⟩
    intro p hp
    rcases List.mem_cons.1 hp with rfl | hp
    · exact h3
    · exact h1 p hp

/-- Ranges with gaps between them are determined by their union. -/
theorem ranges_ext {ps qs : List (α × α)} (hp : ∀ p ∈ ps, p.1 ≤ p.2) (hq : ∀ q ∈ qs, q.1 ≤ q.2)
    (gp : ps.Pairwise fun p q => ∃ z, p.2 < z ∧ z < q.1) (gq : qs.Pairwise fun p q => ∃ z, p.2 < z ∧ z < q.1)
    (h : ∀ x, (∃ p ∈ ps, p.1 ≤ x ∧ x ≤ p.2) ↔ ∃ q ∈ qs, q.1 ≤ x ∧ x ≤ q.2) : ps = qs := by
  have lo : ∀ {p : α × α} {ps : List (α × α)}, (∀ r ∈ p :: ps, r.1 ≤ r.2) →
      (p :: ps).Pairwise (fun p q => ∃ z, p.2 < z ∧ z < q.1) → ∀ q ∈ ps, p.2 < q.1 := by
    intro p ps _ g q hq
    obtain ⟨z, h1, h2⟩ := (List.pairwise_cons.1 g).1 q hq
    exact h1.trans h2
  have le1 : ∀ {p q : α × α} {ps qs : List (α × α)}, (∀ r ∈ p :: ps, r.1 ≤ r.2) → (∀ r ∈ q :: qs, r.1 ≤ r.2) →
      (q :: qs).Pairwise (fun p q => ∃ z, p.2 < z ∧ z < q.1) →
      (∀ x, (∃ r ∈ p :: ps, r.1 ≤ x ∧ x ≤ r.2) → ∃ r ∈ q :: qs, r.1 ≤ x ∧ x ≤ r.2) → q.1 ≤ p.1 := by
    intro p q ps qs hp hq g h
    obtain ⟨r, hr, h1, h2⟩ := h p.1 ⟨p, by simp, le_rfl, hp p (by simp)⟩
    rcases List.mem_cons.1 hr with rfl | hr
    · exact h1
    · exact ((hq q (by simp)).trans (lo hq g r hr).le).trans h1
  have le2 : ∀ {p q : α × α} {ps qs : List (α × α)}, (∀ r ∈ p :: ps, r.1 ≤ r.2) → (∀ r ∈ q :: qs, r.1 ≤ r.2) →
      (q :: qs).Pairwise (fun p q => ∃ z, p.2 < z ∧ z < q.1) → p.1 ≤ q.2 →
      (∀ x, (∃ r ∈ p :: ps, r.1 ≤ x ∧ x ≤ r.2) → ∃ r ∈ q :: qs, r.1 ≤ x ∧ x ≤ r.2) → p.2 ≤ q.2 := by
    intro p q ps qs hp hq g hpq h
    by_contra hlt
    rw [not_le] at hlt
    obtain ⟨r, hr, h1, h2⟩ := h p.2 ⟨p, by simp, hp p (by simp), le_rfl⟩
    rcases List.mem_cons.1 hr with rfl | hr
    · exact absurd h2 (not_le.2 hlt)
    cases qs with
    | nil => cases hr
    | cons q' qs =>
      obtain ⟨z, z1, z2⟩ := (List.pairwise_cons.1 g).1 q' (by simp)
      have hq' : ∀ r ∈ q' :: qs, q'.1 ≤ r.1 := by
        intro r hr
        rcases List.mem_cons.1 hr with rfl | hr
        · exact le_rfl
        · exact (hq q' (by simp)).trans (lo (fun x hx => hq x (List.mem_cons_of_mem _ hx)) (List.pairwise_cons.1 g).2 r hr).le
      obtain ⟨r', hr', h3, h4⟩ := h z ⟨p, by simp, hpq.trans z1.le, (z2.trans_le ((hq' r hr).trans h1)).le⟩
      rcases List.mem_cons.1 hr' with rfl | hr'
      · exact absurd h4 (not_le.2 z1)
      · exact absurd (z2.trans_le (hq' r' hr')) (not_lt.2 h3)
  induction ps generalizing qs with
  | nil =>
    cases qs with
    | nil => rfl
    | cons q qs =>
      obtain ⟨p, hp, -⟩ := (h q.1).2 ⟨q, by simp, le_rfl, hq q (by simp)⟩
      cases hp
  | cons p ps ih =>
    cases qs with
    | nil =>
      obtain ⟨q, hq, -⟩ := (h p.1).1 ⟨p, by simp, le_rfl, hp p (by simp)⟩
      cases hq
    | cons q qs =>
      have e1 : p.1 = q.1 := le_antisymm (le1 hq hp gp fun x => (h x).2) (le1 hp hq gq fun x => (h x).1)
      have e2 : p.2 = q.2 := le_antisymm
        (le2 hp hq gq (e1 ▸ hq q (by simp)) fun x => (h x).1)
        (le2 hq hp gp (e1 ▸ hp p (by simp)) fun x => (h x).2)
      have e : p = q := Prod.ext e1 e2
      subst e
      congr 1
      have lp := lo hp gp
      have lq := lo hq gq
      refine ih (fun x hx => hp x (List.mem_cons_of_mem _ hx)) (fun x hx => hq x (List.mem_cons_of_mem _ hx))
        (List.pairwise_cons.1 gp).2 (List.pairwise_cons.1 gq).2 fun x => ⟨?_, ?_⟩
      · rintro ⟨r, hr, h1, h2⟩
        obtain ⟨r', hr', h3, h4⟩ := (h x).1 ⟨r, List.mem_cons_of_mem _ hr, h1, h2⟩
        rcases List.mem_cons.1 hr' with rfl | hr'
        · exact absurd ((lp r hr).trans_le h1) (not_lt.2 h4)
        · exact ⟨r', hr', h3, h4⟩
      · rintro ⟨r, hr, h1, h2⟩
        obtain ⟨r', hr', h3, h4⟩ := (h x).2 ⟨r, List.mem_cons_of_mem _ hr, h1, h2⟩
        rcases List.mem_cons.1 hr' with rfl | hr'
        · exact absurd ((lq r hr).trans_le h1) (not_lt.2 h4)
        · exact ⟨r', hr', h3, h4⟩

end Selection
end NI
