import Verif.Lemmas.Exact
import Verif.Lemmas.Runs

/-! # Single missing values of a tree seen through its complement -/

set_option linter.unusedSimpArgs false
set_option linter.unusedVariables false
set_option linter.unusedSectionVars false

namespace NI
open Finite

namespace TT
variable {α : Type} [LinearOrder α]
open BSet (Lt Gt At)

/-- The pieces that are single points are the included point tines. -/
theorem pieces_point {ts : List (Tine α)} (hs : Sorted ts) (p : α) :
    (Chain false ts false → (RawInterval.point p ∈ pieces none ts ↔ Tine.point (.incl p) ∈ ts)) ∧
    (∀ b, Chain true ts false → Gt ts (Tine.lower b).key →
      (RawInterval.point p ∈ pieces (some b) ts ↔ Tine.point (.incl p) ∈ ts)) := by
  induction ts with
  | nil => exact ⟨by simp [pieces], by simp [pieces]⟩
  | cons t ts ih =>
    obtain ⟨h1, h2, h3⟩ := sorted_cons.1 hs
    obtain ⟨ih1, ih2⟩ := ih h3
    have two : ∀ {l u : Bound α}, (Tine.lower l).key < (Tine.upper u).key →
        RawInterval.point p ≠ RawInterval.new l u := by
      intro l u hk
      rcases l with a | a | _ <;> rcases u with b | b | _ <;> simp [Tine.key] at hk <;>
        simp [RawInterval.new, RawInterval.mkClosed, RawInterval.mkOpen, RawInterval.mkLeftOpen,
          RawInterval.mkRightOpen, hk]
    constructor
    · rintro ⟨c1, c2⟩
      rcases t with b | (q | q | _) | b <;>
        simp [Tine.isUpperBound, Tine.isLowerBound] at c1 c2
      · rw [pieces, ih2 b c2 h2]; simp
      · rw [pieces, List.mem_cons, ih1 c2]
        simp
      · exact absurd rfl h1
    · rintro b ⟨c1, c2⟩ hgt
      have hbk := (hgt t (List.mem_cons_self)).2
      rcases t with u | (q | q | _) | u <;>
        simp [Tine.isUpperBound, Tine.isLowerBound] at c1 c2
      · rw [pieces, List.mem_cons, ih2 (.excl q) c2 h2]
        simp [two (u := .excl q) (show (Tine.lower b).key < _ from hbk)]
      · rw [pieces, List.mem_cons, ih1 c2]
        simp [two hbk]

theorem point_iff {t : TineTree α} (h : Valid t) (p : α) :
    RawInterval.point p ∈ pieces none t ↔
      bef false t (.fin p) = false ∧ tcov t false (.fin p) = true ∧ tcov t true (.fin p) = false := by
  obtain ⟨o⟩ := one h (.fin p)
  obtain ⟨v1, v2, v3⟩ := o.views
  rw [(pieces_point h.1 p).1 h.2, mem_edge o rfl, v1, v2, v3]
  cases o.b <;> cases o.a <;> cases o.c <;> simp [edge]

variable [Finite α] [LawfulFinite α]

theorem bef_compl {t t' : TineTree α} (c : ∀ aft k, RealPos aft k → tcov t' aft k = !tcov t aft k) (x : α) :
    bef false t' (.fin x) = !bef false t (.fin x) := by
  cases hp : pred x with
  | none => rw [bef_min hp, bef_min hp, c _ _ ⟨by simp, by simp⟩]
  | some y => rw [bef_pred hp, bef_pred hp, c _ _ ⟨by simp, by simp⟩]

end TT

namespace Selection
variable {α : Type} [LinearOrder α] [Finite α] [LawfulFinite α]
open TT

theorem run_point {i : RawInterval α} {p : α} : run i = Interval.point p ↔ i = .point p := by
  constructor
  · intro h
    replace h : i.normalized = .point p := congrArg Interval.raw h
    cases i <;> simp only [RawInterval.normalized] at h
    case point q => exact h
    case opn a b => cases e1 : succ a <;> cases e2 : pred b <;> rw [e1, e2] at h <;> cases h
    case leftOpen a b => cases e1 : succ a <;> rw [e1] at h <;> cases h
    case rightOpen a b => cases e1 : pred b <;> rw [e1] at h <;> cases h
    case upTo b => cases e1 : pred b <;> rw [e1] at h <;> cases h
    case upFrom b => cases e1 : succ b <;> rw [e1] at h <;> cases h
    all_goals cases h
  · rintro rfl; rfl

end Selection

/-! ## Counting what iteration from the back takes -/

namespace TT
variable {α : Type} [LinearOrder α]

/-- Tines that are a single included point. -/
def ptIncl : Tine α → Bool
  | .point (.incl _) => true
  | _ => false

theorem pieces_count {ts : List (Tine α)} (hok : ∀ t ∈ ts, t.Ok) :
    (Chain false ts false → 2 * (pieces none ts).length =
      ts.length + ts.countP ptIncl + ts.countP Tine.isPointExclude) ∧
    (∀ b, Chain true ts false → 2 * (pieces (some b) ts).length =
      ts.length + 1 + ts.countP ptIncl + ts.countP Tine.isPointExclude) := by
  induction ts with
  | nil => exact ⟨by simp [pieces], by simp [Chain]⟩
  | cons t ts ih =>
    obtain ⟨ih1, ih2⟩ := ih fun t ht => hok t (by simp [ht])
    have h1 := hok t (by simp)
    constructor
    · rintro ⟨c1, c2⟩
      rcases t with b | (q | q | _) | b <;> simp [Tine.isUpperBound, Tine.isLowerBound] at c1 c2
      · have := ih2 b c2
        have e1 : ptIncl (Tine.lower b) = false := rfl
        have e2 : (Tine.lower b).isPointExclude = false := rfl
        simp [pieces, List.countP_cons, e1, e2]; omega
      · have := ih1 c2
        have e1 : ptIncl (Tine.point (.incl q)) = true := rfl
        have e2 : (Tine.point (.incl q)).isPointExclude = false := rfl
        simp [pieces, List.countP_cons, e1, e2]; omega
      · simp [Tine.Ok] at h1
    · rintro b ⟨c1, c2⟩
      rcases t with u | (q | q | _) | u <;> simp [Tine.isUpperBound, Tine.isLowerBound] at c1 c2
      · have := ih2 (.excl q) c2
        have e1 : ptIncl (Tine.point (.excl q)) = false := rfl
        have e2 : (Tine.point (.excl q)).isPointExclude = true := rfl
        simp [pieces, List.countP_cons, e1, e2]; omega
      · have := ih1 c2
        have e1 : ptIncl (Tine.upper u) = false := rfl
        have e2 : (Tine.upper u).isPointExclude = false := rfl
        simp [pieces, List.countP_cons, e1, e2]; omega

theorem pieces_head {ts : List (Tine α)} {b : Bound α} (h : Chain true ts false) :
    ∃ u r, pieces (some b) ts = RawInterval.new b u :: r := by
  cases ts with
  | nil => simp [Chain] at h
  | cons t ts =>
    obtain ⟨c1, c2⟩ := h
    rcases t with u | (q | q | _) | u <;> simp [Tine.isUpperBound, Tine.isLowerBound] at c1 c2
    · exact ⟨_, _, rfl⟩
    · exact ⟨_, _, rfl⟩

end TT

namespace Selection
variable {α : Type} [LinearOrder α] [Finite α] [LawfulFinite α]
open TT

/-- Iteration from the back takes two tines for an interval that is not a point; it can do with one tine only
for the last item, which is then made of the first tine and a hole above it. -/
theorem back_count (dbg : Bool) (n : Nat) : ∀ {R : List (Tine α)} {o : Option (Tine α)}
    {acc r : List (Interval α)}, R.Pairwise (fun a b => a.key < b.key) →
    (∀ sv, o = some sv → ∃ p, sv = .point (.excl p) ∧ ∀ t ∈ R, t.key < Key.fin p) →
    intervalsBackAux dbg n ⟨R, o, none⟩ acc = .ok r →
    ∃ r', r = acc ++ r' ∧ (2 * r'.length ≤ R.length + R.countP ptIncl ∨
      (2 * r'.length ≤ R.length + R.countP ptIncl + 1 ∧ ∃ x R' p init, R = x :: R' ∧ x.key < Key.fin p ∧
        (∀ q, x ≠ .point (.incl q)) ∧ r' = init ++ [run (RawInterval.new (.excl p) x.intoInner)])) := by
  induction n with
  | zero =>
    intro R o acc r _ _ h
    cases h
    exact ⟨[], by simp, .inl (by simp)⟩
  | succ n ih =>
    intro R o acc r hs ho h
    rcases List.eq_nil_or_concat R with rfl | ⟨S, u, rfl⟩
    · simp only [intervalsBackAux, intervalNextBack, TineIter.nextBack, List.getLast?_nil, bind,
        Except.bind] at h
      cases h
      exact ⟨[], by simp, .inl (by simp)⟩
    rw [List.concat_eq_append] at hs ho h ⊢
    have hs' := List.pairwise_append.1 hs
    by_cases hu : ∃ q, u = .point (.incl q)
    · obtain ⟨q, rfl⟩ := hu
      simp only [intervalsBackAux, intervalNextBack, TineIter.nextBack, TineIter.nextBackWith,
        List.getLast?_concat, List.dropLast_concat, bind, Except.bind, Option.map_some, run_eq] at h
      obtain ⟨r', rfl, hr⟩ := ih hs'.1 (fun sv e => by
        obtain ⟨p, h1, h2⟩ := ho sv e
        exact ⟨p, h1, fun t ht => h2 t (by simp [ht])⟩) h
      refine ⟨run (.point q) :: r', by simp, ?_⟩
      have e1 : ptIncl (Tine.point (.incl q)) = true := rfl
      rcases hr with hr | ⟨hr, x, R', p, init, rfl, h1, h2, rfl⟩
      · left
        simp [List.countP_append, List.countP_cons, e1] at hr ⊢; omega
      · right
        refine ⟨?_, x, _, p, run (.point q) :: init, rfl, h1, h2, rfl⟩
        simp [List.countP_append, List.countP_cons, e1] at hr ⊢; omega
    · have hw : ∀ it : TineIter α, TineIter.nextBackWith dbg u it = (do
          dassert dbg u.isUpperBound
          let (lower, it) ← (match it.tines.getLast?, it.savedLower with
            | some l, _ => .ok (l, { it with tines := it.tines.dropLast })
            | none, some l => .ok (l, { it with savedLower := none })
            | none, none => .error .expect : Except Panic (Tine α × TineIter α))
          let it := if lower.isPointExclude then { it with savedLower := some lower } else it
          dassert dbg lower.isLowerBound
          .ok (RawInterval.new lower.intoInner u.intoInner, it)) := by
        intro it
        rcases u with b | (q | q | _) | b
        · rfl
        · exact absurd ⟨q, rfl⟩ hu
        all_goals rfl
      have e1 : ptIncl u = false := by
        rcases u with b | (q | q | _) | b
        · rfl
        · exact absurd ⟨q, rfl⟩ hu
        all_goals rfl
      simp only [intervalsBackAux, intervalNextBack, TineIter.nextBack, hw,
        List.getLast?_concat, List.dropLast_concat, bind, Except.bind, Option.map_some, run_eq] at h
      cases ha : dassert dbg u.isUpperBound with
      | error => rw [ha] at h; cases h
      | ok _ =>
      rw [ha] at h
      rcases List.eq_nil_or_concat S with rfl | ⟨S, l, rfl⟩
      · cases o with
        | none => cases h
        | some sv =>
          obtain ⟨p, rfl, h2⟩ := ho sv rfl
          simp only [List.getLast?_nil, Tine.isPointExclude] at h
          cases hb : dassert dbg (Tine.point (.excl p) : Tine α).isLowerBound with
          | error => rw [hb] at h; cases h
          | ok _ =>
          rw [hb] at h
          simp only [if_true, Option.map_some, run_eq] at h
          have : intervalsBackAux dbg n ⟨[], some (.point (.excl p)), none⟩
              (acc ++ [run (RawInterval.new (Tine.point (.excl p)).intoInner u.intoInner)]) =
              .ok (acc ++ [run (RawInterval.new (Tine.point (.excl p)).intoInner u.intoInner)]) := by
            cases n <;> rfl
          have h' := h.symm.trans this
          cases h'
          refine ⟨_, rfl, .inr ⟨by simp [e1], u, [], p, [], rfl, h2 u (by simp), fun q e => hu ⟨q, e⟩, rfl⟩⟩
      · simp only [List.concat_eq_append, List.getLast?_concat, List.dropLast_concat] at h hs ho ⊢
        cases hb : dassert dbg l.isLowerBound with
        | error => rw [hb] at h; cases h
        | ok _ =>
        rw [hb] at h
        simp only [Option.map_some, run_eq] at h
        have hs2 := List.pairwise_append.1 (List.pairwise_append.1 hs).1
        have hstate : (if l.isPointExclude = true then
            ({ tines := S, savedLower := some l, savedUpper := none } : TineIter α)
            else ⟨S, o, none⟩) = ⟨S, if l.isPointExclude = true then some l else o, none⟩ := by
          split <;> rfl
        rw [hstate] at h
        obtain ⟨r', rfl, hr⟩ := ih hs2.1 (fun sv e => by
          split at e
          · cases e
            rename_i hl
            rcases l with b | (q | q | _) | b <;> simp [Tine.isPointExclude] at hl
            exact ⟨q, rfl, fun t ht => hs2.2.2 t ht (.point (.excl q)) (by simp)⟩
          · obtain ⟨p, h1, h2⟩ := ho sv e
            exact ⟨p, h1, fun t ht => h2 t (by simp [ht])⟩) h
        refine ⟨run (RawInterval.new l.intoInner u.intoInner) :: r', by simp, ?_⟩
        rcases hr with hr | ⟨hr, x, R', p, init, rfl, h1, h2, rfl⟩
        · left
          simp [List.countP_append, List.countP_cons, e1] at hr ⊢; omega
        · right
          refine ⟨?_, x, _, p, run (RawInterval.new l.intoInner u.intoInner) :: init, rfl, h1, h2, rfl⟩
          simp [List.countP_append, List.countP_cons, e1] at hr ⊢; omega

theorem intervalsBack_ne_any (dbg : Bool) {s : Selection α} (hs : s.Reachable)
    (hh : ¬ HoleFree s.tree) : s.intervalsBack dbg ≠ .ok ((pieces none s.tree).map run).reverse := by
  intro h
  have v := reachable_valid hs
  obtain ⟨r', e, hr⟩ := back_count dbg _ v.1.2 (by simp) h
  rw [List.nil_append] at e
  subst e
  have hc := (pieces_count v.1.1).1 v.2
  have h1 : 0 < s.tree.countP Tine.isPointExclude := by
    rw [List.countP_pos_iff]
    by_contra hn
    exact hh fun x hx => by
      rw [Bool.eq_false_iff]
      exact fun h => hn ⟨x, hx, h⟩
  rw [List.length_reverse, List.length_map] at hr
  rcases hr with hr | ⟨-, x, R', p, init, e1, h2, h3, h4⟩
  · omega
  · have hv := v.2
    have ok := v.1.1
    rw [e1] at hv ok
    rcases x with b | (q | q | _) | b
    · obtain ⟨u, r, e2⟩ := pieces_head (b := b) (ts := R') hv.2
      have e3 : pieces none s.tree = RawInterval.new b u :: r := by rw [e1]; exact e2
      rw [e3] at h4
      simp only [List.map_cons, List.reverse_cons] at h4
      have h5 := (List.append_inj' h4 rfl).2
      simp only [List.cons.injEq, and_true, Tine.intoInner] at h5
      have h6 : (run (RawInterval.new b u)).isEmpty = false := by
        rcases hs.run_cases (i := RawInterval.new b u) (by rw [e3]; simp) with g | ⟨p, q, -, -, e, -⟩
        · obtain ⟨_, _, _, _, _, _, g⟩ := g.cases
          exact g
        · rw [e]; rfl
      rcases b with a | a | _
      · have h2 : a < p := by simpa [Tine.key] using h2
        have : RawInterval.new (.excl p) (.incl a) = .empty := by
          simp [RawInterval.new, RawInterval.mkLeftOpen, not_lt.2 h2.le, h2.ne']
        rw [h5, this] at h6
        cases h6
      · have h2 : a < p := by simpa [Tine.key] using h2
        have : RawInterval.new (.excl p) (.excl a) = .empty := by
          simp [RawInterval.new, RawInterval.mkOpen, not_lt.2 h2.le]
        rw [h5, this] at h6
        cases h6
      · have e4 : RawInterval.new (.excl p) .inf = .upFrom p := rfl
        rw [e4] at h5
        rw [h5] at h6
        have e5 : (run (.upFrom p) : Interval α).raw = (succ p).elim .empty fun l => .closed l maximum := rfl
        cases e6 : succ p with
        | none => rw [e6] at e5; rw [Interval.isEmpty, e5] at h6; cases h6
        | some q =>
          rw [e6] at e5
          have e7 : (run (RawInterval.new .inf u) : Interval α).raw = .closed q maximum := by rw [h5, e5]; rfl
          have : q = minimum := by
            rcases u with a | a | _ <;> simp only [run, RawInterval.new, RawInterval.normalized] at e7
            · cases e7; rfl
            · cases e8 : pred a <;> rw [e8] at e7 <;> cases e7; rfl
            · cases e7; rfl
          have h7 := (LawfulFinite.succ_some p q e6).1
          rw [this] at h7
          exact absurd (minimum_le p) (not_le.2 h7)
    · exact h3 q rfl
    · simp [Chain, Tine.isUpperBound] at hv
    · have := ok (.point .inf) (by simp)
      simp [Tine.Ok] at this
    · simp [Chain, Tine.isUpperBound] at hv

end Selection
end NI
