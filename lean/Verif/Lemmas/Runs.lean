import Verif.Lemmas.SelMore
import Verif.Lemmas.More
import Verif.Lemmas.Canon

/-!
# Runs without points

The tree of a selection does not tell the positions before the least value and after the greatest one from
these values themselves (`Fit`), whatever the history.  Hence a run without points can only be an open
interval between two neighbours.
-/

set_option linter.unusedSimpArgs false
set_option linter.unusedVariables false
set_option linter.unusedSectionVars false

namespace NI
open Finite

namespace TT
variable {α : Type} [LinearOrder α] [Finite α] [LawfulFinite α]
open BSet (Lt Gt At)

/-- Coverage at the ends of the type is coverage beyond them. -/
def Fit (c : Bool → Key α → Bool) : Prop :=
  c true .bot = c false (.fin minimum) ∧ c true (.fin maximum) = c false (.fin maximum)

theorem DO.fit {t : TineTree α} (h : DO t) : Fit (tcov t) := by
  refine ⟨h.2, ?_⟩
  rw [h.1, (LawfulFinite.succ_none (maximum : α)).2 rfl]
  simp

theorem Fit.or {c d e : Bool → Key α → Bool} (hc : Fit c) (hd : Fit d)
    (h : ∀ aft k, e aft k = (c aft k || d aft k)) : Fit e := by
  refine ⟨?_, ?_⟩
  · rw [h, h, hc.1, hd.1]
  · rw [h, h, hc.2, hd.2]

theorem Fit.compl {c d : Bool → Key α → Bool} (hc : Fit c)
    (h : ∀ aft k, RealPos aft k → d aft k = !c aft k) : Fit d := by
  refine ⟨?_, ?_⟩
  · rw [h _ _ ⟨by simp, by simp⟩, h _ _ ⟨by simp, by simp⟩, hc.1]
  · rw [h _ _ ⟨by simp, by simp⟩, h _ _ ⟨by simp, by simp⟩, hc.2]

theorem Fit.no_hole {t : TineTree α} (h : Fit (tcov t)) :
    holeAt t (.fin minimum) = false ∧ holeAt t (.fin maximum) = false := by
  constructor
  · rw [holeAt, bef_min ((LawfulFinite.pred_none (minimum : α)).2 rfl), h.1]
    cases tcov t false (.fin minimum) <;> simp
  · rw [holeAt, h.2]
    cases tcov t false (.fin maximum) <;> simp

/-- An interval value as it is inserted. -/
theorem denorm_fit {i : Interval α} (hi : i.Obtainable) : Fit (icov i.raw.denormalized) := by
  by_cases hr : i.Real
  · exact (denorm_do hi hr).fit
  have hn := Interval.obtainable_nf hi
  obtain ⟨l, u, hlu, rfl, -⟩ := Interval.not_real_step hi hr
  have hs : succ u = some l := by
    rcases hn with h | h
    · exact absurd h (not_le.2 hlu)
    · exact h
  have e : (RawInterval.closed l u).denormalized = .opn u l := by
    simp only [RawInterval.denormalized, hs, pred_of_succ hs]
  show Fit (icov (RawInterval.closed l u).denormalized)
  rw [e]
  refine ⟨?_, ?_⟩
  · rw [(icov_opn hlu u).2, icov_fin (show (RawInterval.opn u l).WF from hlu)]
    have : ¬ u < (minimum : α) := not_lt.2 (minimum_le _)
    simp [RawInterval.contains, this]
  · rw [(icov_opn hlu _).1, icov_fin (show (RawInterval.opn u l).WF from hlu)]
    have : ¬ (maximum : α) < l := not_lt.2 (le_maximum _)
    simp [RawInterval.contains, this]

theorem any_congr' {β : Type} {l : List β} {f g : β → Bool} (h : ∀ i ∈ l, f i = g i) : l.any f = l.any g := by
  rw [Bool.eq_iff_iff, List.any_eq_true, List.any_eq_true]
  constructor
  · rintro ⟨i, hi, e⟩; exact ⟨i, hi, h i hi ▸ e⟩
  · rintro ⟨i, hi, e⟩; exact ⟨i, hi, (h i hi).symm ▸ e⟩

theorem pairwise_two {β : Type} {R : β → β → Prop} {l : List β} (h : l.Pairwise R) {a b : β} (ha : a ∈ l)
    (hb : b ∈ l) (hab : a ≠ b) : R a b ∨ R b a := by
  induction h with
  | nil => cases ha
  | cons hx _ ih =>
    rcases List.mem_cons.1 ha with rfl | ha' <;> rcases List.mem_cons.1 hb with rfl | hb'
    · exact absurd rfl hab
    · exact .inl (hx _ hb')
    · exact .inr (hx _ ha')
    · exact ih ha' hb'

/-- The pieces of a tree that fits do. -/
theorem Fit.piece {t : TineTree α} (v : Valid t) (h : Fit (tcov t)) {i : RawInterval α}
    (hi : i ∈ pieces none t) : Fit (icov i) := by
  have hw := ((pieces_wf v.1).1 i hi).1
  have hne := ((pieces_wf v.1).1 i hi).2
  have b1 : bef false t (.fin minimum) = tcov t true .bot :=
    bef_min ((LawfulFinite.pred_none (minimum : α)).2 rfl)
  have ou : i.upperBound ≠ some (.excl minimum) := fun e => by
    obtain ⟨h1, h2⟩ := (open_upper_iff v minimum).1 ⟨i, hi, e⟩
    rw [b1, h.1, h2] at h1; cases h1
  have ol : i.lowerBound ≠ some (.excl maximum) := fun e => by
    obtain ⟨h1, h2⟩ := (open_lower_iff v maximum).1 ⟨i, hi, e⟩
    rw [h.2, h1] at h2; cases h2
  have cu : i.upperBound ≠ some (.incl maximum) := fun e => by
    obtain ⟨h1, h2⟩ := (closed_upper_iff v maximum).1 ⟨i, hi, e⟩
    rw [h.2, h1] at h2; cases h2
  have cl : i.lowerBound ≠ some (.incl minimum) := fun e => by
    by_cases hp : ∀ p, i ≠ .point p
    · obtain ⟨h1, h2⟩ := closed_lower v hi hp e
      rw [b1, h.1, h2] at h1; cases h1
    · push Not at hp
      obtain ⟨p, rfl⟩ := hp
      cases e
      obtain ⟨h1, h2⟩ := (closed_upper_iff v minimum).1 ⟨_, hi, rfl⟩
      have hb : tcov t true .bot = true := by rw [h.1, h1]
      rw [tcov, ← (pieces_cov true .bot v.1).1 v.2, List.any_eq_true] at hb
      obtain ⟨q, hq, hqb⟩ := hb
      have hql : q.lowerBound = some .inf := by
        have hqw := ((pieces_wf v.1).1 q hq).1
        cases q <;> simp [icov, Tine.fromRawInterval, cov, Tine.key, Tine.isLowerBound,
          RawInterval.lowerBound] at hqb ⊢
      have hne : q ≠ .point minimum := fun e => by rw [e] at hql; cases hql
      rcases pairwise_two (pieces_sep v.1).1 hq hi hne with ⟨u, l, e1, e2, h | ⟨x, rfl, rfl⟩⟩ |
        ⟨u, l, e1, e2, h | ⟨x, rfl, rfl⟩⟩
      · cases e2
        have h : (Tine.upper u).key < .fin minimum := h
        rcases u with b | b | _
        · exact absurd (minimum_le b) (not_le.2 (by simpa [Tine.key] using h))
        · exact absurd (minimum_le b) (not_le.2 (by simpa [Tine.key] using h))
        · simp [Tine.key] at h
      · cases e2
      · rw [hql] at e2; cases e2
        exact absurd h (Key.not_lt_bot _)
      · rw [hql] at e2; cases e2
  have m1 : ∀ x : α, minimum ≤ x := minimum_le
  have m2 : ∀ x : α, x ≤ maximum := le_maximum
  have m3 : ∀ x : α, ¬ x < minimum := fun x => not_lt.2 (m1 x)
  have m4 : ∀ x : α, ¬ maximum < x := fun x => not_lt.2 (m2 x)
  have m5 : ∀ x : α, (x < maximum ↔ ¬ x = maximum) := fun x => lt_iff_le_and_ne.trans (by simp [m2])
  have m6 : ∀ x : α, (minimum < x ↔ ¬ x = minimum) := fun x =>
    lt_iff_le_and_ne.trans (by simp [m1, eq_comm])
  have m7 : ∀ x : α, (x ≤ minimum ↔ x = minimum) := fun x =>
    ⟨fun h => le_antisymm h (m1 x), fun h => h ▸ le_rfl⟩
  have m8 : ∀ x : α, (maximum ≤ x ↔ x = maximum) := fun x =>
    ⟨fun h => le_antisymm (m2 x) h, fun h => h ▸ le_rfl⟩
  unfold Fit
  simp only [icov_fin hw]
  cases i <;> simp [icov, Tine.fromRawInterval, cov, Tine.key, Tine.isLowerBound, RawInterval.lowerBound,
    RawInterval.upperBound, RawInterval.contains, m1, m2, m3, m4, m5, m6, m7, m8] at hw hne ou ol cu cl ⊢ <;> grind

/-- A piece without points is an open interval between neighbours. -/
theorem Fit.phantom {t : TineTree α} (v : Valid t) (h : Fit (tcov t)) {i : RawInterval α}
    (hi : i ∈ pieces none t) (hn : ∀ x, i.contains x = false) : ∃ p q, succ p = some q ∧ i = .opn p q := by
  have hw := (pieces_wf v.1).1 i hi
  obtain ⟨f1, f2⟩ := h.piece v hi
  rw [icov_fin hw.1] at f1 f2
  have no : ∀ x, i.contains x = true → False := fun x hx => by rw [hn x] at hx; cases hx
  cases i with
  | empty => exact absurd rfl hw.2
  | point p => exact (no p (by simp [RawInterval.contains])).elim
  | opn l r =>
    cases hs : succ l with
    | none =>
      rw [LawfulFinite.succ_none] at hs
      exact absurd (le_maximum r) (not_le.2 (hs ▸ hw.1))
    | some q =>
      obtain ⟨k1, k2⟩ := LawfulFinite.succ_some l q hs
      refine ⟨l, r, ?_, rfl⟩
      rcases (k2 r hw.1).lt_or_eq with hlt | rfl
      · exact (no q (by simp [RawInterval.contains, k1, hlt])).elim
      · exact hs
  | leftOpen l r => exact (no r (by simpa [RawInterval.contains] using show l < r from hw.1)).elim
  | rightOpen l r => exact (no l (by simpa [RawInterval.contains] using show l < r from hw.1)).elim
  | closed l r =>
    exact (no l (by simpa [RawInterval.contains] using le_of_lt hw.1)).elim
  | upTo r =>
    rw [(icov_upTo r r).2] at f1
    exact (no _ f1.symm).elim
  | upFrom l =>
    rw [(icov_upFrom l _).1] at f2
    exact (no _ (f2.symm.trans (by simp [le_maximum]))).elim
  | «to» r => exact (no r (by simp [RawInterval.contains])).elim
  | frm l => exact (no l (by simp [RawInterval.contains])).elim
  | full => exact (no minimum (by simp [RawInterval.contains])).elim

/-- A piece that fits and contains every value is full. -/
theorem Fit.full {i : RawInterval α} (hw : i.WF) (h : Fit (icov i)) (hc : ∀ x, i.contains x = true) :
    i = .full := by
  obtain ⟨f1, f2⟩ := h
  rw [icov_fin hw, hc] at f1 f2
  have a := hc minimum
  have b := hc maximum
  have m4 : ∀ x : α, ¬ maximum < x := fun x => not_lt.2 (le_maximum x)
  cases i <;> simp [icov, Tine.fromRawInterval, cov, Tine.key, Tine.isLowerBound, RawInterval.contains,
    m4] at f1 f2 a b ⊢

/-- The tines that trees of selections can have at the ends of the type: an excluded lower or an included upper
bound at the least value, an included lower or an excluded upper bound at the greatest. -/
def FitT : Tine α → Prop
  | .lower (.incl p) => p ≠ minimum
  | .lower (.excl p) => p ≠ maximum
  | .upper (.incl p) => p ≠ maximum
  | .upper (.excl p) => p ≠ minimum
  | .point (.incl p) => p ≠ minimum ∧ p ≠ maximum
  | .point (.excl p) => p ≠ minimum ∧ p ≠ maximum
  | _ => True

/-- All tines of the list are such. -/
def FitL (t : List (Tine α)) : Prop := ∀ x ∈ t, FitT x

theorem FitL.filter {t : List (Tine α)} (h : FitL t) (p : Tine α → Bool) : FitL (t.filter p) :=
  fun x hx => h x (List.mem_filter.1 hx).1

theorem FitL.append {a b : List (Tine α)} (ha : FitL a) (hb : FitL b) : FitL (BSet.append a b) := fun x hx =>
  (List.mem_append.1 hx).elim (ha x) (hb x)

theorem FitL.insert {t : List (Tine α)} (h : FitL t) {x : Tine α} (hx : FitT x) : FitL (BSet.insert x t) := by
  induction t with
  | nil => intro y hy; cases List.mem_singleton.1 hy; exact hx
  | cons z t ih =>
    have hz := h z (by simp)
    have ht : FitL t := fun y hy => h y (by simp [hy])
    intro y hy
    unfold BSet.insert at hy
    split at hy
    · rcases List.mem_cons.1 hy with rfl | hy
      · exact hx
      · exact h y hy
    · exact h y hy
    · rcases List.mem_cons.1 hy with rfl | hy
      · exact hz
      · exact ih ht y hy

theorem FitL.insertIf {t : List (Tine α)} (h : FitL t) {x : Tine α} (hx : FitT x) (c : Bool) :
    FitL (TineTree.insertIf c x t) := by
  cases c
  · exact h
  · exact h.insert hx

theorem FitL.taken {t : List (Tine α)} (h : FitL t) {x y : Tine α} (e : BSet.taken x t = some y) :
    FitT y ∧ x.cmp y = .eq :=
  ⟨h y (List.mem_of_find?_eq_some e), by simpa using List.find?_some e⟩

theorem FitT.invert {x m : Tine α} (hx : FitT x) (h : x.invert = .ok m) : FitT m := by
  rcases x with (a | a | _) | (a | a | _) | (a | a | _) <;> simp [Tine.invert] at h <;> subst h <;> exact hx

theorem FitT.orInvert {c : Bool} {x m : Tine α} (hx : FitT x) (h : TineTree.orInvert c x = .ok m) : FitT m := by
  cases c
  · exact hx.invert h
  · simp only [TineTree.orInvert, if_true, Except.ok.injEq] at h
    subst h; exact hx

theorem cmp_eq_fin {x y : Tine α} (h : x.cmp y = .eq) {a b : α} (hx : x.asRef = some a) (hy : y.asRef = some b) :
    b = a := by
  simp only [Tine.cmp, Tine.cmp?, hx, hy, Option.getD_some] at h
  split at h
  · cases h
  · split at h
    · rename_i e; exact e.symm
    · cases h

theorem FitT.minus {dbg : Bool} {s o m : Tine α} (hs : FitT s) (ho : FitT o) (hc : o.cmp s = .eq)
    (h : s.minus dbg o = .ok (some m)) : FitT m := by
  unfold Tine.minus at h
  simp only [dassert, bind, Except.bind] at h
  split at h
  · cases h
  · have hc' : ∀ a b, o.asRef = some a → s.asRef = some b → b = a := fun a b h1 h2 => cmp_eq_fin hc h1 h2
    clear hc
    split at h <;> simp only [Except.ok.injEq, Option.some.injEq, reduceCtorEq] at h <;> subst h <;>
      simp_all [FitT, Tine.asRef, Tine.intoInner, Bound.asRef]

theorem FitT.intersect {dbg : Bool} {s o m : Tine α} (hs : FitT s) (ho : FitT o) (hc : o.cmp s = .eq)
    (h : s.intersect dbg o = .ok (some m)) : FitT m := by
  unfold Tine.intersect at h
  simp only [dassert, bind, Except.bind] at h
  split at h
  · cases h
  · have hc' : ∀ a b, o.asRef = some a → s.asRef = some b → b = a := fun a b h1 h2 => cmp_eq_fin hc h1 h2
    clear hc
    split at h <;> simp only [Except.ok.injEq, Option.some.injEq, reduceCtorEq] at h <;> subst h <;>
      simp_all [FitT, Tine.asRef, Tine.intoInner, Bound.asRef]

theorem fit_merged {dbg : Bool} {t : TineTree α} (ht : FitL t) {x m : Tine α} (hx : FitT x)
    (h : (match BSet.taken x t with
      | some y => y.minus dbg x
      | none => .ok (some x) : Except Panic (Option (Tine α))) = .ok (some m)) : FitT m := by
  cases e : BSet.taken x t with
  | none => rw [e] at h; simp only [Except.ok.injEq, Option.some.injEq] at h; subst h; exact hx
  | some y => rw [e] at h; exact (ht.taken e).1.minus hx (ht.taken e).2 h

theorem fit_mergedI {dbg : Bool} {t : TineTree α} (ht : FitL t) {x m : Tine α} (hx : FitT x)
    (h : (match BSet.taken x t with
      | some y => y.intersect dbg x
      | none => .ok (some x) : Except Panic (Option (Tine α))) = .ok (some m)) : FitT m := by
  cases e : BSet.taken x t with
  | none => rw [e] at h; simp only [Except.ok.injEq, Option.some.injEq] at h; subst h; exact hx
  | some y => rw [e] at h; exact (ht.taken e).1.intersect hx (ht.taken e).2 h

theorem fit_minusPoint {dbg : Bool} {t t' : TineTree α} (ht : FitL t) {p : Tine α} (hp : FitT p)
    (e : TineTree.minusPoint dbg t p = .ok t') : FitL t' := by
  have f4 : FitL (BSet.append (BSet.below p (BSet.remove p t)) (BSet.above p (BSet.remove p t))) :=
    ((ht.filter _).filter _).append ((ht.filter _).filter _)
  simp only [TineTree.minusPoint, TineTree.exteriorSplitPoint, bind, Except.bind] at e
  split at e
  · cases e
  · rename_i m hm
    split at e
    · cases e; exact f4
    · rename_i q
      have hq := fit_merged ht hp hm
      split at e
      · cases hi : q.invert with
        | error x => rw [hi] at e; cases e
        | ok q' => rw [hi] at e; cases e; exact f4.insert (hq.invert hi)
      · unfold dassert at e
        split at e
        · cases e
        · cases e; exact f4.insert hq
      · unfold dassert at e
        split at e
        · cases e
        · cases e; exact f4.insert hq
      · cases e; exact f4

theorem fit_minusProper {dbg : Bool} {t t' : TineTree α} (ht : FitL t) {l u : Tine α} (hl : FitT l) (hu : FitT u)
    (e : TineTree.minusProper dbg t l u = .ok t') : FitL t' := by
  have f1 : FitL (BSet.remove l t) := ht.filter _
  have f6 : FitL (BSet.append (BSet.below l (BSet.remove u (BSet.remove l t)))
      (BSet.above u (BSet.above l (BSet.remove u (BSet.remove l t))))) :=
    ((f1.filter _).filter _).append (((f1.filter _).filter _).filter _)
  simp only [TineTree.minusProper, TineTree.exteriorSplit, bind, Except.bind] at e
  split at e
  · cases e
  rename_i mL hmL
  split at e
  · cases e
  rename_i mU hmU
  have kL : ∀ m, mL = some m → FitT m := by
    rintro m rfl; exact fit_merged ht hl hmL
  have kU : ∀ m, mU = some m → FitT m := by
    rintro m rfl; exact fit_merged f1 hu hmU
  clear hmL hmU
  split at e
  · split at e
    · cases e
    rename_i a' ha'
    split at e
    · cases e
    rename_i b' hb'
    cases e
    exact (f6.insert ((kL _ rfl).orInvert ha')).insert ((kU _ rfl).orInvert hb')
  · split at e
    · cases e
    rename_i a' ha'
    have f7 := f6.insert ((kL _ rfl).orInvert ha')
    split at e
    · cases e
      exact f7.insert (kU _ rfl)
    · cases e; exact f7
  · split at e
    · cases e
    rename_i b' hb'
    have f7 := f6.insert ((kU _ rfl).orInvert hb')
    split at e
    · cases e
      exact f7.insert (kL _ rfl)
    · cases e; exact f7
  · cases e
    exact (f6.insertIf (kL _ rfl) _).insertIf (kU _ rfl) _
  · cases e
    exact f6.insertIf (kL _ rfl) _
  · cases e
    exact f6.insertIf (kU _ rfl) _
  · cases e; exact f6
  · cases e

theorem fit_intersectProper {dbg : Bool} {t t' : TineTree α} (ht : FitL t) {l u : Tine α} (hl : FitT l)
    (hu : FitT u) (e : TineTree.intersectProper dbg t l u = .ok t') : FitL t' := by
  have f1 : FitL (BSet.remove l t) := ht.filter _
  have f6 : FitL (BSet.below u (BSet.above l (BSet.remove u (BSet.remove l t)))) :=
    ((f1.filter _).filter _).filter _
  simp only [TineTree.intersectProper, TineTree.interiorSplit, bind, Except.bind] at e
  split at e
  · cases e
  rename_i r hr
  split at hr
  · cases hr
  split at hr
  · cases hr
  cases hr
  split at e
  · cases e
  rename_i mL hmL
  split at e
  · cases e
  rename_i mU hmU
  have kL : ∀ m, mL = some m → FitT m := by
    rintro m rfl; exact fit_mergedI ht hl hmL
  have kU : ∀ m, mU = some m → FitT m := by
    rintro m rfl; exact fit_mergedI f1 hu hmU
  clear hmL hmU
  split at e
  · cases e
  split at e
  · cases e
  split at e
  · cases e; exact (f6.insert (kL _ rfl)).insert (kU _ rfl)
  · cases e; exact (f6.insert (kL _ rfl)).insert (kU _ rfl)
  · cases e; exact f6.insert (kL _ rfl)
  · cases e; exact f6.insert (kU _ rfl)
  · cases e; exact f6
  · cases e

theorem fitL_nil : FitL ([] : List (Tine α)) := fun _ h => by cases h

theorem fit_minusInPlace {dbg : Bool} {t t' : TineTree α} (ht : FitL t) {i : RawInterval α}
    (hi : FitL (Tine.fromRawInterval i)) (e : TineTree.minusInPlace dbg t i = .ok t') : FitL t' := by
  unfold TineTree.minusInPlace at e
  split at e
  · cases e; exact ht
  split at e
  · cases e; exact fitL_nil
  split at e
  · cases e; exact ht
  · rename_i h; exact fit_minusPoint ht (hi _ (by rw [h]; simp)) e
  · rename_i h; exact fit_minusProper ht (hi _ (by rw [h]; simp)) (hi _ (by rw [h]; simp)) e
  · cases e

theorem fit_intersectInPlace {dbg : Bool} {t t' : TineTree α} (ht : FitL t) {i : RawInterval α}
    (hi : FitL (Tine.fromRawInterval i)) (e : TineTree.intersectInPlace dbg t i = .ok t') : FitL t' := by
  unfold TineTree.intersectInPlace at e
  split at e
  · cases e; exact ht
  split at e
  · cases e; exact fitL_nil
  have one : ∀ (p : α), FitT (Tine.point (.incl p)) → ∀ x, (do
      if ← TineTree.contains dbg t p then .ok (TineTree.fromRawInterval (.point p)) else .ok TineTree.new) =
        Except.ok x → FitL x := by
    intro p hp x hx
    cases hc : TineTree.contains dbg t p with
    | error y => rw [hc] at hx; cases hx
    | ok b =>
      rw [hc] at hx
      cases b <;> cases hx
      · exact fitL_nil
      · intro y hy; cases List.mem_singleton.1 hy; exact hp
  split at e
  · exact one _ (hi _ (by simp [Tine.fromRawInterval])) _ e
  split at e
  · cases e; exact fitL_nil
  · rename_i h; exact one _ (hi _ (by rw [h]; simp)) _ e
  · rename_i h; exact fit_intersectProper ht (hi _ (by rw [h]; simp)) (hi _ (by rw [h]; simp)) e
  · cases e

theorem fit_foldMinus {dbg : Bool} {t t' : TineTree α} (ht : FitL t) {is : List (RawInterval α)}
    (hi : ∀ i ∈ is, FitL (Tine.fromRawInterval i))
    (e : is.foldlM (TineTree.minusInPlace dbg) t = .ok t') : FitL t' := by
  induction is generalizing t with
  | nil => cases e; exact ht
  | cons i is ih =>
    rw [List.foldlM_cons] at e
    cases e1 : TineTree.minusInPlace dbg t i with
    | error x => rw [e1] at e; cases e
    | ok t1 =>
      rw [e1] at e
      exact ih (fit_minusInPlace ht (hi i (.head _)) e1) (fun j hj => hi j (.tail _ hj)) e

/-- On trees, this is `Fit`. -/
theorem fit_iff {t : TineTree α} (v : Valid t) : Fit (tcov t) ↔ FitL t := by
  obtain ⟨o⟩ := one v (.fin (minimum : α))
  obtain ⟨o'⟩ := one v (.fin (maximum : α))
  have w := o.views
  have w' := o'.views
  rw [bef_min ((LawfulFinite.pred_none (minimum : α)).2 rfl)] at w
  unfold Fit
  rw [w.1, w.2.1, w'.2.2, w'.2.1]
  have m := fun x hx => mem_edge o (x := x) hx
  have m' := fun x hx => mem_edge o' (x := x) hx
  constructor
  · rintro ⟨h1, h2⟩ x hx
    have k1 : ∀ x ∈ t, x.key = .fin minimum → x.isUpperBound = x.inclAt := by
      intro x hx hk
      have := (m x hk).1 hx
      rw [← h1] at this
      revert this
      generalize o.b = b; generalize o.c = c
      intro this
      cases b <;> cases c <;> simp [edge] at this <;> subst this <;> rfl
    have k2 : ∀ x ∈ t, x.key = .fin maximum → x.isLowerBound = x.inclAt := by
      intro x hx hk
      have := (m' x hk).1 hx
      rw [h2] at this
      revert this
      generalize o'.b = b; generalize o'.a = c
      intro this
      cases b <;> cases c <;> simp [edge] at this <;> subst this <;> rfl
    have k1 := k1 x hx
    have k2 := k2 x hx
    rcases x with (a | a | _) | (a | a | _) | (a | a | _) <;>
      simp [FitT, Tine.key, Tine.isUpperBound, Tine.isLowerBound, Tine.inclAt] at k1 k2 ⊢ <;> grind
  · intro h
    constructor
    · have : ∀ x ∈ edge (.fin minimum) o.b o.a o.c, FitT x := fun x hx => h x ((m x (edge_at _ _ _ _ x hx).2).2 hx)
      revert this
      generalize o.b = b; generalize o.a = a; generalize o.c = c
      cases b <;> cases a <;> cases c <;> simp [edge, FitT]
    · have : ∀ x ∈ edge (.fin maximum) o'.b o'.a o'.c, FitT x :=
        fun x hx => h x ((m' x (edge_at _ _ _ _ x hx).2).2 hx)
      revert this
      generalize o'.b = b; generalize o'.a = a; generalize o'.c = c
      cases b <;> cases a <;> cases c <;> simp [edge, FitT]

end TT

namespace Selection
variable {α : Type} [LinearOrder α] [Finite α] [LawfulFinite α]
open TT

theorem extend_fit {dbg : Bool} {s : Selection α} (h : Valid s.tree) (hf : Fit (tcov s.tree))
    {is : List (Interval α)} (hi : ∀ i ∈ is, i.Obtainable) {s'} (e : s.extend dbg is = .ok s') :
    Fit (tcov s'.tree) := by
  obtain ⟨s1, e1, v1, c1⟩ := extend_ok dbg h hi
  rw [e1] at e; cases e
  refine ⟨?_, ?_⟩
  · rw [c1, c1, hf.1]
    congr 1
    exact any_congr' fun i hh => by rw [ic, (denorm_fit (hi i hh)).1]
  · rw [c1, c1, hf.2]
    congr 1
    exact any_congr' fun i hh => by rw [ic, (denorm_fit (hi i hh)).2]

theorem fit_nil : Fit (tcov ([] : TineTree α)) := DO.nil.fit

/-- Every tree of a selection fits. -/
theorem Reachable.fit {s : Selection α} (h : s.Reachable) : Fit (tcov s.tree) := by
  induction h with
  | new => exact fit_nil
  | full => exact UnionBuilt.full.do.fit
  | ofInterval hi => rw [ofInterval_tree hi]; exact denorm_fit hi
  | @unionInPlace dbg s i s' hs hi e ih =>
    obtain ⟨s1, e1, v1, c1⟩ := unionInPlace_ok dbg (reachable_valid hs) hi
    rw [e1] at e; cases e
    exact ih.or (denorm_fit hi) c1
  | @minusInPlace dbg s i s' hs hi e ih =>
    obtain ⟨s1, e1, v1, c1⟩ := minusInPlace_ok dbg (reachable_valid hs) hi
    rw [e1] at e; cases e
    obtain ⟨g1, g2⟩ := ih.no_hole
    obtain ⟨d1, d2⟩ := denorm_fit hi
    refine ⟨?_, ?_⟩
    · rw [c1, c1, g1, ih.1, ic, d1]; simp
    · rw [c1, c1, g2, ih.2, ic, d2]; simp
  | extend hs hi e ih => exact extend_fit (reachable_valid hs) ih hi e
  | fromIntervals hi e => exact extend_fit new_valid fit_nil hi e
  | fromPoints e =>
    rw [fromPoints_eq] at e
    refine extend_fit new_valid fit_nil (fun i hi => ?_) e
    obtain ⟨p, _, rfl⟩ := List.mem_map.1 hi
    exact .point p
  | @union dbg a b s' ha hb e iha ihb =>
    obtain ⟨s1, e1, v1, c1⟩ := union_ok dbg (reachable_valid ha) (reachable_valid hb)
    rw [e1] at e; cases e
    exact iha.or ihb c1
  | @complement dbg s s' hs e ih =>
    obtain ⟨s1, e1, v1, c1⟩ := complement_ok dbg (reachable_valid hs)
    rw [e1] at e; cases e
    exact ih.compl c1
  | @intersect dbg a b s' ha hb e iha ihb =>
    have va := reachable_valid ha
    have vb := reachable_valid hb
    obtain ⟨s1, e1, v1, c1⟩ := intersect_ok dbg va vb
    rw [e1] at e; cases e
    have hl : ∀ i ∈ isectList (pieces none a.tree) (pieces none b.tree), i.WF ∧ Fit (icov i) := by
      intro i hi
      obtain ⟨p, hp, q, hq, rfl⟩ := isectList_mem hi
      have wp := ((pieces_wf va.1).1 p hp).1
      have wq := ((pieces_wf vb.1).1 q hq).1
      refine ⟨RawInterval.intersect_wf _ _, ?_, ?_⟩
      · rw [icov_intersect wp wq ⟨by simp, by simp⟩, icov_intersect wp wq ⟨by simp, by simp⟩,
          (iha.piece va hp).1, (ihb.piece vb hq).1]
      · rw [icov_intersect wp wq ⟨by simp, by simp⟩, icov_intersect wp wq ⟨by simp, by simp⟩,
          (iha.piece va hp).2, (ihb.piece vb hq).2]
    obtain ⟨t', e2, v2, c2⟩ := fromIter_ok dbg _ fun i hi => (hl i hi).1
    rw [c1] at e2; cases e2
    refine ⟨?_, ?_⟩
    · rw [c2, c2]
      exact any_congr' fun i hh => by rw [(hl i hh).2.1]
    · rw [c2, c2]
      exact any_congr' fun i hh => by rw [(hl i hh).2.2]
  | @minus dbg a b s' ha hb e ht iha ihb =>
    have va := reachable_valid ha
    have vb := reachable_valid hb
    refine (fit_iff (TT.reachable_valid ht)).2 ?_
    cases e1 : a.tree.minus dbg b.tree with
    | error x => rw [Selection.minus, e1] at e; cases e
    | ok t =>
      rw [Selection.minus, e1] at e
      cases e
      rw [TineTree.minus, fold_eq dbg _ vb] at e1
      refine fit_foldMinus ((fit_iff va).1 iha) (fun i hi => ?_) e1
      exact (fit_iff (fromRaw_valid ((pieces_wf vb.1).1 i hi).1)).1 (ihb.piece vb hi)
  | @intersectInPlace dbg s i s' hs hi e ht ih =>
    refine (fit_iff (TT.reachable_valid ht)).2 ?_
    cases e1 : s.tree.intersectInPlace dbg i.raw.denormalized with
    | error x => rw [Selection.intersectInPlace, e1] at e; cases e
    | ok t =>
      rw [Selection.intersectInPlace, e1] at e
      cases e
      exact fit_intersectInPlace ((fit_iff (reachable_valid hs)).1 ih)
        ((fit_iff (denorm_valid hi)).1 (denorm_fit hi)) e1

/-- A run of a selection contains a point, or comes from an open interval between neighbours, of which the
upper one is reported as its lower bound and the lower one as its upper bound. -/
theorem Reachable.run_cases {s : Selection α} (h : s.Reachable) {i : RawInterval α}
    (hi : i ∈ pieces none s.tree) : Good i ∨ ∃ p q, succ p = some q ∧ i = .opn p q ∧ run i = ⟨.closed q p⟩ ∧
      at' s.tree p = false ∧ at' s.tree q = false := by
  have v := reachable_valid h
  have hw := ((pieces_wf v.1).1 i hi).1
  by_cases hg : ∃ x, i.contains x = true
  · exact .inl ⟨hw, hg⟩
  · right
    push Not at hg
    obtain ⟨p, q, hs, rfl⟩ := h.fit.phantom v hi fun x => by simpa using hg x
    refine ⟨p, q, hs, rfl, ?_, ((open_lower_iff v p).1 ⟨_, hi, rfl⟩).1,
      ((open_upper_iff v q).1 ⟨_, hi, rfl⟩).2⟩
    rw [run]
    simp only [RawInterval.normalized, hs, pred_of_succ hs]

end Selection
end NI
