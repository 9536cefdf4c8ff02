import Verif.Lemmas.Frame
import Mathlib.Order.Cover

/-! # Removals that break the tree and are mended by the next one -/

set_option linter.unusedSimpArgs false
set_option linter.unusedVariables false
set_option linter.unnecessarySeqFocus false
set_option linter.unusedSectionVars false
set_option linter.unusedTactic false
set_option linter.unreachableTactic false

namespace NI
namespace TT
variable {α : Type} [LinearOrder α]
open BSet (Lt Gt At)

/-- Removing an interval from a tree in which the stretch that the interval starts in has lost its lower bound. -/
theorem minusProper_pend (dbg : Bool) {A M B : List (Tine α)} {lb ub : Bound α} {a c d a2 e : Bool} {l : α}
    (hl : (Tine.lower lb).key = .fin l) (hk : (Tine.lower lb).key < (Tine.upper ub).key)
    (fits2 : Fits (Tine.upper ub).key d a2 e) (ltA : Lt A (Tine.lower lb).key) (gtM : Gt M (Tine.lower lb).key)
    (ltM : Lt M (Tine.upper ub).key) (gtB : Gt B (Tine.upper ub).key) (cA : Chain false A false)
    (cB : Chain e B false) :
    TineTree.minusProper dbg (A ++ edge (Tine.lower lb).key true a c ++ (M ++ edge (Tine.upper ub).key d a2 e ++ B))
      (.lower lb) (.upper ub) = .ok
      (A ++ (edge (Tine.upper ub).key false ((a2 && !(Tine.upper ub).inclAt) || (d && !a2 && e)) e ++ B)) := by
  have hlo : (Tine.lower lb).Ok := lower_ok lb
  have huo : (Tine.upper ub).Ok := upper_ok ub
  have hs : TineTree.exteriorSplit
      (A ++ edge (Tine.lower lb).key true a c ++ (M ++ edge (Tine.upper ub).key d a2 e ++ B)) (.lower lb) (.upper ub) =
      ((A.getLast?, (edge (Tine.lower lb).key true a c).head?, (edge (Tine.upper ub).key d a2 e).head?, B.head?),
        A ++ B) := by
    have g2 : Gt (M ++ edge (Tine.upper ub).key d a2 e ++ B) (Tine.lower lb).key :=
      (gtM.append ((edge_at _ d a2 e).gt hk)).append (gtB.trans hk.le)
    have hAu : Lt (A ++ M) (Tine.upper ub).key := (ltA.trans hk.le).append ltM
    unfold TineTree.exteriorSplit
    simp only [BSet.append]
    rw [BSet.taken_split hlo ltA (edge_at _ true a c) g2, BSet.remove_split hlo ltA (edge_at _ true a c) g2]
    have ea : A ++ (M ++ edge (Tine.upper ub).key d a2 e ++ B) =
      A ++ M ++ edge (Tine.upper ub).key d a2 e ++ B := by simp
    rw [ea, BSet.taken_split huo hAu (edge_at _ d a2 e) gtB, BSet.remove_split huo hAu (edge_at _ d a2 e) gtB,
      List.append_assoc]
    have gMB : Gt (M ++ B) (Tine.lower lb).key := gtM.append (gtB.trans hk.le)
    rw [BSet.above_split hlo ltA gMB, BSet.below_split hlo ltA gMB, BSet.above_split huo ltM gtB]
  have hb := chain_last cA
  have he := chain_head cB
  have i2 : ∀ x : Tine α, x.Ok → x.key = (Tine.upper ub).key →
      BSet.insert x (A ++ B) = A ++ x :: B := fun x hx hxk => by
    rw [insert_mid hx (hxk ▸ ltA.trans hk.le) (hxk ▸ gtB)]; simp
  simp only [TineTree.minusProper, hs, hb, he]
  clear hs ltA gtM ltM gtB cA cB hb he
  rcases lb with x | x | _ <;> rcases ub with y | y | _ <;>
    cases a <;> cases c <;> cases d <;> cases a2 <;> cases e <;> cases dbg <;>
    (try simp [Fits, Tine.key] at fits2 hl) <;>
    simp (config := {decide := true}) [edge, Tine.key, Tine.inclAt, Tine.minus, Tine.asRef, Tine.intoInner, Bound.asRef, dassert,
      bind, Except.bind, TineTree.noneOr, Tine.isLowerBound, Tine.isUpperBound, pure, Except.pure,
      TineTree.insertIf, Tine.isPointExclude, Tine.isPointInclude, TineTree.orInvert, Tine.invert] <;>
    (rw [i2] <;> simp [Tine.Ok, Tine.key]; done)

/-- The same with a single point. -/
theorem minusPoint_pend (dbg : Bool) {A B : List (Tine α)} {a c : Bool} {l : α}
    (ltA : Lt A (.fin l)) (gtB : Gt B (.fin l)) (cA : Chain false A false) (cB : Chain c B false) :
    (c = false → TineTree.minusPoint dbg (A ++ edge (.fin l) true a c ++ B) (.point (.incl l)) = .ok (A ++ B)) ∧
    (c = true → ∀ t', TineTree.minusPoint dbg (A ++ edge (.fin l) true a c ++ B) (.point (.incl l)) = .ok t' →
      t' = A ++ (if a then Tine.point (.incl l) else .point (.excl l)) :: B) := by
  have hp : (Tine.point (.incl l)).Ok := pincl_ok l
  have hs : TineTree.exteriorSplitPoint (A ++ edge (.fin l) true a c ++ B) (.point (.incl l)) =
      ((A.getLast?, (edge (.fin l) true a c).head?, B.head?), A ++ B) := by
    unfold TineTree.exteriorSplitPoint
    simp only [BSet.append]
    have e1 : BSet.taken (.point (.incl l)) (A ++ edge (.fin l) true a c ++ B) = _ :=
      BSet.taken_split hp ltA (edge_at (.fin l) true a c) gtB
    have e2 : BSet.remove (.point (.incl l)) (A ++ edge (.fin l) true a c ++ B) = _ :=
      BSet.remove_split hp ltA (edge_at (.fin l) true a c) gtB
    rw [e1, e2, BSet.above_split hp ltA gtB, BSet.below_split hp ltA gtB]
  have hb := chain_last cA
  have hc := chain_head cB
  have i1 : ∀ x : Tine α, x.Ok → x.key = .fin l → BSet.insert x (A ++ B) = A ++ x :: B :=
    fun x hx hxk => BSet.insert_split hx (by rw [hxk]; exact ltA) (by rw [hxk]; exact gtB)
  simp only [TineTree.minusPoint, hs, hb, hc]
  clear hs hb hc ltA gtB cA cB
  cases a <;> cases c <;> cases dbg <;>
    simp (config := {decide := true}) [edge, Tine.key, Tine.inclAt, Tine.minus, Tine.asRef,
      Tine.intoInner, Bound.asRef, dassert, bind, Except.bind, Tine.isLowerBound,
      Tine.isUpperBound, pure, Except.pure, Tine.invert] <;>
    (rw [i1] <;> simp [Tine.Ok, Tine.key, eq_comm])

/-! ## Where intervals start -/

/-- The interval has its lower bound at the key. -/
def LowAt (o : RawInterval α) (k : Key α) : Prop := ∃ l, o.lowerBound = some l ∧ (Tine.lower l).key = k

theorem lowAt_ex {o : RawInterval α} (h : o ≠ .empty) : ∃ k, LowAt o k := by
  cases o <;> first | exact absurd rfl h | exact ⟨_, _, rfl, rfl⟩

theorem lowAt_fun {o : RawInterval α} {k k' : Key α} (h : LowAt o k) (h' : LowAt o k') : k = k' := by
  obtain ⟨l, e, rfl⟩ := h
  obtain ⟨l', e', rfl⟩ := h'
  rw [e] at e'; cases e'; rfl

theorem lowAt_le {o : RawInterval α} (hi : o.WF) {k : Key α} (h : LowAt o k) :
    k ≤ ikey o ∧ ((∀ p, o ≠ .point p) → k < ikey o) := by
  obtain ⟨l, e, rfl⟩ := h
  rcases fromRaw_cases hi with ⟨e0, e1⟩ | ⟨p, e0, e1⟩ | ⟨lb, ub, e1, hk⟩
  · subst e0; cases e
  · subst e0; cases e; exact ⟨le_refl _, fun h => absurd rfl (h p)⟩
  · obtain ⟨b1, b2⟩ := bounds_of_tines e1
    rw [b1] at e; cases e
    rw [ikey, b2]
    exact ⟨hk.le, fun _ => hk⟩

theorem lowAt_point {p : α} {k : Key α} : LowAt (.point p) k ↔ k = .fin p := by
  constructor
  · rintro ⟨l, e, rfl⟩; cases e; rfl
  · rintro rfl; exact ⟨_, rfl, rfl⟩

theorem sep_low {o o' : RawInterval α} (hs : SepI o o') (ho : o'.WF) {k : Key α} (h : LowAt o' k) :
    ikey o < k ∨ (ikey o = k ∧ (∀ p, o ≠ .point p) ∧ (∀ p, o' ≠ .point p) ∧ icov o' false k = false) := by
  obtain ⟨u, l, e1, e2, hs⟩ := hs
  obtain ⟨l', e3, rfl⟩ := h
  rw [e2] at e3; cases e3
  rw [ikey, e1]
  rcases hs with hs | ⟨p, rfl, rfl⟩
  · exact .inl hs
  · refine .inr ⟨rfl, ?_, ?_, icov_excl ho e2⟩
    · rintro q rfl; cases e1
    · rintro q rfl; cases e2

theorem sep_ikey {o o' : RawInterval α} (hs : SepI o o') (ho : o'.WF) : ikey o < ikey o' := by
  obtain ⟨u, l, e1, e2, -⟩ := id hs
  have hl : LowAt o' (Tine.lower l).key := ⟨l, e2, rfl⟩
  obtain ⟨h1, h2⟩ := lowAt_le ho hl
  rcases sep_low hs ho hl with h | ⟨h, -, h3, -⟩
  · exact h.trans_le h1
  · rw [h]; exact h2 h3

/-! ## What stays -/

/-- Nothing at or before `k` changes. -/
theorem foldMinus_frozen (dbg : Bool) {t t' : TineTree α} (ht : Valid t) {k : Key α} {is : List (RawInterval α)}
    (hi : ∀ i ∈ is, i.WF ∧ i ≠ .empty) (hl : ∀ i ∈ is, ∀ k', LowAt i k' → k < k')
    (e : is.foldlM (TineTree.minusInPlace dbg) t = .ok t') : tcov t' false k = tcov t false k := by
  obtain ⟨o⟩ := one ht k
  obtain ⟨v1, v2, v3⟩ := o.views
  obtain ⟨D, hD, hg⟩ := fr_foldMinus (C := o.A ++ edge k o.b o.a o.c) (k := k) (by
      intro x hx
      rcases List.mem_append.1 hx with hx | hx
      · exact ⟨(o.ltA x hx).1, (o.ltA x hx).2.le⟩
      · exact ⟨(edge_at k o.b o.a o.c x hx).1, (edge_at k o.b o.a o.c x hx).2.le⟩)
    ⟨o.B, o.eq, o.gtB⟩ (fun i hi' => by
      obtain ⟨k', l, e1, e2⟩ := lowAt_ex (hi i hi').2
      exact ⟨(hi i hi').1, l, e1, hl i hi' _ ⟨l, e1, rfl⟩⟩) e
  rw [hD, v2, tcov]
  exact (cov_split o.fits o.ltA hg o.cA).1

/-- A point that is before all of what is taken away stays as it is, if it is not a hole. -/
theorem foldMinus_keep (dbg : Bool) {t t' : TineTree α} (ht : Valid t) {k : Key α} {is : List (RawInterval α)}
    (hi : ∀ i ∈ is, i.WF ∧ i ≠ .empty) (hp : is.Pairwise SepI) (hh : holeAt t k = false)
    (hl : ∀ i ∈ is, ∀ k', LowAt i k' → k < k' ∨ (k = k' ∧ (∀ p, i ≠ .point p) ∧ icov i false k' = false))
    (e : is.foldlM (TineTree.minusInPlace dbg) t = .ok t') : tcov t' false k = tcov t false k := by
  cases is with
  | nil => cases e; rfl
  | cons i is =>
    rw [List.pairwise_cons] at hp
    obtain ⟨w1, w2⟩ := hi i (.head _)
    obtain ⟨k1, h1⟩ := lowAt_ex w2
    have hlow : ∀ j ∈ is, ∀ k', LowAt j k' → ikey i ≤ k' := fun j hj k' h => by
      rcases sep_low (hp.1 j hj) (hi j (.tail _ hj)).1 h with h | ⟨h, -⟩
      · exact h.le
      · exact h.le
    rcases hl i (.head _) k1 h1 with h | ⟨rfl, h2, h3⟩
    · refine foldMinus_frozen dbg ht hi (fun j hj k' hk' => ?_) e
      rcases List.mem_cons.1 hj with rfl | hj
      · rw [lowAt_fun hk' h1]; exact h
      · exact h.trans_le ((lowAt_le w1 h1).1.trans (hlow j hj k' hk'))
    · obtain ⟨t1, e1, v1, c1, -⟩ := minusStep dbg ht w1 (fun p hp => absurd hp (h2 p))
      rw [List.foldlM_cons, e1] at e
      rw [foldMinus_frozen dbg v1 (k := k) (fun j hj => hi j (.tail _ hj))
        (fun j hj k' hk' => ((lowAt_le w1 h1).2 h2).trans_le (hlow j hj k' hk')) e, c1, hh, h3]
      simp

/-! ## The condition -/

/-- An interval of the tree starts just after `p`. -/
def St (t : TineTree α) (p : α) : Prop := tcov t false (.fin p) = false ∧ tcov t true (.fin p) = true

/-- An interval of the tree ends just before `p`. -/
def En (t : TineTree α) (p : α) : Prop := bef false t (.fin p) = true ∧ tcov t false (.fin p) = false

/-- The point just before `l` is taken away, and it is where an interval starts. -/
def Mend (t : TineTree α) (is : List (RawInterval α)) (l : α) : Prop :=
  ∃ p, p ⋖ l ∧ .point p ∈ is ∧ St t p

/-- What is taken away after `p` goes on right after `p`. -/
def Resc (t : TineTree α) (is : List (RawInterval α)) (p : α) : Prop :=
  ∃ o ∈ is, ∃ l, p ⋖ l ∧ LowAt o (.fin l) ∧ (tcov t false (.fin l) = true → icov o false (.fin l) = true) ∧
    (o = .point l → tcov t true (.fin l) = false)

/-- The removal of `o`, one of `is`, goes well or is mended. -/
def Cl (t : TineTree α) (is : List (RawInterval α)) (o : RawInterval α) : Prop :=
  (∀ p, o = .point p → (St t p → ¬ En t p ∧ Resc t is p) ∧ (En t p → Mend t is p)) ∧
  ((∀ p, o ≠ .point p) → holeAt t (ikey o) = false ∧
    ∀ l, LowAt o (.fin l) → holeAt t (.fin l) = true → Mend t is l)

/-- The condition depends on what comes after `K` only. -/
theorem cl_transfer {t t1 : TineTree α} {K : Key α} {p0 : RawInterval α} {is : List (RawInterval α)}
    (same : ∀ k, K < k → (∀ aft, tcov t1 aft k = tcov t aft k) ∧ bef false t1 k = bef false t k)
    (h4 : ∀ l, LowAt p0 (.fin l) → .fin l ≤ K)
    (h5 : ∀ p, p0 = .point p → St t p → ∀ l, p ⋖ l → .fin l ≤ K)
    (h6 : ∀ p, .point p ∈ is → (St t p ↔ St t1 p))
    {o : RawInterval α} (h1 : ∀ p, o = .point p → K < .fin p) (h2 : K < ikey o)
    (h3 : ∀ l, LowAt o (.fin l) → K < .fin l ∨ (holeAt t (.fin l) = false ∧ holeAt t1 (.fin l) = false)) :
    Cl t (p0 :: is) o ↔ Cl t1 is o := by
  have hole : ∀ k, K < k → holeAt t1 k = holeAt t k := fun k hk => by
    obtain ⟨s1, s2⟩ := same k hk
    rw [holeAt, holeAt, s1, s1, s2]
  have st : ∀ p, K < .fin p → (St t1 p ↔ St t p) := fun p hk => by
    rw [St, St, (same _ hk).1, (same _ hk).1]
  have en : ∀ p, K < .fin p → (En t1 p ↔ En t p) := fun p hk => by
    rw [En, En, (same _ hk).1, (same _ hk).2]
  have me : ∀ l, K < .fin l → (Mend t1 is l ↔ Mend t (p0 :: is) l) := by
    intro l hk
    constructor
    · rintro ⟨p, g1, g2, g3⟩
      exact ⟨p, g1, .tail _ g2, (h6 p g2).2 g3⟩
    · rintro ⟨p, g1, g2, g3⟩
      rcases List.mem_cons.1 g2 with g2 | g2
      · exact absurd (h5 p g2.symm g3 l g1) (not_le.2 hk)
      · exact ⟨p, g1, g2, (h6 p g2).1 g3⟩
  have lt_of : ∀ p l : α, p ⋖ l → K < .fin p → K < .fin l := fun p l g h => h.trans (by
    rw [Key.fin_lt_fin]; exact g.1)
  have re : ∀ p, K < .fin p → (Resc t1 is p ↔ Resc t (p0 :: is) p) := by
    intro p hk
    constructor
    · rintro ⟨o, g1, l, g2, g3, g4, g5⟩
      have := (same _ (lt_of p l g2 hk)).1
      rw [this] at g4 g5
      exact ⟨o, .tail _ g1, l, g2, g3, g4, g5⟩
    · rintro ⟨o, g1, l, g2, g3, g4, g5⟩
      have hl := lt_of p l g2 hk
      have := (same _ hl).1
      rcases List.mem_cons.1 g1 with rfl | g1
      · exact absurd (h4 l g3) (not_le.2 hl)
      · refine ⟨o, g1, l, g2, g3, ?_, ?_⟩
        · rw [this]; exact g4
        · rw [this]; exact g5
  unfold Cl
  refine and_congr (forall_congr' fun p => forall_congr' fun hp => ?_) (forall_congr' fun _ => and_congr ?_ ?_)
  · have hk := h1 p hp
    rw [st p hk, en p hk, me p hk, re p hk]
  · rw [hole _ h2]
  · refine forall_congr' fun l => forall_congr' fun hl => ?_
    rcases h3 l hl with hk | ⟨g1, g2⟩
    · rw [hole _ hk, me l hk]
    · rw [g1, g2]; simp

/-! ## Exactly when removals go well -/

/-- The result of taking away `is` from `t` is a proper tree with the right points. -/
def RightFold (dbg : Bool) (t : TineTree α) (is : List (RawInterval α)) : Prop :=
  ∃ t', is.foldlM (TineTree.minusInPlace dbg) t = .ok t' ∧ Valid t' ∧
    ∀ x, tcov t' false (.fin x) = (tcov t false (.fin x) && !is.any fun i => icov i false (.fin x))

/-- A point before all of the intervals is in none of them. -/
theorem any_before {is : List (RawInterval α)} (hi : ∀ i ∈ is, i.WF ∧ i ≠ .empty) {x : α}
    (hl : ∀ i ∈ is, ∀ k', LowAt i k' → .fin x < k' ∨ (.fin x = k' ∧ icov i false k' = false)) :
    (is.any fun i => icov i false (.fin x)) = false := by
  rw [List.any_eq_false]
  intro i hi'
  obtain ⟨k, l, e1, e2⟩ := lowAt_ex (hi i hi').2
  rcases hl i hi' k ⟨l, e1, e2⟩ with h | ⟨h, h2⟩
  · rw [icov_before (hi i hi').1 e1 (e2 ▸ h)]; simp
  · rw [h, h2]; simp

theorem minusInPlace_point (dbg : Bool) (t : TineTree α) (p : α) :
    TineTree.minusInPlace dbg t (.point p) = TineTree.minusPoint dbg t (.point (.incl p)) := by
  cases t with
  | nil =>
    simp [TineTree.minusInPlace, TineTree.isEmpty, TineTree.minusPoint, TineTree.exteriorSplitPoint, BSet.append,
      BSet.taken, BSet.remove, BSet.above, BSet.below, TineTree.someAnd, bind, Except.bind]
  | cons x t =>
    simp [TineTree.minusInPlace, TineTree.isEmpty, RawInterval.isEmpty, RawInterval.isFull, Tine.fromRawInterval]

theorem minusInPlace_proper (dbg : Bool) (t : TineTree α) {i : RawInterval α} {lb ub : Bound α}
    (e : Tine.fromRawInterval i = [.lower lb, .upper ub]) (hf : i ≠ .full) :
    TineTree.minusInPlace dbg t i = TineTree.minusProper dbg t (.lower lb) (.upper ub) := by
  have he : i.isEmpty = false := by cases i <;> first | rfl | simp [Tine.fromRawInterval] at e
  have hf : i.isFull = false := by cases i <;> first | rfl | exact absurd rfl hf
  cases t with
  | nil =>
    simp [TineTree.minusInPlace, TineTree.isEmpty, TineTree.minusProper, TineTree.exteriorSplit, BSet.append,
      BSet.taken, BSet.remove, BSet.above, BSet.below, TineTree.someAnd, bind, Except.bind, TineTree.insertIf,
      Tine.isPointInclude]
  | cons x t =>
    simp only [TineTree.minusInPlace, TineTree.isEmpty, he, hf, e]; rfl

/-- Removing a point just after which an interval of the tree starts takes away the lower bound of the interval. -/
theorem minusPoint_start (dbg : Bool) {A B : List (Tine α)} {p : α} (ltA : Lt A (.fin p)) (gtB : Gt B (.fin p)) :
    TineTree.minusPoint dbg (A ++ edge (.fin p) false false true ++ B) (.point (.incl p)) = .ok (A ++ B) := by
  have hp : (Tine.point (.incl p)).Ok := pincl_ok p
  have hs : TineTree.exteriorSplitPoint (A ++ edge (.fin p) false false true ++ B) (.point (.incl p)) =
      ((A.getLast?, (edge (.fin p) false false true).head?, B.head?), A ++ B) := by
    unfold TineTree.exteriorSplitPoint
    simp only [BSet.append]
    have e1 : BSet.taken (.point (.incl p)) (A ++ edge (.fin p) false false true ++ B) = _ :=
      BSet.taken_split hp ltA (edge_at (.fin p) false false true) gtB
    have e2 : BSet.remove (.point (.incl p)) (A ++ edge (.fin p) false false true ++ B) = _ :=
      BSet.remove_split hp ltA (edge_at (.fin p) false false true) gtB
    rw [e1, e2, BSet.above_split hp ltA gtB, BSet.below_split hp ltA gtB]
  simp only [TineTree.minusPoint, hs]
  cases dbg <;>
  simp (config := {decide := true}) [edge, Tine.key, Tine.inclAt, Tine.minus, Tine.asRef,
      Tine.intoInner, Bound.asRef, dassert, bind, Except.bind, Tine.isLowerBound,
      Tine.isUpperBound, pure, Except.pure, Tine.invert]

theorem lowAt_top {o : RawInterval α} : ¬ LowAt o .top := by
  rintro ⟨l, _, e⟩
  cases l <;> cases e

theorem icov_point (p x : α) : icov (.point p) false (.fin x) = decide (x = p) := by
  simp only [icov, Tine.fromRawInterval, cov, Tine.key, Tine.isLowerBound, Tine.inclAt, Key.fin_lt_fin]
  rcases lt_trichotomy x p with h | h | h
  · simp [h, h.ne]
  · simp [h]
  · simp [h.ne', h.not_gt]

/-- The removal of a point just after which an interval of the tree starts, and then of more. -/
theorem foldMinus_pend (dbg : Bool) {t : TineTree α} (ht : Valid t) {p : α} (hs : St t p) (hn : ¬ En t p)
    {is : List (RawInterval α)} (hi : ∀ i ∈ is, i.WF ∧ i ≠ .empty) (hp : (RawInterval.point p :: is).Pairwise SepI) :
    (¬ Resc t (.point p :: is) p → ¬ RightFold dbg t (.point p :: is)) ∧
    (Resc t (.point p :: is) p →
      ∃ t1, Valid t1 ∧ (RightFold dbg t (.point p :: is) ↔ RightFold dbg t1 is) ∧
        ((∀ o ∈ is, Cl t (.point p :: is) o) ↔ ∀ o ∈ is, Cl t1 is o)) := by
  rw [List.pairwise_cons] at hp
  obtain ⟨⟨A, B, b, a, c, eq, fits, ltA, gtB, sA, sB, cA, cB⟩⟩ := one ht (.fin p)
  obtain ⟨v1, v2, v3⟩ := (One.mk A B b a c eq fits ltA gtB sA sB cA cB).views
  simp only at v1 v2 v3
  have ha : a = false := v2 ▸ hs.1
  have hc : c = true := v3 ▸ hs.2
  have hb : b = false := by
    cases b with
    | false => rfl
    | true => exact absurd ⟨v1, hs.1⟩ hn
  subst ha hb hc
  have e0 : TineTree.minusInPlace dbg t (.point p) = .ok (A ++ B) := by
    rw [minusInPlace_point, eq]; exact minusPoint_start dbg ltA gtB
  have later : ∀ j ∈ is, ∀ k, LowAt j k → Key.fin p < k := by
    intro j hj k hk
    rcases sep_low (hp.1 j hj) (hi j hj).1 hk with h | ⟨_, h, _⟩
    · exact h
    · exact absurd rfl (h p)
  have fold : ∀ t', (RawInterval.point p :: is).foldlM (TineTree.minusInPlace dbg) t = .ok t' ↔
      is.foldlM (TineTree.minusInPlace dbg) (A ++ B) = .ok t' := fun t' => by
    rw [List.foldlM_cons, e0]; rfl
  have tx : ∀ aft x, tcov t aft (.fin x) = if Key.fin x < .fin p then cov aft false A (.fin x)
      else if Key.fin x = .fin p then (if aft then true else false) else cov aft true B (.fin x) := fun aft x => by
    rw [eq, tcov, cov_one fits ltA gtB cA]
  -- the first tine after the point
  obtain ⟨h, B', hB⟩ : ∃ h B', B = h :: B' := by
    cases B with
    | nil => cases cB
    | cons h B' => exact ⟨h, B', rfl⟩
  have hup : h.isUpperBound = true := by rw [hB] at cB; exact cB.1
  have hph : Key.fin p < h.key := (gtB h (hB ▸ .head _)).2
  have bad : ∀ D : List (Tine α), ¬ Valid (A ++ h :: D) := by
    intro D v
    obtain ⟨m, g1, g2⟩ := chain_append.1 v.2
    obtain rfl := chain_fun g1 cA
    rw [g2.1] at hup; cases hup
  -- splitting at the next point
  have split : ∀ l, p ⋖ l → ∃ B2 a c, B = edge (.fin l) true a c ++ B2 ∧ Gt B2 (.fin l) ∧ Sorted B2 ∧
      Chain c B2 false := by
    intro l hl
    obtain ⟨A', B2, b, a, c, e1, e2, e3, e4, e5, e6, e7, e8⟩ :=
      split_at sB cB (.fin l) (fun e => by cases e) (fun e => by cases e)
    have : A' = [] := by
      cases A' with
      | nil => rfl
      | cons x A' =>
        exfalso
        have h1 := (e3 x (.head _)).2
        have h2 := (gtB x (by rw [e1]; simp)).2
        cases hx : x.key with
        | bot => rw [hx] at h2; exact absurd h2 (Key.not_lt_bot _)
        | top => rw [hx] at h1; exact absurd h1 (Key.not_top_lt _)
        | fin y =>
          rw [hx, Key.fin_lt_fin] at h1 h2
          exact hl.2 h2 h1
    subst this
    have e7 : true = b := e7
    subst e7
    exact ⟨B2, a, c, e1, e4, e6, e8⟩
  constructor
  · rintro hr ⟨t', e, v', hx⟩
    rw [fold] at e
    cases is with
    | nil =>
      cases e
      rw [hB] at v'
      exact bad B' v'
    | cons o2 is2 =>
      rw [List.pairwise_cons] at hp
      obtain ⟨w1, w2⟩ := hi o2 (.head _)
      have hi2 : ∀ i ∈ is2, i.WF ∧ i ≠ .empty := fun i h => hi i (.tail _ h)
      obtain ⟨k2, hk2⟩ := lowAt_ex w2
      have hk2p := later o2 (.head _) k2 hk2
      have later2 : ∀ j ∈ is2, ∀ k, LowAt j k → ikey o2 ≤ k := by
        intro j hj k hk
        rcases sep_low (hp.2.1 j hj) (hi2 j hj).1 hk with h | ⟨h, _⟩
        · exact h.le
        · exact h.le
      have laterAll : ∀ j ∈ o2 :: is2, ∀ k, LowAt j k → k2 ≤ k := by
        intro j hj k hk
        rcases List.mem_cons.1 hj with rfl | hj
        · rw [lowAt_fun hk hk2]
        · exact (lowAt_le w1 hk2).1.trans (later2 j hj k hk)
      have conv : ∀ {k : Key α} {js : List (RawInterval α)}, (∀ i ∈ js, i.WF ∧ i ≠ .empty) →
          (∀ j ∈ js, ∀ k', LowAt j k' → k < k') →
          ∀ j ∈ js, j.WF ∧ ∃ l, j.lowerBound = some l ∧ k < (Tine.lower l).key := by
        intro k js g0 g j hj
        obtain ⟨k', l, g1, g2⟩ := lowAt_ex (g0 j hj).2
        exact ⟨(g0 j hj).1, l, g1, g j hj _ ⟨l, g1, rfl⟩⟩
      by_cases hk : h.key < k2
      · obtain ⟨D, hD, _⟩ := fr_foldMinus (C := A ++ [h]) (k := h.key) (by
            intro x hx
            rcases List.mem_append.1 hx with hx | hx
            · exact ⟨(ltA x hx).1, ((ltA x hx).2.trans hph).le⟩
            · rw [List.mem_singleton] at hx; subst hx; exact ⟨(gtB x (hB ▸ .head _)).1, le_refl _⟩)
          ⟨B', by rw [hB]; simp, by rw [hB, sorted_cons] at sB; exact sB.2.1⟩
          (conv hi fun j hj k' hk' => hk.trans_le (laterAll j hj k' hk')) e
        rw [hD] at v'
        exact bad D (by simpa using v')
      · rw [not_lt] at hk
        obtain ⟨l, rfl⟩ : ∃ l, k2 = .fin l := by
          cases k2 with
          | bot => exact absurd hk2p (Key.not_lt_bot _)
          | top => exact absurd hk2 lowAt_top
          | fin l => exact ⟨l, rfl⟩
        have hpl : p < l := by rwa [Key.fin_lt_fin] at hk2p
        by_cases hcov : ∃ x, p < x ∧ x < l
        · obtain ⟨x, h1, h2⟩ := hcov
          have h1' : Key.fin p < .fin x := by rwa [Key.fin_lt_fin]
          have h2' : Key.fin x < .fin l := by rwa [Key.fin_lt_fin]
          have gx : Gt B (.fin x) := by
            rw [hB] at sB gtB ⊢
            intro y hy
            rcases List.mem_cons.1 hy with rfl | hy
            · exact ⟨(gtB _ (.head _)).1, h2'.trans_le hk⟩
            · exact ⟨(gtB _ (.tail _ hy)).1, (h2'.trans_le hk).trans ((sorted_cons.1 sB).2.1 y hy).2⟩
          have lx : Lt A (.fin x) := ltA.trans h1'.le
          obtain ⟨D, hD, hg⟩ := fr_foldMinus (C := A) (k := .fin x) (fun y hy => ⟨(lx y hy).1, (lx y hy).2.le⟩)
            ⟨B, rfl, gx⟩ (conv hi fun j hj k' hk' => h2'.trans_le (laterAll j hj k' hk')) e
          have := hx x
          rw [hD, tcov, cov_lt lx cA, cov_gt hg, tx, if_neg h1'.not_gt, if_neg h1'.ne', cov_gt gx, List.any_cons,
            icov_point, any_before hi fun j hj k' hk' => .inl (h2'.trans_le (laterAll j hj k' hk'))] at this
          simp [h1.ne'] at this
        · have hl : p ⋖ l := ⟨hpl, fun x h1 h2 => hcov ⟨x, h1, h2⟩⟩
          obtain ⟨B2, a, c, eB, gB2, sB2, cB2⟩ := split l hl
          have lA : Lt A (.fin l) := ltA.trans hk2p.le
          have ta : tcov t false (.fin l) = a ∧ tcov t true (.fin l) = c := by
            rw [tx, tx, if_neg hk2p.not_gt, if_neg hk2p.not_gt, if_neg hk2p.ne', if_neg hk2p.ne', eB]
            exact cov_split (A := []) (k := .fin l) (b := true) (a := a) (c := c) trivial (.nil _) gB2 rfl
          have hr' : ¬ ((a = true → icov o2 false (.fin l) = true) ∧ (o2 = .point l → c = false)) := by
            rw [← ta.1, ← ta.2]
            exact fun h => hr ⟨o2, by simp, l, hl, hk2, h.1, h.2⟩
          rw [List.foldlM_cons] at e
          rcases fromRaw_cases w1 with ⟨e0', _⟩ | ⟨q, rfl, _⟩ | ⟨lb, ub, e1, hkk⟩
          · exact w2 e0'
          · obtain rfl : l = q := by
              rw [lowAt_point] at hk2; cases hk2; rfl
            have hc : c = true := by
              rw [icov_point] at hr'
              simpa using hr'
            subst hc
            rw [minusInPlace_point, eB, ← List.append_assoc] at e
            cases e2 : TineTree.minusPoint dbg (A ++ edge (.fin l) true a true ++ B2) (.point (.incl l)) with
            | error x => rw [e2] at e; cases e
            | ok s1 =>
              rw [e2] at e
              have r := (minusPoint_pend dbg lA gB2 cA cB2).2 rfl s1 e2
              have lat : ∀ j ∈ is2, ∀ k', LowAt j k' → Key.fin l < k' := by
                intro j hj k hk
                rcases sep_low (hp.2.1 j hj) (hi2 j hj).1 hk with h | ⟨_, h, _⟩
                · exact h
                · exact absurd rfl (h l)
              have fr : ∀ x : Tine α, x.Ok → x.key = .fin l → s1 = A ++ x :: B2 →
                  ∃ D, t' = A ++ [x] ++ D ∧ Gt D (.fin l) := fun x hxo hxk r => by
                obtain ⟨D, hD, hg⟩ := fr_foldMinus (C := A ++ [x]) (k := .fin l) (by
                    intro y hy
                    rcases List.mem_append.1 hy with hy | hy
                    · exact ⟨(lA y hy).1, (lA y hy).2.le⟩
                    · rw [List.mem_singleton] at hy; subst hy; exact ⟨hxo, hxk.le⟩)
                  ⟨B2, by rw [r]; simp, gB2⟩ (conv hi2 lat) e
                exact ⟨D, hD, hg⟩
              cases a with
              | true =>
                obtain ⟨D, hD, hg⟩ := fr _ (pincl_ok l) rfl r
                have := hx l
                rw [hD, tcov] at this
                have g := (cov_split (k := .fin l) (b := false) (a := true) (c := false) trivial lA hg cA).1
                rw [edge] at g
                rw [g, List.any_cons, List.any_cons, icov_point l l] at this
                simp at this
              | false =>
                obtain ⟨D, hD, hg⟩ := fr _ (by simp [Tine.Ok]) rfl r
                have hc := v'.2
                rw [hD, List.append_assoc] at hc
                obtain ⟨m, g1, g2⟩ := chain_append.1 hc
                obtain rfl := chain_fun g1 cA
                exact absurd g2.1 (by simp [Tine.isUpperBound])
          · have b1 := bounds_of_tines e1
            have hnp : ∀ q, o2 ≠ .point q := by
              rintro q rfl; simp [Tine.fromRawInterval] at e1
            have hlb : (Tine.lower lb).key = .fin l := lowAt_fun ⟨lb, b1.1, rfl⟩ hk2
            have hku : ikey o2 = (Tine.upper ub).key := by rw [ikey, b1.2]
            have hai : a = true ∧ icov o2 false (.fin l) = false := by
              by_contra hcon
              refine hr' ⟨fun h => ?_, fun h => absurd h (hnp l)⟩
              simpa [h] using hcon
            have hf : o2 ≠ .full := by
              rintro rfl
              cases e1; cases hlb
            obtain ⟨M, B3, d, a2, e', f1, f2, f3, f4, f5, f6, f7, f8⟩ :=
              split_at sB2 cB2 (Tine.upper ub).key (fun g => by rw [g] at hkk; exact absurd hkk (Key.not_lt_bot _))
                (fun _ => rfl)
            have r := minusProper_pend dbg (A := A) (M := M) (B := B3) (a := a) (c := c) hlb hkk f2 (hlb ▸ lA)
              (fun x hx => by rw [hlb]; exact gB2 x (by rw [f1]; simp [hx])) f3 f4 cA f8
            rw [← f1, hlb, List.append_assoc, ← eB] at r
            rw [minusInPlace_proper dbg _ e1 hf, r] at e
            rw [hlb] at hkk
            obtain ⟨D, hD, hg⟩ := fr_foldMinus (C := A) (k := .fin l) (fun y hy => ⟨(lA y hy).1, (lA y hy).2.le⟩)
              ⟨_, rfl, ((edge_at _ _ _ _).gt hkk).append (f4.trans hkk.le)⟩
              (conv hi2 fun j hj k' hk' => (hkk.trans_eq hku.symm).trans_le (later2 j hj k' hk')) e
            have := hx l
            rw [hD, tcov, cov_lt lA cA, cov_gt hg, ta.1, hai.1, List.any_cons, List.any_cons, icov_point, hai.2,
              any_before hi2 fun j hj k' hk' => .inl ((hkk.trans_eq hku.symm).trans_le (later2 j hj k' hk'))] at this
            simp [hpl.ne'] at this
  · rintro ⟨o, ho, l, hl, hlow, hinc, hpt⟩
    have hpl : Key.fin p < .fin l := by rw [Key.fin_lt_fin]; exact hl.1
    have ho : o ∈ is := by
      rcases List.mem_cons.1 ho with rfl | ho
      · rw [lowAt_point] at hlow; cases hlow; exact absurd hl.1 (lt_irrefl _)
      · exact ho
    obtain ⟨is2, rfl⟩ : ∃ is2, is = o :: is2 := by
      cases is with
      | nil => cases ho
      | cons o2 is2 =>
        rcases List.mem_cons.1 ho with rfl | ho2
        · exact ⟨is2, rfl⟩
        · exfalso
          rw [List.pairwise_cons] at hp
          obtain ⟨w1, w2⟩ := hi o2 (.head _)
          obtain ⟨k2, hk2⟩ := lowAt_ex w2
          have g1 := later o2 (.head _) k2 hk2
          have g2 : k2 < .fin l := by
            rcases sep_low (hp.2.1 o ho2) (hi o ho).1 hlow with h | ⟨h, h', _⟩
            · exact (lowAt_le w1 hk2).1.trans_lt h
            · exact ((lowAt_le w1 hk2).2 h').trans_eq h
          cases k2 with
          | bot => exact absurd g1 (Key.not_lt_bot _)
          | top => exact absurd hk2 lowAt_top
          | fin x => rw [Key.fin_lt_fin] at g1 g2; exact hl.2 g1 g2
    rw [List.pairwise_cons] at hp
    obtain ⟨w1, w2⟩ := hi o (.head _)
    have hi2 : ∀ i ∈ is2, i.WF ∧ i ≠ .empty := fun i h => hi i (.tail _ h)
    obtain ⟨B2, a, c, eB, gB2, sB2, cB2⟩ := split l hl
    have lA : Lt A (.fin l) := ltA.trans hpl.le
    have tl : ∀ aft x, p < x → tcov t aft (.fin x) =
        if Key.fin x = .fin l then (if aft then c else a) else cov aft c B2 (.fin x) := by
      intro aft x hx
      have h1 : Key.fin p < .fin x := by rwa [Key.fin_lt_fin]
      rw [tx, if_neg h1.not_gt, if_neg h1.ne', eB]
      have := cov_one (s := true) (A := []) (B := B2) (k' := .fin l) (b := true) (a := a) (c := c) trivial (.nil _)
        gB2 rfl aft (.fin x)
      rw [List.nil_append] at this
      rw [this, if_neg]
      rw [Key.fin_lt_fin]
      exact fun h => hl.2 hx h
    set t1 := A ++ edge (.fin l) false a c ++ B2 with ht1
    have V1 : Valid t1 := ⟨sorted_glue sA (edge_sorted _ _ _ _) sB2 lA (edge_at _ _ _ _) gB2,
      chain_append.2 ⟨c, chain_append.2 ⟨false, cA, edge_chain _ _ _ _ trivial⟩, cB2⟩⟩
    have t1x : ∀ aft k, tcov t1 aft k = if k < .fin l then cov aft false A k
        else if k = .fin l then (if aft then c else a) else cov aft c B2 k := fun aft k => by
      rw [tcov, ht1, cov_one (k' := .fin l) (b := false) (a := a) (c := c) trivial lA gB2 cA]
    have t1b : ∀ k, bef false t1 k = if k < .fin l then bef false A k
        else if k = .fin l then false else bef c B2 k := fun k => by
      rw [ht1, bef_one (k' := .fin l) (b := false) (a := a) (c := c) trivial lA gB2 cA]
    have ta : tcov t false (.fin l) = a ∧ tcov t true (.fin l) = c := by
      rw [tl _ _ hl.1, tl _ _ hl.1]; simp
    have same : ∀ k, Key.fin l < k →
        (∀ aft, tcov t1 aft k = tcov t aft k) ∧ bef false t1 k = bef false t k := by
      intro k hk
      have hk2 := hpl.trans hk
      constructor
      · intro aft
        rw [t1x, if_neg hk.not_gt, if_neg hk.ne', eq, tcov, cov_one fits ltA gtB cA, if_neg hk2.not_gt,
          if_neg hk2.ne', eB]
        have := cov_one (s := true) (A := []) (B := B2) (k' := .fin l) (b := true) (a := a) (c := c) trivial (.nil _)
          gB2 rfl aft k
        rw [List.nil_append] at this
        rw [this, if_neg hk.not_gt, if_neg hk.ne']
      · rw [t1b, if_neg hk.not_gt, if_neg hk.ne', eq, bef_one fits ltA gtB cA, if_neg hk2.not_gt,
          if_neg hk2.ne', eB]
        have := bef_one (s := true) (A := []) (B := B2) (k' := .fin l) (b := true) (a := a) (c := c) trivial (.nil _)
          gB2 rfl k
        rw [List.nil_append] at this
        rw [this, if_neg hk.not_gt, if_neg hk.ne']
    have pts : ∀ x, tcov t1 false (.fin x) = tcov t false (.fin x) := by
      intro x
      rcases lt_trichotomy x p with h | rfl | h
      · have h1 : Key.fin x < .fin p := by rwa [Key.fin_lt_fin]
        rw [tx, if_pos h1, t1x, if_pos (h1.trans hpl)]
      · rw [tx, if_neg (lt_irrefl _), if_pos rfl, t1x, if_pos hpl]
        have := cov_lt (aft := false) (B := []) ltA cA
        simpa [cov] using this
      · rw [tl _ _ h, t1x, if_neg]
        rw [Key.fin_lt_fin]
        exact fun h' => hl.2 h h'
    have hstep : TineTree.minusInPlace dbg (A ++ B) o = TineTree.minusInPlace dbg t1 o := by
      rcases fromRaw_cases w1 with ⟨e0', _⟩ | ⟨q, rfl, _⟩ | ⟨lb, ub, e1, hkk⟩
      · exact absurd e0' w2
      · obtain rfl : l = q := by
          rw [lowAt_point] at hlow; cases hlow; rfl
        have hc : c = false := ta.2 ▸ hpt rfl
        subst hc
        rw [minusInPlace_point, minusInPlace_point, eB, ← List.append_assoc,
          (minusPoint_pend dbg lA gB2 cA cB2).1 rfl,
          minusPoint_eq dbg ⟨A, B2, false, a, false, ht1, trivial, lA, gB2, sA, sB2, cA, cB2⟩ (.inr ⟨rfl, rfl⟩)]
        simp [edge]
      · have b1 := bounds_of_tines e1
        have hlb : (Tine.lower lb).key = .fin l := lowAt_fun ⟨lb, b1.1, rfl⟩ hlow
        have hf : o ≠ .full := by
          rintro rfl
          cases e1; cases hlb
        obtain ⟨M, B3, d, a2, e', f1, f2, f3, f4, f5, f6, f7, f8⟩ :=
          split_at sB2 cB2 (Tine.upper ub).key (fun g => by rw [g] at hkk; exact absurd hkk (Key.not_lt_bot _))
            (fun _ => rfl)
        have gM : Gt M (Tine.lower lb).key := fun x hx => by rw [hlb]; exact gB2 x (by rw [f1]; simp [hx])
        have r := minusProper_pend dbg (A := A) (M := M) (B := B3) (a := a) (c := c) hlb hkk f2 (hlb ▸ lA)
          gM f3 f4 cA f8
        have r2 := minusProper_eq dbg (t := t1) hkk ⟨A, M, B3, false, a, c, d, a2, e', by rw [ht1, f1, hlb],
          by rw [hlb]; trivial, f2, hlb ▸ lA, gM, f3, f4, sA, f5, f6, cA, f7, f8⟩
        rw [← f1, hlb, List.append_assoc, ← eB] at r
        rw [minusInPlace_proper dbg _ e1 hf, minusInPlace_proper dbg _ e1 hf, r, r2]
        have hin : (a && !(Tine.lower lb).inclAt) = false := by
          cases a with
          | false => rfl
          | true =>
            have := hinc ta.1
            rw [icov, e1, cov_pair hkk, hlb, if_neg (lt_irrefl _), if_pos rfl] at this
            simpa using this
        simp only [hin, hlb]
        simp [edge]
    refine ⟨t1, V1, ?_, ?_⟩
    · unfold RightFold
      refine exists_congr fun t' => ?_
      rw [fold, List.foldlM_cons, List.foldlM_cons, hstep]
      refine and_congr Iff.rfl (and_congr Iff.rfl (forall_congr' fun x => ?_))
      rw [pts, List.any_cons, icov_point]
      by_cases hx : x = p
      · subst hx; rw [hs.1]; simp
      · simp [hx]
    · have mend : Mend t (.point p :: o :: is2) l := ⟨p, hl, by simp, hs⟩
      have hle : Key.fin l ≤ ikey o := (lowAt_le w1 hlow).1
      have later2 : ∀ j ∈ is2, ∀ k, LowAt j k → Key.fin l < k := by
        intro j hj k hk
        rcases sep_low (hp.2.1 j hj) (hi2 j hj).1 hk with h | ⟨h, h', _⟩
        · exact hle.trans_lt h
        · exact ((lowAt_le w1 hlow).2 h').trans_eq h
      have bl : bef false t1 (.fin l) = false := by rw [t1b]; simp
      have stl : ∀ q, Key.fin l ≤ .fin q → (St t q ↔ St t1 q) := by
        intro q hq
        rcases lt_or_eq_of_le hq with hq | hq
        · rw [St, St, (same _ hq).1, (same _ hq).1]
        · cases hq
          rw [St, St, ta.1, ta.2, t1x, t1x]; simp
      have one : Cl t (.point p :: o :: is2) o ↔ Cl t1 (o :: is2) o := by
        unfold Cl
        refine and_congr (forall_congr' fun q => forall_congr' fun hq => ?_) (forall_congr' fun hnp => ?_)
        · subst hq
          obtain rfl : l = q := by
            rw [lowAt_point] at hlow; cases hlow; rfl
          have hc : c = false := ta.2 ▸ hpt rfl
          have s1 : ¬ St t l := fun h => by rw [St, ta.2, hc] at h; cases h.2
          have s2 : ¬ St t1 l := fun h => s1 ((stl l (le_refl _)).2 h)
          have s3 : ¬ En t1 l := fun h => by rw [En, bl] at h; cases h.1
          simp [s1, s2, s3, mend]
        · have hlt := (lowAt_le w1 hlow).2 hnp
          have s := same _ hlt
          refine and_congr (by rw [holeAt, holeAt, s.1, s.1, s.2]) ?_
          constructor
          · intro _ l' hl' hh
            have := lowAt_fun hl' hlow
            rw [this, holeAt, bl] at hh
            simp at hh
          · intro _ l' hl' hh
            have := lowAt_fun hl' hlow
            cases this
            exact mend
      have rest : ∀ j ∈ is2, (Cl t (.point p :: o :: is2) j ↔ Cl t1 (o :: is2) j) := by
        intro j hj
        refine cl_transfer same ?_ ?_ ?_ ?_ ?_ ?_
        · intro l' h
          rw [lowAt_point] at h
          rw [h]; exact hpl.le
        · rintro q hq - l' hl'
          cases hq
          rw [hl.unique_right hl']
        · intro q hq
          refine stl q ?_
          rcases List.mem_cons.1 hq with rfl | hq
          · rw [lowAt_point] at hlow; exact hlow.le
          · exact (later2 _ hq _ (lowAt_point.2 rfl)).le
        · rintro q rfl
          exact later2 _ hj _ (lowAt_point.2 rfl)
        · exact hle.trans_lt (sep_ikey (hp.2.1 j hj) (hi2 j hj).1)
        · exact fun l' hl' => .inl (later2 j hj _ hl')
      rw [List.forall_mem_cons, List.forall_mem_cons, one]
      exact and_congr Iff.rfl (forall_congr' fun j => forall_congr' fun hj => rest j hj)

/-- Taking away a point just before which an interval of the tree ends never goes well. -/
theorem foldMinus_end (dbg : Bool) {t : TineTree α} (ht : Valid t) {p : α} (hn : En t p)
    {is : List (RawInterval α)} (hi : ∀ i ∈ is, i.WF ∧ i ≠ .empty) (hp : (RawInterval.point p :: is).Pairwise SepI) :
    ¬ RightFold dbg t (.point p :: is) := by
  rintro ⟨t', e, v', hx⟩
  rw [List.pairwise_cons] at hp
  rw [List.foldlM_cons] at e
  obtain ⟨o⟩ := one ht (.fin p)
  obtain ⟨v1, v2, v3⟩ := o.views
  obtain ⟨hb, ha⟩ := hn
  rw [v1] at hb
  rw [v2] at ha
  have h0 : t ≠ [] := by
    rintro rfl
    rw [← v1] at hb
    cases hb
  rw [minusInPlace_point] at e
  cases e1 : TineTree.minusPoint dbg t (.point (.incl p)) with
  | error x => rw [e1] at e; cases e
  | ok t1 =>
    rw [e1] at e
    have r := minusPoint_res dbg o ha (.inl hb) e1
    have later : ∀ j ∈ is, j.WF ∧ ∃ l, j.lowerBound = some l ∧ Key.fin p < (Tine.lower l).key := by
      intro j hj
      obtain ⟨k, l, g1, g2⟩ := lowAt_ex (hi j hj).2
      refine ⟨(hi j hj).1, l, g1, ?_⟩
      rcases sep_low (hp.1 j hj) (hi j hj).1 ⟨l, g1, rfl⟩ with h | ⟨_, h, _⟩
      · exact h
      · exact absurd rfl (h p)
    have hA : ∀ x ∈ o.A, x.Ok ∧ x.key ≤ .fin p := fun x hx => ⟨(o.ltA x hx).1, (o.ltA x hx).2.le⟩
    by_cases hbc' : (o.b && o.c) = true
    · rw [if_pos hbc'] at r
      obtain ⟨D, hD, _⟩ := fr_foldMinus (C := o.A ++ [.point (.incl p)]) (k := .fin p) (by
          intro x hx
          rcases List.mem_append.1 hx with hx | hx
          · exact hA x hx
          · rw [List.mem_singleton] at hx; subst hx; exact ⟨pincl_ok p, le_refl _⟩)
        ⟨o.B, by rw [r]; simp, o.gtB⟩ later e
      have hc := v'.2
      rw [hD, List.append_assoc] at hc
      obtain ⟨m, g1, g2⟩ := chain_append.1 hc
      obtain rfl := chain_fun g1 o.cA
      rw [hb] at g2
      exact absurd g2.1 (by simp [Tine.isUpperBound])
    · rw [if_neg hbc'] at r
      obtain ⟨D, hD, hg⟩ := fr_foldMinus (C := o.A) (k := .fin p) hA ⟨o.B, r, o.gtB⟩ later e
      have := hx p
      rw [hD, tcov, cov_lt o.ltA o.cA, cov_gt hg, v2, ha, hb] at this
      cases this

theorem foldMinus_iff (dbg : Bool) (is : List (RawInterval α)) {t : TineTree α} (ht : Valid t)
    (hi : ∀ i ∈ is, i.WF ∧ i ≠ .empty) (hp : is.Pairwise SepI) :
    RightFold dbg t is ↔ ∀ o ∈ is, Cl t is o := by
  induction is generalizing t with
  | nil => exact ⟨fun _ o ho => absurd ho List.not_mem_nil, fun _ => ⟨t, rfl, ht, by simp⟩⟩
  | cons i is ih =>
    obtain ⟨w1, w2⟩ := hi i (.head _)
    have hi' : ∀ j ∈ is, j.WF ∧ j ≠ .empty := fun j hj => hi j (.tail _ hj)
    have hp0 := hp
    rw [List.pairwise_cons] at hp
    obtain ⟨k0, hk0⟩ := lowAt_ex w2
    by_cases hm : MinusOk t i
    · -- a removal that goes well
      obtain ⟨t1, e1, v1, c1, b1, b2⟩ := minusInPlace_ok dbg ht w1 hm
      have hpt : ∀ p, i = .point p → ¬ St t p ∧ ¬ En t p := by
        rintro p rfl
        simp only [MinusOk] at hm
        unfold St En
        rcases hm with h | ⟨h1, h2⟩
        · simp [h]
        · simp [h1, h2]
      have hho : (∀ p, i ≠ .point p) → ∀ k, EndAt i k → holeAt t k = false := by
        rintro hnp k ⟨x, hx, rfl⟩
        have : ∀ x ∈ Tine.fromRawInterval i, holeAt t x.key = false := by
          cases i <;> first | exact hm | exact absurd rfl (hnp _)
        exact this x hx
      have hend : ∀ k, LowAt i k → EndAt i k := by
        rintro k ⟨l, e, rfl⟩
        rcases fromRaw_cases w1 with ⟨e0, e1⟩ | ⟨p, rfl, e1⟩ | ⟨lb, ub, e1, hk⟩
        · exact absurd e0 w2
        · cases e; exact ⟨.point (.incl p), by rw [e1]; exact .head _, rfl⟩
        · rw [(bounds_of_tines e1).1] at e; cases e
          exact ⟨_, by rw [e1]; exact .head _, rfl⟩
      have hR : RightFold dbg t (i :: is) ↔ RightFold dbg t1 is := by
        unfold RightFold
        rw [List.foldlM_cons, e1]
        simp only [List.any_cons, c1, Bool.and_assoc, Bool.not_or]
        rfl
      have same : ∀ k, ikey i < k → (∀ aft, tcov t1 aft k = tcov t aft k) ∧ bef false t1 k = bef false t k := by
        intro k hk
        exact ⟨fun aft => by rw [c1, icov_after w1 hk]; simp, b2 k hk⟩
      have hself : Cl t (i :: is) i :=
        ⟨fun p hp => ⟨fun h => absurd h (hpt p hp).1, fun h => absurd h (hpt p hp).2⟩,
          fun hnp => ⟨hho hnp _ (endAt_ikey w2), fun l hl h => by rw [hho hnp _ (hend _ hl)] at h; cases h⟩⟩
      rw [hR, ih v1 hi' hp.2, List.forall_mem_cons]
      simp only [hself, true_and]
      refine forall_congr' fun o => forall_congr' fun ho => (cl_transfer same ?_ ?_ ?_ ?_ ?_ ?_).symm
      · exact fun l hl => (lowAt_le w1 hl).1
      · exact fun p hp h => absurd h (hpt p hp).1
      · intro p hp'
        have : ikey i < .fin p := by
          rcases sep_low (hp.1 _ hp') trivial (lowAt_point.2 rfl) with h | ⟨_, _, h, _⟩
          · exact h
          · exact absurd rfl (h p)
        rw [St, St, (same _ this).1, (same _ this).1]
      · rintro p rfl
        rcases sep_low (hp.1 _ ho) trivial (lowAt_point.2 rfl) with h | ⟨_, _, h, _⟩
        · exact h
        · exact absurd rfl (h p)
      · exact sep_ikey (hp.1 o ho) (hi' o ho).1
      · intro l hl
        rcases sep_low (hp.1 o ho) (hi' o ho).1 hl with h | ⟨h, h', _, _⟩
        · exact .inl h
        · right
          rw [← h]
          exact ⟨hho h' _ (endAt_ikey w2), by rw [holeAt, b1 h' w2]; rfl⟩
    · by_cases hpt : ∃ p, i = .point p
      · obtain ⟨p, rfl⟩ := hpt
        by_cases hn : En t p
        · refine ⟨fun h => absurd h (foldMinus_end dbg ht hn hi' hp0), fun h => ?_⟩
          obtain ⟨g1, g2⟩ := (h _ (.head _)).1 p rfl
          exfalso
          by_cases hs : St t p
          · exact (g1 hs).1 hn
          · obtain ⟨q, h1, h2, h3⟩ := g2 hn
            rcases List.mem_cons.1 h2 with h2 | h2
            · cases h2; exact h1.1.ne rfl
            · rcases sep_low (hp.1 _ h2) trivial (lowAt_point.2 rfl) with h | ⟨_, h, _⟩
              · have h : (Key.fin p) < .fin q := h
                rw [Key.fin_lt_fin] at h
                exact h.not_gt h1.1
              · exact absurd rfl (h p)
        · have hs : St t p := by
            simp only [MinusOk, not_or, not_and, Bool.not_eq_true] at hm
            refine ⟨hm.1, ?_⟩
            have : bef false t (.fin p) = false := by
              rw [← Bool.not_eq_true]; exact fun h => hn ⟨h, hm.1⟩
            simpa using hm.2 this
          obtain ⟨g1, g2⟩ := foldMinus_pend dbg ht hs hn hi' hp0
          by_cases hr : Resc t (.point p :: is) p
          · obtain ⟨t1, v1, q1, q2⟩ := g2 hr
            rw [q1, ih v1 hi' hp.2, ← q2, List.forall_mem_cons]
            refine ⟨fun h => ⟨⟨fun q hq => ?_, fun h => absurd rfl (h p)⟩, h⟩, fun h => h.2⟩
            cases hq
            exact ⟨fun _ => ⟨hn, hr⟩, fun h => absurd h hn⟩
          · constructor
            · exact fun h => absurd h (g1 hr)
            · exact fun h => absurd ((h _ (.head _)).1 p rfl |>.1 hs).2 hr
      · -- a hole at an end of the interval
        have hnp : ∀ p, i ≠ .point p := fun p hp => hpt ⟨p, hp⟩
        obtain ⟨k, hk1, hk2⟩ : ∃ k, EndAt i k ∧ holeAt t k = true := by
          by_contra hc
          push Not at hc
          refine hm ?_
          have : ∀ x ∈ Tine.fromRawInterval i, holeAt t x.key = false := fun x hx => by
            simpa using hc x.key ⟨x, hx, rfl⟩
          cases i <;> first | exact this | exact absurd rfl (hnp _)
        have hkcase : LowAt i k ∨ k = ikey i := by
          obtain ⟨x, hx, rfl⟩ := hk1
          rcases fromRaw_cases w1 with ⟨e0, e⟩ | ⟨p, e0, e⟩ | ⟨lb, ub, e, hk⟩
          · exact absurd e0 w2
          · exact absurd e0 (hnp p)
          · obtain ⟨b1, b2⟩ := bounds_of_tines e
            rw [e] at hx
            simp only [List.mem_cons, List.not_mem_nil, or_false] at hx
            rcases hx with rfl | rfl
            · exact .inl ⟨lb, b1, rfl⟩
            · right; rw [ikey, b2]
        obtain ⟨x, rfl⟩ : ∃ x, k = .fin x := by
          cases k with
          | bot => rw [(hole_inf ht).1] at hk2; cases hk2
          | top => rw [(hole_inf ht).2] at hk2; cases hk2
          | fin x => exact ⟨x, rfl⟩
        constructor
        · rintro ⟨t', e, v', hx⟩
          exfalso
          obtain ⟨t1, e1, v1, c1, -, -⟩ := minusStep dbg ht w1 (fun p hp => absurd hp (hnp p))
          rw [List.foldlM_cons, e1] at e
          have hx1 : tcov t1 false (.fin x) = true := by rw [c1, hk2]; simp [hk1]
          have hx0 : tcov t false (.fin x) = false := by
            simp only [holeAt, Bool.and_eq_true, Bool.not_eq_true'] at hk2
            exact hk2.1.2
          have := foldMinus_keep dbg v1 (k := .fin x) hi' hp.2 (by rw [holeAt, hx1]; simp) (fun j hj k' hk' => by
            rcases sep_low (hp.1 j hj) (hi' j hj).1 hk' with h | ⟨h, _, h2, h3⟩
            · exact .inl ((endAt_le w1 hk1).trans_lt h)
            · rcases lt_or_eq_of_le (endAt_le w1 hk1) with h' | h'
              · exact .inl (h'.trans_eq h)
              · exact .inr ⟨h'.trans h, h2, h3⟩) e
          rw [hx, hx0, hx1] at this
          cases this
        · intro h
          exfalso
          obtain ⟨g1, g2⟩ := (h _ (.head _)).2 hnp
          rcases hkcase with hl | hl
          · obtain ⟨q, h1, h2, h3⟩ := g2 x hl hk2
            rcases List.mem_cons.1 h2 with h2 | h2
            · exact hnp q h2.symm
            · rcases sep_low (hp.1 _ h2) trivial (lowAt_point.2 rfl) with h | ⟨_, _, h, _⟩
              · have h := (lowAt_le w1 hl).1.trans_lt h
                rw [Key.fin_lt_fin] at h
                exact h.not_gt h1.1
              · exact absurd rfl (h q)
          · rw [hl, g1] at hk2; cases hk2

end TT
end NI
