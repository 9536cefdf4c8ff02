import Verif.Lemmas.Minus

/-! # Removals leave everything before the interval alone, even in a tree that is no longer proper -/

set_option linter.unusedSimpArgs false
set_option linter.unusedVariables false
set_option linter.unnecessarySeqFocus false
set_option linter.unusedSectionVars false
set_option linter.unusedTactic false

namespace NI
namespace TT
variable {α : Type} [LinearOrder α]
open BSet (Lt Gt At)

/-- The tree starts with `C`, and everything after that lies beyond `k`. -/
def Fr (C : List (Tine α)) (k : Key α) (t : TineTree α) : Prop := ∃ D, t = C ++ D ∧ Gt D k

theorem fr_insert {C : List (Tine α)} {k : Key α} (hC : ∀ x ∈ C, x.Ok ∧ x.key ≤ k) {t : TineTree α}
    (ht : Fr C k t) {x : Tine α} (hx : x.Ok) (hk : k < x.key) : Fr C k (BSet.insert x t) := by
  obtain ⟨D, rfl, hD⟩ := ht
  have h1 : Gt (BSet.insert x D) k := by
    induction D with
    | nil => intro y hy; simp [BSet.insert] at hy; subst hy; exact ⟨hx, hk⟩
    | cons d D ih =>
      have hd := hD d (.head _)
      have ih := ih fun y hy => hD y (.tail _ hy)
      intro y hy
      rw [BSet.insert] at hy
      split at hy
      · rcases List.mem_cons.1 hy with rfl | hy
        · exact ⟨hx, hk⟩
        · exact hD y hy
      · exact hD y hy
      · rcases List.mem_cons.1 hy with rfl | hy
        · exact hd
        · exact ih y hy
  refine ⟨BSet.insert x D, ?_, h1⟩
  clear h1 hD
  induction C with
  | nil => rfl
  | cons c C ih =>
    have hc := hC c (.head _)
    show BSet.insert x (c :: (C ++ D)) = _
    rw [BSet.insert, Tine.cmp_gt hx hc.1 (lt_of_le_of_lt hc.2 hk)]
    exact congrArg _ (ih fun y hy => hC y (.tail _ hy))

theorem fr_insertIf {C : List (Tine α)} {k : Key α} (hC : ∀ x ∈ C, x.Ok ∧ x.key ≤ k) {t : TineTree α}
    (ht : Fr C k t) {x : Tine α} (hx : x.Ok) (hk : k < x.key) (c : Bool) :
    Fr C k (TineTree.insertIf c x t) := by
  cases c
  · exact ht
  · exact fr_insert hC ht hx hk

theorem filter_all {β : Type} {p : β → Bool} {l : List β} (h : ∀ x ∈ l, p x = true) : l.filter p = l :=
  List.filter_eq_self.2 h

theorem gt_filter {D : List (Tine α)} {k : Key α} (h : Gt D k) (p : Tine α → Bool) : Gt (D.filter p) k :=
  fun x hx => h x (List.mem_filter.1 hx).1

theorem fr_remove {C : List (Tine α)} {k : Key α} (hC : ∀ x ∈ C, x.Ok ∧ x.key ≤ k) {t : TineTree α}
    (ht : Fr C k t) {x : Tine α} (hx : x.Ok) (hk : k < x.key) : Fr C k (BSet.remove x t) := by
  obtain ⟨D, rfl, hD⟩ := ht
  refine ⟨BSet.remove x D, ?_, gt_filter hD _⟩
  rw [BSet.remove, List.filter_append]
  congr 1
  refine filter_all fun y hy => ?_
  have := hC y hy
  rw [Tine.cmp_gt hx this.1 (lt_of_le_of_lt this.2 hk)]
  rfl

theorem fr_below {C : List (Tine α)} {k : Key α} (hC : ∀ x ∈ C, x.Ok ∧ x.key ≤ k) {t : TineTree α}
    (ht : Fr C k t) {x : Tine α} (hx : x.Ok) (hk : k < x.key) :
    Fr C k (BSet.below x t) ∧ Gt (BSet.above x t) k := by
  obtain ⟨D, rfl, hD⟩ := ht
  have hc : ∀ y ∈ C, x.cmp y = .gt := fun y hy => by
    have := hC y hy
    exact Tine.cmp_gt hx this.1 (lt_of_le_of_lt this.2 hk)
  refine ⟨⟨BSet.below x D, ?_, gt_filter hD _⟩, ?_⟩
  · rw [BSet.below, List.filter_append]
    congr 1
    exact filter_all fun y hy => by rw [hc y hy]; rfl
  · rw [BSet.above, List.filter_append, List.filter_eq_nil_iff.2 fun y hy => by rw [hc y hy]; simp]
    exact gt_filter hD _

theorem fr_append {C : List (Tine α)} {k : Key α} {t : TineTree α} (ht : Fr C k t) {R : List (Tine α)}
    (hR : Gt R k) : Fr C k (BSet.append t R) := by
  obtain ⟨D, rfl, hD⟩ := ht
  exact ⟨D ++ R, by rw [BSet.append, List.append_assoc], fun x hx => (List.mem_append.1 hx).elim (hD x) (hR x)⟩

theorem fr_taken {C : List (Tine α)} {k : Key α} (hC : ∀ x ∈ C, x.Ok ∧ x.key ≤ k) {t : TineTree α}
    (ht : Fr C k t) {x y : Tine α} (hx : x.Ok) (hk : k < x.key) (h : BSet.taken x t = some y) :
    y.Ok ∧ k < y.key := by
  obtain ⟨D, rfl, hD⟩ := ht
  have h1 := List.mem_of_find?_eq_some h
  have h2 := List.find?_some h
  rcases List.mem_append.1 h1 with h1 | h1
  · have := hC y h1
    rw [Tine.cmp_gt hx this.1 (lt_of_le_of_lt this.2 hk)] at h2
    cases h2
  · exact hD y h1

theorem minus_key {dbg : Bool} {s o m : Tine α} {k : Key α} (hs : s.Ok) (h1 : k < s.key) (ho : o.Ok)
    (h2 : k < o.key) (h : s.minus dbg o = .ok (some m)) : m.Ok ∧ k < m.key := by
  unfold Tine.minus at h
  simp only [dassert, bind, Except.bind] at h
  split at h
  · cases h
  · split at h <;> simp only [Except.ok.injEq, Option.some.injEq, reduceCtorEq] at h <;> subst h <;>
      exact ⟨by simp [Tine.Ok], h1⟩

theorem invert_key {x m : Tine α} (h : x.invert = .ok m) : m.Ok ∧ m.key = x.key := by
  rcases x with (a | a | _) | (a | a | _) | (a | a | _) <;> simp [Tine.invert] at h <;> subst h <;>
    simp [Tine.Ok, Tine.key]

theorem orInvert_key {c : Bool} {x m : Tine α} (hx : x.Ok) (h : TineTree.orInvert c x = .ok m) :
    m.Ok ∧ m.key = x.key := by
  cases c
  · exact invert_key h
  · simp only [TineTree.orInvert, if_true, Except.ok.injEq] at h
    subst h
    exact ⟨hx, rfl⟩

/-- Merging the tine that was at the same place. -/
theorem merged_key {dbg : Bool} {o : Option (Tine α)} {x m : Tine α} {k : Key α} (hx : x.Ok) (hk : k < x.key)
    (h : (match o with
      | some y => y.minus dbg x
      | none => .ok (some x) : Except Panic (Option (Tine α))) = .ok (some m))
    (ho : ∀ y, o = some y → y.Ok ∧ k < y.key) : m.Ok ∧ k < m.key := by
  cases o with
  | none => simp only [Except.ok.injEq, Option.some.injEq] at h; subst h; exact ⟨hx, hk⟩
  | some y => exact minus_key (ho y rfl).1 (ho y rfl).2 hx hk h

theorem fr_minusPoint {dbg : Bool} {C : List (Tine α)} {k : Key α} (hC : ∀ x ∈ C, x.Ok ∧ x.key ≤ k)
    {t t' : TineTree α} (ht : Fr C k t) {p : α} (hk : k < .fin p)
    (e : TineTree.minusPoint dbg t (.point (.incl p)) = .ok t') : Fr C k t' := by
  have hx := pincl_ok p
  have hk' : k < (Tine.point (.incl p)).key := hk
  have f1 := fr_remove hC ht hx hk'
  obtain ⟨f2, f3⟩ := fr_below hC f1 hx hk'
  have f4 := fr_append f2 f3
  have ho := fun y => fr_taken (y := y) hC ht hx hk'
  simp only [TineTree.minusPoint, TineTree.exteriorSplitPoint, bind, Except.bind] at e
  split at e
  · cases e
  · rename_i m hm
    split at e
    · cases e; exact f4
    · rename_i q
      have hq := merged_key hx hk' hm ho
      split at e
      · cases hi : q.invert with
        | error x => rw [hi] at e; cases e
        | ok q' =>
          rw [hi] at e
          cases e
          obtain ⟨g1, g2⟩ := invert_key hi
          exact fr_insert hC f4 g1 (g2 ▸ hq.2)
      · unfold dassert at e
        split at e
        · cases e
        · cases e; exact fr_insert hC f4 hq.1 hq.2
      · unfold dassert at e
        split at e
        · cases e
        · cases e; exact fr_insert hC f4 hq.1 hq.2
      · cases e; exact f4

theorem fr_minusProper {dbg : Bool} {C : List (Tine α)} {k : Key α} (hC : ∀ x ∈ C, x.Ok ∧ x.key ≤ k)
    {t t' : TineTree α} (ht : Fr C k t) {l u : Tine α} (hl : l.Ok) (hu : u.Ok) (hkl : k < l.key)
    (hku : k < u.key) (e : TineTree.minusProper dbg t l u = .ok t') : Fr C k t' := by
  have f1 := fr_remove hC ht hl hkl
  have f2 := fr_remove hC f1 hu hku
  obtain ⟨f3, f4⟩ := fr_below hC f2 hl hkl
  have f5 : Gt (BSet.above u (BSet.above l (BSet.remove u (BSet.remove l t)))) k := gt_filter f4 _
  have f6 := fr_append f3 f5
  have ho1 := fun y => fr_taken (y := y) hC ht hl hkl
  have ho2 := fun y => fr_taken (y := y) hC f1 hu hku
  simp only [TineTree.minusProper, TineTree.exteriorSplit, bind, Except.bind] at e
  split at e
  · cases e
  rename_i mL hmL
  split at e
  · cases e
  rename_i mU hmU
  have kL : ∀ m, mL = some m → m.Ok ∧ k < m.key := by
    rintro m rfl; exact merged_key hl hkl hmL ho1
  have kU : ∀ m, mU = some m → m.Ok ∧ k < m.key := by
    rintro m rfl; exact merged_key hu hku hmU ho2
  clear hmL hmU
  split at e
  · rename_i a b _ _ _ _
    obtain ⟨a1, a2⟩ := kL _ rfl
    obtain ⟨b1, b2⟩ := kU _ rfl
    split at e
    · cases e
    rename_i a' ha'
    obtain ⟨a3, a4⟩ := orInvert_key a1 ha'
    split at e
    · cases e
    rename_i b' hb'
    obtain ⟨b3, b4⟩ := orInvert_key b1 hb'
    cases e
    exact fr_insert hC (fr_insert hC f6 a3 (a4 ▸ a2)) b3 (b4 ▸ b2)
  · obtain ⟨a1, a2⟩ := kL _ rfl
    split at e
    · cases e
    rename_i a' ha'
    obtain ⟨a3, a4⟩ := orInvert_key a1 ha'
    have f7 := fr_insert hC f6 a3 (a4 ▸ a2)
    split at e
    · cases e
      exact fr_insert hC f7 (kU _ rfl).1 (kU _ rfl).2
    · cases e; exact f7
  · obtain ⟨b1, b2⟩ := kU _ rfl
    split at e
    · cases e
    rename_i b' hb'
    obtain ⟨b3, b4⟩ := orInvert_key b1 hb'
    have f7 := fr_insert hC f6 b3 (b4 ▸ b2)
    split at e
    · cases e
      exact fr_insert hC f7 (kL _ rfl).1 (kL _ rfl).2
    · cases e; exact f7
  · cases e
    exact fr_insertIf hC (fr_insertIf hC f6 (kL _ rfl).1 (kL _ rfl).2 _) (kU _ rfl).1 (kU _ rfl).2 _
  · cases e
    exact fr_insertIf hC f6 (kL _ rfl).1 (kL _ rfl).2 _
  · cases e
    exact fr_insertIf hC f6 (kU _ rfl).1 (kU _ rfl).2 _
  · cases e; exact f6
  · cases e

theorem fr_minusInPlace {dbg : Bool} {C : List (Tine α)} {k : Key α} (hC : ∀ x ∈ C, x.Ok ∧ x.key ≤ k)
    {t t' : TineTree α} (ht : Fr C k t) {i : RawInterval α} (hi : i.WF) {l : Bound α}
    (hl : i.lowerBound = some l) (hk : k < (Tine.lower l).key)
    (e : TineTree.minusInPlace dbg t i = .ok t') : Fr C k t' := by
  have hf : i.isFull = false := by
    rw [Bool.eq_false_iff]
    intro h
    have : i = .full := by cases i <;> simp_all [RawInterval.isFull]
    subst this
    cases hl
    exact absurd hk (Key.not_lt_bot _)
  unfold TineTree.minusInPlace at e
  rw [hf] at e
  split at e
  · cases e; exact ht
  · simp only [Bool.false_eq_true, if_false] at e
    rcases fromRaw_cases hi with ⟨e0, e1⟩ | ⟨p, e0, e1⟩ | ⟨lb, ub, e1, hkk⟩
    · rw [e1] at e; cases e; exact ht
    · subst e0
      cases hl
      rw [e1] at e
      exact fr_minusPoint hC ht hk e
    · have hlb : l = lb := by
        cases i <;> simp [Tine.fromRawInterval] at e1 <;>
          simp [RawInterval.lowerBound] at hl <;> rw [← hl, ← e1.1]
      subst hlb
      rw [e1] at e
      exact fr_minusProper hC ht (lower_ok _) (upper_ok _) hk (hk.trans hkk) e

theorem fr_foldMinus {dbg : Bool} {C : List (Tine α)} {k : Key α} (hC : ∀ x ∈ C, x.Ok ∧ x.key ≤ k)
    {t t' : TineTree α} (ht : Fr C k t) {is : List (RawInterval α)}
    (hi : ∀ i ∈ is, i.WF ∧ ∃ l, i.lowerBound = some l ∧ k < (Tine.lower l).key)
    (e : is.foldlM (TineTree.minusInPlace dbg) t = .ok t') : Fr C k t' := by
  induction is generalizing t with
  | nil => cases e; exact ht
  | cons i is ih =>
    rw [List.foldlM_cons] at e
    cases e1 : TineTree.minusInPlace dbg t i with
    | error x => rw [e1] at e; cases e
    | ok t1 =>
      rw [e1] at e
      obtain ⟨h1, l, h2, h3⟩ := hi i (.head _)
      exact ih (fr_minusInPlace hC ht h1 h2 h3 e1) (fun j hj => hi j (.tail _ hj)) e

/-- Removing a point that is missing from the tree but at an end of one of its intervals. -/
theorem minusPoint_res (dbg : Bool) {t t' : TineTree α} {p : α} (o : One t (.fin p)) (ha : o.a = false)
    (hbc : o.b = true ∨ o.c = true)
    (e : TineTree.minusPoint dbg t (.point (.incl p)) = .ok t') :
    t' = if o.b && o.c then o.A ++ Tine.point (.incl p) :: o.B else o.A ++ o.B := by
  obtain ⟨A, B, b, a, c, eq, fits, ltA, gtB, sA, sB, cA, cB⟩ := o
  have hs := exteriorSplitPoint_eq (p := .point (.incl p)) (pincl_ok p)
    ⟨A, B, b, a, c, eq, fits, ltA, gtB, sA, sB, cA, cB⟩
  have hb := chain_last cA
  have hc := chain_head cB
  have i1 : ∀ x : Tine α, x.Ok → x.key = .fin p → BSet.insert x (A ++ B) = A ++ x :: B :=
    fun x hx hxk => BSet.insert_split hx (by rw [hxk]; exact ltA) (by rw [hxk]; exact gtB)
  simp only [TineTree.minusPoint, hs, hb, hc] at e
  simp only at ha hbc
  subst ha
  show t' = if b && c then A ++ Tine.point (.incl p) :: B else A ++ B
  clear hs hb hc ltA gtB sA sB cA cB eq fits
  cases b <;> cases c <;> cases dbg <;> simp at hbc <;>
    simp (config := {decide := true}) [edge, Tine.key, Tine.inclAt, Tine.minus, Tine.asRef,
      Tine.intoInner, Bound.asRef, dassert, bind, Except.bind, Tine.isLowerBound,
      Tine.isUpperBound, pure, Except.pure, Tine.invert] at e ⊢ <;>
    (try rw [i1 _ (by simp [Tine.Ok]) rfl] at e) <;> exact e.symm

theorem icov_point_after (p : α) : icov (.point p) true (.fin p) = false := by
  simp [icov, Tine.fromRawInterval, cov, Tine.key, Tine.isLowerBound]

theorem point_apart {is : List (RawInterval α)} (hi : ∀ i ∈ is, i.WF) (hp : is.Pairwise SepI) {p : α}
    (h : .point p ∈ is) : ∀ j ∈ is, icov j true (.fin p) = false := by
  obtain ⟨P, S, rfl⟩ := List.append_of_mem h
  intro j hj
  obtain ⟨-, h2, h3⟩ := List.pairwise_append.1 hp
  rw [List.pairwise_cons] at h2
  have hw := hi j hj
  rcases List.mem_append.1 hj with hj | hj
  · obtain ⟨u, l, hu, hl, hs⟩ := h3 j hj _ (.head _)
    cases hl
    refine icov_after hw ?_
    rw [ikey, hu]
    rcases hs with hs | ⟨q, _, h⟩
    · exact hs
    · cases h
  · rcases List.mem_cons.1 hj with rfl | hj
    · exact icov_point_after p
    · obtain ⟨u, l, hu, hl, hs⟩ := h2.1 j hj
      cases hu
      refine icov_before hw hl ?_
      rcases hs with hs | ⟨q, h, _⟩
      · exact hs
      · cases h

/-- If some point cannot be removed properly and the result is a proper tree nevertheless, the result is
wrong at or just after such a point. -/
theorem foldMinus_bad (dbg : Bool) {t t' : TineTree α} (ht : Valid t) (ht' : Valid t')
    (is : List (RawInterval α)) (hi : ∀ i ∈ is, i.WF ∧ i ≠ .empty) (hp : is.Pairwise SepI)
    (e : is.foldlM (TineTree.minusInPlace dbg) t = .ok t')
    (hb : ∃ p, .point p ∈ is ∧ ¬ MinusOk t (.point p)) :
    ∃ p, .point p ∈ is ∧ tcov t false (.fin p) = false ∧ (bef false t (.fin p) && tcov t true (.fin p)) = false ∧
      (tcov t' false (.fin p) = true ∨ (tcov t true (.fin p) = true ∧ tcov t' true (.fin p) = false)) := by
  induction is generalizing t with
  | nil => obtain ⟨p, h, _⟩ := hb; cases h
  | cons i is ih =>
    obtain ⟨w1, w2⟩ := hi i (.head _)
    rw [List.pairwise_cons] at hp
    rw [List.foldlM_cons] at e
    by_cases hm : ∀ p, i = .point p → MinusOk t i
    · obtain ⟨t1, e1, v1, c1, b1, b2⟩ := minusStep dbg ht w1 hm
      rw [e1] at e
      have far : ∀ p, .point p ∈ is → ikey i < .fin p := by
        intro p hj
        obtain ⟨u, l, hu, hl, hs⟩ := hp.1 _ hj
        cases hl
        rw [ikey, hu]
        rcases hs with hs | ⟨q, _, h⟩
        · exact hs
        · cases h
      have same : ∀ k, ikey i < k → (∀ aft, tcov t1 aft k = tcov t aft k) ∧
          bef false t1 k = bef false t k := by
        intro k hk
        refine ⟨fun aft => ?_, b2 k hk⟩
        have : ¬ EndAt i k := fun h => absurd (endAt_le w1 h) (not_le.2 hk)
        rw [c1, icov_after w1 hk]
        simp [this]
      obtain ⟨p, hp1, hp2⟩ := hb
      have hmem : .point p ∈ is := by
        rcases List.mem_cons.1 hp1 with h | h
        · exact absurd (h ▸ hm p h.symm) hp2
        · exact h
      obtain ⟨q, hq, h1, h3, h2⟩ := ih v1 (fun j hj => hi j (.tail _ hj)) hp.2 e ⟨p, hmem, by
        obtain ⟨s1, s2⟩ := same _ (far p hmem)
        simp only [MinusOk] at hp2 ⊢
        rw [s1, s1, s2]; exact hp2⟩
      obtain ⟨s1, s2⟩ := same _ (far q hq)
      rw [s1] at h1 h2
      rw [s1, s2] at h3
      exact ⟨q, .tail _ hq, h1, h3, h2⟩
    · push Not at hm
      obtain ⟨p, rfl, hm⟩ := hm
      obtain ⟨o⟩ := one ht (.fin p)
      obtain ⟨v1, v2, v3⟩ := o.views
      simp only [MinusOk, v1, v2, v3, not_or, Bool.not_eq_true, not_and] at hm
      have hbc : o.b = true ∨ o.c = true := by
        cases hb : o.b
        · cases hc : o.c
          · exact absurd hc (by simpa [hb] using hm.2 hb)
          · exact .inr rfl
        · exact .inl rfl
      refine ⟨p, .head _, by rw [v2, hm.1], ?_⟩
      rw [v1]
      have h0 : TineTree.isEmpty t = false := by
        rcases t with _ | ⟨x, t⟩
        · rw [show bef false ([] : TineTree α) (.fin p) = false from rfl] at v1
          rw [show tcov ([] : TineTree α) true (.fin p) = false from rfl] at v3
          rw [← v1, ← v3] at hbc
          simp at hbc
        · rfl
      cases e1 : TineTree.minusInPlace dbg t (.point p) with
      | error x => rw [e1] at e; cases e
      | ok t1 =>
        rw [e1] at e
        have e2 : TineTree.minusPoint dbg t (.point (.incl p)) = .ok t1 := by
          simpa [TineTree.minusInPlace, h0, RawInterval.isEmpty, RawInterval.isFull, Tine.fromRawInterval]
            using e1
        have r := minusPoint_res dbg o hm.1 hbc e2
        have later : ∀ j ∈ is, j.WF ∧ ∃ l, j.lowerBound = some l ∧ Key.fin p < (Tine.lower l).key := by
          intro j hj
          obtain ⟨u, l, hu, hl, hs⟩ := hp.1 j hj
          cases hu
          refine ⟨(hi j (.tail _ hj)).1, l, hl, ?_⟩
          rcases hs with hs | ⟨q, h, _⟩
          · exact hs
          · cases h
        have hA : ∀ x ∈ o.A, x.Ok ∧ x.key ≤ .fin p := fun x hx => ⟨(o.ltA x hx).1, (o.ltA x hx).2.le⟩
        by_cases hbc' : (o.b && o.c) = true
        · -- a point inside an interval: never a proper tree
          rw [if_pos hbc'] at r
          obtain ⟨D, hD, _⟩ := fr_foldMinus (C := o.A ++ [.point (.incl p)]) (k := .fin p) (by
              intro x hx
              rcases List.mem_append.1 hx with hx | hx
              · exact hA x hx
              · rw [List.mem_singleton] at hx; subst hx; exact ⟨pincl_ok p, le_refl _⟩)
            ⟨o.B, by rw [r]; simp, o.gtB⟩ later e
          exfalso
          have hc := ht'.2
          rw [hD, List.append_assoc] at hc
          obtain ⟨m, g1, g2⟩ := chain_append.1 hc
          obtain rfl := chain_fun g1 o.cA
          simp only [Bool.and_eq_true] at hbc'
          rw [hbc'.1] at g2
          exact absurd g2.1 (by simp [Tine.isUpperBound])
        · rw [if_neg hbc'] at r
          obtain ⟨D, hD, hg⟩ := fr_foldMinus (C := o.A) (k := .fin p) hA ⟨o.B, r, o.gtB⟩ later e
          have hcov : ∀ aft, tcov t' aft (.fin p) = o.b := fun aft => by
            rw [hD, tcov, cov_lt o.ltA o.cA, cov_gt hg]
          rw [hcov, hcov, v3]
          refine ⟨Bool.eq_false_iff.2 hbc', ?_⟩
          cases hb : o.b
          · rw [hb] at hbc
            right
            exact ⟨by simpa using hbc, rfl⟩
          · exact .inl rfl

section Dense
variable [DenselyOrdered α] [NoMinOrder α] [NoMaxOrder α] [Nonempty α]

/-- On dense orders a right result means that every single point could be removed properly. -/
theorem minus_dense (dbg : Bool) {a b t : TineTree α} (ha : Valid a) (hb : Valid b) (ht : Valid t)
    (e : TineTree.minus dbg a b = .ok t)
    (h : ∀ x, tcov t false (.fin x) = (tcov a false (.fin x) && !tcov b false (.fin x))) {p : α}
    (hp : .point p ∈ pieces none b) : MinusOk a (.point p) := by
  by_contra hn
  rw [TineTree.minus, fold_eq dbg _ hb] at e
  obtain ⟨q, hq, h1, -, h2⟩ := foldMinus_bad dbg ha ht _ (pieces_wf hb.1).1 (pieces_sep hb.1).1 e ⟨p, hp, hn⟩
  rcases h2 with h2 | ⟨h2, h3⟩
  · rw [h, h1] at h2; cases h2
  · have h4 : tcov b true (.fin q) = false := by
      have := (pieces_cov true (.fin q) hb.1).1 hb.2
      rw [tcov, ← this, List.any_eq_false]
      intro j hj
      rw [point_apart (fun i hi => ((pieces_wf hb.1).1 i hi).1) (pieces_sep hb.1).1 hq j hj]
      simp
    obtain ⟨y, g1, g2⟩ := near_right ha q
    obtain ⟨y', g3, g4⟩ := near_right hb q
    obtain ⟨y'', g5, g6⟩ := near_right ht q
    obtain ⟨z, z1, z2⟩ := exists_between (lt_min g1 (lt_min g3 g5))
    have z3 := z2.trans_le (min_le_left _ _)
    have z4 := z2.trans_le ((min_le_right _ _).trans (min_le_left _ _))
    have z5 := z2.trans_le ((min_le_right _ _).trans (min_le_right _ _))
    have := h z
    rw [g2 z z1 z3, g4 z z1 z4, g6 z z1 z5, h2, h3, h4] at this
    cases this

end Dense

end TT
end NI
