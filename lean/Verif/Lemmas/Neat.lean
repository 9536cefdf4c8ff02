import Verif.Lemmas.TreeMore

/-!
# Trees of any history in debug builds

`minus`, `minus_in_place` and `intersect_in_place` can leave a tree whose tines do not alternate.  Whatever
operations come next, the tines stay in increasing order and in any class of tines that the operations on
tines do not leave (`Closed`, `Neat`).  A debug build notices tines that do not alternate by iterating
forward over the tree and over its complement.
-/

set_option linter.unusedSimpArgs false
set_option linter.unusedVariables false
set_option linter.unusedSectionVars false

namespace NI

namespace TT
variable {α : Type} [LinearOrder α]
open BSet (Lt Gt At)

/-- A class of tines that no tree operation leaves. -/
structure Closed (P : Tine α → Prop) : Prop where
  ok : ∀ x, P x → x.Ok
  low : P (.lower .inf)
  up : P (.upper .inf)
  inv : ∀ x m, P x → x.invert = .ok m → P m
  union : ∀ dbg s o m, P s → P o → o.cmp s = .eq → s.union dbg o = .ok (some m) → P m
  intersect : ∀ dbg s o m, P s → P o → o.cmp s = .eq → s.intersect dbg o = .ok (some m) → P m
  minus : ∀ dbg s o m, P s → P o → o.cmp s = .eq → s.minus dbg o = .ok (some m) → P m
  half : ∀ x, P x → (x.isLowerBound = true → P (.lower x.intoInner)) ∧
    (x.isUpperBound = true → P (.upper x.intoInner))
  point : ∀ p, P (.point (.incl p)) ↔ P (.lower (.incl p)) ∧ P (.upper (.incl p))

/-- Increasing tines of the class. -/
def Neat (P : Tine α → Prop) (t : List (Tine α)) : Prop := Sorted t ∧ ∀ x ∈ t, P x

variable {P : Tine α → Prop}

theorem Neat.filter {t : List (Tine α)} (h : Neat P t) (p : Tine α → Bool) : Neat P (t.filter p) :=
  ⟨⟨fun x hx => h.1.1 x (List.mem_filter.1 hx).1, h.1.2.filter _⟩, fun x hx => h.2 x (List.mem_filter.1 hx).1⟩

theorem neat_nil : Neat P ([] : List (Tine α)) := ⟨sorted_nil, fun _ h => by cases h⟩

theorem Neat.insert {t : List (Tine α)} (c : Closed P) (h : Neat P t) {x : Tine α} (hx : P x) :
    Neat P (BSet.insert x t) := by
  have hm : ∀ t : List (Tine α), ∀ y ∈ BSet.insert x t, y = x ∨ y ∈ t := by
    intro t
    induction t with
    | nil => intro y hy; exact .inl (List.mem_singleton.1 hy)
    | cons z t ih =>
      intro y hy
      unfold BSet.insert at hy
      split at hy
      · exact List.mem_cons.1 hy
      · exact .inr hy
      · rcases List.mem_cons.1 hy with rfl | hy
        · exact .inr (by simp)
        · rcases ih y hy with h | h
          · exact .inl h
          · exact .inr (by simp [h])
  refine ⟨?_, fun y hy => (hm t y hy).elim (· ▸ hx) (h.2 y)⟩
  have hs := h.1
  clear h
  induction t with
  | nil => exact ⟨by simpa [BSet.insert] using c.ok x hx, by simp [BSet.insert]⟩
  | cons z t ih =>
    obtain ⟨h1, h2, h3⟩ := sorted_cons.1 hs
    unfold BSet.insert
    have hc := Tine.cmp_lt (c.ok x hx) h1
    rcases lt_trichotomy x.key z.key with hk | hk | hk
    · rw [hc hk]
      refine sorted_cons.2 ⟨c.ok x hx, ?_, hs⟩
      intro y hy
      rcases List.mem_cons.1 hy with rfl | hy
      · exact ⟨h1, hk⟩
      · exact ⟨(h2 y hy).1, hk.trans (h2 y hy).2⟩
    · rw [Tine.cmp_eq (c.ok x hx) h1 hk]
      exact hs
    · rw [Tine.cmp_gt (c.ok x hx) h1 hk]
      refine sorted_cons.2 ⟨h1, ?_, ih h3⟩
      intro y hy
      rcases hm t y hy with rfl | hy
      · exact ⟨c.ok _ hx, hk⟩
      · exact h2 y hy

theorem Neat.insertIf {t : List (Tine α)} (c : Closed P) (h : Neat P t) {x : Tine α} (hx : P x) (b : Bool) :
    Neat P (TineTree.insertIf b x t) := by
  cases b
  · exact h
  · exact h.insert c hx

theorem Neat.taken {t : List (Tine α)} (h : Neat P t) {x y : Tine α} (e : BSet.taken x t = some y) :
    P y ∧ x.cmp y = .eq :=
  ⟨h.2 y (List.mem_of_find?_eq_some e), by simpa using List.find?_some e⟩

/-- What remains of a tree on both sides of a cut. -/
theorem Neat.cut {t : List (Tine α)} (h : Neat P t) {x : Tine α} (hx : x.Ok) (p q : Tine α → Bool)
    (hp : ∀ y, p y = true → x.cmp y = .gt) (hq : ∀ y, q y = true → x.cmp y ≠ .gt) :
    Neat P (BSet.append (t.filter p) (t.filter q)) := by
  refine ⟨sorted_append.2 ⟨(h.filter p).1, (h.filter q).1, fun a ha b hb => ?_⟩, fun y hy =>
    (List.mem_append.1 hy).elim ((h.filter p).2 y) ((h.filter q).2 y)⟩
  obtain ⟨ha, ha'⟩ := List.mem_filter.1 ha
  obtain ⟨hb, hb'⟩ := List.mem_filter.1 hb
  have g1 := hp a ha'
  have g2 := hq b hb'
  have oa := h.1.1 a ha
  have ob := h.1.1 b hb
  have k1 : a.key < x.key := by
    rcases lt_trichotomy x.key a.key with hk | hk | hk
    · rw [Tine.cmp_lt hx oa hk] at g1; cases g1
    · rw [Tine.cmp_eq hx oa hk] at g1; cases g1
    · exact hk
  have k2 : x.key ≤ b.key := by
    by_contra hk
    exact g2 (Tine.cmp_gt hx ob (not_le.1 hk))
  exact k1.trans_le k2

theorem Closed.orInv (c : Closed P) {b : Bool} {x m : Tine α} (hx : P x) (h : TineTree.orInvert b x = .ok m) :
    P m := by
  cases b
  · exact c.inv _ _ hx h
  · simp only [TineTree.orInvert, if_true, Except.ok.injEq] at h
    subst h; exact hx

theorem neat_merged (c : Closed P) {dbg : Bool} {t : TineTree α} (ht : Neat P t) {x m : Tine α} (hx : P x)
    (h : (match BSet.taken x t with
      | some y => y.minus dbg x
      | none => .ok (some x) : Except Panic (Option (Tine α))) = .ok (some m)) : P m := by
  cases e : BSet.taken x t with
  | none => rw [e] at h; simp only [Except.ok.injEq, Option.some.injEq] at h; subst h; exact hx
  | some y => rw [e] at h; exact c.minus _ _ _ _ (ht.taken e).1 hx (ht.taken e).2 h

theorem neat_mergedI (c : Closed P) {dbg : Bool} {t : TineTree α} (ht : Neat P t) {x m : Tine α} (hx : P x)
    (h : (match BSet.taken x t with
      | some y => y.intersect dbg x
      | none => .ok (some x) : Except Panic (Option (Tine α))) = .ok (some m)) : P m := by
  cases e : BSet.taken x t with
  | none => rw [e] at h; simp only [Except.ok.injEq, Option.some.injEq] at h; subst h; exact hx
  | some y => rw [e] at h; exact c.intersect _ _ _ _ (ht.taken e).1 hx (ht.taken e).2 h

theorem neat_minusPoint (c : Closed P) {dbg : Bool} {t t' : TineTree α} (ht : Neat P t) {p : Tine α} (hp : P p)
    (e : TineTree.minusPoint dbg t p = .ok t') : Neat P t' := by
  have f4 : Neat P (BSet.append (BSet.below p (BSet.remove p t)) (BSet.above p (BSet.remove p t))) :=
    (ht.filter _).cut (c.ok _ hp) _ _ (by simp) (by simp)
  simp only [TineTree.minusPoint, TineTree.exteriorSplitPoint, bind, Except.bind] at e
  split at e
  · cases e
  · rename_i m hm
    split at e
    · cases e; exact f4
    · rename_i q
      have hq := neat_merged c ht hp hm
      split at e
      · cases hi : q.invert with
        | error x => rw [hi] at e; cases e
        | ok q' => rw [hi] at e; cases e; exact f4.insert c (c.inv _ _ hq hi)
      · unfold dassert at e
        split at e
        · cases e
        · cases e; exact f4.insert c hq
      · unfold dassert at e
        split at e
        · cases e
        · cases e; exact f4.insert c hq
      · cases e; exact f4

theorem neat_minusProper (c : Closed P) {dbg : Bool} {t t' : TineTree α} (ht : Neat P t) {l u : Tine α} (hl : P l) (hu : P u)
    (e : TineTree.minusProper dbg t l u = .ok t') : Neat P t' := by
  have f1 : Neat P (BSet.remove l t) := ht.filter _
  have f6 : Neat P (BSet.append (BSet.below l (BSet.remove u (BSet.remove l t)))
      (BSet.above u (BSet.above l (BSet.remove u (BSet.remove l t))))) :=
    (by
    simp only [BSet.above, BSet.below, List.filter_filter]
    exact (f1.filter _).cut (c.ok _ hl) _ _ (by simp) (by simp))
  simp only [TineTree.minusProper, TineTree.exteriorSplit, bind, Except.bind] at e
  split at e
  · cases e
  rename_i mL hmL
  split at e
  · cases e
  rename_i mU hmU
  have kL : ∀ m, mL = some m → P m := by
    rintro m rfl; exact neat_merged c ht hl hmL
  have kU : ∀ m, mU = some m → P m := by
    rintro m rfl; exact neat_merged c f1 hu hmU
  clear hmL hmU
  split at e
  · split at e
    · cases e
    rename_i a' ha'
    split at e
    · cases e
    rename_i b' hb'
    cases e
    exact (f6.insert c (c.orInv (kL _ rfl) ha')).insert c (c.orInv (kU _ rfl) hb')
  · split at e
    · cases e
    rename_i a' ha'
    have f7 := f6.insert c (c.orInv (kL _ rfl) ha')
    split at e
    · cases e
      exact f7.insert c (kU _ rfl)
    · cases e; exact f7
  · split at e
    · cases e
    rename_i b' hb'
    have f7 := f6.insert c (c.orInv (kU _ rfl) hb')
    split at e
    · cases e
      exact f7.insert c (kL _ rfl)
    · cases e; exact f7
  · cases e
    exact (f6.insertIf c (kL _ rfl) _).insertIf c (kU _ rfl) _
  · cases e
    exact f6.insertIf c (kL _ rfl) _
  · cases e
    exact f6.insertIf c (kU _ rfl) _
  · cases e; exact f6
  · cases e

theorem neat_intersectProper (c : Closed P) {dbg : Bool} {t t' : TineTree α} (ht : Neat P t) {l u : Tine α} (hl : P l)
    (hu : P u) (e : TineTree.intersectProper dbg t l u = .ok t') : Neat P t' := by
  have f1 : Neat P (BSet.remove l t) := ht.filter _
  have f6 : Neat P (BSet.below u (BSet.above l (BSet.remove u (BSet.remove l t)))) :=
    ((f1.filter _).filter _).filter _
  simp only [TineTree.intersectProper, TineTree.interiorSplit, bind, Except.bind] at e
  split at e
  · cases e
  rename_i r hr
  split at hr
  · cases hr
  split at hr
  · cases hr
  cases hr
  split at e
  · cases e
  rename_i mL hmL
  split at e
  · cases e
  rename_i mU hmU
  have kL : ∀ m, mL = some m → P m := by
    rintro m rfl; exact neat_mergedI c ht hl hmL
  have kU : ∀ m, mU = some m → P m := by
    rintro m rfl; exact neat_mergedI c f1 hu hmU
  clear hmL hmU
  split at e
  · cases e
  split at e
  · cases e
  split at e
  · cases e; exact (f6.insert c (kL _ rfl)).insert c (kU _ rfl)
  · cases e; exact (f6.insert c (kL _ rfl)).insert c (kU _ rfl)
  · cases e; exact f6.insert c (kL _ rfl)
  · cases e; exact f6.insert c (kU _ rfl)
  · cases e; exact f6
  · cases e

theorem neat_minusInPlace (c : Closed P) {dbg : Bool} {t t' : TineTree α} (ht : Neat P t) {i : RawInterval α}
    (hi : (∀ x ∈ Tine.fromRawInterval i, P x)) (e : TineTree.minusInPlace dbg t i = .ok t') : Neat P t' := by
  unfold TineTree.minusInPlace at e
  split at e
  · cases e; exact ht
  split at e
  · cases e; exact neat_nil
  split at e
  · cases e; exact ht
  · rename_i h; exact neat_minusPoint c ht (hi _ (by rw [h]; simp)) e
  · rename_i h; exact neat_minusProper c ht (hi _ (by rw [h]; simp)) (hi _ (by rw [h]; simp)) e
  · cases e

theorem neat_intersectInPlace (c : Closed P) {dbg : Bool} {t t' : TineTree α} (ht : Neat P t) {i : RawInterval α}
    (hi : (∀ x ∈ Tine.fromRawInterval i, P x)) (e : TineTree.intersectInPlace dbg t i = .ok t') : Neat P t' := by
  unfold TineTree.intersectInPlace at e
  split at e
  · cases e; exact ht
  split at e
  · cases e; exact neat_nil
  have one : ∀ (p : α), P (Tine.point (.incl p)) → ∀ x, (do
      if ← TineTree.contains dbg t p then .ok (TineTree.fromRawInterval (.point p)) else .ok TineTree.new) =
        Except.ok x → Neat P x := by
    intro p hp x hx
    cases hc : TineTree.contains dbg t p with
    | error y => rw [hc] at hx; cases hx
    | ok b =>
      rw [hc] at hx
      cases b <;> cases hx
      · exact neat_nil
      · exact ⟨⟨by simpa [TineTree.fromRawInterval, BSet.ofTines, Tine.fromRawInterval] using c.ok _ hp, by simp [TineTree.fromRawInterval, BSet.ofTines, Tine.fromRawInterval]⟩, by simpa [TineTree.fromRawInterval, BSet.ofTines, Tine.fromRawInterval] using hp⟩
  split at e
  · exact one _ (hi _ (by simp [Tine.fromRawInterval])) _ e
  split at e
  · cases e; exact neat_nil
  · rename_i h; exact one _ (hi _ (by rw [h]; simp)) _ e
  · rename_i h; exact neat_intersectProper c ht (hi _ (by rw [h]; simp)) (hi _ (by rw [h]; simp)) e
  · cases e

theorem neat_foldMinus (c : Closed P) {dbg : Bool} {t t' : TineTree α} (ht : Neat P t) {is : List (RawInterval α)}
    (hi : ∀ i ∈ is, (∀ x ∈ Tine.fromRawInterval i, P x))
    (e : is.foldlM (TineTree.minusInPlace dbg) t = .ok t') : Neat P t' := by
  induction is generalizing t with
  | nil => cases e; exact ht
  | cons i is ih =>
    rw [List.foldlM_cons] at e
    cases e1 : TineTree.minusInPlace dbg t i with
    | error x => rw [e1] at e; cases e
    | ok t1 =>
      rw [e1] at e
      exact ih (neat_minusInPlace c ht (hi i (.head _)) e1) (fun j hj => hi j (.tail _ hj)) e

theorem neat_mergedU (c : Closed P) {dbg : Bool} {t : TineTree α} (ht : Neat P t) {x m : Tine α} (hx : P x)
    (h : (match BSet.taken x t with
      | some y => y.union dbg x
      | none => .ok (some x) : Except Panic (Option (Tine α))) = .ok (some m)) : P m := by
  cases e : BSet.taken x t with
  | none => rw [e] at h; simp only [Except.ok.injEq, Option.some.injEq] at h; subst h; exact hx
  | some y => rw [e] at h; exact c.union _ _ _ _ (ht.taken e).1 hx (ht.taken e).2 h

theorem neat_unionPoint (c : Closed P) {dbg : Bool} {t t' : TineTree α} (ht : Neat P t) {p : Tine α} (hp : P p)
    (e : TineTree.unionPoint dbg t p = .ok t') : Neat P t' := by
  have f4 : Neat P (BSet.append (BSet.below p (BSet.remove p t)) (BSet.above p (BSet.remove p t))) :=
    (ht.filter _).cut (c.ok _ hp) _ _ (by simp) (by simp)
  simp only [TineTree.unionPoint, TineTree.exteriorSplitPoint, bind, Except.bind] at e
  split at e
  · cases e
  · rename_i m hm
    split at e
    · cases e; exact f4
    · rename_i q
      have hq := neat_mergedU c ht hp hm
      split at e
      · cases e; exact f4
      · unfold dassert at e
        split at e
        · cases e
        · cases e; exact f4.insert c hq
      · unfold dassert at e
        split at e
        · cases e
        · cases e; exact f4.insert c hq
      · cases e; exact f4.insert c hq

theorem neat_unionProper (c : Closed P) {dbg : Bool} {t t' : TineTree α} (ht : Neat P t) {l u : Tine α}
    (hl : P l) (hu : P u) (e : TineTree.unionProper dbg t l u = .ok t') : Neat P t' := by
  have f1 : Neat P (BSet.remove l t) := ht.filter _
  have f6 : Neat P (BSet.append (BSet.below l (BSet.remove u (BSet.remove l t)))
      (BSet.above u (BSet.above l (BSet.remove u (BSet.remove l t))))) := by
    simp only [BSet.above, BSet.below, List.filter_filter]
    exact (f1.filter _).cut (c.ok _ hl) _ _ (by simp) (by simp)
  simp only [TineTree.unionProper, TineTree.exteriorSplit, bind, Except.bind] at e
  split at e
  · cases e
  rename_i mL hmL
  split at e
  · cases e
  rename_i mU hmU
  have kL : ∀ m, mL = some m → P m := by
    rintro m rfl; exact neat_mergedU c ht hl hmL
  have kU : ∀ m, mU = some m → P m := by
    rintro m rfl; exact neat_mergedU c f1 hu hmU
  clear hmL hmU
  split at e
  · cases e
  split at e
  · cases e
  split at e
  · cases e; exact (f6.insertIf c (kL _ rfl) _).insertIf c (kU _ rfl) _
  · split at e
    · cases e
    cases e; exact (f6.insertIf c (kL _ rfl) _).insert c (kU _ rfl)
  · split at e
    · cases e
    cases e; exact (f6.insert c (kL _ rfl)).insertIf c (kU _ rfl) _
  · split at e
    · cases e
    split at e
    · cases e
    cases e; exact (f6.insert c (kL _ rfl)).insert c (kU _ rfl)
  · cases e; exact f6.insertIf c (kL _ rfl) _
  · split at e
    · cases e
    cases e; exact f6.insert c (kL _ rfl)
  · cases e; exact f6.insertIf c (kU _ rfl) _
  · split at e
    · cases e
    cases e; exact f6.insert c (kU _ rfl)
  · cases e; exact f6
  · cases e

theorem neat_full (c : Closed P) : Neat P (TineTree.fromRawInterval (.full : RawInterval α)) := by
  refine ⟨?_, ?_⟩
  · rw [tree_fromRaw (i := .full) trivial]; exact (fromRaw_valid (i := .full) trivial).1
  · rw [tree_fromRaw (i := .full) trivial]
    simp only [Tine.fromRawInterval, List.mem_cons, List.not_mem_nil, or_false, forall_eq_or_imp, forall_eq]
    exact ⟨c.low, c.up⟩

theorem neat_unionInPlace (c : Closed P) {dbg : Bool} {t t' : TineTree α} (ht : Neat P t) {i : RawInterval α}
    (hi : ∀ x ∈ Tine.fromRawInterval i, P x) (e : TineTree.unionInPlace dbg t i = .ok t') : Neat P t' := by
  unfold TineTree.unionInPlace at e
  split at e
  · cases e; exact neat_full c
  split at e
  · cases e; exact ht
  · rename_i h; exact neat_unionPoint c ht (hi _ (by rw [h]; simp)) e
  · rename_i h; exact neat_unionProper c ht (hi _ (by rw [h]; simp)) (hi _ (by rw [h]; simp)) e
  · cases e

theorem neat_complementRest (c : Closed P) {ts : List (Tine α)} (hts : ∀ x ∈ ts, P x) {t t' : TineTree α}
    (ht : Neat P t) (e : TineTree.complementRest ts t = .ok t') : Neat P t' := by
  induction ts generalizing t with
  | nil => cases e; exact ht
  | cons x ts ih =>
    simp only [TineTree.complementRest, bind, Except.bind] at e
    cases hx : x.invert with
    | error y => rw [hx] at e; cases e
    | ok y =>
      rw [hx] at e
      exact ih (fun z hz => hts z (.tail _ hz)) (ht.insert c (c.inv _ _ (hts x (.head _)) hx)) e

theorem neat_complement (c : Closed P) {dbg : Bool} {t t' : TineTree α} (ht : Neat P t)
    (e : TineTree.complement dbg t = .ok t') : Neat P t' := by
  unfold TineTree.complement at e
  split at e
  · cases e; exact neat_full c
  · rename_i x
    simp only [bind, Except.bind] at e
    cases hx : x.invert with
    | error y => rw [hx] at e; cases e
    | ok y =>
      rw [hx] at e
      unfold dassert at e
      simp only at e
      split at e
      · cases e
      · cases e
        exact ((neat_nil.insert c c.low).insert c (c.inv _ _ (ht.2 x (by simp)) hx)).insert c c.up
  · rename_i a b r
    simp only [bind, Except.bind] at e
    split at e
    · cases e
    rename_i m1 h1
    have n1 : Neat P m1 := by
      split at h1
      · cases h1; exact neat_nil
      · cases hx : a.invert with
        | error y => rw [hx] at h1; cases h1
        | ok y =>
          rw [hx] at h1; cases h1
          exact (neat_nil.insert c c.low).insert c (c.inv _ _ (ht.2 a (by simp)) hx)
    split at e
    · cases e
    rename_i m2 h2
    have n2 : Neat P m2 := by
      split at h2
      · cases h2; exact n1
      · rename_i x _ hl
        cases hx : x.invert with
        | error y => rw [hx] at h2; cases h2
        | ok y =>
          rw [hx] at h2; cases h2
          exact (n1.insert c c.up).insert c (c.inv _ _ (ht.2 x (by
            exact List.mem_cons_of_mem _ (List.mem_of_getLast? hl))) hx)
      · cases h2
    exact neat_complementRest c (fun x hx => ht.2 x (List.mem_cons_of_mem _ ((List.dropLast_subset _) hx))) n2 e

theorem Closed.raw (c : Closed P) {i : RawInterval α} {l u : Bound α} (hl : i.lowerBound = some l)
    (hu : i.upperBound = some u) :
    (∀ x ∈ Tine.fromRawInterval i, P x) ↔ P (.lower l) ∧ P (.upper u) := by
  cases i <;> simp only [RawInterval.lowerBound, RawInterval.upperBound, Option.some.injEq, reduceCtorEq] at hl hu <;>
    subst hl <;> subst hu <;>
    simp only [Tine.fromRawInterval, List.mem_cons, List.not_mem_nil, or_false, forall_eq_or_imp, forall_eq]
  exact c.point _

theorem Closed.new (c : Closed P) {l u : Bound α} (hl : P (.lower l)) (hu : P (.upper u)) (h : l.Compat u) :
    ∀ x ∈ Tine.fromRawInterval (RawInterval.new l u), P x :=
  (c.raw (RawInterval.new_of_compat h).1 (RawInterval.new_of_compat h).2.1).2 ⟨hl, hu⟩

theorem Closed.isect (c : Closed P) {i j : RawInterval α} (hi : ∀ x ∈ Tine.fromRawInterval i, P x)
    (hj : ∀ x ∈ Tine.fromRawInterval j, P x) : ∀ x ∈ Tine.fromRawInterval (i.intersect j), P x := by
  have hz : ∀ x ∈ Tine.fromRawInterval (.empty : RawInterval α), P x := by simp [Tine.fromRawInterval]
  rcases i.bounds_cases with ⟨rfl, -⟩ | ⟨l, u, h1, h2, -⟩
  · exact hz
  rcases j.bounds_cases with ⟨rfl, -⟩ | ⟨l', u', h3, h4, -⟩
  · cases i <;> exact hz
  rw [c.raw h1 h2] at hi
  rw [c.raw h3 h4] at hj
  rw [RawInterval.intersect_of_bounds h1 h2 h3 h4]
  split_ifs with hc
  swap
  · exact hz
  refine c.new ?_ ?_ hc
  · rcases l with l | l | _ <;> rcases l' with l' | l' | _ <;> simp only [Bound.greatestIntersect] <;>
      (try split_ifs) <;> first | exact hi.1 | exact hj.1
  · rcases u with l | l | _ <;> rcases u' with l' | l' | _ <;> simp only [Bound.leastIntersect] <;>
      (try split_ifs) <;> first | exact hi.2 | exact hj.2

/-- The tines an iterator still holds. -/
def Held (P : Tine α → Prop) (it : TineIter α) : Prop :=
  Neat P (it.savedLower.toList ++ it.tines) ∧ it.savedUpper = none

theorem Neat.tail {x : Tine α} {t : List (Tine α)} (h : Neat P (x :: t)) : Neat P t :=
  ⟨(sorted_cons.1 h.1).2.2, fun y hy => h.2 y (.tail _ hy)⟩

theorem nextWith_held (c : Closed P) {lower : Tine α} {ts : List (Tine α)} (h : Neat P (lower :: ts))
    {i : RawInterval α} {it' : TineIter α} (e : TineIter.nextWith true lower ⟨ts, none, none⟩ = .ok (i, it')) :
    Held P it' ∧ ∀ x ∈ Tine.fromRawInterval i, P x := by
  unfold TineIter.nextWith at e
  split at e
  · cases e; exact ⟨⟨h.tail, rfl⟩, by simpa [Tine.fromRawInterval] using h.2 _ (.head _)⟩
  · simp only [dassert, bind, Except.bind, Bool.true_and] at e
    split at e
    · cases e
    · rename_i _ _ hlow
      have hlow : lower.isLowerBound = true := by
        revert hlow; cases lower.isLowerBound <;> simp
      cases ts with
      | nil => cases e
      | cons u ts =>
        simp only at e
        split at e
        · cases e
        · rename_i _ _ hup
          have hup : u.isUpperBound = true := by
            revert hup; cases u.isUpperBound <;> simp
          cases e
          have hk : lower.key < u.key := ((sorted_cons.1 h.1).2.1 u (.head _)).2
          have hcomp : lower.intoInner.Compat u.intoInner := by
            have o1 := h.1.1 lower (.head _)
            have o2 := h.1.1 u (.tail _ (.head _))
            rcases lower with (a | a | _) | (a | a | _) | (a | a | _) <;>
              simp [Tine.isLowerBound] at hlow <;>
              rcases u with (b | b | _) | (b | b | _) | (b | b | _) <;>
              simp [Tine.isUpperBound] at hup <;>
              first
              | exact absurd rfl o1
              | exact absurd rfl o2
              | simp_all [Tine.key, Bound.Compat, Tine.intoInner, le_of_lt]
          refine ⟨?_, c.new ((c.half _ (h.2 _ (.head _))).1 hlow) ((c.half _ (h.2 _ (.tail _ (.head _)))).2 hup) hcomp⟩
          split
          · exact ⟨h.tail, rfl⟩
          · exact ⟨h.tail.tail, rfl⟩

theorem next_held (c : Closed P) {it : TineIter α} (h : Held P it)
    {i : Option (RawInterval α)} {it' : TineIter α} (e : it.next true = .ok (i, it')) :
    Held P it' ∧ ∀ j, i = some j → ∀ x ∈ Tine.fromRawInterval j, P x := by
  obtain ⟨ts, sl, su⟩ := it
  obtain ⟨h, rfl : su = none⟩ := h
  cases sl with
  | some lower =>
    simp only [TineIter.next, bind, Except.bind] at e
    cases hn : TineIter.nextWith true lower ⟨ts, none, none⟩ with
    | error y => rw [hn] at e; cases e
    | ok r =>
      rw [hn] at e
      cases e
      have := nextWith_held c h hn
      exact ⟨this.1, fun j hj => by cases hj; exact this.2⟩
  | none =>
    cases ts with
    | nil => cases e; exact ⟨⟨h, rfl⟩, fun j hj => by cases hj⟩
    | cons lower ts =>
      simp only [TineIter.next, bind, Except.bind] at e
      cases hn : TineIter.nextWith true lower ⟨ts, none, none⟩ with
      | error y => rw [hn] at e; cases e
      | ok r =>
        rw [hn] at e
        cases e
        have := nextWith_held c h hn
        exact ⟨this.1, fun j hj => by cases hj; exact this.2⟩

theorem start_held {t : TineTree α} (h : Neat P t) : Held P (TineIter.start t) := ⟨h, rfl⟩

theorem fold_held (c : Closed P) {β : Type} (Q : β → Prop) {f : β → RawInterval α → Except Panic β}
    (hf : ∀ b i b', Q b → (∀ x ∈ Tine.fromRawInterval i, P x) → f b i = .ok b' → Q b') (n : Nat)
    {it : TineIter α} (h : Held P it) {a b : β} (ha : Q a) (e : TineIter.foldAux true f n it a = .ok b) : Q b := by
  induction n generalizing it a with
  | zero => cases e; exact ha
  | succ n ih =>
    simp only [TineIter.foldAux, bind, Except.bind] at e
    cases hn : it.next true with
    | error y => rw [hn] at e; cases e
    | ok r =>
      rw [hn] at e
      obtain ⟨i, it'⟩ := r
      have hh := next_held c h hn
      cases i with
      | none => cases e; exact ha
      | some i =>
        simp only at e
        cases hi : f a i with
        | error y => rw [hi] at e; cases e
        | ok a' =>
          rw [hi] at e
          exact ih hh.1 (hf a i a' ha (hh.2 i rfl) hi) e

theorem neat_union (c : Closed P) {a b t' : TineTree α} (ha : Neat P a) (hb : Neat P b)
    (e : TineTree.union true a b = .ok t') : Neat P t' :=
  fold_held c (Neat P) (fun _ _ _ h hi e => neat_unionInPlace c h hi e) _ (start_held hb) ha e

theorem neat_minus (c : Closed P) {a b t' : TineTree α} (ha : Neat P a) (hb : Neat P b)
    (e : TineTree.minus true a b = .ok t') : Neat P t' :=
  fold_held c (Neat P) (fun _ _ _ h hi e => neat_minusInPlace c h hi e) _ (start_held hb) ha e

theorem neat_segment (c : Closed P) {s : RawInterval α} (hs : ∀ x ∈ Tine.fromRawInterval s, P x) (n : Nat)
    {o : TineIter α} (ho : Held P o) {acc : TineTree α} (ha : Neat P acc) {o' : Option (TineIter α)}
    {acc' : TineTree α} (e : TineTree.intersectSegment true s n o acc = .ok (o', acc')) :
    Neat P acc' ∧ ∀ o1, o' = some o1 → Held P o1 := by
  induction n generalizing o acc with
  | zero => cases e; exact ⟨ha, fun _ h => by cases h⟩
  | succ n ih =>
    simp only [TineTree.intersectSegment, bind, Except.bind] at e
    cases hn : o.next true with
    | error y => rw [hn] at e; cases e
    | ok r =>
      rw [hn] at e
      obtain ⟨i, o1⟩ := r
      have hh := next_held c ho hn
      cases i with
      | none => cases e; exact ⟨ha, fun _ h => by cases h⟩
      | some i =>
        simp only at e
        split at e
        · cases e; exact ⟨ha, fun _ h => by cases h; exact hh.1⟩
        · cases hu : TineTree.unionInPlace true acc (s.intersect i) with
          | error y => rw [hu] at e; cases e
          | ok acc1 =>
            rw [hu] at e
            exact ih hh.1 (neat_unionInPlace c ha (c.isect hs (hh.2 i rfl)) hu) e

theorem neat_loop (c : Closed P) (n : Nat) {s o : TineIter α} (hs : Held P s) (ho : Held P o)
    {acc t' : TineTree α} (ha : Neat P acc) (e : TineTree.intersectLoop true n s o acc = .ok t') : Neat P t' := by
  induction n generalizing s o acc with
  | zero => cases e; exact ha
  | succ n ih =>
    simp only [TineTree.intersectLoop, bind, Except.bind] at e
    cases hn : s.next true with
    | error y => rw [hn] at e; cases e
    | ok r =>
      rw [hn] at e
      obtain ⟨i, s1⟩ := r
      have hh := next_held c hs hn
      cases i with
      | none => cases e; exact ha
      | some i =>
        simp only at e
        cases hg : TineTree.intersectSegment true i o.size o acc with
        | error y => rw [hg] at e; cases e
        | ok r =>
          rw [hg] at e
          obtain ⟨o', acc'⟩ := r
          obtain ⟨g1, g2⟩ := neat_segment c (hh.2 i rfl) _ ho ha hg
          cases o' with
          | none => cases e; exact g1
          | some o' => exact ih hh.1 (g2 _ rfl) g1 e

theorem neat_intersect (c : Closed P) {a b t' : TineTree α} (ha : Neat P a) (hb : Neat P b)
    (e : TineTree.intersect true a b = .ok t') : Neat P t' :=
  neat_loop c _ (start_held ha) (start_held hb) neat_nil e

/-! ## Iteration and improper trees -/

/-- What forward iteration of a debug build checks: an exclusion is taken for a lower bound. -/
def Loose : Bool → List (Tine α) → Prop
  | s, [] => s = false
  | false, x :: ts => (∃ p, x = .point (.incl p)) ∧ Loose false ts ∨ x.isLowerBound = true ∧ Loose true ts
  | true, x :: ts => x.isUpperBound = true ∧ Loose x.isPointExclude ts

theorem foldAux_loose {β : Type} {f : β → RawInterval α → Except Panic β} (n : Nat) {ts : List (Tine α)}
    {sl : Option (Tine α)} (hs : ∀ x, sl = some x → x.isPointExclude = true) (hn : ts.length < n) {a b : β}
    (e : TineIter.foldAux true f n ⟨ts, sl, none⟩ a = .ok b) : Loose sl.isSome ts := by
  induction n generalizing ts sl a with
  | zero => omega
  | succ n ih =>
    have key : ∀ (lower : Tine α) (ts' : List (Tine α)), ts'.length ≤ n → (∀ p, lower ≠ .point (.incl p)) →
        (match TineIter.nextWith true lower ⟨ts', none, none⟩ with
          | .error e => .error e
          | .ok (i, it) => (match f a i with
            | .error e => .error e
            | .ok a => TineIter.foldAux true f n it a) : Except Panic β) = .ok b →
        lower.isLowerBound = true ∧ Loose true ts' := by
      intro lower ts' hn hlp e
      unfold TineIter.nextWith at e
      split at e
      · cases e
      · rename_i i it he
        split at he
        · exact absurd rfl (hlp _)
        · simp only [dassert, bind, Except.bind, Bool.true_and] at he
          split at he
          · cases he
          · rename_i _ _ hlow
            have hlow : lower.isLowerBound = true := by
              revert hlow; cases lower.isLowerBound <;> simp
            refine ⟨hlow, ?_⟩
            cases ts' with
            | nil => cases he
            | cons u ts' =>
              simp only at he
              split at he
              · cases he
              · rename_i _ _ hup
                have hup : u.isUpperBound = true := by
                  revert hup; cases u.isUpperBound <;> simp
                cases he
                refine ⟨hup, ?_⟩
                split at e
                · cases e
                · split at e
                  · rename_i hx
                    rw [hx]
                    exact ih (sl := some u) (fun x h => by cases h; exact hx) (by simp at hn; omega) e
                  · rename_i hx
                    have hx : u.isPointExclude = false := by simpa using hx
                    rw [hx]
                    exact ih (sl := none) (fun x h => by cases h) (by simp at hn; omega) e
    simp only [TineIter.foldAux, TineIter.next, bind, Except.bind] at e
    cases sl with
    | some lower =>
      refine (key lower ts (by omega) ?_ ?_).2
      · rintro p rfl; cases hs _ rfl
      · simp only at e
        cases hw : TineIter.nextWith true lower ⟨ts, none, none⟩ with
        | error y => rw [hw] at e; cases e
        | ok r =>
          obtain ⟨i, it⟩ := r
          rw [hw] at e
          cases hf : f a i with
          | error y => simp [hf] at e
          | ok a' => simpa [hf] using e
    | none =>
      cases ts with
      | nil => rfl
      | cons x ts =>
        simp only at e
        by_cases hx : ∃ p, x = .point (.incl p)
        · obtain ⟨p, rfl⟩ := hx
          refine .inl ⟨⟨p, rfl⟩, ?_⟩
          simp only [TineIter.nextWith] at e
          split at e
          · cases e
          · exact ih (sl := none) (fun x h => by cases h) (by simp at hn; omega) e
        · refine .inr (key x ts (by simp at hn; omega) (fun p h => hx ⟨p, h⟩) ?_)
          cases hw : TineIter.nextWith true x ⟨ts, none, none⟩ with
          | error y => rw [hw] at e; cases e
          | ok r =>
            obtain ⟨i, it⟩ := r
            rw [hw] at e
            cases hf : f a i with
            | error y => simp [hf] at e
            | ok a' => simpa [hf] using e

theorem intervals_loose {t : TineTree α} {is : List (RawInterval α)} (e : TineTree.intervals true t = .ok is) :
    Loose false t :=
  foldAux_loose _ (sl := none) (fun x h => by cases h) (by simp [TineIter.size, TineIter.start]; omega) e

/-- Increasing tines between the ends. -/
theorem sorted_middle {t : List (Tine α)} (h : Sorted t) : ∃ F c d, t = edge .bot false false c ++ F ++
    edge .top d false false ∧ (∀ x ∈ F, Fin x) ∧ Sorted F := by
  have key : ∀ t : List (Tine α), Sorted t → Gt t .bot → ∃ F d, t = F ++ edge .top d false false ∧
      (∀ x ∈ F, Fin x) ∧ Sorted F := by
    intro t
    induction t with
    | nil => exact fun _ _ => ⟨[], false, rfl, by simp, sorted_nil⟩
    | cons x t ih =>
      intro hs hg
      obtain ⟨h1, h2, h3⟩ := sorted_cons.1 hs
      obtain ⟨F, d, e, hF, hsF⟩ := ih h3 fun y hy => hg y (.tail _ hy)
      cases hk : x.key with
      | bot => exact absurd (hg x (.head _)).2 (by rw [hk]; exact lt_irrefl _)
      | top =>
        cases t with
        | nil => exact ⟨[], true, by rw [upper_of_top hk]; rfl, by simp, sorted_nil⟩
        | cons y t => exact absurd (h2 y (.head _)).2 (by rw [hk]; exact Key.not_top_lt _)
      | fin z =>
        refine ⟨x :: F, d, by rw [e]; rfl, ?_, ?_⟩
        · intro y hy
          rcases List.mem_cons.1 hy with rfl | hy
          · exact ⟨z, hk⟩
          · exact hF y hy
        · rw [e] at hs; exact (sorted_append (A := x :: F).1 hs).1
  cases t with
  | nil => exact ⟨[], false, false, rfl, by simp, sorted_nil⟩
  | cons x t =>
    obtain ⟨h1, h2, h3⟩ := sorted_cons.1 h
    by_cases hk : x.key = .bot
    · rw [hk] at h2
      obtain ⟨F, d, e, hF, hsF⟩ := key t h3 h2
      refine ⟨F, true, d, ?_, hF, hsF⟩
      have : x = .lower .inf := by
        rcases x with (a | a | _) | (a | a | _) | (a | a | _) <;> simp_all [Tine.key, Tine.Ok]
      rw [e, this]; rfl
    · obtain ⟨F, d, e, hF, hsF⟩ := key (x :: t) h (fun y hy => by
        have : Key.bot < x.key := by
          cases hx : x.key with
          | bot => exact absurd hx hk
          | _ => simp
        rcases List.mem_cons.1 hy with rfl | hy
        · exact ⟨h1, this⟩
        · exact ⟨(h2 y hy).1, this.trans (h2 y hy).2⟩)
      exact ⟨F, false, d, by rw [e]; rfl, hF, hsF⟩

/-- A list of finite tines that is right both as it is and inverted alternates. -/
theorem loose_chain {F R R' : List (Tine α)} (hF : ∀ x ∈ F, Fin x) (b : Bool) (h : Loose b (F ++ R))
    (h' : Loose (!b) (F.map inv ++ R')) : ∃ d, Chain b F d ∧ Loose d R ∧ Loose (!d) R' := by
  induction F generalizing b with
  | nil => exact ⟨b, rfl, h, h'⟩
  | cons x F ih =>
    have hx := hF x (.head _)
    have ih := fun b => ih (fun y hy => hF y (.tail _ hy)) b
    obtain ⟨z, hz⟩ := hx
    rcases x with (a | a | _) | (a | a | _) | (a | a | _) <;> simp [Tine.key] at hz <;> cases b <;>
      simp [Loose, inv, Tine.isLowerBound, Tine.isUpperBound, Tine.isPointExclude] at h h' <;>
      simp only [Chain, Tine.isLowerBound, Tine.isUpperBound, true_and]
    all_goals first
      | exact ih true h h'
      | exact ih false h h'

/-- In a debug build, increasing tines whose forward iteration and whose complement's forward iteration do not
panic are a proper tree. -/
theorem valid_of_loose {t c : TineTree α} (h : Sorted t) (l : Loose false t)
    (ec : TineTree.complement true t = .ok c) (l' : Loose false c) : Valid t := by
  obtain ⟨F, b, d, rfl, hF, hs⟩ := sorted_middle h
  have h0 : F = [] → b = d := by
    rintro rfl
    cases b <;> cases d <;> simp [edge, Loose, Tine.isLowerBound] at l ⊢
  have h1 : b = false → d = false → ∀ x, F = [x] → ∃ p, x = .point (.incl p) := by
    rintro rfl rfl x rfl
    simp [edge, Loose] at l
    exact l
  rw [complement_sorted true hF hs h0 h1, Except.ok.injEq] at ec
  subst ec
  refine ⟨h, ?_⟩
  have hl : Loose b (F ++ edge .top d false false) := by
    cases b
    · simpa [edge] using l
    · simpa [edge, Loose, Tine.isLowerBound] using l
  have hl' : Loose (!b) (F.map inv ++ edge .top (!d) false false) := by
    cases b
    · simpa [edge, Loose, Tine.isLowerBound, compl] using l'
    · simpa [edge, compl] using l'
  obtain ⟨d', hc, g1, g2⟩ := loose_chain hF b hl hl'
  have : d' = d := by
    cases d <;> cases d' <;> simp [edge, Loose] at g1 g2 ⊢
  subst this
  exact (middle_valid hF hs hc).2

end TT
end NI
