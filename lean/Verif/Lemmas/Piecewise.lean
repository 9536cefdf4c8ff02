import Verif.Lemmas.Twice
import Verif.Lemmas.Frame

/-! # Operations on lists of separated intervals, one interval at a time -/

namespace NI
namespace TT
variable {α : Type} [LinearOrder α]

theorem tcov_any {t : TineTree α} (v : Valid t) (aft : Bool) (k : Key α) :
    tcov t aft k = (pieces none t).any fun i => icov i aft k :=
  ((pieces_cov aft k v.1).1 v.2).symm

/-! ## Gaps and enclosures -/

theorem sep_greatest {u v l : Bound α} : Sep (u.greatestUnion v) l ↔ Sep u l ∧ Sep v l := by
  rcases u with x | x | _ <;> rcases v with y | y | _ <;> rcases l with z | z | _ <;>
    simp only [Bound.greatestUnion] <;> (try split_ifs) <;> simp [Sep, Tine.key] <;> grind

theorem sep_least {u l m : Bound α} : Sep u (l.leastUnion m) ↔ Sep u l ∧ Sep u m := by
  rcases u with x | x | _ <;> rcases l with y | y | _ <;> rcases m with z | z | _ <;>
    simp only [Bound.leastUnion] <;> (try split_ifs) <;> simp [Sep, Tine.key] <;> grind

theorem enclose_bounds {a b : RawInterval α} (ha : a.WF) (hb : b.WF) {la ua lb ub : Bound α}
    (a1 : a.lowerBound = some la) (a2 : a.upperBound = some ua) (b1 : b.lowerBound = some lb)
    (b2 : b.upperBound = some ub) : (a.enclose b).lowerBound = some (la.leastUnion lb) ∧
      (a.enclose b).upperBound = some (ua.greatestUnion ub) := by
  have ca := RawInterval.wf_compat ha a1 a2
  have cb := RawInterval.wf_compat hb b1 b2
  rw [RawInterval.enclose_of_bounds a1 a2 b1 b2]
  refine new_bounds' ?_
  revert ca
  rcases la with x | x | _ <;> rcases ua with y | y | _ <;> rcases lb with z | z | _ <;>
    rcases ub with w | w | _ <;> simp only [Bound.leastUnion, Bound.greatestUnion] <;>
    (try split_ifs) <;> simp [Bound.Compat] at cb ⊢ <;> grind

theorem sepI_enclose_right {a b c : RawInterval α} (ha : a.WF) (hb : b.WF) (na : a ≠ .empty) (nb : b ≠ .empty) :
    SepI c (a.enclose b) ↔ SepI c a ∧ SepI c b := by
  rcases a.bounds_cases with ⟨rfl, -⟩ | ⟨la, ua, a1, a2, -⟩
  · exact absurd rfl na
  rcases b.bounds_cases with ⟨rfl, -⟩ | ⟨lb, ub, b1, b2, -⟩
  · exact absurd rfl nb
  obtain ⟨e1, -⟩ := enclose_bounds ha hb a1 a2 b1 b2
  simp only [SepI, e1, a1, b1, Option.some.injEq]
  constructor
  · rintro ⟨u, l, h, rfl, hs⟩
    rw [sep_least] at hs
    exact ⟨⟨u, _, h, rfl, hs.1⟩, u, _, h, rfl, hs.2⟩
  · rintro ⟨⟨u, l, h, rfl, h1⟩, u', l', h', rfl, h2⟩
    rw [h] at h'; cases h'
    exact ⟨u, _, h, rfl, sep_least.2 ⟨h1, h2⟩⟩

theorem sepI_enclose_left {a b c : RawInterval α} (ha : a.WF) (hb : b.WF) (na : a ≠ .empty) (nb : b ≠ .empty) :
    SepI (a.enclose b) c ↔ SepI a c ∧ SepI b c := by
  rcases a.bounds_cases with ⟨rfl, -⟩ | ⟨la, ua, a1, a2, -⟩
  · exact absurd rfl na
  rcases b.bounds_cases with ⟨rfl, -⟩ | ⟨lb, ub, b1, b2, -⟩
  · exact absurd rfl nb
  obtain ⟨-, e2⟩ := enclose_bounds ha hb a1 a2 b1 b2
  simp only [SepI, e2, a2, b2, Option.some.injEq]
  constructor
  · rintro ⟨u, l, rfl, h, hs⟩
    rw [sep_greatest] at hs
    exact ⟨⟨_, l, rfl, h, hs.1⟩, _, l, rfl, h, hs.2⟩
  · rintro ⟨⟨u, l, rfl, h, h1⟩, u', l', rfl, h', h2⟩
    rw [h] at h'; cases h'
    exact ⟨_, l, rfl, h, sep_greatest.2 ⟨h1, h2⟩⟩

theorem enclose_ne {a b : RawInterval α} (ha : a.WF) (hb : b.WF) (na : a ≠ .empty) (nb : b ≠ .empty) :
    a.enclose b ≠ .empty := by
  rcases a.bounds_cases with ⟨rfl, -⟩ | ⟨la, ua, a1, a2, -⟩
  · exact absurd rfl na
  rcases b.bounds_cases with ⟨rfl, -⟩ | ⟨lb, ub, b1, b2, -⟩
  · exact absurd rfl nb
  intro h
  have := (enclose_bounds ha hb a1 a2 b1 b2).1
  rw [h] at this; cases this

theorem sepI_trans {a b c : RawInterval α} (hb : b.WF) (h1 : SepI a b) (h2 : SepI b c) : SepI a c := by
  obtain ⟨u, l, e1, e2, s1⟩ := h1
  obtain ⟨u', l', e3, e4, s2⟩ := h2
  refine ⟨u, l', e1, e4, ?_⟩
  have cb := RawInterval.wf_compat hb e2 e3
  revert s1 s2 cb
  rcases u with x | x | _ <;> rcases l with y | y | _ <;> rcases u' with z | z | _ <;>
    rcases l' with w | w | _ <;> simp [Sep, Tine.key, Bound.Compat] <;> grind

/-- Touching: a point in common or nothing missing between. -/
def touch (p i : RawInterval α) : Bool := p.intersects i || p.isAdjacentTo i

theorem touch_or {p i : RawInterval α} (hp : p.WF) (hi : i.WF) (np : p ≠ .empty) (ni : i ≠ .empty) :
    touch p i = false ↔ SepI p i ∨ SepI i p := by
  constructor
  · intro h
    rcases meet_cases hp hi np ni with ⟨-, h⟩ | ⟨h', -⟩
    · exact h
    · rw [touch, h'] at h; cases h
  · rintro (h | h)
    · exact sep_no_meet hp hi h
    · rcases meet_cases hp hi np ni with ⟨h', -⟩ | ⟨h', -, hc⟩
      · exact h'
      · have := sep_no_meet hi hp h
        rcases union_cases hp hi np ni with ⟨h0, -⟩ | ⟨h0, h1, h2⟩
        · have n1 : p.isEmpty = false := by
            rw [Bool.eq_false_iff, ne_eq, RawInterval.isEmpty_iff]; exact np
          have n2 : i.isEmpty = false := by
            rw [Bool.eq_false_iff, ne_eq, RawInterval.isEmpty_iff]; exact ni
          simp only [RawInterval.union, n1, n2, h', if_true] at h0
          simp at h0
        · rw [Bool.or_eq_false_iff] at this
          have hm : p.intersects i = i.intersects p := by
            rw [RawInterval.intersects, RawInterval.intersects, RawInterval.intersect_comm]
          have hn : p.isAdjacentTo i = i.isAdjacentTo p := by
            rcases p.bounds_cases with ⟨rfl, -⟩ | ⟨la, ua, a1, a2, -⟩
            · exact absurd rfl np
            rcases i.bounds_cases with ⟨rfl, -⟩ | ⟨lb, ub, b1, b2, -⟩
            · exact absurd rfl ni
            simp only [RawInterval.isAdjacentTo, a1, a2, b1, b2]
            exact Bool.or_comm _ _
          rw [touch, hm, hn, this.1, this.2]; rfl

theorem touch_true {p i : RawInterval α} (hp : p.WF) (hi : i.WF) (np : p ≠ .empty) (ni : i ≠ .empty)
    (h : touch p i = true) (aft : Bool) (k : Key α) (hr : RealPos aft k) :
    icov (p.enclose i) aft k = (icov p aft k || icov i aft k) := by
  rcases meet_cases hp hi np ni with ⟨h', -⟩ | ⟨-, -, hc⟩
  · rw [touch, h'] at h; cases h
  · exact hc aft k hr

/-- The enclosure of an interval and others that touch it. -/
theorem fold_enclose {i : RawInterval α} (hi : i.WF) (ni : i ≠ .empty) (B : List (RawInterval α))
    (hw : ∀ p ∈ B, p.WF ∧ p ≠ .empty) (ht : ∀ p ∈ B, touch i p = true) (acc : RawInterval α)
    (h1 : acc.WF) (h2 : acc ≠ .empty) (hl : ∀ c, SepI c acc → SepI c i) (hr : ∀ c, SepI acc c → SepI i c) :
    (B.foldl RawInterval.enclose acc).WF ∧ B.foldl RawInterval.enclose acc ≠ .empty ∧
    (∀ c, SepI c (B.foldl RawInterval.enclose acc) ↔ SepI c acc ∧ ∀ p ∈ B, SepI c p) ∧
    (∀ c, SepI (B.foldl RawInterval.enclose acc) c ↔ SepI acc c ∧ ∀ p ∈ B, SepI p c) ∧
    ∀ aft k, RealPos aft k → icov (B.foldl RawInterval.enclose acc) aft k =
      (icov acc aft k || B.any fun p => icov p aft k) := by
  induction B generalizing acc with
  | nil => simp [h1, h2]
  | cons p B ih =>
    obtain ⟨wp, np⟩ := hw p (by simp)
    have tp : touch acc p = true := by
      rw [← Bool.not_eq_false, touch_or h1 wp h2 np]
      intro hn
      have := ht p (by simp)
      rw [← Bool.not_eq_false, touch_or hi wp ni np] at this
      exact this (hn.imp (hr p) (hl p))
    obtain ⟨g1, g2, g3, g4, g5⟩ := ih (fun q hq => hw q (by simp [hq])) (fun q hq => ht q (by simp [hq]))
      (acc.enclose p) (RawInterval.enclose_wf _ _) (enclose_ne h1 wp h2 np)
      (fun c h => hl c ((sepI_enclose_right h1 wp h2 np).1 h).1)
      (fun c h => hr c ((sepI_enclose_left h1 wp h2 np).1 h).1)
    refine ⟨g1, g2, fun c => ?_, fun c => ?_, fun aft k hk => ?_⟩
    · rw [List.foldl_cons, g3, sepI_enclose_right h1 wp h2 np]
      simp only [List.mem_cons, forall_eq_or_imp]
      tauto
    · rw [List.foldl_cons, g4, sepI_enclose_left h1 wp h2 np]
      simp only [List.mem_cons, forall_eq_or_imp]
      tauto
    · rw [List.foldl_cons, g5 aft k hk, touch_true h1 wp h2 np tp aft k hk, List.any_cons, Bool.or_assoc]

theorem sep_total {is : List (RawInterval α)} (hs : is.Pairwise SepI) {p q : RawInterval α} (hp : p ∈ is)
    (hq : q ∈ is) (h : p ≠ q) : SepI p q ∨ SepI q p := by
  induction is with
  | nil => cases hp
  | cons a is ih =>
    obtain ⟨h1, h2⟩ := List.pairwise_cons.1 hs
    rcases List.mem_cons.1 hp with e | hp'
    · subst e
      rcases List.mem_cons.1 hq with e | hq'
      · exact absurd e.symm h
      · exact .inl (h1 q hq')
    · rcases List.mem_cons.1 hq with e | hq'
      · subst e; exact .inr (h1 p hp')
      · exact ih h2 hp' hq'

open Classical in
/-- The intervals of a union: those that do not touch the new one, and one that encloses the rest. -/
theorem union_pieces (dbg : Bool) {t t' : TineTree α} (v : Valid t) {i : RawInterval α} (hi : i.WF)
    (ni : i ≠ .empty) (e : TineTree.unionInPlace dbg t i = .ok t') :
    pieces none t' = (pieces none t).filter (fun p => decide (SepI p i)) ++
      ((pieces none t).filter (touch i)).foldl RawInterval.enclose i ::
      (pieces none t).filter (fun p => decide (SepI i p)) := by
  obtain ⟨t1, e1, v1, c1⟩ := unionInPlace_ok dbg v hi
  rw [e1] at e; cases e
  have hw := (pieces_wf v.1).1
  have hs : (pieces none t).Pairwise SepI := (pieces_sep v.1).1
  obtain ⟨g1, g2, g3, g4, g5⟩ := fold_enclose hi ni ((pieces none t).filter (touch i))
    (fun p hp => hw p (List.mem_filter.1 hp).1) (fun p hp => (List.mem_filter.1 hp).2) i hi ni
    (fun _ h => h) (fun _ h => h)
  have key : ∀ p ∈ pieces none t, ∀ q ∈ pieces none t, SepI p i → touch i q = true → SepI p q := by
    intro p hp q hq hpi hqi
    obtain ⟨wq, nq⟩ := hw q hq
    rw [← Bool.not_eq_false, touch_or hi wq ni nq] at hqi
    by_cases hpq : p = q
    · subst hpq; exact absurd (.inr hpi) hqi
    have := sep_total hs hp hq hpq
    rcases this with h | h
    · exact h
    · exact absurd (.inr (sepI_trans (hw p hp).1 h hpi)) hqi
  have key' : ∀ p ∈ pieces none t, ∀ q ∈ pieces none t, SepI i p → touch i q = true → SepI q p := by
    intro p hp q hq hpi hqi
    obtain ⟨wq, nq⟩ := hw q hq
    rw [← Bool.not_eq_false, touch_or hi wq ni nq] at hqi
    by_cases hpq : p = q
    · subst hpq; exact absurd (.inl hpi) hqi
    have := sep_total hs hp hq hpq
    rcases this with h | h
    · exact absurd (.inl (sepI_trans (hw p hp).1 hpi h)) hqi
    · exact h
  refine pieces_unique v1 ?_ ?_ fun aft k hr => ?_
  · intro j hj
    rcases List.mem_append.1 hj with h | h
    · exact hw j (List.mem_filter.1 h).1
    · rcases List.mem_cons.1 h with rfl | h
      · exact ⟨g1, g2⟩
      · exact hw j (List.mem_filter.1 h).1
  · rw [List.pairwise_append, List.pairwise_cons]
    refine ⟨hs.filter _, ⟨fun c hc => ?_, hs.filter _⟩, fun a ha c hc => ?_⟩
    · obtain ⟨h1, h2⟩ := List.mem_filter.1 hc
      rw [decide_eq_true_eq] at h2
      rw [g4]
      exact ⟨h2, fun q hq => key' c h1 q (List.mem_filter.1 hq).1 h2 (List.mem_filter.1 hq).2⟩
    · obtain ⟨h1, h2⟩ := List.mem_filter.1 ha
      rw [decide_eq_true_eq] at h2
      rcases List.mem_cons.1 hc with rfl | hc
      · rw [g3]
        exact ⟨h2, fun q hq => key a h1 q (List.mem_filter.1 hq).1 h2 (List.mem_filter.1 hq).2⟩
      · obtain ⟨h3, h4⟩ := List.mem_filter.1 hc
        rw [decide_eq_true_eq] at h4
        exact sepI_trans hi h2 h4
  · rw [c1, tcov_any v, List.any_append, List.any_cons, g5 aft k hr]
    rw [Bool.eq_iff_iff]
    simp only [Bool.or_eq_true, List.any_eq_true, List.mem_filter, decide_eq_true_eq]
    constructor
    · rintro (⟨p, hp, h⟩ | h)
      · obtain ⟨wp, np⟩ := hw p hp
        cases ht : touch i p
        · rcases (touch_or hi wp ni np).1 ht with h' | h'
          · exact .inr (.inr ⟨p, ⟨hp, h'⟩, h⟩)
          · exact .inl ⟨p, ⟨hp, h'⟩, h⟩
        · exact .inr (.inl (.inr ⟨p, ⟨hp, ht⟩, h⟩))
      · exact .inr (.inl (.inl h))
    · rintro (⟨p, ⟨hp, -⟩, h⟩ | (h | ⟨p, ⟨hp, -⟩, h⟩) | ⟨p, ⟨hp, -⟩, h⟩)
      · exact .inl ⟨p, hp, h⟩
      · exact .inr h
      · exact .inl ⟨p, hp, h⟩
      · exact .inl ⟨p, hp, h⟩

open Classical in
/-- A separated list falls into the intervals before another one, those that touch it, and those behind it. -/
theorem three_parts {i : RawInterval α} (hi : i.WF) (ni : i ≠ .empty) {is : List (RawInterval α)}
    (hw : ∀ p ∈ is, p.WF ∧ p ≠ .empty) (hs : is.Pairwise SepI) :
    is = is.filter (fun p => decide (SepI p i)) ++ is.filter (touch i) ++
      is.filter (fun p => decide (SepI i p)) := by
  induction is with
  | nil => rfl
  | cons p is ih =>
    obtain ⟨h1, h2⟩ := List.pairwise_cons.1 hs
    obtain ⟨wp, np⟩ := hw p (by simp)
    have ih' := ih (fun q hq => hw q (by simp [hq])) h2
    have not : ∀ {q : RawInterval α}, q.WF → SepI q i → ¬ SepI i q := fun hq h h' => by
      have := sepI_trans hq h' h
      exact (starts_no_sep hi (fun l hl l' hl' => by
        rw [hl] at hl'; cases hl'; rcases l with x | x | _ <;> simp [Bound.NotBehind])) this
    cases ht : touch i p
    · rcases (touch_or hi wp ni np).1 ht with h | h
      · have hn : ¬ SepI p i := fun h' => not wp h' h
        have e1 : is.filter (fun p => decide (SepI p i)) = [] := by
          rw [List.filter_eq_nil_iff]
          intro q hq
          rw [decide_eq_true_eq]
          exact fun h' => hn (sepI_trans (hw q (by simp [hq])).1 (h1 q hq) h')
        have e2 : is.filter (touch i) = [] := by
          rw [List.filter_eq_nil_iff]
          intro q hq
          rw [Bool.not_eq_true, touch_or hi (hw q (by simp [hq])).1 ni (hw q (by simp [hq])).2]
          exact .inl (sepI_trans wp h (h1 q hq))
        rw [e1, e2] at ih'
        simp only [List.filter_cons, ht, hn, h, decide_true, decide_false, e1, e2]
        simpa using ih'
      · have hn : ¬ SepI i p := not wp h
        simp only [List.filter_cons, ht, hn, h, decide_true, decide_false]
        simpa using ih'
    · have hb : ¬ SepI p i ∧ ¬ SepI i p := by
        rw [← Bool.not_eq_false, touch_or hi wp ni np] at ht
        tauto
      have e1 : is.filter (fun p => decide (SepI p i)) = [] := by
        rw [List.filter_eq_nil_iff]
        intro q hq
        rw [decide_eq_true_eq]
        exact fun h' => hb.1 (sepI_trans (hw q (by simp [hq])).1 (h1 q hq) h')
      rw [e1] at ih'
      simp only [List.filter_cons, ht, hb, decide_false, e1]
      simpa using ih'

theorem touch_comm {p i : RawInterval α} (hp : p.WF) (hi : i.WF) (np : p ≠ .empty) (ni : i ≠ .empty) :
    touch p i = touch i p := by
  rw [Bool.eq_iff_iff, ← Bool.not_eq_false, ← Bool.not_eq_false, touch_or hp hi np ni, touch_or hi hp ni np]
  tauto

/-! ## Difference and intersection -/

theorem SepI.shrink {p q c d : RawInterval α} (h : SepI p q) (n1 : p.intersect c ≠ .empty)
    (n2 : q.intersect d ≠ .empty) : SepI (p.intersect c) (q.intersect d) := by
  obtain ⟨u, l, e1, e2, hs⟩ := h
  rcases p.bounds_cases with ⟨rfl, -⟩ | ⟨lp, up, p1, p2, -⟩
  · cases e1
  rcases q.bounds_cases with ⟨rfl, -⟩ | ⟨lq, uq, q1, q2, -⟩
  · cases e2
  rcases c.bounds_cases with ⟨rfl, -⟩ | ⟨lc, uc, c1, c2, -⟩
  · exact absurd (RawInterval.intersect_empty_right p) n1
  rcases d.bounds_cases with ⟨rfl, -⟩ | ⟨ld, ud, d1, d2, -⟩
  · exact absurd (RawInterval.intersect_empty_right q) n2
  rw [p2] at e1; cases e1
  rw [q1] at e2; cases e2
  rw [RawInterval.intersect_of_bounds p1 p2 c1 c2] at n1 ⊢
  rw [RawInterval.intersect_of_bounds q1 q2 d1 d2] at n2 ⊢
  split_ifs at n1 with k1
  · split_ifs at n2 with k2
    · rw [if_pos k1, if_pos k2]
      refine ⟨_, _, (new_bounds' k1).2, (new_bounds' k2).1, ?_⟩
      rw [Bound.li_comm, Bound.gi_comm]
      exact sep_intersect hs
    · exact absurd rfl n2
  · exact absurd rfl n1

theorem minus_flat {is : List (RawInterval α)} (hw : ∀ i ∈ is, i.WF ∧ i ≠ .empty) (hp : is.Pairwise SepI)
    {b : RawInterval α} (hb : b.WF) :
    (∀ i ∈ is.flatMap (·.minus b), i.WF ∧ i ≠ .empty) ∧ (is.flatMap (·.minus b)).Pairwise SepI ∧
    ∀ aft k, RealPos aft k → ((is.flatMap (·.minus b)).any fun i => icov i aft k) =
      ((is.any fun i => icov i aft k) && !icov b aft k) := by
  refine ⟨fun i hi => ?_, ?_, fun aft k hr => ?_⟩
  · obtain ⟨p, hp, hi⟩ := List.mem_flatMap.1 hi
    exact (minus_list (hw p hp).1 hb).1 i hi
  · rw [List.pairwise_flatMap]
    refine ⟨fun p hp => (minus_list (hw p hp).1 hb).2.1, hp.imp fun h x hx y hy => ?_⟩
    rw [RawInterval.minus, List.mem_filter, List.mem_map] at hx hy
    obtain ⟨⟨c, -, rfl⟩, n1⟩ := hx
    obtain ⟨⟨d, -, rfl⟩, n2⟩ := hy
    refine h.shrink ?_ ?_ <;> intro hn
    · rw [hn] at n1; cases n1
    · rw [hn] at n2; cases n2
  · rw [List.any_flatMap]
    rw [Bool.eq_iff_iff, List.any_eq_true, Bool.and_eq_true, List.any_eq_true]
    constructor
    · rintro ⟨p, hp, h⟩
      rw [(minus_list (hw p hp).1 hb).2.2 aft k hr, Bool.and_eq_true] at h
      exact ⟨⟨p, hp, h.1⟩, h.2⟩
    · rintro ⟨⟨p, hp, h1⟩, h2⟩
      refine ⟨p, hp, ?_⟩
      rw [(minus_list (hw p hp).1 hb).2.2 aft k hr, h1, h2]; rfl

theorem minus_fold {is : List (RawInterval α)} (hw : ∀ i ∈ is, i.WF ∧ i ≠ .empty) (hp : is.Pairwise SepI)
    (bs : List (RawInterval α)) (hb : ∀ b ∈ bs, b.WF) :
    (∀ i ∈ bs.foldl (fun acc p => acc.flatMap fun q => q.minus p) is, i.WF ∧ i ≠ .empty) ∧
    (bs.foldl (fun acc p => acc.flatMap fun q => q.minus p) is).Pairwise SepI ∧
    ∀ aft k, RealPos aft k →
      ((bs.foldl (fun acc p => acc.flatMap fun q => q.minus p) is).any fun i => icov i aft k) =
      ((is.any fun i => icov i aft k) && !bs.any fun b => icov b aft k) := by
  induction bs generalizing is with
  | nil => exact ⟨hw, hp, fun _ _ _ => by simp⟩
  | cons b bs ih =>
    obtain ⟨g1, g2, g3⟩ := minus_flat hw hp (hb b (by simp))
    obtain ⟨f1, f2, f3⟩ := ih g1 g2 fun c hc => hb c (by simp [hc])
    refine ⟨f1, f2, fun aft k hr => ?_⟩
    rw [List.foldl_cons, f3 aft k hr, g3 aft k hr, List.any_cons, Bool.not_or, Bool.and_assoc]

/-- What the intervals of the one list have in common with those of the other. -/
def meets (is js : List (RawInterval α)) : List (RawInterval α) :=
  is.flatMap fun i => (js.map i.intersect).filter fun r => !r.isEmpty

theorem meets_list {is js : List (RawInterval α)} (hw : ∀ i ∈ is, i.WF ∧ i ≠ .empty) (hp : is.Pairwise SepI)
    (hw' : ∀ i ∈ js, i.WF ∧ i ≠ .empty) (hp' : js.Pairwise SepI) :
    (∀ i ∈ meets is js, i.WF ∧ i ≠ .empty) ∧ (meets is js).Pairwise SepI ∧
    ∀ aft k, RealPos aft k → ((meets is js).any fun i => icov i aft k) =
      ((is.any fun i => icov i aft k) && js.any fun i => icov i aft k) := by
  have ne : ∀ {r : RawInterval α}, (!r.isEmpty) = true → r ≠ .empty := by
    rintro r h rfl; cases h
  refine ⟨fun i hi => ?_, ?_, fun aft k hr => ?_⟩
  · obtain ⟨p, hp, hi⟩ := List.mem_flatMap.1 hi
    rw [List.mem_filter, List.mem_map] at hi
    obtain ⟨⟨c, -, rfl⟩, n1⟩ := hi
    exact ⟨RawInterval.intersect_wf _ _, ne n1⟩
  · rw [meets, List.pairwise_flatMap]
    refine ⟨fun p hp => ?_, hp.imp fun h x hx y hy => ?_⟩
    · rw [List.pairwise_filter, List.pairwise_map]
      refine hp'.imp fun {c d} h n1 n2 => ?_
      rw [RawInterval.intersect_comm p c, RawInterval.intersect_comm p d] at *
      exact h.shrink (ne n1) (ne n2)
    · rw [List.mem_filter, List.mem_map] at hx hy
      obtain ⟨⟨c, -, rfl⟩, n1⟩ := hx
      obtain ⟨⟨d, -, rfl⟩, n2⟩ := hy
      exact h.shrink (ne n1) (ne n2)
  · rw [Bool.eq_iff_iff, List.any_eq_true, Bool.and_eq_true, List.any_eq_true, List.any_eq_true]
    constructor
    · rintro ⟨r, hr', h⟩
      obtain ⟨p, hp, hi⟩ := List.mem_flatMap.1 hr'
      rw [List.mem_filter, List.mem_map] at hi
      obtain ⟨⟨c, hc, rfl⟩, n1⟩ := hi
      rw [icov_intersect (hw p hp).1 (hw' c hc).1 hr, Bool.and_eq_true] at h
      exact ⟨⟨p, hp, h.1⟩, c, hc, h.2⟩
    · rintro ⟨⟨p, hp, h1⟩, c, hc, h2⟩
      have h3 : icov (p.intersect c) aft k = true := by
        rw [icov_intersect (hw p hp).1 (hw' c hc).1 hr, h1, h2]; rfl
      refine ⟨_, List.mem_flatMap.2 ⟨p, hp, List.mem_filter.2 ⟨List.mem_map.2 ⟨c, hc, rfl⟩, ?_⟩⟩, h3⟩
      rw [Bool.not_eq_true']
      by_contra hn
      rw [Bool.not_eq_false, RawInterval.isEmpty_iff] at hn
      rw [hn] at h3; cases h3

theorem meet_one {is : List (RawInterval α)} (hw : ∀ i ∈ is, i.WF ∧ i ≠ .empty) (hp : is.Pairwise SepI)
    {b : RawInterval α} (hb : b.WF) :
    (∀ i ∈ (is.map fun p => p.intersect b).filter fun p => !p.isEmpty, i.WF ∧ i ≠ .empty) ∧
    ((is.map fun p => p.intersect b).filter fun p => !p.isEmpty).Pairwise SepI ∧
    ∀ aft k, RealPos aft k →
      (((is.map fun p => p.intersect b).filter fun p => !p.isEmpty).any fun i => icov i aft k) =
      ((is.any fun i => icov i aft k) && icov b aft k) := by
  have ne : ∀ {r : RawInterval α}, (!r.isEmpty) = true → r ≠ .empty := by
    rintro r h rfl; cases h
  refine ⟨fun i hi => ?_, ?_, fun aft k hr => ?_⟩
  · rw [List.mem_filter, List.mem_map] at hi
    obtain ⟨⟨p, -, rfl⟩, n1⟩ := hi
    exact ⟨RawInterval.intersect_wf _ _, ne n1⟩
  · rw [List.pairwise_filter, List.pairwise_map]
    exact hp.imp fun h n1 n2 => h.shrink (ne n1) (ne n2)
  · rw [Bool.eq_iff_iff, List.any_eq_true, Bool.and_eq_true, List.any_eq_true]
    constructor
    · rintro ⟨r, hr', h⟩
      rw [List.mem_filter, List.mem_map] at hr'
      obtain ⟨⟨p, hp, rfl⟩, n1⟩ := hr'
      rw [icov_intersect (hw p hp).1 hb hr, Bool.and_eq_true] at h
      exact ⟨⟨p, hp, h.1⟩, h.2⟩
    · rintro ⟨⟨p, hp, h1⟩, h2⟩
      have h3 : icov (p.intersect b) aft k = true := by
        rw [icov_intersect (hw p hp).1 hb hr, h1, h2]; rfl
      refine ⟨_, List.mem_filter.2 ⟨List.mem_map.2 ⟨p, hp, rfl⟩, ?_⟩, h3⟩
      rw [Bool.not_eq_true']
      by_contra hn
      rw [Bool.not_eq_false, RawInterval.isEmpty_iff] at hn
      rw [hn] at h3; cases h3

theorem icov_full_real {aft : Bool} {k : Key α} (hr : RealPos aft k) : icov (.full : RawInterval α) aft k = true := by
  obtain ⟨r1, r2⟩ := hr
  cases k with
  | top => exact absurd rfl r1
  | bot => obtain rfl := r2 rfl; simp [icov, Tine.fromRawInterval, cov, Tine.key, Tine.isLowerBound]
  | fin x => cases aft <;> simp [icov, Tine.fromRawInterval, cov, Tine.key, Tine.isLowerBound]

/-- If `minus` is exact, also between the points, no point was taken from an excluded end. -/
theorem minus_exact (dbg : Bool) {a b t : TineTree α} (ha : Valid a) (hb : Valid b) (v : Valid t)
    (e : TineTree.minus dbg a b = .ok t)
    (c : ∀ aft k, RealPos aft k → tcov t aft k = (tcov a aft k && !tcov b aft k)) {p : α}
    (hp : .point p ∈ pieces none b) : MinusOk a (.point p) := by
  by_contra hn
  rw [TineTree.minus, fold_eq dbg _ hb] at e
  have hs : (pieces none b).Pairwise SepI := (pieces_sep hb.1).1
  obtain ⟨q, h1, h2, -, h3⟩ := foldMinus_bad dbg ha v (pieces none b) (pieces_wf hb.1).1 hs e ⟨p, hp, hn⟩
  have r1 : RealPos false (Key.fin q) := ⟨by simp, by simp⟩
  have r2 : RealPos true (Key.fin q) := ⟨by simp, by simp⟩
  rcases h3 with h3 | ⟨h3, h4⟩
  · rw [c _ _ r1, h2] at h3; cases h3
  · have hz : tcov b true (.fin q) = false := by
      rw [tcov_any hb, List.any_eq_false]
      intro j hj
      rw [point_apart (fun i hi => ((pieces_wf hb.1).1 i hi).1) hs h1 j hj]; simp
    rw [c _ _ r2, h3, hz] at h4; cases h4

end TT
end NI
