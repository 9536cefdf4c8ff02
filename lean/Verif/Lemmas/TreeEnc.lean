import Verif.Lemmas.TreeDiff

/-! # In-place intersection and enclosure -/

set_option linter.unusedSimpArgs false
set_option linter.unusedVariables false
set_option linter.unnecessarySeqFocus false
set_option linter.unusedSectionVars false
set_option linter.unusedTactic false
set_option linter.unreachableTactic false

namespace NI
namespace TT
variable {α : Type} [LinearOrder α]
open BSet (Lt Gt At)

/-- The tines a piece comes from. -/
theorem piece_tines {ts : List (Tine α)} (hs : Sorted ts) :
    (∀ i ∈ pieces none ts, (∃ p, i = .point p) ∨ ∃ A x y B, ts = A ++ x :: y :: B ∧
      x.isLowerBound = true ∧ y.isUpperBound = true ∧ i.lowerBound = some x.intoInner ∧
      i.upperBound = some y.intoInner) ∧
    (∀ b, Gt ts (Tine.lower b).key → ∀ i ∈ pieces (some b) ts, (∃ p, i = .point p) ∨
      (∃ A x y B, ts = A ++ x :: y :: B ∧
        x.isLowerBound = true ∧ y.isUpperBound = true ∧ i.lowerBound = some x.intoInner ∧
        i.upperBound = some y.intoInner) ∨
      ∃ y B, ts = y :: B ∧ y.isUpperBound = true ∧ i.lowerBound = some b ∧
        i.upperBound = some y.intoInner) := by
  induction ts with
  | nil => simp [pieces]
  | cons t ts ih =>
    obtain ⟨h1, h2, h3⟩ := sorted_cons.1 hs
    obtain ⟨ih1, ih2⟩ := ih h3
    have lift : ∀ i : RawInterval α, (∃ A x y B, ts = A ++ x :: y :: B ∧
        x.isLowerBound = true ∧ y.isUpperBound = true ∧ i.lowerBound = some x.intoInner ∧
        i.upperBound = some y.intoInner) → ∃ A x y B, t :: ts = A ++ x :: y :: B ∧
        x.isLowerBound = true ∧ y.isUpperBound = true ∧ i.lowerBound = some x.intoInner ∧
        i.upperBound = some y.intoInner := by
      rintro i ⟨A, x, y, B, rfl, g⟩
      exact ⟨t :: A, x, y, B, rfl, g⟩
    constructor
    · rcases t with b | (p | p | _) | b <;> simp only [pieces, List.mem_cons]
      · intro i hi
        rcases ih2 b h2 i hi with g | g | ⟨y, B, rfl, g1, g2, g3⟩
        · exact .inl g
        · exact .inr (lift i g)
        · exact .inr ⟨[], .lower b, y, B, rfl, rfl, g1, g2, g3⟩
      · rintro i (rfl | hi)
        · exact .inl ⟨p, rfl⟩
        · exact (ih1 i hi).imp id (lift i)
      all_goals simp
    · intro b hgt
      have hbk := (hgt t (List.mem_cons_self)).2
      rcases t with u | (p | p | _) | u <;> simp only [pieces, List.mem_cons]
      · simp
      · simp
      · rintro i (rfl | hi)
        · have := new_bounds (u := .excl p) (show (Tine.lower b).key < _ from hbk)
          exact .inr (.inr ⟨_, ts, rfl, rfl, this.1, this.2⟩)
        · rcases ih2 (.excl p) h2 i hi with g | g | ⟨y, B, rfl, g1, g2, g3⟩
          · exact .inl g
          · exact .inr (.inl (lift i g))
          · exact .inr (.inl ⟨[], .point (.excl p), y, B, rfl, rfl, g1, g2, g3⟩)
      · simp
      · rintro i (rfl | hi)
        · have := new_bounds hbk
          exact .inr (.inr ⟨_, ts, rfl, rfl, this.1, this.2⟩)
        · exact (ih1 i hi).imp id fun g => .inl (lift i g)

theorem key_low {x : Tine α} (hx : x.isLowerBound = true) (ho : x.Ok) :
    (Tine.lower x.intoInner).key = x.key := by
  rcases x with b | (p | p | _) | b <;> simp [Tine.isLowerBound] at hx <;> first
    | rfl
    | exact absurd rfl ho

theorem key_up {x : Tine α} (hx : x.isUpperBound = true) (ho : x.Ok) :
    (Tine.upper x.intoInner).key = x.key := by
  rcases x with b | (p | p | _) | b <;> simp [Tine.isUpperBound] at hx <;> first
    | rfl
    | exact absurd rfl ho

/-- Inside a piece the tree is covered. -/
theorem inside_piece {t : TineTree α} (h : Valid t) {i : RawInterval α} (hi : i ∈ pieces none t)
    {l u : Bound α} (hl : i.lowerBound = some l) (hu : i.upperBound = some u) {k : Key α} :
    ((Tine.lower l).key ≤ k → k < (Tine.upper u).key → tcov t true k = true) ∧
    ((Tine.lower l).key < k → k ≤ (Tine.upper u).key → bef false t k = true) := by
  rcases (piece_tines h.1).1 i hi with ⟨p, rfl⟩ | ⟨A, x, y, B, rfl, g1, g2, g3, g4⟩
  · simp only [RawInterval.lowerBound, RawInterval.upperBound, Option.some.injEq] at hl hu
    subst hl hu
    constructor
    · intro h1 h2
      exact absurd (lt_of_le_of_lt h1 h2) (lt_irrefl _)
    · intro h1 h2
      exact absurd (lt_of_lt_of_le h1 h2) (lt_irrefl _)
  · rw [g3] at hl; rw [g4] at hu
    obtain ⟨s1, s2, s3⟩ := sorted_append.1 h.1
    obtain ⟨s4, s5, s6⟩ := sorted_cons.1 s2
    obtain ⟨s7, s8, s9⟩ := sorted_cons.1 s6
    obtain ⟨m, c1, c2⟩ := chain_append.1 h.2
    cases hl; cases hu
    rw [key_low g1 s4, key_up g2 s7]
    have hA : Lt A x.key := fun a ha => ⟨s1.1 a ha, s3 a ha x (by simp)⟩
    constructor
    · intro h1 h2
      rw [tcov, cov_lt (hA.trans h1) c1, cov, if_neg h1.not_gt, if_neg (by simp), g1, cov,
        if_pos h2]
    · intro h1 h2
      rw [bef_lt (hA.trans h1.le) c1, bef, if_neg h1.not_ge, g1, bef, if_pos h2]

/-! ## In-place intersection -/

theorem key_bot_le (k : Key α) : Key.bot ≤ k := not_lt.1 (Key.not_lt_bot k)
theorem key_le_top (k : Key α) : k ≤ Key.top := not_lt.1 (Key.not_top_lt k)

theorem proper_key {l u : Bound α} (hc : l.Compat u) (hp : ∀ p, RawInterval.new l u ≠ .point p) :
    (Tine.lower l).key < (Tine.upper u).key := by
  rcases l with a | a | _ <;> rcases u with b | b | _ <;> simp [Bound.Compat, Tine.key] at hc ⊢ <;>
    try exact hc
  refine lt_of_le_of_ne hc ?_
  rintro rfl
  exact hp a (by simp [RawInterval.new, RawInterval.mkClosed])

/-- The overlap of `j` and `i` starts where `i` starts. -/
theorem starts_key {j i : RawInterval α} (hj : j.WF) (hi : i.WF) (hp : (j.intersect i).TwoEnded)
    (he : (j.intersect i).infimum = i.infimum) {lj uj l u : Bound α}
    (h1 : j.lowerBound = some lj) (h2 : j.upperBound = some uj)
    (h3 : i.lowerBound = some l) (h4 : i.upperBound = some u) :
    (Tine.lower lj).key ≤ (Tine.lower l).key ∧ (Tine.lower l).key < (Tine.upper uj).key := by
  rw [RawInterval.intersect_of_bounds h1 h2 h3 h4] at hp he
  split_ifs at hp he with hc
  · obtain ⟨n1, n2, n3⟩ := RawInterval.new_of_compat hc
    simp only [RawInterval.infimum, n1, h3] at he
    have hp2 := proper_key hc hp.2
    clear hp hc n1 n2 n3 h1 h2 h3 h4
    rcases lj with a | a | _ <;> rcases l with b | b | _ <;>
      rcases uj with c | c | _ <;> rcases u with d | d | _ <;>
      simp only [Bound.greatestIntersect, Bound.leastIntersect] at hp2 he <;>
      (try split_ifs at hp2 he) <;>
      simp [Tine.key, Bound.asRef, key_bot_le, key_le_top] at hp2 he ⊢ <;> grind
  · exact absurd rfl hp.1

theorem ends_key {j i : RawInterval α} (hj : j.WF) (hi : i.WF) (hp : (j.intersect i).TwoEnded)
    (he : (j.intersect i).supremum = i.supremum) {lj uj l u : Bound α}
    (h1 : j.lowerBound = some lj) (h2 : j.upperBound = some uj)
    (h3 : i.lowerBound = some l) (h4 : i.upperBound = some u) :
    (Tine.lower lj).key < (Tine.upper u).key ∧ (Tine.upper u).key ≤ (Tine.upper uj).key := by
  rw [RawInterval.intersect_of_bounds h1 h2 h3 h4] at hp he
  split_ifs at hp he with hc
  · obtain ⟨n1, n2, n3⟩ := RawInterval.new_of_compat hc
    simp only [RawInterval.supremum, n2, h4] at he
    have hp2 := proper_key hc hp.2
    clear hp hc n1 n2 n3 h1 h2 h3 h4
    rcases lj with a | a | _ <;> rcases l with b | b | _ <;>
      rcases uj with c | c | _ <;> rcases u with d | d | _ <;>
      simp only [Bound.greatestIntersect, Bound.leastIntersect] at hp2 he <;>
      (try split_ifs at hp2 he) <;>
      simp [Tine.key, Bound.asRef, key_bot_le, key_le_top] at hp2 he ⊢ <;> grind
  · exact absurd rfl hp.1

/-- The situations in which `intersect_in_place` with a two-ended interval is right. -/
theorem intersectInPlace_core (dbg : Bool) {t : TineTree α} (ht : Valid t) {i : RawInterval α}
    (hi : i.WF)
    (hs : t = [] ∨ ¬ i.TwoEnded ∨ i = .full ∨
      ∀ lb ub, Tine.fromRawInterval i = [.lower lb, .upper ub] →
        IsectGood (bef false t (Tine.lower lb).key) (tcov t false (Tine.lower lb).key)
          (tcov t true (Tine.lower lb).key) (bef false t (Tine.upper ub).key)
          (tcov t false (Tine.upper ub).key) (tcov t true (Tine.upper ub).key)
          (Tine.lower lb).inclAt (Tine.upper ub).inclAt = true) :
    ∃ t', TineTree.intersectInPlace dbg t i = .ok t' ∧ Valid t' ∧
      ∀ aft k, RealPos aft k → tcov t' aft k = (tcov t aft k && icov i aft k) := by
  unfold TineTree.intersectInPlace
  by_cases ht0 : t = []
  · subst ht0
    exact ⟨[], by simp [TineTree.isEmpty], valid_nil, by simp [tcov, cov]⟩
  have ht1 : TineTree.isEmpty t = false := by simpa [TineTree.isEmpty] using ht0
  rw [ht1, Bool.false_or]
  by_cases hf : i.isFull = true
  · have : i = .full := by cases i <;> simp_all [RawInterval.isFull]
    subst this
    refine ⟨t, by simp [RawInterval.isFull], ht, ?_⟩
    intro aft k hr
    have : icov (.full : RawInterval α) aft k = true := by
      obtain ⟨h1, h2⟩ := hr
      cases k <;> cases aft <;>
        simp_all [icov, Tine.fromRawInterval, cov, Tine.key, Tine.isLowerBound]
    rw [this]; simp
  rw [if_neg hf]
  by_cases he : i.isEmpty = true
  · have : i = .empty := (RawInterval.isEmpty_iff i).1 he
    subst this
    exact ⟨[], by simp [he, TineTree.new], valid_nil,
      by simp [icov, Tine.fromRawInterval, cov, tcov]⟩
  rw [if_neg he]
  rcases fromRaw_cases hi with ⟨e0, e⟩ | ⟨p, e0, e⟩ | ⟨lb, ub, e, hk⟩
  · subst e0; exact absurd rfl he
  · subst e0
    simp only [contains_ok dbg ht, bind, Except.bind]
    have hpt : ∀ aft k, icov (.point p) aft k = (!aft && decide (k = Key.fin p)) := by
      intro aft k
      have e2 := (congrArg (fun t => cov aft false t k) e).trans
        (cov_one (A := []) (B := []) (s := false) (k' := .fin p) (b := false) (a := true)
        (c := false) trivial (.nil _) (.nil _) rfl aft k)
      rw [icov, e2]
      by_cases hlt : k < .fin p
      · simp [hlt, hlt.ne, cov]
      · by_cases hkk : k = .fin p
        · subst hkk; cases aft <;> simp
        · simp [hlt, hkk, cov]
    cases hc : tcov t false (.fin p) with
    | true =>
      refine ⟨_, by simp; rfl, by rw [tree_fromRaw hi]; exact fromRaw_valid hi, ?_⟩
      intro aft k hr
      rw [tree_fromRaw hi]
      change icov (.point p) aft k = _
      rw [hpt]
      by_cases hkk : k = .fin p
      · subst hkk; cases aft <;> simp [hc]
      · simp [hkk]
    | false =>
      refine ⟨[], by simp [TineTree.new], valid_nil, ?_⟩
      intro aft k hr
      rw [hpt]
      by_cases hkk : k = .fin p
      · subst hkk
        cases aft
        · rw [hc]; rfl
        · simp [tcov, cov]
      · simp [hkk, tcov, cov]
  · have hnp : ∀ p, i ≠ .point p := by
      rintro p rfl; simp [Tine.fromRawInterval] at e
    have hne : i ≠ .empty := by
      rintro rfl; simp [Tine.fromRawInterval] at e
    obtain ⟨b1, b2⟩ : i.lowerBound = some lb ∧ i.upperBound = some ub := by
      cases i <;> simp [Tine.fromRawInterval] at e <;>
        simp [RawInterval.lowerBound, RawInterval.upperBound, ← e.1, ← e.2]
    obtain ⟨w⟩ := two ht hk
    obtain ⟨⟨v1, v2, v3⟩, v4, v5, v6⟩ := w.views hk
    have hg : IsectGood w.b w.a w.c w.d w.a2 w.e (Tine.lower lb).inclAt (Tine.upper ub).inclAt
        = true := by
      rcases hs with hs | hs | hs | hs
      · exact absurd hs ht0
      · exact absurd ⟨hne, hnp⟩ hs
      · subst hs; exact absurd rfl hf
      · have := hs lb ub e
        rwa [v1, v2, v3, v4, v5, v6] at this
    have heq := intersectProper_eq dbg hk w hg
    have f1 : Fits (Tine.lower lb).key false (w.a && (Tine.lower lb).inclAt) w.c := by
      have := w.fits
      rcases lb with x | x | _ <;> simp_all [Fits, Tine.key, Tine.inclAt]
    have f2 : Fits (Tine.upper ub).key w.d (w.a2 && (Tine.upper ub).inclAt) false := by
      have := w.fits2
      rcases ub with x | x | _ <;> simp_all [Fits, Tine.key, Tine.inclAt]
    refine ⟨_, ?_, two_valid hk f1 f2 (.nil _) w.gtM w.ltM (.nil _) sorted_nil w.sM sorted_nil rfl
      w.cM rfl, ?_⟩
    · rw [← heq]
      cases i <;> first
        | exact absurd rfl (hnp _)
        | simp only [e]
    · intro aft k hr
      have e1 := (congrArg (fun t => tcov t aft k) w.eq).trans
        (cov_two hk w.fits w.fits2 w.ltA w.gtM w.ltM w.gtB w.cA w.cM aft k)
      rw [tcov, cov_two hk f1 f2 (.nil _) w.gtM w.ltM (.nil _) rfl w.cM, e1, icov, e, cov_pair hk]
      rcases lt_trichotomy k (Tine.lower lb).key with h | h | h
      · simp [h, cov]
      · subst h; cases aft <;> simp
      · rcases lt_trichotomy k (Tine.upper ub).key with h' | h' | h'
        · simp [h.not_gt, h.ne', h', h'.ne]
        · subst h'
          cases aft <;> simp [h.not_gt, h.ne']
        · simp [h.not_gt, h.ne', h'.ne', h'.not_gt, cov]

theorem intersectInPlace_ok (dbg : Bool) {t : TineTree α} (ht : Valid t) {i : RawInterval α}
    (hi : i.WF)
    (hs : t = [] ∨ ¬ i.TwoEnded ∨ i = .full ∨
      ((∃ j ∈ pieces none t, (j.intersect i).TwoEnded ∧ (j.intersect i).infimum = i.infimum) ∧
       ∃ j ∈ pieces none t, (j.intersect i).TwoEnded ∧ (j.intersect i).supremum = i.supremum)) :
    ∃ t', TineTree.intersectInPlace dbg t i = .ok t' ∧ Valid t' ∧
      ∀ aft k, RealPos aft k → tcov t' aft k = (tcov t aft k && icov i aft k) := by
  refine intersectInPlace_core dbg ht hi (hs.imp_right (.imp_right (.imp_right ?_)))
  rintro ⟨⟨j1, m1, p1, q1⟩, j2, m2, p2, q2⟩ lb ub e
  obtain ⟨b1, b2⟩ : i.lowerBound = some lb ∧ i.upperBound = some ub := by
    cases i <;> simp [Tine.fromRawInterval] at e <;>
      simp [RawInterval.lowerBound, RawInterval.upperBound, ← e.1, ← e.2]
  have wf1 := (pieces_wf ht.1).1 j1 m1
  have wf2 := (pieces_wf ht.1).1 j2 m2
  rcases j1.bounds_cases with ⟨z, _⟩ | ⟨l1, u1, z1, z2, _⟩
  · exact absurd z wf1.2
  rcases j2.bounds_cases with ⟨z, _⟩ | ⟨l2, u2, z3, z4, _⟩
  · exact absurd z wf2.2
  obtain ⟨k1, k2⟩ := starts_key wf1.1 hi p1 q1 z1 z2 b1 b2
  obtain ⟨k3, k4⟩ := ends_key wf2.1 hi p2 q2 z3 z4 b1 b2
  rw [(inside_piece ht m1 z1 z2).1 k1 k2, (inside_piece ht m2 z3 z4).2 k3 k4]
  rfl

/-! ## Enclosure -/

theorem head_admits {x : Tine α} {ts : List (Tine α)} (hx : x.isUpperBound = false) {z : α}
    (h : cov false false (x :: ts) (.fin z) = true) : x.intoInner.AdmitsAbove z := by
  rw [cov] at h
  split_ifs at h with h1 h2
  · obtain ⟨h2, -⟩ := h2
    rcases x with (a | a | _) | (a | a | _) | (a | a | _) <;>
      simp [Tine.isUpperBound, Tine.inclAt, Tine.key] at * <;>
      simp [Tine.intoInner, Bound.AdmitsAbove] <;> grind
  · have h3 : x.key < .fin z := lt_of_le_of_ne (not_lt.1 h1) fun e => h2 ⟨e.symm, rfl⟩
    rcases x with (a | a | _) | (a | a | _) | (a | a | _) <;>
      simp [Tine.isUpperBound, Tine.inclAt, Tine.key] at * <;>
      simp [Tine.intoInner, Bound.AdmitsAbove] <;> grind

theorem last_admits {A : List (Tine α)} {y : Tine α} (hv : Valid (A ++ [y])) {z : α}
    (h : tcov (A ++ [y]) false (.fin z) = true) : y.intoInner.AdmitsBelow z := by
  obtain ⟨s1, s2, s3⟩ := sorted_append.1 hv.1
  obtain ⟨s4, -, -⟩ := sorted_cons.1 s2
  obtain ⟨m, c1, c2, c3⟩ := chain_append.1 hv.2
  have hA : Lt A y.key := fun a ha => ⟨s1.1 a ha, s3 a ha y (by simp)⟩
  have hyl : y.isLowerBound = false := c3
  rcases lt_trichotomy (Key.fin z) y.key with hlt | heq | hgt
  · rcases y with (a | a | _) | (a | a | _) | (a | a | _) <;>
      simp [Tine.isLowerBound, Tine.key] at * <;>
      simp [Tine.intoInner, Bound.AdmitsBelow] <;> grind
  · rw [tcov, heq, cov_lt hA c1, cov, if_neg (lt_irrefl _), if_pos ⟨rfl, rfl⟩] at h
    rcases y with (a | a | _) | (a | a | _) | (a | a | _) <;>
      simp [Tine.isLowerBound, Tine.inclAt, Tine.key] at * <;>
      simp [Tine.intoInner, Bound.AdmitsBelow] <;> grind
  · rw [tcov, cov_lt (hA.trans hgt.le) c1, cov, if_neg hgt.not_gt, if_neg (by simp [hgt.ne']),
      hyl] at h
    simp [cov] at h

theorem enclose_ok (dbg : Bool) {t : TineTree α} (h : Valid t) :
    ∃ e, TineTree.enclose dbg t = .ok e ∧ e.WF ∧ e.lowerBound = TineTree.lowerBound t ∧
      e.upperBound = TineTree.upperBound t ∧
      ∀ x, tcov t false (.fin x) = true → e.contains x = true := by
  rcases t with _ | ⟨x, _ | ⟨y, ts⟩⟩
  · exact ⟨.empty, rfl, trivial, rfl, rfl, by simp [tcov, cov]⟩
  · have h1 := h.1.1 x (by simp)
    have h2 := h.2
    rcases x with b | (p | p | _) | b <;>
      simp [Chain, Tine.isUpperBound, Tine.isLowerBound] at h2
    · refine ⟨.point p, by cases dbg <;> rfl, trivial, rfl, rfl, fun z hz => ?_⟩
      rw [tcov, cov] at hz
      split_ifs at hz with h3 h4
      · have := h4.1
        simp [Tine.key] at this
        simp [RawInterval.contains, this]
      · simp [cov, Tine.isLowerBound] at hz
    · exact absurd rfl h1
  · obtain ⟨L, z, hz⟩ : ∃ L z, y :: ts = L ++ [z] := by
      rcases List.eq_nil_or_concat (y :: ts) with h | ⟨L, z, h⟩
      · simp at h
      · exact ⟨L, z, by rw [h, List.concat_eq_append]⟩
    rw [hz] at h
    obtain ⟨s1, s2, s3⟩ := sorted_cons.1 h.1
    obtain ⟨c1, c2⟩ := h.2
    have hzs := s2 z (by simp)
    obtain ⟨s, _, c3, c4⟩ := chain_append.1 c2
    have k1 : (Tine.lower x.intoInner).key = x.key := by
      rcases x with b | (p | p | _) | b <;> simp [Tine.isUpperBound] at c1 <;> first
        | rfl
        | exact absurd rfl s1
    have k2 : (Tine.upper z.intoInner).key = z.key := by
      have hz2 := hzs.1
      have c4 : z.isLowerBound = false := c4
      rcases z with b | (p | p | _) | b <;> simp [Tine.isLowerBound] at c4 <;> first
        | rfl
        | exact absurd rfl hz2
    have hk : (Tine.lower x.intoInner).key < (Tine.upper z.intoInner).key := by
      rw [k1, k2]; exact hzs.2
    obtain ⟨b1, b2⟩ := new_bounds hk
    have hlast : (y :: ts).getLast? = some z := by rw [hz]; simp
    refine ⟨RawInterval.new x.intoInner z.intoInner, ?_, RawInterval.new_wf _ _, ?_, ?_, ?_⟩
    · simp only [TineTree.enclose, hlast]
    · rw [b1]; rfl
    · rw [b2, TineTree.upperBound, List.getLast?_cons_cons, hlast]; rfl
    · intro w hw
      rw [RawInterval.contains_iff_bounds]
      refine ⟨_, _, b1, b2, ?_, ?_⟩
      · exact head_admits c1 hw
      · refine last_admits (A := x :: L) h ?_
        rw [hz] at hw; exact hw

section Dense
variable [DenselyOrdered α] [NoMinOrder α] [NoMaxOrder α]

/-- Below every point of the enclosure there is a point of the tree. -/
theorem tree_below {x : Tine α} {ts : List (Tine α)} (h : Valid (x :: ts)) {z : α}
    (hz : x.intoInner.AdmitsAbove z) :
    ∃ y ≤ z, tcov (x :: ts) false (.fin y) = true := by
  obtain ⟨s1, s2, s3⟩ := sorted_cons.1 h.1
  obtain ⟨c1, c2⟩ := h.2
  have hnear : ∀ p, x.key = .fin p → x.inclAt = false → x.isLowerBound = true → p < z →
      ∃ y ≤ z, tcov (x :: ts) false (.fin y) = true := by
    intro p hp hi hl hpz
    obtain ⟨y, hy, hyz⟩ := near_right h p
    obtain ⟨w, hw1, hw2⟩ := exists_between (lt_min hy hpz)
    refine ⟨w, (hw2.trans_le (min_le_right _ _)).le, ?_⟩
    rw [hyz w hw1 (hw2.trans_le (min_le_left _ _)), tcov, ← hp, cov, if_neg (lt_irrefl _),
      if_neg (by simp), hl, cov_gt s2]
  have hat : ∀ p, x.key = .fin p → x.inclAt = true → p ≤ z →
      ∃ y ≤ z, tcov (x :: ts) false (.fin y) = true := by
    intro p hp hi hpz
    refine ⟨p, hpz, ?_⟩
    rw [tcov, ← hp, cov, if_neg (lt_irrefl _), if_pos ⟨rfl, rfl⟩, hi]
  rcases x with (a | a | _) | (a | a | _) | (a | a | _) <;> simp [Tine.isUpperBound] at c1
  · exact hat a rfl rfl hz
  · exact hnear a rfl rfl rfl hz
  · have : Nonempty α := ⟨z⟩
    obtain ⟨y, hy⟩ := near_bot h
    obtain ⟨w, hw⟩ := exists_lt (min y z)
    refine ⟨w, (hw.trans_le (min_le_right _ _)).le, ?_⟩
    rw [hy w (hw.trans_le (min_le_left _ _)), tcov, cov, if_neg (show ¬ Key.bot < (Tine.lower (.inf : Bound α)).key from lt_irrefl _),
      if_neg (by simp)]
    exact cov_gt s2
  · exact hat a rfl rfl hz
  · exact absurd rfl s1

theorem tree_above {A : List (Tine α)} {y : Tine α} (h : Valid (A ++ [y])) {z : α}
    (hz : y.intoInner.AdmitsBelow z) :
    ∃ w, z ≤ w ∧ tcov (A ++ [y]) false (.fin w) = true := by
  obtain ⟨s1, s2, s3⟩ := sorted_append.1 h.1
  obtain ⟨s4, -, -⟩ := sorted_cons.1 s2
  obtain ⟨m, c1, c2, c3⟩ := chain_append.1 h.2
  have hA : Lt A y.key := fun a ha => ⟨s1.1 a ha, s3 a ha y (by simp)⟩
  have hyl : y.isLowerBound = false := c3
  have hbef : bef false (A ++ [y]) y.key = y.isUpperBound := by
    rw [bef_lt hA c1, bef, if_pos (le_refl _), c2]
  have hnear : ∀ p, y.key = .fin p → y.isUpperBound = true → z < p →
      ∃ w, z ≤ w ∧ tcov (A ++ [y]) false (.fin w) = true := by
    intro p hp hl hpz
    obtain ⟨o⟩ := one h (.fin p)
    obtain ⟨v1, -, -⟩ := o.views
    obtain ⟨q, hq, hqz⟩ := near_left o
    obtain ⟨w, hw1, hw2⟩ := exists_between (max_lt hq hpz)
    refine ⟨w, ((le_max_right _ _).trans_lt hw1).le, ?_⟩
    rw [hqz w ((le_max_left _ _).trans_lt hw1) hw2, ← v1, ← hp, hbef, hl]
  have hat : ∀ p, y.key = .fin p → y.inclAt = true → z ≤ p →
      ∃ w, z ≤ w ∧ tcov (A ++ [y]) false (.fin w) = true := by
    intro p hp hi hpz
    refine ⟨p, hpz, ?_⟩
    rw [tcov, ← hp, cov_lt hA c1, cov, if_neg (lt_irrefl _), if_pos ⟨rfl, rfl⟩, hi]
  rcases y with (a | a | _) | (a | a | _) | (a | a | _) <;> simp [Tine.isLowerBound] at hyl
  · exact hat a rfl rfl hz
  · exact absurd rfl s4
  · exact hat a rfl rfl hz
  · exact hnear a rfl rfl hz
  · have : Nonempty α := ⟨z⟩
    obtain ⟨o⟩ := one h .top
    obtain ⟨v1, -, -⟩ := o.views
    obtain ⟨q, hq⟩ := near_top o
    obtain ⟨w, hw⟩ := exists_gt (max q z)
    refine ⟨w, ((le_max_right _ _).trans_lt hw).le, ?_⟩
    rw [hq w ((le_max_left _ _).trans_lt hw), ← v1]; exact hbef

/-- Every point of the enclosure lies between two points of the tree. -/
theorem enclose_between (dbg : Bool) {t : TineTree α} (h : Valid t) {e : RawInterval α}
    (he : TineTree.enclose dbg t = .ok e) {z : α} (hz : e.contains z = true) :
    ∃ y w, y ≤ z ∧ z ≤ w ∧ tcov t false (.fin y) = true ∧ tcov t false (.fin w) = true := by
  obtain ⟨e', he', -, hl, hu, -⟩ := enclose_ok dbg h
  rw [he] at he'; cases he'
  rw [RawInterval.contains_iff_bounds] at hz
  obtain ⟨l, u, z1, z2, z3, z4⟩ := hz
  rw [hl] at z1; rw [hu] at z2
  have h0 := h
  rcases t with _ | ⟨x, ts⟩
  · simp [TineTree.lowerBound] at z1
  · have : l = x.intoInner := by simpa [TineTree.lowerBound] using z1.symm
    subst this
    obtain ⟨y, hy1, hy2⟩ := tree_below h z3
    rcases List.eq_nil_or_concat (x :: ts) with hn | ⟨A, v, hA⟩
    · simp at hn
    · rw [List.concat_eq_append] at hA
      rw [hA] at z2 h ⊢
      rw [hA] at hy2
      have : u = v.intoInner := by simpa [TineTree.upperBound] using z2.symm
      subst this
      obtain ⟨w, hw1, hw2⟩ := tree_above h z4
      exact ⟨y, w, hy1, hw1, hy2, hw2⟩

end Dense
end TT
end NI
