import Verif.Props.Contract

/-!
# Exactly when C17, C18, C22, C25, C26, C30, C33 and the adjacency part of C65 hold
-/

set_option linter.unusedSimpArgs false
set_option linter.unusedVariables false
set_option linter.unusedSectionVars false

namespace NI
open Finite

section Interval
variable {α : Type} [LinearOrder α] [Finite α] [LawfulFinite α]

/-! ## C17: normal forms of one point set -/

/-- The four kinds of well formed intervals over a discrete type. -/
theorem RawInterval.normalized_kinds {a : RawInterval α} (h : a.WF) :
    (a.pts = ∅ ∧ a.normalized = .empty ∧ (∀ l r, a ≠ .opn l r) ∧ ∀ p, a ≠ .point p) ∨
    (∃ l r, succ l = some r ∧ a = .opn l r ∧ a.normalized = .closed r l ∧ a.pts = ∅) ∨
    (∃ p, a = .point p) ∨
    (∃ l u, l ≤ u ∧ a.normalized = .closed l u ∧ a.pts = Set.Icc l u ∧ ∀ p, a ≠ .point p) := by
  by_cases ho : ∃ l r, a = .opn l r
  · obtain ⟨l, r, rfl⟩ := ho
    have hlr : l < r := h
    have hn := (RawInterval.opn l r).normalized_pts
    cases h1 : succ l with
    | none =>
      rw [LawfulFinite.succ_none] at h1
      exact absurd (LawfulFinite.le_max r) (not_le.2 (h1 ▸ hlr))
    | some m =>
      cases h2 : pred r with
      | none =>
        rw [LawfulFinite.pred_none] at h2
        exact absurd (LawfulFinite.min_le l) (not_le.2 (h2 ▸ hlr))
      | some q =>
        have e : (RawInterval.opn l r).normalized = .closed m q := by
          simp [RawInterval.normalized, h1, h2]
        rw [e] at hn ⊢
        rcases le_or_gt m q with hmq | hmq
        · exact .inr (.inr (.inr ⟨m, q, hmq, rfl, hn.symm, by simp⟩))
        · right; left
          have hm := LawfulFinite.succ_some l m h1
          have hq := LawfulFinite.pred_some r q h2
          have hrm : r = m := by
            refine le_antisymm ?_ (hm.2 r hlr)
            by_contra hc
            exact absurd (hq.2 m (not_le.1 hc)) (not_le.2 hmq)
          subst hrm
          have hql : q = l := by
            refine le_antisymm ?_ (hq.2 l hlr)
            by_contra hc
            exact absurd (hm.2 q (not_le.1 hc)) (not_le.2 hmq)
          subst hql
          refine ⟨q, r, h1, rfl, rfl, ?_⟩
          rw [← hn]
          ext x
          exact ⟨fun hx => absurd (le_trans hx.1 hx.2) (not_le.2 hmq), fun hx => hx.elim⟩
  · have ho' : ∀ l r, a ≠ .opn l r := fun l r e => ho ⟨l, r, e⟩
    have hr := Interval.real_normalized h ho'
    have hn := a.normalized_pts
    by_cases hp : ∃ p, a = .point p
    · exact .inr (.inr (.inl hp))
    · have hp' : ∀ p, a ≠ .point p := fun p e => hp ⟨p, e⟩
      rcases a.normalized_cases with e | ⟨p, e⟩ | ⟨l, u, e⟩
      · left
        rw [e] at hn
        exact ⟨hn.symm, e, ho', hp'⟩
      · exfalso
        cases a <;> simp only [RawInterval.normalized] at e
        case point q => exact hp' q rfl
        case opn l r => exact ho' l r rfl
        case leftOpen l r => cases h1 : succ l <;> simp [h1] at e
        case rightOpen l r => cases h1 : pred r <;> simp [h1] at e
        case upTo r => cases h1 : pred r <;> simp [h1] at e
        case upFrom r => cases h1 : succ r <;> simp [h1] at e
        all_goals cases e
      · refine .inr (.inr (.inr ⟨l, u, ?_, e, ?_, hp'⟩))
        · rw [e] at hr; exact Interval.real_mk_closed.1 hr
        · rw [e] at hn; exact hn.symm

/-- Intervals with the same points have the same normal form exactly if both or none of them is a
`Point`, should they have one point, and if both or none of them is the same `Open`, should they have
none. -/
theorem C17_exact_iff (a b : RawInterval α) (ha : a.WF) (hb : b.WF) (h : a.pts = b.pts) :
    a.normalized = b.normalized ↔
      (∀ p, a.pts = {p} → (a = .point p ↔ b = .point p)) ∧
      (a.pts = ∅ → ∀ l r, a = .opn l r ↔ b = .opn l r) := by
  have ne1 : ∀ {l u : α}, l ≤ u → Set.Icc l u ≠ ∅ := fun {l u} h e => by
    have : l ∈ Set.Icc l u := ⟨le_refl _, h⟩
    rw [e] at this; exact this
  have ne2 : ∀ {p : α}, (RawInterval.point p).pts ≠ ∅ := fun {p} e => by
    have : p ∈ (RawInterval.point p).pts := rfl
    rw [e] at this; exact this
  have pt : ∀ {p : α}, (RawInterval.point p).pts = {p} := rfl
  have np : (∅ : Set α) ≠ {minimum} := fun e => by
    have : (minimum : α) ∈ ({minimum} : Set α) := rfl
    rw [← e] at this; exact this
  rcases RawInterval.normalized_kinds ha with ⟨a1, a2, a3, a4⟩ | ⟨l, r, a1, rfl, a2, a3⟩ | ⟨p, rfl⟩ |
      ⟨l, u, a1, a2, a3, a4⟩ <;>
    rcases RawInterval.normalized_kinds hb with ⟨b1, b2, b3, b4⟩ | ⟨l', r', b1, rfl, b2, b3⟩ |
      ⟨p', rfl⟩ | ⟨l', u', b1, b2, b3, b4⟩
  · simp [a2, b2, a3, b3, a4, b4]
  · rw [a2, b2]
    refine ⟨fun e => (by cases e), fun ⟨_, e⟩ => absurd ((e a1 l' r').2 rfl) (a3 _ _)⟩
  · exact absurd (h ▸ a1) ne2
  · exact absurd (b3 ▸ h ▸ a1) (ne1 b1)
  · rw [a2, b2]
    refine ⟨fun e => (by cases e), fun ⟨_, e⟩ => absurd ((e a3 l r).1 rfl) (b3 _ _)⟩
  · rw [a2, b2]
    refine ⟨fun e => ?_, fun ⟨_, e⟩ => ?_⟩
    · cases e; simp
    · have := (e a3 l r).1 rfl
      cases this; rfl
  · exact absurd (h ▸ a3) ne2
  · exact absurd (b3 ▸ h ▸ a3) (ne1 b1)
  · exact absurd (h.symm ▸ b1) ne2
  · exact absurd (h.symm ▸ b3) ne2
  · have : p = p' := by
      have : p ∈ (RawInterval.point p').pts := h ▸ rfl
      exact this
    subst this; simp
  · rw [b2]
    refine ⟨fun e => (by cases e), fun ⟨e, _⟩ => absurd ((e p rfl).1 rfl) (b4 p)⟩
  · exact absurd (a3 ▸ h.symm ▸ b1) (ne1 a1)
  · exact absurd (a3 ▸ h.symm ▸ b3) (ne1 a1)
  · rw [a2]
    refine ⟨fun e => (by cases e), fun ⟨e, _⟩ => absurd ((e p' h).2 rfl) (a4 p')⟩
  · have hh : Set.Icc l u = Set.Icc l' u' := a3 ▸ b3 ▸ h
    have hl : l = l' := le_antisymm
      ((hh.symm ▸ ⟨le_refl _, b1⟩ : l' ∈ Set.Icc l u).1)
      ((hh ▸ ⟨le_refl _, a1⟩ : l ∈ Set.Icc l' u').1)
    have hu : u = u' := le_antisymm
      ((hh ▸ ⟨a1, le_refl _⟩ : u ∈ Set.Icc l' u').2)
      ((hh.symm ▸ ⟨b1, le_refl _⟩ : u' ∈ Set.Icc l u).2)
    subst hl; subst hu
    rw [a2, b2]
    refine ⟨fun _ => ⟨fun p _ => by simp [a4, b4], fun e => absurd (a3 ▸ e) (ne1 a1)⟩, fun _ => rfl⟩

example : (RawInterval.leftOpen (u8 3) (u8 4)).WF ∧ (RawInterval.opn (u8 3) (u8 5)).WF ∧
    (RawInterval.leftOpen (u8 3) (u8 4)).normalized = (RawInterval.opn (u8 3) (u8 5)).normalized ∧
    (RawInterval.point (u8 4)).normalized ≠ (RawInterval.opn (u8 3) (u8 5)).normalized := by
  refine ⟨by decide, by decide, by decide, by decide⟩

/-! ## C18: denormalization -/

/-- `denormalize` keeps the points exactly of the intervals other than `To` and `From`. -/
theorem C18_exact_iff (i : RawInterval α) :
    (∀ x, i.denormalized.contains x = i.contains x) ↔ ∀ p, i ≠ .to p ∧ i ≠ .frm p := by
  refine ⟨fun h p => ⟨?_, ?_⟩, fun h => C18_denormalize_pts_partial i (fun p => (h p).1) fun p => (h p).2⟩
  · rintro rfl
    have h1 : (RawInterval.to p).denormalized.contains p = true := by
      rw [h]; simp [RawInterval.contains]
    obtain ⟨q, hq, hlt⟩ := ((C18_loss p p).1).1 h1
    exact absurd hlt (not_lt.2 (LawfulFinite.pred_some p q hq).1.le)
  · rintro rfl
    have h1 : (RawInterval.frm p).denormalized.contains p = true := by
      rw [h]; simp [RawInterval.contains]
    obtain ⟨q, hq, hlt⟩ := ((C18_loss p p).2).1 h1
    exact absurd hlt (not_lt.2 (LawfulFinite.succ_some p q hq).1.le)

example : ¬ (∀ x : U8, (RawInterval.to x).denormalized.contains (u8 5) = (RawInterval.to x).contains (u8 5)) ∧
    ∀ p : U8, RawInterval.upTo (u8 5) ≠ .to p ∧ RawInterval.upTo (u8 5) ≠ .frm p :=
  ⟨fun h => absurd (h (u8 5)) (by decide), fun p => ⟨nofun, nofun⟩⟩

/-! ## C22: ranges -/

/-- The conversion of `a..b` is right exactly if `a ≠ b`. -/
theorem C22_exact_iff (a b : α) :
    (∀ x, (Interval.ofRange a b).contains x = true ↔ a ≤ x ∧ x < b) ↔ a ≠ b := by
  refine ⟨?_, fun h x => (C22_ranges_partial a b x).1 h⟩
  rintro h rfl
  have h1 : (Interval.ofRange a a).contains a = true := by
    simp [Interval.ofRange, RawInterval.mkRightOpen, RawInterval.normalized, Interval.contains,
      RawInterval.contains]
  exact absurd ((h a).1 h1).2 (lt_irrefl a)

example : (Interval.ofRange (u8 5) (u8 5)).contains (u8 5) = true ∧
    (Interval.ofRange (u8 5) (u8 4)).contains (u8 5) = false := by decide

/-! ## C25: the kinds of intervals -/

/-- `is_degenerate` is right about an interval exactly if it is not one point held as a closed interval;
`is_proper` is right exactly if the interval is neither that nor the open interval between
neighbours. -/
theorem C25_exact_iff (i : Interval α) (h : i.Obtainable) :
    ((i.isDegenerate = true ↔ ∃ x, ∀ y, i.contains y = true ↔ y = x) ↔ ∀ p, i.raw ≠ .closed p p) ∧
    ((i.isProper = true ↔ ∃ x y, x ≠ y ∧ i.contains x = true ∧ i.contains y = true) ↔
      (∀ p, i.raw ≠ .closed p p) ∧ ∀ l u, succ l = some u → i ≠ .mkOpen l u) := by
  rw [← Interval.real_iff h]
  have c0 : ∀ x : α, (⟨.empty⟩ : Interval α).contains x = false := fun x => rfl
  have c1 : ∀ p x : α, (⟨.point p⟩ : Interval α).contains x = true ↔ x = p := fun p x => by
    simp [Interval.contains, RawInterval.contains, eq_comm]
  have c2 : ∀ l u x : α, (⟨.closed l u⟩ : Interval α).contains x = true ↔ l ≤ x ∧ x ≤ u := fun l u x => by
    simp [Interval.contains, RawInterval.contains]
  rcases Interval.obtainable_cases h with rfl | ⟨p, rfl⟩ | ⟨l, u, rfl, hlu⟩
  · simp [Interval.isDegenerate, Interval.isProper, c0, Interval.real_mk_empty]
  · simp only [Interval.isDegenerate, Interval.isProper, c1]
    refine ⟨⟨fun _ q e => (by cases e), fun _ => ⟨fun _ => ⟨p, fun y => Iff.rfl⟩, fun _ => trivial⟩⟩,
      ⟨fun _ => ⟨fun q e => (by cases e), Interval.real_mk_point p⟩, fun _ => ⟨fun e => (by cases e), ?_⟩⟩⟩
    rintro ⟨x, y, hxy, rfl, rfl⟩
    exact absurd rfl hxy
  · simp only [Interval.isDegenerate, Interval.isProper, c2, Interval.real_mk_closed]
    constructor
    · refine ⟨fun hi p e => ?_, fun hn => ⟨fun e => (by cases e), ?_⟩⟩
      · cases e
        have := hi.2 ⟨l, fun y => ⟨fun hy => le_antisymm hy.2 hy.1, fun hy => ⟨hy.ge, hy.le⟩⟩⟩
        cases this
      · rintro ⟨x, hx⟩
        obtain ⟨h1, h2⟩ := (hx x).2 rfl
        have e1 := (hx l).1 ⟨le_refl _, le_trans h1 h2⟩
        have e2 := (hx u).1 ⟨le_trans h1 h2, le_refl _⟩
        exact absurd (by rw [e1, e2]) (hn x)
    · refine ⟨fun hi => ?_, fun ⟨hn, hle⟩ => ⟨fun _ => ?_, fun _ => rfl⟩⟩
      · obtain ⟨x, y, hxy, h1, h2⟩ := hi.1 rfl
        refine ⟨fun p e => ?_, le_trans h1.1 h1.2⟩
        cases e
        exact hxy ((le_antisymm h1.2 h1.1).trans (le_antisymm h2.1 h2.2))
      · refine ⟨l, u, fun e => ?_, ⟨le_refl _, hle⟩, ⟨hle, le_refl _⟩⟩
        exact hn l (by rw [e])

example : (Interval.mkLeftOpen (u8 3) (u8 4)).Obtainable ∧
    (Interval.mkLeftOpen (u8 3) (u8 4)).raw = .closed (u8 4) (u8 4) ∧
    (Interval.mkLeftOpen (u8 3) (u8 4)).isDegenerate = false :=
  ⟨.mkLeftOpen _ _, by decide⟩

/-! ## C26: equality -/

/-- Equality of intervals is decided by their points, by `is_degenerate`, and by `infimum`. -/
theorem C26_exact_iff (a b : Interval α) (ha : a.Obtainable) (hb : b.Obtainable) :
    a = b ↔ (∀ x, a.contains x = b.contains x) ∧ a.isDegenerate = b.isDegenerate ∧
      a.infimum = b.infimum := by
  refine ⟨by rintro rfl; exact ⟨fun _ => rfl, rfl, rfl⟩, ?_⟩
  rintro ⟨hx, hd, hi⟩
  have c2 : ∀ l u x : α, (⟨.closed l u⟩ : Interval α).contains x = true ↔ l ≤ x ∧ x ≤ u := fun l u x => by
    simp [Interval.contains, RawInterval.contains]
  rcases Interval.obtainable_cases ha with rfl | ⟨p, rfl⟩ | ⟨l, u, rfl, hlu⟩ <;>
    rcases Interval.obtainable_cases hb with rfl | ⟨p', rfl⟩ | ⟨l', u', rfl, hlu'⟩
  · rfl
  · cases hd
  · cases hi
  · cases hd
  · have : p = p' := Option.some.inj hi
    rw [this]
  · cases hd
  · cases hi
  · cases hd
  · have : l = l' := Option.some.inj hi
    subst this
    have key : ∀ {v w : α}, (l ≤ v ∨ succ v = some l) → (l ≤ w ∨ succ w = some l) →
        (∀ x, (⟨.closed l v⟩ : Interval α).contains x = (⟨.closed l w⟩ : Interval α).contains x) →
        v ≤ w := by
      intro v w hv hw hx
      rcases hv with hv | hv
      · exact ((c2 l w v).1 (hx v ▸ (c2 l v v).2 ⟨hv, le_refl _⟩)).2
      · rcases hw with hw | hw
        · exact le_trans (LawfulFinite.succ_some v l hv).1.le hw
        · have e := (pred_of_succ hv).symm.trans (pred_of_succ hw)
          cases e; exact le_refl _
    rw [le_antisymm (key hlu hlu' hx) (key hlu' hlu fun x => (hx x).symm)]

example : (Interval.mkOpen (u8 3) (u8 5)).Obtainable ∧ (Interval.point (u8 4)).Obtainable ∧
    (∀ x : U8, (Interval.mkOpen (u8 3) (u8 5)).contains x = (Interval.point (u8 4)).contains x) ∧
    (Interval.mkOpen (u8 3) (u8 5)).isDegenerate ≠ (Interval.point (u8 4)).isDegenerate := by
  refine ⟨.mkOpen _ _, .point _, fun x => ?_, by decide⟩
  rw [show Interval.mkOpen (u8 3) (u8 5) = ⟨.closed (u8 4) (u8 4)⟩ by decide, Bool.eq_iff_iff]
  simp only [Interval.contains, RawInterval.contains, Interval.point, Bool.and_eq_true, decide_eq_true_eq]
  exact ⟨fun h => le_antisymm h.2 h.1, fun h => h ▸ ⟨le_refl _, le_refl _⟩⟩

/-! ## C30: the smallest enclosing interval -/

/-- What `enclose` does with two intervals that do not report being empty. -/
theorem Interval.enclose_closed (la ua lb ub x : α) (a b : Interval α)
    (ha : a.raw = .closed la ua ∨ (a.raw = .point la ∧ ua = la))
    (hb : b.raw = .closed lb ub ∨ (b.raw = .point lb ∧ ub = lb)) :
    (a.enclose b).contains x = true ↔ (la ≤ x ∨ lb ≤ x) ∧ (x ≤ ua ∨ x ≤ ub) := by
  have a1 : a.raw.lowerBound = some (.incl la) := by rcases ha with h | ⟨h, -⟩ <;> rw [h] <;> rfl
  have a2 : a.raw.upperBound = some (.incl ua) := by rcases ha with h | ⟨h, rfl⟩ <;> rw [h] <;> rfl
  have b1 : b.raw.lowerBound = some (.incl lb) := by rcases hb with h | ⟨h, -⟩ <;> rw [h] <;> rfl
  have b2 : b.raw.upperBound = some (.incl ub) := by rcases hb with h | ⟨h, rfl⟩ <;> rw [h] <;> rfl
  show x ∈ (a.enclose b).pts ↔ _
  rw [Interval.pts_eq, Interval.enclose, Interval.ofRaw, RawInterval.normalized_idem,
      RawInterval.normalized_pts, RawInterval.enclose_of_bounds a1 a2 b1 b2, (C02_new _ _).2,
      Bound.leastUnion_above, Bound.greatestUnion_below]
  have n1 : ∀ y, (Bound.incl la).leastUnion (.incl lb) ≠ .excl y := by
    intro y; simp only [Bound.leastUnion]; split_ifs <;> simp
  have n2 : ∀ y, (Bound.incl ua).greatestUnion (.incl ub) ≠ .excl y := by
    intro y; simp only [Bound.greatestUnion]; split_ifs <;> simp
  simp [n1, n2, Bound.AdmitsAbove, Bound.AdmitsBelow]

theorem Interval.enclose_comm (a b : Interval α) : a.enclose b = b.enclose a := by
  rw [Interval.enclose, Interval.enclose, RawInterval.enclose_comm]

/-- Obtainable intervals that do not report being empty, by their ends. -/
theorem Interval.ends_cases {i : Interval α} (h : i.Obtainable) :
    i = ⟨.empty⟩ ∨ ∃ l u, (i.raw = .closed l u ∨ (i.raw = .point l ∧ u = l)) ∧
      (∀ x, x ∈ i.pts ↔ l ≤ x ∧ x ≤ u) ∧ i.infimum = some l ∧ i.supremum = some u ∧
      (l ≤ u ∨ (succ u = some l ∧ i = .mkOpen u l)) := by
  rcases Interval.obtainable_cases h with rfl | ⟨p, rfl⟩ | ⟨l, u, rfl, hlu⟩
  · exact .inl rfl
  · refine .inr ⟨p, p, .inr ⟨rfl, rfl⟩, fun x => ?_, rfl, rfl, .inl (le_refl _)⟩
    rw [Interval.pts_eq]
    exact ⟨fun h => ⟨ge_of_eq h, le_of_eq h⟩, fun h => le_antisymm h.2 h.1⟩
  · refine .inr ⟨l, u, .inl rfl, fun x => ?_, rfl, rfl, hlu.imp_right fun h => ⟨h, ?_⟩⟩
    · rw [Interval.pts_eq]; exact Iff.rfl
    · rw [Interval.mkOpen_succ h]

theorem Interval.enclose_phantom {a b : Interval α} (hb : b.Obtainable) {l m : α}
    (hlm : succ l = some m) (e : a = .mkOpen l m)
    (h : ∀ j : Interval α, a.pts ⊆ j.pts → b.pts ⊆ j.pts → (a.enclose b).pts ⊆ j.pts) :
    b.isEmpty = true ∨ b = a ∨ (∃ x ∈ b.pts, x ≤ m) ∧ ∃ y ∈ b.pts, l ≤ y := by
  have hlt := (LawfulFinite.succ_some l m hlm).1
  rw [Interval.mkOpen_succ hlm] at e
  have pa : ∀ x, x ∉ a.pts := by
    intro x hx
    rw [e, Interval.pts_eq] at hx
    exact absurd (le_trans hx.1 hx.2) (not_le.2 hlt)
  rcases Interval.ends_cases hb with rfl | ⟨lb, ub, hr, hp, -, -, hlu⟩
  · exact .inl rfl
  have he : ∀ x, x ∈ (a.enclose b).pts ↔ (m ≤ x ∨ lb ≤ x) ∧ (x ≤ l ∨ x ≤ ub) := fun x =>
    Interval.enclose_closed m l lb ub x a b (.inl (by rw [e])) hr
  rcases hlu with hlu | ⟨hs, e'⟩
  · right; right
    have hj := h b (fun x hx => absurd hx (pa x)) (fun _ hx => hx)
    constructor
    · refine ⟨lb, (hp lb).2 ⟨le_refl _, hlu⟩, ?_⟩
      by_contra hc
      exact hc ((hp m).1 (hj ((he m).2 ⟨.inl (le_refl _), .inr (le_trans (not_le.1 hc).le hlu)⟩))).1
    · refine ⟨ub, (hp ub).2 ⟨hlu, le_refl _⟩, ?_⟩
      by_contra hc
      exact hc ((hp l).1 (hj ((he l).2 ⟨.inr (le_trans hlu (not_le.1 hc).le), .inl (le_refl _)⟩))).2
  · right; left
    have hub := LawfulFinite.succ_some ub lb hs
    have hj := h .empty (fun x hx => absurd hx (pa x)) (fun x hx => by
      exact absurd (le_trans ((hp x).1 hx).1 ((hp x).1 hx).2) (not_le.2 hub.1))
    have none : ∀ x, x ∉ (a.enclose b).pts := fun x hx => by
      have := hj hx
      rw [Interval.pts_eq] at this; exact this
    rcases lt_trichotomy ub l with hc | hc | hc
    · exact absurd ((he l).2 ⟨.inr (hub.2 l hc), .inl (le_refl _)⟩) (none l)
    · subst hc
      rw [e', Interval.mkOpen_succ hs, e]
      rw [hs] at hlm; cases hlm; rfl
    · exact absurd ((he m).2 ⟨.inl (le_refl _), .inr ((LawfulFinite.succ_some l m hlm).2 ub hc)⟩) (none m)

theorem Interval.enclose_phantom' {a b : Interval α} (hb : b.Obtainable) {l m : α}
    (hlm : succ l = some m) (e : a = .mkOpen l m)
    (h : b.isEmpty = true ∨ b = a ∨ (∃ x ∈ b.pts, x ≤ m) ∧ ∃ y ∈ b.pts, l ≤ y) :
    (a.enclose b).pts ⊆ b.pts := by
  have hlt := (LawfulFinite.succ_some l m hlm).1
  rw [Interval.mkOpen_succ hlm] at e
  rcases Interval.ends_cases hb with rfl | ⟨lb, ub, hr, hp, -, -, hlu⟩
  · intro x hx
    rw [e, Interval.pts_eq] at hx
    simp [Interval.enclose, Interval.ofRaw, RawInterval.enclose, RawInterval.lowerBound,
      RawInterval.upperBound, RawInterval.new, RawInterval.mkClosed, hlt, not_lt.2 hlt.le, hlt.ne, hlt.ne',
      RawInterval.normalized, RawInterval.pts] at hx
  have he : ∀ x, x ∈ (a.enclose b).pts ↔ (m ≤ x ∨ lb ≤ x) ∧ (x ≤ l ∨ x ≤ ub) := fun x =>
    Interval.enclose_closed m l lb ub x a b (.inl (by rw [e])) hr
  have hne : b.isEmpty = false := by
    rcases hr with hr | ⟨hr, -⟩ <;> rw [Interval.isEmpty, hr]
  rw [hne] at h
  intro x hx
  rw [he] at hx
  rw [hp]
  rcases h with h | h | ⟨⟨y, hy, hym⟩, z, hz, hlz⟩
  · cases h
  · rw [h, e] at hr
    rcases hr with hr | ⟨hr, -⟩
    · cases hr
      simp only [or_self] at hx
      exact hx
    · cases hr
  · rw [hp] at hy hz
    exact ⟨hx.1.elim (le_trans (le_trans hy.1 hym)) id, hx.2.elim (fun h => le_trans h (le_trans hlz hz.2)) id⟩

/-- `enclose` is minimal exactly if neither argument is the open interval between two neighbours `l` and
`m`, or the other one is empty, the same, or reaches from `m` or below to `l` or above. -/
theorem C30_exact_iff (a b : Interval α) (ha : a.Obtainable) (hb : b.Obtainable) :
    (∀ j : Interval α, a.pts ⊆ j.pts → b.pts ⊆ j.pts → (a.enclose b).pts ⊆ j.pts) ↔
    ∀ l m, succ l = some m →
      (a = .mkOpen l m → b.isEmpty = true ∨ b = a ∨ (∃ x ∈ b.pts, x ≤ m) ∧ ∃ y ∈ b.pts, l ≤ y) ∧
      (b = .mkOpen l m → a.isEmpty = true ∨ a = b ∨ (∃ x ∈ a.pts, x ≤ m) ∧ ∃ y ∈ a.pts, l ≤ y) := by
  constructor
  · intro h l m hlm
    refine ⟨fun e => Interval.enclose_phantom hb hlm e h, fun e => Interval.enclose_phantom ha hlm e ?_⟩
    intro j h1 h2
    rw [Interval.enclose_comm]
    exact h j h2 h1
  · intro h j ja jb
    by_cases ra : a.Real
    · by_cases rb : b.Real
      · exact (C30_enclose_partial a b ha hb).2.1 ra rb j ja jb
      · rw [Interval.real_iff hb] at rb
        push Not at rb
        obtain ⟨l, m, hlm, e⟩ := rb
        rw [Interval.enclose_comm]
        exact (Interval.enclose_phantom' ha hlm e ((h l m hlm).2 e)).trans ja
    · rw [Interval.real_iff ha] at ra
      push Not at ra
      obtain ⟨l, m, hlm, e⟩ := ra
      exact (Interval.enclose_phantom' hb hlm e ((h l m hlm).1 e)).trans jb

example : (Interval.mkOpen (u8 3) (u8 4)).enclose (.mkClosed (u8 1) (u8 9)) = .mkClosed (u8 1) (u8 9) ∧
    (Interval.mkOpen (u8 3) (u8 4)).enclose (.mkClosed (u8 6) (u8 9)) = .mkClosed (u8 4) (u8 9) := by
  decide

/-! ## C65: adjacency -/

/-- `is_adjacent_to` is right exactly if no open interval between two neighbours is compared with an
interval that starts at the lower or ends at the upper neighbour. -/
theorem C65_adjacent_iff (a b : Interval α) (ha : a.Obtainable) (hb : b.Obtainable) :
    (a.isAdjacentTo b = true ↔ ∃ m, (IsLeast a.pts m ∧ IsGreatest b.pts m) ∨
      (IsGreatest a.pts m ∧ IsLeast b.pts m)) ↔
    ∀ l m, succ l = some m →
      (a = .mkOpen l m → b.infimum ≠ some l ∧ b.supremum ≠ some m) ∧
      (b = .mkOpen l m → a.infimum ≠ some l ∧ a.supremum ≠ some m) := by
  have noe : ∀ {l m : α} {i : Interval α}, succ l = some m → i = .mkOpen l m → ∀ x, x ∉ i.pts := by
    intro l m i h e x hx
    rw [e, Interval.mkOpen_succ h, Interval.pts_eq] at hx
    exact absurd (le_trans hx.1 hx.2) (not_le.2 (LawfulFinite.succ_some l m h).1)
  have ends : ∀ {l m : α} {i : Interval α}, succ l = some m → i = .mkOpen l m →
      i.raw.lowerBound = some (.incl m) ∧ i.raw.upperBound = some (.incl l) := by
    intro l m i h e
    rw [e, Interval.mkOpen_succ h]; exact ⟨rfl, rfl⟩
  have bnd : ∀ {i : Interval α}, i.Obtainable → i = ⟨.empty⟩ ∨ ∃ l u,
      i.raw.lowerBound = some (.incl l) ∧ i.raw.upperBound = some (.incl u) ∧
      i.infimum = some l ∧ i.supremum = some u := by
    intro i hi
    rcases Interval.obtainable_cases hi with rfl | ⟨p, rfl⟩ | ⟨l, u, rfl, -⟩
    · exact .inl rfl
    · exact .inr ⟨p, p, rfl, rfl, rfl, rfl⟩
    · exact .inr ⟨l, u, rfl, rfl, rfl, rfl⟩
  have adj : ∀ {l m : α} {i k : Interval α}, succ l = some m → i = .mkOpen l m → k.Obtainable →
      (i.isAdjacentTo k = true ↔ k.infimum = some l ∨ k.supremum = some m) := by
    intro l m i k h e hk
    obtain ⟨h1, h2⟩ := ends h e
    rcases bnd hk with rfl | ⟨c, d, k1, k2, k3, k4⟩
    · simp [Interval.isAdjacentTo, RawInterval.isAdjacentTo, h1, h2, RawInterval.lowerBound,
        RawInterval.upperBound, Interval.infimum, RawInterval.infimum, Interval.supremum,
        RawInterval.supremum]
    · simp only [Interval.isAdjacentTo, RawInterval.isAdjacentTo, h1, h2, k1, k2, k3, k4,
        Bound.isUnionAdjacentTo, Option.some.injEq]
      constructor
      · intro h; rw [Bool.or_eq_true, beq_iff_eq, beq_iff_eq] at h
        grind
      · intro h; rw [Bool.or_eq_true, beq_iff_eq, beq_iff_eq]
        grind
  have none : ∀ {l m : α} {i k : Interval α}, succ l = some m → i = .mkOpen l m → k.Obtainable →
      ((i.isAdjacentTo k = true ↔ False) ↔ k.infimum ≠ some l ∧ k.supremum ≠ some m) := by
    intro l m i k h e hk
    rw [adj h e hk, iff_false, not_or]
  by_cases ra : a.Real
  · by_cases rb : b.Real
    · refine iff_of_true (C65_adjacent_partial a b ha hb ra rb).1 fun l m h => ⟨fun e => ?_, fun e => ?_⟩
      · exact absurd e ((Interval.real_iff ha).1 ra l m h)
      · exact absurd e ((Interval.real_iff hb).1 rb l m h)
    · have rb' := rb
      rw [Interval.real_iff hb] at rb
      push Not at rb
      obtain ⟨l, m, hlm, e⟩ := rb
      have f : (∃ m, (IsLeast a.pts m ∧ IsGreatest b.pts m) ∨ (IsGreatest a.pts m ∧ IsLeast b.pts m)) ↔
          False := by
        refine ⟨?_, False.elim⟩
        rintro ⟨x, ⟨-, h⟩ | ⟨-, h⟩⟩ <;> exact noe hlm e x h.1
      have sym : a.isAdjacentTo b = b.isAdjacentTo a := (C08_symm a.raw b.raw).2.2
      rw [f, sym, none hlm e ha]
      constructor
      · intro h l' m' hlm'
        refine ⟨fun e' => absurd e' ((Interval.real_iff ha).1 ra l' m' hlm'), fun e' => ?_⟩
        have := e.symm.trans e'
        rw [Interval.mkOpen_succ hlm, Interval.mkOpen_succ hlm'] at this
        cases this; exact h
      · intro h; exact (h l m hlm).2 e
  · rw [Interval.real_iff ha] at ra
    push Not at ra
    obtain ⟨l, m, hlm, e⟩ := ra
    have f : (∃ m, (IsLeast a.pts m ∧ IsGreatest b.pts m) ∨ (IsGreatest a.pts m ∧ IsLeast b.pts m)) ↔
        False := by
      refine ⟨?_, False.elim⟩
      rintro ⟨x, ⟨h, -⟩ | ⟨h, -⟩⟩ <;> exact noe hlm e x h.1
    rw [f, none hlm e hb]
    constructor
    · intro h l' m' hlm'
      refine ⟨fun e' => ?_, fun e' => ?_⟩
      · have := e.symm.trans e'
        rw [Interval.mkOpen_succ hlm, Interval.mkOpen_succ hlm'] at this
        cases this; exact h
      · have b1 : b.infimum = some m' := by rw [e', Interval.mkOpen_succ hlm']; rfl
        have b2 : b.supremum = some l' := by rw [e', Interval.mkOpen_succ hlm']; rfl
        have a1 : a.infimum = some m := by rw [e, Interval.mkOpen_succ hlm]; rfl
        have a2 : a.supremum = some l := by rw [e, Interval.mkOpen_succ hlm]; rfl
        rw [b1, b2] at h
        rw [a1, a2]
        exact ⟨h.2.symm, h.1.symm⟩
    · intro h; exact (h l m hlm).1 e

example : (Interval.mkOpen (u8 3) (u8 4)).isAdjacentTo (.mkClosed (u8 3) (u8 9)) = true ∧
    (Interval.mkOpen (u8 3) (u8 4)).isAdjacentTo (.mkClosed (u8 4) (u8 9)) = false := by
  decide

/-! ## C33: size -/

/-- `size` is `None` exactly for the empty interval; for any other it is the difference of supremum and
infimum, or an overflow exactly if that is not a value of the type. -/
theorem C33_exact_iff {lo hi : Int} [Fact (lo ≤ hi)] (i : Interval (MInt lo hi)) (h : i.Obtainable) :
    (i.size MInt.sub = .ok none ↔ i.isEmpty = true) ∧
    ∀ l u : MInt lo hi, i.infimum = some l → i.supremum = some u →
      (∀ d : MInt lo hi, i.size MInt.sub = .ok (some d) ↔ d.1 = u.1 - l.1) ∧
      (i.size MInt.sub = .error .overflow ↔ ¬ (lo ≤ u.1 - l.1 ∧ u.1 - l.1 ≤ hi)) := by
  have key : ∀ l u : MInt lo hi, i.infimum = some l → i.supremum = some u →
      i.size MInt.sub = if h : lo ≤ u.1 - l.1 ∧ u.1 - l.1 ≤ hi then .ok (some ⟨u.1 - l.1, h⟩)
        else .error .overflow := by
    intro l u h1 h2
    simp only [Interval.size, h1, h2, MInt.sub, MInt.checkedSub]
    split_ifs <;> rfl
  refine ⟨?_, fun l u h1 h2 => ?_⟩
  · rcases Interval.ends_cases h with rfl | ⟨l, u, hr, -, h1, h2, -⟩
    · exact iff_of_true rfl rfl
    · have hne : i.isEmpty = false := by
        rcases hr with hr | ⟨hr, -⟩ <;> rw [Interval.isEmpty, hr]
      rw [key l u h1 h2, hne]
      split_ifs <;> simp
  · rw [key l u h1 h2]
    refine ⟨fun d => ?_, by split_ifs with hc <;> simp [hc, -not_and, -tsub_le_iff_right]⟩
    split_ifs with hc
    · simp only [Except.ok.injEq, Option.some.injEq]
      exact ⟨fun e => by rw [← e], fun e => Subtype.ext e.symm⟩
    · refine ⟨fun e => (by cases e), fun e => ?_⟩
      exact absurd (e ▸ d.2) hc

example : (Interval.mkClosed (MInt.lit (-100) : I8) (MInt.lit 27)).size MInt.sub = .ok (some (MInt.lit 127)) ∧
    (Interval.mkClosed (MInt.lit (-100) : I8) (MInt.lit 28)).size MInt.sub = .error .overflow := by
  decide

end Interval
end NI
