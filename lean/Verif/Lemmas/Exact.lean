import Verif.Lemmas.More
import Verif.Props.SelectionMore

/-! # Exact effect of `intersect` and of `Selection::minus` -/

set_option linter.unusedSimpArgs false
set_option linter.unusedVariables false
set_option linter.unnecessarySeqFocus false
set_option linter.unusedSectionVars false
set_option linter.unusedTactic false
set_option linter.unreachableTactic false
set_option linter.unnecessarySimpa false

namespace NI
open Finite

/-- `LockStep` with partial indexing. -/
theorem lockStep_iff {β γ : Type _} {meets : β → γ → Bool} {as : List β} {bs : List γ} :
    LockStep meets as bs ↔ ∀ p i k j, as[p]? = some i → bs[k]? = some j → meets i j = true →
      p = missed meets as (bs.take k) := by
  constructor
  · intro h p i k j hp hk hm
    obtain ⟨hp1, rfl⟩ := List.getElem?_eq_some_iff.1 hp
    obtain ⟨hk1, rfl⟩ := List.getElem?_eq_some_iff.1 hk
    exact h ⟨p, hp1⟩ ⟨k, hk1⟩ hm
  · intro h p k hm
    exact h p _ k _ (by simp) (by simp) hm

namespace TT
section Lock
variable {α : Type} [LinearOrder α]

theorem isectList_meet {s : RawInterval α} {ss : List (RawInterval α)} {o : RawInterval α}
    {os : List (RawInterval α)} (h : s.intersects o = true) :
    isectList (s :: ss) (o :: os) = s.intersect o :: isectList (s :: ss) os := by
  have h : (!(s.intersect o).isEmpty) = true := h
  simp [isectList, h]

theorem isectList_miss {s : RawInterval α} {ss : List (RawInterval α)} {o : RawInterval α}
    {os : List (RawInterval α)} (h : s.intersects o = false) :
    isectList (s :: ss) (o :: os) = isectList ss os := by
  have h : (!(s.intersect o).isEmpty) = false := h
  simp [isectList, h]

/-- In lock step no pair that meets is lost. -/
theorem isectList_lock (m : RawInterval α → Bool) (os : List (RawInterval α)) :
    ∀ ss : List (RawInterval α),
    (∀ p i k j, ss[p]? = some i → os[k]? = some j → i.intersects j = true →
      p = (os.take k).countP m ∧ m j = false) →
    (∀ j ∈ os, m j = false → ∃ i ∈ ss, i.intersects j = true) →
    ∀ i ∈ ss, ∀ j ∈ os, i.intersects j = true → i.intersect j ∈ isectList ss os := by
  induction os with
  | nil => simp
  | cons o os ih =>
    rintro (_ | ⟨s, ss⟩) h1 h2
    · simp
    cases hm : s.intersects o with
    | true =>
      have hmo := (h1 0 s 0 o rfl rfl hm).2
      have ih' := ih (s :: ss) (fun p i k j hp hk hij => by
        have := h1 p i (k + 1) j hp hk hij
        simpa [hmo] using this) (fun j hj hmj => h2 j (by simp [hj]) hmj)
      intro i hi j hj hij
      rw [isectList_meet hm]
      rcases List.mem_cons.1 hj with rfl | hj
      · obtain ⟨p, hp⟩ := List.mem_iff_getElem?.1 hi
        have := (h1 p i 0 j hp rfl hij).1
        simp at this
        subst this
        have : s = i := by simpa using hp
        subst this
        simp
      · exact List.mem_cons_of_mem _ (ih' i hi j hj hij)
    | false =>
      have hmo : m o = true := by
        rw [← Bool.not_eq_false]
        intro hmo
        obtain ⟨i, hi, hio⟩ := h2 o (by simp) hmo
        obtain ⟨p, hp⟩ := List.mem_iff_getElem?.1 hi
        have := (h1 p i 0 o hp rfl hio).1
        simp at this
        subst this
        have : s = i := by simpa using hp
        subst this
        rw [hm] at hio; cases hio
      have key : ∀ p i k j, (s :: ss)[p]? = some i → os[k]? = some j → i.intersects j = true →
          p = (os.take k).countP m + 1 ∧ m j = false := by
        intro p i k j hp hk hij
        have := h1 p i (k + 1) j hp hk hij
        simpa [hmo] using this
      have ih' := ih ss (fun p i k j hp hk hij => by
          have := key (p + 1) i k j hp hk hij
          simpa using this) fun j hj hmj => by
        obtain ⟨i, hi, hij⟩ := h2 j (by simp [hj]) hmj
        obtain ⟨p, hp⟩ := List.mem_iff_getElem?.1 hi
        obtain ⟨k, hk⟩ := List.mem_iff_getElem?.1 hj
        have := (key p i k j hp hk hij).1
        subst this
        exact ⟨i, List.mem_iff_getElem?.2 ⟨_, by simpa using hp⟩, hij⟩
      intro i hi j hj hij
      rw [isectList_miss hm]
      obtain ⟨p, hp⟩ := List.mem_iff_getElem?.1 hi
      have hj' : j ∈ os := by
        rcases List.mem_cons.1 hj with rfl | hj
        · have := (h1 p i 0 j hp rfl hij).2
          rw [hmo] at this; cases this
        · exact hj
      obtain ⟨k, hk⟩ := List.mem_iff_getElem?.1 hj'
      have := (key p i k j hp hk hij).1
      subst this
      exact ih' i (List.mem_iff_getElem?.2 ⟨_, by simpa using hp⟩) j hj' hij

theorem isectList_of_lockStep {ss os : List (RawInterval α)}
    (h : LockStep RawInterval.intersects ss os) : ∀ i ∈ ss, ∀ j ∈ os, i.intersects j = true →
      i.intersect j ∈ isectList ss os := by
  rw [lockStep_iff] at h
  refine isectList_lock (fun o => ss.all fun s => !s.intersects o) os ss
    (fun p i k j hp hk hij => ⟨h p i k j hp hk hij, ?_⟩) fun j hj hm => ?_
  · rw [Bool.eq_false_iff]
    intro hc
    rw [List.all_eq_true] at hc
    have := hc i (List.mem_iff_getElem?.2 ⟨p, hp⟩)
    rw [hij] at this; cases this
  · by_contra hc
    rw [Bool.eq_false_iff] at hm
    apply hm
    rw [List.all_eq_true]
    intro i hi
    by_contra hn
    exact hc ⟨i, hi, by simpa using hn⟩

/-- If no common point is lost, the lists run in lock step. -/
theorem lockStep_of_exact (os : List (RawInterval α)) : ∀ ss : List (RawInterval α),
    (∀ i ∈ ss, ∀ j ∈ os, i.intersects j = true → ∃ x, x ∈ i.pts ∧ x ∈ j.pts) →
    ss.Pairwise (fun i j => ∀ x, x ∈ i.pts → x ∉ j.pts) →
    os.Pairwise (fun i j => ∀ x, x ∈ i.pts → x ∉ j.pts) →
    (∀ i ∈ ss, ∀ j ∈ os, ∀ x, x ∈ i.pts → x ∈ j.pts →
      ∃ r ∈ isectList ss os, x ∈ r.pts) →
    ∀ p i k j, ss[p]? = some i → os[k]? = some j → i.intersects j = true →
      p = missed RawInterval.intersects ss (os.take k) := by
  induction os with
  | nil => intro ss _ _ _ _ p i k j _ hk; simp at hk
  | cons o os ih =>
    rintro (_ | ⟨s, ss⟩) hd ps po hx
    · intro p i k j hp; simp at hp
    rw [List.pairwise_cons] at po
    have mem : ∀ {ss os : List (RawInterval α)} {r : RawInterval α} {x : α}, r ∈ isectList ss os →
        x ∈ r.pts → (∃ s ∈ ss, x ∈ s.pts) ∧ ∃ o ∈ os, x ∈ o.pts := by
      intro ss os r x hr hx
      obtain ⟨s, hs, o, ho, rfl⟩ := isectList_mem hr
      rw [← RawInterval.contains_iff, RawInterval.intersect_contains] at hx
      rw [RawInterval.contains_iff, RawInterval.contains_iff] at hx
      exact ⟨⟨s, hs, hx.1⟩, o, ho, hx.2⟩
    cases hm : s.intersects o with
    | true =>
      rw [isectList_meet hm] at hx
      have ih' := ih (s :: ss) (fun i hi j hj => hd i hi j (by simp [hj])) ps po.2
        fun i hi j hj x h1 h2 => by
          obtain ⟨r, hr, hxr⟩ := hx i hi j (by simp [hj]) x h1 h2
          rcases List.mem_cons.1 hr with rfl | hr
          · rw [← RawInterval.contains_iff, RawInterval.intersect_contains] at hxr
            rw [RawInterval.contains_iff, RawInterval.contains_iff] at hxr
            exact absurd h2 (po.1 j hj x hxr.2)
          · exact ⟨r, hr, hxr⟩
      have hmiss : ((s :: ss).all fun s => !s.intersects o) = false := by simp [hm]
      intro p i k j hp hk hij
      cases k with
      | zero =>
        have : o = j := by simpa using hk
        subst this
        cases p with
        | zero => rfl
        | succ p =>
          exfalso
          have hi : i ∈ ss := List.mem_iff_getElem?.2 ⟨p, by simpa using hp⟩
          obtain ⟨x, h1, h2⟩ := hd i (by simp [hi]) o (by simp) hij
          obtain ⟨r, hr, hxr⟩ := hx i (by simp [hi]) o (by simp) x h1 h2
          rcases List.mem_cons.1 hr with rfl | hr
          · rw [← RawInterval.contains_iff, RawInterval.intersect_contains] at hxr
            rw [RawInterval.contains_iff, RawInterval.contains_iff] at hxr
            exact (List.pairwise_cons.1 ps).1 i hi x hxr.1 h1
          · obtain ⟨-, o', ho', h3⟩ := mem hr hxr
            exact po.1 o' ho' x h2 h3
      | succ k =>
        rw [ih' p i k j hp (by simpa using hk) hij, missed, missed, List.take_succ_cons,
          List.countP_cons, hmiss]
        simp
    | false =>
      rw [isectList_miss hm] at hx
      have ih' := ih ss (fun i hi j hj => hd i (by simp [hi]) j (by simp [hj]))
        (List.pairwise_cons.1 ps).2 po.2 fun i hi j hj x h1 h2 =>
          hx i (by simp [hi]) j (by simp [hj]) x h1 h2
      have hs : ∀ j ∈ os, s.intersects j = false := by
        intro j hj
        rw [Bool.eq_false_iff]
        intro hij
        obtain ⟨x, h1, h2⟩ := hd s (by simp) j (by simp [hj]) hij
        obtain ⟨r, hr, hxr⟩ := hx s (by simp) j (by simp [hj]) x h1 h2
        obtain ⟨⟨s', hs', h3⟩, -⟩ := mem hr hxr
        exact (List.pairwise_cons.1 ps).1 s' hs' x h1 h3
      have ho : ∀ i ∈ s :: ss, i.intersects o = false := by
        intro i hi
        rw [Bool.eq_false_iff]
        intro hij
        obtain ⟨x, h1, h2⟩ := hd i hi o (by simp) hij
        obtain ⟨r, hr, hxr⟩ := hx i hi o (by simp) x h1 h2
        obtain ⟨-, o', ho', h3⟩ := mem hr hxr
        exact po.1 o' ho' x h2 h3
      intro p i k j hp hk hij
      cases k with
      | zero =>
        have : o = j := by simpa using hk
        subst this
        rw [ho i (List.mem_iff_getElem?.2 ⟨p, hp⟩)] at hij; cases hij
      | succ k =>
        have hk' : os[k]? = some j := by simpa using hk
        cases p with
        | zero =>
          have : s = i := by simpa using hp
          subst this
          rw [hs j (List.mem_iff_getElem?.2 ⟨k, hk'⟩)] at hij; cases hij
        | succ p =>
          rw [ih' p i k j (by simpa using hp) hk' hij, missed, missed, List.take_succ_cons,
            List.countP_cons]
          have e1 : ((s :: ss).all fun s => !s.intersects o) = true := by
            rw [List.all_eq_true]; intro i hi; rw [ho i hi]; rfl
          rw [if_pos e1]
          congr 1
          refine List.countP_congr fun j hj => ?_
          rw [List.all_cons, hs j (List.mem_of_mem_take hj)]
          simp

end Lock

variable {α : Type} [LinearOrder α] [Finite α] [LawfulFinite α]

/-- The interval has a finite bound at the point. -/
def Touches (d : RawInterval α) (x : α) : Prop := ∃ y ∈ Tine.fromRawInterval d, y.key = Key.fin x

/-- Removing an open interval that neither contains nor touches a point changes nothing around it. -/
theorem icov_far {d : RawInterval α} (h1 : d.WF) (h2 : OpenIv d) {x : α} (hx : d.contains x = false)
    (ht : ¬ Touches d x) : icov d true (.fin x) = false ∧
      (∀ y, pred x = some y → icov d true (.fin y) = false) ∧
      (pred x = none → icov d true .bot = false) := by
  rcases h2.cases with e | ⟨a, b, e⟩ | ⟨a, e⟩ | ⟨b, e⟩ | e <;> subst e
  · exact ⟨rfl, fun _ _ => rfl, fun _ => rfl⟩
  · have n1 : x ≠ a := by rintro rfl; exact ht ⟨.lower (.excl x), by simp [Tine.fromRawInterval], rfl⟩
    have n2 : x ≠ b := by rintro rfl; exact ht ⟨.upper (.excl x), by simp [Tine.fromRawInterval], rfl⟩
    simp only [RawInterval.contains, Bool.and_eq_false_iff, decide_eq_false_iff_not, not_lt] at hx
    refine ⟨?_, fun y hy => ?_, fun _ => (icov_opn h1 x).2⟩
    · rw [(icov_opn h1 x).1]; grind
    · obtain ⟨g1, g2⟩ := LawfulFinite.pred_some x y hy
      rw [(icov_opn h1 y).1]
      have := g2 b
      grind
  · have n1 : x ≠ a := by rintro rfl; exact ht ⟨.lower (.excl x), by simp [Tine.fromRawInterval], rfl⟩
    simp only [RawInterval.contains, decide_eq_false_iff_not, not_lt] at hx
    refine ⟨?_, fun y hy => ?_, fun _ => (icov_upFrom a x).2⟩
    · rw [(icov_upFrom a x).1]; grind
    · obtain ⟨g1, g2⟩ := LawfulFinite.pred_some x y hy
      rw [(icov_upFrom a y).1]
      grind
  · have n2 : x ≠ b := by rintro rfl; exact ht ⟨.upper (.excl x), by simp [Tine.fromRawInterval], rfl⟩
    simp only [RawInterval.contains, decide_eq_false_iff_not, not_lt] at hx
    refine ⟨?_, fun y hy => ?_, fun hn => ?_⟩
    · rw [(icov_upTo b x).1]; grind
    · obtain ⟨g1, g2⟩ := LawfulFinite.pred_some x y hy
      rw [(icov_upTo b y).1]
      have := g2 b
      grind
    · exact absurd (lt_of_le_of_ne hx (Ne.symm n2)) (not_lt.2 (not_lt_of_pred hn b))
  · simp [RawInterval.contains] at hx

/-- Touching an open interval from outside. -/
theorem icov_touch {d : RawInterval α} (h1 : d.WF) (h2 : OpenIv d) {x : α} (ht : Touches d x) :
    icov d true (.fin x) = true ∨ (∃ y, pred x = some y ∧ icov d true (.fin y) = true) ∨
      (pred x = none ∧ icov d true .bot = true) := by
  obtain ⟨y, hy, hk⟩ := ht
  rcases h2.cases with e | ⟨a, b, e⟩ | ⟨a, e⟩ | ⟨b, e⟩ | e <;> subst e <;>
    simp [Tine.fromRawInterval] at hy
  · rcases hy with rfl | rfl <;> simp [Tine.key] at hk <;> subst hk
    · have h1' : a < b := h1
      left; rw [(icov_opn h1 _).1]; simpa using h1'
    · right; left
      cases hp : pred b with
      | none => exact absurd h1 (not_lt.2 (not_lt_of_pred hp a))
      | some z =>
        obtain ⟨g1, g2⟩ := LawfulFinite.pred_some b z hp
        refine ⟨z, rfl, ?_⟩
        rw [(icov_opn h1 _).1]
        simp [g1, g2 a h1]
  · rcases hy with rfl | rfl <;> simp [Tine.key] at hk
    subst hk
    left; rw [(icov_upFrom _ _).1]; simp
  · rcases hy with rfl | rfl <;> simp [Tine.key] at hk
    subst hk
    right
    cases hp : pred b with
    | none => exact .inr ⟨rfl, (icov_upTo b b).2⟩
    | some z =>
      obtain ⟨g1, g2⟩ := LawfulFinite.pred_some b z hp
      exact .inl ⟨z, rfl, by rw [(icov_upTo b z).1]; simpa using g1⟩
  · rcases hy with rfl | rfl <;> simp [Tine.key] at hk

/-- Removing open intervals one after the other, exactly. -/
theorem foldMinusOpen_exact (dbg : Bool) (L : List (RawInterval α)) : ∀ {t : TineTree α}, Valid t →
    (∀ d ∈ L, d.WF ∧ OpenIv d) →
    ∃ t', L.foldlM (TineTree.minusInPlace dbg) t = .ok t' ∧ Valid t' ∧
      ∀ x, (∀ d ∈ L, d.contains x = false) → (at' t' x = true ↔
        at' t x = true ∨ (holeAt t (.fin x) = true ∧ ∃ d ∈ L, Touches d x)) := by
  induction L with
  | nil => exact fun {t} ht _ => ⟨t, rfl, ht, by simp⟩
  | cons d L ih =>
    intro t ht hL
    obtain ⟨h1, h2⟩ := hL d (by simp)
    obtain ⟨t1, e1, v1, c1⟩ := minusTwo_ok dbg ht h1
      (by rintro p rfl; exact (h2 p).1 rfl)
    obtain ⟨t', e, v, k⟩ := ih v1 fun d hd => hL d (by simp [hd])
    refine ⟨t', by rw [List.foldlM_cons, e1]; exact e, v, fun x hx => ?_⟩
    have hd := hx d (by simp)
    rw [k x fun d hd => hx d (by simp [hd])]
    have c2 : ∀ k, tcov t1 true k = (tcov t true k && !icov d true k) := by
      intro k; rw [c1]; simp
    have c3 : at' t1 x = true ↔ (at' t x = true ∨ (holeAt t (.fin x) = true ∧ Touches d x)) := by
      rw [at', c1, icov_fin h1, hd, Touches]; simp
    by_cases hT : Touches d x
    · have hole : holeAt t1 (.fin x) = false := by
        rw [holeAt]
        rcases icov_touch h1 h2 hT with g | ⟨y, hy, g⟩ | ⟨hn, g⟩
        · rw [c2 (.fin x), g]; simp
        · rw [bef_pred hy, c2 (.fin y), g]; simp
        · rw [bef_min hn, c2 .bot, g]; simp
      rw [c3, hole]
      simp [hT]
    · have c4 : at' t1 x = at' t x := by
        rw [Bool.eq_iff_iff, c3]; simp [hT]
      obtain ⟨g1, g2, g3⟩ := icov_far h1 h2 hd hT
      have hole : holeAt t1 (.fin x) = holeAt t (.fin x) := by
        have c4 : tcov t1 false (.fin x) = tcov t false (.fin x) := c4
        rw [holeAt, holeAt, c4, c2 (.fin x), g1]
        cases hp : pred x with
        | none => rw [bef_min hp, bef_min hp, c2 .bot, g3 hp]; simp
        | some y => rw [bef_pred hp, bef_pred hp, c2 (.fin y), g2 y hp]; simp
      rw [c4, hole]
      simp [hT]

/-- In a tree with open pieces, the points a piece touches. -/
theorem DO.touches {t : TineTree α} (v : Valid t) (h : DO t) {x : α} (hx : at' t x = false) :
    (∃ d ∈ pieces none t, Touches d x) ↔
      (pred x).elim false (at' t) = true ∨ (succ x).elim false (at' t) = true := by
  have e1 := open_upper_iff v x
  have e2 := open_lower_iff v x
  have e3 : TT.bef false t (.fin x) = true ↔ (pred x).elim false (at' t) = true := by
    rw [h.bef, hx, Bool.false_or]
  have e4 : tcov t true (.fin x) = true ↔ (succ x).elim false (at' t) = true := by
    rw [h.1, hx, Bool.false_or]
  have hx' : tcov t false (.fin x) = false := hx
  rw [hx', e3] at e1
  rw [hx', e4] at e2
  simp only [and_true, true_and] at e1 e2
  rw [← e1, ← e2]
  have key : ∀ d ∈ pieces none t, Touches d x ↔
      (d.upperBound = some (.excl x) ∨ d.lowerBound = some (.excl x)) := by
    intro d hd
    have ho := h.open v hd
    rcases ho.cases with e | ⟨a, b, e⟩ | ⟨a, e⟩ | ⟨b, e⟩ | e <;> subst e <;>
      simp [Touches, Tine.fromRawInterval, Tine.key, RawInterval.upperBound, RawInterval.lowerBound,
        or_comm]
  constructor
  · rintro ⟨d, hd, ht⟩
    rcases (key d hd).1 ht with h | h
    · exact .inl ⟨d, hd, h⟩
    · exact .inr ⟨d, hd, h⟩
  · rintro (⟨d, hd, h⟩ | ⟨d, hd, h⟩)
    · exact ⟨d, hd, (key d hd).2 (.inl h)⟩
    · exact ⟨d, hd, (key d hd).2 (.inr h)⟩

theorem near_walk {l1 u1 l2 u2 : Bound α} (n2 : ∀ p, u1 ≠ .incl p) (n3 : ∀ p, l2 ≠ .incl p)
    {x1 x2 : α} (c1 : l1.AdmitsAbove x1) (c2 : u1.AdmitsBelow x1) (c3 : l2.AdmitsAbove x2)
    (c4 : u2.AdmitsBelow x2) (hx : x1 ≤ x2) (m : l2.Compat u1) :
    ∃ x, (l1.AdmitsAbove x ∧ u1.AdmitsBelow x) ∧ ∃ y, (l2.AdmitsAbove y ∧ u2.AdmitsBelow y) ∧
      (x = y ∨ succ x = some y) := by
  have up : ∀ {x y : α}, x ≤ y → l1.AdmitsAbove x → l1.AdmitsAbove y := by
    intro x y h
    rcases l1 with p | p | _ <;> simp only [Bound.AdmitsAbove] <;> grind
  have dn : ∀ {x y : α}, x ≤ y → u2.AdmitsBelow y → u2.AdmitsBelow x := by
    intro x y h
    rcases u2 with p | p | _ <;> simp only [Bound.AdmitsBelow] <;> grind
  by_cases h : u1.AdmitsBelow x2
  · exact ⟨x2, ⟨up hx c1, h⟩, x2, ⟨c3, c4⟩, .inl rfl⟩
  · rcases u1 with p | b | _
    · exact absurd rfl (n2 p)
    · have hb : b ≤ x2 := not_lt.1 h
      have c2 : x1 < b := c2
      cases hp : pred b with
      | none => exact absurd c2 (not_lt.2 (not_lt_of_pred hp x1))
      | some z =>
        obtain ⟨g1, g2⟩ := LawfulFinite.pred_some b z hp
        refine ⟨z, ⟨up (g2 x1 c2) c1, g1⟩, b, ⟨?_, dn hb c4⟩, .inr (succ_of_pred hp)⟩
        rcases l2 with q | q | _
        · exact absurd rfl (n3 q)
        · exact m
        · trivial
    · exact absurd trivial h

/-- Open intervals with points meet iff they share a point or contain neighbouring points. -/
theorem open_intersects {d e : RawInterval α} (hd : d.WF) (he : e.WF) (od : OpenIv d) (oe : OpenIv e)
    (gd : ∃ x, d.contains x = true) (ge : ∃ x, e.contains x = true) :
    d.intersects e = true ↔ ∃ x, d.contains x = true ∧ ∃ y, e.contains y = true ∧
      (x = y ∨ succ x = some y ∨ succ y = some x) := by
  obtain ⟨x1, hx1⟩ := gd
  obtain ⟨x2, hx2⟩ := ge
  rw [RawInterval.contains_iff_bounds] at hx1 hx2
  obtain ⟨l1, u1, a1, b1, c1, c2⟩ := hx1
  obtain ⟨l2, u2, a2, b2, c3, c4⟩ := hx2
  have k1 : ∀ x, d.contains x = true ↔ l1.AdmitsAbove x ∧ u1.AdmitsBelow x := by
    intro x; rw [RawInterval.contains_iff_bounds, a1, b1]; simp
  have k2 : ∀ x, e.contains x = true ↔ l2.AdmitsAbove x ∧ u2.AdmitsBelow x := by
    intro x; rw [RawInterval.contains_iff_bounds, a2, b2]; simp
  have n1 := fun p => (od p).1
  have n2 := fun p => (od p).2
  have n3 := fun p => (oe p).1
  have n4 := fun p => (oe p).2
  rw [a1] at n1; rw [b1] at n2; rw [a2] at n3; rw [b2] at n4
  rw [RawInterval.intersect_isEmpty a1 b1 a2 b2]
  simp only [k1, k2]
  constructor
  · rintro ⟨-, m1, m2⟩
    rcases le_total x1 x2 with h | h
    · obtain ⟨x, gx, y, gy, hh⟩ := near_walk (fun p e => n2 p (by rw [e])) (fun p e => n3 p (by rw [e]))
        c1 c2 c3 c4 h m2
      exact ⟨x, gx, y, gy, hh.imp_right .inl⟩
    · obtain ⟨x, gx, y, gy, hh⟩ := near_walk (fun p e => n4 p (by rw [e])) (fun p e => n1 p (by rw [e]))
        c3 c4 c1 c2 h m1
      exact ⟨y, gy, x, gx, hh.imp Eq.symm .inr⟩
  · rintro ⟨x, ⟨g1, g2⟩, y, ⟨g3, g4⟩, h⟩
    have adj : ∀ {l u : Bound α} {x y : α}, (∀ p, l ≠ .incl p) → (∀ p, u ≠ .incl p) →
        l.AdmitsAbove x → u.AdmitsBelow y → (x = y ∨ succ x = some y ∨ succ y = some x) →
        l.Compat u := by
      intro l u x y n n' hl hu h
      rcases l with p | p | _
      · exact absurd rfl (n p)
      · rcases u with q | q | _
        · exact absurd rfl (n' q)
        · change p < q
          have hl : p < x := hl
          have hu : y < q := hu
          rcases h with rfl | h | h
          · exact hl.trans hu
          · exact hl.trans ((LawfulFinite.succ_some _ _ h).1.trans hu)
          · refine lt_of_le_of_lt ?_ hu
            by_contra hc
            exact absurd ((LawfulFinite.succ_some _ _ h).2 p (not_le.1 hc)) (not_le.2 hl)
        · trivial
      · cases u <;> trivial
    refine ⟨⟨RawInterval.wf_compat hd a1 b1, RawInterval.wf_compat he a2 b2⟩, ?_, ?_⟩
    · exact adj (fun p e => n1 p (by rw [e])) (fun p e => n4 p (by rw [e])) g1 g4 h
    · exact adj (fun p e => n3 p (by rw [e])) (fun p e => n2 p (by rw [e])) g3 g2
        (by rcases h with h | h | h
            · exact .inl h.symm
            · exact .inr (.inr h)
            · exact .inr (.inl h))

/-- No bound of the interval is excluded. -/
def ClosedIv (d : RawInterval α) : Prop :=
  ∀ p, d.lowerBound ≠ some (.excl p) ∧ d.upperBound ≠ some (.excl p)

/-- Pieces of `CO` trees are closed. -/
theorem CO.closed {t : TineTree α} (v : Valid t) (h : CO t) {i : RawInterval α}
    (hi : i ∈ pieces none t) : ClosedIv i := by
  intro p
  constructor
  · intro hl
    obtain ⟨e1, e2⟩ := (open_lower_iff v p).1 ⟨i, hi, hl⟩
    have e1 : at' t p = false := e1
    rw [h.1, e1] at e2; cases e2
  · intro hu
    obtain ⟨e1, e2⟩ := (open_upper_iff v p).1 ⟨i, hi, hu⟩
    have e2 : at' t p = false := e2
    rw [h.bef, e2] at e1; cases e1

/-- Closed intervals that meet share a point. -/
theorem closed_intersects {d e : RawInterval α} (od : ClosedIv d) (oe : ClosedIv e)
    (h : d.intersects e = true) : ∃ x, x ∈ d.pts ∧ x ∈ e.pts := by
  have hne : d ≠ .empty ∧ e ≠ .empty := by
    constructor
    · rintro rfl; cases e <;> cases h
    · rintro rfl; cases d <;> cases h
  rcases d.bounds_cases with ⟨z, _⟩ | ⟨l1, u1, a1, b1, -⟩
  · exact absurd z hne.1
  rcases e.bounds_cases with ⟨z, _⟩ | ⟨l2, u2, a2, b2, -⟩
  · exact absurd z hne.2
  rw [RawInterval.intersect_isEmpty a1 b1 a2 b2] at h
  obtain ⟨⟨h1, h2⟩, h3, h4⟩ := h
  have n1 := fun p => (od p).1
  have n2 := fun p => (od p).2
  have n3 := fun p => (oe p).1
  have n4 := fun p => (oe p).2
  rw [a1] at n1; rw [b1] at n2; rw [a2] at n3; rw [b2] at n4
  have k : ∀ x, l1.AdmitsAbove x → u1.AdmitsBelow x → l2.AdmitsAbove x → u2.AdmitsBelow x →
      ∃ x, x ∈ d.pts ∧ x ∈ e.pts := by
    intro x g1 g2 g3 g4
    refine ⟨x, ?_, ?_⟩
    · rw [← RawInterval.contains_iff, RawInterval.contains_iff_bounds]
      exact ⟨l1, u1, a1, b1, g1, g2⟩
    · rw [← RawInterval.contains_iff, RawInterval.contains_iff_bounds]
      exact ⟨l2, u2, a2, b2, g3, g4⟩
  have below : ∀ {l u : Bound α} {x : α}, (∀ p, some u ≠ some (.excl p)) → l = .incl x → l.Compat u →
      u.AdmitsBelow x := by
    intro l u x n e h
    subst e
    rcases u with q | q | _
    · exact h
    · exact absurd rfl (n q)
    · trivial
  rcases l1 with p | p | _
  · rcases l2 with q | q | _
    · rcases le_total p q with hpq | hpq
      · exact k q hpq (below n2 rfl h4) le_rfl (below n4 rfl h2)
      · exact k p le_rfl (below n2 rfl h1) hpq (below n4 rfl h3)
    · exact absurd rfl (n3 q)
    · exact k p le_rfl (below n2 rfl h1) trivial (below n4 rfl h3)
  · exact absurd rfl (n1 p)
  · rcases l2 with q | q | _
    · exact k q trivial (below n2 rfl h4) le_rfl (below n4 rfl h2)
    · exact absurd rfl (n3 q)
    · refine k minimum trivial ?_ trivial ?_
      · rcases u1 with q | q | _
        · exact LawfulFinite.min_le q
        · exact absurd rfl (n2 q)
        · trivial
      · rcases u2 with q | q | _
        · exact LawfulFinite.min_le q
        · exact absurd rfl (n4 q)
        · trivial

/-- `LockStep` of mapped lists. -/
theorem lockStep_map {β γ δ ε : Type _} {f : β → δ} {g : γ → ε} {meets : δ → ε → Bool}
    {meets' : β → γ → Bool} {as : List β} {bs : List γ}
    (h : ∀ i ∈ as, ∀ j ∈ bs, meets (f i) (g j) = meets' i j) :
    LockStep meets (as.map f) (bs.map g) ↔ LockStep meets' as bs := by
  have miss : ∀ k, missed meets (as.map f) ((bs.map g).take k) = missed meets' as (bs.take k) := by
    intro k
    rw [missed, missed, ← List.map_take, List.countP_map]
    refine List.countP_congr fun j hj => ?_
    have hj := List.mem_of_mem_take hj
    simp only [Function.comp, List.all_map, List.all_eq_true]
    constructor
    · intro hh i hi; rw [← h i hi j hj]; exact hh i hi
    · intro hh i hi; rw [h i hi j hj]; exact hh i hi
  rw [lockStep_iff, lockStep_iff]
  constructor
  · intro H p i k j hp hk hm
    have hi := List.mem_iff_getElem?.2 ⟨p, hp⟩
    have hj := List.mem_iff_getElem?.2 ⟨k, hk⟩
    have := H p (f i) k (g j) (by simp [hp]) (by simp [hk]) (by rw [h i hi j hj]; exact hm)
    rwa [miss] at this
  · intro H p i' k j' hp hk hm
    rw [List.getElem?_map, Option.map_eq_some_iff] at hp hk
    obtain ⟨i, hp, rfl⟩ := hp
    obtain ⟨j, hk, rfl⟩ := hk
    have hi := List.mem_iff_getElem?.2 ⟨p, hp⟩
    have hj := List.mem_iff_getElem?.2 ⟨k, hk⟩
    rw [h i hi j hj] at hm
    rw [miss]
    exact H p i k j hp hk hm

end TT

namespace Selection
variable {α : Type} [LinearOrder α] [Finite α] [LawfulFinite α]
open TT

/-- `minus` by a union-built selection, exactly. -/
theorem minusOpen_exact (dbg : Bool) {a b : Selection α} (ha : Valid a.tree) (hb : Valid b.tree)
    (hd : DO b.tree) : ∃ s', a.minus dbg b = .ok s' ∧ Valid s'.tree ∧
      ∀ x, at' s'.tree x = true ↔ at' b.tree x = false ∧ (at' a.tree x = true ∨
        (holeAt a.tree (.fin x) = true ∧
          ((pred x).elim false (at' b.tree) = true ∨ (succ x).elim false (at' b.tree) = true))) := by
  obtain ⟨t', e, v, k⟩ := foldMinusOpen_exact dbg (pieces none b.tree) ha fun d hdm =>
    ⟨((pieces_wf hb.1).1 d hdm).1, hd.open hb hdm⟩
  have e' : a.minus dbg b = .ok ⟨t'⟩ := by rw [minus, TineTree.minus, fold_eq dbg _ hb, e]; rfl
  obtain ⟨s1, e1, -, -, r⟩ := minusOpen_ok dbg ha hb hd
  rw [e'] at e1; cases e1
  refine ⟨⟨t'⟩, e', v, fun x => ?_⟩
  cases hx : at' b.tree x with
  | true => simp [r x hx]
  | false =>
    rw [← DO.touches hb hd hx, k x]
    · simp
    · intro d hdm
      rw [Bool.eq_false_iff]
      intro hc
      rw [piece_in hb hdm hc] at hx; cases hx

/-- `minus` from the complement of a union-built selection. -/
theorem minusClosed_ok (dbg : Bool) {a b : Selection α} (ha : Valid a.tree) (hc : CO a.tree)
    (hb : Valid b.tree) : ∃ s', a.minus dbg b = .ok s' ∧ Valid s'.tree ∧
      ∀ aft k, tcov s'.tree aft k = (tcov a.tree aft k && !tcov b.tree aft k) := by
  have hn := hc.noHole
  obtain ⟨t', e, v, c⟩ := TT.minus_ok dbg ha hb fun i hi => by
    have h2 : ∀ x ∈ Tine.fromRawInterval i, holeAt a.tree x.key = false := by
      intro x _
      rcases key_cases x.key with e | ⟨y, e⟩ | e <;> rw [e]
      · exact (hole_inf ha).1
      · exact hn y
      · exact (hole_inf ha).2
    cases i with
    | point p =>
      change at' a.tree p = true ∨ _
      cases hp : at' a.tree p with
      | true => exact .inl rfl
      | false =>
        right
        constructor
        · rw [hc.bef, hp]; rfl
        · rw [hc.1, hp]; rfl
    | _ => exact h2
  exact ⟨⟨t'⟩, by rw [minus, e]; rfl, v, c⟩

end Selection
end NI
