import Verif.Lemmas.Isect

/-!
# Separated lists of intervals are the interval lists of trees: lemmas for C71
-/

set_option linter.unusedSimpArgs false
set_option linter.unusedVariables false
set_option linter.unusedSectionVars false

namespace NI
namespace TT
variable {α : Type _} [LinearOrder α]
open BSet (Lt Gt At)

/-- Intervals in order with a gap between them. -/
def SepI (i j : RawInterval α) : Prop :=
  ∃ u l, i.upperBound = some u ∧ j.lowerBound = some l ∧ Sep u l

theorem cons_valid_lower {a u : Bound α} {t : TineTree α} (hk : (Tine.lower a).key < (Tine.upper u).key)
    (ht : Valid t) (hg : Gt t (Tine.upper u).key) : Valid (.lower a :: .upper u :: t) := by
  refine ⟨sorted_cons.2 ⟨lower_ok a, ?_, sorted_cons.2 ⟨upper_ok u, hg, ht.1⟩⟩, ?_⟩
  · rintro x hx
    rcases List.mem_cons.1 hx with rfl | hx
    · exact ⟨upper_ok u, hk⟩
    · exact ⟨(hg x hx).1, hk.trans (hg x hx).2⟩
  · simpa [Chain, Tine.isUpperBound, Tine.isLowerBound] using ht.2

/-- Every separated list of intervals is the list of pieces of a tree. -/
theorem exists_tree (is : List (RawInterval α)) (hw : ∀ i ∈ is, i.WF ∧ i ≠ .empty)
    (hp : is.Pairwise SepI) : ∃ t : TineTree α, Valid t ∧ pieces none t = is ∧
      ∀ j js, is = j :: js → ∃ x ys rest, Tine.fromRawInterval j = x :: ys ∧ t = x :: rest := by
  induction is with
  | nil => exact ⟨[], valid_nil, rfl, by simp⟩
  | cons i is ih =>
    obtain ⟨t, v, e, hd⟩ := ih (fun j hj => hw j (by simp [hj])) (List.pairwise_cons.1 hp).2
    have hs := (List.pairwise_cons.1 hp).1
    obtain ⟨w, ne⟩ := hw i (by simp)
    -- the tree of the rest starts at the lower bound of the next interval
    have hnext : ∀ u, i.upperBound = some u →
        Gt t (Tine.upper u).key ∨ ∃ p rest, u = .excl p ∧ t = .lower (.excl p) :: rest := by
      intro u hu
      cases is with
      | nil =>
        cases t with
        | nil => exact .inl (.nil _)
        | cons x t =>
          have hx := v.2
          have := v.1.1 x (by simp)
          rcases x with b | (b | b | _) | b <;>
            simp [Chain, Tine.isUpperBound, Tine.isLowerBound, pieces, Tine.Ok] at hx e this
          · cases t with
            | nil => simp [Chain] at hx
            | cons y t =>
              have := v.1.1 y (by simp)
              rcases y with c | (c | c | _) | c <;>
                simp [Chain, Tine.isUpperBound, Tine.isLowerBound, pieces, Tine.Ok] at hx e this
      | cons j js =>
        obtain ⟨x, ys, rest, e1, e2⟩ := hd j js rfl
        obtain ⟨u', l, h1, h2, h3⟩ := hs j (by simp)
        rw [hu, Option.some.injEq] at h1
        subst h1 e2
        have hxl : x.key = (Tine.lower l).key ∧ ((∃ p, l = .excl p) → x = .lower l) := by
          cases j <;> simp [Tine.fromRawInterval, RawInterval.lowerBound] at e1 h2 <;>
            simp [← e1.1, ← h2, Tine.key]
        have hgt : Gt rest x.key := (sorted_cons.1 v.1).2.1
        rcases h3 with h3 | ⟨p, rfl, rfl⟩
        · rw [← hxl.1] at h3
          refine .inl fun y hy => ?_
          rcases List.mem_cons.1 hy with rfl | hy
          · exact ⟨v.1.1 y (by simp), h3⟩
          · exact ⟨(hgt y hy).1, h3.trans (hgt y hy).2⟩
        · exact .inr ⟨p, rest, rfl, by rw [hxl.2 ⟨p, rfl⟩]⟩
    rcases fromRaw_cases w with ⟨rfl, -⟩ | ⟨p, rfl, e1⟩ | ⟨a, u, e1, hk⟩
    · exact absurd rfl ne
    · refine ⟨.point (.incl p) :: t, ?_, by simp [pieces, e], ?_⟩
      · have hg : Gt t (Key.fin p) := by
          rcases hnext (.incl p) rfl with h | ⟨q, rest, h, -⟩
          · exact h
          · cases h
        refine ⟨sorted_cons.2 ⟨pincl_ok p, hg, v.1⟩, ?_⟩
        simpa [Chain, Tine.isUpperBound, Tine.isLowerBound] using v.2
      · rintro j js h
        cases h
        exact ⟨_, _, _, e1, rfl⟩
    · obtain ⟨b1, b2⟩ := bounds_of_tines e1
      have hi : i = RawInterval.new a u := RawInterval.wf_eq_new w b1 b2
      rcases hnext u b2 with hg | ⟨p, rest, rfl, rfl⟩
      · refine ⟨_, cons_valid_lower hk v hg, by simp [pieces, e, hi], ?_⟩
        rintro j js h
        cases h
        exact ⟨_, _, _, e1, rfl⟩
      · refine ⟨.lower a :: .point (.excl p) :: rest, ?_, ?_, ?_⟩
        · obtain ⟨-, g2, g3⟩ := sorted_cons.1 v.1
          have hk' : (Tine.lower a).key < (Tine.point (.excl p)).key := hk
          refine ⟨sorted_cons.2 ⟨lower_ok a, ?_, sorted_cons.2 ⟨by simp [Tine.Ok], g2, g3⟩⟩, ?_⟩
          · rintro x hx
            rcases List.mem_cons.1 hx with rfl | hx
            · exact ⟨by simp [Tine.Ok], hk'⟩
            · exact ⟨(g2 x hx).1, hk'.trans (g2 x hx).2⟩
          · simpa [Chain, Tine.isUpperBound, Tine.isLowerBound] using v.2
        · simp only [pieces] at e ⊢
          rw [hi, e]
        · rintro j js h
          cases h
          exact ⟨_, _, _, e1, rfl⟩

/-- A tree that covers what a separated list covers has that list as its pieces. -/
theorem pieces_unique {t : TineTree α} (v : Valid t) {is : List (RawInterval α)}
    (hw : ∀ i ∈ is, i.WF ∧ i ≠ .empty) (hp : is.Pairwise SepI)
    (hc : ∀ aft k, RealPos aft k → tcov t aft k = is.any fun i => icov i aft k) :
    pieces none t = is := by
  obtain ⟨t', v', e, -⟩ := exists_tree is hw hp
  rw [← e]
  congr 1
  refine valid_ext v v' fun aft k hr => ?_
  rw [← (pieces_cov aft k v'.1).1 v'.2, e]
  exact hc aft k hr

/-! ## Coverage by bounds -/

/-- Beyond a lower bound. -/
def lowS (l : Bound α) (aft : Bool) (k : Key α) : Prop :=
  (Tine.lower l).key < k ∨ ((Tine.lower l).key = k ∧ (aft = true ∨ l.isInclusive = true))

/-- Before an upper bound. -/
def upS (u : Bound α) (aft : Bool) (k : Key α) : Prop :=
  k < (Tine.upper u).key ∨ ((Tine.upper u).key = k ∧ aft = false ∧ u.isInclusive = true)

theorem icov_iff {i : RawInterval α} (hw : i.WF) {l u : Bound α} (hl : i.lowerBound = some l)
    (hu : i.upperBound = some u) {aft : Bool} {k : Key α} (hr : RealPos aft k) :
    icov i aft k = true ↔ lowS l aft k ∧ upS u aft k := by
  obtain ⟨r1, r2⟩ := hr
  cases i <;> simp only [RawInterval.lowerBound, RawInterval.upperBound, Option.some.injEq] at hl hu <;>
    first
    | (exfalso; cases hl; done)
    | (subst hl hu
       cases k with
       | bot =>
         obtain rfl := r2 rfl
         simp [icov, cov, Tine.fromRawInterval, lowS, upS, Tine.key, Bound.isInclusive, Tine.isLowerBound]
       | top => exact absurd rfl r1
       | fin x =>
         simp only [RawInterval.WF] at hw
         cases aft <;>
           simp [icov, cov, Tine.fromRawInterval, lowS, upS, Tine.key, Bound.isInclusive,
             Tine.isLowerBound, Tine.inclAt] <;> grind)

theorem lowS_leastUnion (a b : Bound α) {aft : Bool} {k : Key α} (hr : RealPos aft k) :
    lowS (a.leastUnion b) aft k ↔ lowS a aft k ∨ lowS b aft k := by
  obtain ⟨r1, r2⟩ := hr
  cases k with
  | top => exact absurd rfl r1
  | bot =>
    obtain rfl := r2 rfl
    rcases a with a | a | _ <;> rcases b with b | b | _ <;>
      simp only [Bound.leastUnion] <;> (try split_ifs) <;> simp [lowS, Tine.key, Bound.isInclusive]
  | fin x =>
    rcases a with a | a | _ <;> rcases b with b | b | _ <;> cases aft <;>
      simp only [Bound.leastUnion] <;> (try split_ifs) <;>
      simp [lowS, Tine.key, Bound.isInclusive] <;> grind

theorem upS_greatestUnion (a b : Bound α) {aft : Bool} {k : Key α} (hr : RealPos aft k) :
    upS (a.greatestUnion b) aft k ↔ upS a aft k ∨ upS b aft k := by
  obtain ⟨r1, r2⟩ := hr
  cases k with
  | top => exact absurd rfl r1
  | bot =>
    obtain rfl := r2 rfl
    rcases a with a | a | _ <;> rcases b with b | b | _ <;>
      simp only [Bound.greatestUnion] <;> (try split_ifs) <;> simp [upS, Tine.key, Bound.isInclusive]
  | fin x =>
    rcases a with a | a | _ <;> rcases b with b | b | _ <;> cases aft <;>
      simp only [Bound.greatestUnion] <;> (try split_ifs) <;>
      simp [upS, Tine.key, Bound.isInclusive] <;> grind

theorem lowS_greatestIntersect (a b : Bound α) {aft : Bool} {k : Key α} (hr : RealPos aft k) :
    lowS (a.greatestIntersect b) aft k ↔ lowS a aft k ∧ lowS b aft k := by
  obtain ⟨r1, r2⟩ := hr
  cases k with
  | top => exact absurd rfl r1
  | bot =>
    obtain rfl := r2 rfl
    rcases a with a | a | _ <;> rcases b with b | b | _ <;>
      simp only [Bound.greatestIntersect] <;> (try split_ifs) <;> simp [lowS, Tine.key, Bound.isInclusive]
  | fin x =>
    rcases a with a | a | _ <;> rcases b with b | b | _ <;> cases aft <;>
      simp only [Bound.greatestIntersect] <;> (try split_ifs) <;>
      simp [lowS, Tine.key, Bound.isInclusive] <;> grind

theorem upS_leastIntersect (a b : Bound α) {aft : Bool} {k : Key α} (hr : RealPos aft k) :
    upS (a.leastIntersect b) aft k ↔ upS a aft k ∧ upS b aft k := by
  obtain ⟨r1, r2⟩ := hr
  cases k with
  | top => exact absurd rfl r1
  | bot =>
    obtain rfl := r2 rfl
    rcases a with a | a | _ <;> rcases b with b | b | _ <;>
      simp only [Bound.leastIntersect] <;> (try split_ifs) <;> simp [upS, Tine.key, Bound.isInclusive]
  | fin x =>
    rcases a with a | a | _ <;> rcases b with b | b | _ <;> cases aft <;>
      simp only [Bound.leastIntersect] <;> (try split_ifs) <;>
      simp [upS, Tine.key, Bound.isInclusive] <;> grind

/-- Without a gap, everything is before the one bound or beyond the other. -/
theorem no_gap {u l : Bound α} (h : ¬ Sep u l) {aft : Bool} {k : Key α} (hr : RealPos aft k) :
    upS u aft k ∨ lowS l aft k := by
  obtain ⟨r1, r2⟩ := hr
  unfold Sep at h
  push Not at h
  obtain ⟨h1, h2⟩ := h
  cases k with
  | top => exact absurd rfl r1
  | bot =>
    obtain rfl := r2 rfl
    rcases u with a | a | _ <;> rcases l with b | b | _ <;>
      simp [upS, lowS, Tine.key, Bound.isInclusive] at h1 h2 ⊢
  | fin x =>
    rcases u with a | a | _ <;> rcases l with b | b | _ <;> cases aft <;>
      simp [upS, lowS, Tine.key, Bound.isInclusive] at h1 h2 ⊢ <;> grind

/-- Incompatible bounds that do not touch have a gap between them. -/
theorem gap_of {u l : Bound α} (h : ¬ l.Compat u) (h' : l.isUnionAdjacentTo u = false) : Sep u l := by
  rcases u with a | a | _ <;> rcases l with b | b | _ <;>
    simp [Bound.Compat, Bound.isUnionAdjacentTo, Sep, Tine.key] at h h' ⊢ <;> grind

/-- No place is beyond a lower bound and before an incompatible upper bound. -/
theorem not_compat {u l : Bound α} (h : ¬ l.Compat u) {aft : Bool} {k : Key α} (hr : RealPos aft k) :
    ¬ (lowS l aft k ∧ upS u aft k) := by
  obtain ⟨r1, r2⟩ := hr
  cases k with
  | top => exact absurd rfl r1
  | bot =>
    obtain rfl := r2 rfl
    rcases u with a | a | _ <;> rcases l with b | b | _ <;>
      simp [upS, lowS, Tine.key, Bound.isInclusive, Bound.Compat] at h ⊢
  | fin x =>
    rcases u with a | a | _ <;> rcases l with b | b | _ <;> cases aft <;>
      simp [upS, lowS, Tine.key, Bound.isInclusive, Bound.Compat] at h ⊢ <;> grind

theorem new_bounds' {l u : Bound α} (h : l.Compat u) :
    (RawInterval.new l u).lowerBound = some l ∧ (RawInterval.new l u).upperBound = some u :=
  ⟨(RawInterval.new_of_compat h).1, (RawInterval.new_of_compat h).2.1⟩

/-- The coverage of an intersection. -/
theorem icov_intersect {a b : RawInterval α} (ha : a.WF) (hb : b.WF) {aft : Bool} {k : Key α}
    (hr : RealPos aft k) : icov (a.intersect b) aft k = (icov a aft k && icov b aft k) := by
  have hz : icov (.empty : RawInterval α) aft k = false := rfl
  rcases a.bounds_cases with ⟨rfl, -⟩ | ⟨la, ua, a1, a2, -⟩
  · rw [hz]; exact hz
  rcases b.bounds_cases with ⟨rfl, -⟩ | ⟨lb, ub, b1, b2, -⟩
  · rw [hz, Bool.and_false]; cases a <;> exact hz
  rw [RawInterval.intersect_of_bounds a1 a2 b1 b2, Bool.eq_iff_iff, Bool.and_eq_true,
    icov_iff ha a1 a2 hr, icov_iff hb b1 b2 hr]
  split_ifs with h
  · obtain ⟨e1, e2⟩ := new_bounds' h
    rw [icov_iff (RawInterval.new_wf _ _) e1 e2 hr, lowS_greatestIntersect _ _ hr,
      upS_leastIntersect _ _ hr]
    tauto
  · have := not_compat h hr
    rw [lowS_greatestIntersect _ _ hr, upS_leastIntersect _ _ hr] at this
    rw [hz]
    simp only [Bool.false_eq_true, false_iff]
    tauto

/-- `union` of two non-empty intervals merges them exactly if there is no gap. -/
theorem union_cases {a b : RawInterval α} (ha : a.WF) (hb : b.WF) (na : a ≠ .empty) (nb : b ≠ .empty) :
    (a.union b = [a, b] ∧ (SepI a b ∨ SepI b a)) ∨
    (a.union b = [a.enclose b] ∧ a.enclose b ≠ .empty ∧ ∀ aft k, RealPos aft k →
      icov (a.enclose b) aft k = (icov a aft k || icov b aft k)) := by
  rcases a.bounds_cases with ⟨rfl, -⟩ | ⟨la, ua, a1, a2, -⟩
  · exact absurd rfl na
  rcases b.bounds_cases with ⟨rfl, -⟩ | ⟨lb, ub, b1, b2, -⟩
  · exact absurd rfl nb
  have n1 : a.isEmpty = false := by
    rw [Bool.eq_false_iff, ne_eq, RawInterval.isEmpty_iff]; exact na
  have n2 : b.isEmpty = false := by
    rw [Bool.eq_false_iff, ne_eq, RawInterval.isEmpty_iff]; exact nb
  have ca := RawInterval.wf_compat ha a1 a2
  have cb := RawInterval.wf_compat hb b1 b2
  by_cases hab : Sep ua lb
  · exact .inl ⟨sep_union ha hb a2 b1 hab, .inl ⟨_, _, a2, b1, hab⟩⟩
  by_cases hba : Sep ub la
  · refine .inl ⟨?_, .inr ⟨_, _, b2, a1, hba⟩⟩
    have h := sep_union hb ha b2 a1 hba
    have hc : (a.intersects b || a.isAdjacentTo b) = (b.intersects a || b.isAdjacentTo a) := by
      congr 1
      · rw [Bool.eq_iff_iff, RawInterval.intersect_isEmpty a1 a2 b1 b2,
          RawInterval.intersect_isEmpty b1 b2 a1 a2]
        tauto
      · simp only [RawInterval.isAdjacentTo, a1, a2, b1, b2]
        exact Bool.or_comm _ _
    simp only [RawInterval.union, n1, n2] at h ⊢
    rw [hc]
    split_ifs at h ⊢
    · simp at h
    · rfl
  · right
    have hm : (a.intersects b || a.isAdjacentTo b) = true := by
      by_contra hn
      rw [Bool.not_eq_true, Bool.or_eq_false_iff, Bool.eq_false_iff, ne_eq,
        RawInterval.intersect_isEmpty a1 a2 b1 b2] at hn
      obtain ⟨h1, h2⟩ := hn
      simp only [RawInterval.isAdjacentTo, a1, a2, b1, b2, Bool.or_eq_false_iff] at h2
      by_cases c1 : la.Compat ub
      · by_cases c2 : lb.Compat ua
        · exact h1 ⟨⟨ca, cb⟩, c1, c2⟩
        · exact hab (gap_of c2 h2.2)
      · exact hba (gap_of c1 h2.1)
    have hcomp : (la.leastUnion lb).Compat (ua.greatestUnion ub) := by
      revert ca
      rcases la with x | x | _ <;> rcases ua with y | y | _ <;> rcases lb with z | z | _ <;>
        rcases ub with w | w | _ <;> simp only [Bound.leastUnion, Bound.greatestUnion] <;>
        (try split_ifs) <;> simp [Bound.Compat] at cb ⊢ <;> grind
    obtain ⟨e1, e2⟩ := new_bounds' hcomp
    refine ⟨by simp only [RawInterval.union, n1, n2, hm, if_true], ?_, fun aft k hr => ?_⟩
    · rw [RawInterval.enclose_of_bounds a1 a2 b1 b2]
      intro h
      rw [h] at e1; cases e1
    · rw [RawInterval.enclose_of_bounds a1 a2 b1 b2, Bool.eq_iff_iff, Bool.or_eq_true,
        icov_iff ha a1 a2 hr, icov_iff hb b1 b2 hr, icov_iff (RawInterval.new_wf _ _) e1 e2 hr,
        lowS_leastUnion _ _ hr, upS_greatestUnion _ _ hr]
      have g1 := no_gap hab hr
      have g2 := no_gap hba hr
      tauto

/-! ## Complement and difference of intervals -/

theorem complement_wf (a : RawInterval α) (h : a.WF) :
    (∀ i ∈ a.complement, i.WF ∧ i ≠ .empty) ∧ a.complement.Pairwise SepI := by
  cases a <;> simp [RawInterval.complement, RawInterval.WF, SepI, RawInterval.lowerBound,
    RawInterval.upperBound, Sep, Tine.key, RawInterval.WF] at h ⊢ <;> grind

theorem complement_icov {a : RawInterval α} (h : a.WF) {aft : Bool} {k : Key α} (hr : RealPos aft k) :
    (a.complement.any fun i => icov i aft k) = !icov a aft k := by
  obtain ⟨r1, r2⟩ := hr
  cases k with
  | top => exact absurd rfl r1
  | bot =>
    obtain rfl := r2 rfl
    cases a <;> simp [RawInterval.complement, icov, cov, Tine.fromRawInterval, Tine.key,
      Tine.isLowerBound, Tine.inclAt]
  | fin x =>
    cases a <;> cases aft <;> simp only [RawInterval.WF] at h <;>
      simp [RawInterval.complement, icov, cov, Tine.fromRawInterval, Tine.key,
        Tine.isLowerBound, Tine.inclAt] <;> grind

theorem sep_intersect {ua u la l : Bound α} (h : Sep u l) :
    Sep (ua.leastIntersect u) (la.greatestIntersect l) := by
  rcases u with x | x | _ <;> rcases l with y | y | _ <;> simp [Sep, Tine.key] at h <;>
    rcases ua with z | z | _ <;> rcases la with w | w | _ <;>
    simp only [Bound.leastIntersect, Bound.greatestIntersect] <;> (try split_ifs) <;>
    simp [Sep, Tine.key] <;> grind

theorem SepI.intersect {a i j : RawInterval α} (h : SepI i j) (hi : i.WF) (hj : j.WF)
    (n1 : (a.intersect i).isEmpty = false) (n2 : (a.intersect j).isEmpty = false) :
    SepI (a.intersect i) (a.intersect j) := by
  obtain ⟨u, l, e1, e2, e3⟩ := h
  rcases a.bounds_cases with ⟨rfl, -⟩ | ⟨la, ua, a1, a2, -⟩
  · exact absurd n1 (by simp [RawInterval.intersect, RawInterval.lowerBound, RawInterval.isEmpty])
  rcases i.bounds_cases with ⟨rfl, -, g⟩ | ⟨li, ui, i1, i2, -⟩
  · rw [g] at e1; cases e1
  rcases j.bounds_cases with ⟨rfl, g, -⟩ | ⟨lj, uj, j1, j2, -⟩
  · rw [g] at e2; cases e2
  rw [i2] at e1; cases e1
  rw [j1] at e2; cases e2
  rw [RawInterval.intersect_of_bounds a1 a2 i1 i2] at n1 ⊢
  rw [RawInterval.intersect_of_bounds a1 a2 j1 j2] at n2 ⊢
  split_ifs at n1 with c1
  · split_ifs at n2 with c2
    · rw [if_pos c1, if_pos c2]
      exact ⟨_, _, (new_bounds' c1).2, (new_bounds' c2).1, sep_intersect e3⟩
    · simp [RawInterval.isEmpty] at n2
  · simp [RawInterval.isEmpty] at n1

theorem minus_list {a b : RawInterval α} (ha : a.WF) (hb : b.WF) :
    (∀ i ∈ a.minus b, i.WF ∧ i ≠ .empty) ∧ (a.minus b).Pairwise SepI ∧
    ∀ aft k, RealPos aft k → ((a.minus b).any fun i => icov i aft k) =
      (icov a aft k && !icov b aft k) := by
  obtain ⟨cw, cs⟩ := complement_wf b hb
  refine ⟨fun i hi => ?_, ?_, fun aft k hr => ?_⟩
  · rw [RawInterval.minus, List.mem_filter, List.mem_map] at hi
    obtain ⟨⟨c, -, rfl⟩, h2⟩ := hi
    refine ⟨RawInterval.intersect_wf _ _, ?_⟩
    intro h
    rw [h] at h2; simp [RawInterval.isEmpty] at h2
  · rw [RawInterval.minus, List.pairwise_filter, List.pairwise_map]
    refine cs.imp_of_mem fun {i j} hi hj h n1 n2 => ?_
    simp only [Bool.not_eq_true'] at n1 n2
    exact h.intersect (cw i hi).1 (cw j hj).1 n1 n2
  · rw [← complement_icov hb hr, RawInterval.minus, List.any_filter, List.any_map]
    rw [Bool.eq_iff_iff, List.any_eq_true, Bool.and_eq_true, List.any_eq_true]
    have hz : ∀ i : RawInterval α, i.isEmpty = true → icov i aft k = false := by
      intro i hi
      rw [RawInterval.isEmpty_iff] at hi
      rw [hi]; rfl
    constructor
    · rintro ⟨c, hc, h⟩
      simp only [Function.comp, Bool.and_eq_true, icov_intersect ha (cw c hc).1 hr] at h
      exact ⟨h.2.1, c, hc, h.2.2⟩
    · rintro ⟨h1, c, hc, h2⟩
      refine ⟨c, hc, ?_⟩
      have h3 : icov (a.intersect c) aft k = true := by
        rw [icov_intersect ha (cw c hc).1 hr, h1, h2]; rfl
      simp only [Function.comp, Bool.and_eq_true, Bool.not_eq_true']
      refine ⟨?_, h3⟩
      by_contra hn
      rw [Bool.not_eq_false] at hn
      rw [hz _ hn] at h3; cases h3

/-! ## Removing a point next to an excluded end -/

theorem chain_fun {s e e' : Bool} {A : List (Tine α)} (h : Chain s A e) (h' : Chain s A e') : e = e' := by
  induction A generalizing s with
  | nil => exact h.symm.trans h'
  | cons a A ih => exact ih h.2 h'.2

theorem chain_start {s s' e : Bool} {A : List (Tine α)} (h : Chain s A e) (h' : Chain s' A e) : s = s' := by
  cases A with
  | nil => exact h.trans h'.symm
  | cons a A => exact h.1.symm.trans h'.1

/-- If the point is not in the tree but the tree comes up to it, the result is not a tree. -/
theorem minusPoint_bad (dbg : Bool) {t t' : TineTree α} {p : α} (o : One t (.fin p)) (ha : o.a = false)
    (hbc : o.b = true ∨ o.c = true)
    (e : TineTree.minusPoint dbg t (.point (.incl p)) = .ok t') : ¬ Valid t' := by
  obtain ⟨A, B, b, a, c, eq, fits, ltA, gtB, sA, sB, cA, cB⟩ := o
  have hs := exteriorSplitPoint_eq (p := .point (.incl p)) (pincl_ok p)
    ⟨A, B, b, a, c, eq, fits, ltA, gtB, sA, sB, cA, cB⟩
  have hb := chain_last cA
  have hc := chain_head cB
  have i1 : ∀ x : Tine α, x.Ok → x.key = .fin p → BSet.insert x (A ++ B) = A ++ x :: B :=
    fun x hx hxk => BSet.insert_split hx (by rw [hxk]; exact ltA) (by rw [hxk]; exact gtB)
  simp only [TineTree.minusPoint, hs, hb, hc] at e
  simp only at ha hbc
  subst ha
  have r : t' = if b && c then A ++ Tine.point (.incl p) :: B else A ++ B := by
    clear hs hb hc ltA gtB sA sB cA cB eq fits
    cases b <;> cases c <;> cases dbg <;> simp at hbc <;>
      simp (config := {decide := true}) [edge, Tine.key, Tine.inclAt, Tine.minus, Tine.asRef,
        Tine.intoInner, Bound.asRef, dassert, bind, Except.bind, Tine.isLowerBound,
        Tine.isUpperBound, pure, Except.pure, Tine.invert] at e ⊢ <;>
      (try rw [i1 _ (by simp [Tine.Ok]) rfl] at e) <;> exact e.symm
  rintro ⟨-, v⟩
  rw [r] at v
  split_ifs at v with h
  · obtain ⟨m, g1, g2⟩ := chain_append.1 v
    obtain rfl := chain_fun g1 cA
    simp only [Bool.and_eq_true] at h
    rw [h.1] at g2
    exact absurd g2.1 (by simp [Tine.isUpperBound])
  · obtain ⟨m, g1, g2⟩ := chain_append.1 v
    obtain rfl := chain_fun g1 cA
    obtain rfl := chain_start g2 cB
    cases m <;> simp at h hbc

/-- Exactly when removing a point from a tree works. -/
theorem minusPoint_iff (dbg : Bool) {t : TineTree α} (ht : Valid t) (p : α) :
    (∃ t', TineTree.minusInPlace dbg t (.point p) = .ok t' ∧ Valid t') ↔ MinusOk t (.point p) := by
  constructor
  · rintro ⟨t', e, v⟩
    by_contra hn
    obtain ⟨o⟩ := one ht (.fin p)
    obtain ⟨v1, v2, v3⟩ := o.views
    simp only [MinusOk, v1, v2, v3, not_or, Bool.not_eq_true, not_and] at hn
    have hbc : o.b = true ∨ o.c = true := by
      cases hb : o.b
      · cases hc : o.c
        · exact absurd hc (by simpa [hb] using hn.2 hb)
        · exact .inr rfl
      · exact .inl rfl
    have h0 : TineTree.isEmpty t = false := by
      rcases t with _ | ⟨x, t⟩
      · rw [show bef false ([] : TineTree α) (.fin p) = false from rfl] at v1
        rw [show tcov ([] : TineTree α) true (.fin p) = false from rfl] at v3
        rw [← v1, ← v3] at hbc
        simp at hbc
      · rfl
    refine minusPoint_bad dbg o hn.1 hbc ?_ v
    simpa [TineTree.minusInPlace, h0, RawInterval.isEmpty, RawInterval.isFull, Tine.fromRawInterval]
      using e
  · intro h
    obtain ⟨t', e, v, -⟩ := minusInPlace_ok dbg ht (i := .point p) trivial h
    exact ⟨t', e, v⟩

end TT
end NI
