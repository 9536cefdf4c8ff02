import Verif.Lemmas.SelBase

/-! # Operations of `Selection` on its tree -/

set_option linter.unusedSimpArgs false
set_option linter.unusedVariables false
set_option linter.unnecessarySeqFocus false
set_option linter.unusedSectionVars false
set_option linter.unusedTactic false
set_option linter.unreachableTactic false
set_option linter.unnecessarySimpa false

namespace NI
open Finite

namespace TT
variable {α : Type} [LinearOrder α]
open BSet (Lt Gt At)

open Classical in
/-- What `minus_in_place` does with an interval that is not a single point. -/
theorem minusTwo_ok (dbg : Bool) {t : TineTree α} (ht : Valid t) {d : RawInterval α} (hd : d.WF)
    (hp : ∀ p, d ≠ .point p) :
    ∃ t', TineTree.minusInPlace dbg t d = .ok t' ∧ Valid t' ∧
      ∀ aft k, tcov t' aft k = ((tcov t aft k && !icov d aft k) ||
        (!aft && holeAt t k && decide (∃ x ∈ Tine.fromRawInterval d, x.key = k))) := by
  by_cases hm : MinusOk t d
  · obtain ⟨t', e, v, c, -⟩ := minusInPlace_ok dbg ht hd hm
    refine ⟨t', e, v, fun aft k => ?_⟩
    have hm' : ∀ x ∈ Tine.fromRawInterval d, holeAt t x.key = false := by
      cases d <;> first | exact hm | exact absurd rfl (hp _)
    rw [c]
    by_cases h1 : ∃ x ∈ Tine.fromRawInterval d, x.key = k
    · obtain ⟨x, hx, rfl⟩ := h1
      rw [hm' x hx]; simp
    · simp [h1]
  · have hd0 : d ≠ .empty := by
      rintro rfl; exact hm (by simp [MinusOk, Tine.fromRawInterval])
    have hd1 : d ≠ .full := by
      rintro rfl
      refine hm fun x hx => ?_
      simp [Tine.fromRawInterval] at hx
      rcases hx with rfl | rfl
      · exact (hole_inf ht).1
      · exact (hole_inf ht).2
    have ht0 : t ≠ [] := by
      rintro rfl
      have : ∀ x ∈ Tine.fromRawInterval d, holeAt ([] : TineTree α) x.key = false := by
        intro x _; rfl
      exact hm (by cases d <;> first | exact this | exact absurd rfl (hp _))
    rcases fromRaw_cases hd with ⟨e0, e⟩ | ⟨p, e0, e⟩ | ⟨lb, ub, e, hk⟩
    · exact absurd e0 hd0
    · exact absurd e0 (hp p)
    · obtain ⟨t', e1, v, c, -⟩ := minusProper_ok dbg ht hk
      refine ⟨t', ?_, v, fun aft k => ?_⟩
      · have h1 : TineTree.isEmpty t = false := by simpa [TineTree.isEmpty] using ht0
        have h2 : d.isEmpty = false := by
          rw [Bool.eq_false_iff, ne_eq, RawInterval.isEmpty_iff]; exact hd0
        have h3 : d.isFull = false := by
          rw [Bool.eq_false_iff]
          intro hf
          exact hd1 (by cases d <;> simp_all [RawInterval.isFull])
        simp only [TineTree.minusInPlace, h1, h2, h3, e]; exact e1
      · rw [c, icov, e]
        congr 2
        rw [Bool.eq_iff_iff, Bool.or_eq_true, decide_eq_true_iff, decide_eq_true_iff, decide_eq_true_iff]
        constructor
        · rintro (h | h)
          · exact ⟨.lower lb, by simp, h.symm⟩
          · exact ⟨.upper ub, by simp, h.symm⟩
        · rintro ⟨x, hx, rfl⟩
          simp only [List.mem_cons, List.not_mem_nil, or_false] at hx
          rcases hx with rfl | rfl
          · exact .inl rfl
          · exact .inr rfl

theorem noHole_holeFree {t : TineTree α} (h : Valid t) (hn : ∀ x, holeAt t (.fin x) = false) :
    HoleFree t := by
  intro x hx
  rw [Bool.eq_false_iff]
  intro he
  rcases x with b | (p | p | _) | b <;> simp [Tine.isPointExclude] at he
  obtain ⟨o⟩ := one h (.fin p)
  obtain ⟨v1, v2, v3⟩ := o.views
  have h1 := hn p
  rw [holeAt, v1, v2, v3] at h1
  rw [mem_edge o rfl] at hx
  revert h1 hx
  cases o.b <;> cases o.a <;> cases o.c <;> simp [edge]

variable [Finite α] [LawfulFinite α]

/-- Coverage after a point of a denormalized interval. -/
theorem open_after {i : RawInterval α} (h : i.NF) :
    (∀ x, i.contains x = true → icov i.denormalized true (.fin x) = true) ∧
    (∀ x y, succ x = some y → i.contains y = true → icov i.denormalized true (.fin x) = true) ∧
    (i.contains minimum = true → icov i.denormalized true .bot = true) := by
  have hwf := RawInterval.denorm_wf h
  have hc := RawInterval.denorm_contains h
  simp only [← hc, RawInterval.contains_iff]
  rcases RawInterval.denorm_open h with e | ⟨a, b, e⟩ | ⟨a, e⟩ | ⟨b, e⟩ | e <;>
    simp only [e, RawInterval.pts] at hwf ⊢
  · simp
  · refine ⟨fun x hx => ?_, fun x y hy hx => ?_, fun hx => ?_⟩
    · rw [(icov_opn hwf x).1]; simp [hx.1.le, hx.2]
    · rw [(icov_opn hwf x).1]
      have h1 := LawfulFinite.succ_some x y hy
      have : a ≤ x := by
        have h2 := (LawfulFinite.pred_some y x (pred_of_succ hy)).2 a hx.1; exact h2
      simp [this, h1.1.trans hx.2]
    · exact absurd hx.1 (not_lt.2 (minimum_le a))
  · refine ⟨fun x hx => ?_, fun x y hy hx => ?_, fun hx => ?_⟩
    · rw [(icov_upFrom a x).1]; simp [le_of_lt hx]
    · rw [(icov_upFrom a x).1]
      have h2 := (LawfulFinite.pred_some y x (pred_of_succ hy)).2 a hx
      simp [h2]
    · exact absurd hx (not_lt.2 (minimum_le a))
  · refine ⟨fun x hx => ?_, fun x y hy hx => ?_, fun hx => ?_⟩
    · rw [(icov_upTo b x).1]; simpa using hx
    · rw [(icov_upTo b x).1]
      have h1 := LawfulFinite.succ_some x y hy
      simp [h1.1.trans hx]
    · exact (icov_upTo b b).2
  · exact ⟨fun x _ => (icov_full x).1, fun x _ _ _ => (icov_full x).1, fun _ => (icov_full minimum).2⟩

open Classical in
theorem NP.minus {t t' : TineTree α} (h : NP t) {i : RawInterval α} (hi : i.NF)
    (c : ∀ aft k, tcov t' aft k = ((tcov t aft k && !icov i.denormalized aft k) ||
        (!aft && holeAt t k && decide (∃ x ∈ Tine.fromRawInterval i.denormalized, x.key = k)))) :
    NP t' := by
  obtain ⟨o1, o2, o3⟩ := open_after hi
  have hin : ∀ x, at' t x = true → i.contains x = false → at' t' x = true := by
    intro x h1 h2
    rw [at', c, icov_fin (RawInterval.denorm_wf hi), RawInterval.denorm_contains hi, h2]
    have h1 : tcov t false (.fin x) = true := h1
    simp [h1]
  refine ⟨fun x hx => ?_, fun hx => ?_⟩
  · rw [c] at hx
    simp at hx
    obtain ⟨hx1, hx2⟩ := hx
    rcases h.1 x hx1 with g | g
    · refine .inl (hin x g ?_)
      rw [Bool.eq_false_iff]; intro hc
      rw [o1 x hc] at hx2; cases hx2
    · cases hs : succ x with
      | none => rw [hs] at g; cases g
      | some y =>
        rw [hs] at g
        refine .inr (hin y g ?_)
        rw [Bool.eq_false_iff]; intro hc
        rw [o2 x y hs hc] at hx2; cases hx2
  · rw [c] at hx
    simp at hx
    refine hin _ (h.2 hx.1) ?_
    rw [Bool.eq_false_iff]; intro hc
    rw [o3 hc] at hx; cases hx.2

/-- Without holes, removing is exact and makes no holes. -/
theorem NoHole.minus {t t' : TineTree α} (h : NoHole t) {c : Bool → Key α → Bool}
    (ho : ∀ x, c false (.fin x) = true → c true (.fin x) = true)
    (hc : ∀ aft k, tcov t' aft k = (tcov t aft k && !c aft k)) : NoHole t' := by
  intro x
  have hx := h x
  rw [holeAt] at hx ⊢
  have hb : bef false t' (.fin x) = true → bef false t (.fin x) = true := by
    cases hp : pred x with
    | none =>
      rw [bef_min hp, bef_min hp, hc]; simp; exact fun h _ => h
    | some y =>
      rw [bef_pred hp, bef_pred hp, hc]; simp; exact fun h _ => h
  have ho := ho x
  rw [hc, hc]
  revert hx hb ho
  cases bef false t' (.fin x) <;> cases bef false t (.fin x) <;> cases tcov t false (.fin x) <;>
    cases tcov t true (.fin x) <;> cases c false (.fin x) <;> cases c true (.fin x) <;> simp

theorem noHole_fromRaw {d : RawInterval α} (hd : d.WF) : NoHole (Tine.fromRawInterval d) := by
  intro x
  rw [Bool.eq_false_iff]
  intro hh
  have v := fromRaw_valid hd
  rw [hole_iff v] at hh
  obtain ⟨⟨i, hi, h1⟩, j, hj, h2⟩ := hh
  have : i = j := by
    rcases fromRaw_cases hd with ⟨_, e⟩ | ⟨p, _, e⟩ | ⟨lb, ub, e, hk⟩ <;> rw [e] at hi hj <;>
      simp [pieces] at hi hj
    · rw [hi, hj]
    · rw [hi, hj]
  subst this
  have hw := (pieces_wf v.1).1 i hi
  cases i <;> simp_all [RawInterval.upperBound, RawInterval.lowerBound, RawInterval.WF]

end TT

/-! ## Selections -/

namespace Selection
variable {α : Type} [LinearOrder α] [Finite α] [LawfulFinite α]
open TT

theorem contains_iff (dbg : Bool) {s : Selection α} (h : Valid s.tree) (x : α) :
    s.contains dbg x = .ok true ↔ at' s.tree x = true := by
  rw [Selection.contains, contains_ok dbg h, Except.ok.injEq]

theorem contains_ok (dbg : Bool) {s : Selection α} (h : Valid s.tree) (x : α) :
    s.contains dbg x = .ok (at' s.tree x) := TT.contains_ok dbg h x

/-- Coverage of an `Interval` value as it is inserted. -/
noncomputable def ic (i : Interval α) : Bool → Key α → Bool := icov i.raw.denormalized

theorem ic_fin {i : Interval α} (hi : i.Obtainable) (x : α) : ic i false (.fin x) = i.contains x := by
  have h := Interval.obtainable_nf hi
  rw [ic, icov_fin (RawInterval.denorm_wf h), RawInterval.denorm_contains h]; rfl

theorem denorm_valid {i : Interval α} (hi : i.Obtainable) :
    Valid (Tine.fromRawInterval i.raw.denormalized) :=
  fromRaw_valid (RawInterval.denorm_wf (Interval.obtainable_nf hi))

theorem ofInterval_tree {i : Interval α} (hi : i.Obtainable) :
    (ofInterval i).tree = Tine.fromRawInterval i.raw.denormalized :=
  tree_fromRaw (RawInterval.denorm_wf (Interval.obtainable_nf hi))

theorem unionInPlace_ok (dbg : Bool) {s : Selection α} (h : Valid s.tree) {i : Interval α}
    (hi : i.Obtainable) : ∃ s', s.unionInPlace dbg i = .ok s' ∧ Valid s'.tree ∧
      ∀ aft k, tcov s'.tree aft k = (tcov s.tree aft k || ic i aft k) := by
  obtain ⟨t', e, v, c⟩ := TT.unionInPlace_ok dbg h
    (RawInterval.denorm_wf (Interval.obtainable_nf hi))
  exact ⟨⟨t'⟩, by rw [unionInPlace, e]; rfl, v, c⟩

theorem extend_ok (dbg : Bool) {s : Selection α} (h : Valid s.tree) {is : List (Interval α)}
    (hi : ∀ i ∈ is, i.Obtainable) : ∃ s', s.extend dbg is = .ok s' ∧ Valid s'.tree ∧
      ∀ aft k, tcov s'.tree aft k = (tcov s.tree aft k || is.any fun i => ic i aft k) := by
  induction is generalizing s with
  | nil => exact ⟨s, rfl, h, by simp⟩
  | cons i is ih =>
    obtain ⟨s1, e1, v1, c1⟩ := unionInPlace_ok dbg h (hi i (by simp))
    obtain ⟨s2, e2, v2, c2⟩ := ih v1 fun i hh => hi i (by simp [hh])
    refine ⟨s2, ?_, v2, fun aft k => by rw [c2, c1]; simp [Bool.or_assoc]⟩
    unfold extend
    rw [List.foldlM_cons]
    change (s.unionInPlace dbg i >>= fun s' => s'.extend dbg is) = _
    rw [e1]; exact e2

theorem fromPoints_eq (dbg : Bool) (xs : List α) :
    fromPoints dbg xs = fromIntervals dbg (xs.map Interval.point) := by
  simp [fromPoints, fromIntervals, List.foldlM_map]

theorem fromIntervals_eq (dbg : Bool) (is : List (Interval α)) :
    fromIntervals dbg is = new.extend dbg is := rfl

theorem union_ok (dbg : Bool) {a b : Selection α} (ha : Valid a.tree) (hb : Valid b.tree) :
    ∃ s', a.union dbg b = .ok s' ∧ Valid s'.tree ∧
      ∀ aft k, tcov s'.tree aft k = (tcov a.tree aft k || tcov b.tree aft k) := by
  obtain ⟨t', e, v, c⟩ := TT.union_ok dbg ha hb
  exact ⟨⟨t'⟩, by rw [union, e]; rfl, v, c⟩

theorem complement_ok (dbg : Bool) {s : Selection α} (h : Valid s.tree) :
    ∃ s', s.complement dbg = .ok s' ∧ Valid s'.tree ∧
      ∀ aft k, RealPos aft k → tcov s'.tree aft k = !tcov s.tree aft k := by
  obtain ⟨t', e, v, c⟩ := TT.complement_ok dbg h
  exact ⟨⟨t'⟩, by rw [complement, e]; rfl, v, c⟩

theorem intersect_ok (dbg : Bool) {a b : Selection α} (ha : Valid a.tree) (hb : Valid b.tree) :
    ∃ s', a.intersect dbg b = .ok s' ∧ Valid s'.tree ∧
      TineTree.fromIter dbg (isectList (pieces none a.tree) (pieces none b.tree)) = .ok s'.tree := by
  obtain ⟨t', e, v, c⟩ := TT.intersect_eq dbg ha hb
  exact ⟨⟨t'⟩, by rw [intersect, e]; rfl, v, c⟩

open Classical in
theorem minusInPlace_ok (dbg : Bool) {s : Selection α} (h : Valid s.tree) {i : Interval α}
    (hi : i.Obtainable) : ∃ s', s.minusInPlace dbg i = .ok s' ∧ Valid s'.tree ∧
      ∀ aft k, tcov s'.tree aft k = ((tcov s.tree aft k && !ic i aft k) ||
        (!aft && holeAt s.tree k &&
          decide (∃ x ∈ Tine.fromRawInterval i.raw.denormalized, x.key = k))) := by
  have hn := Interval.obtainable_nf hi
  obtain ⟨t', e, v, c⟩ := minusTwo_ok dbg h (RawInterval.denorm_wf hn)
    (RawInterval.denorm_not_point hn)
  exact ⟨⟨t'⟩, by rw [minusInPlace, e]; rfl, v, c⟩

theorem new_valid : Valid (new : Selection α).tree := valid_nil

theorem full_obtainable : (Interval.full : Interval α).Obtainable := .full

theorem full_tree : (full : Selection α).tree = [.lower .inf, .upper .inf] := by
  rw [full, ofInterval_tree full_obtainable]
  simp only [Interval.full, RawInterval.normalized, RawInterval.denormalized]
  rw [(LawfulFinite.pred_none (minimum : α)).2 rfl, (LawfulFinite.succ_none (maximum : α)).2 rfl]
  rfl

theorem reachable_valid {s : Selection α} (h : s.Reachable) : Valid s.tree := by
  have ext : ∀ {dbg : Bool} {s : Selection α} (h : Valid s.tree) {is : List (Interval α)}
      (hi : ∀ i ∈ is, i.Obtainable) {s'}, s.extend dbg is = .ok s' → Valid s'.tree := by
    intro dbg s h is hi s' e
    obtain ⟨s1, e1, v1, _⟩ := extend_ok dbg h hi
    rw [e1] at e; cases e; exact v1
  induction h with
  | new => exact new_valid
  | full => rw [full, ofInterval_tree full_obtainable]; exact denorm_valid full_obtainable
  | ofInterval hi => rw [ofInterval_tree hi]; exact denorm_valid hi
  | @unionInPlace dbg s i s' _ hi e ih =>
    obtain ⟨s1, e1, v1, _⟩ := unionInPlace_ok dbg ih hi
    rw [e1] at e; cases e; exact v1
  | @minusInPlace dbg s i s' _ hi e ih =>
    obtain ⟨s1, e1, v1, _⟩ := minusInPlace_ok dbg ih hi
    rw [e1] at e; cases e; exact v1
  | extend _ hi e ih => exact ext ih hi e
  | fromIntervals hi e => exact ext new_valid hi e
  | fromPoints e =>
    rw [fromPoints_eq] at e
    refine ext new_valid (fun i hi => ?_) e
    obtain ⟨p, _, rfl⟩ := List.mem_map.1 hi
    exact .point p
  | @union dbg a b s' _ _ e iha ihb =>
    obtain ⟨s1, e1, v1, _⟩ := union_ok dbg iha ihb
    rw [e1] at e; cases e; exact v1
  | @complement dbg s s' _ e ih =>
    obtain ⟨s1, e1, v1, _⟩ := complement_ok dbg ih
    rw [e1] at e; cases e; exact v1
  | @intersect dbg a b s' _ _ e iha ihb =>
    obtain ⟨s1, e1, v1, _⟩ := intersect_ok dbg iha ihb
    rw [e1] at e; cases e; exact v1
  | minus _ _ _ ht => exact TT.reachable_valid ht
  | intersectInPlace _ _ _ ht => exact TT.reachable_valid ht

theorem UnionBuilt.reachable {s : Selection α} (h : s.UnionBuilt) : s.Reachable := by
  induction h with
  | new => exact .new
  | full => exact .full
  | ofInterval hi _ => exact .ofInterval hi
  | unionInPlace _ hi _ e ih => exact .unionInPlace ih hi e
  | extend _ hi e ih => exact .extend ih (fun i h => (hi i h).1) e
  | fromIntervals hi e => exact .fromIntervals (fun i h => (hi i h).1) e
  | fromPoints e => exact .fromPoints e
  | union _ _ e iha ihb => exact .union iha ihb e

theorem Tidy.reachable {s : Selection α} (h : s.Tidy) : s.Reachable := by
  rcases h with h | ⟨dbg, s0, h, e⟩
  · exact h.reachable
  · exact .complement h.reachable e

theorem Solid.reachable {s : Selection α} (h : s.Solid) : s.Reachable := by
  induction h with
  | tidy h => exact h.reachable
  | unionInPlace _ hi _ e ih => exact .unionInPlace ih hi e
  | extend _ hi e ih => exact .extend ih (fun i h => (hi i h).1) e
  | union _ _ e iha ihb => exact .union iha ihb e
  | minusInPlace _ hi e ih => exact .minusInPlace ih hi e

/-- Adding a list of intervals, for a property of trees that is kept by union. -/
theorem extend_keep {P : TineTree α → Prop}
    (hP : ∀ {t1 t2 t3 : TineTree α}, P t1 → P t2 →
      (∀ aft k, tcov t3 aft k = (tcov t1 aft k || tcov t2 aft k)) → P t3)
    (hI : ∀ {i : Interval α}, i.Obtainable → i.Real → P (Tine.fromRawInterval i.raw.denormalized))
    {dbg : Bool} {s : Selection α} (h : Valid s.tree) (hp : P s.tree) {is : List (Interval α)}
    (hi : ∀ i ∈ is, i.Obtainable ∧ i.Real) {s'} (e : s.extend dbg is = .ok s') : P s'.tree := by
  induction is generalizing s with
  | nil => cases e; exact hp
  | cons i is ih =>
    obtain ⟨s1, e1, v1, c1⟩ := unionInPlace_ok dbg h (hi i (by simp)).1
    refine ih v1 (hP hp (hI (hi i (by simp)).1 (hi i (by simp)).2) c1)
      (fun i hh => hi i (by simp [hh])) ?_
    unfold extend at e
    rw [List.foldlM_cons] at e
    change (s.unionInPlace dbg i >>= fun s' => s'.extend dbg is) = _ at e
    rw [e1] at e; exact e

theorem full_real : (Interval.full : Interval α).Real :=
  Interval.real_mk_closed.2 (minimum_le _)

theorem UnionBuilt.do {s : Selection α} (h : s.UnionBuilt) : DO s.tree := by
  induction h with
  | new => exact DO.nil
  | full => rw [Selection.full, ofInterval_tree full_obtainable]; exact denorm_do full_obtainable full_real
  | ofInterval hi hr => rw [ofInterval_tree hi]; exact denorm_do hi hr
  | @unionInPlace dbg s i s' hs hi hr e ih =>
    obtain ⟨s1, e1, v1, c1⟩ := unionInPlace_ok dbg (reachable_valid hs.reachable) hi
    rw [e1] at e; cases e
    exact ih.or (denorm_do hi hr) c1
  | extend hs hi e ih => exact extend_keep DO.or denorm_do (reachable_valid hs.reachable) ih hi e
  | fromIntervals hi e => exact extend_keep DO.or denorm_do new_valid DO.nil hi e
  | fromPoints e =>
    rw [fromPoints_eq] at e
    refine extend_keep DO.or denorm_do new_valid DO.nil (fun i hi => ?_) e
    obtain ⟨p, _, rfl⟩ := List.mem_map.1 hi
    exact ⟨.point p, Interval.real_mk_point p⟩
  | @union dbg a b s' ha hb e iha ihb =>
    obtain ⟨s1, e1, v1, c1⟩ := union_ok dbg (reachable_valid ha.reachable)
      (reachable_valid hb.reachable)
    rw [e1] at e; cases e
    exact iha.or ihb c1

theorem compl_co {dbg : Bool} {s s' : Selection α} (h : s.UnionBuilt)
    (e : s.complement dbg = .ok s') : CO s'.tree := by
  obtain ⟨s1, e1, v1, c1⟩ := complement_ok dbg (reachable_valid h.reachable)
  rw [e1] at e; cases e
  exact h.do.compl c1

theorem Tidy.cases {s : Selection α} (h : s.Tidy) : DO s.tree ∨ CO s.tree := by
  rcases h with h | ⟨dbg, s0, h, e⟩
  · exact .inl h.do
  · exact .inr (compl_co h e)

theorem Solid.np {s : Selection α} (h : s.Solid) : NP s.tree := by
  induction h with
  | tidy h => rcases h.cases with h | h; exacts [h.np, h.np]
  | @unionInPlace dbg s i s' hs hi hr e ih =>
    obtain ⟨s1, e1, v1, c1⟩ := unionInPlace_ok dbg (reachable_valid hs.reachable) hi
    rw [e1] at e; cases e
    exact ih.or (denorm_do hi hr).np c1
  | extend hs hi e ih =>
    exact extend_keep NP.or (fun h1 h2 => (denorm_do h1 h2).np) (reachable_valid hs.reachable) ih hi e
  | @union dbg a b s' ha hb e iha ihb =>
    obtain ⟨s1, e1, v1, c1⟩ := union_ok dbg (reachable_valid ha.reachable)
      (reachable_valid hb.reachable)
    rw [e1] at e; cases e
    exact iha.or ihb c1
  | @minusInPlace dbg s i s' hs hi e ih =>
    obtain ⟨s1, e1, v1, c1⟩ := minusInPlace_ok dbg (reachable_valid hs.reachable) hi
    rw [e1] at e; cases e
    exact ih.minus (Interval.obtainable_nf hi) c1

/-- Pieces of a `DO` tree are not single points. -/
theorem do_pieces {t : TineTree α} (v : Valid t) (h : DO t) {i : RawInterval α}
    (hi : i ∈ pieces none t) (p : α) : i ≠ .point p := by
  rintro rfl
  obtain ⟨e1, e2⟩ := (closed_upper_iff v p).1 ⟨_, hi, rfl⟩
  have e1 : at' t p = true := e1
  rw [h.1, e1] at e2; simp at e2

/-- `minus` by a union-built selection, from a tree without holes. -/
theorem minus_ok (dbg : Bool) {a b : Selection α} (ha : Valid a.tree) (hn : NoHole a.tree)
    (hb : Valid b.tree) (hd : DO b.tree) : ∃ s', a.minus dbg b = .ok s' ∧ Valid s'.tree ∧
      NoHole s'.tree ∧
      ∀ aft k, tcov s'.tree aft k = (tcov a.tree aft k && !tcov b.tree aft k) := by
  obtain ⟨t', e, v, c⟩ := TT.minus_ok dbg ha hb fun i hi => by
    have h1 := do_pieces hb hd hi
    have h2 : ∀ x ∈ Tine.fromRawInterval i, holeAt a.tree x.key = false := by
      intro x _
      rcases key_cases x.key with e | ⟨y, e⟩ | e <;> rw [e]
      · exact (hole_inf ha).1
      · exact hn y
      · exact (hole_inf ha).2
    cases i <;> first | exact h2 | exact absurd rfl (h1 _)
  refine ⟨⟨t'⟩, by rw [minus, e]; rfl, v, NoHole.minus hn (fun x hx => ?_) c, c⟩
  rw [hd.1]
  have hx : at' b.tree x = true := hx
  rw [hx, Bool.true_or]

theorem Carved.valid_noHole {s : Selection α} (h : s.Carved) : Valid s.tree ∧ NoHole s.tree := by
  induction h with
  | new => exact ⟨new_valid, fun x => rfl⟩
  | full =>
    rw [Selection.full, ofInterval_tree full_obtainable]
    exact ⟨denorm_valid full_obtainable,
      noHole_fromRaw (RawInterval.denorm_wf (Interval.obtainable_nf full_obtainable))⟩
  | ofInterval hi =>
    rw [ofInterval_tree hi]
    exact ⟨denorm_valid hi, noHole_fromRaw (RawInterval.denorm_wf (Interval.obtainable_nf hi))⟩
  | @built s hs hg =>
    have v := reachable_valid hs.reachable
    refine ⟨v, fun x => ?_⟩
    rw [hs.do.hole, Bool.eq_false_iff]
    intro hh
    simp only [Bool.and_eq_true, Bool.not_eq_true'] at hh
    obtain ⟨⟨h1, h2⟩, h3⟩ := hh
    cases hp : pred x with
    | none => rw [hp] at h2; cases h2
    | some p =>
      cases hq : succ x with
      | none => rw [hq] at h3; cases h3
      | some q =>
        rw [hp] at h2; rw [hq] at h3
        have := (contains_iff true v x).1 (hg p x q hp hq ((contains_iff true v p).2 h2)
          ((contains_iff true v q).2 h3))
        rw [h1] at this; cases this
  | complement hs e =>
    exact ⟨reachable_valid (.complement hs.reachable e), (compl_co hs e).noHole⟩
  | @minusInPlace dbg s i s' hs hi e ih =>
    obtain ⟨s1, e1, v1, c1⟩ := minusInPlace_ok dbg ih.1 hi
    rw [e1] at e; cases e
    refine ⟨v1, NoHole.minus ih.2 (c := ic i) (fun x hx => ?_) fun aft k => ?_⟩
    · rw [ic_fin hi] at hx
      exact (open_after (Interval.obtainable_nf hi)).1 x hx
    · rw [c1]
      have : holeAt s.tree k = false := by
        rcases key_cases k with rfl | ⟨y, rfl⟩ | rfl
        · exact (hole_inf ih.1).1
        · exact ih.2 y
        · exact (hole_inf ih.1).2
      rw [this]; simp
  | @minus dbg s b s' hs hb e ih =>
    obtain ⟨s1, e1, v1, n1, _⟩ := minus_ok dbg ih.1 ih.2 (reachable_valid hb.reachable) hb.do
    rw [e1] at e; cases e
    exact ⟨v1, n1⟩

end Selection
end NI
