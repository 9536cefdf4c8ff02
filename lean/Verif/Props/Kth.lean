import Verif.Props.Apart
import Verif.Props.Within

/-!
# What `intersects` tells: the interval lists are compared position by position (C127, C128)
-/

set_option linter.unusedVariables false
set_option linter.unusedSectionVars false

namespace NI
open _root_.NI.Finite TT

theorem finger_none {β γ : Type _} (meets : β → γ → Bool) (as : List β) : ∀ (l : List γ) (n : Nat),
    (∀ m s o, l[m]? = some o → as[n + m]? = some s → meets s o = false) → finger meets as l n = n + l.length := by
  intro l
  induction l with
  | nil => intro n _; rfl
  | cons o l ih =>
    intro n h
    have h0 : as[n]?.any (meets · o) = false := by
      cases e : as[n]? with
      | none => rfl
      | some s => exact h 0 s o rfl e
    rw [finger, if_neg (by rw [h0]; simp), ih (n + 1) fun m s o' e1 e2 =>
      h (m + 1) s o' (by rw [List.getElem?_cons_succ]; exact e1) (by rw [← e2]; congr 1; omega)]
    rw [List.length_cons]; omega

/-- Some two members that come together in the walk meet exactly if two at the same position meet. -/
theorem together_kth {β γ : Type _} (meets : β → γ → Bool) (as : List β) (bs : List γ) :
    (∃ i j, Together meets as bs i j ∧ meets i j = true) ↔
      ∃ (k : Nat) (i : β) (j : γ), as[k]? = some i ∧ bs[k]? = some j ∧ meets i j = true := by
  classical
  have key : ∀ (k : Nat) (j : γ), bs[k]? = some j → (¬ ∃ m < k, ∃ i j, as[m]? = some i ∧ bs[m]? = some j ∧ meets i j = true) →
      finger meets as (bs.take k) 0 = k := by
    intro k j hj hn
    have hk : k < bs.length := by
      by_contra hc
      rw [List.getElem?_eq_none (not_lt.1 hc)] at hj; cases hj
    rw [finger_none meets as (bs.take k) 0 fun m s o e1 e2 => ?_, List.length_take]
    · omega
    · rw [Nat.zero_add] at e2
      rw [List.getElem?_take] at e1
      split at e1
      · rename_i hm
        by_contra hc
        exact hn ⟨m, hm, s, o, e2, e1, by simpa using hc⟩
      · cases e1
  constructor
  · rintro ⟨i, j, ⟨k, hj, hi⟩, h⟩
    by_cases hn : ∃ m < k, ∃ i j, as[m]? = some i ∧ bs[m]? = some j ∧ meets i j = true
    · obtain ⟨m, -, r⟩ := hn
      exact ⟨m, r⟩
    · rw [key k j hj hn] at hi
      exact ⟨k, i, j, hi, hj, h⟩
  · intro h
    obtain ⟨i, j, hi, hj, hm⟩ := Nat.find_spec h
    refine ⟨i, j, ⟨_, hj, ?_⟩, hm⟩
    rw [key _ j hj fun ⟨m, hlt, r⟩ => Nat.find_min h hlt r]
    exact hi

variable {α : Type} [LinearOrder α] [Finite α] [LawfulFinite α]

/-- `a.intersects(&b)` is true exactly if, for some `k`, the `k`-th intervals of the two share a value or have neighbouring
values. -/
theorem C128_intersects_iff (dbg : Bool) (a b : Selection α) (ha : a.UnionBuilt) (hb : b.UnionBuilt)
    (as bs : List (Interval α)) (has : a.intervals dbg = .ok as) (hbs : b.intervals dbg = .ok bs) :
    ∃ r, a.apartByIntersects dbg b = .ok r ∧ a.apartByIntersect dbg b = .ok r ∧
      (r = true ↔ ∀ (k : Nat) (i j : Interval α), as[k]? = some i → bs[k]? = some j → ¬ i.Near j) := by
  classical
  obtain ⟨-, r, er, hr⟩ := C52_formula dbg a b ha hb as bs has hbs (fun i j => decide (i.Near j)) fun i j => by simp
  have e : a.apartByIntersects dbg b = .ok !r := by rw [Selection.apartByIntersects, er]; rfl
  refine ⟨!r, e, (C128_intersects_partial dbg a b).1 ▸ e, ?_⟩
  have := together_kth (fun i j : Interval α => decide (i.Near j)) as bs
  simp only [decide_eq_true_eq] at this
  rw [Bool.not_eq_true', ← Bool.not_eq_true, hr, this]
  push Not
  rfl

/-- `{0, 5}` and `{2, 4}`: `0` and `2` are not near, `5` and `4` are. `{0, 5}` and `{5}`: `0` and `5` are not near, and there
is no second run to compare `5` with. -/
example : (Selection.demo [(u8 0, u8 0), (u8 5, u8 5)]).UnionBuilt ∧
    (Selection.demo [(u8 0, u8 0), (u8 5, u8 5)]).intervals true = .ok [⟨.closed (u8 0) (u8 0)⟩, ⟨.closed (u8 5) (u8 5)⟩] ∧
    (Selection.demo [(u8 0, u8 0), (u8 5, u8 5)]).apartByIntersects true (Selection.demo [(u8 2, u8 2), (u8 4, u8 4)]) =
      .ok false ∧
    (Selection.demo [(u8 0, u8 0), (u8 5, u8 5)]).apartByIntersects true (Selection.demo [(u8 5, u8 5)]) = .ok true :=
  ⟨Selection.demo_built _ (by decide), by decide, by decide, by decide⟩

/-- An open and a closed interval with values meet exactly if they share a value. -/
theorem open_closed_intersects {d e : RawInterval α} (hd : d.WF) (he : e.WF) (od : OpenIv d) (ce : ClosedIv e)
    (gd : ∃ x, d.contains x = true) (ge : ∃ x, e.contains x = true) :
    d.intersects e = true ↔ ∃ x, d.contains x = true ∧ e.contains x = true := by
  obtain ⟨x1, hx1⟩ := gd
  obtain ⟨x2, hx2⟩ := ge
  rw [RawInterval.contains_iff_bounds] at hx1 hx2
  obtain ⟨l1, u1, a1, b1, c1, c2⟩ := hx1
  obtain ⟨l2, u2, a2, b2, c3, c4⟩ := hx2
  have k1 : ∀ x, d.contains x = true ↔ l1.AdmitsAbove x ∧ u1.AdmitsBelow x := by
    intro x; rw [RawInterval.contains_iff_bounds, a1, b1]; simp
  have k2 : ∀ x, e.contains x = true ↔ l2.AdmitsAbove x ∧ u2.AdmitsBelow x := by
    intro x; rw [RawInterval.contains_iff_bounds, a2, b2]; simp
  rw [RawInterval.intersect_isEmpty a1 b1 a2 b2]
  simp only [k1, k2]
  have n1 : ∀ p, l1 ≠ .incl p := fun p h => (od p).1 (by rw [a1, h])
  have n2 : ∀ p, u1 ≠ .incl p := fun p h => (od p).2 (by rw [b1, h])
  have n3 : ∀ p, l2 ≠ .excl p := fun p h => (ce p).1 (by rw [a2, h])
  have n4 : ∀ p, u2 ≠ .excl p := fun p h => (ce p).2 (by rw [b2, h])
  have dn : ∀ {l : Bound α} {x y : α}, l.AdmitsAbove x → x ≤ y → l.AdmitsAbove y := by
    rintro (p | p | _) x y h h'
    exacts [le_trans (show p ≤ x from h) h', lt_of_lt_of_le (show p < x from h) h', trivial]
  have up : ∀ {l : Bound α} {x y : α}, l.AdmitsBelow x → y ≤ x → l.AdmitsBelow y := by
    rintro (p | p | _) x y h h'
    exacts [le_trans h' (show x ≤ p from h), lt_of_le_of_lt h' (show x < p from h), trivial]
  constructor
  · rintro ⟨-, m1, m2⟩
    rcases le_total x1 x2 with h | h
    · rcases l2 with c | c | _
      · rcases le_total c x1 with h' | h'
        · exact ⟨x1, ⟨c1, c2⟩, h', up c4 h⟩
        · refine ⟨c, ⟨dn c1 h', ?_⟩, le_refl c, up c4 c3⟩
          rcases u1 with q | q | _
          · exact absurd rfl (n2 q)
          · exact m2
          · trivial
      · exact absurd rfl (n3 c)
      · exact ⟨x1, ⟨c1, c2⟩, trivial, up c4 h⟩
    · rcases u2 with c | c | _
      · rcases le_total x1 c with h' | h'
        · exact ⟨x1, ⟨c1, c2⟩, dn c3 h, h'⟩
        · refine ⟨c, ⟨?_, up c2 h'⟩, dn c3 c4, le_refl c⟩
          rcases l1 with q | q | _
          · exact absurd rfl (n1 q)
          · exact m1
          · trivial
      · exact absurd rfl (n4 c)
      · exact ⟨x1, ⟨c1, c2⟩, dn c3 h, trivial⟩
  · rintro ⟨x, ⟨g1, g2⟩, g3, g4⟩
    have adj : ∀ {l u : Bound α}, l.AdmitsAbove x → u.AdmitsBelow x → l.Compat u := by
      rintro (p | p | _) (q | q | _) h h'
      all_goals first
        | trivial
        | exact le_trans (show p ≤ x from h) h'
        | exact lt_of_le_of_lt (show p ≤ x from h) h'
        | exact lt_of_lt_of_le (show p < x from h) h'
        | exact lt_trans (show p < x from h) h'
    exact ⟨⟨RawInterval.wf_compat hd a1 b1, RawInterval.wf_compat he a2 b2⟩, adj g1 g4, adj g3 g2⟩

/-- `!a.intersects(&b.complement())` is true exactly if for no `k` the `k`-th run of `a` has a value in the `k`-th gap
of `b`. -/
theorem C127_intersects_iff (dbg : Bool) (a b n : Selection α) (ha : a.UnionBuilt) (hb : b.UnionBuilt)
    (hn : b.complement dbg = .ok n) (as gs : List (Interval α)) (has : a.intervals dbg = .ok as)
    (hgs : n.intervals dbg = .ok gs) :
    ∃ r, a.withinByIntersects dbg b = .ok r ∧
      (r = true ↔ ∀ (k : Nat) (i g : Interval α), as[k]? = some i → gs[k]? = some g → ¬ i.Overlap g) := by
  have va := Selection.reachable_valid ha.reachable
  have vb := Selection.reachable_valid hb.reachable
  obtain ⟨n', en, vn, hc⟩ := Selection.complement_ok dbg vb
  rw [hn] at en
  cases en
  have co : CO n.tree := hb.do.compl hc
  have ga := Selection.np_good va ha.do.np
  have gn := Selection.np_good vn co.np
  obtain ⟨-, r, er, hr⟩ := C52_formula_any dbg a n ha.reachable (.complement hb.reachable hn) _ _ (TT.intervals_eq dbg va)
    (TT.intervals_eq dbg vn)
  rw [Selection.intervals_eq dbg va, Except.ok.injEq] at has
  rw [Selection.intervals_eq dbg vn, Except.ok.injEq] at hgs
  subst has hgs
  refine ⟨!r, by rw [Selection.withinByIntersects, hn]; simp only [bind, Except.bind]; rw [er]; rfl, ?_⟩
  rw [Bool.not_eq_true', ← Bool.not_eq_true, hr, together_kth]
  have key : ∀ i ∈ pieces none a.tree, ∀ j ∈ pieces none n.tree,
      (i.intersects j = true ↔ (Selection.run i).Overlap (Selection.run j)) := by
    intro i hi j hj
    rw [open_closed_intersects (ga i hi).1 (gn j hj).1 (ha.do.open va hi) (co.closed vn hj) (ga i hi).2 (gn j hj).2]
    simp only [Interval.Overlap, Selection.run_pts, Set.mem_ofPred_eq]
  constructor
  · rintro h k i g hi hg ho
    rw [List.getElem?_map, Option.map_eq_some_iff] at hi hg
    obtain ⟨i', hi, rfl⟩ := hi
    obtain ⟨g', hg, rfl⟩ := hg
    exact h ⟨k, i', g', hi, hg, (key i' (List.mem_of_getElem? hi) g' (List.mem_of_getElem? hg)).2 ho⟩
  · rintro h ⟨k, i, g, hi, hg, hm⟩
    exact h k _ _ (by rw [List.getElem?_map, hi]; rfl) (by rw [List.getElem?_map, hg]; rfl)
      ((key i (List.mem_of_getElem? hi) g (List.mem_of_getElem? hg)).1 hm)

/-- `{0, 2}` is said to lie within `{0}`, as `0` is not in the first gap of `{0}`, `1..`, and there is no second one to
compare `2` with; `{0, 9}` is not said to lie within `{0, 5}`, as `9` is in the second gap of it. -/
example : (Selection.demo [(u8 0, u8 0), (u8 2, u8 2)]).UnionBuilt ∧ (Selection.demo [(u8 0, u8 0)]).UnionBuilt ∧
    (Selection.demo [(u8 0, u8 0), (u8 2, u8 2)]).withinByIntersects true (Selection.demo [(u8 0, u8 0)]) = .ok true ∧
    (Selection.demo [(u8 0, u8 0), (u8 9, u8 9)]).withinByIntersects true (Selection.demo [(u8 0, u8 0), (u8 5, u8 5)]) =
      .ok false :=
  ⟨Selection.demo_built _ (by decide), Selection.demo_built _ (by decide), by decide, by decide⟩

end NI
