import Verif.Props.Raw
import Verif.Props.Canon
import Verif.Props.Interval
import Verif.Props.Selection
import Verif.SpecLattice
import Verif.Lemmas.LatticeInterval

/-! # C110: intervals form a lattice under `intersect` and `enclose` -/

namespace NI

variable {α : Type} [LinearOrder α]

/-- Every equation that follows from given equations in all lattices holds between values of `RawInterval`, with
`intersect` for meet and `enclose` for join.  (With no hypotheses: every law of lattices holds.) -/
theorem C110_raw (hs : List (LatExpr × LatExpr)) (e f : LatExpr) (hf : LatExpr.Follows hs e f)
    (v : Nat → RawInterval α) (hv : ∀ n, (v n).WF)
    (hh : ∀ h ∈ hs, h.1.eval RawInterval.intersect RawInterval.enclose v =
      h.2.eval RawInterval.intersect RawInterval.enclose v) :
    e.eval RawInterval.intersect RawInterval.enclose v = f.eval RawInterval.intersect RawInterval.enclose v := by
  let _ := RawInterval.wfLattice (α := α)
  have key : ∀ g : LatExpr, g.eval RawInterval.intersect RawInterval.enclose v =
      (g.eval (· ⊓ ·) (· ⊔ ·) (fun n => (⟨v n, hv n⟩ : {i : RawInterval α // i.WF}))).1 := by
    intro g
    induction g with
    | var n => rfl
    | meet a b iha ihb => simp only [LatExpr.eval]; rw [iha, ihb]; rfl
    | join a b iha ihb => simp only [LatExpr.eval]; rw [iha, ihb]; rfl
  have h := hf _ (fun n => (⟨v n, hv n⟩ : {i : RawInterval α // i.WF})) fun h hm => Subtype.ext (by
    rw [← key, ← key]; exact hh h hm)
  rw [key, key, h]

/-- Absorption is a law of lattices; the modular inequality, as an equation, is another. -/
example : LatExpr.Follows [] (.meet (.var 0) (.join (.var 0) (.var 1))) (.var 0) ∧
    LatExpr.Follows [] (.join (.join (.var 0) (.meet (.var 1) (.join (.var 0) (.var 2))))
      (.meet (.join (.var 0) (.var 1)) (.join (.var 0) (.var 2))))
      (.meet (.join (.var 0) (.var 1)) (.join (.var 0) (.var 2))) := by
  refine ⟨fun L _ v _ => ?_, fun L _ v _ => ?_⟩
  · simp [LatExpr.eval]
  · simp only [LatExpr.eval, sup_eq_right]
    exact sup_le (le_inf le_sup_left le_sup_left)
      (le_inf (inf_le_left.trans le_sup_right) inf_le_right)

example : (RawInterval.leftOpen (0 : Int) 4).intersect ((RawInterval.leftOpen 0 4).enclose (.closed 2 9)) =
    .leftOpen 0 4 ∧
    (RawInterval.leftOpen (0 : Int) 4).enclose ((RawInterval.leftOpen 0 4).intersect (.closed 2 9)) = .leftOpen 0 4 :=
  by decide

/-- The laws themselves, with the neutral and absorbing elements. -/
theorem C110_raw_laws (a b c : RawInterval α) (ha : a.WF) (hb : b.WF) (hc : c.WF) :
    a.intersect b = b.intersect a ∧ a.enclose b = b.enclose a ∧
    (a.intersect b).intersect c = a.intersect (b.intersect c) ∧
    (a.enclose b).enclose c = a.enclose (b.enclose c) ∧
    a.intersect a = a ∧ a.enclose a = a ∧
    a.intersect (a.enclose b) = a ∧ a.enclose (a.intersect b) = a ∧
    a.intersect .full = a ∧ a.enclose .empty = a ∧
    a.intersect .empty = .empty ∧ a.enclose .full = .full :=
  ⟨RawInterval.intersect_comm _ _, RawInterval.enclose_comm _ _, RawInterval.intersect_assoc _ _ _,
    RawInterval.enclose_assoc ha hb hc, RawInterval.intersect_self ha, RawInterval.enclose_self ha,
    RawInterval.intersect_enclose ha hb, RawInterval.enclose_intersect ha, RawInterval.intersect_full ha,
    RawInterval.enclose_empty_right ha, RawInterval.intersect_empty_right a, RawInterval.enclose_full a⟩

example : ((RawInterval.point (1 : Int)).enclose (.opn 4 6)).enclose (.upTo 3) = .upTo 6 ∧
    (RawInterval.point (1 : Int)).enclose ((RawInterval.opn 4 6).enclose (.upTo 3)) = .upTo 6 := by decide

/-- The order of the lattice: both operations define it, both are monotone in it, and it implies inclusion of points. -/
theorem C110_raw_order (a b c : RawInterval α) (ha : a.WF) (hb : b.WF) (hc : c.WF) :
    (a.intersect b = a ↔ a.enclose b = b) ∧
    (a.intersect b = a → a.pts ⊆ b.pts) ∧
    (a.intersect b = a → (a.intersect c).intersect (b.intersect c) = a.intersect c ∧
      (a.enclose c).intersect (b.enclose c) = a.enclose c) := by
  let _ := RawInterval.wfLattice (α := α)
  let A : {i : RawInterval α // i.WF} := ⟨a, ha⟩
  let B : {i : RawInterval α // i.WF} := ⟨b, hb⟩
  let C : {i : RawInterval α // i.WF} := ⟨c, hc⟩
  have e : (a.intersect b = a ↔ A ≤ B) := RawInterval.inf_eq_iff ha hb
  refine ⟨?_, fun h => ?_, fun h => ⟨?_, ?_⟩⟩
  · exact e.trans (RawInterval.sup_eq_iff ha hb).symm
  · rw [← h, C03_intersect]; exact Set.inter_subset_right
  · exact congrArg Subtype.val (inf_eq_left.2 (inf_le_inf_right C (e.1 h)))
  · exact congrArg Subtype.val (inf_eq_left.2 (sup_le_sup_right (e.1 h) C))

example : (RawInterval.opn (2 : Int) 5).intersect (.frm 2) = .opn 2 5 ∧
    (RawInterval.opn (2 : Int) 5).enclose (.frm 2) = .frm 2 := by decide

/-- Over dense orders without end points the order of the lattice is inclusion of points. -/
theorem C110_raw_inclusion [DenselyOrdered α] [NoMinOrder α] [NoMaxOrder α] [Nonempty α]
    (a b : RawInterval α) (ha : a.WF) (hb : b.WF) : a.intersect b = a ↔ a.pts ⊆ b.pts := by
  refine ⟨(C110_raw_order a b a ha hb ha).2.1, fun h => ?_⟩
  by_cases h0 : a = .empty
  · rw [h0, RawInterval.intersect_empty_left]
  have hp : (a.intersect b).pts = a.pts := by rw [C03_intersect]; exact Set.inter_eq_left.2 h
  have one : ∀ i : RawInterval α, i.WF → i ≠ .empty → RawInterval.Canonical [i] := fun i hi h => by
    simp [RawInterval.Canonical, hi, h]
  have h1 : a.intersect b ≠ .empty := fun e => by
    obtain ⟨x, hx⟩ := a.exists_point ha h0
    rw [← hp, e] at hx
    exact hx
  have := C71_points_determine [a.intersect b] [a] (one _ (C03_wf a b) h1) (one _ ha h0) (by simp [hp])
  simpa using this

example : (RawInterval.opn (2 : ℚ) 5).WF ∧ (RawInterval.closed (2 : ℚ) 5).WF ∧
    (RawInterval.opn (2 : ℚ) 5).intersect (.closed 2 5) = .opn 2 5 := by decide

/-- Elsewhere it need not be: over the integers `(0, 2)` and `[1, 3]`. -/
theorem C110_inclusion_counterexample :
    (RawInterval.opn (0 : Int) 2).pts ⊆ (RawInterval.closed (1 : Int) 3).pts ∧
    (RawInterval.opn (0 : Int) 2).intersect (.closed 1 3) ≠ .opn 0 2 := by
  refine ⟨fun x hx => ?_, by decide⟩
  have : (0 : Int) < x ∧ x < 2 := hx
  exact (show (1 : Int) ≤ x ∧ x ≤ 3 by omega)

/-- The lattice is neither distributive nor modular. -/
theorem C110_not_distributive :
    (∃ a b c : RawInterval Int, a.WF ∧ b.WF ∧ c.WF ∧
      a.intersect (b.enclose c) ≠ (a.intersect b).enclose (a.intersect c)) ∧
    ∃ a b c : RawInterval Int, a.WF ∧ b.WF ∧ c.WF ∧ a.intersect b = a ∧
      a.enclose (c.intersect b) ≠ (a.enclose c).intersect b :=
  ⟨⟨.point 3, .point 1, .point 5, by decide⟩, ⟨.point 1, .closed 1 3, .point 5, by decide⟩⟩

/-- `intersect_all` sees only the set of its arguments: order and repetition do not matter.  The arguments may be
inverted. -/
theorem C110_intersect_all (is js : List (RawInterval α)) (h : ∀ i, i ∈ is ↔ i ∈ js) :
    RawInterval.intersectAll is = RawInterval.intersectAll js := by
  have le : ∀ x : RawInterval α, (x.intersect (RawInterval.intersectAll is) = x ↔
      x.intersect (RawInterval.intersectAll js) = x) := fun x => by
    rw [RawInterval.intersectAll, RawInterval.intersectAll, RawInterval.below_foldl, RawInterval.below_foldl]
    simp only [h]
  have h1 := (le _).1 (RawInterval.intersect_self (RawInterval.intersectAll_wf is))
  have h2 := (le _).2 (RawInterval.intersect_self (RawInterval.intersectAll_wf js))
  rw [← h1, RawInterval.intersect_comm, h2]

example : RawInterval.intersectAll [.closed (0 : Int) 9, .opn 2 12, .closed 0 9] =
    RawInterval.intersectAll [.opn (2 : Int) 12, .closed 0 9] ∧
    RawInterval.intersectAll [.opn (2 : Int) 12, .closed 0 9] = .leftOpen 2 9 := by decide

section
variable [Finite α] [LawfulFinite α]
open _root_.NI.Finite

/-- Every equation that follows from given equations in all lattices holds between values of `Interval`, provided
each of the values is its own intersection (`a.intersect(&a) == a`). -/
theorem C110_interval_partial (hs : List (LatExpr × LatExpr)) (e f : LatExpr) (hf : LatExpr.Follows hs e f)
    (v : Nat → Interval α) (hv : ∀ n, (v n).Obtainable) (ht : ∀ n, (v n).intersect (v n) = v n)
    (hh : ∀ h ∈ hs, h.1.eval Interval.intersect Interval.enclose v =
      h.2.eval Interval.intersect Interval.enclose v) :
    e.eval Interval.intersect Interval.enclose v = f.eval Interval.intersect Interval.enclose v := by
  have key : ∀ g : LatExpr, (g.eval Interval.intersect Interval.enclose v).Obtainable ∧
      (g.eval Interval.intersect Interval.enclose v).raw =
        g.eval RawInterval.intersect RawInterval.enclose fun n => (v n).raw := by
    intro g
    induction g with
    | var n => exact ⟨hv n, rfl⟩
    | meet a b iha ihb =>
      refine ⟨.intersect iha.1 ihb.1, ?_⟩
      simp only [LatExpr.eval]
      rw [(Interval.meet_join_raw iha.1 ihb.1).1, iha.2, ihb.2]
    | join a b iha ihb =>
      refine ⟨.enclose iha.1 ihb.1, ?_⟩
      simp only [LatExpr.eval]
      rw [(Interval.meet_join_raw iha.1 ihb.1).2, iha.2, ihb.2]
  refine Interval.raw_inj ?_
  rw [(key e).2, (key f).2]
  refine C110_raw hs e f hf _ (fun n => (Interval.tidy_iff (hv n)).1 (ht n)) fun h hm => ?_
  rw [← (key _).2, ← (key _).2, hh h hm]

example : (Interval.mkClosed (u8 3) (u8 9)).Obtainable ∧
    (Interval.mkClosed (u8 3) (u8 9)).intersect (.mkClosed (u8 3) (u8 9)) = .mkClosed (u8 3) (u8 9) ∧
    (Interval.mkClosed (u8 3) (u8 9)).enclose ((Interval.mkClosed (u8 3) (u8 9)).intersect (.point (u8 12))) =
      .mkClosed (u8 3) (u8 9) := ⟨.mkClosed _ _, by decide, by decide⟩

/-- The condition is exact.  For one value: it is each of the laws in which that value stands alone.  And results of
the two operations always satisfy it. -/
theorem C110_interval_iff (a b : Interval α) (ha : a.Obtainable) (hb : b.Obtainable) :
    (a.intersect a = a ↔ a.enclose a = a) ∧
    (a.intersect a = a ↔ ∀ c : Interval α, c.Obtainable → a.enclose (a.intersect c) = a) ∧
    (a.intersect a = a ↔ ∀ c : Interval α, c.Obtainable → c.intersect c = c → a.intersect (a.enclose c) = a) ∧
    (a.intersect b).intersect (a.intersect b) = a.intersect b ∧
    (a.enclose b).intersect (a.enclose b) = a.enclose b := by
  have w : ∀ {x y : Interval α}, x.Obtainable → y.Obtainable → (x.intersect y).raw.WF ∧ (x.enclose y).raw.WF :=
    fun hx hy => by
      rw [(Interval.meet_join_raw hx hy).1, (Interval.meet_join_raw hx hy).2]
      exact ⟨RawInterval.intersect_wf _ _, RawInterval.enclose_wf _ _⟩
  have t := Interval.tidy_iff ha
  have emp : (Interval.empty : Interval α).Obtainable := .empty
  refine ⟨⟨fun h => ?_, fun h => ?_⟩, ⟨fun h c hc => ?_, fun h => ?_⟩, ⟨fun h c hc hcc => ?_, fun h => ?_⟩,
    (Interval.tidy_iff (.intersect ha hb)).2 (w ha hb).1, (Interval.tidy_iff (.enclose ha hb)).2 (w ha hb).2⟩
  · refine Interval.raw_inj ?_
    rw [(Interval.meet_join_raw ha ha).2, RawInterval.enclose_self (t.1 h)]
  · rw [t, ← h]
    exact (w ha ha).2
  · refine Interval.raw_inj ?_
    rw [(Interval.meet_join_raw ha (.intersect ha hc)).2, (Interval.meet_join_raw ha hc).1,
      RawInterval.enclose_intersect (t.1 h)]
  · rw [t, ← h _ emp]
    exact (w ha (.intersect ha emp)).2
  · refine Interval.raw_inj ?_
    rw [(Interval.meet_join_raw ha (.enclose ha hc)).1, (Interval.meet_join_raw ha hc).2,
      RawInterval.intersect_enclose (t.1 h) ((Interval.tidy_iff hc).1 hcc)]
  · rw [t, ← h _ emp rfl]
    exact (w ha (.enclose ha emp)).1

example : (Interval.mkRightOpen (u8 3) (u8 4)).Obtainable ∧
    (Interval.mkRightOpen (u8 3) (u8 4)).intersect (.mkRightOpen (u8 3) (u8 4)) = .point (u8 3) :=
  ⟨.mkRightOpen _ _, by decide⟩

/-- Commutativity, and associativity of `intersect`, need no condition. -/
theorem C110_interval_laws (a b c : Interval α) (ha : a.Obtainable) (hb : b.Obtainable) (hc : c.Obtainable) :
    a.intersect b = b.intersect a ∧ a.enclose b = b.enclose a ∧
    (a.intersect b).intersect c = a.intersect (b.intersect c) := by
  refine ⟨Interval.raw_inj ?_, Interval.raw_inj ?_, Interval.raw_inj ?_⟩
  · rw [(Interval.meet_join_raw ha hb).1, (Interval.meet_join_raw hb ha).1, RawInterval.intersect_comm]
  · rw [(Interval.meet_join_raw ha hb).2, (Interval.meet_join_raw hb ha).2, RawInterval.enclose_comm]
  · rw [(Interval.meet_join_raw (.intersect ha hb) hc).1, (Interval.meet_join_raw ha (.intersect hb hc)).1,
      (Interval.meet_join_raw ha hb).1, (Interval.meet_join_raw hb hc).1, RawInterval.intersect_assoc]

example : ((Interval.mkOpen (u8 3) (u8 4)).intersect .full).intersect (.point (u8 3)) = .empty := by decide

/-- For values that are their own intersection, the order of the lattice is inclusion of points; in particular they
are determined by their points. -/
theorem C110_interval_inclusion (a b : Interval α) (ha : a.Obtainable) (hb : b.Obtainable)
    (ta : a.intersect a = a) (tb : b.intersect b = b) :
    (a.intersect b = a ↔ a.pts ⊆ b.pts) ∧ (a.enclose b = b ↔ a.pts ⊆ b.pts) ∧ (a = b ↔ a.pts = b.pts) := by
  have wa := (Interval.tidy_iff ha).1 ta
  have wb := (Interval.tidy_iff hb).1 tb
  have shape : ∀ {i : Interval α}, i.Obtainable → i.raw.WF → i.raw = .empty ∨ ∃ l u, l ≤ u ∧
      i.raw = RawInterval.mkClosed l u ∧ ∀ x, x ∈ i.pts ↔ l ≤ x ∧ x ≤ u := by
    intro i hi hw
    rcases Interval.obtainable_cases hi with rfl | ⟨p, rfl⟩ | ⟨l, u, rfl, -⟩
    · exact .inl rfl
    · refine .inr ⟨p, p, le_refl _, by simp [RawInterval.mkClosed], fun x => ?_⟩
      rw [Interval.pts_eq]
      exact ⟨fun h => ⟨ge_of_eq h, le_of_eq h⟩, fun h => le_antisymm h.2 h.1⟩
    · have hlu : l < u := hw
      refine .inr ⟨l, u, hlu.le, by simp [RawInterval.mkClosed, hlu], fun x => ?_⟩
      rw [Interval.pts_eq]; exact Iff.rfl
  have det : ∀ {i j : Interval α}, i.Obtainable → i.raw.WF → j.Obtainable → j.raw.WF → i.pts = j.pts → i = j := by
    intro i j hi wi hj wj h
    refine Interval.raw_inj ?_
    rcases shape hi wi with e1 | ⟨l, u, h1, e1, p1⟩ <;> rcases shape hj wj with e2 | ⟨m, w, h2, e2, p2⟩
    · rw [e1, e2]
    · have : m ∈ i.pts := by rw [h]; exact (p2 m).2 ⟨le_refl _, h2⟩
      rw [Interval.pts_eq, e1] at this
      exact this.elim
    · have : l ∈ j.pts := by rw [← h]; exact (p1 l).2 ⟨le_refl _, h1⟩
      rw [Interval.pts_eq, e2] at this
      exact this.elim
    · have q : ∀ x, (l ≤ x ∧ x ≤ u) ↔ (m ≤ x ∧ x ≤ w) := fun x => by rw [← p1, ← p2, h]
      have a1 := (q l).1 ⟨le_refl _, h1⟩
      have a2 := (q u).1 ⟨h1, le_refl _⟩
      have a3 := (q m).2 ⟨le_refl _, h2⟩
      have a4 := (q w).2 ⟨h2, le_refl _⟩
      rw [e1, e2, le_antisymm a3.1 a1.1, le_antisymm a2.2 a4.2]
  have main : a.intersect b = a ↔ a.pts ⊆ b.pts := by
    have hp : (a.intersect b).pts = a.pts ∩ b.pts := by
      rw [Interval.pts_eq, (Interval.meet_join_raw ha hb).1, C03_intersect, Interval.pts_eq, Interval.pts_eq]
    constructor
    · intro h
      rw [← h, hp]
      exact Set.inter_subset_right
    · intro h
      refine det (.intersect ha hb) ?_ ha wa (by rw [hp]; exact Set.inter_eq_left.2 h)
      rw [(Interval.meet_join_raw ha hb).1]
      exact RawInterval.intersect_wf _ _
  refine ⟨main, ?_, fun h => by rw [h], det ha wa hb wb⟩
  rw [← main]
  constructor
  · intro h
    have h := congrArg Interval.raw h
    rw [(Interval.meet_join_raw ha hb).2] at h
    refine Interval.raw_inj ?_
    rw [(Interval.meet_join_raw ha hb).1]
    exact (C110_raw_order _ _ _ wa wb wa).1.2 h
  · intro h
    have h := congrArg Interval.raw h
    rw [(Interval.meet_join_raw ha hb).1] at h
    refine Interval.raw_inj ?_
    rw [(Interval.meet_join_raw ha hb).2]
    exact (C110_raw_order _ _ _ wa wb wa).1.1 h

example : (Interval.mkOpen (u8 3) (u8 7)).intersect (.mkOpen (u8 3) (u8 7)) = .mkOpen (u8 3) (u8 7) ∧
    (Interval.mkOpen (u8 3) (u8 7)).intersect (.mkClosed (u8 4) (u8 6)) = .mkOpen (u8 3) (u8 7) := by decide

/-- Without the condition: idempotence, absorption and associativity of `enclose` fail. -/
theorem C110_interval_counterexample :
    (∃ a : Interval U8, a.Obtainable ∧ a.intersect a ≠ a ∧ a.enclose a ≠ a) ∧
    (∃ a b : Interval U8, a.Obtainable ∧ b.Obtainable ∧ a.intersect (a.enclose b) ≠ a ∧
      a.enclose (a.intersect b) ≠ a) ∧
    ∃ a b c : Interval U8, a.Obtainable ∧ b.Obtainable ∧ c.Obtainable ∧
      (a.enclose b).enclose c ≠ a.enclose (b.enclose c) :=
  ⟨⟨.mkRightOpen (u8 3) (u8 4), .mkRightOpen _ _, by decide, by decide⟩,
    ⟨.mkRightOpen (u8 3) (u8 4), .point (u8 9), .mkRightOpen _ _, .point _, by decide, by decide⟩,
    ⟨.mkOpen (u8 3) (u8 4), .mkOpen (u8 3) (u8 4), .point (u8 9), .mkOpen _ _, .mkOpen _ _, .point _, by decide⟩⟩

end
end NI
