import Verif.Props.Pinhole
import Verif.Lemmas.Piecewise
import Verif.SpecEdit

/-! # Trees that tell neighbours apart only where one is in and the other is not -/

namespace NI
open _root_.NI.Finite TT
variable {α : Type} [LinearOrder α] [Finite α] [LawfulFinite α]

namespace TT

/-- Between two neighbours that are both in nothing is left out, between two that are both out nothing is in, and
nothing happens before the least value and after the greatest. -/
def Crisp (t : TineTree α) : Prop :=
  (∀ x y, succ x = some y → at' t x = at' t y → tcov t true (.fin x) = at' t x) ∧
  tcov t true .bot = at' t minimum ∧ tcov t true (.fin maximum) = at' t maximum

theorem succ_max : succ (maximum : α) = none := (LawfulFinite.succ_none _).2 rfl

theorem DO.crisp {t : TineTree α} (h : DO t) : Crisp t := by
  refine ⟨fun x y hy e => ?_, h.2, ?_⟩
  · rw [h.1, hy, Option.elim, ← e, Bool.or_self]
  · rw [h.1, succ_max]; simp

theorem Crisp.or {t1 t2 t3 : TineTree α} (h1 : Crisp t1) (h2 : DO t2)
    (h : ∀ aft k, tcov t3 aft k = (tcov t1 aft k || tcov t2 aft k)) : Crisp t3 := by
  refine ⟨fun x y hy e => ?_, ?_, ?_⟩
  · have a := h1.1 x y hy
    have b := h2.1 x
    rw [hy, Option.elim] at b
    simp only [at', h] at e a b ⊢
    rw [b]
    revert a e
    cases tcov t1 false (.fin x) <;> cases tcov t1 false (.fin y) <;> cases tcov t2 false (.fin x) <;>
      cases tcov t2 false (.fin y) <;> simp
  · rw [h, h1.2.1, h2.2, at', at', at', h]
  · rw [h, h1.2.2, h2.crisp.2.2, at', at', at', h]

omit [LawfulFinite α] in
theorem Crisp.compl {t t' : TineTree α} (h : Crisp t)
    (hc : ∀ aft k, RealPos aft k → tcov t' aft k = !tcov t aft k) : Crisp t' := by
  have c1 : ∀ aft x, tcov t' aft (.fin x) = !tcov t aft (.fin x) := fun aft x =>
    hc aft (.fin x) ⟨by simp, by simp⟩
  refine ⟨fun x y hy e => ?_, ?_, ?_⟩
  · simp only [at', c1, Bool.not_eq_eq_eq_not, Bool.not_not] at e ⊢
    exact h.1 x y hy e
  · rw [hc true .bot ⟨by simp, by simp⟩, h.2.1]; simp only [at', c1]
  · rw [c1, h.2.2]; simp only [at', c1]

/-- Removing a tree made by unions, by which some holes may be filled. -/
theorem Crisp.minus {t b t' : TineTree α} (h : Crisp t) (hb : DO b) {P : α → Prop}
    (h1 : ∀ k, tcov t' true k = (tcov t true k && !tcov b true k))
    (h2 : ∀ x, at' t' x = true ↔ at' b x = false ∧ (at' t x = true ∨ (holeAt t (.fin x) = true ∧ P x))) :
    Crisp t' := by
  have hole : ∀ x, holeAt t (.fin x) = true →
      TT.bef false t (.fin x) = true ∧ at' t x = false ∧ tcov t true (.fin x) = true := fun x hx => by
    rw [holeAt] at hx; simpa [and_assoc] using hx
  refine ⟨fun x y hy e => ?_, ?_, ?_⟩
  · have bx := hb.1 x
    rw [hy, Option.elim] at bx
    have cx := h.1 x y hy
    have hpy := bef_pred (t := t) (pred_of_succ hy)
    rw [h1, bx]
    cases ex : at' t' x with
    | true =>
      obtain ⟨a1, a2⟩ := (h2 x).1 ex
      obtain ⟨b1, b2⟩ := (h2 y).1 (e ▸ ex)
      rw [a1, b1]
      have : tcov t true (.fin x) = true := by
        rcases a2 with a2 | ⟨a2, -⟩
        · rcases b2 with b2 | ⟨b2, -⟩
          · rw [cx (a2.trans b2.symm), a2]
          · rw [← hpy]; exact (hole y b2).1
        · exact (hole x a2).2.2
      rw [this]; rfl
    | false =>
      have g : ∀ z, at' t' z = false → at' b z = false → at' t z = false := fun z a b => by
        by_contra hc
        rw [(h2 z).2 ⟨b, .inl (by simpa using hc)⟩] at a; cases a
      cases bx' : at' b x with
      | true => simp
      | false =>
        cases by' : at' b y with
        | true => simp
        | false =>
          have a1 := g x ex bx'
          have a2 := g y (e ▸ ex) by'
          rw [cx (a1.trans a2.symm), a1]; rfl
  · rw [h1, h.2.1, hb.2, Bool.eq_iff_iff, h2]
    have : holeAt t (.fin minimum) = true → at' t minimum = true := fun hh => by
      have := (hole _ hh).1
      rwa [bef_min ((LawfulFinite.pred_none _).2 rfl), h.2.1] at this
    simp only [Bool.and_eq_true, Bool.not_eq_true']
    tauto
  · rw [h1, h.2.2, hb.crisp.2.2, Bool.eq_iff_iff, h2]
    have : holeAt t (.fin maximum) = true → at' t maximum = true := fun hh => by
      have := (hole _ hh).2.2
      rwa [h.2.2] at this
    simp only [Bool.and_eq_true, Bool.not_eq_true']
    tauto

theorem Crisp.np {t : TineTree α} (h : Crisp t) : NP t := by
  refine ⟨fun x hx => ?_, fun hx => by rw [← h.2.1]; exact hx⟩
  by_contra hc
  simp only [not_or, Bool.not_eq_true] at hc
  cases hs : succ x with
  | none =>
    have := (LawfulFinite.succ_none x).1 hs
    subst this
    rw [h.2.2, hc.1] at hx; cases hx
  | some y =>
    rw [hs, Option.elim] at hc
    rw [h.1 x y hs (hc.1.trans hc.2.symm), hc.1] at hx; cases hx

/-- The pieces are separated by values that are not in the tree. -/
theorem Crisp.gap {t : TineTree α} (v : Valid t) (h : Crisp t) : (pieces none t).Pairwise fun i j =>
    ∃ z, at' t z = false ∧ (∀ x, i.contains x = true → x < z) ∧ ∀ y, j.contains y = true → z < y := by
  refine (pieces_sep v.1).1.imp_of_mem ?_
  rintro i j hi hj ⟨u, l, h1, h2, h3⟩
  have hxu : ∀ x, i.contains x = true → u.AdmitsBelow x := by
    intro x hx
    rw [RawInterval.contains_iff_bounds] at hx
    obtain ⟨_, _, _, g1, _, g2⟩ := hx
    rw [h1] at g1; cases g1; exact g2
  have hyl : ∀ y, j.contains y = true → l.AdmitsAbove y := by
    intro x hx
    rw [RawInterval.contains_iff_bounds] at hx
    obtain ⟨_, _, g1, _, g2, _⟩ := hx
    rw [h2] at g1; cases g1; exact g2
  rcases u with p | p | _
  · obtain ⟨e1, e2⟩ := (closed_upper_iff v p).1 ⟨i, hi, h1⟩
    have e1 : at' t p = true := e1
    cases hs : succ p with
    | none =>
      have := (LawfulFinite.succ_none p).1 hs
      subst this
      rw [h.2.2, e1] at e2; cases e2
    | some z =>
      have h5 := LawfulFinite.succ_some p z hs
      have hz : at' t z = false := by
        by_contra hc
        rw [Bool.not_eq_false] at hc
        rw [h.1 p z hs (e1.trans hc.symm), e1] at e2; cases e2
      refine ⟨z, hz, fun x hx => lt_of_le_of_lt (hxu x hx) h5.1, fun y hy => ?_⟩
      have hpy : p < y := sep_lt h3 (le_refl p) (hyl y hy)
      refine lt_of_le_of_ne (h5.2 y hpy) ?_
      rintro rfl
      rw [piece_in v hj hy] at hz; cases hz
  · obtain ⟨e1, e2⟩ := (open_upper_iff v p).1 ⟨i, hi, h1⟩
    refine ⟨p, e2, hxu, fun y hy => ?_⟩
    have := hyl y hy
    rcases h3 with h3 | ⟨q, h3, rfl⟩
    · rcases l with q | q | _ <;> simp [Tine.key] at h3
      · exact lt_of_lt_of_le h3 this
      · exact lt_trans h3 this
    · cases h3; exact this
  · rcases h3 with h3 | ⟨q, h3, _⟩
    · exact absurd h3 (Key.not_top_lt _)
    · cases h3

/-- All pieces have points exactly if there is no stretch without. -/
theorem np_iff {t : TineTree α} (v : Valid t) : NP t ↔ ∀ i ∈ pieces none t, ∃ x, i.contains x = true := by
  refine ⟨fun h i hi => h.piece v hi, fun h => ⟨fun x hx => ?_, fun hx => ?_⟩⟩
  · rw [or_iff_not_imp_left, Bool.not_eq_true]
    intro hn
    obtain ⟨i, hi, hl⟩ := (open_lower_iff v x).2 ⟨hn, hx⟩
    obtain ⟨z, hz⟩ := h i hi
    rw [RawInterval.contains_iff_bounds] at hz
    obtain ⟨l, u, g1, g2, g3, g4⟩ := hz
    rw [hl] at g1; cases g1
    have g3 : x < z := g3
    cases hs : succ x with
    | none => exact absurd (not_gt_of_succ hs z) (not_le.2 g3)
    | some y =>
      obtain ⟨y1, y2⟩ := LawfulFinite.succ_some x y hs
      refine piece_in v hi ((RawInterval.contains_iff_bounds i y).2 ⟨_, u, hl, g2, y1, ?_⟩)
      have := y2 z g3
      rcases u with q | q | _
      · exact le_trans this g4
      · exact lt_of_le_of_lt this g4
      · trivial
  · rw [tcov_any v, List.any_eq_true] at hx
    obtain ⟨i, hi, hx⟩ := hx
    obtain ⟨z, hz⟩ := h i hi
    have hl : i.lowerBound = some .inf := by
      cases i <;> simp [icov, Tine.fromRawInterval, cov, Tine.key, Tine.isLowerBound] at hx <;> rfl
    rw [RawInterval.contains_iff_bounds] at hz
    obtain ⟨l, u, g1, g2, g3, g4⟩ := hz
    refine piece_in v hi ((RawInterval.contains_iff_bounds i _).2 ⟨_, u, hl, g2, trivial, ?_⟩)
    have := minimum_le z
    rcases u with q | q | _
    · exact le_trans this g4
    · exact lt_of_le_of_lt this g4
    · trivial

/-- What no stretch without points in the tree and in its complement comes to. -/
theorem crisp_iff {t t' : TineTree α} (hc : ∀ aft k, RealPos aft k → tcov t' aft k = !tcov t aft k) :
    Crisp t ↔ NP t ∧ NP t' := by
  refine ⟨fun h => ⟨h.np, (h.compl hc).np⟩, fun ⟨h1, h2⟩ => ?_⟩
  have c1 : ∀ aft x, tcov t' aft (.fin x) = !tcov t aft (.fin x) := fun aft x =>
    hc aft (.fin x) ⟨by simp, by simp⟩
  refine ⟨fun x y hy e => ?_, ?_, ?_⟩
  · have a := h1.1 x
    have b := h2.1 x
    rw [hy, Option.elim] at a b
    simp only [at', c1] at e a b ⊢
    revert a b e
    cases tcov t false (.fin x) <;> cases tcov t false (.fin y) <;> cases tcov t true (.fin x) <;> simp
  · have a := h1.2
    have b := h2.2
    simp only [at', c1, hc true .bot ⟨by simp, by simp⟩] at a b ⊢
    revert a b
    cases tcov t true .bot <;> cases tcov t false (.fin minimum) <;> simp
  · have a := h1.1 maximum
    have b := h2.1 maximum
    rw [succ_max, Option.elim] at a b
    simp only [at', c1] at a b ⊢
    revert a b
    cases tcov t true (.fin maximum) <;> cases tcov t false (.fin maximum) <;> simp

omit [Finite α] [LawfulFinite α] in
/-- The coverage after each position when intervals are removed one by one. -/
theorem foldMinus_after (dbg : Bool) (L : List (RawInterval α)) : ∀ {t t' : TineTree α}, Valid t →
    (∀ d ∈ L, d.WF ∧ OpenIv d) → L.foldlM (TineTree.minusInPlace dbg) t = .ok t' →
    ∀ k, tcov t' true k = (tcov t true k && !L.any fun d => icov d true k) := by
  induction L with
  | nil => intro t t' _ _ e k; cases e; simp
  | cons d L ih =>
    intro t t' v h e k
    obtain ⟨w, o⟩ := h d (by simp)
    obtain ⟨t1, e1, v1, c1⟩ := minusTwo_ok dbg v w (by rintro p rfl; exact (o p).1 rfl)
    rw [List.foldlM_cons, e1] at e
    rw [ih v1 (fun d hd => h d (by simp [hd])) e, c1, List.any_cons]
    cases tcov t true k <;> cases icov d true k <;> simp

end TT

namespace Selection

theorem Edited.reachable_crisp {s : Selection α} (h : s.Edited) : s.Reachable ∧ Crisp s.tree := by
  induction h with
  | built h => exact ⟨h.reachable, h.do.crisp⟩
  | @unionInPlace dbg s i s' _ hi hr e ih =>
    refine ⟨.unionInPlace ih.1 hi e, ?_⟩
    obtain ⟨s1, e1, v1, c1⟩ := unionInPlace_ok dbg (reachable_valid ih.1) hi
    rw [e1] at e; cases e
    exact ih.2.or (denorm_do hi hr) c1
  | @minusInPlace dbg s i s' _ hi hr e ih =>
    refine ⟨.minusInPlace ih.1 hi e, ?_⟩
    have v := reachable_valid ih.1
    obtain ⟨s1, e1, v1, c1⟩ := minusInPlace_ok dbg v hi
    rw [e1] at e; cases e
    obtain ⟨s2, e2, r2, k⟩ := C50_formula_any dbg s ih.1 i hi
    rw [e1] at e2; cases e2
    refine ih.2.minus (denorm_do hi hr) (P := fun x => (∃ l, i.lowerBound = some (.incl l) ∧ pred l = some x) ∨
        ∃ u, i.upperBound = some (.incl u) ∧ succ u = some x) (fun k => by rw [c1]; simp; rfl) fun x => ?_
    rw [← mem_pts dbg v1, k, mem_pts dbg v, pinhole_iff dbg v]
    have hx : at' (Tine.fromRawInterval i.raw.denormalized) x = i.contains x := ic_fin hi x
    rw [hx]
    have hm : x ∈ i.pts ↔ i.contains x = true := Iff.rfl
    rw [hm, ← Bool.not_eq_true]
    have : ((∃ l, i.lowerBound = some (.incl l) ∧ pred l = some x) ∨
        ∃ u, i.upperBound = some (.incl u) ∧ succ u = some x) → ¬ i.contains x = true := by
      intro ho hc
      have hc : i.raw.contains x = true := hc
      rw [RawInterval.contains_iff_bounds] at hc
      obtain ⟨l, u, g1, g2, g3, g4⟩ := hc
      rcases ho with ⟨l', h1, h2⟩ | ⟨u', h1, h2⟩
      · have h1 : i.raw.lowerBound = _ := h1
        rw [h1] at g1; cases g1
        exact absurd (LawfulFinite.pred_some _ _ h2).1 (not_lt.2 g3)
      · have h1 : i.raw.upperBound = _ := h1
        rw [h1] at g2; cases g2
        exact absurd (LawfulFinite.succ_some _ _ h2).1 (not_lt.2 g4)
    exact ⟨fun h => h.elim (fun h => ⟨h.2, .inl h.1⟩) (fun h => ⟨this h.2, .inr h⟩),
      fun h => h.2.imp (fun g => ⟨g, h.1⟩) id⟩
  | @union dbg a b s' _ hb e ih =>
    refine ⟨.union ih.1 hb.reachable e, ?_⟩
    obtain ⟨s1, e1, v1, c1⟩ := union_ok dbg (reachable_valid ih.1) (reachable_valid hb.reachable)
    rw [e1] at e; cases e
    exact ih.2.or hb.do c1
  | @minus dbg a b s' _ hb e ih =>
    have va := reachable_valid ih.1
    have vb := reachable_valid hb.reachable
    obtain ⟨s1, e1, v1, k⟩ := minusOpen_exact dbg va vb hb.do
    rw [e1] at e; cases e
    refine ⟨.minus ih.1 hb.reachable e1 (valid_reachable v1), ih.2.minus hb.do (fun k => ?_) k⟩
    rw [Selection.minus, TineTree.minus, fold_eq dbg _ vb] at e1
    cases h : (pieces none b.tree).foldlM (TineTree.minusInPlace dbg) a.tree with
    | error e => rw [h] at e1; cases e1
    | ok t =>
      rw [h] at e1; cases e1
      rw [foldMinus_after dbg _ va (fun d hd => ⟨((pieces_wf vb.1).1 d hd).1, hb.do.open vb hd⟩) h, tcov_any vb]
  | @complement dbg s s' _ e ih =>
    refine ⟨.complement ih.1 e, ?_⟩
    obtain ⟨s1, e1, v1, c1⟩ := complement_ok dbg (reachable_valid ih.1)
    rw [e1] at e; cases e
    exact ih.2.compl c1

end Selection
end NI
