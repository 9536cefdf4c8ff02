import Verif.Lemmas.Norm
import Verif.Props.Normalize
import Verif.Props.Tree
import Verif.Spec
import Mathlib.Order.Cover
import Mathlib.Order.Max

/-! # The laws asked of an implementation of `Finite` are exactly the ones normalization needs (C99) -/

set_option linter.unusedVariables false
set_option linter.unusedSimpArgs false
set_option linter.unusedSectionVars false

namespace NI
variable {α : Type} [LinearOrder α]

section
variable [Finite α]

/-- Normalizing keeps the points of every interval exactly if `MINIMUM` and `MAXIMUM` are the extreme
values, `pred` and `succ` the immediate neighbours, and `None` what they give at the extremes. -/
theorem C99_normalize_iff :
    (∀ i : RawInterval α, i.WF → i.normalized.pts = i.pts) ↔ LawfulFinite α := by
  constructor
  · intro h
    have mn : ∀ a : α, Finite.minimum ≤ a ∧ a ≤ Finite.maximum := by
      intro a
      have : a ∈ (RawInterval.full : RawInterval α).normalized.pts := by
        rw [h .full (by trivial)]; trivial
      exact this
    have dn : ∀ a x : α, x ∈ (RawInterval.upTo a).normalized.pts ↔ x < a := by
      intro a x; rw [h (.upTo a) (by trivial)]; exact Iff.rfl
    have up : ∀ a x : α, x ∈ (RawInterval.upFrom a).normalized.pts ↔ a < x := by
      intro a x; rw [h (.upFrom a) (by trivial)]; exact Iff.rfl
    have ps : ∀ a b : α, Finite.pred a = some b → b < a ∧ ∀ c, c < a → c ≤ b := by
      intro a b e
      simp only [RawInterval.normalized] at dn
      have dn := dn a
      simp only [e, Option.elim] at dn
      exact ⟨(dn b).1 ⟨(mn b).1, le_refl b⟩, fun c hc => ((dn c).2 hc).2⟩
    have ss : ∀ a b : α, Finite.succ a = some b → a < b ∧ ∀ c, a < c → b ≤ c := by
      intro a b e
      simp only [RawInterval.normalized] at up
      have up := up a
      simp only [e, Option.elim] at up
      exact ⟨(up b).1 ⟨le_refl b, (mn b).2⟩, fun c hc => ((up c).2 hc).1⟩
    refine ⟨fun a => (mn a).1, fun a => (mn a).2, fun a => ⟨?_, ?_⟩, ps, fun a => ⟨?_, ?_⟩, ss⟩
    · intro e
      have dn := dn a
      simp only [RawInterval.normalized, e, Option.elim] at dn
      exact le_antisymm (not_lt.1 fun hl => (dn _).2 hl) (mn a).1
    · rintro rfl
      cases e : Finite.pred (Finite.minimum : α) with
      | none => rfl
      | some b => exact absurd (ps _ _ e).1 (not_lt.2 (mn b).1)
    · intro e
      have up := up a
      simp only [RawInterval.normalized, e, Option.elim] at up
      exact le_antisymm (mn a).2 (not_lt.1 fun hl => (up _).2 hl)
    · rintro rfl
      cases e : Finite.succ (Finite.maximum : α) with
      | none => rfl
      | some b => exact absurd (ss _ _ e).1 (not_lt.2 (mn b).2)
  · intro h i _
    ext x
    rw [RawInterval.normalized_pts]

example : (RawInterval.opn (MInt.lit 3 : U8) (MInt.lit 9)).WF ∧
    (RawInterval.opn (MInt.lit 3 : U8) (MInt.lit 9)).normalized = .closed (MInt.lit 4) (MInt.lit 8) := by decide

/-- Denormalizing keeps the points of every single-value interval, of every closed interval, exactly if
`pred` and `succ` are the immediate neighbours and `None` at the extremes of the order; `MINIMUM` and
`MAXIMUM` play no role in it. -/
theorem C99_denormalize_iff :
    ((∀ p : α, (RawInterval.point p).denormalized.pts = (RawInterval.point p).pts) ↔
      (∀ a : α, (Finite.pred a = none → IsMin a) ∧ ∀ b, Finite.pred a = some b → b ⋖ a) ∧
      ∀ a : α, (Finite.succ a = none → IsMax a) ∧ ∀ b, Finite.succ a = some b → a ⋖ b) ∧
    ((∀ l r : α, l ≤ r → (RawInterval.closed l r).denormalized.pts = (RawInterval.closed l r).pts) ↔
      (∀ a : α, (Finite.pred a = none → IsMin a) ∧ ∀ b, Finite.pred a = some b → b ⋖ a) ∧
      ∀ a : α, (Finite.succ a = none → IsMax a) ∧ ∀ b, Finite.succ a = some b → a ⋖ b) := by
  have key : ∀ p : α, (RawInterval.point p).denormalized = (RawInterval.closed p p).denormalized := fun p => rfl
  have fwd : (∀ p : α, (RawInterval.point p).denormalized.pts = (RawInterval.point p).pts) →
      (∀ a : α, (Finite.pred a = none → IsMin a) ∧ ∀ b, Finite.pred a = some b → b ⋖ a) ∧
      ∀ a : α, (Finite.succ a = none → IsMax a) ∧ ∀ b, Finite.succ a = some b → a ⋖ b := by
    intro h
    have h : ∀ p x : α, x ∈ (RawInterval.point p).denormalized.pts ↔ x = p := by
      intro p x; rw [h p]; exact Iff.rfl
    have pr : ∀ a b : α, Finite.pred a = some b → b < a ∧ ∀ c, b < c → c < a → c = a := by
      intro a b e
      have h0 := (h a a).2 rfl
      have h1 := fun x => (h a x).1
      rcases e2 : Finite.succ a with _ | r <;>
        simp only [RawInterval.denormalized, e, e2, RawInterval.pts, Set.mem_Ioi, Set.mem_Ioo] at h0 h1
      · exact ⟨h0, fun c hc _ => h1 c hc⟩
      · exact ⟨h0.1, fun c hc hca => h1 c ⟨hc, hca.trans h0.2⟩⟩
    have pn : ∀ a x : α, Finite.pred a = none → x ≤ a → x = a := by
      intro a x e hx
      have h0 := (h a a).2 rfl
      have h1 := fun x => (h a x).1
      rcases e2 : Finite.succ a with _ | r <;>
        simp only [RawInterval.denormalized, e, e2, RawInterval.pts, Set.mem_univ, Set.mem_Iio] at h0 h1
      · exact h1 x trivial
      · exact h1 x (hx.trans_lt h0)
    have sr : ∀ a b : α, Finite.succ a = some b → a < b ∧ ∀ c, a < c → c < b → c = a := by
      intro a b e
      have h0 := (h a a).2 rfl
      have h1 := fun x => (h a x).1
      rcases e2 : Finite.pred a with _ | r <;>
        simp only [RawInterval.denormalized, e, e2, RawInterval.pts, Set.mem_Iio, Set.mem_Ioo] at h0 h1
      · exact ⟨h0, fun c _ hc => h1 c hc⟩
      · exact ⟨h0.2, fun c hca hc => h1 c ⟨h0.1.trans hca, hc⟩⟩
    have sn : ∀ a x : α, Finite.succ a = none → a ≤ x → x = a := by
      intro a x e hx
      have h0 := (h a a).2 rfl
      have h1 := fun x => (h a x).1
      rcases e2 : Finite.pred a with _ | r <;>
        simp only [RawInterval.denormalized, e, e2, RawInterval.pts, Set.mem_univ, Set.mem_Ioi] at h0 h1
      · exact h1 x trivial
      · exact h1 x (h0.trans_le hx)
    exact ⟨fun a => ⟨fun e x hx => (pn a x e hx).ge, fun b e => ⟨(pr a b e).1, fun c h1 h2 => h2.ne ((pr a b e).2 c h1 h2)⟩⟩,
      fun a => ⟨fun e x hx => (sn a x e hx).le, fun b e => ⟨(sr a b e).1, fun c h1 h2 => h1.ne' ((sr a b e).2 c h1 h2)⟩⟩⟩
  have bwd : ((∀ a : α, (Finite.pred a = none → IsMin a) ∧ ∀ b, Finite.pred a = some b → b ⋖ a) ∧
      ∀ a : α, (Finite.succ a = none → IsMax a) ∧ ∀ b, Finite.succ a = some b → a ⋖ b) →
      ∀ l r : α, l ≤ r → (RawInterval.closed l r).denormalized.pts = (RawInterval.closed l r).pts := by
    rintro ⟨hp, hs⟩ l r hl
    ext x
    have p1 : Finite.pred l = none → l ≤ x := fun e => (le_total l x).elim id fun h => (hp l).1 e h
    have s1 : Finite.succ r = none → x ≤ r := fun e => (le_total x r).elim id fun h => (hs r).1 e h
    have p2 : ∀ b, Finite.pred l = some b → (b < x ↔ l ≤ x) := fun b e =>
      ⟨fun h => not_lt.1 fun h' => ((hp l).2 b e).2 h h', fun h => ((hp l).2 b e).1.trans_le h⟩
    have s2 : ∀ b, Finite.succ r = some b → (x < b ↔ x ≤ r) := fun b e =>
      ⟨fun h => not_lt.1 fun h' => ((hs r).2 b e).2 h' h, fun h => h.trans_lt ((hs r).2 b e).1⟩
    rcases e1 : Finite.pred l with _ | q <;> rcases e2 : Finite.succ r with _ | s <;>
      simp only [RawInterval.denormalized, e1, e2, RawInterval.pts, Set.mem_univ, Set.mem_Iio, Set.mem_Ioi, Set.mem_Ioo, Set.mem_Icc]
    · simp [p1 e1, s1 e2]
    · simp [p1 e1, s2 _ e2]
    · simp [p2 _ e1, s1 e2]
    · simp [p2 _ e1, s2 _ e2]
  refine ⟨⟨fwd, fun h p => ?_⟩, fun h => fwd fun p => ?_, bwd⟩
  · rw [key, bwd h p p (le_refl p)]; ext x; exact ⟨fun h => le_antisymm h.2 h.1, by rintro rfl; exact ⟨le_refl _, le_refl _⟩⟩
  · rw [key, h p p (le_refl p)]; ext x; exact ⟨fun h => le_antisymm h.2 h.1, by rintro rfl; exact ⟨le_refl _, le_refl _⟩⟩

example : LawfulFinite U8 ∧ (RawInterval.upTo (MInt.lit 3 : U8)).WF ∧
    (RawInterval.upTo (MInt.lit 3 : U8)).normalized = .closed (MInt.lit 0) (MInt.lit 2) ∧
    (RawInterval.point (MInt.lit 0 : U8)).denormalized = .upTo (MInt.lit 1) := by
  refine ⟨inferInstance, by decide, by decide, by decide⟩

end

/-- There is at most one lawful implementation of `Finite` for an order: all that a user may choose in it
is settled by `Ord`. -/
theorem C99_unique (F G : Finite α) (hF : @LawfulFinite α _ F) (hG : @LawfulFinite α _ G) : F = G := by
  have mn : F.minimum = G.minimum := le_antisymm (hF.min_le _) (hG.min_le _)
  have mx : F.maximum = G.maximum := le_antisymm (hG.le_max _) (hF.le_max _)
  have pr : F.pred = G.pred := by
    funext a
    cases e1 : F.pred a with
    | none => exact ((hG.pred_none a).2 (mn ▸ (hF.pred_none a).1 e1)).symm
    | some b =>
      cases e2 : G.pred a with
      | none => exact absurd ((hF.pred_none a).2 (mn ▸ (hG.pred_none a).1 e2)) (by rw [e1]; simp)
      | some c =>
        obtain ⟨h1, h2⟩ := hF.pred_some a b e1
        obtain ⟨h3, h4⟩ := hG.pred_some a c e2
        rw [le_antisymm (h4 b h1) (h2 c h3)]
  have sc : F.succ = G.succ := by
    funext a
    cases e1 : F.succ a with
    | none => exact ((hG.succ_none a).2 (mx ▸ (hF.succ_none a).1 e1)).symm
    | some b =>
      cases e2 : G.succ a with
      | none => exact absurd ((hF.succ_none a).2 (mx ▸ (hG.succ_none a).1 e2)) (by rw [e1]; simp)
      | some c =>
        obtain ⟨h1, h2⟩ := hF.succ_some a b e1
        obtain ⟨h3, h4⟩ := hG.succ_some a c e2
        rw [le_antisymm (h2 c h3) (h4 b h1)]
  cases F; cases G
  simp_all

example : ∃ F : Finite I16, @LawfulFinite I16 _ F := ⟨inferInstance, inferInstance⟩

/-- The orders for which `Finite` can be implemented lawfully: there are a least and a greatest value, and
every other value has a neighbour below and above. -/
theorem C99_exists_iff :
    (∃ F : Finite α, @LawfulFinite α _ F) ↔
      (∃ m M : α, (∀ a, m ≤ a) ∧ ∀ a, a ≤ M) ∧
        ∀ a : α, ((∃ c, c < a) → ∃ b, b ⋖ a) ∧ ((∃ c, a < c) → ∃ b, a ⋖ b) := by
  classical
  constructor
  · rintro ⟨F, h⟩
    refine ⟨⟨F.minimum, F.maximum, h.min_le, h.le_max⟩, fun a => ⟨?_, ?_⟩⟩
    · rintro ⟨c, hc⟩
      cases e : F.pred a with
      | none => exact absurd hc (not_lt.2 ((h.pred_none a).1 e ▸ h.min_le c))
      | some b => exact ⟨b, (h.pred_some a b e).1, fun d h1 h2 => absurd h1 (not_lt.2 ((h.pred_some a b e).2 d h2))⟩
    · rintro ⟨c, hc⟩
      cases e : F.succ a with
      | none => exact absurd hc (not_lt.2 ((h.succ_none a).1 e ▸ h.le_max c))
      | some b => exact ⟨b, (h.succ_some a b e).1, fun d h1 h2 => absurd h2 (not_lt.2 ((h.succ_some a b e).2 d h1))⟩
  · rintro ⟨⟨m, M, hm, hM⟩, hn⟩
    let F : Finite α :=
      { minimum := m
        maximum := M
        pred := fun a => if h : ∃ b, b ⋖ a then some h.choose else none
        succ := fun a => if h : ∃ b, a ⋖ b then some h.choose else none }
    have pd : ∀ a, F.pred a = if h : ∃ b, b ⋖ a then some h.choose else none := fun _ => rfl
    have sd : ∀ a, F.succ a = if h : ∃ b, a ⋖ b then some h.choose else none := fun _ => rfl
    refine ⟨F, ⟨hm, hM, fun a => ⟨?_, ?_⟩, fun a b => ?_, fun a => ⟨?_, ?_⟩, fun a b => ?_⟩⟩
    · rw [pd]; split
      · intro e; cases e
      · rename_i h1
        intro _
        exact le_antisymm (not_lt.1 fun h => h1 ((hn a).1 ⟨m, h⟩)) (hm a)
    · intro e
      have e : a = m := e
      rw [pd, dif_neg]
      rintro ⟨b, hb⟩
      exact absurd hb.1 (not_lt.2 (e ▸ hm b))
    · rw [pd]; split
      · rename_i h1
        intro e; cases e
        exact ⟨h1.choose_spec.1, fun c hc => not_lt.1 fun h => h1.choose_spec.2 h hc⟩
      · intro e; cases e
    · rw [sd]; split
      · intro e; cases e
      · rename_i h1
        intro _
        exact le_antisymm (hM a) (not_lt.1 fun h => h1 ((hn a).2 ⟨M, h⟩))
    · intro e
      have e : a = M := e
      rw [sd, dif_neg]
      rintro ⟨b, hb⟩
      exact absurd hb.1 (not_lt.2 (e ▸ hM b))
    · rw [sd]; split
      · rename_i h1
        intro e; cases e
        exact ⟨h1.choose_spec.1, fun c hc => not_lt.1 fun h => h1.choose_spec.2 hc h⟩
      · intro e; cases e

example : ∃ F : Finite U8, @LawfulFinite U8 _ F := ⟨inferInstance, inferInstance⟩

/-- An unlawful implementation that looks plausible: on the values 0, 1, 2 written with a `succ` that steps
over 1.  Normalizing `(0, +∞)` loses the value 1. -/
example : ∃ F : Finite (MInt 0 2), ∃ i : RawInterval (MInt 0 2), i.WF ∧
    (MInt.lit 1 : MInt 0 2) ∈ i.pts ∧ (@RawInterval.normalized _ F i).contains (MInt.lit 1) = false :=
  ⟨{ minimum := MInt.lit 0, maximum := MInt.lit 2, pred := fun _ => none,
     succ := fun a => if a.1 = 0 then some (MInt.lit 2) else none }, .upFrom (MInt.lit 0), by decide,
    (RawInterval.contains_iff _ _).1 (by decide), by decide⟩

end NI
