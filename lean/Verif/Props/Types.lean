import Verif.SpecTypes
import Verif.Props.Laws
import Verif.Props.Interval
import Verif.Props.Selection

/-! # C152: `Finite` for types put together from others -/

namespace NI
open Finite

variable {α β : Type} [LinearOrder α] [LinearOrder β]

theorem LawfulFinite.of [Finite α] (h1 : ∀ a : α, Finite.minimum ≤ a) (h2 : ∀ a : α, a ≤ Finite.maximum)
    (h3 : ∀ a : α, pred a = none → a = minimum) (h4 : ∀ a b : α, pred a = some b → b < a ∧ ∀ c, c < a → c ≤ b)
    (h5 : ∀ a : α, succ a = none → a = maximum) (h6 : ∀ a b : α, succ a = some b → a < b ∧ ∀ c, a < c → b ≤ c) :
    LawfulFinite α := by
  refine ⟨h1, h2, fun a => ⟨h3 a, ?_⟩, h4, fun a => ⟨h5 a, ?_⟩, h6⟩
  · rintro rfl
    cases h : pred (minimum : α) with
    | none => rfl
    | some b => exact absurd (h1 b) (not_le.2 (h4 _ b h).1)
  · rintro rfl
    cases h : succ (maximum : α) with
    | none => rfl
    | some b => exact absurd (h2 b) (not_le.2 (h6 _ b h).1)

section
variable [Finite α] [LawfulFinite α] [Finite β] [LawfulFinite β]

/-- **C152.** Pairs and structs with the derived order. -/
theorem C152_pair : @LawfulFinite (α ×ₗ β) _ Finite.pair := by
  let : Finite (α ×ₗ β) := Finite.pair
  refine .of (fun x => ?_) (fun x => ?_) ?_ ?_ ?_ ?_
  · refine Prod.Lex.le_iff.2 ?_
    rcases (LawfulFinite.min_le (ofLex x).1).lt_or_eq with h | h
    · exact .inl h
    · exact .inr ⟨h, LawfulFinite.min_le _⟩
  · refine Prod.Lex.le_iff.2 ?_
    rcases (LawfulFinite.le_max (ofLex x).1).lt_or_eq with h | h
    · exact .inl h
    · exact .inr ⟨h, LawfulFinite.le_max _⟩
  · rintro ⟨a, b⟩ h
    change (match pred b with
      | some b => some (toLex (a, b))
      | none => (pred a).map fun a => toLex (a, (maximum : β))) = none at h
    split at h
    · cases h
    · next hb =>
      rw [Option.map_eq_none_iff, LawfulFinite.pred_none] at h
      rw [LawfulFinite.pred_none] at hb
      subst h hb
      rfl
  · rintro ⟨a, b⟩ y h
    change (match pred b with
      | some b => some (toLex (a, b))
      | none => (pred a).map fun a => toLex (a, (maximum : β))) = some y at h
    split at h
    · next b' hb =>
      cases h
      obtain ⟨k1, k2⟩ := LawfulFinite.pred_some _ _ hb
      refine ⟨Prod.Lex.lt_iff.2 (.inr ⟨rfl, k1⟩), ?_⟩
      rintro ⟨c, d⟩ h
      rcases Prod.Lex.lt_iff.1 h with h | ⟨h, h'⟩
      · exact Prod.Lex.le_iff.2 (.inl h)
      · exact Prod.Lex.le_iff.2 (.inr ⟨h, k2 _ h'⟩)
    · next hb =>
      obtain ⟨a', ha, rfl⟩ := Option.map_eq_some_iff.1 h
      obtain ⟨k1, k2⟩ := LawfulFinite.pred_some _ _ ha
      rw [LawfulFinite.pred_none] at hb
      refine ⟨Prod.Lex.lt_iff.2 (.inl k1), ?_⟩
      rintro ⟨c, d⟩ h
      rcases Prod.Lex.lt_iff.1 h with h | ⟨h, h'⟩
      · rcases (k2 _ h).lt_or_eq with h | h
        · exact Prod.Lex.le_iff.2 (.inl h)
        · exact Prod.Lex.le_iff.2 (.inr ⟨h, LawfulFinite.le_max _⟩)
      · exact absurd (LawfulFinite.min_le d) (not_le.2 (hb ▸ h'))
  · rintro ⟨a, b⟩ h
    change (match succ b with
      | some b => some (toLex (a, b))
      | none => (succ a).map fun a => toLex (a, (minimum : β))) = none at h
    split at h
    · cases h
    · next hb =>
      rw [Option.map_eq_none_iff, LawfulFinite.succ_none] at h
      rw [LawfulFinite.succ_none] at hb
      subst h hb
      rfl
  · rintro ⟨a, b⟩ y h
    change (match succ b with
      | some b => some (toLex (a, b))
      | none => (succ a).map fun a => toLex (a, (minimum : β))) = some y at h
    split at h
    · next b' hb =>
      cases h
      obtain ⟨k1, k2⟩ := LawfulFinite.succ_some _ _ hb
      refine ⟨Prod.Lex.lt_iff.2 (.inr ⟨rfl, k1⟩), ?_⟩
      rintro ⟨c, d⟩ h
      rcases Prod.Lex.lt_iff.1 h with h | ⟨h, h'⟩
      · exact Prod.Lex.le_iff.2 (.inl h)
      · exact Prod.Lex.le_iff.2 (.inr ⟨h, k2 _ h'⟩)
    · next hb =>
      obtain ⟨a', ha, rfl⟩ := Option.map_eq_some_iff.1 h
      obtain ⟨k1, k2⟩ := LawfulFinite.succ_some _ _ ha
      rw [LawfulFinite.succ_none] at hb
      refine ⟨Prod.Lex.lt_iff.2 (.inl k1), ?_⟩
      rintro ⟨c, d⟩ h
      rcases Prod.Lex.lt_iff.1 h with h | ⟨h, h'⟩
      · rcases (k2 _ h).lt_or_eq with h | h
        · exact Prod.Lex.le_iff.2 (.inl h)
        · exact Prod.Lex.le_iff.2 (.inr ⟨h, LawfulFinite.min_le _⟩)
      · exact absurd (LawfulFinite.le_max d) (not_le.2 (hb ▸ h'))

/-- **C152.** `Option`, with `None` first. -/
theorem C152_option : @LawfulFinite (WithBot α) _ Finite.option := by
  let : Finite (WithBot α) := Finite.option
  refine .of (fun x => bot_le) (fun x => ?_) ?_ ?_ ?_ ?_
  · cases x with
    | bot => exact bot_le
    | coe a => exact WithBot.coe_le_coe.2 (LawfulFinite.le_max a)
  · intro x h
    cases x with
    | bot => rfl
    | coe a => cases h
  · intro x y h
    cases x with
    | bot => cases h
    | coe a =>
      replace h : some (match pred a with | some b => (b : WithBot α) | none => ⊥) = some y := h
      cases ha : pred a with
      | none =>
        rw [ha] at h
        cases h
        refine ⟨WithBot.bot_lt_coe a, fun c hc => ?_⟩
        cases c with
        | bot => exact le_rfl
        | coe c =>
          rw [LawfulFinite.pred_none] at ha
          exact absurd (LawfulFinite.min_le c) (not_le.2 (ha ▸ WithBot.coe_lt_coe.1 hc))
      | some b =>
        rw [ha] at h
        cases h
        obtain ⟨k1, k2⟩ := LawfulFinite.pred_some _ _ ha
        refine ⟨WithBot.coe_lt_coe.2 k1, fun c hc => ?_⟩
        cases c with
        | bot => exact bot_le
        | coe c => exact WithBot.coe_le_coe.2 (k2 c (WithBot.coe_lt_coe.1 hc))
  · intro x h
    cases x with
    | bot => cases h
    | coe a =>
      replace h : (succ a).map WithBot.some = none := h
      rw [Option.map_eq_none_iff, LawfulFinite.succ_none] at h
      rw [h]
      rfl
  · intro x y h
    cases x with
    | bot =>
      cases h
      refine ⟨WithBot.bot_lt_coe _, fun c hc => ?_⟩
      cases c with
      | bot => exact absurd hc (lt_irrefl _)
      | coe c => exact WithBot.coe_le_coe.2 (LawfulFinite.min_le c)
    | coe a =>
      replace h : (succ a).map WithBot.some = some y := h
      obtain ⟨b, hb, rfl⟩ := Option.map_eq_some_iff.1 h
      obtain ⟨k1, k2⟩ := LawfulFinite.succ_some _ _ hb
      refine ⟨WithBot.coe_lt_coe.2 k1, fun c hc => ?_⟩
      cases c with
      | bot => exact absurd hc not_lt_bot
      | coe c => exact WithBot.coe_le_coe.2 (k2 c (WithBot.coe_lt_coe.1 hc))

/-- **C152.** An enum with two variants. -/
theorem C152_either : @LawfulFinite (α ⊕ₗ β) _ Finite.either := by
  let : Finite (α ⊕ₗ β) := Finite.either
  refine .of ?_ ?_ ?_ ?_ ?_ ?_
  · rintro (a | b)
    · exact Sum.Lex.inl_le_inl_iff.2 (LawfulFinite.min_le a)
    · exact Sum.Lex.inl_le_inr _ _
  · rintro (a | b)
    · exact Sum.Lex.inl_le_inr _ _
    · exact Sum.Lex.inr_le_inr_iff.2 (LawfulFinite.le_max b)
  · rintro (a | b) h
    · replace h : (pred a).map (fun a => (toLex (.inl a) : α ⊕ₗ β)) = none := h
      rw [Option.map_eq_none_iff, LawfulFinite.pred_none] at h
      rw [h]
      rfl
    · cases h
  · rintro (a | b) y h
    · replace h : (pred a).map (fun a => (toLex (.inl a) : α ⊕ₗ β)) = some y := h
      obtain ⟨a', ha, rfl⟩ := Option.map_eq_some_iff.1 h
      obtain ⟨k1, k2⟩ := LawfulFinite.pred_some _ _ ha
      refine ⟨Sum.Lex.inl_lt_inl_iff.2 k1, ?_⟩
      rintro (c | c) hc
      · exact Sum.Lex.inl_le_inl_iff.2 (k2 c (Sum.Lex.inl_lt_inl_iff.1 hc))
      · exact absurd hc Sum.Lex.not_inr_lt_inl
    · replace h : some (match pred b with | some b => (toLex (.inr b) : α ⊕ₗ β) | none => toLex (.inl maximum)) = some y := h
      cases hb : pred b with
      | none =>
        rw [hb] at h
        cases h
        refine ⟨Sum.Lex.inl_lt_inr _ _, ?_⟩
        rintro (c | c) hc
        · exact Sum.Lex.inl_le_inl_iff.2 (LawfulFinite.le_max c)
        · rw [LawfulFinite.pred_none] at hb
          exact absurd (LawfulFinite.min_le c) (not_le.2 (hb ▸ Sum.Lex.inr_lt_inr_iff.1 hc))
      | some b' =>
        rw [hb] at h
        cases h
        obtain ⟨k1, k2⟩ := LawfulFinite.pred_some _ _ hb
        refine ⟨Sum.Lex.inr_lt_inr_iff.2 k1, ?_⟩
        rintro (c | c) hc
        · exact Sum.Lex.inl_le_inr _ _
        · exact Sum.Lex.inr_le_inr_iff.2 (k2 c (Sum.Lex.inr_lt_inr_iff.1 hc))
  · rintro (a | b) h
    · cases h
    · replace h : (succ b).map (fun b => (toLex (.inr b) : α ⊕ₗ β)) = none := h
      rw [Option.map_eq_none_iff, LawfulFinite.succ_none] at h
      rw [h]
      rfl
  · rintro (a | b) y h
    · replace h : some (match succ a with | some a => (toLex (.inl a) : α ⊕ₗ β) | none => toLex (.inr minimum)) = some y := h
      cases ha : succ a with
      | none =>
        rw [ha] at h
        cases h
        refine ⟨Sum.Lex.inl_lt_inr _ _, ?_⟩
        rintro (c | c) hc
        · rw [LawfulFinite.succ_none] at ha
          exact absurd (LawfulFinite.le_max c) (not_le.2 (ha ▸ Sum.Lex.inl_lt_inl_iff.1 hc))
        · exact Sum.Lex.inr_le_inr_iff.2 (LawfulFinite.min_le c)
      | some a' =>
        rw [ha] at h
        cases h
        obtain ⟨k1, k2⟩ := LawfulFinite.succ_some _ _ ha
        refine ⟨Sum.Lex.inl_lt_inl_iff.2 k1, ?_⟩
        rintro (c | c) hc
        · exact Sum.Lex.inl_le_inl_iff.2 (k2 c (Sum.Lex.inl_lt_inl_iff.1 hc))
        · exact Sum.Lex.inl_le_inr _ _
    · replace h : (succ b).map (fun b => (toLex (.inr b) : α ⊕ₗ β)) = some y := h
      obtain ⟨b', hb, rfl⟩ := Option.map_eq_some_iff.1 h
      obtain ⟨k1, k2⟩ := LawfulFinite.succ_some _ _ hb
      refine ⟨Sum.Lex.inr_lt_inr_iff.2 k1, ?_⟩
      rintro (c | c) hc
      · exact absurd hc Sum.Lex.not_inr_lt_inl
      · exact Sum.Lex.inr_le_inr_iff.2 (k2 c (Sum.Lex.inr_lt_inr_iff.1 hc))

/-- **C152.** `Reverse`. -/
theorem C152_reverse : @LawfulFinite αᵒᵈ _ Finite.reverse := by
  let : Finite αᵒᵈ := Finite.reverse
  refine .of (fun x => LawfulFinite.le_max (OrderDual.ofDual x)) (fun x => LawfulFinite.min_le (OrderDual.ofDual x)) ?_ ?_ ?_ ?_
  · intro x h
    exact (LawfulFinite.succ_none (α := α) _).1 (Option.map_eq_none_iff.1 h)
  · intro x y h
    obtain ⟨b, hb, rfl⟩ := Option.map_eq_some_iff.1 h
    exact LawfulFinite.succ_some (α := α) _ _ hb
  · intro x h
    exact (LawfulFinite.pred_none (α := α) _).1 (Option.map_eq_none_iff.1 h)
  · intro x y h
    obtain ⟨b, hb, rfl⟩ := Option.map_eq_some_iff.1 h
    exact LawfulFinite.pred_some (α := α) _ _ hb

end

theorem LawfulFinite.array_iff [Finite α] {l : List α} (hne : l ≠ [])
    (hS : ∀ x : α, succ x = l[l.idxOf x + 1]?)
    (hP : ∀ x : α, pred x = if l.idxOf x = 0 then none else l[l.idxOf x - 1]?)
    (hM : (maximum : α) = l.getLast hne) (hm : (minimum : α) = l[0]'(List.length_pos_iff.2 hne)) :
    LawfulFinite α ↔ (∀ x, x ∈ l) ∧ l.Pairwise (· < ·) := by
  constructor
  · intro L
    refine ⟨fun x => ?_, ?_⟩
    · by_contra hx
      have h := hS x
      rw [List.idxOf_eq_length hx, List.getElem?_eq_none (by omega), LawfulFinite.succ_none, hM] at h
      exact hx (h ▸ List.getLast_mem hne)
    · have key : ∀ j (hj : j < l.length), ∀ i (hi : i < j), l[i] < l[j] := by
        intro j
        induction j with
        | zero => intro _ i hi; omega
        | succ k ih =>
          intro hj i hi
          have hk : l.idxOf l[k] = k := by
            have h1 : l.idxOf l[k] < l.length := List.idxOf_lt_length_iff.2 (List.getElem_mem _)
            have h2 : l[l.idxOf l[k]] = l[k] := List.getElem_idxOf h1
            rcases lt_trichotomy (l.idxOf l[k]) k with h | h | h
            · exact absurd (ih (by omega) _ h) (by rw [h2]; exact lt_irrefl _)
            · exact h
            · exact absurd (List.not_of_lt_findIdx h) (by simp)
          have h3 : l[k] < l[k + 1] := (LawfulFinite.succ_some _ _ (by rw [hS, hk]; exact List.getElem?_eq_getElem hj)).1
          rcases Nat.lt_succ_iff_lt_or_eq.1 hi with h | rfl
          · exact (ih (by omega) i h).trans h3
          · exact h3
      exact List.pairwise_iff_getElem.2 fun i j _ hj h => key j hj i h
  · rintro ⟨hc, hs⟩
    have hlt := List.pairwise_iff_getElem.1 hs
    have hle : ∀ i j (hi : i < l.length) (hj : j < l.length), i ≤ j → l[i] ≤ l[j] := by
      intro i j hi hj h
      rcases h.lt_or_eq with h | rfl
      · exact (hlt i j hi hj h).le
      · exact le_rfl
    have nd : l.Nodup := hs.imp ne_of_lt
    have pos : ∀ x : α, ∃ i, ∃ h : i < l.length, x = l[i] := fun x => by
      obtain ⟨i, h, e⟩ := List.getElem_of_mem (hc x)
      exact ⟨i, h, e.symm⟩
    have inv : ∀ i j (hi : i < l.length) (hj : j < l.length), l[i] < l[j] → i < j := by
      intro i j hi hj h
      by_contra k
      exact absurd (hle j i hj hi (not_lt.1 k)) (not_le.2 h)
    have hlast : (maximum : α) = l[l.length - 1]'(by have := List.length_pos_iff.2 hne; omega) := by
      rw [hM, List.getLast_eq_getElem]
    refine .of (fun x => ?_) (fun x => ?_) (fun x h => ?_) (fun x y h => ?_) (fun x h => ?_) (fun x y h => ?_) <;>
      obtain ⟨i, hi, rfl⟩ := pos x
    · rw [hm]
      exact hle _ _ _ _ (Nat.zero_le _)
    · rw [hlast]
      exact hle _ _ _ _ (by omega)
    · rw [hP, nd.idxOf_getElem] at h
      split at h
      · next h0 => subst h0; exact hm.symm
      · rw [List.getElem?_eq_none_iff] at h
        omega
    · rw [hP, nd.idxOf_getElem] at h
      split at h
      · cases h
      · obtain ⟨h1, rfl⟩ := List.getElem?_eq_some_iff.1 h
        refine ⟨hlt _ _ _ _ (by omega), fun c hc => ?_⟩
        obtain ⟨j, hj, rfl⟩ := pos c
        have := inv _ _ _ _ hc
        exact hle _ _ _ _ (by omega)
    · rw [hS, nd.idxOf_getElem, List.getElem?_eq_none_iff] at h
      rw [hlast]
      congr 1
      omega
    · rw [hS, nd.idxOf_getElem] at h
      obtain ⟨h1, rfl⟩ := List.getElem?_eq_some_iff.1 h
      refine ⟨hlt _ _ _ _ (by omega), fun c hc => ?_⟩
      obtain ⟨j, hj, rfl⟩ := pos c
      have := inv _ _ _ _ hc
      exact hle _ _ _ _ (by omega)

/-- **C152.** A type with an array of all its values: lawful exactly if the array is complete and ascending. -/
theorem C152_array_iff (a : α) (all : List α) :
    @LawfulFinite α _ (Finite.array a all) ↔ (∀ x, x ∈ a :: all) ∧ (a :: all).Pairwise (· < ·) :=
  @LawfulFinite.array_iff α _ (Finite.array a all) (a :: all) (by simp) (fun _ => rfl) (fun _ => rfl) rfl rfl

/-- What a closed interval of pairs has: everything from the one pair to the other in the derived order, not the rectangle
between them.  Every other right implementation is the one above. -/
theorem C152_pair_contains [Finite α] [LawfulFinite α] [Finite β] [LawfulFinite β] (l u : α × β) (x : α × β) :
    letI : Finite (α ×ₗ β) := Finite.pair
    ((Interval.mkClosed (toLex l) (toLex u) : Interval (α ×ₗ β)).contains (toLex x) = true ↔
      (l.1 < x.1 ∨ l.1 = x.1 ∧ l.2 ≤ x.2) ∧ (x.1 < u.1 ∨ x.1 = u.1 ∧ x.2 ≤ u.2)) ∧
    ∀ F : Finite (α ×ₗ β), @LawfulFinite _ _ F → F = Finite.pair := by
  let : Finite (α ×ₗ β) := Finite.pair
  have : LawfulFinite (α ×ₗ β) := C152_pair
  refine ⟨?_, fun F hF => C99_unique _ _ hF C152_pair⟩
  rw [(C21_bounded (toLex l) (toLex u) (toLex x)).2.2.2.1, Prod.Lex.le_iff, Prod.Lex.le_iff]
  rfl

example : letI : Finite (U8 ×ₗ Bool) := @Finite.pair _ _ _ (Finite.array false [true])
    @LawfulFinite (U8 ×ₗ Bool) _ inferInstance := by
  let : Finite Bool := Finite.array false [true]
  have : LawfulFinite Bool := (C152_array_iff false [true]).2 ⟨by decide, by decide⟩
  exact C152_pair

example : letI : Finite (U8 ×ₗ U8) := Finite.pair
    (do let s ← Selection.fromIntervals true [Interval.mkClosed (toLex (u8 1, u8 0)) (toLex (u8 1, u8 3)),
          (Interval.mkClosed (toLex (u8 0, u8 250)) (toLex (u8 0, u8 255)) : Interval (U8 ×ₗ U8))]
        s.intervals true) = .ok [.mkClosed (toLex (u8 0, u8 250)) (toLex (u8 1, u8 3))] := by decide

example : letI : Finite (WithBot U8) := Finite.option
    ((Interval.unboundedUpTo ((u8 2 : U8) : WithBot U8)).contains ⊥ = true ∧
      (Interval.mkOpen ⊥ ((u8 2 : U8) : WithBot U8) = Interval.mkClosed ((u8 0 : U8) : WithBot U8) ((u8 1 : U8) : WithBot U8))) := by
  decide

example : letI : Finite (U8 ⊕ₗ U8) := Finite.either
    (Interval.mkOpen (toLex (.inl (u8 254))) (toLex (.inr (u8 1))) : Interval (U8 ⊕ₗ U8)) =
      .mkClosed (toLex (.inl (u8 255))) (toLex (.inr (u8 0))) := by decide

/-- Two mistakes: a pair whose first field counts fastest, and one whose second field is not set back.  Neither is lawful, and an
open interval lacks pairs that lie between its ends.  A closed interval is no rectangle. -/
theorem C152_counterexample :
    (¬ @LawfulFinite (U8 ×ₗ U8) _ Finite.pairSwapped ∧
      letI : Finite (U8 ×ₗ U8) := Finite.pairSwapped
      (Interval.mkOpen (toLex (u8 1, u8 1)) (toLex (u8 4, u8 1)) : Interval (U8 ×ₗ U8)).contains (toLex (u8 1, u8 2)) = false) ∧
    (¬ @LawfulFinite (U8 ×ₗ U8) _ Finite.pairKept ∧
      letI : Finite (U8 ×ₗ U8) := Finite.pairKept
      (Interval.mkOpen (toLex (u8 1, u8 255)) (toLex (u8 4, u8 1)) : Interval (U8 ×ₗ U8)).contains (toLex (u8 2, u8 7)) = false) ∧
    letI : Finite (U8 ×ₗ U8) := Finite.pair
    (Interval.mkClosed (toLex (u8 1, u8 1)) (toLex (u8 4, u8 2)) : Interval (U8 ×ₗ U8)).contains (toLex (u8 2, u8 200)) = true := by
  refine ⟨⟨fun h => ?_, by decide⟩, ⟨fun h => ?_, by decide⟩, by decide⟩
  · have := (h.succ_some (toLex (u8 0, u8 0)) (toLex (u8 1, u8 0)) (by decide)).2 (toLex (u8 0, u8 1)) (by decide)
    revert this
    decide
  · have := (h.succ_some (toLex (u8 0, u8 255)) (toLex (u8 1, u8 255)) (by decide)).2 (toLex (u8 1, u8 0)) (by decide)
    revert this
    decide

end NI
