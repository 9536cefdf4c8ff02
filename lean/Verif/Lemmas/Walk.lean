import Verif.SpecWalk
import Verif.Lemmas.Exact
import Verif.Props.Raw

/-! # `intersect` as a walk through two lists -/

namespace NI

theorem finger_succ {β γ : Type _} {meets : β → γ → Bool} {s : β} {as : List β} (l : List γ) (n : Nat) :
    finger meets (s :: as) l (n + 1) = finger meets as l n + 1 := by
  induction l generalizing n with
  | nil => rfl
  | cons o l ih =>
    rw [finger, finger]
    simp only [List.getElem?_cons_succ]
    split_ifs
    · exact ih n
    · exact ih (n + 1)

theorem together_nil {β γ : Type _} {meets : β → γ → Bool} {as : List β} {s : β} {o : γ} :
    ¬ Together meets as [] s o := by rintro ⟨k, h, -⟩; simp at h

theorem nil_together {β γ : Type _} {meets : β → γ → Bool} {bs : List γ} {s : β} {o : γ} :
    ¬ Together meets [] bs s o := by rintro ⟨k, -, h⟩; simp at h

theorem together_meet {β γ : Type _} {meets : β → γ → Bool} {as : List β} {bs : List γ} {s0 s : β} {o0 o : γ}
    (h : meets s0 o0 = true) : Together meets (s0 :: as) (o0 :: bs) s o ↔
      (s = s0 ∧ o = o0) ∨ Together meets (s0 :: as) bs s o := by
  constructor
  · rintro ⟨k, h1, h2⟩
    cases k with
    | zero => simp [finger] at h1 h2; exact .inl ⟨h2.symm, h1.symm⟩
    | succ k => exact .inr ⟨k, by simpa using h1, by simpa [finger, h] using h2⟩
  · rintro (⟨rfl, rfl⟩ | ⟨k, h1, h2⟩)
    · exact ⟨0, rfl, rfl⟩
    · exact ⟨k + 1, by simpa using h1, by simpa [finger, h] using h2⟩

theorem together_miss {β γ : Type _} {meets : β → γ → Bool} {as : List β} {bs : List γ} {s0 s : β} {o0 o : γ}
    (h : meets s0 o0 = false) : Together meets (s0 :: as) (o0 :: bs) s o ↔
      (s = s0 ∧ o = o0) ∨ Together meets as bs s o := by
  constructor
  · rintro ⟨k, h1, h2⟩
    cases k with
    | zero => simp [finger] at h1 h2; exact .inl ⟨h2.symm, h1.symm⟩
    | succ k =>
      refine .inr ⟨k, by simpa using h1, ?_⟩
      rw [List.take_succ_cons, finger] at h2
      simp only [List.getElem?_cons_zero, Option.any_some, h, Bool.false_eq_true, if_false] at h2
      rwa [finger_succ, List.getElem?_cons_succ] at h2
  · rintro (⟨rfl, rfl⟩ | ⟨k, h1, h2⟩)
    · exact ⟨0, rfl, rfl⟩
    · refine ⟨k + 1, by simpa using h1, ?_⟩
      rw [List.take_succ_cons, finger]
      simp only [List.getElem?_cons_zero, Option.any_some, h, Bool.false_eq_true, if_false]
      rwa [finger_succ, List.getElem?_cons_succ]

theorem finger_map {β γ δ ε : Type _} {f : β → δ} {g : γ → ε} {meets : δ → ε → Bool}
    {meets' : β → γ → Bool} {as : List β} (l : List γ)
    (h : ∀ i ∈ as, ∀ j ∈ l, meets (f i) (g j) = meets' i j) (n : Nat) :
    finger meets (as.map f) (l.map g) n = finger meets' as l n := by
  induction l generalizing n with
  | nil => rfl
  | cons o l ih =>
    rw [List.map_cons, finger, finger]
    have : (as.map f)[n]?.any (meets · (g o)) = as[n]?.any (meets' · o) := by
      rw [List.getElem?_map]
      cases hn : as[n]? with
      | none => rfl
      | some i => exact h i (List.mem_of_getElem? hn) o (.head _)
    rw [this]
    exact ih (fun i hi j hj => h i hi j (.tail _ hj)) _

theorem together_map {β γ δ ε : Type _} {f : β → δ} {g : γ → ε} {meets : δ → ε → Bool}
    {meets' : β → γ → Bool} {as : List β} {bs : List γ}
    (h : ∀ i ∈ as, ∀ j ∈ bs, meets (f i) (g j) = meets' i j) (s : δ) (o : ε) :
    Together meets (as.map f) (bs.map g) s o ↔ ∃ s', f s' = s ∧ ∃ o', g o' = o ∧ Together meets' as bs s' o' := by
  have fm : ∀ k, finger meets (as.map f) ((bs.map g).take k) 0 = finger meets' as (bs.take k) 0 := fun k => by
    rw [← List.map_take]
    exact finger_map _ (fun i hi j hj => h i hi j (List.mem_of_mem_take hj)) 0
  constructor
  · rintro ⟨k, h1, h2⟩
    rw [fm, List.getElem?_map, Option.map_eq_some_iff] at h2
    rw [List.getElem?_map, Option.map_eq_some_iff] at h1
    obtain ⟨o', ho, rfl⟩ := h1
    obtain ⟨s', hs, rfl⟩ := h2
    exact ⟨s', rfl, o', rfl, k, ho, hs⟩
  · rintro ⟨s', rfl, o', rfl, k, ho, hs⟩
    exact ⟨k, by rw [List.getElem?_map, ho]; rfl, by rw [fm, List.getElem?_map, hs]; rfl⟩

theorem Together.mem {β γ : Type _} {meets : β → γ → Bool} {as : List β} {bs : List γ} {s : β} {o : γ}
    (h : Together meets as bs s o) : s ∈ as ∧ o ∈ bs := by
  obtain ⟨k, h1, h2⟩ := h
  exact ⟨List.mem_of_getElem? h2, List.mem_of_getElem? h1⟩

namespace TT
variable {α : Type} [LinearOrder α]

/-- The intersections formed are those of the pairs that come together and meet. -/
theorem isectList_together (r : RawInterval α) (os : List (RawInterval α)) : ∀ ss : List (RawInterval α),
    r ∈ isectList ss os ↔ ∃ s o, Together RawInterval.intersects ss os s o ∧ s.intersects o = true ∧
      r = s.intersect o := by
  induction os with
  | nil =>
    intro ss
    refine iff_of_false (fun h => ?_) fun ⟨s, o, h, _⟩ => together_nil h
    obtain ⟨_, _, _, h, _⟩ := isectList_mem h
    cases h
  | cons o os ih =>
    intro ss
    cases ss with
    | nil => exact iff_of_false (by simp [isectList]) fun ⟨s, o, h, _⟩ => nil_together h
    | cons s ss =>
      cases hm : s.intersects o with
      | true =>
        rw [isectList_meet hm, List.mem_cons, ih (s :: ss)]
        constructor
        · rintro (rfl | ⟨s', o', h1, h2, h3⟩)
          · exact ⟨s, o, (together_meet hm).2 (.inl ⟨rfl, rfl⟩), hm, rfl⟩
          · exact ⟨s', o', (together_meet hm).2 (.inr h1), h2, h3⟩
        · rintro ⟨s', o', h1, h2, h3⟩
          rcases (together_meet hm).1 h1 with ⟨rfl, rfl⟩ | h1
          · exact .inl h3
          · exact .inr ⟨s', o', h1, h2, h3⟩
      | false =>
        rw [isectList_miss (by simpa using hm), ih ss]
        constructor
        · rintro ⟨s', o', h1, h2, h3⟩
          exact ⟨s', o', (together_miss hm).2 (.inr h1), h2, h3⟩
        · rintro ⟨s', o', h1, h2, h3⟩
          rcases (together_miss hm).1 h1 with ⟨rfl, rfl⟩ | h1
          · rw [hm] at h2; cases h2
          · exact ⟨s', o', h1, h2, h3⟩

theorem eq_of_shared {β : Type} {pts : β → Set α} {l : List β}
    (h : l.Pairwise fun i j => ∀ x ∈ pts i, ∀ y ∈ pts j, x < y) {i j : β} (hi : i ∈ l) (hj : j ∈ l)
    {x : α} (h1 : x ∈ pts i) (h2 : x ∈ pts j) : i = j := by
  induction l with
  | nil => cases hi
  | cons d l ih =>
    rw [List.pairwise_cons] at h
    rcases List.mem_cons.1 hi with e1 | m1 <;> rcases List.mem_cons.1 hj with e2 | m2
    · rw [e1, e2]
    · exact absurd (h.1 j m2 x (e1 ▸ h1) x h2) (lt_irrefl x)
    · exact absurd (h.1 i m1 x (e2 ▸ h2) x h1) (lt_irrefl x)
    · exact ih h.2 m1 m2

/-- Every interval but the empty one covers something. -/
theorem icov_some {i : RawInterval α} (h : i ≠ .empty) (hw : i.WF) : ∃ aft k, icov i aft k = true := by
  cases i with
  | empty => exact absurd rfl h
  | point p => exact ⟨false, .fin p, by simp [icov, Tine.fromRawInterval, cov, Tine.key, Tine.inclAt]⟩
  | opn l r =>
    have : l < r := hw
    exact ⟨true, .fin l, by simp [icov, Tine.fromRawInterval, cov, Tine.key, Tine.isLowerBound, this]⟩
  | leftOpen l r =>
    have : l < r := hw
    exact ⟨true, .fin l, by simp [icov, Tine.fromRawInterval, cov, Tine.key, Tine.isLowerBound, this]⟩
  | rightOpen l r =>
    have : l < r := hw
    exact ⟨true, .fin l, by simp [icov, Tine.fromRawInterval, cov, Tine.key, Tine.isLowerBound, this]⟩
  | closed l r =>
    have : l < r := hw
    exact ⟨true, .fin l, by simp [icov, Tine.fromRawInterval, cov, Tine.key, Tine.isLowerBound, this]⟩
  | upTo r => exact ⟨true, .bot, by simp [icov, Tine.fromRawInterval, cov, Tine.key, Tine.isLowerBound]⟩
  | upFrom l => exact ⟨true, .fin l, by simp [icov, Tine.fromRawInterval, cov, Tine.key, Tine.isLowerBound]⟩
  | «to» r => exact ⟨true, .bot, by simp [icov, Tine.fromRawInterval, cov, Tine.key, Tine.isLowerBound]⟩
  | frm l => exact ⟨true, .fin l, by simp [icov, Tine.fromRawInterval, cov, Tine.key, Tine.isLowerBound]⟩
  | full => exact ⟨true, .bot, by simp [icov, Tine.fromRawInterval, cov, Tine.key, Tine.isLowerBound]⟩

/-- A tree built from intervals is empty exactly if all of them are. -/
theorem fromIter_nil {dbg : Bool} {is : List (RawInterval α)} {t : TineTree α} (hw : ∀ i ∈ is, i.WF)
    (e : TineTree.fromIter dbg is = .ok t) : t = [] ↔ ∀ i ∈ is, i = .empty := by
  obtain ⟨t', e', v, c⟩ := fromIter_ok dbg is hw
  rw [e] at e'; cases e'
  constructor
  · rintro rfl i hi
    by_contra hne
    obtain ⟨aft, k, h⟩ := icov_some hne (hw i hi)
    have : tcov ([] : TineTree α) aft k = true := by rw [c, List.any_eq_true]; exact ⟨i, hi, h⟩
    simp [tcov, cov] at this
  · intro h
    refine valid_ext v valid_nil fun aft k _ => ?_
    rw [← tcov, c, Bool.eq_iff_iff, List.any_eq_true]
    refine iff_of_false ?_ (by simp [cov])
    rintro ⟨i, hi, hc⟩
    rw [h i hi] at hc
    cases hc

end TT
end NI
