import Verif.Lemmas.Canon

/-! # What `minus` gives, holes included -/

set_option linter.unusedSimpArgs false
set_option linter.unusedVariables false
set_option linter.unnecessarySeqFocus false
set_option linter.unusedSectionVars false
set_option linter.unusedTactic false

namespace NI
namespace TT
variable {α : Type} [LinearOrder α]
open BSet (Lt Gt At)

/-- The interval has a bound, included or not, at the key. -/
def EndAt (i : RawInterval α) (k : Key α) : Prop := ∃ x ∈ Tine.fromRawInterval i, x.key = k

theorem endAt_le {i : RawInterval α} (hi : i.WF) {k : Key α} (h : EndAt i k) : k ≤ ikey i := by
  obtain ⟨x, hx, rfl⟩ := h
  rcases fromRaw_cases hi with ⟨e0, e⟩ | ⟨p, e0, e⟩ | ⟨lb, ub, e, hk⟩
  · rw [e] at hx; cases hx
  · subst e0
    rw [e] at hx
    simp only [List.mem_singleton] at hx
    subst hx
    exact le_refl _
  · have hik : ikey i = (Tine.upper ub).key := by
      cases i <;> simp [Tine.fromRawInterval] at e <;> simp [ikey, RawInterval.upperBound, ← e.2]
    rw [e] at hx
    simp only [List.mem_cons, List.not_mem_nil, or_false] at hx
    rw [hik]
    rcases hx with rfl | rfl
    · exact hk.le
    · exact le_refl _

theorem endAt_ikey {i : RawInterval α} (h : i ≠ .empty) : EndAt i (ikey i) := by
  cases i <;> simp [EndAt, Tine.fromRawInterval, ikey, RawInterval.upperBound, Tine.key] at h ⊢

theorem endAt_ge {i : RawInterval α} (hi : i.WF) {l : Bound α} (hl : i.lowerBound = some l) {k : Key α}
    (h : EndAt i k) : (Tine.lower l).key ≤ k := by
  obtain ⟨x, hx, rfl⟩ := h
  rcases fromRaw_cases hi with ⟨e0, e⟩ | ⟨p, e0, e⟩ | ⟨lb, ub, e, hk⟩
  · rw [e] at hx; cases hx
  · subst e0
    rw [e] at hx
    simp only [List.mem_singleton] at hx
    subst hx
    simp only [RawInterval.lowerBound, Option.some.injEq] at hl
    subst hl
    exact le_refl _
  · have hlb : l = lb := by
      cases i <;> simp [Tine.fromRawInterval] at e <;>
        simp [RawInterval.lowerBound] at hl <;> rw [← hl, ← e.1]
    subst hlb
    rw [e] at hx
    simp only [List.mem_cons, List.not_mem_nil, or_false] at hx
    rcases hx with rfl | rfl
    · exact le_refl _
    · exact hk.le

theorem icov_before {i : RawInterval α} (hi : i.WF) {l : Bound α} (hl : i.lowerBound = some l) {aft : Bool}
    {k : Key α} (h : k < (Tine.lower l).key) : icov i aft k = false := by
  rcases fromRaw_cases hi with ⟨e0, e⟩ | ⟨p, e0, e⟩ | ⟨lb, ub, e, hk⟩
  · subst e0; rfl
  · subst e0
    simp only [RawInterval.lowerBound, Option.some.injEq] at hl
    subst hl
    have h : k < Key.fin p := h
    simp [icov, Tine.fromRawInterval, cov, Tine.key, h]
  · have hlb : l = lb := by
      cases i <;> simp [Tine.fromRawInterval] at e <;>
        simp [RawInterval.lowerBound] at hl <;> rw [← hl, ← e.1]
    subst hlb
    rw [icov, e, cov_pair hk]
    simp [h]

theorem icov_excl {i : RawInterval α} (hi : i.WF) {q : α} (hl : i.lowerBound = some (.excl q)) :
    icov i false (.fin q) = false := by
  rw [icov_fin hi]
  cases i <;> simp_all [RawInterval.lowerBound, RawInterval.contains]

theorem icov_after {i : RawInterval α} (hi : i.WF) {aft : Bool} {k : Key α} (h : ikey i < k) :
    icov i aft k = false := by
  rcases fromRaw_cases hi with ⟨e0, e⟩ | ⟨p, e0, e⟩ | ⟨lb, ub, e, hkk⟩
  · subst e0; rfl
  · subst e0
    have hk : Key.fin p < k := h
    simp [icov, Tine.fromRawInterval, cov, Tine.key, hk.not_gt, hk.ne', Tine.isLowerBound]
  · have hik : ikey i = (Tine.upper ub).key := by
      cases i <;> simp [Tine.fromRawInterval] at e <;> simp [ikey, RawInterval.upperBound, ← e.2]
    rw [hik] at h
    have := hkk.trans h
    rw [icov, e, cov_pair hkk]
    simp [this.not_gt, this.ne', h.not_gt, h.ne']

open Classical in
/-- One removal: the interval goes, and holes of the tree at its ends come in. -/
theorem minusStep (dbg : Bool) {t : TineTree α} (ht : Valid t) {i : RawInterval α} (hi : i.WF)
    (hm : ∀ p, i = .point p → MinusOk t i) :
    ∃ t', TineTree.minusInPlace dbg t i = .ok t' ∧ Valid t' ∧
      (∀ aft k, tcov t' aft k = ((tcov t aft k && !icov i aft k) ||
        (!aft && holeAt t k && decide (EndAt i k)))) ∧
      ((∀ p, i ≠ .point p) → i ≠ .empty → bef false t' (ikey i) = false) ∧
      ∀ k, ikey i < k → bef false t' k = bef false t k := by
  by_cases hm' : MinusOk t i
  · obtain ⟨t', e, v, c, b1, b2⟩ := minusInPlace_ok dbg ht hi hm'
    refine ⟨t', e, v, fun aft k => ?_, b1, b2⟩
    have hz : (holeAt t k && decide (EndAt i k)) = false := by
      rw [Bool.and_eq_false_iff]
      by_cases he : EndAt i k
      · left
        obtain ⟨x, hx, rfl⟩ := he
        by_cases hp : ∃ p, i = .point p
        · obtain ⟨p, rfl⟩ := hp
          simp only [Tine.fromRawInterval, List.mem_singleton] at hx
          subst hx
          show holeAt t (.fin p) = false
          rw [holeAt]
          rcases hm' with h | ⟨h1, h2⟩
          · rw [h]; simp
          · rw [h1]; rfl
        · have : ∀ x ∈ Tine.fromRawInterval i, holeAt t x.key = false := by
            cases i <;> first | exact hm' | exact absurd ⟨_, rfl⟩ hp
          exact this x hx
      · right; simpa using he
    rw [c, Bool.and_assoc, hz, Bool.and_false, Bool.or_false]
  · have hnp : ∀ p, i ≠ .point p := fun p hp => hm' (hm p hp)
    rcases fromRaw_cases hi with ⟨e0, e⟩ | ⟨p, e0, e⟩ | ⟨lb, ub, e, hk⟩
    · subst e0
      exact absurd (fun x hx => by cases hx) hm'
    · exact absurd e0 (hnp p)
    · obtain ⟨t', e1, v, c, b1, b2⟩ := minusProper_ok dbg ht hk
      have hm2 : ¬ ∀ x ∈ Tine.fromRawInterval i, holeAt t x.key = false := by
        intro h
        apply hm'
        cases i <;> first | exact h | exact absurd rfl (hnp _)
      have ht0 : TineTree.isEmpty t = false := by
        rcases t with _ | ⟨x, t⟩
        · exact absurd (fun x _ => rfl) hm2
        · rfl
      have he : i.isEmpty = false := by
        cases i <;> first | rfl | simp [Tine.fromRawInterval] at e
      have hf : i.isFull = false := by
        rw [Bool.eq_false_iff]
        intro hf
        have : i = .full := by cases i <;> simp_all [RawInterval.isFull]
        subst this
        refine hm2 fun x hx => ?_
        simp only [Tine.fromRawInterval, List.mem_cons, List.not_mem_nil, or_false] at hx
        rcases hx with rfl | rfl
        · exact (hole_inf ht).1
        · exact (hole_inf ht).2
      have hik : ikey i = (Tine.upper ub).key := by
        cases i <;> simp [Tine.fromRawInterval] at e <;> simp [ikey, RawInterval.upperBound, ← e.2]
      rw [hik]
      refine ⟨t', ?_, v, fun aft k => ?_, fun _ _ => b1, b2⟩
      · simp only [TineTree.minusInPlace, ht0, he, hf, e]; exact e1
      · have hE : EndAt i k ↔ k = (Tine.lower lb).key ∨ k = (Tine.upper ub).key := by
          simp [EndAt, e, eq_comm]
        rw [c, icov, e]
        simp only [hE, Bool.decide_or]

open Classical in
/-- Removing separated intervals one after the other, holes included. -/
theorem foldMinus_eq (dbg : Bool) {t : TineTree α} (ht : Valid t) (is : List (RawInterval α))
    (hi : ∀ i ∈ is, i.WF ∧ i ≠ .empty ∧ ∀ p, i = .point p → MinusOk t i)
    (hp : is.Pairwise SepI) :
    ∃ t', is.foldlM (TineTree.minusInPlace dbg) t = .ok t' ∧ Valid t' ∧
      ∀ aft k, tcov t' aft k = ((tcov t aft k && !is.any fun i => icov i aft k) ||
        (!aft && holeAt t k && decide (∃ i ∈ is, EndAt i k))) := by
  induction is generalizing t with
  | nil => exact ⟨t, rfl, ht, by simp⟩
  | cons i is ih =>
    obtain ⟨w1, w2, w3⟩ := hi i (List.mem_cons_self)
    rw [List.pairwise_cons] at hp
    obtain ⟨t1, e1, v1, c1, b1, b2⟩ := minusStep dbg ht w1 w3
    have same : ∀ k, ikey i < k → (∀ aft, tcov t1 aft k = tcov t aft k) ∧
        bef false t1 k = bef false t k := by
      intro k hk
      refine ⟨fun aft => ?_, b2 k hk⟩
      have : ¬ EndAt i k := fun h => absurd (endAt_le w1 h) (not_le.2 hk)
      rw [c1, icov_after w1 hk]
      simp [this]
    have hole : ∀ k, ikey i < k → holeAt t1 k = holeAt t k := by
      intro k hk
      obtain ⟨s1, s2⟩ := same k hk
      rw [holeAt, holeAt, s1, s1, s2]
    have key : ∀ j ∈ is, j.WF ∧ j ≠ .empty ∧ ∀ p, j = .point p → MinusOk t1 j := by
      intro j hj
      obtain ⟨g1, g2, g3⟩ := hi j (List.mem_cons_of_mem _ hj)
      refine ⟨g1, g2, ?_⟩
      rintro p rfl
      obtain ⟨u, l, hu, hl, hs⟩ := hp.1 _ hj
      have hik : ikey i = (Tine.upper u).key := by rw [ikey, hu]
      have hlt : ikey i < .fin p := by
        have : l = .incl p := by simpa [RawInterval.lowerBound] using hl.symm
        subst this
        rw [hik]
        rcases hs with hs | ⟨q, _, h⟩
        · exact hs
        · cases h
      obtain ⟨s1, s2⟩ := same _ hlt
      have := g3 p rfl
      simp only [MinusOk] at this ⊢
      rw [s1, s1, s2]; exact this
    obtain ⟨t2, e2, v2, c2⟩ := ih v1 key hp.2
    refine ⟨t2, by rw [List.foldlM_cons, e1]; exact e2, v2, fun aft k => ?_⟩
    rw [c2, List.any_cons]
    simp only [ex_cons, Bool.decide_or]
    rcases lt_or_ge (ikey i) k with hk | hk
    · have hn : ¬ EndAt i k := fun h => absurd (endAt_le w1 h) (not_le.2 hk)
      rw [(same k hk).1, hole k hk, icov_after w1 hk]
      simp [hn]
    · -- at or before the end of `i`
      have far : ∀ j ∈ is, ∃ l, j.lowerBound = some l ∧ (k < (Tine.lower l).key ∨
          (k = ikey i ∧ ∃ q, k = .fin q ∧ l = .excl q ∧ i.upperBound = some (.excl q))) := by
        intro j hj
        obtain ⟨u, l, hu, hl, hs⟩ := hp.1 _ hj
        have hik : ikey i = (Tine.upper u).key := by rw [ikey, hu]
        refine ⟨l, hl, ?_⟩
        rcases hs with hs | ⟨q, rfl, rfl⟩
        · exact .inl (lt_of_le_of_lt hk (hik ▸ hs))
        · rcases lt_or_eq_of_le hk with h | h
          · exact .inl (lt_of_lt_of_eq h (hik.trans rfl))
          · exact .inr ⟨h, q, h.trans (hik.trans rfl), rfl, hu⟩
      have cz : aft = false → (is.any fun i => icov i aft k) = false := by
        rintro rfl
        rw [List.any_eq_false]
        intro j hj
        obtain ⟨l, hl, h | ⟨-, q, rfl, rfl, -⟩⟩ := far j hj
        · rw [icov_before (key j hj).1 hl h]; simp
        · rw [icov_excl (key j hj).1 hl]; simp
      have ez : (∃ j ∈ is, EndAt j k) → EndAt i k ∧ holeAt t1 k = false := by
        rintro ⟨j, hj, he⟩
        obtain ⟨l, hl, h | ⟨hki, q, hq, rfl, hu⟩⟩ := far j hj
        · exact absurd (endAt_ge (key j hj).1 hl he) (not_le.2 h)
        · have hnp : ∀ p, i ≠ .point p := by rintro p rfl; simp [RawInterval.upperBound] at hu
          refine ⟨hki ▸ endAt_ikey w2, ?_⟩
          rw [holeAt, hki, b1 hnp w2]; rfl
      rw [c1]
      cases aft with
      | true => simp [Bool.and_assoc]
      | false =>
        rw [cz rfl]
        by_cases he : ∃ j ∈ is, EndAt j k
        · obtain ⟨h1, h2⟩ := ez he
          simp [h1, h2]
        · simp [he]

open Classical in
theorem minus_eq (dbg : Bool) {a b : TineTree α} (ha : Valid a) (hb : Valid b)
    (hm : ∀ p, .point p ∈ pieces none b → MinusOk a (.point p)) :
    ∃ t', TineTree.minus dbg a b = .ok t' ∧ Valid t' ∧
      ∀ aft k, tcov t' aft k = ((tcov a aft k && !tcov b aft k) ||
        (!aft && holeAt a k && decide (∃ i ∈ pieces none b, EndAt i k))) := by
  obtain ⟨t', e, v, c⟩ := foldMinus_eq dbg ha (pieces none b)
    (fun i hi => ⟨((pieces_wf hb.1).1 i hi).1, ((pieces_wf hb.1).1 i hi).2, fun p hp => by
      subst hp; exact hm p hi⟩)
    (pieces_sep hb.1).1
  refine ⟨t', ?_, v, fun aft k => ?_⟩
  · rw [TineTree.minus, fold_eq dbg _ hb]; exact e
  · rw [c, (pieces_cov aft k hb.1).1 hb.2]; rfl

end TT
end NI
