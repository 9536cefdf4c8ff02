import Verif.SpecHeap
import Verif.Props.Patch
import Verif.Props.Pinhole
import Verif.Props.Pool

/-! # Handing out blocks of numbers, first fit (C131) -/

namespace NI
open _root_.NI.Finite TT

section
variable {α : Type} [LinearOrder α] [Finite α] [LawfulFinite α]

/-- In a selection edited in place a pinhole is a value missing alone. -/
theorem Selection.edited_pinhole (dbg : Bool) {s : Selection α} (hs : s.Edited) {x : α} (h : s.Pinhole dbg x) :
    MissingAlone (s.pts dbg) x := by
  obtain ⟨r, c1, c2, c3⟩ := hs.reachable_crisp
  have v := Selection.reachable_valid r
  have h0 := C73_pinhole dbg s r x h
  refine ⟨h0, ?_⟩
  rw [Selection.pinhole_iff dbg v, holeAt] at h
  rw [Selection.mem_pts dbg v] at h0
  simp only [Bool.and_eq_true, Bool.not_eq_true'] at h
  obtain ⟨⟨b, -⟩, a⟩ := h
  constructor
  · cases e : pred x with
    | none =>
      have hm := (LawfulFinite.pred_none x).1 e
      rw [bef_min e, c2, ← hm] at b
      exact absurd b h0
    | some p =>
      refine ⟨p, ?_, rfl⟩
      rw [Selection.mem_pts dbg v]
      by_contra hp
      rw [bef_pred e, c1 p x ((pred_eq_iff).1 e) (by simp_all)] at b
      exact hp b
  · cases e : succ x with
    | none =>
      have hm := (LawfulFinite.succ_none x).1 e
      rw [hm, c3, ← hm] at a
      exact absurd a h0
    | some q =>
      refine ⟨q, ?_, rfl⟩
      rw [Selection.mem_pts dbg v]
      by_contra hq
      rw [c1 x q e (by simp_all)] at a
      exact h0 a
end

section
variable {hi : Int} [Fact (0 ≤ hi)]

/-- Looking through intervals in ascending order. -/
theorem firstFitIn_right (more : MInt 0 hi) (is : List (Interval (MInt 0 hi))) (ho : ∀ i ∈ is, i.Obtainable)
    (hr : ∀ i ∈ is, ∃ a b, a ≤ b ∧ i.pts = Set.Icc a b) (hp : is.Pairwise fun i j => ∀ x ∈ i.pts, ∀ y ∈ j.pts, x < y) :
    (∃ l u, firstFitIn more is = .ok (some (l, u)) ∧ u.1 = l.1 + more.1 ∧ (∃ i ∈ is, Set.Icc l u ⊆ i.pts) ∧
      ∀ l' u' : MInt 0 hi, u'.1 = l'.1 + more.1 → (∃ i ∈ is, Set.Icc l' u' ⊆ i.pts) → l ≤ l') ∨
    (firstFitIn more is = .ok none ∧ ∀ l' u' : MInt 0 hi, u'.1 = l'.1 + more.1 → ¬ ∃ i ∈ is, Set.Icc l' u' ⊆ i.pts) := by
  have m0 := more.2.1
  induction is with
  | nil => exact .inr ⟨rfl, by simp⟩
  | cons i is ih =>
    obtain ⟨a, b, hab, e⟩ := hr i (.head _)
    have hrl : i.Real := .inr ⟨a, (Set.ext_iff.1 e a).2 ⟨le_rfl, hab⟩⟩
    obtain ⟨x1, x2, -, -⟩ := C31_extrema_partial i (ho i (.head _)) hrl
    have e1 : i.infimum = some a := (x1 a).2 (e ▸ ⟨⟨le_rfl, hab⟩, fun x hx => hx.1⟩)
    have e2 : i.supremum = some b := (x2 b).2 (e ▸ ⟨⟨hab, le_rfl⟩, fun x hx => hx.2⟩)
    have hab' : a.1 ≤ b.1 := hab
    have hd : 0 ≤ b.1 - a.1 ∧ b.1 - a.1 ≤ hi := ⟨by omega, by have := b.2.2; have := a.2.1; omega⟩
    have e3 : i.size (fun a b => a.checkedSub b.1) = .ok (some ⟨b.1 - a.1, hd⟩) := by
      simp only [Interval.size, e1, e2, MInt.checkedSub, dif_pos hd]
    rw [List.pairwise_cons] at hp
    by_cases hm : more.1 ≤ b.1 - a.1
    · have hu : 0 ≤ a.1 + more.1 ∧ a.1 + more.1 ≤ hi := ⟨by have := a.2.1; omega, by have := b.2.2; omega⟩
      refine .inl ⟨a, ⟨a.1 + more.1, hu⟩, ?_, rfl, ⟨i, .head _, fun x hx => ?_⟩, ?_⟩
      · have : more ≤ (⟨b.1 - a.1, hd⟩ : MInt 0 hi) := hm
        simp only [firstFitIn, e3, e1, bind, Except.bind, this, MInt.checkedAdd, dif_pos hu, if_true]
      · rw [e]
        refine ⟨hx.1, ?_⟩
        have h1 : x.1 ≤ a.1 + more.1 := hx.2
        change x.1 ≤ b.1
        omega
      · rintro l' u' hl ⟨j, hj, hs⟩
        have hl' : l' ∈ j.pts := hs ⟨le_rfl, by change l'.1 ≤ u'.1; omega⟩
        rcases List.mem_cons.1 hj with rfl | hj
        · rw [e] at hl'; exact hl'.1
        · exact (hp.1 j hj a (e ▸ ⟨le_rfl, hab⟩) l' hl').le
    · have step : firstFitIn more (i :: is) = firstFitIn more is := by
        have : ¬ more ≤ (⟨b.1 - a.1, hd⟩ : MInt 0 hi) := hm
        simp only [firstFitIn, e3, e1, bind, Except.bind, this, if_false]
      have no : ∀ l' u' : MInt 0 hi, u'.1 = l'.1 + more.1 → ¬ Set.Icc l' u' ⊆ i.pts := by
        intro l' u' hl hs
        have h0 : l' ≤ u' := by change l'.1 ≤ u'.1; omega
        have h1 := hs ⟨le_rfl, h0⟩
        have h2 := hs ⟨h0, le_rfl⟩
        rw [e] at h1 h2
        have h3 : a.1 ≤ l'.1 := h1.1
        have h4 : u'.1 ≤ b.1 := h2.2
        omega
      rw [step]
      rcases ih (fun j h => ho j (.tail _ h)) (fun j h => hr j (.tail _ h)) hp.2 with ⟨l, u, h1, h2, ⟨j, hj, h3⟩, h4⟩ | ⟨h1, h2⟩
      · refine .inl ⟨l, u, h1, h2, ⟨j, .tail _ hj, h3⟩, ?_⟩
        rintro l' u' hl ⟨k, hk, hs⟩
        rcases List.mem_cons.1 hk with rfl | hk
        · exact absurd hs (no l' u' hl)
        · exact h4 l' u' hl ⟨k, hk, hs⟩
      · refine .inr ⟨h1, ?_⟩
        rintro l' u' hl ⟨k, hk, hs⟩
        rcases List.mem_cons.1 hk with rfl | hk
        · exact no l' u' hl hs
        · exact h2 l' u' hl ⟨k, hk, hs⟩

/-- The block found is the lowest that fits, and none is found only if none fits. -/
theorem C131_first_fit (dbg : Bool) (s : Selection (MInt 0 hi)) (hs : s.Edited) (more : MInt 0 hi) :
    (∃ l u, s.firstFit dbg more = .ok (some (l, u)) ∧ Fits (s.pts dbg) more l u ∧
      ∀ l' u', Fits (s.pts dbg) more l' u' → l ≤ l') ∨
    (s.firstFit dbg more = .ok none ∧ ∀ l u, ¬ Fits (s.pts dbg) more l u) := by
  obtain ⟨is, e, ho, m1, m2, m3⟩ := C120_runs dbg s hs
  have m0 := more.2.1
  have key : ∀ l u : MInt 0 hi, u.1 = l.1 + more.1 → (Set.Icc l u ⊆ s.pts dbg ↔ ∃ i ∈ is, Set.Icc l u ⊆ i.pts) := by
    intro l u hu
    have hlu : l ≤ u := by change l.1 ≤ u.1; omega
    constructor
    · intro hs
      obtain ⟨r, hr, hl⟩ := (m3 l).1 (hs ⟨le_rfl, hlu⟩)
      obtain ⟨i, hi, rfl⟩ := List.mem_map.1 hr
      obtain ⟨a, b, hab, e1, -, e2⟩ := m1 _ hr
      rw [e1] at hl
      refine ⟨i, hi, fun x hx => ?_⟩
      rw [e1]
      refine ⟨hl.1.trans hx.1, ?_⟩
      by_contra hb
      push Not at hb
      cases hq : succ b with
      | none =>
        rw [LawfulFinite.succ_none] at hq
        exact absurd (LawfulFinite.le_max x) (not_le.2 (hq ▸ hb))
      | some q =>
        obtain ⟨g1, g2⟩ := LawfulFinite.succ_some b q hq
        exact e2 q hq (hs ⟨hl.2.trans g1.le, (g2 x hb).trans hx.2⟩)
    · rintro ⟨i, hi, h⟩ x hx
      exact (m3 x).2 ⟨_, List.mem_map_of_mem hi, h hx⟩
  have := firstFitIn_right more is (fun i h => (ho i h).1) (fun i h => by
    obtain ⟨a, b, hab, e1, -⟩ := m1 _ (List.mem_map_of_mem h); exact ⟨a, b, hab, e1⟩) (List.pairwise_map.1 m2)
  have ef : s.firstFit dbg more = firstFitIn more is := by simp only [Selection.firstFit, e, bind, Except.bind]
  rw [ef]
  rcases this with ⟨l, u, h1, h2, h3, h4⟩ | ⟨h1, h2⟩
  · exact .inl ⟨l, u, h1, ⟨h2, (key l u h2).2 h3⟩, fun l' u' h => h4 l' u' h.1 ((key l' u' h.1).1 h.2)⟩
  · exact .inr ⟨h1, fun l u h => h2 l u h.1 ((key l u h.1).1 h.2)⟩

example : (Selection.demo [(u8 2, u8 3), (u8 5, u8 9)]).Edited ∧
    (Selection.demo [(u8 2, u8 3), (u8 5, u8 9)]).firstFit true (u8 2) = .ok (some (u8 5, u8 7)) ∧
    (Selection.demo [(u8 2, u8 3), (u8 5, u8 9)]).firstFit true (u8 5) = .ok none :=
  ⟨.built (Selection.demo_built _ (by decide)), by decide, by decide⟩

omit [Fact (0 ≤ hi)] in
/-- A number handed out twice has been given back in between, if the blocks are handed out as the users rely on. -/
theorem C131_no_double {F F' : Set (MInt 0 hi)} {A B C : List (HeapCall (MInt 0 hi))} {n m : MInt 0 hi}
    {os : List (Option (MInt 0 hi × MInt 0 hi))} (h : HeapRun F (A ++ .take n :: B ++ .take m :: C) os F')
    (x l u l' u' : MInt 0 hi) (h1 : os[A.length]? = some (some (l, u)))
    (h2 : os[A.length + 1 + B.length]? = some (some (l', u'))) (hx : x ∈ Set.Icc l u) (hx' : x ∈ Set.Icc l' u') :
    ∃ a b, HeapCall.give a b ∈ B ∧ x ∈ Set.Icc a b := by
  induction A generalizing F os with
  | nil =>
    have go : ∀ {B : List (HeapCall (MInt 0 hi))} {F : Set (MInt 0 hi)} {os : List (Option (MInt 0 hi × MInt 0 hi))},
        x ∉ F → HeapRun F (B ++ .take m :: C) os F' → os[B.length]? = some (some (l', u')) →
        ∃ a b, HeapCall.give a b ∈ B ∧ x ∈ Set.Icc a b := by
      intro B
      induction B with
      | nil =>
        intro F os hx h h1
        cases h with
        | take hl _ _ => cases h1; exact absurd (hl.2 hx') hx
        | out _ _ => cases h1
      | cons c B ih =>
        intro F os hx h h1
        have up : (∃ a b, HeapCall.give a b ∈ B ∧ x ∈ Set.Icc a b) →
            ∃ a b, HeapCall.give a b ∈ c :: B ∧ x ∈ Set.Icc a b := by
          rintro ⟨a, b, h, h'⟩; exact ⟨a, b, .tail _ h, h'⟩
        cases h with
        | take _ _ h => exact up (ih (fun hh => hx hh.1) h h1)
        | out _ h => exact up (ih hx h h1)
        | @give _ a b _ _ _ h =>
          by_cases e : x ∈ Set.Icc a b
          · exact ⟨a, b, .head _, e⟩
          · exact up (ih (fun hh => hh.elim hx e) h h1)
    cases h with
    | take hl _ h =>
      cases h1
      rw [show [].length + 1 + B.length = B.length + 1 by simp [Nat.add_comm], List.getElem?_cons_succ] at h2
      exact go (fun hh => hh.2 hx) h h2
    | out _ h => cases h1
  | cons c A ih =>
    have e : (c :: A).length + 1 + B.length = A.length + 1 + B.length + 1 := by simp; omega
    rw [e] at h2
    cases h with
    | take _ _ h => exact ih h h1 h2
    | out _ h => exact ih h h1 h2
    | give h => exact ih h h1 h2

/-- 3 is handed out, given back, and handed out in another block. -/
example : HeapRun (Set.Icc (u8 3) (u8 4)) ([] ++ .take (u8 0) :: [.give (u8 3) (u8 3)] ++ .take (u8 1) :: [])
    [some (u8 3, u8 3), none, some (u8 3, u8 4)] (Set.Icc (u8 3) (u8 4) \ Set.Icc (u8 3) (u8 4)) := by
  have e : Set.Icc (u8 3) (u8 4) \ Set.Icc (u8 3) (u8 3) ∪ Set.Icc (u8 3) (u8 3) = Set.Icc (u8 3) (u8 4) :=
    Set.sdiff_union_of_subset (Set.Icc_subset_Icc le_rfl (by decide))
  refine .take ⟨rfl, Set.Icc_subset_Icc le_rfl (by decide)⟩ (fun l' u' h => (h.2 ⟨le_rfl, ?_⟩).1) (.give ?_)
  · have h1 : u'.1 = l'.1 + 0 := h.1
    change l'.1 ≤ u'.1; omega
  · rw [e]
    refine .take ⟨rfl, le_rfl⟩ (fun l' u' h => (h.2 ⟨le_rfl, ?_⟩).1) (.nil _)
    have h1 : u'.1 = l'.1 + 1 := h.1
    change l'.1 ≤ u'.1; omega

theorem Interval.mkClosed_real (l u : MInt 0 hi) : (Interval.mkClosed l u).Real := by
  rcases le_or_gt l u with h | h
  · exact Interval.closed_real h
  · refine .inl ?_
    rw [Interval.mkClosed, RawInterval.mkClosed, if_neg (not_lt.2 h.le), if_neg (ne_of_gt h)]; rfl

/-- If the free numbers are kept and each change is right, the users can rely on what is handed out. -/
theorem Selection.heap_right (dbg : Bool) (k : Keeping (MInt 0 hi)) (hk : k.free = .ok)
    (ht : ∀ s l u, s.Edited → l ≤ u → Set.Icc l u ⊆ s.pts dbg →
      ∃ s', k.takeOut s (.mkClosed l u) = .ok s' ∧ s'.Edited ∧ s'.pts dbg = s.pts dbg \ Set.Icc l u)
    (hg : ∀ s l u, s.Edited →
      ∃ s', k.putBack s (.mkClosed l u) = .ok s' ∧ s'.Edited ∧ s'.pts dbg = s.pts dbg ∪ Set.Icc l u)
    (s : Selection (MInt 0 hi)) (hs : s.Edited) (cs : List (HeapCall (MInt 0 hi))) :
    ∃ os s', s.heap k dbg cs = .ok (os, s') ∧ s'.Edited ∧ HeapRun (s.pts dbg) cs os (s'.pts dbg) := by
  induction cs generalizing s with
  | nil => exact ⟨[], s, rfl, hs, .nil _⟩
  | cons c cs ih =>
    cases c with
    | take n =>
      have n0 := n.2.1
      rcases C131_first_fit dbg s hs n with ⟨l, u, e, hf, hm⟩ | ⟨e, hf⟩
      · obtain ⟨s1, e1, k1, p1⟩ := ht s l u hs (by have := hf.1; change l.1 ≤ u.1; omega) hf.2
        obtain ⟨os, s', e', k, r⟩ := ih s1 k1
        rw [p1] at r
        exact ⟨some (l, u) :: os, s', by simp only [Selection.heap, hk, e, e1, e', bind, Except.bind]; rfl, k, .take hf hm r⟩
      · obtain ⟨os, s', e', k, r⟩ := ih s hs
        exact ⟨none :: os, s', by simp only [Selection.heap, hk, e, e', bind, Except.bind]; rfl, k, .out hf r⟩
    | give l u =>
      obtain ⟨s1, e1, k1, p1⟩ := hg s l u hs
      obtain ⟨os, s', e', k, r⟩ := ih s1 k1
      rw [p1] at r
      exact ⟨none :: os, s', by simp only [Selection.heap, e1, e', bind, Except.bind]; rfl, k, .give r⟩

theorem Selection.put_block (dbg : Bool) (s : Selection (MInt 0 hi)) (l u : MInt 0 hi) (hs : s.Edited) :
    ∃ s', s.unionInPlace dbg (.mkClosed l u) = .ok s' ∧ s'.Edited ∧ s'.pts dbg = s.pts dbg ∪ Set.Icc l u := by
  obtain ⟨s1, e1, -, p1⟩ := C48_union_in_place dbg s hs.reachable_crisp.1 (.mkClosed l u) (.mkClosed l u)
  exact ⟨s1, e1, .unionInPlace hs (.mkClosed l u) (Interval.mkClosed_real l u) e1, by rw [p1, Interval.closed_pts]⟩

/-- Free numbers kept, blocks taken out by complement and union: right, whatever the calls. -/
theorem C131_by_complement (dbg : Bool) (s : Selection (MInt 0 hi)) (hs : s.Edited) (cs : List (HeapCall (MInt 0 hi))) :
    ∃ os s', s.heap (.byComplement dbg) dbg cs = .ok (os, s') ∧ s'.Edited ∧ HeapRun (s.pts dbg) cs os (s'.pts dbg) := by
  refine Selection.heap_right dbg _ rfl (fun s l u h _ _ => ?_) (fun s l u h => s.put_block dbg l u h) s hs cs
  obtain ⟨c, e1, r1, p1⟩ := Selection.complement_right dbg s h.reachable_crisp.1
  obtain ⟨d, e2, k2, p2⟩ := c.put_block dbg l u (.complement h e1)
  obtain ⟨s', e3, r3, p3⟩ := Selection.complement_right dbg d k2.reachable_crisp.1
  refine ⟨s', by simp only [Keeping.byComplement, e1, e2, e3, bind, Except.bind], .complement k2 e3, ?_⟩
  rw [p3, p2, p1, Set.compl_union, compl_compl]; rfl

/-- The calls that go wrong below. -/
example : (Selection.full : Selection U8).Edited ∧
    ((Selection.full : Selection U8).heap (.byComplement true) true [.take (u8 0), .take (u8 0), .take (u8 0),
      .give (u8 0) (u8 0), .give (u8 2) (u8 2), .take (u8 1), .take (u8 0), .take (u8 0)]).map (·.1) =
      .ok [some (u8 0, u8 0), some (u8 1, u8 1), some (u8 2, u8 2), none, none, some (u8 2, u8 3), some (u8 0, u8 0),
        some (u8 4, u8 4)] :=
  ⟨.built .full, by decide⟩

/-- So no number is handed out while it is in use. -/
theorem C131_in_use (dbg : Bool) (s : Selection (MInt 0 hi)) (hs : s.Edited) (A B C : List (HeapCall (MInt 0 hi)))
    (n m : MInt 0 hi) (os : List (Option (MInt 0 hi × MInt 0 hi))) (s' : Selection (MInt 0 hi))
    (h : s.heap (.byComplement dbg) dbg (A ++ .take n :: B ++ .take m :: C) = .ok (os, s')) (x l u l' u' : MInt 0 hi)
    (h1 : os[A.length]? = some (some (l, u))) (h2 : os[A.length + 1 + B.length]? = some (some (l', u')))
    (hx : x ∈ Set.Icc l u) (hx' : x ∈ Set.Icc l' u') : ∃ a b, HeapCall.give a b ∈ B ∧ x ∈ Set.Icc a b := by
  obtain ⟨os', s1, e, -, r⟩ := C131_by_complement dbg s hs (A ++ .take n :: B ++ .take m :: C)
  rw [h] at e; cases e
  exact C131_no_double r x l u l' u' h1 h2 hx hx'

/-- 0 to 2 are handed out, given back, and 2 is handed out again. -/
example : ∃ os s', (Selection.full : Selection U8).heap (.byComplement true) true
    ([] ++ .take (u8 2) :: [.give (u8 0) (u8 2), .take (u8 1)] ++ .take (u8 0) :: []) = .ok (os, s') ∧
    os[0]? = some (some (u8 0, u8 2)) ∧ os[3]? = some (some (u8 2, u8 2)) :=
  ⟨_, _, rfl, by decide, by decide⟩

/-- Free numbers kept, blocks taken out by `minus_in_place`: a number in use is handed out.  Of 0, 1 and 2 the users give
back 0 and 2, take 2 and 3, then 0, and then are handed out 1 again. -/
theorem C131_counterexample (dbg : Bool) :
    ((Selection.full : Selection U8).heap (.inPlace dbg) dbg [.take (u8 0), .take (u8 0), .take (u8 0),
      .give (u8 0) (u8 0), .give (u8 2) (u8 2), .take (u8 1), .take (u8 0), .take (u8 0)]).map (·.1) =
      .ok [some (u8 0, u8 0), some (u8 1, u8 1), some (u8 2, u8 2), none, none, some (u8 2, u8 3), some (u8 0, u8 0),
        some (u8 1, u8 1)] := by
  cases dbg <;> decide

theorem HeapCall.orderly_alone {F : Set (MInt 0 hi)} {held : List (MInt 0 hi × MInt 0 hi)}
    (h1 : ∀ b ∈ held, b.1 < b.2 ∧ Disjoint (Set.Icc b.1 b.2) F)
    (h2 : ∀ x, ¬ MissingAlone (F ∪ {x | ∃ b ∈ held, x ∈ Set.Icc b.1 b.2}) x) (x : MInt 0 hi) : ¬ MissingAlone F x := by
  rintro ⟨h0, ⟨p, hp, ep⟩, q, hq, eq⟩
  obtain ⟨g1, g2⟩ := LawfulFinite.pred_some x p ep
  obtain ⟨g3, g4⟩ := LawfulFinite.succ_some x q eq
  by_cases hb : ∃ b ∈ held, x ∈ Set.Icc b.1 b.2
  · obtain ⟨b, hb, hx⟩ := hb
    obtain ⟨hl, hd⟩ := h1 b hb
    rw [Set.disjoint_left] at hd
    rcases hx.1.lt_or_eq with h | h
    · exact hd ⟨g2 _ h, g1.le.trans hx.2⟩ hp
    · exact hd ⟨hx.1.trans g3.le, g4 _ (h ▸ hl)⟩ hq
  · exact h2 x ⟨fun h => h.elim h0 hb, ⟨p, .inl hp, ep⟩, q, .inl hq, eq⟩

/-- Free numbers kept, blocks taken out by `minus_in_place`: right if no single value is missing at first, all blocks
have two numbers or more, and blocks are given back as a whole.
Otherwise it is false, see `C131_counterexample`. -/
theorem C131_wide (dbg : Bool) (s : Selection (MInt 0 hi)) (hs : s.Edited) (hm : ∀ x, ¬ MissingAlone (s.pts dbg) x)
    (cs : List (HeapCall (MInt 0 hi))) (os : List (Option (MInt 0 hi × MInt 0 hi))) (F : Set (MInt 0 hi))
    (h : HeapRun (s.pts dbg) cs os F) (ho : HeapCall.Orderly [] cs os) :
    ∃ s', s.heap (.inPlace dbg) dbg cs = .ok (os, s') ∧ s'.Edited ∧ s'.pts dbg = F := by
  have all : ∀ (cs : List (HeapCall (MInt 0 hi))) (s : Selection (MInt 0 hi)) (held : List (MInt 0 hi × MInt 0 hi))
      (os : List (Option (MInt 0 hi × MInt 0 hi))), s.Edited →
      (∀ b ∈ held, b.1 < b.2 ∧ Disjoint (Set.Icc b.1 b.2) (s.pts dbg)) →
      held.Pairwise (fun b c => Disjoint (Set.Icc b.1 b.2) (Set.Icc c.1 c.2)) →
      (∀ x, ¬ MissingAlone (s.pts dbg ∪ {x | ∃ b ∈ held, x ∈ Set.Icc b.1 b.2}) x) →
      HeapRun (s.pts dbg) cs os F → HeapCall.Orderly held cs os →
      ∃ s', s.heap (.inPlace dbg) dbg cs = .ok (os, s') ∧ s'.Edited ∧ s'.pts dbg = F := by
    intro cs
    induction cs with
    | nil => intro s held os hs _ _ _ h _; cases h; exact ⟨s, rfl, hs, rfl⟩
    | cons c cs ih =>
      intro s held os hs h1 h2 h3 h ho
      cases h with
      | @take _ n l u _ os _ hf hl h =>
        obtain ⟨ho0, ho⟩ := ho
        have n0 := n.2.1
        have hlu : l < u := by have := hf.1; change l.1 < u.1; omega
        have e : s.firstFit dbg n = .ok (some (l, u)) := by
          rcases C131_first_fit dbg s hs n with ⟨l', u', e, hf', hl'⟩ | ⟨-, h⟩
          · have : l' = l := le_antisymm (hl' _ _ hf) (hl _ _ hf')
            subst this
            have : u' = u := Subtype.ext (by rw [hf.1, hf'.1])
            rw [e, this]
          · exact absurd hf (h l u)
        have alone := HeapCall.orderly_alone h1 h3
        obtain ⟨s1, e1, p1⟩ := (C50_exact_any dbg s hs.reachable_crisp.1 (.mkClosed l u) (.mkClosed l u)).2
          fun x hx => absurd (Selection.edited_pinhole dbg hs hx) (alone x)
        rw [Interval.closed_pts] at p1
        have k1 : s1.Edited := .minusInPlace hs (.mkClosed l u) (Interval.mkClosed_real l u) e1
        rw [← p1] at h
        refine Exists.elim (ih s1 ((l, u) :: held) os k1 ?_ ?_ ?_ h ho) ?_
        rotate_right
        · rintro s' ⟨e', k', p'⟩
          exact ⟨s', by simp only [Selection.heap, Keeping.inPlace, e, e1, bind, Except.bind] at e' ⊢; simp only [e']; rfl, k', p'⟩
        · intro b hb
          rw [p1]
          rcases List.mem_cons.1 hb with rfl | hb
          · exact ⟨hlu, Set.disjoint_sdiff_right⟩
          · exact ⟨(h1 b hb).1, (h1 b hb).2.mono_right Set.sdiff_subset⟩
        · exact List.pairwise_cons.2 ⟨fun b hb => ((h1 b hb).2.mono_right hf.2).symm, h2⟩
        · intro x
          have : s1.pts dbg ∪ {x | ∃ b ∈ (l, u) :: held, x ∈ Set.Icc b.1 b.2} =
              s.pts dbg ∪ {x | ∃ b ∈ held, x ∈ Set.Icc b.1 b.2} := by
            rw [p1]
            ext y
            simp only [Set.mem_union, Set.mem_sdiff, Set.mem_ofPred_eq, List.exists_mem_cons_iff]
            have := @hf.2 y
            tauto
          rw [this]; exact h3 x
      | @out _ n _ os _ hf h =>
        obtain ⟨s', e', k', p'⟩ := ih s held os hs h1 h2 h3 h ho
        have e : s.firstFit dbg n = .ok none := by
          rcases C131_first_fit dbg s hs n with ⟨l', u', -, hf', -⟩ | ⟨e, -⟩
          · exact absurd hf' (hf l' u')
          · exact e
        exact ⟨s', by simp only [Selection.heap, Keeping.inPlace, e, bind, Except.bind] at e' ⊢; simp only [e']; rfl, k', p'⟩
      | @give _ l u _ os _ h =>
        obtain ⟨ho0, ho⟩ := ho
        obtain ⟨s1, e1, k1, p1⟩ := s.put_block dbg l u hs
        rw [← p1] at h
        have hperm := List.perm_cons_erase ho0
        have h2' := (hperm.pairwise_iff (fun {a b} (h : Disjoint _ _) => h.symm)).1 h2
        rw [List.pairwise_cons] at h2'
        refine Exists.elim (ih s1 (held.erase (l, u)) os k1 ?_ h2'.2 ?_ h ho) ?_
        rotate_right
        · rintro s' ⟨e', k', p'⟩
          exact ⟨s', by simp only [Selection.heap, Keeping.inPlace, e1, bind, Except.bind] at e' ⊢; simp only [e']; rfl, k', p'⟩
        · intro b hb
          rw [p1]
          exact ⟨(h1 b (List.mem_of_mem_erase hb)).1, Set.disjoint_union_right.2 ⟨(h1 b (List.mem_of_mem_erase hb)).2, (h2'.1 b hb).symm⟩⟩
        · intro x
          have : s1.pts dbg ∪ {x | ∃ b ∈ held.erase (l, u), x ∈ Set.Icc b.1 b.2} =
              s.pts dbg ∪ {x | ∃ b ∈ held, x ∈ Set.Icc b.1 b.2} := by
            rw [p1]
            ext y
            have : (∃ b ∈ held, y ∈ Set.Icc b.1 b.2) ↔ ∃ b ∈ (l, u) :: held.erase (l, u), y ∈ Set.Icc b.1 b.2 :=
              exists_congr fun b => and_congr_left fun _ => hperm.mem_iff
            simp only [Set.mem_union, Set.mem_ofPred_eq, this, List.exists_mem_cons_iff]
            tauto
          rw [this]; exact h3 x
  refine all cs s [] os hs (by simp) (by simp) (fun x => ?_) h ho
  simpa using hm x

/-- Blocks of two and three numbers, given back in another order. -/
example : ∃ os F, (∀ x, ¬ MissingAlone ((Selection.full : Selection U8).pts true) x) ∧
    HeapRun ((Selection.full : Selection U8).pts true) [.take (u8 1), .take (u8 2), .give (u8 0) (u8 1), .take (u8 2),
      .give (u8 2) (u8 4), .take (u8 1)] os F ∧
    os = [some (u8 0, u8 1), some (u8 2, u8 4), none, some (u8 5, u8 7), none, some (u8 0, u8 1)] ∧
    HeapCall.Orderly [] [.take (u8 1), .take (u8 2), .give (u8 0) (u8 1), .take (u8 2), .give (u8 2) (u8 4),
      .take (u8 1)] os := by
  obtain ⟨os, s', e, -, r⟩ := C131_by_complement true (Selection.full : Selection U8) (.built .full)
    [.take (u8 1), .take (u8 2), .give (u8 0) (u8 1), .take (u8 2), .give (u8 2) (u8 4), .take (u8 1)]
  have e' : ((Selection.full : Selection U8).heap (.byComplement true) true
    [.take (u8 1), .take (u8 2), .give (u8 0) (u8 1), .take (u8 2), .give (u8 2) (u8 4), .take (u8 1)]).map (·.1) =
    .ok [some (u8 0, u8 1), some (u8 2, u8 4), none, some (u8 5, u8 7), none, some (u8 0, u8 1)] := by decide
  rw [e] at e'
  obtain rfl : os = _ := by simpa [Except.map] using e'
  refine ⟨_, _, fun x h => h.1 (by rw [(C48_start true _ (.mkClosed (u8 0) (u8 0))).2.1]; trivial), r, rfl, by simp [HeapCall.Orderly]; decide⟩

/-- Nothing begins right after a value that is not in. -/
def TT.Shut (t : TineTree (MInt 0 hi)) : Prop := ∀ x, TT.at' t x = false → TT.tcov t true (.fin x) = false

theorem Selection.ic_after (l u x : MInt 0 hi) : Selection.ic (.mkClosed l u) true (.fin x) = true ↔
    x ∈ Set.Icc l u ∨ ∃ y, succ x = some y ∧ y ∈ Set.Icc l u := by
  have h1 : TT.DO (Tine.fromRawInterval (Interval.mkClosed l u).raw.denormalized) := by
    rw [← Selection.ofInterval_tree (.mkClosed l u)]
    exact Selection.UnionBuilt.do (.ofInterval (.mkClosed l u) (Interval.mkClosed_real l u))
  have h2 : ∀ y, TT.at' (Tine.fromRawInterval (Interval.mkClosed l u).raw.denormalized) y = true ↔ y ∈ Set.Icc l u := by
    intro y
    rw [← Interval.closed_pts]
    exact Bool.eq_iff_iff.1 (Selection.ic_fin (.mkClosed l u) y)
  have h3 : Selection.ic (.mkClosed l u) true (.fin x) = _ := h1.1 x
  rw [h3, Bool.or_eq_true, h2]
  cases succ x <;> simp [h2]

theorem TT.Shut.minus (dbg : Bool) {s : Selection (MInt 0 hi)} (hs : s.Edited) (h : Shut s.tree) (l u : MInt 0 hi) :
    ∃ s', s.minusInPlace dbg (.mkClosed l u) = .ok s' ∧ s'.Edited ∧ Shut s'.tree ∧
      s'.pts dbg = s.pts dbg \ Set.Icc l u := by
  have v := Selection.reachable_valid hs.reachable_crisp.1
  obtain ⟨s', e, p⟩ := (C50_exact_any dbg s hs.reachable_crisp.1 (.mkClosed l u) (.mkClosed l u)).2 fun x hx => by
    rw [Selection.pinhole_iff dbg v, holeAt] at hx
    simp only [Bool.and_eq_true, Bool.not_eq_true'] at hx
    rw [h x hx.1.2] at hx
    simp at hx
  obtain ⟨s1, e1, -, c⟩ := Selection.minusInPlace_ok dbg v (.mkClosed l u)
  rw [e] at e1; cases e1
  rw [Interval.closed_pts] at p
  refine ⟨s', e, .minusInPlace hs (.mkClosed l u) (Interval.mkClosed_real l u) e, fun x hx => ?_, p⟩
  rw [c]
  simp only [Bool.not_true, Bool.false_and, Bool.or_false, Bool.and_eq_false_iff, Bool.not_eq_false']
  have k' := Selection.mem_pts dbg (Selection.reachable_valid (.minusInPlace hs.reachable_crisp.1 (.mkClosed l u) e)) x
  have k := Selection.mem_pts dbg v x
  by_cases hi : x ∈ Set.Icc l u
  · exact .inr ((Selection.ic_after l u x).2 (.inl hi))
  · refine .inl (h x ?_)
    rw [← Bool.not_eq_true, ← k]
    rw [← Bool.not_eq_true, ← k', p] at hx
    exact fun h => hx ⟨h, hi⟩

theorem TT.Shut.union (dbg : Bool) {s : Selection (MInt 0 hi)} (hs : s.Edited) (h : Shut s.tree) (l u : MInt 0 hi)
    (hl : ∀ x, succ x = some l → x ∈ s.pts dbg) :
    ∃ s', s.unionInPlace dbg (.mkClosed l u) = .ok s' ∧ s'.Edited ∧ Shut s'.tree ∧
      s'.pts dbg = s.pts dbg ∪ Set.Icc l u := by
  have v := Selection.reachable_valid hs.reachable_crisp.1
  obtain ⟨s', e, k, p⟩ := s.put_block dbg l u hs
  obtain ⟨s1, e1, -, c⟩ := Selection.unionInPlace_ok dbg v (.mkClosed l u)
  rw [e] at e1; cases e1
  refine ⟨s', e, k, fun x hx => ?_, p⟩
  have k' := Selection.mem_pts dbg (Selection.reachable_valid k.reachable_crisp.1) x
  have k := Selection.mem_pts dbg v x
  rw [← Bool.not_eq_true, ← k', p] at hx
  have hs' : x ∉ s.pts dbg := fun h => hx (.inl h)
  rw [c, h x (by rw [← Bool.not_eq_true, ← k]; exact hs'), Bool.false_or, ← Bool.not_eq_true, Selection.ic_after]
  rintro (h | ⟨y, hy, h⟩)
  · exact hx (.inr h)
  · obtain ⟨g1, g2⟩ := LawfulFinite.succ_some x y hy
    rcases lt_or_ge x l with g | g
    · exact hs' (hl x (by rw [hy, le_antisymm (g2 l g) h.1]))
    · exact hx (.inr ⟨g, g1.le.trans h.2⟩)

/-- The numbers in use kept, as `complement` of those free at first: right, whatever the calls, though blocks are put
back by `minus_in_place`. -/
theorem C131_used (dbg : Bool) (free s : Selection (MInt 0 hi)) (hf : free.UnionBuilt) (hs : free.complement dbg = .ok s)
    (cs : List (HeapCall (MInt 0 hi))) :
    ∃ os s', s.heap (.used dbg) dbg cs = .ok (os, s') ∧ s'.Edited ∧ HeapRun (free.pts dbg) cs os (s'.pts dbg)ᶜ := by
  have all : ∀ s : Selection (MInt 0 hi), s.Edited → TT.Shut s.tree →
      ∃ os s', s.heap (.used dbg) dbg cs = .ok (os, s') ∧ s'.Edited ∧ HeapRun (s.pts dbg)ᶜ cs os (s'.pts dbg)ᶜ := by
    induction cs with
    | nil => exact fun s hs _ => ⟨[], s, rfl, hs, .nil _⟩
    | cons c cs ih =>
      intro s hs hk
      cases c with
      | take n =>
        obtain ⟨c, ec, -, pc⟩ := Selection.complement_right dbg s hs.reachable_crisp.1
        have kc : c.Edited := .complement hs ec
        rcases C131_first_fit dbg c kc n with ⟨l, u, e, hf, hm⟩ | ⟨e, hf⟩
        · rw [pc] at hf hm
          obtain ⟨s1, e1, k1, t1, p1⟩ := hk.union dbg hs l u fun x hx => by
            by_contra hc
            obtain ⟨g1, g2⟩ := LawfulFinite.succ_some x l hx
            have n0 := n.2.1
            have hfu := hf.1
            have hl2 : x.1 < l.1 := g1
            have hu : 0 ≤ u.1 - 1 ∧ u.1 - 1 ≤ hi := by have := x.2.1; have := u.2.2; omega
            have g3 : l.1 = x.1 + 1 := by
              have : l.1 ≤ x.1 + 1 := g2 ⟨x.1 + 1, by have := x.2.1; have := l.2.2; omega⟩ (by change x.1 < x.1 + 1; omega)
              omega
            refine absurd (hm x ⟨u.1 - 1, hu⟩ ⟨?_, fun y hy => ?_⟩) (not_le.2 g1)
            · change u.1 - 1 = x.1 + n.1; omega
            · rcases eq_or_lt_of_le hy.1 with h | h
              · rw [← h]; exact hc
              · refine hf.2 ⟨g2 y h, ?_⟩
                have : y.1 ≤ u.1 - 1 := hy.2
                change y.1 ≤ u.1; omega
          obtain ⟨os, s', e', k, r⟩ := ih s1 k1 t1
          refine ⟨some (l, u) :: os, s', ?_, k, .take hf hm ?_⟩
          · simp only [Selection.heap, Keeping.used, ec, e, e1, bind, Except.bind] at e' ⊢; simp only [e']; rfl
          · rw [p1, Set.compl_union] at r; exact r
        · rw [pc] at hf
          obtain ⟨os, s', e', k, r⟩ := ih s hs hk
          refine ⟨none :: os, s', ?_, k, .out hf r⟩
          simp only [Selection.heap, Keeping.used, ec, e, bind, Except.bind] at e' ⊢; simp only [e']; rfl
      | give l u =>
        obtain ⟨s1, e1, k1, t1, p1⟩ := hk.minus dbg hs l u
        obtain ⟨os, s', e', k, r⟩ := ih s1 k1 t1
        refine ⟨none :: os, s', ?_, k, .give ?_⟩
        · simp only [Selection.heap, Keeping.used, e1, bind, Except.bind] at e' ⊢; simp only [e']; rfl
        · rw [p1, Set.sdiff_eq, Set.compl_inter, compl_compl] at r; exact r
  obtain ⟨c, ec, -, pc⟩ := Selection.complement_right dbg free (Selection.Edited.built hf).reachable_crisp.1
  rw [hs] at ec; cases ec
  have := all s (.complement (.built hf) hs) fun x hx => by
    rw [(Selection.compl_co hf hs).1, hx, Bool.false_and]
  rwa [pc, compl_compl] at this

/-- At first all numbers are free, and the calls are those that go wrong with the free numbers kept. -/
example : (Selection.full : Selection U8).UnionBuilt ∧ (Selection.full : Selection U8).complement true = .ok .new ∧
    ((Selection.new : Selection U8).heap (.used true) true [.take (u8 0), .take (u8 0), .take (u8 0),
      .give (u8 0) (u8 0), .give (u8 2) (u8 2), .take (u8 1), .take (u8 0), .take (u8 0)]).map (·.1) =
      .ok [some (u8 0, u8 0), some (u8 1, u8 1), some (u8 2, u8 2), none, none, some (u8 2, u8 3), some (u8 0, u8 0),
        some (u8 4, u8 4)] :=
  ⟨.full, by decide, by decide⟩

/-- It is not right if the numbers in use at first come from `union_in_place`: 3 to 5 are in use, the users take and give
back 0 and 1, and then 2 is lost. -/
theorem C131_used_counterexample (dbg : Bool) :
    ((Selection.demo [(u8 3, u8 5)]).heap (.used dbg) dbg [.take (u8 1), .give (u8 0) (u8 1), .take (u8 2)]).map (·.1) =
      .ok [some (u8 0, u8 1), none, some (u8 6, u8 8)] ∧
    ∃ s, (Selection.demo [(u8 0, u8 2), (u8 6, u8 255)]).complement dbg = .ok s ∧
      (s.heap (.used dbg) dbg [.take (u8 1), .give (u8 0) (u8 1), .take (u8 2)]).map (·.1) =
        .ok [some (u8 0, u8 1), none, some (u8 0, u8 2)] := by
  cases dbg <;> exact ⟨by decide, _, rfl, by decide⟩
end

end NI
