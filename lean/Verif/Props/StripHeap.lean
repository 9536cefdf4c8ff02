import Verif.SpecHeapCalls
import Verif.Props.StripFree
import Verif.Props.Heap

/-! # Handing out blocks, taken out in place: exactly when it goes wrong (C131) -/

set_option linter.unusedVariables false
set_option linter.unusedSectionVars false

namespace NI
open _root_.NI.Finite TT

section
variable {α : Type} [LinearOrder α] [Finite α]

theorem SparseCalls.NeverCut.prefix {A B : SparseCalls α} (h : SparseCalls.NeverCut (A ++ B)) : A.NeverCut :=
  fun C D j hj => h C (D ++ B) j (by rw [hj]; simp)

theorem SparseCalls.NeverCut.no_cut {cs : SparseCalls α} (h : cs.NeverCut) (y : α) : ¬ cs.Cut y :=
  fun ⟨A, B, i, e, hc, _⟩ => h A B i e y hc

theorem SparseCalls.runFree_snoc (dbg : Bool) (cs : SparseCalls α) (i : Interval α) (b : Bool) {s : Selection α} (e : cs.runFree dbg = .ok s) :
    SparseCalls.runFree dbg (cs ++ [(i, b)]) = if b then s.minusInPlace dbg i else s.unionInPlace dbg i := by
  rw [SparseCalls.runFree, List.foldlM_append]
  change SparseCalls.runFree dbg cs >>= _ = _
  rw [e]
  cases b
  · show (s.unionInPlace dbg i >>= _) = s.unionInPlace dbg i
    cases s.unionInPlace dbg i <;> rfl
  · show (s.minusInPlace dbg i >>= _) = s.minusInPlace dbg i
    cases s.minusInPlace dbg i <;> rfl

theorem SparseCalls.there_snoc (cs : SparseCalls α) (i : Interval α) (b : Bool) :
    SparseCalls.there (cs ++ [(i, b)]) = if b then cs.there ∪ i.pts else cs.there \ i.pts := by
  rw [SparseCalls.there, List.foldl_append]; rfl
end

variable {hi : Int} [Fact (0 ≤ hi)]

theorem Selection.heap_run (dbg : Bool) (cs : List (HeapCall (MInt 0 hi))) (os : List (Option (MInt 0 hi × MInt 0 hi))) (F : Set (MInt 0 hi))
    (a : SparseCalls (MInt 0 hi)) (s : Selection (MInt 0 hi)) (ha : ∀ c ∈ a, c.1.Obtainable ∧ c.1.Real) (e : a.runFree dbg = .ok s)
    (he : s.Edited) (h : HeapRun a.thereᶜ cs os F) (hn : SparseCalls.NeverCut (a ++ heapCalls cs os)) :
    ∃ s', s.heap (.inPlace dbg) dbg cs = .ok (os, s') ∧ s'.Edited ∧ SparseCalls.runFree dbg (a ++ heapCalls cs os) = .ok s' ∧
      F = (SparseCalls.there (a ++ heapCalls cs os))ᶜ ∧ ∀ c ∈ a ++ heapCalls cs os, c.1.Obtainable ∧ c.1.Real := by
  induction cs generalizing os a s with
  | nil =>
    cases h
    simp only [heapCalls, List.append_nil]
    exact ⟨s, rfl, he, e, trivial, ha⟩
  | cons c cs ih =>
    obtain ⟨_, e', -, -, -, k⟩ := C157_every dbg a ha
    rw [e] at e'; cases e'
    have kp : s.pts dbg = a.thereᶜ := k.2 hn.prefix.no_cut
    have snoc : ∀ l u b, ∀ d ∈ a ++ [((.mkClosed l u : Interval (MInt 0 hi)), b)], d.1.Obtainable ∧ d.1.Real := fun l u b d hd => by
      rcases List.mem_append.1 hd with hd | hd
      · exact ha d hd
      · rw [List.mem_singleton] at hd; subst hd; exact ⟨.mkClosed l u, Interval.mkClosed_real l u⟩
    cases h with
    | @take _ n l u _ os _ hf hm h =>
      have ef : s.firstFit dbg n = .ok (some (l, u)) := by
        rcases C131_first_fit dbg s he n with ⟨l', u', e', hf', hm'⟩ | ⟨-, hf'⟩
        · rw [kp] at hf' hm'
          have h1 : l' = l := le_antisymm (hm' l u hf) (hm l' u' hf')
          subst h1
          have h2 : u' = u := Subtype.ext (hf'.1.trans hf.1.symm)
          rw [e', h2]
        · rw [kp] at hf'; exact absurd hf (hf' l u)
      obtain ⟨s1, e1⟩ : ∃ s1, s.minusInPlace dbg (.mkClosed l u) = .ok s1 := by
        obtain ⟨s1, e1, -⟩ := C157_every dbg (a ++ [(.mkClosed l u, true)]) (snoc l u true)
        rw [SparseCalls.runFree_snoc dbg a _ true e] at e1
        exact ⟨s1, e1⟩
      obtain ⟨s', e2, p⟩ := ih os (a ++ [(.mkClosed l u, true)]) s1 (snoc l u true) (by rw [SparseCalls.runFree_snoc dbg a _ true e]; exact e1)
        (.minusInPlace he (.mkClosed l u) (Interval.mkClosed_real l u) e1)
        (by rw [SparseCalls.there_snoc, if_pos rfl, Set.compl_union, Interval.closed_pts]; exact h) (by rw [List.append_assoc]; exact hn)
      rw [List.append_assoc] at p
      refine ⟨s', ?_, p⟩
      simp only [Selection.heap, Keeping.inPlace, ef, e1, bind, Except.bind] at e2 ⊢
      rw [e2]; rfl
    | @out _ n _ os _ hf h =>
      have ef : s.firstFit dbg n = .ok none := by
        rcases C131_first_fit dbg s he n with ⟨l', u', e', hf', hm'⟩ | ⟨e', -⟩
        · rw [kp] at hf'; exact absurd hf' (hf l' u')
        · exact e'
      obtain ⟨s', e2, p⟩ := ih os a s ha e he h hn
      refine ⟨s', ?_, p⟩
      simp only [Selection.heap, Keeping.inPlace, ef, bind, Except.bind] at e2 ⊢
      rw [e2]; rfl
    | @give _ l u _ os _ h =>
      obtain ⟨s1, e1, he1, -⟩ := s.put_block dbg l u he
      obtain ⟨s', e2, p⟩ := ih os (a ++ [(.mkClosed l u, false)]) s1 (snoc l u false) (by rw [SparseCalls.runFree_snoc dbg a _ false e]; exact e1) he1
        (by
          have : (SparseCalls.there (a ++ [(Interval.mkClosed l u, false)]))ᶜ = a.thereᶜ ∪ Set.Icc l u := by
            rw [SparseCalls.there_snoc, if_neg Bool.false_ne_true, Interval.closed_pts]
            ext x; simp only [Set.mem_compl_iff, Set.mem_sdiff, Set.mem_union]; tauto
          rw [this]; exact h) (by rw [List.append_assoc]; exact hn)
      rw [List.append_assoc] at p
      refine ⟨s', ?_, p⟩
      simp only [Selection.heap, Keeping.inPlace, e1, bind, Except.bind] at e2 ⊢
      rw [e2]; rfl

/-- **C131.**  Free numbers kept, at first all, blocks taken out by `minus_in_place`: the answers are right as long as no block is handed out
that cuts. -/
theorem C131_in_place (dbg : Bool) (cs : List (HeapCall (MInt 0 hi))) (os : List (Option (MInt 0 hi × MInt 0 hi))) (F : Set (MInt 0 hi))
    (h : HeapRun Set.univ cs os F) (hn : (heapCalls cs os).NeverCut) :
    ∃ s, (Selection.full : Selection (MInt 0 hi)).heap (.inPlace dbg) dbg cs = .ok (os, s) ∧ s.pts dbg = F := by
  obtain ⟨s, e, -, er, hF, hr⟩ := Selection.heap_run dbg cs os F [] .full (fun _ h => nomatch h) rfl (.built .full)
    (by simpa [SparseCalls.there] using h) hn
  obtain ⟨_, e', -, -, -, k⟩ := C157_every dbg _ hr
  rw [er] at e'; cases e'
  exact ⟨s, e, by rw [k.2 fun y => SparseCalls.NeverCut.no_cut hn y, hF]⟩

theorem Selection.heap_append (k : Keeping (MInt 0 hi)) (dbg : Bool) (cs ds : List (HeapCall (MInt 0 hi))) (s s1 s2 : Selection (MInt 0 hi))
    (os os' : List (Option (MInt 0 hi × MInt 0 hi))) (h1 : s.heap k dbg cs = .ok (os, s1)) (h2 : s1.heap k dbg ds = .ok (os', s2)) :
    s.heap k dbg (cs ++ ds) = .ok (os ++ os', s2) := by
  induction cs generalizing s os with
  | nil => cases h1; exact h2
  | cons c cs ih =>
    cases c with
    | take n =>
      simp only [Selection.heap, List.cons_append, bind, Except.bind] at h1 ⊢
      cases ek : k.free s with
      | error p => simp [ek] at h1
      | ok f =>
        simp only [ek] at h1 ⊢
        cases ef : f.firstFit dbg n with
        | error p => simp [ef] at h1
        | ok r =>
          simp only [ef] at h1 ⊢
          cases r with
          | none =>
            cases e : s.heap k dbg cs with
            | error p => simp [e] at h1
            | ok r =>
              obtain ⟨o, s'⟩ := r
              simp only [e, pure, Except.pure, Except.ok.injEq, Prod.mk.injEq] at h1
              obtain ⟨rfl, rfl⟩ := h1
              simp only [ih s o e]; rfl
          | some b =>
            obtain ⟨l, u⟩ := b
            cases et : k.takeOut s (.mkClosed l u) with
            | error p => simp [et] at h1
            | ok s0 =>
              cases e : s0.heap k dbg cs with
              | error p => simp [et, e] at h1
              | ok r =>
                obtain ⟨o, s'⟩ := r
                simp only [et, e, pure, Except.pure, Except.ok.injEq, Prod.mk.injEq] at h1
                obtain ⟨rfl, rfl⟩ := h1
                simp only [et, ih s0 o e]; rfl
    | give l u =>
      simp only [Selection.heap, List.cons_append, bind, Except.bind] at h1 ⊢
      cases et : k.putBack s (.mkClosed l u) with
      | error p => simp [et] at h1
      | ok s0 =>
        cases e : s0.heap k dbg cs with
        | error p => simp [et, e] at h1
        | ok r =>
          obtain ⟨o, s'⟩ := r
          simp only [et, e, pure, Except.pure, Except.ok.injEq, Prod.mk.injEq] at h1
          obtain ⟨rfl, rfl⟩ := h1
          simp only [ih s0 o e]; rfl

/-- **C131.**  The first block handed out that cuts, at `y`, is still right, but then `y`, that is in use, counts as free. -/
theorem C131_in_place_wrong (dbg : Bool) (cs : List (HeapCall (MInt 0 hi))) (os : List (Option (MInt 0 hi × MInt 0 hi))) (F : Set (MInt 0 hi))
    (h : HeapRun Set.univ cs os F) (hn : (heapCalls cs os).NeverCut) (n l u y : MInt 0 hi) (hf : Fits F n l u)
    (hm : ∀ l' u', Fits F n l' u' → l ≤ l') (hy : (heapCalls cs os).CutAt (.mkClosed l u) y) :
    ∃ s, (Selection.full : Selection (MInt 0 hi)).heap (.inPlace dbg) dbg (cs ++ [.take n]) = .ok (os ++ [some (l, u)], s) ∧
      y ∈ s.pts dbg ∧ y ∉ F := by
  obtain ⟨s, e, he, er, hF, hr⟩ := Selection.heap_run dbg cs os F [] .full (fun _ h => nomatch h) rfl (.built .full)
    (by simpa [SparseCalls.there] using h) hn
  simp only [List.nil_append] at er hF hr
  obtain ⟨_, e', -, -, -, k⟩ := C157_every dbg _ hr
  rw [er] at e'; cases e'
  have kp : s.pts dbg = F := by rw [k.2 fun y => SparseCalls.NeverCut.no_cut hn y, hF]
  have ef : s.firstFit dbg n = .ok (some (l, u)) := by
    rcases C131_first_fit dbg s he n with ⟨l', u', e', hf', hm'⟩ | ⟨-, hf'⟩
    · rw [kp] at hf' hm'
      have h1 : l' = l := le_antisymm (hm' l u hf) (hm l' u' hf')
      subst h1
      have h2 : u' = u := Subtype.ext (hf'.1.trans hf.1.symm)
      rw [e', h2]
    · rw [kp] at hf'; exact absurd hf (hf' l u)
  obtain ⟨s1, e1, -, p1, -⟩ := C157_every dbg (heapCalls cs os ++ [(.mkClosed l u, true)]) (by
    intro d hd
    rcases List.mem_append.1 hd with hd | hd
    · exact hr d hd
    · rw [List.mem_singleton] at hd; subst hd; exact ⟨.mkClosed l u, Interval.mkClosed_real l u⟩)
  rw [SparseCalls.runFree_snoc dbg _ _ true er] at e1
  have e1 : s.minusInPlace dbg (.mkClosed l u) = .ok s1 := e1
  refine ⟨s1, Selection.heap_append _ dbg cs [.take n] _ s s1 os [some (l, u)] e ?_, ?_, ?_⟩
  · simp only [Selection.heap, Keeping.inPlace, ef, e1, bind, Except.bind]; rfl
  · rw [p1]
    exact .inr ⟨_, [], _, rfl, hy, fun c hc => nomatch hc⟩
  · obtain ⟨x, z, -, -, -, -, h3, -⟩ := hy
    rw [hF, Set.mem_compl_iff, not_not, SparseCalls.mem_there]
    exact h3

theorem SparseCalls.never_cut_of {A B : SparseCalls (MInt 0 hi)} (hA : ∀ c ∈ A, c.2 = true) (hB : ∀ c ∈ B, c.2 = false) :
    SparseCalls.NeverCut (A ++ B) := by
  rintro C D i e y ⟨x, z, -, -, -, -, h3, h4, -⟩
  have hC : ∀ c ∈ C, c.2 = true := by
    rcases List.append_eq_append_iff.1 e with ⟨E, rfl, e2⟩ | ⟨E, rfl, e2⟩
    · exact absurd (hB (i, true) (by rw [e2]; simp)) (by simp)
    · exact fun c hc => hA c (List.mem_append_left _ hc)
  rw [SparseCalls.written_any hC, List.any_eq_true] at h3
  obtain ⟨c, hc, h⟩ := h3
  rw [SparseCalls.written_any hC, List.any_eq_false] at h4
  exact h4 c hc (by simp [h])

/-- 0, 1 and 2 are handed out one by one and 0 and 2 given back: then handing out 0 cuts, at 1. -/
example : ∃ F, HeapRun Set.univ [.take (u8 0), .take (u8 0), .take (u8 0), .give (u8 0) (u8 0), .give (u8 2) (u8 2)]
      [some (u8 0, u8 0), some (u8 1, u8 1), some (u8 2, u8 2), none, none] F ∧
    (heapCalls [.take (u8 0), .take (u8 0), .take (u8 0), .give (u8 0) (u8 0), .give (u8 2) (u8 2)]
      [some (u8 0, u8 0), some (u8 1, u8 1), some (u8 2, u8 2), none, none]).NeverCut ∧
    (heapCalls [.take (u8 0), .take (u8 0), .take (u8 0), .give (u8 0) (u8 0), .give (u8 2) (u8 2)]
      [some (u8 0, u8 0), some (u8 1, u8 1), some (u8 2, u8 2), none, none]).CutAt (.mkClosed (u8 0) (u8 0)) (u8 1) := by
  obtain ⟨os, s, e, -, h⟩ := C131_by_complement true (Selection.full : Selection U8) (.built .full)
    [.take (u8 0), .take (u8 0), .take (u8 0), .give (u8 0) (u8 0), .give (u8 2) (u8 2)]
  have eo : (do return (← (Selection.full : Selection U8).heap (.byComplement true) true
      [.take (u8 0), .take (u8 0), .take (u8 0), .give (u8 0) (u8 0), .give (u8 2) (u8 2)]).1) =
      .ok [some (u8 0, u8 0), some (u8 1, u8 1), some (u8 2, u8 2), none, none] := by decide
  rw [e] at eo
  have eo : os = _ := Except.ok.inj eo
  have eu : (Selection.full : Selection U8).pts true = Set.univ := by
    obtain ⟨_, e, -, -, -, k⟩ := C157_every true ([] : SparseCalls U8) (fun _ h => nomatch h)
    cases e
    rw [k.2 fun y => SparseCalls.NeverCut.no_cut (fun A B i e => by simp at e) y]
    simp [SparseCalls.there]
  rw [eo, eu] at h
  refine ⟨_, h, SparseCalls.never_cut_of (A := [(.mkClosed (u8 0) (u8 0), true), (.mkClosed (u8 1) (u8 1), true), (.mkClosed (u8 2) (u8 2), true)])
    (B := [(.mkClosed (u8 0) (u8 0), false), (.mkClosed (u8 2) (u8 2), false)]) (by decide) (by decide),
    u8 0, u8 2, by decide, by decide, by decide, by decide, by decide, by decide, by decide⟩

end NI
