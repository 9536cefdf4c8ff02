import Verif.SpecDiary
import Verif.Props.StripSparse
import Verif.Props.Calendar

/-! # A calendar with cancellations (C125) -/

set_option linter.unusedVariables false
set_option linter.unusedSectionVars false

namespace NI
open _root_.NI.Finite TT
variable {α : Type} [LinearOrder α] [Finite α] [LawfulFinite α]

theorem Selection.taken_iff (dbg : Bool) (s : Selection α) (hs : s.Reachable) (i : Interval α) (hi : i.Obtainable) :
    ∃ t, s.takenByIntervals dbg i = .ok t ∧ (t = true ↔ Overlapping (s.pts dbg) i.pts) := by
  obtain ⟨js, e, hj, -, hx⟩ := C56_cover_partial dbg s hs
  refine ⟨js.any fun b => b.intersects i, by rw [Selection.takenByIntervals, e]; rfl, ?_⟩
  rw [List.any_eq_true]
  constructor
  · rintro ⟨j, hm, h⟩
    obtain ⟨x, h1, h2⟩ := (C29_intersects j i (hj j hm) hi).1 h
    exact ⟨x, (hx x).2 ⟨j, hm, h1⟩, h2⟩
  · rintro ⟨x, h1, h2⟩
    obtain ⟨j, hm, h⟩ := (hx x).1 h1
    exact ⟨j, hm, (C29_intersects j i (hj j hm) hi).2 ⟨x, h, h2⟩⟩

omit [LawfulFinite α] in
theorem SparseCalls.Careful.prefix {A B : SparseCalls α} (h : SparseCalls.Careful (A ++ B)) : A.Careful :=
  fun C D j hj => h C (D ++ B) j (by rw [hj]; simp)

omit [LawfulFinite α] in
theorem Diary.extends {b : SparseCalls α} {cs os b'} (h : Diary b cs os b') : ∃ B, b' = b ++ B := by
  induction h with
  | nil b => exact ⟨[], by simp⟩
  | accept _ _ ih => obtain ⟨B, rfl⟩ := ih; exact ⟨_, List.append_assoc _ _ _⟩
  | refuse _ _ ih => exact ih
  | cancel _ ih => obtain ⟨B, rfl⟩ := ih; exact ⟨_, List.append_assoc _ _ _⟩

omit [LawfulFinite α] in
theorem SparseCalls.run_snoc (dbg : Bool) (cs : SparseCalls α) (i : Interval α) (b : Bool) {s : Selection α} (e : cs.run dbg = .ok s) :
    SparseCalls.run dbg (cs ++ [(i, b)]) = if b then s.unionInPlace dbg i else s.minusInPlace dbg i := by
  rw [SparseCalls.run, List.foldlM_append]
  change SparseCalls.run dbg cs >>= _ = _
  rw [e]
  cases b
  · show (s.minusInPlace dbg i >>= _) = s.minusInPlace dbg i
    cases s.minusInPlace dbg i <;> rfl
  · show (s.unionInPlace dbg i >>= _) = s.unionInPlace dbg i
    cases s.unionInPlace dbg i <;> rfl

omit [LawfulFinite α] in
/-- What should become of the calls is determined. -/
theorem Diary.total (b : SparseCalls α) (cs : List (DiaryCall α)) : ∃! r : List Bool × SparseCalls α, Diary b cs r.1 r.2 := by
  induction cs generalizing b with
  | nil => exact ⟨([], b), .nil b, fun r h => by cases r; cases h; rfl⟩
  | cons c cs ih =>
    cases c with
    | request i =>
      by_cases ho : Overlapping b.there i.pts
      · obtain ⟨⟨os, b'⟩, h, u⟩ := ih b
        refine ⟨(false :: os, b'), .refuse ho h, ?_⟩
        rintro ⟨_, _⟩ h'
        cases h' with
        | accept n _ => exact absurd ho n
        | refuse _ h' => cases u (_, _) h'; rfl
      · obtain ⟨⟨os, b'⟩, h, u⟩ := ih (b ++ [(i, true)])
        refine ⟨(true :: os, b'), .accept ho h, ?_⟩
        rintro ⟨_, _⟩ h'
        cases h' with
        | accept _ h' => cases u (_, _) h'; rfl
        | refuse n _ => exact absurd n ho
    | cancel i =>
      obtain ⟨⟨os, b'⟩, h, u⟩ := ih (b ++ [(i, false)])
      refine ⟨(os, b'), .cancel h, ?_⟩
      rintro ⟨_, _⟩ h'
      cases h' with
      | cancel h' => cases u (_, _) h'; rfl

/-- As long as no bridged interval is cancelled the calendar is run as it should be. -/
theorem Selection.diary_run (dbg : Bool) (cs : List (DiaryCall α)) (hc : ∀ c ∈ cs, c.interval.Obtainable ∧ c.interval.Real) (os : List Bool)
    (b : SparseCalls α) (hb : b.Careful) (a : SparseCalls α) (s : Selection α) (ha : ∀ c ∈ a, c.1.Obtainable ∧ c.1.Real)
    (e : a.run dbg = .ok s) (h : Diary a cs os b) :
    ∃ s', s.diary dbg cs = .ok (os, s') ∧ b.run dbg = .ok s' ∧ ∀ c ∈ b, c.1.Obtainable ∧ c.1.Real := by
  induction cs generalizing os a s with
  | nil => cases h; exact ⟨s, rfl, e, ha⟩
  | cons c cs ih =>
    have ih := ih fun c h => hc c (.tail _ h)
    obtain ⟨hi, hr⟩ := hc c (.head _)
    obtain ⟨B, hB⟩ := h.extends
    obtain ⟨_, e', r, k⟩ := C156_exact dbg _ ha
    rw [e] at e'; cases e'
    have kp := (k (hB ▸ hb).prefix).1
    have snoc : ∀ b, ∀ d ∈ a ++ [(c.interval, b)], d.1.Obtainable ∧ d.1.Real := fun b d hd => by
      rcases List.mem_append.1 hd with hd | hd
      · exact ha d hd
      · rw [List.mem_singleton] at hd; subst hd; exact ⟨hi, hr⟩
    cases h with
    | @accept _ i _ os _ ho h =>
      obtain ⟨t, et, ht⟩ := Selection.taken_iff dbg s r i hi
      rw [kp] at ht
      have ht : t = false := Bool.eq_false_iff.2 fun x => ho (ht.1 x)
      obtain ⟨s1, e1, r1, -⟩ := C48_union_in_place dbg s r i hi
      obtain ⟨s', e2, p⟩ := ih os (a ++ [(i, true)]) s1 (snoc true) (by rw [SparseCalls.run_snoc dbg a i true e]; exact e1) h
      refine ⟨s', ?_, p⟩
      simp only [Selection.diary, et, ht, e1, e2, bind, Except.bind]; rfl
    | @refuse _ i _ os _ ho h =>
      obtain ⟨t, et, ht⟩ := Selection.taken_iff dbg s r i hi
      rw [kp] at ht
      obtain ⟨s', e2, p⟩ := ih os a s ha e h
      refine ⟨s', ?_, p⟩
      simp only [Selection.diary, et, ht.2 ho, e2, bind, Except.bind]; rfl
    | @cancel _ i _ _ _ h =>
      obtain ⟨s1, e1, -, -⟩ := (k (hB ▸ hb).prefix).2 i hi hr
      obtain ⟨s', e2, p⟩ := ih os (a ++ [(i, false)]) s1 (snoc false) (by rw [SparseCalls.run_snoc dbg a i false e]; exact e1) h
      refine ⟨s', ?_, p⟩
      simp only [Selection.diary, e1, e2, bind, Except.bind]

/-- **C125**, with cancellations: as long as no bridged interval is cancelled the answers are as they should be, and what is booked too. -/
theorem C125_cancel (dbg : Bool) (cs : List (DiaryCall α)) (hc : ∀ c ∈ cs, c.interval.Obtainable ∧ c.interval.Real) (os : List Bool)
    (b : SparseCalls α) (h : Diary [] cs os b) (hb : b.Careful) :
    ∃ s, Selection.new.diary dbg cs = .ok (os, s) ∧ s.pts dbg = b.there := by
  obtain ⟨s, e, er, hr⟩ := Selection.diary_run dbg cs hc os b hb [] .new (by simp) rfl h
  obtain ⟨_, e', -, k⟩ := C156_exact dbg _ hr
  rw [er] at e'; cases e'
  exact ⟨s, e, (k hb).1⟩

omit [LawfulFinite α] in
theorem Selection.diary_append (dbg : Bool) (cs ds : List (DiaryCall α)) (s s1 s2 : Selection α) (os os' : List Bool)
    (h1 : s.diary dbg cs = .ok (os, s1)) (h2 : s1.diary dbg ds = .ok (os', s2)) : s.diary dbg (cs ++ ds) = .ok (os ++ os', s2) := by
  induction cs generalizing s os with
  | nil => cases h1; exact h2
  | cons c cs ih =>
    cases c with
    | request i =>
      simp only [Selection.diary, List.cons_append, bind, Except.bind] at h1 ⊢
      cases et : s.takenByIntervals dbg i with
      | error p => rw [et] at h1; cases h1
      | ok t =>
        rw [et] at h1
        cases t with
        | true =>
          cases e : s.diary dbg cs with
          | error p => simp [e] at h1
          | ok r =>
            obtain ⟨o, s'⟩ := r
            simp only [e, if_true, pure, Except.pure, Except.ok.injEq, Prod.mk.injEq] at h1
            obtain ⟨rfl, rfl⟩ := h1
            simp only [if_true, ih s o e]; rfl
        | false =>
          cases eu : s.unionInPlace dbg i with
          | error p => simp [eu] at h1
          | ok s0 =>
            cases e : s0.diary dbg cs with
            | error p => simp [eu, e] at h1
            | ok r =>
              obtain ⟨o, s'⟩ := r
              simp only [eu, e, Bool.false_eq_true, if_false, pure, Except.pure, Except.ok.injEq, Prod.mk.injEq] at h1
              obtain ⟨rfl, rfl⟩ := h1
              simp only [Bool.false_eq_true, if_false, ih s0 o e]; rfl
    | cancel i =>
      simp only [Selection.diary, List.cons_append, bind, Except.bind] at h1 ⊢
      cases eu : s.minusInPlace dbg i with
      | error p => simp [eu] at h1
      | ok s0 =>
        simp only [eu] at h1
        exact ih s0 os h1

omit [LawfulFinite α] in
/-- What should be there is what the latest call that reached it was to write. -/
theorem SparseCalls.mem_there (cs : SparseCalls α) (x : α) : x ∈ cs.there ↔ cs.written (fun j => j.contains x) = true := by
  induction cs using List.reverseRecOn with
  | nil => simp [SparseCalls.there, SparseCalls.written]
  | append_singleton cs c ih =>
    obtain ⟨i, b⟩ := c
    rw [SparseCalls.written_snoc, SparseCalls.there, List.foldl_append]
    change x ∈ (fun W (c : Interval α × Bool) => if c.2 then W ∪ c.1.pts else W \ c.1.pts) (SparseCalls.there cs) (i, b) ↔ _
    have hp : x ∈ i.pts ↔ i.contains x = true := Iff.rfl
    cases b
    · show x ∈ SparseCalls.there cs ∧ ¬ x ∈ i.pts ↔ _
      rw [ih, hp]; cases i.contains x <;> simp
    · show x ∈ SparseCalls.there cs ∨ x ∈ i.pts ↔ _
      rw [ih, hp]; cases i.contains x <;> simp

/-- **C125**, with cancellations: right after the first bridged interval is cancelled, at `y`, a request for `y` is refused though it is
not booked. -/
theorem C125_cancel_wrong (dbg : Bool) (cs : List (DiaryCall α)) (hc : ∀ c ∈ cs, c.interval.Obtainable ∧ c.interval.Real) (os : List Bool)
    (b : SparseCalls α) (h : Diary [] cs os b) (hb : b.Careful) (i : Interval α) (hi : i.Obtainable) (hr : i.Real) (y : α)
    (hy : b.BridgedAt i y) :
    ∃ s, Selection.new.diary dbg (cs ++ [.cancel i, .request (.point y)]) = .ok (os ++ [false], s) ∧ y ∉ b.there := by
  obtain ⟨s, e, er, hbr⟩ := Selection.diary_run dbg cs hc os b hb [] .new (by simp) rfl h
  obtain ⟨_, e', r, k⟩ := C156_exact dbg _ hbr
  rw [er] at e'; cases e'
  obtain ⟨s1, e1, p1, -⟩ := (k hb).2 i hi hr
  have r1 : s1.Reachable := .minusInPlace r hi e1
  obtain ⟨t, et, ht⟩ := Selection.taken_iff dbg s1 r1 (.point y) (.point y)
  have ht : t = true := ht.2 ⟨y, by rw [p1]; exact .inr hy, by show Interval.contains _ _ = true; rw [Interval.point_contains]⟩
  refine ⟨s1, Selection.diary_append dbg cs _ _ s s1 os [false] e ?_, ?_⟩
  · simp only [Selection.diary, e1, et, ht, bind, Except.bind]; rfl
  · rw [SparseCalls.mem_there]
    obtain ⟨x, z, -, -, -, -, h3, -⟩ := hy
    rw [h3]; simp

/-- 1 to 4 and 6 to 9 are booked: then cancelling 6 to 9 is bridged at 5; that nothing else was cancelled makes the hypotheses true. -/
example : Diary [] [.request (.mkClosed (u8 1) (u8 4)), .request (.mkClosed (u8 6) (u8 9))] [true, true]
      [(.mkClosed (u8 1) (u8 4), true), (.mkClosed (u8 6) (u8 9), true)] ∧
    SparseCalls.Careful [((.mkClosed (u8 1) (u8 4) : Interval U8), true), (.mkClosed (u8 6) (u8 9), true)] ∧
    SparseCalls.BridgedAt [(.mkClosed (u8 1) (u8 4), true), (.mkClosed (u8 6) (u8 9), true)] (.mkClosed (u8 6) (u8 9)) (u8 5) := by
  refine ⟨.accept ?_ (.accept ?_ (.nil _)), ?_, ⟨u8 4, u8 6, by decide, by decide, by decide, by decide, by decide, by decide, by decide⟩⟩
  · rintro ⟨x, h, -⟩; exact h
  · rintro ⟨x, h, h'⟩
    rw [SparseCalls.mem_there] at h
    have h' : (Interval.mkClosed (u8 6) (u8 9)).contains x = true := h'
    have h : (Interval.mkClosed (u8 1) (u8 4)).contains x = true := by
      cases hx : (Interval.mkClosed (u8 1) (u8 4)).contains x
      · simp [SparseCalls.written, hx] at h
      · rfl
    rw [show Interval.mkClosed (u8 6) (u8 9) = ⟨.closed (u8 6) (u8 9)⟩ by decide] at h'
    rw [show Interval.mkClosed (u8 1) (u8 4) = ⟨.closed (u8 1) (u8 4)⟩ by decide] at h
    simp only [Interval.contains, RawInterval.contains, Bool.and_eq_true, decide_eq_true_eq] at h h'
    exact absurd (h'.1.trans h.2) (by decide)
  · intro A B i h
    have : (i, false) ∈ [((.mkClosed (u8 1) (u8 4) : Interval U8), true), (.mkClosed (u8 6) (u8 9), true)] := by rw [h]; simp
    simp at this

/-- **C125**, with cancellations: 1 to 4 and 6 to 9 are booked and 6 to 9 are cancelled; then 5 is refused, though nothing was ever booked
there. -/
theorem C125_cancel_counterexample (dbg : Bool) :
    (do return (← Selection.new.diary dbg [.request (.mkClosed (u8 1) (u8 4)), .request (.mkClosed (u8 6) (u8 9)), .cancel (.mkClosed (u8 6) (u8 9)),
      .request (.point (u8 5))]).1) = .ok [true, true, false] := by
  cases dbg <;> decide

omit [LawfulFinite α] in
theorem Diary.mem {b : SparseCalls α} {cs os b'} (h : Diary b cs os b') : ∀ d ∈ b', d ∈ b ∨ ∃ c ∈ cs, c.interval = d.1 := by
  have step : ∀ {b : SparseCalls α} {c : DiaryCall α} {cs : List (DiaryCall α)} {b' : SparseCalls α} {v : Bool},
      (∀ d ∈ b', d ∈ b ++ [(c.interval, v)] ∨ ∃ c ∈ cs, DiaryCall.interval c = d.1) →
      ∀ d ∈ b', d ∈ b ∨ ∃ c' ∈ c :: cs, c'.interval = d.1 := fun {b c cs b' v} ih d hd => by
    rcases ih d hd with k | ⟨c', k, e⟩
    · rcases List.mem_append.1 k with k | k
      · exact .inl k
      · rw [List.mem_singleton] at k; subst k; exact .inr ⟨c, .head _, rfl⟩
    · exact .inr ⟨c', .tail _ k, e⟩
  induction h with
  | nil b => exact fun d hd => .inl hd
  | @accept b i cs os b' _ _ ih => exact step (c := .request i) ih
  | refuse _ _ ih => exact fun d hd => (ih d hd).imp id fun ⟨c, k, e⟩ => ⟨c, .tail _ k, e⟩
  | @cancel b i cs os b' _ ih => exact step (c := .cancel i) ih

/-- **C125**, with cancellations: if the intervals are made of slots of two values or more, the same slots for all of them, all answers are as
they should be, and what is booked too. -/
theorem C125_cancel_slots (dbg : Bool) (cs : List (DiaryCall α)) (hc : ∀ c ∈ cs, c.interval.Obtainable ∧ c.interval.Real)
    (hp : ∀ y : α, ∃ z, (succ y = some z ∨ succ z = some y) ∧ ∀ c ∈ cs, c.interval.contains y = c.interval.contains z) :
    ∃ os b s, Diary [] cs os b ∧ Selection.new.diary dbg cs = .ok (os, s) ∧ s.pts dbg = b.there := by
  obtain ⟨⟨os, b⟩, h, -⟩ := Diary.total [] cs
  have hb : b.Paged := fun y => by
    obtain ⟨z, hz, k⟩ := hp y
    refine ⟨z, hz, fun d hd => ?_⟩
    rcases h.mem d hd with k' | ⟨c, k', e⟩
    · exact nomatch k'
    · rw [← e]; exact k c k'
  obtain ⟨s, e, k⟩ := C125_cancel dbg cs hc os b h hb.careful
  exact ⟨os, b, s, h, e, k⟩

/-- Slots that begin with an even number. -/
example : ∀ y : U8, ∃ z, (succ y = some z ∨ succ z = some y) ∧
    ∀ c ∈ [DiaryCall.request (.mkClosed (u8 2) (u8 3)), .request (.mkClosed (u8 4) (u8 7)), .cancel (.mkClosed (u8 2) (u8 5))],
      c.interval.contains y = c.interval.contains z := by
  have hs : ∀ a b : U8, b.1 = a.1 + 1 → succ a = some b := by
    rintro ⟨a, ha⟩ ⟨b, hb⟩ rfl
    have h1 : a ≠ 255 := by simp only at hb; omega
    have h2 : 0 ≤ a + 1 ∧ a + 1 ≤ 255 := hb
    simp [Finite.succ, MInt.succRaw, MInt.checkedAdd, h1, h2]
  have hc : ∀ (l r y : U8), Interval.contains ⟨.closed l r⟩ y = decide (l.1 ≤ y.1 ∧ y.1 ≤ r.1) := fun _ _ _ =>
    (Bool.decide_and _ _).symm
  rw [show Interval.mkClosed (u8 2) (u8 3) = ⟨.closed (u8 2) (u8 3)⟩ by decide, show Interval.mkClosed (u8 4) (u8 7) = ⟨.closed (u8 4) (u8 7)⟩ by decide,
    show Interval.mkClosed (u8 2) (u8 5) = ⟨.closed (u8 2) (u8 5)⟩ by decide]
  rintro ⟨y, hy⟩
  rcases Int.emod_two_eq_zero_or_one y with h | h
  · refine ⟨⟨y + 1, by omega⟩, .inl (hs _ _ rfl), ?_⟩
    simp only [List.mem_cons, List.not_mem_nil, or_false, forall_eq_or_imp, forall_eq, DiaryCall.interval, hc, u8, decide_eq_decide]
    omega
  · refine ⟨⟨y - 1, by omega⟩, .inr (hs _ _ (by simp)), ?_⟩
    simp only [List.mem_cons, List.not_mem_nil, or_false, forall_eq_or_imp, forall_eq, DiaryCall.interval, hc, u8, decide_eq_decide]
    omega

end NI
