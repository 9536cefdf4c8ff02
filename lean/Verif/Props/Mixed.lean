import Verif.Props.FusedAny
import Verif.Props.BackTurns
import Verif.Props.SharpSel

/-! # Calls from both ends panic exactly if a single value is missing (C67, C68)

With a single point left out between two intervals, taking the intervals up to there from the front, the others from the
back and then one more from the front runs into the `expect` of the iterator, in every build. -/

set_option linter.unusedSimpArgs false
set_option linter.unusedVariables false
set_option linter.unusedSectionVars false

namespace NI
open _root_.NI.Finite TT
variable {α : Type} [LinearOrder α]

/-- One state of the tree iterator is reached from another by calls that yield intervals, the same in both builds. -/
inductive TineIter.Path : TineIter α → TineIter α → Prop
  | refl it : Path it it
  | front {it it' it'' i} : (∀ dbg, it.next dbg = .ok (some i, it')) → Path it' it'' → Path it it''
  | back {it it' it'' i} : (∀ dbg, it.nextBack dbg = .ok (some i, it')) → Path it' it'' → Path it it''

theorem TineIter.Path.trans {a b c : TineIter α} (h : Path a b) (h' : Path b c) : Path a c := by
  induction h with
  | refl => exact h'
  | front e _ ih => exact .front e (ih h')
  | back e _ ih => exact .back e (ih h')

/-- Some calls lead from one state to another, as far as running into `expect` is concerned. -/
def Leads {σ β : Type} (f g : Bool → σ → Except Panic (Option β × σ)) (s s' : σ) : Prop :=
  ∃ cs, ∀ dbg cs', drive (f dbg) (g dbg) s' cs' = .error .expect → drive (f dbg) (g dbg) s (cs ++ cs') = .error .expect

section
variable {σ β : Type} {f g : Bool → σ → Except Panic (Option β × σ)}

theorem Leads.refl (s : σ) : Leads f g s s := ⟨[], fun _ _ h => h⟩

theorem Leads.trans {a b c : σ} : Leads f g a b → Leads f g b c → Leads f g a c := by
  rintro ⟨cs, h⟩ ⟨cs', h'⟩
  exact ⟨cs ++ cs', fun dbg d hd => by rw [List.append_assoc]; exact h dbg _ (h' dbg d hd)⟩

theorem Leads.front {s s' : σ} {o : Option β} (h : ∀ dbg, f dbg s = .ok (o, s')) : Leads f g s s' :=
  ⟨[.next], fun dbg cs' hd => by simp only [List.singleton_append, drive, h, bind, Except.bind, hd]⟩

theorem Leads.back {s s' : σ} {o : Option β} (h : ∀ dbg, g dbg s = .ok (o, s')) : Leads f g s s' :=
  ⟨[.nextBack], fun dbg cs' hd => by simp only [List.singleton_append, drive, h, bind, Except.bind, hd]⟩
end

theorem TineIter.Path.leads {a b : TineIter α} (h : Path a b) : Leads TineIter.next TineIter.nextBack a b := by
  induction h with
  | refl => exact .refl _
  | front e _ ih => exact (Leads.front e).trans ih
  | back e _ ih => exact (Leads.back e).trans ih

/-- The last hole of a tree. -/
theorem TT.last_hole {t : List (Tine α)} (h : ¬ HoleFree t) :
    ∃ A x B, t = A ++ .point (.excl x) :: B ∧ HoleFree B := by
  induction t with
  | nil => exact absurd (fun x hx => by cases hx) h
  | cons a t ih =>
    by_cases ht : HoleFree t
    · have ha : a.isPointExclude = true := by
        by_contra hn
        refine h fun x hx => ?_
        rcases List.mem_cons.1 hx with rfl | hx
        · simpa using hn
        · exact ht x hx
      rcases a with b | (p | p | _) | b <;> simp [Tine.isPointExclude] at ha
      exact ⟨[], p, t, rfl, ht⟩
    · obtain ⟨A, x, B, rfl, hB⟩ := ih ht
      exact ⟨a :: A, x, B, rfl, hB⟩

/-- From the front up to a hole. -/
theorem TT.path_front {A B : List (Tine α)} {x : α} : ∀ (n : Nat) {A : List (Tine α)} {saved : Option α}, A.length ≤ n →
    (∀ t ∈ A, t.Ok) → Chain saved.isSome (A ++ .point (.excl x) :: B) false →
    TineIter.Path (itState (A ++ .point (.excl x) :: B) saved) (itState B (some x)) := by
  intro n
  induction n with
  | zero =>
    intro A saved hl hok hc
    obtain rfl := List.length_eq_zero_iff.1 (Nat.le_zero.1 hl)
    cases saved with
    | none => cases hc.1
    | some y => exact .front (i := RawInterval.new (.excl y) (.excl x)) (fun dbg => by cases dbg <;> rfl) (.refl _)
  | succ n ih =>
    intro A saved hl hok hc
    cases A with
    | nil =>
      cases saved with
      | none => cases hc.1
      | some y => exact .front (i := RawInterval.new (.excl y) (.excl x)) (fun dbg => by cases dbg <;> rfl) (.refl _)
    | cons a A =>
      have ha := hok a (.head _)
      have hA : ∀ t ∈ A, t.Ok := fun t h => hok t (.tail _ h)
      simp only [List.length_cons] at hl
      cases saved with
      | some y =>
        rcases a with b | (p | p | _) | b
        · cases hc.1
        · cases hc.1
        · exact .front (i := RawInterval.new (.excl y) (.excl p)) (fun dbg => by cases dbg <;> rfl)
            (ih (saved := some p) (by omega) hA hc.2)
        · cases hc.1
        · exact .front (i := RawInterval.new (.excl y) b) (fun dbg => by cases dbg <;> rfl)
            (ih (saved := none) (by omega) hA hc.2)
      | none =>
        rcases a with b | (p | p | _) | b
        · cases A with
          | nil => exact .front (i := RawInterval.new b (.excl x)) (fun dbg => by cases dbg <;> rfl) (.refl _)
          | cons u A =>
            simp only [List.length_cons] at hl
            have hA' : ∀ t ∈ A, t.Ok := fun t h => hA t (.tail _ h)
            rcases u with c | (p | p | _) | c
            · cases hc.2.1
            · cases hc.2.1
            · exact .front (i := RawInterval.new b (.excl p)) (fun dbg => by cases dbg <;> rfl)
                (ih (saved := some p) (by omega) hA' hc.2.2)
            · cases hc.2.1
            · exact .front (i := RawInterval.new b c) (fun dbg => by cases dbg <;> rfl)
                (ih (saved := none) (by omega) hA' hc.2.2)
        · exact .front (i := .point p) (fun dbg => by cases dbg <;> rfl) (ih (saved := none) (by omega) hA hc.2)
        · cases hc.1
        · exact absurd rfl ha
        · cases hc.1

/-- From the back down to a hole already met from the front. -/
theorem TT.path_back {x : α} {u : Bound α} : ∀ (n : Nat) {C : List (Tine α)}, C.length ≤ n →
    (∀ t ∈ C, t.Ok) → HoleFree C → Chain false C false →
    TineIter.Path (itState (.upper u :: C) (some x)) (itState [] (some x)) := by
  intro n
  induction n with
  | zero =>
    intro C hl hok hf hc
    obtain rfl := List.length_eq_zero_iff.1 (Nat.le_zero.1 hl)
    exact .back (i := RawInterval.new (.excl x) u) (fun dbg => by cases dbg <;> rfl) (.refl _)
  | succ n ih =>
    intro C hl hok hf hc
    rcases List.eq_nil_or_concat C with rfl | ⟨D, c, rfl⟩
    · exact .back (i := RawInterval.new (.excl x) u) (fun dbg => by cases dbg <;> rfl) (.refl _)
    rw [List.concat_eq_append] at *
    obtain ⟨m, c1, c2, c3⟩ := chain_append.1 hc
    have hcf := hf c (by simp)
    have hco := hok c (by simp)
    have hD : ∀ t ∈ D, t.Ok := fun t h => hok t (by simp [h])
    have hDf : HoleFree D := fun t h => hf t (by simp [h])
    have lastC : (Tine.upper u :: (D ++ [c])).getLast? = some c := by simp [List.getLast?_cons]
    have dropC : (Tine.upper u :: (D ++ [c])).dropLast = .upper u :: D := by simp [List.dropLast]
    rcases c with b | (p | p | _) | b
    · cases c3
    · cases c2
      refine .back (i := .point p) (it' := itState (.upper u :: D) (some x)) (fun dbg => ?_)
        (ih (by simp at hl; omega) hD hDf c1)
      simp only [TineIter.nextBack, itState, lastC, dropC, TineIter.nextBackWith, bind, Except.bind]
    · cases hcf
    · exact absurd rfl hco
    · cases c2
      rcases List.eq_nil_or_concat D with rfl | ⟨E, l, rfl⟩
      · cases c1
      rw [List.concat_eq_append] at *
      obtain ⟨m, d1, d2, d3⟩ := chain_append.1 c1
      have hlf := hDf l (by simp)
      have hlo := hD l (by simp)
      have lastD : (Tine.upper u :: (E ++ [l])).getLast? = some l := by simp [List.getLast?_cons]
      have dropD : (Tine.upper u :: (E ++ [l])).dropLast = .upper u :: E := by simp [List.dropLast]
      rcases l with a | (p | p | _) | a
      · cases d2
        refine .back (i := RawInterval.new a b) (it' := itState (.upper u :: E) (some x)) (fun dbg => ?_)
          (ih (by simp at hl; omega) (fun t h => hD t (by simp [h])) (fun t h => hDf t (by simp [h])) d1)
        simp only [TineIter.nextBack, itState, lastC, dropC, TineIter.nextBackWith, bind, Except.bind, lastD, dropD,
          Option.map_some]
        cases dbg <;> rfl
      · cases d3
      · cases hlf
      · exact absurd rfl hlo
      · cases d3

/-- Any hole of a tree leads to a state in which the tree iterator cannot go on. -/
theorem TT.path_stuck {t : TineTree α} (v : Valid t) (h : ¬ HoleFree t) :
    ∃ x, TineIter.Path (TineIter.start t) (itState [] (some x)) := by
  obtain ⟨A, x, B, rfl, hB⟩ := last_hole h
  refine ⟨x, (path_front (A := A) A.length le_rfl (fun t h => v.1.1 t (by simp [h])) v.2 :
    TineIter.Path (itState _ none) _).trans ?_⟩
  obtain ⟨m, -, -, hc⟩ := chain_append.1 v.2
  cases B with
  | nil => cases hc
  | cons u B =>
    have hu := hB u (.head _)
    rcases u with b | (p | p | _) | b
    · cases hc.1
    · cases hc.1
    · cases hu
    · cases hc.1
    · exact path_back B.length le_rfl (fun t h => v.1.1 t (by simp [h])) (fun t h => hB t (.tail _ h)) hc.2

theorem TT.stuck (dbg : Bool) (x : α) : (itState [] (some x)).next dbg = .error .expect := by cases dbg <;> rfl

theorem TT.leads_stuck {t : TineTree α} (v : Valid t) (h : ¬ HoleFree t) :
    ∃ cs, ∀ dbg, drive (TineIter.next dbg) (TineIter.nextBack dbg) (TineIter.start t) cs = .error .expect := by
  obtain ⟨x, p⟩ := path_stuck v h
  obtain ⟨cs, hl⟩ := p.leads
  exact ⟨cs ++ [.next], fun dbg => hl dbg [.next] (by simp only [drive, stuck, bind, Except.bind])⟩

/-- **C68.**  Some calls from both ends run into the `expect` of the interval iterator of a tree, in every build, exactly
if a single point is left out between two intervals; otherwise no calls panic. -/
theorem C68_panic_iff (dbg : Bool) (t : TineTree α) (ht : t.Reachable) (is : List (RawInterval α))
    (his : TineTree.intervals dbg t = .ok is) :
    ((∃ cs, ∀ d, drive (TineIter.next d) (TineIter.nextBack d) (TineIter.start t) cs = .error .expect) ↔
      ∃ p, RawInterval.Hole is p) ∧
    ((∀ cs, ∃ os, drive (TineIter.next dbg) (TineIter.nextBack dbg) (TineIter.start t) cs = .ok os) ↔
      ∀ p, ¬ RawInterval.Hole is p) := by
  have v := TT.reachable_valid ht
  have stuck : (∃ p, RawInterval.Hole is p) →
      ∃ cs, ∀ d, drive (TineIter.next d) (TineIter.nextBack d) (TineIter.start t) cs = .error .expect := fun ⟨p, hp⟩ => by
    refine leads_stuck v fun hf => ?_
    refine (C68_exact_iff dbg t ht is his).1 (fun cs => ?_) p hp
    rw [TT.intervals_eq dbg v] at his
    cases his
    exact mix_deque dbg cs v.1.1 hf v.2
  have calm : (∀ p, ¬ RawInterval.Hole is p) →
      ∀ cs, ∃ os, drive (TineIter.next dbg) (TineIter.nextBack dbg) (TineIter.start t) cs = .ok os := fun h cs => by
    obtain ⟨os, e, -⟩ := C68_mixed_partial dbg t ht is his h cs
    exact ⟨os, e⟩
  refine ⟨⟨fun ⟨cs, h⟩ => ?_, stuck⟩, ⟨fun h p hp => ?_, calm⟩⟩
  · by_contra hn
    obtain ⟨os, e⟩ := calm (fun p hp => hn ⟨p, hp⟩) cs
    rw [h dbg] at e; cases e
  · obtain ⟨cs, hs⟩ := stuck ⟨p, hp⟩
    obtain ⟨os, e⟩ := h cs
    rw [hs dbg] at e; cases e

/-- `(0,2) ∪ (2,4) ∪ [6,7]`: two calls from the front would do, then two from the back; here one from the front. -/
example : TineTree.intervals true (TineTree.demo [.opn 0 2, .opn 2 4, .closed 6 7]) = .ok [.opn 0 2, .opn 2 4, .closed 6 7] ∧
    ∀ d, drive (TineIter.next d) (TineIter.nextBack d) (TineIter.start (TineTree.demo [.opn 0 2, .opn 2 4, .closed 6 7]))
      [.next, .nextBack, .nextBack, .next] = .error .expect := by decide

section Sel
variable [Finite α] [LawfulFinite α]

/-- **C68.**  The same for the intervals of a selection of any history. -/
theorem C68_selection_panic_iff (dbg : Bool) (s : Selection α) (hs : s.Reachable) :
    ((∃ cs, ∀ d, drive (Selection.intervalNext d) (Selection.intervalNextBack d) (TineIter.start s.tree) cs =
        .error .expect) ↔ ∃ x, s.Pinhole dbg x) ∧
    ((∀ cs, ∃ os, drive (Selection.intervalNext dbg) (Selection.intervalNextBack dbg) (TineIter.start s.tree) cs =
        .ok os) ↔ ∀ x, ¬ s.Pinhole dbg x) := by
  have v := Selection.reachable_valid hs
  have his := Selection.intervals_eq dbg v
  have stuck : (∃ x, s.Pinhole dbg x) → ∃ cs, ∀ d, drive (Selection.intervalNext d) (Selection.intervalNextBack d)
      (TineIter.start s.tree) cs = .error .expect := fun ⟨x, hx⟩ => by
    have hf : ¬ HoleFree s.tree := fun hf => by
      refine (C68_selection_any dbg s hs _ his).1 (fun cs => ?_) x hx
      obtain ⟨os, e, w⟩ := mix_deque dbg cs v.1.1 hf v.2
      exact ⟨_, Selection.drive_intervals dbg _ e, w.map _⟩
    obtain ⟨y, p⟩ := path_stuck v hf
    have : Leads Selection.intervalNext Selection.intervalNextBack (TineIter.start s.tree) (itState [] (some y)) := by
      revert p
      generalize TineIter.start s.tree = a
      generalize itState [] (some y) = b
      intro p
      induction p with
      | refl => exact .refl _
      | front e _ ih =>
        exact (Leads.front fun dbg => by simp only [Selection.intervalNext, e, bind, Except.bind]; rfl).trans ih
      | back e _ ih =>
        exact (Leads.back fun dbg => by simp only [Selection.intervalNextBack, e, bind, Except.bind]; rfl).trans ih
    obtain ⟨cs, hl⟩ := this
    exact ⟨cs ++ [.next], fun dbg => hl dbg [.next] (by
      simp only [drive, Selection.intervalNext, TT.stuck, bind, Except.bind])⟩
  have calm : (∀ x, ¬ s.Pinhole dbg x) → ∀ cs, ∃ os, drive (Selection.intervalNext dbg) (Selection.intervalNextBack dbg)
      (TineIter.start s.tree) cs = .ok os := fun h cs => by
    obtain ⟨os, e, -⟩ := (C68_selection_any dbg s hs _ his).2 h cs
    exact ⟨os, e⟩
  refine ⟨⟨fun ⟨cs, h⟩ => ?_, stuck⟩, ⟨fun h p hp => ?_, calm⟩⟩
  · by_contra hn
    obtain ⟨os, e⟩ := calm (fun p hp => hn ⟨p, hp⟩) cs
    rw [h dbg] at e; cases e
  · obtain ⟨cs, hs⟩ := stuck ⟨p, hp⟩
    obtain ⟨os, e⟩ := h cs
    rw [hs dbg] at e; cases e

/-- Calls from the back use up the current interval. -/
theorem PointIter.use_up [WellFoundedLT α] (it : TineIter α) {i : Interval α} (hi : i.Obtainable) :
    ∃ j : Interval α, j.lowerBound = none ∧ j.Obtainable ∧
      Leads PointIter.next PointIter.nextBack (⟨it, i⟩ : PointIter α) ⟨it, j⟩ := by
  have step : ∀ {i i' : Interval α} {m : α}, i.nextBack = .ok (some m, i') →
      Leads PointIter.next PointIter.nextBack (⟨it, i⟩ : PointIter α) ⟨it, i'⟩ := fun {_ _ m} e =>
    Leads.back (o := some m) fun dbg => by simp only [PointIter.nextBack, e, bind, Except.bind]
  by_cases hr : i.Real
  · have none_of : ∀ {i : Interval α}, i.nextBack = .ok (none, i) → i.next = .ok (none, i) → i.lowerBound = none :=
      fun {i} _ e => by
        unfold Interval.next at e
        cases hl : i.lowerBound with
        | none => rfl
        | some b => rw [hl] at e; cases b <;> cases e
    have main : ∀ u : α, ∀ {i : Interval α}, i.Obtainable → i.Real → (∀ x ∈ i.pts, x ≤ u) →
        ∃ j : Interval α, j.lowerBound = none ∧ j.Obtainable ∧
          Leads PointIter.next PointIter.nextBack (⟨it, i⟩ : PointIter α) ⟨it, j⟩ := by
      intro u
      induction u using WellFoundedLT.induction with
      | ind u ih =>
        intro i hi hr hu
        rcases Interval.iter_step hi hr with ⟨-, e, e'⟩ | ⟨-, ⟨m, i', hm, e, ho, hr', hp⟩⟩
        · exact ⟨i, none_of e' e, hi, .refl _⟩
        · rcases Interval.iter_step ho hr' with ⟨-, e1, e1'⟩ | ⟨-, ⟨m', i'', hm', -, -, -, -⟩⟩
          · exact ⟨i', none_of e1' e1, ho, step e⟩
          · have hmm : m' < m := by
              have h1 := hm'.1
              rw [hp] at h1
              exact lt_of_le_of_ne (hm.2 h1.1) h1.2
            obtain ⟨j, h1, h2, h3⟩ := ih m' (hmm.trans_le (hu m hm.1)) ho hr' fun x hx => hm'.2 hx
            exact ⟨j, h1, h2, (step e).trans h3⟩
    exact main maximum hi hr fun x _ => le_maximum x
  · obtain ⟨l, u, -, -, -, e⟩ := Interval.not_real_step hi hr
    exact ⟨.empty, rfl, .empty, step e⟩

theorem PointIter.follow [WellFoundedLT α] {a b : TineIter α} (p : TineIter.Path a b) : ∀ {i : Interval α},
    i.lowerBound = none → i.Obtainable → ∃ j : Interval α, j.lowerBound = none ∧ j.Obtainable ∧
      Leads PointIter.next PointIter.nextBack (⟨a, i⟩ : PointIter α) ⟨b, j⟩ := by
  have used : ∀ {i : Interval α}, i.lowerBound = none → i.Obtainable →
      i.next = .ok (none, i) ∧ i.nextBack = .ok (none, i) := fun {i} h ho => by
    rcases Interval.step_any ho with ⟨-, e, e'⟩ | ⟨⟨m, j, e, -⟩, -⟩
    · exact ⟨e, e'⟩
    · unfold Interval.next at e
      rw [h] at e; cases e
  induction p with
  | refl => exact fun h ho => ⟨_, h, ho, .refl _⟩
  | @front it it' it'' r e _ ih =>
    intro i h ho
    have hw : r.WF := (TineIter.next_new (e true)).2 r rfl
    have hr : (Interval.ofRaw r.normalized).Obtainable := by rw [Selection.run_eq]; exact .ofRaw r hw
    obtain ⟨o, c, ec, hc⟩ : ∃ o c, (Interval.ofRaw r.normalized).next = .ok (o, c) ∧ c.Obtainable := by
      rcases Interval.step_any hr with ⟨-, e, -⟩ | ⟨⟨m, j, e, hj⟩, -⟩
      exacts [⟨_, _, e, hr⟩, ⟨_, _, e, hj⟩]
    obtain ⟨j, h1, h2, h3⟩ := PointIter.use_up it' hc
    obtain ⟨k, k1, k2, k3⟩ := ih h1 h2
    refine ⟨k, k1, k2, (Leads.front (o := o) fun dbg => ?_).trans (h3.trans k3)⟩
    simp only [PointIter.next, (used h ho).1, Selection.intervalNext, e, bind, Except.bind, Option.map_some, ec]
  | @back it it' it'' r e _ ih =>
    intro i h ho
    have hw : r.WF := (TineIter.nextBack_new (e true)).2 r rfl
    have hr : (Interval.ofRaw r.normalized).Obtainable := by rw [Selection.run_eq]; exact .ofRaw r hw
    obtain ⟨o, c, ec, hc⟩ : ∃ o c, (Interval.ofRaw r.normalized).nextBack = .ok (o, c) ∧ c.Obtainable := by
      rcases Interval.step_any hr with ⟨-, -, e⟩ | ⟨-, ⟨m, j, e, hj⟩⟩
      exacts [⟨_, _, e, hr⟩, ⟨_, _, e, hj⟩]
    obtain ⟨j, h1, h2, h3⟩ := PointIter.use_up it' hc
    obtain ⟨k, k1, k2, k3⟩ := ih h1 h2
    refine ⟨k, k1, k2, (Leads.back (o := o) fun dbg => ?_).trans (h3.trans k3)⟩
    simp only [PointIter.nextBack, (used h ho).2, Selection.intervalNextBack, e, bind, Except.bind, Option.map_some, ec]

/-- **C67.**  Some calls from both ends run into the `expect` when iterating over the values of a selection of any history,
in every build, exactly if it has a pinhole; otherwise no calls panic and none resumes after `None`.  (For types without
infinite descending sequences: otherwise the calls may never get to the pinhole.) -/
theorem C67_exact_iff [WellFoundedLT α] (dbg : Bool) (s : Selection α) (hs : s.Reachable) :
    ((∃ cs, ∀ d, drive (PointIter.next d) (PointIter.nextBack d) (PointIter.start s) cs = .error .expect) ↔
      ∃ x, s.Pinhole dbg x) ∧
    ((∀ cs, ∃ os, drive (PointIter.next dbg) (PointIter.nextBack dbg) (PointIter.start s) cs = .ok os ∧ Fused os) ↔
      ∀ x, ¬ s.Pinhole dbg x) := by
  have v := Selection.reachable_valid hs
  have stuck : (∃ x, s.Pinhole dbg x) → ∃ cs, ∀ d, drive (PointIter.next d) (PointIter.nextBack d)
      (PointIter.start s) cs = .error .expect := fun ⟨x, hx⟩ => by
    have hf : ¬ HoleFree s.tree := fun hf => by
      refine (C68_selection_any dbg s hs _ (Selection.intervals_eq dbg v)).1 (fun cs => ?_) x hx
      obtain ⟨os, e, w⟩ := mix_deque dbg cs v.1.1 hf v.2
      exact ⟨_, Selection.drive_intervals dbg _ e, w.map _⟩
    obtain ⟨y, p⟩ := path_stuck v hf
    obtain ⟨j, h1, h2, cs, hl⟩ := PointIter.follow p (i := Interval.empty) rfl .empty
    refine ⟨cs ++ [.next], fun dbg => ?_⟩
    rw [show PointIter.start s = ⟨TineIter.start s.tree, Interval.empty⟩ from rfl]
    refine hl dbg _ ?_
    rcases Interval.step_any h2 with ⟨-, e, -⟩ | ⟨⟨m, k, e, -⟩, -⟩
    · simp only [drive, PointIter.next, e, Selection.intervalNext, TT.stuck, bind, Except.bind]
    · unfold Interval.next at e
      rw [h1] at e; cases e
  refine ⟨⟨fun ⟨cs, h⟩ => ?_, stuck⟩, ⟨fun h p hp => ?_, fun h => C67_mixed_any dbg s hs h⟩⟩
  · by_contra hn
    obtain ⟨os, e, -⟩ := C67_mixed_any dbg s hs (fun p hp => hn ⟨p, hp⟩) cs
    rw [h dbg] at e; cases e
  · obtain ⟨cs, hs⟩ := stuck ⟨p, hp⟩
    obtain ⟨os, e, -⟩ := h cs
    rw [hs dbg] at e; cases e

/-- `{1, 3}` lacks 2: three calls. -/
example : (Selection.demo [(u8 1, u8 1), (u8 3, u8 3)]).Pinhole true (u8 2) ∧
    ∀ d, drive (PointIter.next d) (PointIter.nextBack d) (PointIter.start (Selection.demo [(u8 1, u8 1), (u8 3, u8 3)]))
      [.next, .nextBack, .next] = .error .expect := by
  refine ⟨?_, by decide⟩
  rw [C73_pinhole_built true _ (Selection.demo_built _ (by decide))]
  exact ⟨show ¬ Selection.contains _ _ _ = .ok true by decide, ⟨u8 1, show Selection.contains _ _ _ = .ok true by decide, by decide⟩,
    u8 3, show Selection.contains _ _ _ = .ok true by decide, by decide⟩

end Sel

end NI
