import Verif.SpecBackward
import Verif.Lemmas.SelMore
import Mathlib.Data.List.Induction

/-! # Reverse iteration, exactly -/

set_option linter.unusedSimpArgs false
set_option linter.unusedVariables false
set_option linter.unnecessarySeqFocus false
set_option linter.unusedSectionVars false

namespace NI
open Finite

namespace TT
variable {α : Type} [LinearOrder α]

/-- The bounds of an interval are those it was made from, and they differ. -/
def NB (b u : Bound α) : Prop :=
  (RawInterval.new b u).lowerBound = some b ∧ (RawInterval.new b u).upperBound = some u ∧
    ∀ p, RawInterval.new b u ≠ .point p

theorem nb_of_lt {b u : Bound α} (h : (Tine.lower b).key < (Tine.upper u).key) : NB b u := by
  refine ⟨(new_bounds h).1, (new_bounds h).2, fun p hp => ?_⟩
  have := new_bounds h
  rw [hp] at this
  simp [RawInterval.lowerBound, RawInterval.upperBound] at this
  obtain ⟨rfl, rfl⟩ := this
  simp [Tine.key] at h

/-- Tines and intervals, both from the last to the first. With `some b` the first tine is the lower end `b` of an
interval whose upper end is not in the list. -/
inductive Rev : Option (Bound α) → List (Tine α) → List (RawInterval α) → Prop
  | nil : Rev none [] []
  | pt {p r ps} : Rev none r ps → Rev none (.point (.incl p) :: r) (.point p :: ps)
  | up {u b r ps} : Rev (some b) r ps → NB b u → Rev none (.upper u :: r) (RawInterval.new b u :: ps)
  | lo {b r ps} : Rev none r ps →
      (∀ q ∈ ps.head?, ∀ a : RawInterval α, a.lowerBound = some b → a.joined q = false) →
      Rev (some b) (.lower b :: r) ps
  | pe {x b r ps} : Rev (some b) r ps → NB b (.excl x) →
      Rev (some (.excl x)) (.point (.excl x) :: r) (RawInterval.new b (.excl x) :: ps)

/-- The pieces of a list of tines that may end within an interval, from the last to the first. -/
theorem rev_of_chain (ts : List (Tine α)) (hs : Sorted ts) :
    (Chain false ts false → Rev none ts.reverse (pieces none ts).reverse ∧
      (∀ B, pieces none (ts ++ B) = pieces none ts ++ pieces none B) ∧
      ∀ q ∈ (pieces none ts).getLast?, ∀ u, q.upperBound = some u → ∃ t ∈ ts, (Tine.upper u).key = t.key) ∧
    (Chain false ts true → ∃ b, Rev (some b) ts.reverse (pieces none ts).reverse ∧
      (∀ B, pieces none (ts ++ B) = pieces none ts ++ pieces (some b) B) ∧
      ∃ t ∈ ts, t.key = (Tine.lower b).key) := by
  induction ts using List.reverseRecOn with
  | nil => exact ⟨fun _ => ⟨.nil, by simp [pieces], by simp [pieces]⟩, fun h => by simp [Chain] at h⟩
  | append_singleton A x ih =>
    obtain ⟨hA, hx, hlt⟩ := sorted_append.1 hs
    obtain ⟨ih1, ih2⟩ := ih hA
    have hok := hx.1 x (by simp)
    refine ⟨fun h => ?_, fun h => ?_⟩ <;> obtain ⟨m, c1, c2, c3⟩ := chain_append.1 h
    · rcases x with b | (p | p | _) | u <;>
        simp [Tine.isUpperBound, Tine.isLowerBound, Chain, Tine.Ok] at c2 c3 hok <;> subst c2
      · obtain ⟨r, e, _⟩ := ih1 c1
        have e1 : pieces none (A ++ [.point (.incl p)]) = pieces none A ++ [.point p] := by rw [e]; simp [pieces]
        rw [e1]
        refine ⟨by simpa using Rev.pt r, fun B => ?_, ?_⟩
        · rw [List.append_assoc, e]; simp [pieces]
        · simp [RawInterval.upperBound, Tine.key]
      · obtain ⟨b, r, e, t, ht, hk⟩ := ih2 c1
        have e1 : pieces none (A ++ [.upper u]) = pieces none A ++ [RawInterval.new b u] := by rw [e]; simp [pieces]
        have nb : NB b u := nb_of_lt (by rw [← hk]; exact hlt t ht _ (List.mem_singleton_self _))
        rw [e1]
        refine ⟨by simpa using Rev.up r nb, fun B => ?_, ?_⟩
        · rw [List.append_assoc, e]; simp [pieces]
        · simp [nb.2.1]
    · rcases x with b | (p | p | _) | u <;>
        simp [Tine.isUpperBound, Tine.isLowerBound, Chain, Tine.Ok] at c2 c3 hok <;> subst c2
      · obtain ⟨r, e, hq⟩ := ih1 c1
        have e1 : pieces none (A ++ [.lower b]) = pieces none A := by rw [e]; simp [pieces]
        rw [e1]
        refine ⟨b, ?_, fun B => ?_, .lower b, by simp, rfl⟩
        · have := Rev.lo (b := b) r (fun q hq' a ha => ?_)
          · simpa using this
          · rw [List.head?_reverse] at hq'
            cases hu : q.upperBound with
            | none => simp [RawInterval.joined, hu]
            | some u =>
              obtain ⟨t, ht, hk⟩ := hq q hq' u hu
              have hl := hlt t ht _ (List.mem_singleton_self _)
              rw [← hk] at hl
              rcases u with x | x | _ <;> rcases b with y | y | _ <;> simp [RawInterval.joined, hu, ha]
              rintro rfl
              simp [Tine.key] at hl
        · rw [List.append_assoc, e]; simp [pieces]
      · obtain ⟨b, r, e, t, ht, hk⟩ := ih2 c1
        have e1 : pieces none (A ++ [.point (.excl p)]) = pieces none A ++ [RawInterval.new b (.excl p)] := by
          rw [e]; simp [pieces]
        have nb : NB b (.excl p) := nb_of_lt (by
          rw [← hk]; exact hlt t ht (.point (.excl p)) (List.mem_singleton_self _))
        rw [e1]
        refine ⟨.excl p, by simpa using Rev.pe r nb, fun B => ?_, .point (.excl p), by simp, rfl⟩
        rw [List.append_assoc, e]; simp [pieces]

/-- Is the next interval joined to this one? -/
def hj (a : RawInterval α) (rest : List (RawInterval α)) : Bool :=
  match rest with
  | b :: _ => a.joined b
  | [] => false

/-- `backDebug` interval by interval; `false` if the next one is to be skipped. -/
def backD : Bool → List (RawInterval α) → Option (List (RawInterval α))
  | true, [] => some []
  | true, a :: rest => (backD (!hj a rest) rest).map (a :: ·)
  | false, [] => none
  | false, a :: rest => if hj a rest then backD true rest else none

/-- The end of a loop. -/
def answer (acc : List (RawInterval α)) : Option (List (RawInterval α)) → Except Panic (List (RawInterval α))
  | some l => .ok (acc ++ l)
  | none => .error .debugAssert

theorem answer_map (acc : List (RawInterval α)) (a : RawInterval α) (o : Option (List (RawInterval α))) :
    answer acc (o.map (a :: ·)) = answer (acc ++ [a]) o := by
  cases o <;> simp [answer]

theorem hj_lo {b : Bound α} {ps : List (RawInterval α)} {a : RawInterval α}
    (h : ∀ q ∈ ps.head?, ∀ a : RawInterval α, a.lowerBound = some b → a.joined q = false)
    (ha : a.lowerBound = some b) : hj a ps = false := by
  cases ps with
  | nil => rfl
  | cons q ps => exact h q rfl a ha

theorem hj_pe {x : α} {b : Bound α} {ps : List (RawInterval α)} {a : RawInterval α}
    (h : NB b (.excl x)) (ha : a.lowerBound = some (.excl x)) : hj a (RawInterval.new b (.excl x) :: ps) = true := by
  simp [hj, RawInterval.joined, h.2.1, ha]

theorem after_eq (x : Bound α) (a : RawInterval α) (rest : List (RawInterval α)) :
    BackState.after x a rest = if hj a rest then .list else .gap x (a.lowerBound.getD .inf) := by
  cases rest <;> simp only [BackState.after, hj] <;> rfl

theorem list_eq (a : RawInterval α) (rest : List (RawInterval α)) :
    backRelease .list (a :: rest) =
      a :: backRelease (if hj a rest then .skip (a.lowerBound.getD .inf) else .list) rest := by
  cases rest <;> simp only [backRelease, hj] <;> rfl

theorem nextBack_rev (dbg : Bool) (x : Tine α) (r : List (Tine α)) (s : Option (Tine α)) :
    TineIter.nextBack dbg ⟨(x :: r).reverse, s, none⟩ = (do
      let (i, it) ← TineIter.nextBackWith dbg x ⟨r.reverse, s, none⟩
      .ok (some i, it)) := by
  simp [TineIter.nextBack]

/-- The loop over a list of tines, from the back, in both builds. -/
theorem collectBack_rev (n : Nat) :
    (∀ (r : List (Tine α)) ps, Rev none r ps → r.length < n → ∀ s acc,
      TineIter.collectBackAux true n ⟨r.reverse, s, none⟩ acc = answer acc (backD true ps) ∧
      TineIter.collectBackAux false n ⟨r.reverse, s, none⟩ acc = .ok (acc ++ backRelease .list ps)) ∧
    (∀ (r : List (Tine α)) ps b, Rev (some b) r ps → r.length < n → ∀ (a : RawInterval α), a.lowerBound = some b →
      ∀ x acc,
      TineIter.collectBackAux true n ⟨r.reverse, some (.point (.excl x)), none⟩ acc =
        answer acc (if hj a ps then backD true ps else none) ∧
      TineIter.collectBackAux false n ⟨r.reverse, some (.point (.excl x)), none⟩ acc =
        .ok (acc ++ backRelease (.after (.excl x) a ps) ps)) := by
  induction n with
  | zero => exact ⟨fun _ _ _ h => by omega, fun _ _ _ _ h => by omega⟩
  | succ n ih =>
    -- an upper end is taken as such
    have upper : ∀ (t : Tine α) (u b : Bound α) (r : List (Tine α)) (ps : List (RawInterval α)),
        (t = .upper u ∨ ∃ x, t = .point (.excl x) ∧ u = .excl x) → Rev (some b) r ps → NB b u → r.length < n →
        ∀ s acc,
        TineIter.collectBackAux true (n + 1) ⟨(t :: r).reverse, s, none⟩ acc =
          answer acc (backD true (RawInterval.new b u :: ps)) ∧
        TineIter.collectBackAux false (n + 1) ⟨(t :: r).reverse, s, none⟩ acc =
          .ok (acc ++ backRelease .list (RawInterval.new b u :: ps)) := by
      intro t u b r ps ht hr nb hl s acc
      have hi : t.intoInner = u := by rcases ht with rfl | ⟨x, rfl, rfl⟩ <;> rfl
      cases hr with
      | @lo _ r _ hr hq =>
        have h0 : hj (RawInterval.new b u) ps = false := hj_lo hq nb.1
        have e : ∀ dbg, TineIter.nextBack dbg ⟨(t :: .lower b :: r).reverse, s, none⟩ =
            .ok (some (RawInterval.new b u), ⟨r.reverse, s, none⟩) := by
          intro dbg
          rw [nextBack_rev]
          rcases ht with rfl | ⟨x, rfl, rfl⟩ <;>
            simp [TineIter.nextBackWith, dassert, Tine.isUpperBound, Tine.isLowerBound, Tine.isPointExclude,
              Tine.intoInner, bind, Except.bind]
        have := ih.1 r ps hr (by simp at hl; omega) s (acc ++ [RawInterval.new b u])
        refine ⟨?_, ?_⟩
        · rw [TineIter.collectBackAux]
          simp only [e, bind, Except.bind]
          rw [this.1, backD, h0, answer_map]; rfl
        · rw [TineIter.collectBackAux]
          simp only [e, bind, Except.bind]
          rw [this.2, list_eq, h0]; simp
      | @pe z b' r ps hr nb' =>
        have h0 : hj (RawInterval.new (.excl z) u) (RawInterval.new b' (.excl z) :: ps) = true := hj_pe nb' nb.1
        have e : ∀ dbg, TineIter.nextBack dbg ⟨(t :: .point (.excl z) :: r).reverse, s, none⟩ =
            .ok (some (RawInterval.new (.excl z) u), ⟨r.reverse, some (.point (.excl z)), none⟩) := by
          intro dbg
          rw [nextBack_rev]
          rcases ht with rfl | ⟨x, rfl, rfl⟩ <;>
            simp [TineIter.nextBackWith, dassert, Tine.isUpperBound, Tine.isLowerBound, Tine.isPointExclude,
              Tine.intoInner, bind, Except.bind]
        have := ih.2 r ps b' hr (by simp at hl; omega) (RawInterval.new b' (.excl z)) nb'.1 z
          (acc ++ [RawInterval.new (.excl z) u])
        refine ⟨?_, ?_⟩
        · rw [TineIter.collectBackAux]
          simp only [e, bind, Except.bind]
          rw [this.1, backD, h0, answer_map]; rfl
        · rw [TineIter.collectBackAux]
          simp only [e, bind, Except.bind]
          rw [this.2, list_eq, h0, nb.1]; simp [backRelease]
    refine ⟨fun r ps h hl s acc => ?_, fun r ps b h hl a ha x acc => ?_⟩
    · cases h with
      | nil => constructor <;> simp [TineIter.collectBackAux, TineIter.nextBack, bind, Except.bind, backD, answer, backRelease]
      | @pt p r ps h =>
        have e : ∀ dbg, TineIter.nextBack dbg ⟨(.point (.incl p) :: r).reverse, s, none⟩ =
            .ok (some (RawInterval.point p), ⟨r.reverse, s, none⟩) := by
          intro dbg
          rw [nextBack_rev]; simp [TineIter.nextBackWith, bind, Except.bind]
        have h0 : hj (RawInterval.point p) ps = false := by
          cases ps with
          | nil => rfl
          | cons q ps => simp only [hj, RawInterval.joined, RawInterval.lowerBound]; split <;> simp_all
        have := ih.1 r ps h (by simp at hl; omega) s (acc ++ [RawInterval.point p])
        refine ⟨?_, ?_⟩
        · rw [TineIter.collectBackAux]
          simp only [e, bind, Except.bind]
          rw [this.1, backD, h0, answer_map]; rfl
        · rw [TineIter.collectBackAux]
          simp only [e, bind, Except.bind]
          rw [this.2, list_eq, h0]; simp
      | @up u b r ps h nb => exact upper _ u b r ps (.inl rfl) h nb (by simp at hl; omega) s acc
    · cases h with
      | @pe y b' r ps h nb =>
        rw [after_eq, hj_pe nb ha]
        exact upper _ (.excl y) b' r ps (.inr ⟨y, rfl, rfl⟩) h nb (by simp at hl; omega) _ acc
      | @lo _ r _ h hq =>
        rw [after_eq, hj_lo hq ha, ha]
        refine ⟨?_, ?_⟩
        · rw [TineIter.collectBackAux, nextBack_rev]
          simp [TineIter.nextBackWith, dassert, Tine.isUpperBound, bind, Except.bind, answer]
        · cases h with
          | nil =>
            obtain ⟨n, rfl⟩ : ∃ m, n = m + 1 := ⟨n - 1, by simp at hl; omega⟩
            rw [TineIter.collectBackAux, nextBack_rev]
            simp [TineIter.nextBackWith, dassert, Tine.isUpperBound, Tine.isPointExclude, Tine.intoInner, bind, Except.bind,
              backRelease, TineIter.collectBackAux, TineIter.nextBack]
          | @pt p r ps h =>
            rw [TineIter.collectBackAux, nextBack_rev]
            have := (ih.1 r ps h (by simp at hl; omega) (some (.point (.excl x))) (acc ++ [RawInterval.new (.incl p) b])).2
            simp [TineIter.nextBackWith, dassert, Tine.isUpperBound, Tine.isPointExclude, Tine.intoInner, bind, Except.bind,
              backRelease, this, RawInterval.upperBound]
          | @up u b' r ps h nb =>
            rw [TineIter.collectBackAux, nextBack_rev]
            have := (ih.2 r ps b' h (by simp at hl; omega) (RawInterval.new b' u) nb.1 x (acc ++ [RawInterval.new u b])).2
            have e : backRelease (.gap (.excl x) b) (RawInterval.new b' u :: ps) =
                RawInterval.new u b :: backRelease (.after (.excl x) (RawInterval.new b' u) ps) ps := by
              rw [backRelease, nb.2.1]
              · rfl
              · exact nb.2.2
            simp [TineIter.nextBackWith, dassert, Tine.isUpperBound, Tine.isPointExclude, Tine.intoInner, bind, Except.bind,
              e, this]

theorem groups_ne {β : Type _} (j : β → β → Bool) (a : β) (l : List β) : ∃ g gs, groups j (a :: l) = (a :: g) :: gs := by
  unfold groups
  split
  · split
    · exact ⟨_, _, rfl⟩
    · exact ⟨_, _, rfl⟩
  · exact ⟨_, _, rfl⟩

theorem groups_cons (a : RawInterval α) (l : List (RawInterval α)) :
    (hj a l = true ∧ ∃ g gs, groups RawInterval.joined l = g :: gs ∧
      groups RawInterval.joined (a :: l) = (a :: g) :: gs) ∨
    (hj a l = false ∧ groups RawInterval.joined (a :: l) = [a] :: groups RawInterval.joined l) := by
  rcases l with _ | ⟨b, l⟩
  · exact .inr ⟨rfl, rfl⟩
  · obtain ⟨g, gs, e⟩ := groups_ne RawInterval.joined b l
    have e' : groups RawInterval.joined (a :: b :: l) =
        if a.joined b then (a :: b :: g) :: gs else [a] :: (b :: g) :: gs := by
      rw [groups.eq_def]; simp only [e]
    rw [e', e]
    simp only [hj]
    cases a.joined b
    · exact .inr ⟨rfl, rfl⟩
    · exact .inl ⟨rfl, _, _, rfl, rfl⟩

theorem everyOther_cons {β : Type _} (a : β) (l : List β) : everyOther (a :: l) = a :: everyOther l.tail := by
  cases l <;> rfl

theorem backD_groups (is : List (RawInterval α)) :
    backD true is = backDebug is ∧
    ∀ g gs, groups RawInterval.joined is = g :: gs → backD false is =
      if g.length % 2 = 0 ∧ gs.all (fun g => g.length % 2 == 1) then some (everyOther g.tail ++ gs.flatMap everyOther)
      else none := by
  induction is with
  | nil => exact ⟨by simp [backD, backDebug, groups], fun g gs h => by simp [groups] at h⟩
  | cons a l ih =>
    obtain ⟨ih1, ih2⟩ := ih
    rcases groups_cons a l with ⟨h, g, gs, e, e'⟩ | ⟨h, e'⟩
    · refine ⟨?_, fun g' gs' hg => ?_⟩
      · rw [backD, h, Bool.not_true, ih2 g gs e, backDebug, e']
        by_cases c : g.length % 2 = 0 ∧ gs.all (fun g => g.length % 2 == 1) = true
        · have c1 : (g.length + 1) % 2 = 1 := by omega
          rw [if_pos c, if_pos (by simp [c1]; simpa using c.2)]
          simp [everyOther_cons]
        · rw [if_neg c, if_neg]
          · rfl
          · intro c'
            simp at c'
            exact c ⟨by omega, by simpa using c'.2⟩
      · rw [e'] at hg
        cases hg
        rw [backD, h, if_pos rfl, ih1, backDebug, e]
        by_cases c : (g.length + 1) % 2 = 0 ∧ gs.all (fun g => g.length % 2 == 1) = true
        · have c1 : g.length % 2 = 1 := by omega
          rw [if_pos (by simp [c1]; simpa using c.2), if_pos (by simpa using c)]
          simp
        · rw [if_neg, if_neg (by simpa using c)]
          intro c'
          simp at c'
          exact c ⟨by omega, by simpa using c'.2⟩
    · refine ⟨?_, fun g' gs' hg => ?_⟩
      · rw [backD, h, Bool.not_false, ih1, backDebug, backDebug, e']
        by_cases c : (groups RawInterval.joined l).all (fun g => g.length % 2 == 1) = true
        · rw [if_pos c, if_pos (by simpa using c)]; simp [everyOther]
        · rw [if_neg c, if_neg (by simpa using c)]; rfl
      · rw [e'] at hg
        cases hg
        rw [backD, h]; simp

theorem backD_release (is : List (RawInterval α)) :
    (∀ l, backD true is = some l → backRelease .list is = l) ∧
    ∀ l x, backD false is = some l → backRelease (.skip x) is = l := by
  induction is with
  | nil => exact ⟨fun l h => by simp [backD] at h; simp [backRelease, h], fun l x h => by simp [backD] at h⟩
  | cons a rest ih =>
    refine ⟨fun l h => ?_, fun l x h => ?_⟩
    · rw [backD] at h
      rw [list_eq]
      cases hh : hj a rest <;> rw [hh] at h <;> simp at h <;> obtain ⟨l', h', rfl⟩ := h
      · simp [ih.1 l' h']
      · simp [ih.2 l' _ h']
    · rw [backD] at h
      rw [backRelease, after_eq]
      cases hh : hj a rest <;> rw [hh] at h <;> simp at h
      simp [ih.1 l h]

theorem backD_sublist (is : List (RawInterval α)) :
    (∀ l, backD true is = some l → l.Sublist is) ∧ ∀ l, backD false is = some l → l.Sublist is := by
  induction is with
  | nil => exact ⟨fun l h => by simp [backD] at h; simp [h], fun l h => by simp [backD] at h⟩
  | cons a rest ih =>
    refine ⟨fun l h => ?_, fun l h => ?_⟩
    · rw [backD] at h
      cases hh : hj a rest <;> rw [hh] at h <;> simp at h <;> obtain ⟨l', h', rfl⟩ := h
      · exact (ih.1 l' h').cons_cons a
      · exact (ih.2 l' h').cons_cons a
    · rw [backD] at h
      cases hh : hj a rest <;> rw [hh] at h <;> simp at h
      exact (ih.1 l h).cons a

/-- What the loop over a tree from the back gives. -/
theorem intervalsBack_debug {t : TineTree α} (h : Valid t) :
    TineTree.intervalsBack true t = (match backDebug (pieces none t).reverse with
      | some l => .ok l
      | none => .error .debugAssert) := by
  have := (collectBack_rev (TineIter.start t).size).1 _ _ ((rev_of_chain t h.1).1 h.2).1
    (by simp [TineIter.size, TineIter.start]; omega) none []
  rw [List.reverse_reverse] at this
  rw [TineTree.intervalsBack, TineIter.collectBack]
  refine this.1.trans ?_
  rw [(backD_groups _).1]
  cases backDebug (pieces none t).reverse <;> simp [answer]

theorem intervalsBack_release {t : TineTree α} (h : Valid t) :
    TineTree.intervalsBack false t = .ok (backRelease .list (pieces none t).reverse) := by
  have := (collectBack_rev (TineIter.start t).size).1 _ _ ((rev_of_chain t h.1).1 h.2).1
    (by simp [TineIter.size, TineIter.start]; omega) none []
  rw [List.reverse_reverse] at this
  rw [TineTree.intervalsBack, TineIter.collectBack]
  refine this.2.trans ?_
  simp

end TT

section Selection
open TT
variable {α : Type} [LinearOrder α] [Finite α] [LawfulFinite α]

theorem Selection.intervalsBackAux_map (dbg : Bool) (n : Nat) (it : TineIter α) (acc : List (RawInterval α)) :
    Selection.intervalsBackAux dbg n it (acc.map Selection.run) =
      (TineIter.collectBackAux dbg n it acc).map (List.map Selection.run) := by
  induction n generalizing it acc with
  | zero => rfl
  | succ n ih =>
    rw [Selection.intervalsBackAux, TineIter.collectBackAux, Selection.intervalNextBack]
    cases it.nextBack dbg with
    | error p => rfl
    | ok r =>
      obtain ⟨o, it'⟩ := r
      cases o with
      | none => rfl
      | some i =>
        have := ih it' (acc ++ [i])
        simp only [List.map_append, List.map_cons, List.map_nil] at this
        rw [← Selection.run_eq i] at this
        exact this

/-- The backward listing of a selection is that of its tree, interval by interval. -/
theorem Selection.intervalsBack_map (dbg : Bool) (s : Selection α) :
    s.intervalsBack dbg = (TineTree.intervalsBack dbg s.tree).map (List.map Selection.run) :=
  Selection.intervalsBackAux_map dbg _ _ []

theorem succ_some_of_lt {a x : α} (h : a < x) : ∃ l, succ a = some l := by
  cases e : succ a with
  | none => rw [LawfulFinite.succ_none] at e; rw [e] at h; exact absurd h (not_lt.2 (LawfulFinite.le_max x))
  | some l => exact ⟨l, rfl⟩

theorem pred_some_of_lt {b x : α} (h : x < b) : ∃ r, pred b = some r := by
  cases e : pred b with
  | none => rw [LawfulFinite.pred_none] at e; rw [e] at h; exact absurd h (not_lt.2 (LawfulFinite.min_le x))
  | some l => exact ⟨l, rfl⟩

theorem lower_run {i : RawInterval α} (g : Selection.Good i) (o : OpenIv i) :
    (∃ y l, i.lowerBound = some (.excl y) ∧ (Selection.run i).lowerBound = some (.incl l) ∧ succ y = some l) ∨
    (i.lowerBound = some .inf ∧ (Selection.run i).lowerBound = some (.incl minimum)) := by
  obtain ⟨hw, x, hx⟩ := g
  rcases o.cases with rfl | ⟨a, b, rfl⟩ | ⟨a, rfl⟩ | ⟨b, rfl⟩ | rfl
  · simp [RawInterval.contains] at hx
  · simp [RawInterval.contains] at hx
    have h1 : ∃ l, succ a = some l := succ_some_of_lt hx.1
    have h2 : ∃ l, pred b = some l := pred_some_of_lt hx.2
    obtain ⟨l, h1⟩ := h1
    obtain ⟨r, h2⟩ := h2
    exact .inl ⟨a, l, rfl, by simp [Selection.run, RawInterval.normalized, h1, h2, Interval.lowerBound,
      RawInterval.lowerBound], h1⟩
  · simp [RawInterval.contains] at hx
    have h1 : ∃ l, succ a = some l := succ_some_of_lt hx
    obtain ⟨l, h1⟩ := h1
    exact .inl ⟨a, l, rfl, by simp [Selection.run, RawInterval.normalized, h1, Interval.lowerBound,
      RawInterval.lowerBound], h1⟩
  · simp [RawInterval.contains] at hx
    have h2 : ∃ l, pred b = some l := pred_some_of_lt hx
    obtain ⟨r, h2⟩ := h2
    exact .inr ⟨rfl, by simp [Selection.run, RawInterval.normalized, h2, Interval.lowerBound,
      RawInterval.lowerBound]⟩
  · exact .inr ⟨rfl, rfl⟩

theorem upper_run {i : RawInterval α} (g : Selection.Good i) (o : OpenIv i) :
    (∃ y l, i.upperBound = some (.excl y) ∧ (Selection.run i).upperBound = some (.incl l) ∧ pred y = some l) ∨
    (i.upperBound = some .inf ∧ (Selection.run i).upperBound = some (.incl maximum)) := by
  obtain ⟨hw, x, hx⟩ := g
  rcases o.cases with rfl | ⟨a, b, rfl⟩ | ⟨a, rfl⟩ | ⟨b, rfl⟩ | rfl
  · simp [RawInterval.contains] at hx
  · simp [RawInterval.contains] at hx
    have h1 : ∃ l, succ a = some l := succ_some_of_lt hx.1
    have h2 : ∃ l, pred b = some l := pred_some_of_lt hx.2
    obtain ⟨l, h1⟩ := h1
    obtain ⟨r, h2⟩ := h2
    exact .inl ⟨b, r, rfl, by simp [Selection.run, RawInterval.normalized, h1, h2, Interval.upperBound,
      RawInterval.upperBound], h2⟩
  · simp [RawInterval.contains] at hx
    have h1 : ∃ l, succ a = some l := succ_some_of_lt hx
    obtain ⟨l, h1⟩ := h1
    exact .inr ⟨rfl, by simp [Selection.run, RawInterval.normalized, h1, Interval.upperBound,
      RawInterval.upperBound]⟩
  · simp [RawInterval.contains] at hx
    have h2 : ∃ l, pred b = some l := pred_some_of_lt hx
    obtain ⟨r, h2⟩ := h2
    exact .inl ⟨b, r, rfl, by simp [Selection.run, RawInterval.normalized, h2, Interval.upperBound,
      RawInterval.upperBound], h2⟩
  · exact .inr ⟨rfl, rfl⟩

theorem oneApart_run {i j : RawInterval α} (gi : Selection.Good i) (oi : OpenIv i) (gj : Selection.Good j)
    (oj : OpenIv j) : (Selection.run i).oneApart (Selection.run j) = i.joined j := by
  rcases lower_run gi oi with ⟨y, l, e1, e2, e3⟩ | ⟨e1, e2⟩ <;>
    rcases upper_run gj oj with ⟨x, u, f1, f2, f3⟩ | ⟨f1, f2⟩ <;>
    simp only [Interval.oneApart, RawInterval.joined, e1, e2, f1, f2]
  · have hu : succ u = some x := pred_eq_iff.1 f3
    rw [hu]
    simp only [Option.bind_some]
    congr 1
    rw [eq_iff_iff]
    constructor
    · intro h
      have h1 := pred_eq_iff.2 h
      have h2 := pred_eq_iff.2 e3
      rw [h1] at h2; exact (Option.some.inj h2)
    · rintro rfl; exact e3
  · have : succ (maximum : α) = none := (LawfulFinite.succ_none _).2 rfl
    rw [this]; simp
  · have hu : succ u = some x := pred_eq_iff.1 f3
    rw [hu]
    have : pred (minimum : α) = none := (LawfulFinite.pred_none _).2 rfl
    simp only [Option.bind_some, decide_eq_false_iff_not]
    intro h
    rw [pred_eq_iff.2 h] at this; cases this
  · have : succ (maximum : α) = none := (LawfulFinite.succ_none _).2 rfl
    rw [this]; simp

theorem groups_map {β γ : Type} (f : β → γ) (p : β → β → Bool) (q : γ → γ → Bool) (l : List β)
    (h : ∀ a ∈ l, ∀ b ∈ l, q (f a) (f b) = p a b) : groups q (l.map f) = (groups p l).map (List.map f) := by
  induction l with
  | nil => rfl
  | cons a l ih =>
    have ih := ih fun x hx y hy => h x (by simp [hx]) y (by simp [hy])
    cases l with
    | nil => rfl
    | cons b l =>
      obtain ⟨g0, gs, hg⟩ := groups_ne p b l
      generalize b :: g0 = g at hg
      rw [hg] at ih
      simp only [List.map_cons] at ih
      have e1 : groups p (a :: b :: l) = if p a b then (a :: g) :: gs else [a] :: g :: gs := by
        rw [groups.eq_def]; simp only [hg]
      have e2 : groups q (f a :: f b :: l.map f) = if q (f a) (f b) then (f a :: g.map f) :: gs.map (List.map f)
          else [f a] :: g.map f :: gs.map (List.map f) := by
        rw [groups.eq_def]; simp only [ih]
      rw [e1, List.map_cons, List.map_cons, e2, h a (by simp) b (by simp)]
      cases p a b <;> simp

theorem everyOther_map {β γ : Type} (f : β → γ) : ∀ l : List β, everyOther (l.map f) = (everyOther l).map f
  | [] => rfl
  | [a] => rfl
  | a :: b :: l => by simp [everyOther, everyOther_map f l]

theorem Selection.back_of_groups (gs : List (List (RawInterval α))) :
    Except.map (List.map Selection.run) (match (if gs.all (fun g => g.length % 2 == 1) = true then
        some (gs.flatMap everyOther) else none : Option (List (RawInterval α))) with
      | some l => (.ok l : Except Panic (List (RawInterval α)))
      | none => .error .debugAssert) =
    if (gs.map (List.map Selection.run)).all (fun g => g.length % 2 == 1) = true then
      .ok ((gs.map (List.map Selection.run)).flatMap everyOther) else .error .debugAssert := by
  have e2 : (gs.map (List.map Selection.run)).all (fun g => g.length % 2 == 1) =
      gs.all (fun g => g.length % 2 == 1) := by
    simp [List.all_map, Function.comp_def]
  rw [e2]
  split_ifs
  · simp only [Except.map]
    congr 1
    rw [List.flatMap_map, List.map_flatMap]
    congr 1
    funext g
    exact (everyOther_map _ _).symm
  · rfl

end Selection
end NI
