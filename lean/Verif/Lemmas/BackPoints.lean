import Verif.Lemmas.BackwardAny

/-! # Values from the back -/

set_option linter.unusedSimpArgs false
set_option linter.unusedVariables false
set_option linter.unusedSectionVars false

namespace NI
open _root_.NI.Finite TT

namespace TT
section
variable {α : Type} [LinearOrder α]

/-- What `next_back` returns call by call, and how it ends: with `None` for good or with a panic. -/
inductive Lists (dbg : Bool) : TineIter α → List (RawInterval α) → Option Panic → Prop
  | stop {it} : it.nextBack dbg = .ok (none, it) → Lists dbg it [] none
  | fail {it p} : it.nextBack dbg = .error p → Lists dbg it [] (some p)
  | step {it i it' ls f} : it.nextBack dbg = .ok (some i, it') → Lists dbg it' ls f → Lists dbg it (i :: ls) f

/-- The intervals listed, and whether there is a panic after them. -/
def backL : Bool → List (RawInterval α) → List (RawInterval α) × Bool
  | true, [] => ([], false)
  | true, a :: rest => (a :: (backL (!hj a rest) rest).1, (backL (!hj a rest) rest).2)
  | false, [] => ([], true)
  | false, a :: rest => if hj a rest then backL true rest else ([], true)

def ending (b : Bool) : Option Panic := if b then some .debugAssert else none

theorem lists_rev {o : Option (Bound α)} {r : List (Tine α)} {ps : List (RawInterval α)} (h : Rev o r ps) :
    (o = none → ∀ s, Lists true ⟨r.reverse, s, none⟩ (backL true ps).1 (ending (backL true ps).2)) ∧
    (∀ b, o = some b → (∀ (a : RawInterval α), a.lowerBound = some b → ∀ s, Lists true ⟨r.reverse, s, none⟩
        (if hj a ps then backL true ps else ([], true)).1 (ending (if hj a ps then backL true ps else ([], true)).2)) ∧
      ∀ (t : Tine α) u, (t = .upper u ∨ ∃ x, t = .point (.excl x) ∧ u = .excl x) → NB b u → ∀ s,
        Lists true ⟨(t :: r).reverse, s, none⟩ (backL true (RawInterval.new b u :: ps)).1
          (ending (backL true (RawInterval.new b u :: ps)).2)) := by
  induction h with
  | nil =>
    refine ⟨fun _ s => ?_, fun b hb => by cases hb⟩
    exact .stop (by simp [TineIter.nextBack])
  | @pt p r ps h ih =>
    refine ⟨fun _ s => ?_, fun b hb => by cases hb⟩
    have e : TineIter.nextBack true ⟨(.point (.incl p) :: r).reverse, s, none⟩ =
        .ok (some (RawInterval.point p), ⟨r.reverse, s, none⟩) := by
      rw [nextBack_rev]; simp [TineIter.nextBackWith, bind, Except.bind]
    have h0 : hj (RawInterval.point p) ps = false := by
      cases ps with
      | nil => rfl
      | cons q ps => simp only [hj, RawInterval.joined, RawInterval.lowerBound]; split <;> simp_all
    rw [backL, h0]
    exact .step e (ih.1 rfl s)
  | @up u b r ps h nb ih =>
    exact ⟨fun _ s => (ih.2 b rfl).2 _ u (.inl rfl) nb s, fun b hb => by cases hb⟩
  | @lo b r ps h hq ih =>
    refine ⟨fun h => (by cases h), fun b' hb => ?_⟩
    cases hb
    refine ⟨fun a ha s => ?_, fun t u ht nb s => ?_⟩
    · rw [hj_lo hq ha]
      refine .fail ?_
      rw [nextBack_rev]
      simp [TineIter.nextBackWith, dassert, Tine.isUpperBound, bind, Except.bind]
    · have h0 : hj (RawInterval.new b u) ps = false := hj_lo hq nb.1
      rw [backL, h0]
      refine .step ?_ (ih.1 rfl s)
      rw [nextBack_rev]
      rcases ht with rfl | ⟨x, rfl, rfl⟩ <;>
        simp [TineIter.nextBackWith, dassert, Tine.isUpperBound, Tine.isLowerBound, Tine.isPointExclude,
          Tine.intoInner, bind, Except.bind]
  | @pe z b r ps h nb ih =>
    refine ⟨fun h => (by cases h), fun b' hb => ?_⟩
    cases hb
    refine ⟨fun a ha s => ?_, fun t u ht nb' s => ?_⟩
    · rw [hj_pe nb ha]
      exact (ih.2 b rfl).2 _ (.excl z) (.inr ⟨z, rfl, rfl⟩) nb s
    · have h0 : hj (RawInterval.new (.excl z) u) (RawInterval.new b (.excl z) :: ps) = true := hj_pe nb nb'.1
      have := (ih.2 b rfl).1 (RawInterval.new b (.excl z)) nb.1 (some (.point (.excl z)))
      rw [backL, h0]
      refine .step (it' := ⟨r.reverse, some (.point (.excl z)), none⟩) ?_ ?_
      · rw [nextBack_rev]
        rcases ht with rfl | ⟨x, rfl, rfl⟩ <;>
          simp [TineIter.nextBackWith, dassert, Tine.isUpperBound, Tine.isLowerBound, Tine.isPointExclude,
            Tine.intoInner, bind, Except.bind]
      · rw [Bool.not_true, backL]; exact this

theorem lists_tree {t : TineTree α} (h : Valid t) : Lists true (TineIter.start t)
    (backL true (pieces none t).reverse).1 (ending (backL true (pieces none t).reverse).2) := by
  have := (lists_rev ((rev_of_chain t h.1).1 h.2).1).1 rfl none
  rw [List.reverse_reverse] at this
  exact this

theorem backL_groups (is : List (RawInterval α)) :
    backL true is = ((throughEven (groups RawInterval.joined is)).flatMap everyOther,
      (groups RawInterval.joined is).any fun g => g.length % 2 == 0) ∧
    ∀ g gs, groups RawInterval.joined is = g :: gs → backL false is =
      if g.length % 2 = 0 then (everyOther g.tail ++ (throughEven gs).flatMap everyOther, gs.any fun g => g.length % 2 == 0)
      else (everyOther g.tail, true) := by
  induction is with
  | nil => exact ⟨rfl, fun g gs h => by simp [groups] at h⟩
  | cons a l ih =>
    obtain ⟨ih1, ih2⟩ := ih
    rcases groups_cons a l with ⟨h, g, gs, e, e'⟩ | ⟨h, e'⟩
    · refine ⟨?_, fun g' gs' hg => ?_⟩
      · rw [backL, h, Bool.not_true, ih2 g gs e, e']
        by_cases c : g.length % 2 = 0
        · have c1 : (g.length + 1) % 2 = 1 := by omega
          simp [throughEven, c, c1, everyOther_cons]
        · have c1 : (g.length + 1) % 2 = 0 := by omega
          simp [throughEven, c, c1, everyOther_cons]
      · rw [e'] at hg
        cases hg
        rw [backL, h, if_pos rfl, ih1, e]
        by_cases c : g.length % 2 = 0
        · have c1 : (g.length + 1) % 2 = 1 := by omega
          simp [throughEven, c, c1]
        · have c1 : (g.length + 1) % 2 = 0 := by omega
          simp [throughEven, c, c1]
    · refine ⟨?_, fun g' gs' hg => ?_⟩
      · rw [backL, h, Bool.not_false, ih1, e']
        simp [throughEven, everyOther]
      · rw [e'] at hg
        cases hg
        rw [backL, h]; simp [everyOther]

theorem backL_sublist (is : List (RawInterval α)) : (backL true is).1.Sublist is ∧ (backL false is).1.Sublist is := by
  induction is with
  | nil => simp [backL]
  | cons a rest ih =>
    refine ⟨?_, ?_⟩
    · rw [backL]
      cases hj a rest
      · exact ih.1.cons_cons a
      · exact ih.2.cons_cons a
    · rw [backL]
      cases hj a rest
      · simp
      · exact ih.1.cons a

theorem nextBackWith_release {x : Tine α} {it : TineIter α} {r} (h : TineIter.nextBackWith true x it = .ok r) :
    TineIter.nextBackWith false x it = .ok r := by
  rcases x with b | (p | p | _) | u <;>
    simp only [TineIter.nextBackWith, dassert, bind, Except.bind, Tine.isUpperBound] at h ⊢ <;>
    (try exact h) <;> (try cases h) <;>
    (rcases hg : it.tines.getLast? with _ | y <;> rcases hs : it.savedLower with _ | z <;>
      simp only [hg, hs] at h ⊢ <;> (try cases h) <;>
      (first
        | (rcases y with b | (p | p | _) | u)
        | (rcases z with b | (p | p | _) | u)) <;> simp_all [Tine.isLowerBound, Tine.isPointExclude])

theorem lists_release {it : TineIter α} {ls : List (RawInterval α)} {f : Option Panic} (h : Lists true it ls f)
    (hf : f = none) : Lists false it ls none := by
  have key : ∀ {it : TineIter α} {r}, it.nextBack true = .ok r → it.nextBack false = .ok r := by
    intro it r h
    rw [TineIter.nextBack] at h ⊢
    rcases hs : it.savedUpper with _ | x <;> rw [hs] at h
    · rcases hg : it.tines.getLast? with _ | y <;> rw [hg] at h
      · exact h
      · simp only [bind, Except.bind] at h ⊢
        cases e : TineIter.nextBackWith true y ⟨it.tines.dropLast, it.savedLower, none⟩ with
        | error p => rw [e] at h; cases h
        | ok q => rw [nextBackWith_release e]; rw [e] at h; exact h
    · simp only [bind, Except.bind] at h ⊢
      cases e : TineIter.nextBackWith true x { it with savedUpper := none } with
      | error p => rw [e] at h; cases h
      | ok q => rw [nextBackWith_release e]; rw [e] at h; exact h
  induction h with
  | stop h => exact .stop (key h)
  | fail h => cases hf
  | step h _ ih => exact .step (key h) (ih hf)

theorem throughEven_odd {β : Type _} {gs : List (List β)} (h : ∀ g ∈ gs, g.length % 2 = 1) : throughEven gs = gs := by
  induction gs with
  | nil => rfl
  | cons g gs ih =>
    have := h g (by simp)
    rw [throughEven, if_neg (by omega), ih fun g hg => h g (by simp [hg])]

theorem throughEven_map {β γ : Type _} (f : β → γ) (gs : List (List β)) :
    throughEven (gs.map (List.map f)) = (throughEven gs).map (List.map f) := by
  induction gs with
  | nil => rfl
  | cons g gs ih =>
    simp only [List.map_cons, throughEven, List.length_map]
    split_ifs
    · rfl
    · rw [ih]; rfl

end
end TT

namespace Selection
variable {α : Type} [LinearOrder α] [Finite α] [LawfulFinite α]

theorem points_of_lists (dbg : Bool) (n : Nat) : ∀ {it : TineIter α} {ls : List (RawInterval α)} {f : Option Panic}
    {cur : Interval α}, Lists dbg it ls f → cur.Obtainable → cur.Real → (∀ i ∈ ls, Good i) →
    (ls.Pairwise fun i j => ∀ x y, i.contains x = true → j.contains y = true → y < x) →
    (∀ x ∈ cur.pts, ∀ y ∈ rest ls, y < x) →
    (∃ os, drive (PointIter.next dbg) (PointIter.nextBack dbg) ⟨it, cur⟩ (List.replicate n .nextBack) = .ok os ∧
      Walk (cur.pts ∪ rest ls) (List.replicate n .nextBack) os ∧ (f ≠ none → none ∉ os)) ∨
    ∃ p m os, f = some p ∧
      drive (PointIter.next dbg) (PointIter.nextBack dbg) ⟨it, cur⟩ (List.replicate n .nextBack) = .error p ∧ m < n ∧
      drive (PointIter.next dbg) (PointIter.nextBack dbg) ⟨it, cur⟩ (List.replicate m .nextBack) = .ok os ∧
      ∀ x ∈ cur.pts ∪ rest ls, some x ∈ os := by
  induction n with
  | zero => intros; exact .inl ⟨[], rfl, .nil _, fun _ => by simp⟩
  | succ n ih =>
    intro it ls f cur hl ho hr hg hi hlt
    rw [List.replicate_succ]
    rcases Interval.iter_step ho hr with ⟨he, -, h1⟩ | ⟨-, ⟨m, c', hm, h1, h2, h3, h4⟩⟩
    · cases hl with
      | stop k4 =>
        rcases ih (.stop k4) ho hr hg hi hlt with ⟨os, e, w, hn⟩ | ⟨p, m, os, hp, _⟩
        · refine .inl ⟨none :: os, ?_, .done ?_ w, fun h => absurd rfl h⟩
          · simp only [drive, PointIter.nextBack, h1, intervalNextBack, k4, bind, Except.bind,
              Option.map_none, e]
            rfl
          · rw [he]; ext x; simp [rest]
        · cases hp
      | @fail _ p k4 =>
        refine .inr ⟨p, 0, [], rfl, ?_, by omega, rfl, ?_⟩
        · simp only [drive, PointIter.nextBack, h1, intervalNextBack, k4, bind, Except.bind]
        · rw [he]; simp [rest]
      | @step _ i it' ls' _ k5 hl' =>
        obtain ⟨g1, g2, g3⟩ := (hg i (by simp)).run_ok
        rcases Interval.iter_step g1 g2 with ⟨z, -⟩ | ⟨-, ⟨m, c', hm, j1, j2, j3, j4⟩⟩
        · rw [z] at g3; exact absurd g3 (by simp)
        have hlt' : ∀ x ∈ (run i).pts, ∀ y ∈ rest ls', y < x := by
          rw [run_pts]
          rintro x hx y ⟨j, hj, hy⟩
          exact (List.pairwise_cons.1 hi).1 j hj x y hx hy
        have hS : cur.pts ∪ rest (i :: ls') = (run i).pts ∪ rest ls' := by
          rw [he, run_pts]; ext x; simp [rest]
        have hS' : ((run i).pts ∪ rest ls') \ {m} = c'.pts ∪ rest ls' := by
          rw [j4]
          ext x
          simp only [Set.mem_sdiff, Set.mem_union, Set.mem_singleton_iff]
          constructor
          · rintro ⟨h | h, h'⟩
            · exact .inl ⟨h, h'⟩
            · exact .inr h
          · rintro (⟨h, h'⟩ | h)
            · exact ⟨.inl h, h'⟩
            · exact ⟨.inr h, (hlt' m hm.1 x h).ne⟩
        have st : ∀ cs, drive (PointIter.next dbg) (PointIter.nextBack dbg) ⟨it, cur⟩ (.nextBack :: cs) =
            (drive (PointIter.next dbg) (PointIter.nextBack dbg) ⟨it', c'⟩ cs).map (some m :: ·) := by
          intro cs
          simp only [drive, PointIter.nextBack, h1, intervalNextBack, k5, bind, Except.bind,
            Option.map_some, run_eq, j1]
          cases drive (PointIter.next dbg) (PointIter.nextBack dbg) ⟨it', c'⟩ cs <;> rfl
        rcases ih (cur := c') hl' j2 j3 (fun j hj => hg j (by simp [hj])) (List.pairwise_cons.1 hi).2
          (fun x hx => hlt' x (by rw [j4] at hx; exact hx.1)) with ⟨os, e, w, hn⟩ | ⟨p, k, os, hp, e, hk, e2, hx⟩
        · refine .inl ⟨some m :: os, by rw [st, e]; rfl, .nextBack ?_ ?_, fun hf => by simpa using hn hf⟩
          · rw [hS]
            refine ⟨.inl hm.1, ?_⟩
            rintro x (hx | hx)
            · exact hm.2 hx
            · exact (hlt' m hm.1 x hx).le
          · rw [hS, hS']; exact w
        · refine .inr ⟨p, k + 1, some m :: os, hp, by rw [st, e]; rfl, by omega, ?_, ?_⟩
          · rw [List.replicate_succ, st, e2]; rfl
          · rw [hS]
            intro x hx'
            by_cases c : x = m
            · subst c; simp
            · have := hx x (by rw [← hS']; exact ⟨hx', c⟩)
              simp [this]
    · have hS' : (cur.pts ∪ rest ls) \ {m} = c'.pts ∪ rest ls := by
        rw [h4]
        ext x
        simp only [Set.mem_sdiff, Set.mem_union, Set.mem_singleton_iff]
        constructor
        · rintro ⟨h | h, h'⟩
          · exact .inl ⟨h, h'⟩
          · exact .inr h
        · rintro (⟨h, h'⟩ | h)
          · exact ⟨.inl h, h'⟩
          · exact ⟨.inr h, (hlt m hm.1 x h).ne⟩
      have st : ∀ cs, drive (PointIter.next dbg) (PointIter.nextBack dbg) ⟨it, cur⟩ (.nextBack :: cs) =
          (drive (PointIter.next dbg) (PointIter.nextBack dbg) ⟨it, c'⟩ cs).map (some m :: ·) := by
        intro cs
        simp only [drive, PointIter.nextBack, h1, bind, Except.bind]
        cases drive (PointIter.next dbg) (PointIter.nextBack dbg) ⟨it, c'⟩ cs <;> rfl
      rcases ih (cur := c') hl h2 h3 hg hi
        (fun x hx => hlt x (by rw [h4] at hx; exact hx.1)) with ⟨os, e, w, hn⟩ | ⟨p, k, os, hp, e, hk, e2, hx⟩
      · refine .inl ⟨some m :: os, by rw [st, e]; rfl, .nextBack ?_ ?_, fun hf => by simpa using hn hf⟩
        · refine ⟨.inl hm.1, ?_⟩
          rintro x (hx | hx)
          · exact hm.2 hx
          · exact (hlt m hm.1 x hx).le
        · rw [hS']; exact w
      · refine .inr ⟨p, k + 1, some m :: os, hp, by rw [st, e]; rfl, by omega, ?_, ?_⟩
        · rw [List.replicate_succ, st, e2]; rfl
        · intro x hx'
          by_cases c : x = m
          · subst c; simp
          · have := hx x (by rw [← hS']; exact ⟨hx', c⟩)
            simp [this]

/-- The values of the intervals in a list. -/
theorem rest_runs (gs : List (List (RawInterval α))) :
    rest (gs.flatMap everyOther) = {x | ∃ i ∈ (gs.map (List.map run)).flatMap everyOther, x ∈ i.pts} := by
  ext x
  simp only [rest, Set.mem_ofPred_eq, List.flatMap_map, everyOther_map, List.mem_flatMap, List.mem_map]
  constructor
  · rintro ⟨i, ⟨g, hg, hi⟩, hx⟩
    exact ⟨run i, ⟨g, hg, i, hi, rfl⟩, by rw [run_pts]; exact hx⟩
  · rintro ⟨_, ⟨g, hg, i, hi, rfl⟩, hx⟩
    rw [run_pts] at hx
    exact ⟨i, ⟨g, hg, hi⟩, hx⟩

theorem back_values (n : Nat) {s : Selection α} (v : Valid s.tree) (hg : ∀ i ∈ pieces none s.tree, Good i)
    {gs : List (List (Interval α))}
    (e : gs = (groups RawInterval.joined (pieces none s.tree).reverse).map (List.map run)) :
    ((∃ os, drive (PointIter.next true) (PointIter.nextBack true) (PointIter.start s) (List.replicate n .nextBack) = .ok os ∧
        Walk {x | ∃ i ∈ (throughEven gs).flatMap everyOther, x ∈ i.pts} (List.replicate n .nextBack) os ∧
        ((∃ g ∈ gs, g.length % 2 = 0) → none ∉ os)) ∨
      ((∃ g ∈ gs, g.length % 2 = 0) ∧
        drive (PointIter.next true) (PointIter.nextBack true) (PointIter.start s) (List.replicate n .nextBack) =
          .error .debugAssert ∧ ∃ m os, m < n ∧
        drive (PointIter.next true) (PointIter.nextBack true) (PointIter.start s) (List.replicate m .nextBack) = .ok os ∧
        ∀ x, (∃ i ∈ (throughEven gs).flatMap everyOther, x ∈ i.pts) → some x ∈ os)) ∧
    ((∀ g ∈ gs, g.length % 2 = 1) → ∃ os,
      drive (PointIter.next false) (PointIter.nextBack false) (PointIter.start s) (List.replicate n .nextBack) = .ok os ∧
        Walk {x | ∃ i ∈ (throughEven gs).flatMap everyOther, x ∈ i.pts} (List.replicate n .nextBack) os) := by
  have hl := lists_tree v
  have hsub := (backL_sublist (pieces none s.tree).reverse).1
  have hG : ∀ i ∈ (backL true (pieces none s.tree).reverse).1, Good i := fun i hi =>
    hg i (List.mem_reverse.1 (hsub.subset hi))
  have hP : (backL true (pieces none s.tree).reverse).1.Pairwise
      fun i j => ∀ x y, i.contains x = true → j.contains y = true → y < x := by
    refine List.Pairwise.sublist hsub (List.pairwise_reverse.2 ?_)
    exact (pieces_inc v).imp fun h x y hx hy => h y x hy hx
  have hS : (Interval.empty : Interval α).pts ∪ rest (backL true (pieces none s.tree).reverse).1 =
      {x | ∃ i ∈ (throughEven gs).flatMap everyOther, x ∈ i.pts} := by
    rw [(backL_groups _).1, rest_runs, e, throughEven_map]
    have : (Interval.empty : Interval α).pts = ∅ := by rw [Interval.pts_eq]; rfl
    rw [this, Set.empty_union]
  have hE : (∃ g ∈ gs, g.length % 2 = 0) ↔ (backL true (pieces none s.tree).reverse).2 = true := by
    rw [(backL_groups _).1, e]
    simp
  have hd : ∀ x ∈ (Interval.empty : Interval α).pts,
      ∀ y ∈ rest (backL true (pieces none s.tree).reverse).1, y < x := by
    intro x hx
    rw [Interval.pts_eq] at hx; cases hx
  refine ⟨?_, fun hodd => ?_⟩
  · rcases points_of_lists true n hl .empty (.inl rfl) hG hP hd with ⟨os, e1, w, hn⟩ | ⟨p, m, os, hp, e1, hm, e2, hx⟩
    · refine .inl ⟨os, e1, by rw [← hS]; exact w, fun h => hn ?_⟩
      rw [hE] at h; rw [h]; simp [ending]
    · have hb : (backL true (pieces none s.tree).reverse).2 = true := by
        cases h : (backL true (pieces none s.tree).reverse).2 with
        | true => rfl
        | false => rw [h] at hp; cases hp
      rw [hb] at hp; cases hp
      exact .inr ⟨hE.2 hb, e1, m, os, hm, e2, fun x h => hx x (by rw [hS]; exact h)⟩
  · have hb : (backL true (pieces none s.tree).reverse).2 = false := by
      rw [← Bool.not_eq_true, ← hE]
      rintro ⟨g, h1, h2⟩
      have := hodd g h1; omega
    rcases points_of_lists false n (lists_release hl (by rw [hb]; rfl)) .empty (.inl rfl) hG hP hd with
      ⟨os, e1, w, hn⟩ | ⟨p, m, os, hp, _⟩
    · exact ⟨os, e1, by rw [← hS]; exact w⟩
    · cases hp

end Selection
end NI
