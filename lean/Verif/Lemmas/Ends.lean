import Verif.Lemmas.Back

/-! # Point iteration from both ends, for C58 -/

set_option linter.unusedSimpArgs false
set_option linter.unusedVariables false
set_option linter.unusedSectionVars false

namespace NI
open Finite TT

namespace Selection
variable {α : Type} [LinearOrder α] [Finite α] [LawfulFinite α]

/-- Every call sequence from the state `st` walks through the set `S`. -/
def Walks (dbg : Bool) (st : PointIter α) (S : Set α) : Prop :=
  ∀ cs, ∃ os, drive (PointIter.next dbg) (PointIter.nextBack dbg) st cs = .ok os ∧ Walk S cs os

theorem Walks.next {dbg : Bool} {st st' : PointIter α} {S : Set α} (h : Walks dbg st S) {m : α}
    (e : PointIter.next dbg st = .ok (some m, st')) : IsLeast S m ∧ Walks dbg st' (S \ {m}) := by
  have key : ∀ cs, IsLeast S m ∧ ∃ os, drive (PointIter.next dbg) (PointIter.nextBack dbg) st' cs = .ok os ∧
      Walk (S \ {m}) cs os := by
    intro cs
    obtain ⟨os, h1, h2⟩ := h (.next :: cs)
    simp only [drive, e, bind, Except.bind] at h1
    cases hd : drive (PointIter.next dbg) (PointIter.nextBack dbg) st' cs with
    | error _ => rw [hd] at h1; cases h1
    | ok os' =>
      rw [hd] at h1
      cases h1
      cases h2 with
      | next hm hw => exact ⟨hm, os', rfl, hw⟩
  exact ⟨(key []).1, fun cs => (key cs).2⟩

theorem Walks.back {dbg : Bool} {st st' : PointIter α} {S : Set α} (h : Walks dbg st S) {m : α}
    (e : PointIter.nextBack dbg st = .ok (some m, st')) : IsGreatest S m ∧ Walks dbg st' (S \ {m}) := by
  have key : ∀ cs, IsGreatest S m ∧ ∃ os, drive (PointIter.next dbg) (PointIter.nextBack dbg) st' cs = .ok os ∧
      Walk (S \ {m}) cs os := by
    intro cs
    obtain ⟨os, h1, h2⟩ := h (.nextBack :: cs)
    simp only [drive, e, bind, Except.bind] at h1
    cases hd : drive (PointIter.next dbg) (PointIter.nextBack dbg) st' cs with
    | error _ => rw [hd] at h1; cases h1
    | ok os' =>
      rw [hd] at h1
      cases h1
      cases h2 with
      | nextBack hm hw => exact ⟨hm, os', rfl, hw⟩
  exact ⟨(key []).1, fun cs => (key cs).2⟩

theorem real_no_pts {i : Interval α} (h : i.Obtainable) (hr : i.Real) (he : i.pts = ∅) :
    i = Interval.empty := by
  rcases Interval.real_cases h hr with rfl | ⟨p, rfl⟩ | ⟨l, u, rfl, hlu⟩
  · rfl
  · have : p ∈ (⟨.point p⟩ : Interval α).pts := by rw [Interval.pts_eq]; rfl
    rw [he] at this; exact this.elim
  · have : l ∈ (⟨.closed l u⟩ : Interval α).pts := by rw [Interval.pts_eq]; exact ⟨le_refl _, hlu⟩
    rw [he] at this; exact this.elim

theorem front_step (dbg : Bool) {t : TineTree α} (hok : ∀ x ∈ t, x.Ok) (hf : HoleFree t)
    (hc : Chain false t false) (hg : ∀ i ∈ pieces none t, Good i) :
    (t = [] ∧ PointIter.next dbg ⟨⟨t, none, none⟩, .empty⟩ = .ok (none, ⟨⟨t, none, none⟩, .empty⟩) ∧
      PointIter.nextBack dbg ⟨⟨t, none, none⟩, .empty⟩ = .ok (none, ⟨⟨t, none, none⟩, .empty⟩)) ∨
    ((∃ i A m c', pieces none t = i :: pieces none A ∧ (∀ x ∈ A, x.Ok) ∧ HoleFree A ∧
        Chain false A false ∧ IsLeast (run i).pts m ∧ c'.Obtainable ∧ c'.Real ∧
        c'.pts = (run i).pts \ {m} ∧
        PointIter.next dbg ⟨⟨t, none, none⟩, .empty⟩ = .ok (some m, ⟨⟨A, none, none⟩, c'⟩)) ∧
     (∃ i A m c', pieces none t = pieces none A ++ [i] ∧ (∀ x ∈ A, x.Ok) ∧ HoleFree A ∧
        Chain false A false ∧ IsGreatest (run i).pts m ∧ c'.Obtainable ∧ c'.Real ∧
        c'.pts = (run i).pts \ {m} ∧
        PointIter.nextBack dbg ⟨⟨t, none, none⟩, .empty⟩ = .ok (some m, ⟨⟨A, none, none⟩, c'⟩))) := by
  have e1 : Interval.next (Interval.empty : Interval α) = .ok (none, Interval.empty) := rfl
  have e2 : Interval.nextBack (Interval.empty : Interval α) = .ok (none, Interval.empty) := rfl
  rcases deque_step dbg hok hf hc with ⟨k1, k2, k3⟩ | ⟨⟨i, A, k1, k2, k3, k4, k5⟩, j, B, l1, l2, l3, l4, l5⟩
  · left
    refine ⟨k1, ?_, ?_⟩
    · simp only [PointIter.next, e1, intervalNext, k2, bind, Except.bind, Option.map_none]
    · simp only [PointIter.nextBack, e2, intervalNextBack, k3, bind, Except.bind, Option.map_none]
  · right
    constructor
    · obtain ⟨g1, g2, g3⟩ := (hg i (by rw [k1]; simp)).run_ok
      rcases Interval.iter_step g1 g2 with ⟨z, -⟩ | ⟨⟨m, c', hm, j1, j2, j3, j4⟩, -⟩
      · rw [z] at g3; exact absurd g3 (by simp)
      refine ⟨i, A, m, c', k1, k2, k3, k4, hm, j2, j3, j4, ?_⟩
      simp only [PointIter.next, e1, intervalNext, k5, bind, Except.bind, Option.map_some, run_eq, j1]
    · obtain ⟨g1, g2, g3⟩ := (hg j (by rw [l1]; simp)).run_ok
      rcases Interval.iter_step g1 g2 with ⟨z, -⟩ | ⟨-, ⟨m, c', hm, j1, j2, j3, j4⟩⟩
      · rw [z] at g3; exact absurd g3 (by simp)
      refine ⟨j, B, m, c', l1, l2, l3, l4, hm, j2, j3, j4, ?_⟩
      simp only [PointIter.nextBack, e2, intervalNextBack, l5, bind, Except.bind, Option.map_some,
        run_eq, j1]

theorem rest_cons (i : RawInterval α) (L : List (RawInterval α)) : rest (i :: L) = (run i).pts ∪ rest L := by
  rw [run_pts]; ext x; simp [rest]

theorem rest_snoc (i : RawInterval α) (L : List (RawInterval α)) : rest (L ++ [i]) = (run i).pts ∪ rest L := by
  rw [run_pts]; ext x; simp [rest]; exact Or.comm

/-- If mixed iteration walks, then there is at most one piece or each piece is a single point. -/
theorem walks_single (dbg : Bool) (n : Nat) : ∀ {t : TineTree α}, (pieces none t).length = n →
    (∀ x ∈ t, x.Ok) → HoleFree t → Chain false t false → (∀ i ∈ pieces none t, Good i) →
    Inc (pieces none t) → Walks dbg ⟨⟨t, none, none⟩, .empty⟩ (rest (pieces none t)) →
    n ≤ 1 ∨ ∀ i ∈ pieces none t, ∃ p, (run i).pts = {p} := by
  induction n with
  | zero => intros; exact .inl (by omega)
  | succ n ih =>
    intro t hn hok hf hc hg hi hw
    rcases Nat.eq_zero_or_pos n with h0 | h0
    · left; omega
    right
    rcases front_step dbg hok hf hc hg with ⟨rfl, -⟩ |
      ⟨⟨i, A, m, c, k1, k2, k3, k4, hm, co, cr, cp, e⟩, j, B, u, d, l1, l2, l3, l4, hu, do', dr, dp, e'⟩
    · simp [pieces] at hn
    have hS := rest_cons i (pieces none A)
    rw [← k1] at hS
    have hA : (pieces none A).length = n := by rw [k1] at hn; simpa using hn
    have hgA : ∀ i ∈ pieces none A, Good i := fun i hi => hg i (by rw [k1]; simp [hi])
    have hiA : Inc (pieces none A) := by rw [k1] at hi; exact (List.pairwise_cons.1 hi).2
    have hlt : ∀ x ∈ (run i).pts, ∀ y ∈ rest (pieces none A), x < y := by
      rw [run_pts]
      rintro x hx y ⟨j, hj, hy⟩
      rw [k1] at hi
      exact (List.pairwise_cons.1 hi).1 j hj x y hx hy
    obtain ⟨q, hq⟩ : (rest (pieces none A)).Nonempty := by
      rcases hp : pieces none A with _ | ⟨k, K⟩
      · rw [hp] at hA; simp at hA; omega
      · obtain ⟨-, x, hx⟩ := hgA k (by rw [hp]; simp)
        exact ⟨x, k, by simp, hx⟩
    -- the first piece has one point
    have hc0 : c.pts = ∅ := by
      rcases Interval.iter_step co cr with ⟨he, -⟩ | ⟨-, ⟨g, c', hg', j1, -⟩⟩
      · exact he
      · exfalso
        obtain ⟨-, w⟩ := hw.next e
        have e2 : PointIter.nextBack dbg ⟨⟨A, none, none⟩, c⟩ = .ok (some g, ⟨⟨A, none, none⟩, c'⟩) := by
          simp only [PointIter.nextBack, j1, bind, Except.bind]
        have hgc : g ∈ (run i).pts := (cp ▸ hg'.1 : g ∈ (run i).pts \ {m}).1
        have hmq : q ∈ rest (pieces none t) \ {m} := ⟨hS ▸ .inr hq, fun h => by
          have := hlt m hm.1 q hq; rw [h] at this; exact lt_irrefl _ this⟩
        exact absurd ((w.back e2).1.2 hmq) (not_le.2 (hlt g hgc q hq))
    have hi1 : (run i).pts = {m} := by
      ext x
      refine ⟨fun hx => ?_, fun hx => hx ▸ hm.1⟩
      by_contra hne
      have : x ∈ c.pts := cp ▸ ⟨hx, hne⟩
      rw [hc0] at this; exact this
    have hSA : rest (pieces none t) \ {m} = rest (pieces none A) := by
      rw [hS, hi1]
      ext x
      refine ⟨fun ⟨h, h'⟩ => h.resolve_left h', fun h => ⟨.inr h, fun h' => ?_⟩⟩
      have := hlt m hm.1 x h; rw [h'] at this; exact lt_irrefl _ this
    have w := (hw.next e).2
    rw [real_no_pts co cr hc0, hSA] at w
    rcases ih hA k2 k3 k4 hgA hiA w with h1 | h1
    · -- two pieces
      obtain ⟨k, hk⟩ : ∃ k, pieces none A = [k] := by
        rcases hp : pieces none A with _ | ⟨k, _ | ⟨k', K⟩⟩
        · rw [hp] at hA; simp at hA; omega
        · exact ⟨k, rfl⟩
        · rw [hp] at hA; simp at hA; omega
      have hjk : j = k ∧ pieces none B = [i] := by
        rw [k1, hk] at l1
        have : [i] ++ [k] = pieces none B ++ [j] := l1
        have := List.append_inj' this rfl
        exact ⟨by simpa using this.2.symm, this.1.symm⟩
      obtain ⟨rfl, hB⟩ := hjk
      have hu' : u ∈ rest (pieces none A) := by
        rw [hk]; have := hu.1; rw [run_pts] at this; exact ⟨j, by simp, this⟩
      have hd0 : d.pts = ∅ := by
        rcases Interval.iter_step do' dr with ⟨he, -⟩ | ⟨⟨g, d', hg', j1, -⟩, -⟩
        · exact he
        · exfalso
          have w' := (hw.back e').2
          have e2 : PointIter.next dbg ⟨⟨B, none, none⟩, d⟩ = .ok (some g, ⟨⟨B, none, none⟩, d'⟩) := by
            simp only [PointIter.next, j1, bind, Except.bind]
          have hgd : g ∈ (run j).pts := (dp ▸ hg'.1 : g ∈ (run j).pts \ {u}).1
          have hgr : g ∈ rest (pieces none A) := by
            rw [hk]; rw [run_pts] at hgd; exact ⟨j, by simp, hgd⟩
          have hmu : m ∈ rest (pieces none t) \ {u} := ⟨hS ▸ .inl hm.1, fun h => by
            have := hlt m hm.1 u hu'; rw [h] at this; exact lt_irrefl _ this⟩
          exact absurd ((w'.next e2).1.2 hmu) (not_le.2 (hlt m hm.1 g hgr))
      intro k hk'
      rw [k1, hk] at hk'
      simp only [List.mem_cons, List.not_mem_nil, or_false] at hk'
      rcases hk' with rfl | rfl
      · exact ⟨m, hi1⟩
      · refine ⟨u, ?_⟩
        ext x
        refine ⟨fun hx => ?_, fun hx => hx ▸ hu.1⟩
        by_contra hne
        have : x ∈ d.pts := dp ▸ ⟨hx, hne⟩
        rw [hd0] at this; exact this
    · intro k hk'
      rw [k1] at hk'
      rcases List.mem_cons.1 hk' with rfl | hk'
      · exact ⟨m, hi1⟩
      · exact h1 k hk'

/-- If each piece is a single point, mixed iteration walks. -/
theorem single_walks (dbg : Bool) (cs : List IterCall) : ∀ {t : TineTree α},
    (∀ x ∈ t, x.Ok) → HoleFree t → Chain false t false → (∀ i ∈ pieces none t, Good i) →
    Inc (pieces none t) → (∀ i ∈ pieces none t, ∃ p, (run i).pts = {p}) →
    ∃ os, drive (PointIter.next dbg) (PointIter.nextBack dbg) ⟨⟨t, none, none⟩, .empty⟩ cs = .ok os ∧
      Walk (rest (pieces none t)) cs os := by
  induction cs with
  | nil => intros; exact ⟨[], rfl, .nil _⟩
  | cons call cs ih =>
    intro t hok hf hc hg hi hs
    have one : ∀ {i : RawInterval α} {m : α} {c : Interval α}, (∃ p, (run i).pts = {p}) →
        m ∈ (run i).pts → c.Obtainable → c.Real → c.pts = (run i).pts \ {m} →
        c = .empty ∧ (run i).pts = {m} := by
      rintro i m c ⟨p, hp⟩ hm co cr cp
      rw [hp] at hm
      have : m = p := hm
      subst this
      refine ⟨real_no_pts co cr ?_, hp⟩
      rw [cp, hp]; ext x; exact ⟨fun h => h.2 h.1, fun h => h.elim⟩
    rcases front_step dbg hok hf hc hg with ⟨rfl, f1, f2⟩ |
      ⟨⟨i, A, m, c, k1, k2, k3, k4, hm, co, cr, cp, e⟩, j, B, u, d, l1, l2, l3, l4, hu, do', dr, dp, e'⟩
    · obtain ⟨os, h1, h2⟩ := ih hok hf hc hg hi hs
      refine ⟨none :: os, ?_, .done (by ext x; simp [rest, pieces]) h2⟩
      cases call
      · simp only [drive, f1, bind, Except.bind, h1]; rfl
      · simp only [drive, f2, bind, Except.bind, h1]; rfl
    cases call with
    | next =>
      obtain ⟨rfl, hp⟩ := one (hs i (by rw [k1]; simp)) hm.1 co cr cp
      rw [k1] at hg hi hs ⊢
      have hlt : ∀ y ∈ rest (pieces none A), m < y := by
        rintro y ⟨j, hj, hy⟩
        have := hm.1; rw [run_pts] at this
        exact (List.pairwise_cons.1 hi).1 j hj m y this hy
      obtain ⟨os, h1, h2⟩ := ih k2 k3 k4 (fun j hj => hg j (by simp [hj])) (List.pairwise_cons.1 hi).2
        (fun j hj => hs j (by simp [hj]))
      rw [rest_cons, hp]
      refine ⟨some m :: os, ?_, .next ⟨.inl rfl, ?_⟩ ?_⟩
      · simp only [drive, e, bind, Except.bind, h1]; rfl
      · rintro x (hx | hx)
        · exact ge_of_eq hx
        · exact (hlt x hx).le
      · have : ({m} ∪ rest (pieces none A)) \ {m} = rest (pieces none A) := by
          ext x
          refine ⟨fun ⟨h, h'⟩ => h.resolve_left h', fun h => ⟨.inr h, fun h' => ?_⟩⟩
          have := hlt x h; rw [h'] at this; exact lt_irrefl _ this
        rw [this]; exact h2
    | nextBack =>
      obtain ⟨rfl, hp⟩ := one (hs j (by rw [l1]; simp)) hu.1 do' dr dp
      rw [l1] at hg hi hs ⊢
      have hlt : ∀ y ∈ rest (pieces none B), y < u := by
        rintro y ⟨k, hk, hy⟩
        have := hu.1; rw [run_pts] at this
        exact (List.pairwise_append.1 hi).2.2 k hk j (by simp) y u hy this
      obtain ⟨os, h1, h2⟩ := ih l2 l3 l4 (fun j hj => hg j (by simp [hj])) (List.pairwise_append.1 hi).1
        (fun j hj => hs j (by simp [hj]))
      rw [rest_snoc, hp]
      refine ⟨some u :: os, ?_, .nextBack ⟨.inl rfl, ?_⟩ ?_⟩
      · simp only [drive, e', bind, Except.bind, h1]; rfl
      · rintro x (hx | hx)
        · exact le_of_eq hx
        · exact (hlt x hx).le
      · have : ({u} ∪ rest (pieces none B)) \ {u} = rest (pieces none B) := by
          ext x
          refine ⟨fun ⟨h, h'⟩ => h.resolve_left h', fun h => ⟨.inr h, fun h' => ?_⟩⟩
          have := hlt x h; rw [h'] at this; exact lt_irrefl _ this
        rw [this]; exact h2

end Selection
end NI
