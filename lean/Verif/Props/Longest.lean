import Verif.SpecLongest
import Verif.Props.Heap
import Verif.Props.Release

/-! # C141: the longest run of a selection -/

namespace NI
open _root_.NI.Finite TT

theorem lastMax_none {β κ : Type _} [LinearOrder κ] (key : β → κ) : ∀ xs : List β, lastMax key xs = none ↔ xs = []
  | [] => by simp [lastMax]
  | x :: xs => by
    rw [lastMax]
    split
    · simp
    · split <;> simp

theorem lastMax_some {β κ : Type _} [LinearOrder κ] (key : β → κ) {m : β} : ∀ {xs : List β}, lastMax key xs = some m →
    ∃ A B, xs = A ++ m :: B ∧ (∀ x ∈ A, key x ≤ key m) ∧ ∀ x ∈ B, key x < key m
  | x :: xs, h => by
    rw [lastMax] at h
    split at h
    · rename_i hn
      cases h
      rw [lastMax_none] at hn
      exact ⟨[], xs, rfl, by simp, by simp [hn]⟩
    · rename_i y hy
      obtain ⟨A, B, e, h1, h2⟩ := lastMax_some key hy
      split at h
      · rename_i hlt
        cases h
        refine ⟨[], xs, rfl, by simp, fun z hz => ?_⟩
        rw [e] at hz
        rcases List.mem_append.1 hz with hz | hz
        · exact (h1 z hz).trans_lt hlt
        · rcases List.mem_cons.1 hz with rfl | hz
          exacts [hlt, (h2 z hz).trans hlt]
      · rename_i hlt
        cases h
        refine ⟨x :: A, B, by rw [e]; rfl, fun z hz => ?_, h2⟩
        rcases List.mem_cons.1 hz with rfl | hz
        exacts [not_lt.1 hlt, h1 z hz]

/-- Elements paired with a key that may panic. -/
theorem mapM_keys {β κ : Type _} (f : β → Except Panic κ) : ∀ (xs : List β), (∀ x ∈ xs, f x = .error .overflow ∨ ∃ k, f x = .ok k) →
    (xs.mapM (fun x => do return ((← f x), x)) = .error .overflow ∧ ∃ x ∈ xs, f x = .error .overflow) ∨
    ∃ ps, xs.mapM (fun x => do return ((← f x), x)) = .ok ps ∧ ps.map Prod.snd = xs ∧ ∀ p ∈ ps, f p.2 = .ok p.1
  | [], _ => .inr ⟨[], rfl, rfl, by simp⟩
  | x :: xs, h => by
    rw [List.mapM_cons]
    rcases h x (.head _) with hx | ⟨k, hx⟩
    · exact .inl ⟨by simp only [hx, bind, Except.bind], x, .head _, hx⟩
    rcases mapM_keys f xs (fun y hy => h y (.tail _ hy)) with ⟨e, y, hy, hf⟩ | ⟨ps, e, e1, e2⟩
    · refine .inl ⟨?_, y, .tail _ hy, hf⟩
      rw [e]; simp only [hx, bind, Except.bind, pure, Except.pure]
    · refine .inr ⟨(k, x) :: ps, ?_, by simp [e1], ?_⟩
      · rw [e]; simp only [hx, bind, Except.bind, pure, Except.pure]
      · intro p hp
        rcases List.mem_cons.1 hp with rfl | hp
        exacts [hx, e2 p hp]

variable {lo hi : Int} [Fact (lo ≤ hi)]

/-- A block of numbers within a selection edited in place lies in one listed interval. -/
theorem MaximalRuns.block {α : Type} [LinearOrder α] [Finite α] [LawfulFinite α] {S : Set α} {rs : List (Set α)}
    (h : MaximalRuns S rs) {l u : α} (hlu : l ≤ u) (hs : Set.Icc l u ⊆ S) : ∃ r ∈ rs, Set.Icc l u ⊆ r := by
  obtain ⟨m1, -, m3⟩ := h
  obtain ⟨r, hr, hl⟩ := (m3 l).1 (hs ⟨le_rfl, hlu⟩)
  obtain ⟨a, b, hab, rfl, -, e2⟩ := m1 _ hr
  refine ⟨_, hr, fun x hx => ⟨hl.1.trans hx.1, ?_⟩⟩
  by_contra hb
  push Not at hb
  cases hq : succ b with
  | none =>
    rw [LawfulFinite.succ_none] at hq
    exact absurd (LawfulFinite.le_max x) (not_le.2 (hq ▸ hb))
  | some q =>
    obtain ⟨g1, g2⟩ := LawfulFinite.succ_some b q hq
    exact e2 q hq (hs ⟨hl.2.trans g1.le, (g2 x hb).trans hx.2⟩)

theorem Selection.longest_any (dbg : Bool) (sub : MInt lo hi → MInt lo hi → Option (MInt lo hi))
    (hsub : ∀ l u : MInt lo hi, l ≤ u → u.1 - l.1 ≤ hi → ∃ d, sub u l = some d ∧ d.1 = u.1 - l.1)
    (s : Selection (MInt lo hi)) (hs : s.Edited)
    (hb : ∀ l u : MInt lo hi, l ≤ u → Set.Icc l u ⊆ s.pts dbg → hi < u.1 - l.1 → sub u l = none) :
    (s.longest dbg sub = .ok none ∧ s.pts dbg = ∅) ∨
    (∃ i l u, s.longest dbg sub = .ok (some i) ∧ i.infimum = some l ∧ i.supremum = some u ∧ i.pts = Set.Icc l u ∧
      u.1 - l.1 ≤ hi ∧ LongestBlock (s.pts dbg) l u) ∨
    (s.longest dbg sub = .error .overflow ∧ ∃ l u, l ≤ u ∧ Set.Icc l u ⊆ s.pts dbg ∧ hi < u.1 - l.1) := by
  obtain ⟨is, e, ho, m⟩ := C120_runs dbg s hs
  have ends : ∀ i ∈ is, ∃ l u, l ≤ u ∧ i.infimum = some l ∧ i.supremum = some u ∧ i.pts = Set.Icc l u ∧
      Set.Icc l u ⊆ s.pts dbg := by
    intro i hi
    obtain ⟨a, b, hab, e1, -⟩ := m.1 _ (List.mem_map_of_mem hi)
    have hrl : i.Real := .inr ⟨a, (Set.ext_iff.1 e1 a).2 ⟨le_rfl, hab⟩⟩
    obtain ⟨x1, x2, -, -⟩ := C31_extrema_partial i (ho i hi).1 hrl
    refine ⟨a, b, hab, (x1 a).2 (e1 ▸ ⟨⟨le_rfl, hab⟩, fun x hx => hx.1⟩),
      (x2 b).2 (e1 ▸ ⟨⟨hab, le_rfl⟩, fun x hx => hx.2⟩), e1, fun x hx => ?_⟩
    exact (m.2.2 x).2 ⟨_, List.mem_map_of_mem hi, e1 ▸ hx⟩
  have size : ∀ i ∈ is, ∀ l u, l ≤ u → i.infimum = some l → i.supremum = some u → Set.Icc l u ⊆ s.pts dbg →
      (hi < u.1 - l.1 ∧ i.size sub = .error .overflow) ∨
      (u.1 - l.1 ≤ hi ∧ ∃ d, i.size sub = .ok (some d) ∧ d.1 = u.1 - l.1) := by
    intro i hi' l u hlu h1 h2 h3
    rw [Interval.size, h1, h2]
    by_cases hd : u.1 - l.1 ≤ hi
    · obtain ⟨d, h4, h5⟩ := hsub l u hlu hd
      exact .inr ⟨hd, d, by simp only [h4], h5⟩
    · exact .inl ⟨not_le.1 hd, by simp only [hb l u hlu h3 (not_le.1 hd)]⟩
  have run : s.longest dbg sub = (do
      let ps ← is.mapM fun i => do return ((← i.size sub), i)
      return (lastMax (fun p => sizeKey p.1) ps).map Prod.snd) := by
    simp only [Selection.longest, e, bind, Except.bind]
  rcases mapM_keys (fun i : Interval (MInt lo hi) => i.size sub) is (fun i hi => by
    obtain ⟨l, u, h0, h1, h2, h3, h4⟩ := ends i hi
    rcases size i hi l u h0 h1 h2 h4 with ⟨-, h⟩ | ⟨-, d, h, -⟩
    exacts [.inl h, .inr ⟨_, h⟩]) with ⟨k, i, hi', h⟩ | ⟨ps, k, k1, k2⟩
  · obtain ⟨l, u, h0, h1, h2, h3, h4⟩ := ends i hi'
    refine .inr (.inr ⟨by rw [run, k]; rfl, l, u, h0, h4, ?_⟩)
    rcases size i hi' l u h0 h1 h2 h4 with ⟨h5, -⟩ | ⟨-, d, h5, -⟩
    · exact h5
    · rw [h] at h5; cases h5
  rw [run, k]
  simp only [bind, Except.bind, pure, Except.pure]
  cases hm : lastMax (fun p => sizeKey p.1) ps with
  | none =>
    rw [lastMax_none] at hm
    subst hm
    left
    refine ⟨rfl, Set.eq_empty_of_forall_notMem fun x hx => ?_⟩
    obtain ⟨r, hr, -⟩ := (m.2.2 x).1 hx
    rw [← k1] at hr; simp at hr
  | some p =>
    right; left
    obtain ⟨A, B, e1, h1, h2⟩ := lastMax_some _ hm
    have mem : ∀ q ∈ ps, q.2 ∈ is := fun q hq => k1 ▸ List.mem_map_of_mem hq
    have key : ∀ q ∈ ps, ∃ l u d, l ≤ u ∧ q.2.infimum = some l ∧ q.2.supremum = some u ∧ q.2.pts = Set.Icc l u ∧
        Set.Icc l u ⊆ s.pts dbg ∧ q.1 = some d ∧ d.1 = u.1 - l.1 ∧ u.1 - l.1 ≤ hi := by
      intro q hq
      obtain ⟨l, u, g0, g1, g2, g3, g4⟩ := ends q.2 (mem q hq)
      rcases size q.2 (mem q hq) l u g0 g1 g2 g4 with ⟨-, h⟩ | ⟨g5, d, h, hd⟩
      · have := k2 q hq; simp only [h] at this; cases this
      · have := k2 q hq; simp only [h, Except.ok.injEq] at this
        exact ⟨l, u, d, g0, g1, g2, g3, g4, this.symm, hd, g5⟩
    have hp : p ∈ ps := by rw [e1]; simp
    obtain ⟨l, u, d, g0, g1, g2, g3, g4, g5, g6, g7⟩ := key p hp
    refine ⟨p.2, l, u, rfl, g1, g2, g3, g7, g0, g4, fun l' u' hlu hsub => ?_⟩
    obtain ⟨r, hr, hin⟩ := m.block hlu hsub
    rw [← k1, List.map_map] at hr
    obtain ⟨q, hq, rfl⟩ := List.mem_map.1 hr
    obtain ⟨a, b, c, f0, f1, f2, f3, f4, f5, f6, f7⟩ := key q hq
    simp only [Function.comp, f3] at hin
    have i1 : a.1 ≤ l'.1 := (hin ⟨le_rfl, hlu⟩).1
    have i2 : u'.1 ≤ b.1 := (hin ⟨hlu, le_rfl⟩).2
    have le : ∀ {x y : MInt lo hi}, sizeKey (some x) ≤ sizeKey (some y) → x.1 ≤ y.1 :=
      fun {x y} h => (WithBot.coe_le_coe (a := x) (b := y)).1 h
    have lt : ∀ {x y : MInt lo hi}, sizeKey (some x) < sizeKey (some y) → x.1 < y.1 :=
      fun {x y} h => (WithBot.coe_lt_coe (a := x) (b := y)).1 h
    have pw : (A ++ p :: B).Pairwise fun x y => ∀ z ∈ x.2.pts, ∀ w ∈ y.2.pts, z < w := by
      have := m.2.1
      rw [← k1, List.map_map, List.pairwise_map, e1] at this
      exact this
    rw [e1] at hq
    rcases List.mem_append.1 hq with hq | hq
    · have h3 := h1 q hq
      rw [g5, f5] at h3
      have h3 := le h3
      have h4 := (List.pairwise_append.1 pw).2.2 q hq p (.head _) b (f3 ▸ ⟨f0, le_rfl⟩) l (g3 ▸ ⟨le_rfl, g0⟩)
      have h4 : b.1 < l.1 := h4
      have h5 : l.1 ≤ u.1 := g0
      by_cases he : u'.1 - l'.1 = u.1 - l.1
      · exact .inr ⟨he, show u'.1 ≤ u.1 by omega⟩
      · exact .inl (by omega)
    · rcases List.mem_cons.1 hq with rfl | hq
      · have : a = l := Option.some.inj (f1.symm.trans g1)
        have : b = u := Option.some.inj (f2.symm.trans g2)
        subst a; subst b
        by_cases he : u'.1 - l'.1 = u.1 - l.1
        · exact .inr ⟨he, i2⟩
        · exact .inl (by omega)
      · have h3 := h2 q hq
        rw [g5, f5] at h3
        have h3 := lt h3
        exact .inl (by omega)

/-- **C141.** Of a selection edited in place, `max_by_key(size)` finds the last of the longest runs of
neighbouring values; debug builds panic instead exactly if a run is so long that its size is no value of the
type. -/
theorem C141_longest (h0 : lo ≤ 0) (dbg : Bool) (s : Selection (MInt lo hi)) (hs : s.Edited) :
    (s.longest dbg MInt.sub = .ok none ∧ s.pts dbg = ∅) ∨
    (∃ i l u, s.longest dbg MInt.sub = .ok (some i) ∧ i.infimum = some l ∧ i.supremum = some u ∧
      i.pts = Set.Icc l u ∧ u.1 - l.1 ≤ hi ∧ LongestBlock (s.pts dbg) l u) ∨
    (s.longest dbg MInt.sub = .error .overflow ∧ ∃ l u, l ≤ u ∧ Set.Icc l u ⊆ s.pts dbg ∧ hi < u.1 - l.1) := by
  refine Selection.longest_any dbg _ (fun l u h1 h2 => ?_) s hs (fun l u _ _ h => ?_)
  · have h1 : l.1 ≤ u.1 := h1
    exact ⟨⟨u.1 - l.1, by omega, h2⟩, by rw [MInt.sub, MInt.checkedSub, dif_pos ⟨by omega, h2⟩], rfl⟩
  · rw [MInt.sub, MInt.checkedSub, dif_neg (by omega)]

example : (Selection.demo [(u8 2, u8 5), (u8 9, u8 9), (u8 20, u8 23)]).Edited ∧
    (Selection.demo [(u8 2, u8 5), (u8 9, u8 9), (u8 20, u8 23)]).longest true MInt.sub = .ok (some (.mkClosed (u8 20) (u8 23))) :=
  ⟨.built (Selection.demo_built _ (by decide)), by decide⟩

/-- For unsigned types there is no panic, and release builds agree. -/
theorem C141_unsigned {hi : Int} [Fact (0 ≤ hi)] (dbg : Bool) (sub : MInt 0 hi → MInt 0 hi → Option (MInt 0 hi))
    (hsub : sub = MInt.sub ∨ sub = fun a b => some (MInt.wrapSub a b)) (s : Selection (MInt 0 hi)) (hs : s.Edited) :
    (s.longest dbg sub = .ok none ∧ s.pts dbg = ∅) ∨
    ∃ i l u, s.longest dbg sub = .ok (some i) ∧ i.infimum = some l ∧ i.supremum = some u ∧
      i.pts = Set.Icc l u ∧ LongestBlock (s.pts dbg) l u := by
  have small : ∀ l u : MInt 0 hi, u.1 - l.1 ≤ hi := fun l u => by have := l.2.1; have := u.2.2; omega
  rcases Selection.longest_any dbg sub (fun l u h1 h2 => by
    have h1 : l.1 ≤ u.1 := h1
    rcases hsub with rfl | rfl
    · exact ⟨⟨u.1 - l.1, by omega, h2⟩, by rw [MInt.sub, MInt.checkedSub, dif_pos ⟨by omega, h2⟩], rfl⟩
    · exact ⟨_, rfl, (MInt.wrapSub_val u l).2.2 ⟨by omega, h2⟩⟩) s hs
    (fun l u _ _ h => absurd (small l u) (not_le.2 h)) with h | ⟨i, l, u, h1, h2, h3, h4, -, h5⟩ | ⟨-, l, u, -, -, h⟩
  · exact .inl h
  · exact .inr ⟨i, l, u, h1, h2, h3, h4, h5⟩
  · exact absurd (small l u) (not_le.2 h)

/-- The longest gap, by way of the complement. -/
theorem C141_gap (h0 : lo ≤ 0) (dbg : Bool) (s : Selection (MInt lo hi)) (hs : s.Edited) :
    (s.longestGap dbg MInt.sub = .ok none ∧ s.pts dbg = Set.univ) ∨
    (∃ i l u, s.longestGap dbg MInt.sub = .ok (some i) ∧ i.infimum = some l ∧ i.supremum = some u ∧
      i.pts = Set.Icc l u ∧ u.1 - l.1 ≤ hi ∧ LongestBlock (s.pts dbg)ᶜ l u) ∨
    (s.longestGap dbg MInt.sub = .error .overflow ∧
      ∃ l u, l ≤ u ∧ Set.Icc l u ⊆ (s.pts dbg)ᶜ ∧ hi < u.1 - l.1) := by
  obtain ⟨c, e, -, p⟩ := Selection.complement_right dbg s hs.reachable_crisp.1
  have run : s.longestGap dbg MInt.sub = c.longest dbg MInt.sub := by
    simp only [Selection.longestGap, e, bind, Except.bind]
  have := C141_longest h0 dbg c (.complement hs e)
  rw [p] at this
  rw [run]
  rcases this with ⟨h1, h2⟩ | h | h
  · exact .inl ⟨h1, Set.compl_empty_iff.1 h2⟩
  · exact .inr (.inl h)
  · exact .inr (.inr h)

example : (Selection.demo [(u8 2, u8 5), (u8 9, u8 240)]).Edited ∧
    (Selection.demo [(u8 2, u8 5), (u8 9, u8 240)]).longestGap true MInt.sub = .ok (some (.mkClosed (u8 241) (u8 255))) :=
  ⟨.built (Selection.demo_built _ (by decide)), by decide⟩

/-- With a run that is too long a debug build panics, and a release build takes a shorter run for the
longest: the run of `-128` to `100` has the size `-28` there. -/
theorem C141_counterexample :
    ∃ s : Selection I8, s.Edited ∧ s.longest true MInt.sub = .error .overflow ∧
      s.longest false (fun a b => some (MInt.wrapSub a b)) = .ok (some (.mkClosed (MInt.lit 110) (MInt.lit 111))) ∧
      s.intervals true = .ok [.mkClosed (MInt.lit (-128)) (MInt.lit 100), .mkClosed (MInt.lit 110) (MInt.lit 111)] := by
  have ob : ∀ i ∈ [Interval.mkClosed (MInt.lit (-128) : I8) (MInt.lit 100), .mkClosed (MInt.lit 110) (MInt.lit 111)],
      i.Obtainable ∧ i.Real := by
    intro i hi
    simp only [List.mem_cons, List.not_mem_nil, or_false] at hi
    rcases hi with rfl | rfl
    exacts [⟨.mkClosed _ _, Interval.closed_real (by decide)⟩, ⟨.mkClosed _ _, Interval.closed_real (by decide)⟩]
  obtain ⟨s, h, -⟩ := C48_from_intervals true _ fun i hi => (ob i hi).1
  refine ⟨s, .built (.fromIntervals ob h), ?_⟩
  have : s = (Selection.fromIntervals true [Interval.mkClosed (MInt.lit (-128) : I8) (MInt.lit 100),
      .mkClosed (MInt.lit 110) (MInt.lit 111)]).toOption.getD Selection.new := by rw [h]; rfl
  subst this
  decide

end NI
