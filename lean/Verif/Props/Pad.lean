import Verif.SpecPad
import Verif.Props.Longest

/-! # C144: padding and shifting the intervals of a selection of integers -/

namespace NI
open _root_.NI.Finite TT

theorem mapM_all {β γ : Type _} {f : β → Except Panic γ} {g : β → γ} : ∀ {xs : List β}, (∀ x ∈ xs, f x = .ok (g x)) →
    xs.mapM f = .ok (xs.map g)
  | [], _ => rfl
  | x :: xs, h => by
    rw [List.mapM_cons, h x (.head _), mapM_all fun y hy => h y (.tail _ hy)]
    rfl

theorem mapM_overflow {β γ : Type _} {f : β → Except Panic γ} : ∀ {xs : List β},
    (∀ x ∈ xs, f x = .error .overflow ∨ ∃ y, f x = .ok y) → (∃ x ∈ xs, f x = .error .overflow) →
    xs.mapM f = .error .overflow
  | x :: xs, h, hx => by
    rw [List.mapM_cons]
    rcases h x (.head _) with e | ⟨y, e⟩
    · rw [e]; rfl
    · have : ∃ x ∈ xs, f x = .error .overflow := by
        obtain ⟨z, hz, ez⟩ := hx
        rcases List.mem_cons.1 hz with rfl | hz
        · rw [e] at ez; cases ez
        · exact ⟨z, hz, ez⟩
      rw [e, mapM_overflow (fun z hz => h z (.tail _ hz)) this]; rfl

variable {lo hi : Int} [Fact (lo ≤ hi)]

/-- The listed intervals of a selection edited in place, by their ends. -/
theorem Selection.Edited.ends (dbg : Bool) {s : Selection (MInt lo hi)} (hs : s.Edited) :
    ∃ is, s.intervals dbg = .ok is ∧
      (∀ i ∈ is, ∃ l u, l ≤ u ∧ i.infimum = some l ∧ i.supremum = some u ∧ Set.Icc l u ⊆ s.pts dbg) ∧
      ∀ x, x ∈ s.pts dbg ↔ ∃ i ∈ is, ∃ l u, i.infimum = some l ∧ i.supremum = some u ∧ x ∈ Set.Icc l u := by
  obtain ⟨is, e, ho, m⟩ := C120_runs dbg s hs
  have ends : ∀ i ∈ is, ∃ l u, l ≤ u ∧ i.infimum = some l ∧ i.supremum = some u ∧ i.pts = Set.Icc l u := by
    intro i hi
    obtain ⟨a, b, hab, e1, -⟩ := m.1 _ (List.mem_map_of_mem hi)
    obtain ⟨x1, x2, -, -⟩ := C31_extrema_partial i (ho i hi).1 (.inr ⟨a, (Set.ext_iff.1 e1 a).2 ⟨le_rfl, hab⟩⟩)
    exact ⟨a, b, hab, (x1 a).2 (e1 ▸ ⟨⟨le_rfl, hab⟩, fun x hx => hx.1⟩),
      (x2 b).2 (e1 ▸ ⟨⟨hab, le_rfl⟩, fun x hx => hx.2⟩), e1⟩
  refine ⟨is, e, fun i hi => ?_, fun x => ?_⟩
  · obtain ⟨l, u, h, h1, h2, h3⟩ := ends i hi
    exact ⟨l, u, h, h1, h2, fun x hx => (m.2.2 x).2 ⟨_, List.mem_map_of_mem hi, h3 ▸ hx⟩⟩
  · rw [m.2.2 x]
    constructor
    · rintro ⟨r, hr, hx⟩
      obtain ⟨i, hi, rfl⟩ := List.mem_map.1 hr
      obtain ⟨l, u, h, h1, h2, h3⟩ := ends i hi
      exact ⟨i, hi, l, u, h1, h2, h3 ▸ hx⟩
    · rintro ⟨i, hi, l, u, h1, h2, hx⟩
      obtain ⟨l', u', h, h1', h2', h3⟩ := ends i hi
      rw [h1] at h1'; rw [h2] at h2'; cases h1'; cases h2'
      exact ⟨_, List.mem_map_of_mem hi, h3 ▸ hx⟩

/-- What `stretch` makes of a selection edited in place, if nothing overflows. -/
theorem Selection.stretch_ok (dbg : Bool) {f g : MInt lo hi → Option (MInt lo hi)} {f' g' : MInt lo hi → MInt lo hi}
    {s : Selection (MInt lo hi)} (hs : s.Edited)
    (h : ∀ l u, l ≤ u → Set.Icc l u ⊆ s.pts dbg → f l = some (f' l) ∧ g u = some (g' u) ∧ f' l ≤ g' u) :
    ∃ r is, s.stretch dbg f g = .ok r ∧ r.UnionBuilt ∧ s.intervals dbg = .ok is ∧
      ∀ x, x ∈ r.pts dbg ↔ ∃ i ∈ is, ∃ l u, i.infimum = some l ∧ i.supremum = some u ∧ x ∈ Set.Icc (f' l) (g' u) := by
  obtain ⟨is, e, e1, e2⟩ := hs.ends dbg
  let st : Interval (MInt lo hi) → Interval (MInt lo hi) := fun i => match i.infimum, i.supremum with
    | some l, some u => .mkClosed (f' l) (g' u)
    | _, _ => .empty
  have hst : ∀ i ∈ is, Interval.stretch f g i = .ok (st i) ∧ (st i).Obtainable ∧ (st i).Real ∧
      ∃ l u, i.infimum = some l ∧ i.supremum = some u ∧ (st i).pts = Set.Icc (f' l) (g' u) := by
    intro i hi
    obtain ⟨l, u, hlu, h1, h2, h3⟩ := e1 i hi
    obtain ⟨k1, k2, k3⟩ := h l u hlu h3
    have : st i = .mkClosed (f' l) (g' u) := by simp only [st, h1, h2]
    rw [this]
    refine ⟨?_, .mkClosed _ _, Interval.closed_real k3, l, u, h1, h2, ?_⟩
    · simp only [Interval.stretch, h1, h2, k1, k2]
    · ext x
      exact (C21_bounded (f' l) (g' u) x).2.2.2.1
  obtain ⟨r, hr, -, hp⟩ := C48_from_intervals dbg (is.map st) (by
    intro i hi; obtain ⟨j, hj, rfl⟩ := List.mem_map.1 hi; exact (hst j hj).2.1)
  refine ⟨r, is, ?_, .fromIntervals (fun i hi => ?_) hr, e, fun x => ?_⟩
  · simp only [Selection.stretch, e, bind, Except.bind, mapM_all fun i hi => (hst i hi).1]
    exact hr
  · obtain ⟨j, hj, rfl⟩ := List.mem_map.1 hi
    exact ⟨(hst j hj).2.1, (hst j hj).2.2.1⟩
  · rw [hp x]
    constructor
    · rintro ⟨i, hi, hx⟩
      obtain ⟨j, hj, rfl⟩ := List.mem_map.1 hi
      obtain ⟨l, u, h1, h2, h3⟩ := (hst j hj).2.2.2
      exact ⟨j, hj, l, u, h1, h2, h3 ▸ hx⟩
    · rintro ⟨j, hj, l, u, h1, h2, hx⟩
      obtain ⟨l', u', h1', h2', h3⟩ := (hst j hj).2.2.2
      rw [h1] at h1'; rw [h2] at h2'; cases h1'; cases h2'
      exact ⟨_, List.mem_map_of_mem hj, h3 ▸ hx⟩

/-- **C144.** Padding by `k` gives the values at most `k` away from one of the selection. -/
theorem C144_pad (dbg : Bool) (k : MInt lo hi) (hk : 0 ≤ k.1) (s : Selection (MInt lo hi)) (hs : s.Edited) :
    ∃ r, s.pad dbg k = .ok r ∧ r.UnionBuilt ∧
      r.pts dbg = {x | ∃ y ∈ s.pts dbg, x.1 - y.1 ≤ k.1 ∧ y.1 - x.1 ≤ k.1} := by
  obtain ⟨is', e', e1, e2⟩ := hs.ends dbg
  obtain ⟨r, is, hr, u, e, hp⟩ := Selection.stretch_ok dbg (f := fun l => some (MInt.clamp (l.1 - k.1)))
    (g := fun u => some (MInt.clamp (u.1 + k.1))) hs (fun l u hlu _ => ⟨rfl, rfl, by
      have : l.1 ≤ u.1 := hlu
      show max lo (min hi _) ≤ max lo (min hi _)
      omega⟩)
  rw [e] at e'; cases e'
  refine ⟨r, hr, u, Set.ext fun x => ?_⟩
  rw [hp x]
  constructor
  · rintro ⟨i, hi', l, u, h1, h2, h3, h4⟩
    have hlu : l ≤ u := by
      obtain ⟨l', u', h, h1', h2', -⟩ := e1 i hi'
      rw [h1] at h1'; rw [h2] at h2'; cases h1'; cases h2'; exact h
    have hlu : l.1 ≤ u.1 := hlu
    have h3 : max lo (min hi (l.1 - k.1)) ≤ x.1 := h3
    have h4 : x.1 ≤ max lo (min hi (u.1 + k.1)) := h4
    have b1 := l.2; have b2 := u.2; have b3 := x.2
    refine ⟨⟨max l.1 (min u.1 x.1), by omega, by omega⟩, (e2 _).2 ⟨i, hi', l, u, h1, h2, ?_, ?_⟩, ?_, ?_⟩
    · show l.1 ≤ max l.1 (min u.1 x.1); omega
    · show max l.1 (min u.1 x.1) ≤ u.1; omega
    · show x.1 - max l.1 (min u.1 x.1) ≤ k.1; omega
    · show max l.1 (min u.1 x.1) - x.1 ≤ k.1; omega
  · rintro ⟨y, hy, h1, h2⟩
    obtain ⟨i, hi', l, u, g1, g2, g3, g4⟩ := (e2 y).1 hy
    have g3 : l.1 ≤ y.1 := g3
    have g4 : y.1 ≤ u.1 := g4
    have b1 := l.2; have b2 := u.2; have b3 := x.2
    refine ⟨i, hi', l, u, g1, g2, ?_, ?_⟩
    · show max lo (min hi (l.1 - k.1)) ≤ x.1; omega
    · show x.1 ≤ max lo (min hi (u.1 + k.1)); omega

example : (Selection.demo [(u8 2, u8 5), (u8 10, u8 11), (u8 250, u8 252)]).Edited ∧
    ((Selection.demo [(u8 2, u8 5), (u8 10, u8 11), (u8 250, u8 252)]).pad true (u8 4) >>= (·.intervals true)) =
      .ok [.mkClosed (u8 0) (u8 15), .mkClosed (u8 246) (u8 255)] :=
  ⟨.built (Selection.demo_built _ (by decide)), by decide⟩

/-- **C144.** Trimming by `k` gives the values around which nothing is missing up to `k` away. -/
theorem C144_trim (dbg : Bool) (k : MInt lo hi) (hk : 0 ≤ k.1) (s : Selection (MInt lo hi)) (hs : s.Edited) :
    ∃ r, s.trim dbg k = .ok r ∧ r.Edited ∧
      r.pts dbg = {x | ∀ y : MInt lo hi, x.1 - y.1 ≤ k.1 → y.1 - x.1 ≤ k.1 → y ∈ s.pts dbg} := by
  obtain ⟨c, e, -, p⟩ := Selection.complement_right dbg s hs.reachable_crisp.1
  obtain ⟨q, e1, u, p1⟩ := C144_pad dbg k hk c (.complement hs e)
  obtain ⟨r, e2, -, p2⟩ := Selection.complement_right dbg q u.reachable
  refine ⟨r, by simp only [Selection.trim, e, e1, bind, Except.bind]; exact e2, .complement (.built u) e2, ?_⟩
  rw [p2, p1, p]
  ext x
  simp only [Set.mem_compl_iff, Set.mem_setOf_eq, not_exists, not_and, not_le]
  constructor
  · intro h y h1 h2
    by_contra hy
    exact absurd h2 (not_le.2 (h y hy h1))
  · intro h y hy h1
    by_contra h2
    exact hy (h y h1 (not_lt.1 h2))

example : (Selection.demo [(u8 0, u8 5), (u8 10, u8 11), (u8 20, u8 24)]).Edited ∧
    ((Selection.demo [(u8 0, u8 5), (u8 10, u8 11), (u8 20, u8 24)]).trim true (u8 2) >>= (·.intervals true)) =
      .ok [.mkClosed (u8 0) (u8 3), .mkClosed (u8 22) (u8 22)] :=
  ⟨.built (Selection.demo_built _ (by decide)), by decide⟩

/-- **C144.** Shifting by `k` gives the values shifted, and panics exactly if one of them leaves the type. -/
theorem C144_shift (dbg : Bool) (k : MInt lo hi) (s : Selection (MInt lo hi)) (hs : s.Edited) :
    ((∀ y ∈ s.pts dbg, lo ≤ y.1 + k.1 ∧ y.1 + k.1 ≤ hi) ∧ ∃ r, s.shift dbg MInt.plus k = .ok r ∧ r.UnionBuilt ∧
      r.pts dbg = {x | ∃ y ∈ s.pts dbg, x.1 = y.1 + k.1}) ∨
    ((∃ y ∈ s.pts dbg, ¬ (lo ≤ y.1 + k.1 ∧ y.1 + k.1 ≤ hi)) ∧ s.shift dbg MInt.plus k = .error .overflow) := by
  obtain ⟨is', e', e1, e2⟩ := hs.ends dbg
  by_cases hy : ∀ y ∈ s.pts dbg, lo ≤ y.1 + k.1 ∧ y.1 + k.1 ≤ hi
  · refine .inl ⟨hy, ?_⟩
    have plus : ∀ y ∈ s.pts dbg, MInt.plus y k = some (MInt.clamp (y.1 + k.1)) := fun y h => by
      have := hy y h
      simp only [MInt.plus, dif_pos this, MInt.clamp, Option.some.injEq]
      apply Subtype.ext
      show y.1 + k.1 = max lo (min hi _)
      omega
    obtain ⟨r, is, hr, u, e, hp⟩ := Selection.stretch_ok dbg (f := fun l => MInt.plus l k) (g := fun u => MInt.plus u k)
      (f' := fun y => MInt.clamp (y.1 + k.1)) (g' := fun y => MInt.clamp (y.1 + k.1)) hs (fun l u hlu hin =>
        ⟨plus l (hin ⟨le_rfl, hlu⟩), plus u (hin ⟨hlu, le_rfl⟩), by
          have : l.1 ≤ u.1 := hlu
          show max lo (min hi _) ≤ max lo (min hi _)
          omega⟩)
    rw [e] at e'; cases e'
    refine ⟨r, hr, u, Set.ext fun x => ?_⟩
    rw [hp x]
    constructor
    · rintro ⟨i, hi', l, u, h1, h2, h3, h4⟩
      obtain ⟨l', u', hlu, h1', h2', hin⟩ := e1 i hi'
      rw [h1] at h1'; rw [h2] at h2'; cases h1'; cases h2'
      have hlu' : l.1 ≤ u.1 := hlu
      have hl := hy l (hin ⟨le_rfl, hlu⟩)
      have hu := hy u (hin ⟨hlu, le_rfl⟩)
      have h3 : max lo (min hi (l.1 + k.1)) ≤ x.1 := h3
      have h4 : x.1 ≤ max lo (min hi (u.1 + k.1)) := h4
      have b1 := l.2; have b2 := u.2
      refine ⟨⟨x.1 - k.1, by omega, by omega⟩, hin ⟨?_, ?_⟩, ?_⟩
      · show l.1 ≤ x.1 - k.1; omega
      · show x.1 - k.1 ≤ u.1; omega
      · show x.1 = x.1 - k.1 + k.1; omega
    · rintro ⟨y, h, hx⟩
      obtain ⟨i, hi', l, u, g1, g2, g3, g4⟩ := (e2 y).1 h
      have g3 : l.1 ≤ y.1 := g3
      have g4 : y.1 ≤ u.1 := g4
      have b3 := x.2
      refine ⟨i, hi', l, u, g1, g2, ?_, ?_⟩
      · show max lo (min hi (l.1 + k.1)) ≤ x.1; omega
      · show x.1 ≤ max lo (min hi (u.1 + k.1)); omega
  · refine .inr ⟨by push Not at hy; obtain ⟨y, h1, h2⟩ := hy; exact ⟨y, h1, fun h => absurd h.2 (not_le.2 (h2 h.1))⟩, ?_⟩
    have each : ∀ i ∈ is', Interval.stretch (fun l => MInt.plus l k) (fun u => MInt.plus u k) i = .error .overflow ∨
        ∃ j, Interval.stretch (fun l => MInt.plus l k) (fun u => MInt.plus u k) i = .ok j := by
      intro i hi'
      obtain ⟨l, u, hlu, h1, h2, -⟩ := e1 i hi'
      simp only [Interval.stretch, h1, h2]
      split
      · exact .inr ⟨_, rfl⟩
      · exact .inl rfl
    have one : ∃ i ∈ is', Interval.stretch (fun l => MInt.plus l k) (fun u => MInt.plus u k) i = .error .overflow := by
      push Not at hy
      obtain ⟨y, h, hn⟩ := hy
      obtain ⟨i, hi', l, u, g1, g2, g3, g4⟩ := (e2 y).1 h
      have g3 : l.1 ≤ y.1 := g3
      have g4 : y.1 ≤ u.1 := g4
      refine ⟨i, hi', ?_⟩
      simp only [Interval.stretch, g1, g2]
      by_cases hl : lo ≤ l.1 + k.1
      · have : MInt.plus u k = none := by rw [MInt.plus, dif_neg]; have := hn (by omega); omega
        rw [this]
        cases MInt.plus l k <;> rfl
      · have : MInt.plus l k = none := by rw [MInt.plus, dif_neg]; omega
        simp only [this]
    simp only [Selection.shift, Selection.stretch, e', bind, Except.bind, mapM_overflow each one]

example : (Selection.demo [(u8 2, u8 5), (u8 10, u8 11)]).Edited ∧
    ((Selection.demo [(u8 2, u8 5), (u8 10, u8 11)]).shift true MInt.plus (u8 244) >>= (·.intervals true)) =
      .ok [.mkClosed (u8 246) (u8 249), .mkClosed (u8 254) (u8 255)] ∧
    (Selection.demo [(u8 2, u8 5), (u8 10, u8 11)]).shift true MInt.plus (u8 245) = .error .overflow :=
  ⟨.built (Selection.demo_built _ (by decide)), by decide, by decide⟩

/-- In release builds an interval of which only a part leaves the type is lost as a whole: the values `2` to `5` shifted by
`252` are not `254`, `255`, `0` and `1`, but none. -/
theorem C144_counterexample : ∃ s : Selection U8, s.UnionBuilt ∧ s.intervals false = .ok [.mkClosed (u8 2) (u8 5)] ∧
    s.shift true MInt.plus (u8 252) = .error .overflow ∧
    s.shift false (fun a b => some (MInt.wrapPlus a b)) (u8 252) = .ok .new :=
  ⟨_, Selection.demo_built [(u8 2, u8 5)] (by decide), by decide⟩

end NI
