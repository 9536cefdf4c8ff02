import Verif.SpecSort
import Verif.Lemmas.Backward
import Verif.Props.Collect
import Verif.Props.Histories
import Verif.Props.Pinhole

/-!
# C137: sorting values and writing them as ranges, by collecting them
-/

set_option linter.unusedVariables false
set_option linter.unusedSectionVars false

namespace NI
open _root_.NI.Finite TT

section Lists
variable {α : Type} [LinearOrder α]

theorem mem_insertNew {x z : α} : ∀ {l : List α}, z ∈ insertNew x l ↔ z = x ∨ z ∈ l
  | [] => by simp [insertNew]
  | y :: l => by
    rw [insertNew]
    split
    · simp
    · split
      · rename_i h; subst h; simp
      · simp [mem_insertNew (l := l)]; tauto

theorem mem_sortedOnce {z : α} : ∀ {xs : List α}, z ∈ sortedOnce xs ↔ z ∈ xs
  | [] => by simp [sortedOnce]
  | x :: xs => by simp [sortedOnce, mem_insertNew, mem_sortedOnce (xs := xs)]

theorem insertNew_ascending {x : α} : ∀ {l : List α}, l.Pairwise (· < ·) → (insertNew x l).Pairwise (· < ·)
  | [], _ => by simp [insertNew]
  | y :: l, h => by
    obtain ⟨h1, h2⟩ := List.pairwise_cons.1 h
    rw [insertNew]
    split
    · rename_i hxy
      refine List.pairwise_cons.2 ⟨fun z hz => ?_, h⟩
      rcases List.mem_cons.1 hz with rfl | hz
      · exact hxy
      · exact hxy.trans (h1 z hz)
    · rename_i hxy
      split
      · exact h
      · rename_i hne
        refine List.pairwise_cons.2 ⟨fun z hz => ?_, insertNew_ascending h2⟩
        rcases mem_insertNew.1 hz with rfl | hz
        · exact lt_of_le_of_ne (not_lt.1 hxy) (Ne.symm hne)
        · exact h1 z hz

theorem sortedOnce_ascending : ∀ xs : List α, (sortedOnce xs).Pairwise (· < ·)
  | [] => by simp [sortedOnce]
  | x :: xs => insertNew_ascending (sortedOnce_ascending xs)

/-- An ascending list is told by its members. -/
theorem ascending_ext : ∀ {l m : List α}, l.Pairwise (· < ·) → m.Pairwise (· < ·) → (∀ x, x ∈ l ↔ x ∈ m) → l = m
  | [], [], _, _, _ => rfl
  | [], y :: m, _, _, h => absurd ((h y).2 (by simp)) (by simp)
  | x :: l, [], _, _, h => absurd ((h x).1 (by simp)) (by simp)
  | x :: l, y :: m, hl, hm, h => by
    obtain ⟨l1, l2⟩ := List.pairwise_cons.1 hl
    obtain ⟨m1, m2⟩ := List.pairwise_cons.1 hm
    have e : x = y := by
      rcases List.mem_cons.1 ((h x).1 (by simp)) with e | e
      · exact e
      rcases List.mem_cons.1 ((h y).2 (by simp)) with e' | e'
      · exact e'.symm
      · exact absurd (l1 y e') (not_lt.2 (m1 x e).le)
    subst e
    refine congrArg _ (ascending_ext l2 m2 fun z => ⟨fun hz => ?_, fun hz => ?_⟩)
    · exact (List.mem_cons.1 ((h z).1 (by simp [hz]))).resolve_left (l1 z hz).ne'
    · exact (List.mem_cons.1 ((h z).2 (by simp [hz]))).resolve_left (m1 z hz).ne'

/-- Walking forward over the members of an ascending list gives its entries in turn. -/
theorem Walk.entries : ∀ (n : Nat) {l : List α} {os : List (Option α)} {S : Set α},
    l.Pairwise (· < ·) → (∀ x, x ∈ S ↔ x ∈ l) → Walk S (List.replicate n .next) os →
    os = (List.range n).map fun k => l[k]?
  | 0, l, os, S, _, _, h => by cases h; rfl
  | n + 1, l, os, S, hl, hS, h => by
    rw [List.replicate_succ] at h
    rw [List.range_succ_eq_map, List.map_cons, List.map_map]
    cases h with
    | next hm hw =>
      rename_i m os
      cases l with
      | nil => exact absurd ((hS m).1 hm.1) (by simp)
      | cons y l =>
        obtain ⟨l1, l2⟩ := List.pairwise_cons.1 hl
        have e : m = y := by
          rcases List.mem_cons.1 ((hS m).1 hm.1) with e | e
          · exact e
          · exact absurd (l1 m e) (not_lt.2 (hm.2 ((hS y).2 (by simp))))
        subst e
        have hS' : ∀ z, z ∈ S \ {m} ↔ z ∈ l := fun z => by
          rw [Set.mem_sdiff, hS, Set.mem_singleton_iff, List.mem_cons]
          exact ⟨fun ⟨h1, h2⟩ => h1.resolve_left h2, fun hz => ⟨.inr hz, (l1 z hz).ne'⟩⟩
        rw [Walk.entries n l2 hS' hw]
        rfl
    | done hS' hw =>
      rename_i os
      have : l = [] := List.eq_nil_iff_forall_not_mem.2 fun x hx => by
        have := (hS x).2 hx
        rw [hS'] at this; exact this
      subst this
      rw [Walk.entries n hl hS hw]
      rfl

/-- Walking backward over the members of a descending list gives its entries in turn. -/
theorem Walk.entries_back : ∀ (n : Nat) {l : List α} {os : List (Option α)} {S : Set α},
    l.Pairwise (· > ·) → (∀ x, x ∈ S ↔ x ∈ l) → Walk S (List.replicate n .nextBack) os →
    os = (List.range n).map fun k => l[k]?
  | 0, l, os, S, _, _, h => by cases h; rfl
  | n + 1, l, os, S, hl, hS, h => by
    rw [List.replicate_succ] at h
    rw [List.range_succ_eq_map, List.map_cons, List.map_map]
    cases h with
    | nextBack hm hw =>
      rename_i m os
      cases l with
      | nil => exact absurd ((hS m).1 hm.1) (by simp)
      | cons y l =>
        obtain ⟨l1, l2⟩ := List.pairwise_cons.1 hl
        have e : m = y := by
          rcases List.mem_cons.1 ((hS m).1 hm.1) with e | e
          · exact e
          · exact absurd (l1 m e) (not_lt.2 (hm.2 ((hS y).2 (by simp))))
        subst e
        have hS' : ∀ z, z ∈ S \ {m} ↔ z ∈ l := fun z => by
          rw [Set.mem_sdiff, hS, Set.mem_singleton_iff, List.mem_cons]
          exact ⟨fun ⟨h1, h2⟩ => h1.resolve_left h2, fun hz => ⟨.inr hz, (l1 z hz).ne⟩⟩
        rw [Walk.entries_back n l2 hS' hw]
        rfl
    | done hS' hw =>
      rename_i os
      have : l = [] := List.eq_nil_iff_forall_not_mem.2 fun x hx => by
        have := (hS x).2 hx
        rw [hS'] at this; exact this
      subst this
      rw [Walk.entries_back n hl hS hw]
      rfl

/-- Reading off the entries of a descending list is a walk backward over its members. -/
theorem Walk.of_entries_back : ∀ (n : Nat) {l : List α} {S : Set α},
    l.Pairwise (· > ·) → (∀ x, x ∈ S ↔ x ∈ l) → Walk S (List.replicate n .nextBack) ((List.range n).map fun k => l[k]?)
  | 0, l, S, _, _ => .nil _
  | n + 1, [], S, hl, hS => by
    rw [List.replicate_succ, List.range_succ_eq_map, List.map_cons, List.map_map]
    exact .done (Set.eq_empty_iff_forall_notMem.2 fun x hx => by simpa using (hS x).1 hx) (of_entries_back n hl hS)
  | n + 1, y :: l, S, hl, hS => by
    rw [List.replicate_succ, List.range_succ_eq_map, List.map_cons, List.map_map]
    obtain ⟨l1, l2⟩ := List.pairwise_cons.1 hl
    refine .nextBack ⟨(hS y).2 (by simp), fun z hz => ?_⟩ (of_entries_back n (l := l) l2 fun z => ?_)
    · rcases List.mem_cons.1 ((hS z).1 hz) with rfl | h
      · exact le_rfl
      · exact (l1 z h).le
    · rw [Set.mem_sdiff, hS, Set.mem_singleton_iff, List.mem_cons]
      exact ⟨fun ⟨h1, h2⟩ => h1.resolve_left h2, fun hz => ⟨.inr hz, (l1 z hz).ne⟩⟩

end Lists

variable {α : Type} [LinearOrder α] [Finite α] [LawfulFinite α]

theorem succ_between {x y : α} (h : x < y) (hn : succ x ≠ some y) : ∃ z, x < z ∧ z < y := by
  cases e : succ x with
  | none => exact absurd ((LawfulFinite.succ_none _).1 e ▸ LawfulFinite.le_max y) (not_le.2 h)
  | some z =>
    obtain ⟨h1, h2⟩ := LawfulFinite.succ_some _ _ e
    exact ⟨z, h1, lt_of_le_of_ne (h2 y h) fun hz => hn (hz ▸ e)⟩

theorem asRanges_head (x : α) (l : List α) : ∃ u r, asRanges (x :: l) = (x, u) :: r := by
  rw [asRanges]
  split
  · exact ⟨x, [], rfl⟩
  · split
    · exact ⟨_, _, rfl⟩
    · exact ⟨_, _, rfl⟩

theorem asRanges_spec : ∀ {l : List α}, l.Pairwise (· < ·) →
    (∀ p ∈ asRanges l, p.1 ≤ p.2) ∧ (asRanges l).Pairwise (fun p q => ∃ z, p.2 < z ∧ z < q.1) ∧
      ∀ x, (∃ p ∈ asRanges l, p.1 ≤ x ∧ x ≤ p.2) ↔ x ∈ l
  | [], _ => by simp [asRanges]
  | [x], _ => by
    simp only [asRanges, List.mem_singleton, forall_eq, le_refl, true_and, exists_eq_left]
    exact ⟨by simp, fun z => ⟨fun ⟨h1, h2⟩ => le_antisymm h2 h1, fun h => by simp [h]⟩⟩
  | x :: y :: l, h => by
    obtain ⟨h1, h2⟩ := List.pairwise_cons.1 h
    obtain ⟨i1, i2, i3⟩ := asRanges_spec h2
    obtain ⟨u, r, e⟩ := asRanges_head y l
    have hxy : x < y := h1 y (by simp)
    rw [asRanges, e]
    rw [e] at i1 i2 i3
    obtain ⟨j1, j2⟩ := List.pairwise_cons.1 i2
    have hyu : y ≤ u := i1 (y, u) (by simp)
    simp only
    split
    · rename_i hs
      refine ⟨fun p hp => ?_, List.pairwise_cons.2 ⟨j1, j2⟩, fun z => ?_⟩
      · rcases List.mem_cons.1 hp with rfl | hp
        · exact hxy.le.trans hyu
        · exact i1 p (by simp [hp])
      · rw [List.mem_cons, ← i3]
        simp only [List.mem_cons, exists_eq_or_imp]
        constructor
        · rintro (⟨g1, g2⟩ | g)
          · rcases g1.eq_or_lt with rfl | g1
            · exact .inl rfl
            · exact .inr (.inl ⟨(LawfulFinite.succ_some _ _ hs).2 z g1, g2⟩)
          · exact .inr (.inr g)
        · rintro (rfl | ⟨g1, g2⟩ | g)
          · exact .inl ⟨le_rfl, hxy.le.trans hyu⟩
          · exact .inl ⟨hxy.le.trans g1, g2⟩
          · exact .inr g
    · rename_i hs
      obtain ⟨w, w1, w2⟩ := succ_between hxy hs
      refine ⟨fun p hp => ?_, List.pairwise_cons.2 ⟨fun q hq => ⟨w, w1, ?_⟩, i2⟩, fun z => ?_⟩
      · rcases List.mem_cons.1 hp with rfl | hp
        · exact le_rfl
        · exact i1 p hp
      · rcases List.mem_cons.1 hq with rfl | hq
        · exact w2
        · obtain ⟨v, v1, v2⟩ := j1 q hq
          exact w2.trans (lt_of_le_of_lt hyu (v1.trans v2))
      · rw [List.mem_cons, ← i3]
        constructor
        · rintro ⟨p, hp, g⟩
          rcases List.mem_cons.1 hp with rfl | hp
          · exact .inl (le_antisymm g.2 g.1)
          · exact .inr ⟨p, hp, g⟩
        · rintro (rfl | ⟨p, hp, g⟩)
          · exact ⟨(z, z), by simp, le_rfl, le_rfl⟩
          · exact ⟨p, by simp [hp], g⟩

/-- The intervals of a union-built selection are closed ones. -/
theorem Selection.union_built_ranges (dbg : Bool) (s : Selection α) (hs : s.UnionBuilt) :
    ∃ ps : List (α × α), s.intervals dbg = .ok (ps.map rangeInterval) ∧ (∀ p ∈ ps, p.1 ≤ p.2) ∧
      ps.Pairwise (fun p q => ∃ z, p.2 < z ∧ z < q.1) ∧ ∀ x, (∃ p ∈ ps, p.1 ≤ x ∧ x ≤ p.2) ↔ x ∈ s.pts dbg := by
  have v := Selection.reachable_valid hs.reachable
  have hg := Selection.np_good v (Selection.Solid.tidy (.inl hs)).np
  obtain ⟨is, he, -, -, hc⟩ := C56_cover_partial dbg s hs.reachable
  have hsep := C56_separated_partial dbg s (.inl hs) is he
  have hcl : ∀ i ∈ is, ∃ p : α × α, i = rangeInterval p ∧ p.1 ≤ p.2 ∧ i.pts = Set.Icc p.1 p.2 := by
    intro i hi
    obtain ⟨l, u, h1, h2, h3, h4, h5⟩ := C56_nonempty_partial dbg s (.tidy (.inl hs)) is he i hi
    refine ⟨(l, u), ?_, h1, h2⟩
    rw [Selection.intervals_eq dbg v] at he
    cases he
    obtain ⟨j, hj, rfl⟩ := List.mem_map.1 hi
    have hn : ∃ a b, Selection.run j = ⟨.closed a b⟩ := by
      obtain ⟨-, x, hx⟩ := hg j hj
      rcases (DO.open v hs.do hj).cases with rfl | ⟨a, b, rfl⟩ | ⟨a, rfl⟩ | ⟨b, rfl⟩ | rfl
      · simp [RawInterval.contains] at hx
      · simp [RawInterval.contains] at hx
        obtain ⟨l, h1⟩ := succ_some_of_lt hx.1
        obtain ⟨r, h2⟩ := pred_some_of_lt hx.2
        exact ⟨l, r, by simp [Selection.run, RawInterval.normalized, h1, h2]⟩
      · simp [RawInterval.contains] at hx
        obtain ⟨l, h1⟩ := succ_some_of_lt hx
        exact ⟨l, maximum, by simp [Selection.run, RawInterval.normalized, h1]⟩
      · simp [RawInterval.contains] at hx
        obtain ⟨r, h2⟩ := pred_some_of_lt hx
        exact ⟨minimum, r, by simp [Selection.run, RawInterval.normalized, h2]⟩
      · exact ⟨minimum, maximum, rfl⟩
    obtain ⟨a, b, e⟩ := hn
    rw [e] at h3 h4 ⊢
    simp only [Interval.lowerBound, Interval.upperBound, RawInterval.lowerBound, RawInterval.upperBound,
      Option.some.injEq, Bound.incl.injEq] at h3 h4
    rw [rangeInterval, h3, h4]
  have hmap : ∀ {L : List (Interval α)},
      (∀ i ∈ L, ∃ p : α × α, i = rangeInterval p ∧ p.1 ≤ p.2 ∧ i.pts = Set.Icc p.1 p.2) →
      ∃ ps : List (α × α), L = ps.map rangeInterval ∧ ∀ p ∈ ps, p.1 ≤ p.2 ∧ (rangeInterval p).pts = Set.Icc p.1 p.2 := by
    intro L
    induction L with
    | nil => exact fun _ => ⟨[], rfl, by simp⟩
    | cons i L ih =>
      intro h
      obtain ⟨p, rfl, hp⟩ := h i (by simp)
      obtain ⟨ps, rfl, hps⟩ := ih fun j hj => h j (by simp [hj])
      exact ⟨p :: ps, rfl, by simpa using ⟨hp, fun a b hab => hps (a, b) hab⟩⟩
  obtain ⟨ps, rfl, hp⟩ := hmap hcl
  refine ⟨ps, he, fun p h => (hp p h).1, ?_, fun x => ?_⟩
  · rw [List.pairwise_map] at hsep
    refine List.Pairwise.imp_of_mem (fun {p q} h1 h2 ⟨z, _, z1, z2⟩ => ⟨z, z1 p.2 ?_, z2 q.1 ?_⟩) hsep
    · rw [(hp p h1).2]; exact ⟨(hp p h1).1, le_rfl⟩
    · rw [(hp q h2).2]; exact ⟨le_rfl, (hp q h2).1⟩
  · rw [hc]
    constructor
    · rintro ⟨p, h1, h2⟩
      exact ⟨_, List.mem_map.2 ⟨p, h1, rfl⟩, by rw [(hp p h1).2]; exact h2⟩
    · rintro ⟨i, hi, hx⟩
      obtain ⟨p, h1, rfl⟩ := List.mem_map.1 hi
      rw [(hp p h1).2] at hx
      exact ⟨p, h1, hx⟩

/-! ## C137 -/

/-- Collecting values and iterating gives them in ascending order, each once. -/
theorem C137_sorted (dbg : Bool) (xs : List α) : ∃ s, Selection.fromPoints dbg xs = .ok s ∧
    ∀ n, drive (PointIter.next dbg) (PointIter.nextBack dbg) (PointIter.start s) (List.replicate n .next) =
      .ok ((List.range n).map fun k => (sortedOnce xs)[k]?) := by
  obtain ⟨s, e, hr, hm⟩ := C48_from_points dbg xs
  refine ⟨s, e, fun n => ?_⟩
  obtain ⟨os, h1, h2⟩ := C57_forward_partial dbg s (.tidy (.inl (.fromPoints e))) n
  rw [h1, Walk.entries n (sortedOnce_ascending xs) (fun x => by rw [hm, mem_sortedOnce]) h2]

/-- 7, 3, 4, 3 in order: 3, 4, 7. -/
example : sortedOnce [u8 7, u8 3, u8 4, u8 3] = [u8 3, u8 4, u8 7] ∧
    Selection.fromPoints true [u8 7, u8 3, u8 4, u8 3] = .ok (Selection.demo [(u8 3, u8 4), (u8 7, u8 7)]) :=
  ⟨by decide, by decide⟩

/-- Iterating from the back gives them in descending order in debug builds exactly if no value missing between them
has both its neighbours among them; then it does so in release builds too. -/
theorem C137_descending [WellFoundedLT α] (xs : List α) : ∃ s, (∀ dbg, Selection.fromPoints dbg xs = .ok s) ∧
    ((∀ n, drive (PointIter.next true) (PointIter.nextBack true) (PointIter.start s) (List.replicate n .nextBack) =
        .ok ((List.range n).map fun k => (sortedOnce xs).reverse[k]?)) ↔
      ∀ p ∈ xs, ∀ q ∈ xs, ∀ x, succ p = some x → succ x = some q → x ∈ xs) ∧
    ((∀ p ∈ xs, ∀ q ∈ xs, ∀ x, succ p = some x → succ x = some q → x ∈ xs) → ∀ dbg n,
      drive (PointIter.next dbg) (PointIter.nextBack dbg) (PointIter.start s) (List.replicate n .nextBack) =
        .ok ((List.range n).map fun k => (sortedOnce xs).reverse[k]?)) := by
  obtain ⟨s, e, hr, hm⟩ := C48_from_points true xs
  obtain ⟨s', e', hr', hm'⟩ := C48_from_points false xs
  have hs : s.UnionBuilt := .fromPoints e
  have v := Selection.reachable_valid hr
  have pf : ∀ dbg x, x ∈ s.pts dbg ↔ x ∈ xs := fun dbg x => by
    rw [← hm, Selection.mem_pts dbg v, Selection.mem_pts true v]
  have es : s' = s := (C55_union_built_partial false s' s (.fromPoints e') hs).2 (Set.ext fun x => by rw [hm', pf])
  have ed : ∀ dbg, Selection.fromPoints dbg xs = .ok s := fun dbg => by cases dbg <;> simp_all
  have ne : ∀ dbg, ∃ is, s.intervals dbg = .ok is ∧ ∀ i ∈ is, i.pts.Nonempty := fun dbg => by
    obtain ⟨is, he, -⟩ := C56_cover_partial dbg s hr
    refine ⟨is, he, fun i hi => ?_⟩
    obtain ⟨l, u, h1, h2, -⟩ := C56_nonempty_partial dbg s (.tidy (.inl hs)) is he i hi
    exact ⟨l, h2 ▸ ⟨le_rfl, h1⟩⟩
  have hole : ∀ dbg, (∀ x, ¬ s.Pinhole dbg x) ↔
      ∀ p ∈ xs, ∀ q ∈ xs, ∀ x, succ p = some x → succ x = some q → x ∈ xs := fun dbg => by
    simp only [C73_pinhole_built dbg s hs, pf, pred_eq_iff]
    constructor
    · intro h p hp q hq x h1 h2
      by_contra hx
      exact h x ⟨hx, ⟨p, hp, h1⟩, q, hq, h2⟩
    · rintro h x ⟨hx, ⟨p, hp, h1⟩, q, hq, h2⟩
      exact hx (h p hp q hq x h1 h2)
  have desc : (sortedOnce xs).reverse.Pairwise (· > ·) := by
    rw [List.pairwise_reverse]; exact sortedOnce_ascending xs
  have mem : ∀ dbg x, x ∈ s.pts dbg ↔ x ∈ (sortedOnce xs).reverse := fun dbg x => by
    rw [pf, List.mem_reverse, mem_sortedOnce]
  have walk : ∀ dbg n, (∃ os, drive (PointIter.next dbg) (PointIter.nextBack dbg) (PointIter.start s)
        (List.replicate n .nextBack) = .ok os ∧ Walk (s.pts dbg) (List.replicate n .nextBack) os) ↔
      drive (PointIter.next dbg) (PointIter.nextBack dbg) (PointIter.start s) (List.replicate n .nextBack) =
        .ok ((List.range n).map fun k => (sortedOnce xs).reverse[k]?) := fun dbg n => by
    constructor
    · rintro ⟨os, h1, h2⟩
      rw [h1, Walk.entries_back n desc (mem dbg) h2]
    · exact fun h => ⟨_, h, Walk.of_entries_back n desc (mem dbg)⟩
  refine ⟨s, ed, ?_, fun h dbg n => ?_⟩
  · obtain ⟨is, he, hg⟩ := ne true
    rw [← hole true, ← C73_points_any s hr is he hg]
    exact forall_congr' fun n => (walk true n).symm
  · obtain ⟨is, he, hg⟩ := ne dbg
    exact (walk dbg n).1 (C57_reverse_any dbg s hr is he hg ((hole dbg).2 h) n)

/-- 3, 4 and 7 come back in descending order; 3 and 5, between which 4 is missing, do not. -/
example : drive (PointIter.next true) (PointIter.nextBack true) (PointIter.start (Selection.demo [(u8 3, u8 4), (u8 7, u8 7)]))
      (List.replicate 4 .nextBack) = .ok [some (u8 7), some (u8 4), some (u8 3), none] ∧
    Selection.fromPoints true [u8 3, u8 5] = .ok (Selection.demo [(u8 3, u8 3), (u8 5, u8 5)]) ∧
    drive (PointIter.next true) (PointIter.nextBack true) (PointIter.start (Selection.demo [(u8 3, u8 3), (u8 5, u8 5)]))
      (List.replicate 2 .nextBack) = .error .debugAssert ∧
    Finite.succ (u8 3) = some (u8 4) ∧ Finite.succ (u8 4) = some (u8 5) :=
  ⟨by decide, by decide, by decide, by decide, by decide⟩

/-- Its intervals write them as ranges, and collecting the ranges gives the same selection. -/
theorem C137_ranges (dbg : Bool) (xs : List α) : ∃ s, Selection.fromPoints dbg xs = .ok s ∧
    s.intervals dbg = .ok ((asRanges (sortedOnce xs)).map rangeInterval) ∧
    Selection.fromIntervals dbg ((asRanges (sortedOnce xs)).map rangeInterval) = .ok s := by
  obtain ⟨s, e, hr, hm⟩ := C48_from_points dbg xs
  have hs : s.UnionBuilt := .fromPoints e
  obtain ⟨ps, p1, p2, p3, p4⟩ := Selection.union_built_ranges dbg s hs
  obtain ⟨q2, q3, q4⟩ := asRanges_spec (sortedOnce_ascending xs)
  have h := Selection.ranges_ext p2 q2 p3 q3 fun x => by rw [p4, q4, hm, mem_sortedOnce]
  rw [h] at p1
  refine ⟨s, e, p1, ?_⟩
  obtain ⟨is, r, e1, e2, -, e4⟩ := C102_same_points dbg s hr
  rw [p1] at e1; cases e1
  have hu : r.UnionBuilt := (C102_canonical_iff dbg s r hr _ p1 e2).2 fun i hi => by
    obtain ⟨l, u, h1, h2, -⟩ := C56_nonempty_partial dbg s (.tidy (.inl hs)) _ p1 i hi
    exact ⟨l, h2 ▸ ⟨le_rfl, h1⟩⟩
  rw [e2, (C55_union_built_partial dbg r s hu hs).2 e4]

/-- 7, 3, 4, 3 as ranges: 3 to 4, and 7. -/
example : asRanges (sortedOnce [u8 7, u8 3, u8 4, u8 3]) = [(u8 3, u8 4), (u8 7, u8 7)] ∧
    (Selection.demo [(u8 3, u8 4), (u8 7, u8 7)]).intervals true =
      .ok [⟨.closed (u8 3) (u8 4)⟩, ⟨.closed (u8 7) (u8 7)⟩] := ⟨by decide, by decide⟩

/-- Two lists are collected to equal selections exactly if they have the same values. -/
theorem C137_equal (dbg : Bool) (xs ys : List α) :
    (Selection.fromPoints dbg xs = Selection.fromPoints dbg ys) ↔ sortedOnce xs = sortedOnce ys := by
  obtain ⟨s, e, -, hm⟩ := C48_from_points dbg xs
  obtain ⟨t, f, -, hn⟩ := C48_from_points dbg ys
  rw [e, f, Except.ok.injEq, C55_union_built_partial dbg s t (.fromPoints e) (.fromPoints f)]
  constructor
  · intro h
    exact ascending_ext (sortedOnce_ascending xs) (sortedOnce_ascending ys) fun x => by
      rw [mem_sortedOnce, mem_sortedOnce, ← hm, ← hn, h]
  · intro h
    ext x
    rw [hm, hn, ← mem_sortedOnce, h, mem_sortedOnce]

example : sortedOnce [u8 7, u8 3, u8 7] = sortedOnce [u8 3, u8 7] ∧ sortedOnce [u8 7, u8 3] ≠ sortedOnce [u8 3, u8 4] :=
  ⟨by decide, by decide⟩

/-- Collecting one list after the other gives the union of the two collected. -/
theorem C137_append (dbg : Bool) (xs ys : List α) : ∃ s t u, Selection.fromPoints dbg xs = .ok s ∧
    Selection.fromPoints dbg ys = .ok t ∧ Selection.fromPoints dbg (xs ++ ys) = .ok u ∧
    Selection.union dbg s t = .ok u := by
  obtain ⟨s, e, hs, hm⟩ := C48_from_points dbg xs
  obtain ⟨t, f, ht, hn⟩ := C48_from_points dbg ys
  obtain ⟨u, g, -, hu⟩ := C48_from_points dbg (xs ++ ys)
  refine ⟨s, t, u, e, f, g, ?_⟩
  have vs := Selection.reachable_valid hs
  have vt := Selection.reachable_valid ht
  obtain ⟨w, w1, w2, w3⟩ := Selection.union_ok dbg vs vt
  have hw : w.UnionBuilt := .union (.fromPoints e) (.fromPoints f) w1
  rw [w1, (C55_union_built_partial dbg w u hw (.fromPoints g)).2]
  ext x
  rw [hu, List.mem_append, ← hm, ← hn, Selection.mem_pts dbg w2, Selection.mem_pts dbg vs, Selection.mem_pts dbg vt]
  simp only [at', w3, Bool.or_eq_true]

example : Selection.fromPoints true [u8 7, u8 3] = .ok (Selection.demo [(u8 3, u8 3), (u8 7, u8 7)]) ∧
    Selection.fromPoints true [u8 4] = .ok (Selection.demo [(u8 4, u8 4)]) ∧
    Selection.fromPoints true ([u8 7, u8 3] ++ [u8 4]) = .ok (Selection.demo [(u8 3, u8 4), (u8 7, u8 7)]) :=
  ⟨by decide, by decide, by decide⟩

end NI
