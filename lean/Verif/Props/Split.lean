import Verif.SpecSplit
import Verif.Props.Table

/-! # Cutting the line at the ends of intervals (C146) -/

namespace NI
open _root_.NI.Finite TT
variable {α : Type} [LinearOrder α] [Finite α] [LawfulFinite α]

/-- What `minus` keeps of a run of values that the other interval does not meet is in one piece. -/
theorem Interval.minus_same {a b : Interval α} (hb : b.Obtainable) (hr : b.Real) {x y : α} (hx : x ∈ a.pts) (hy : y ∈ a.pts)
    (h : ∀ z ∈ Set.uIcc x y, z ∉ b.pts) : ∃ k ∈ a.minus b, x ∈ k.pts ∧ y ∈ k.pts := by
  have key : ∀ r ∈ b.raw.complement, x ∈ r.pts → y ∈ r.pts → ∃ k ∈ a.minus b, x ∈ k.pts ∧ y ∈ k.pts := by
    intro r hr h1 h2
    have mem : ∀ z, z ∈ a.pts → z ∈ r.pts → z ∈ (⟨(a.raw.intersect r).normalized⟩ : Interval α).pts := fun z hz hz' => by
      rw [Interval.pts_mk_normalized, C03_intersect, ← Interval.pts_eq]; exact ⟨hz, hz'⟩
    refine ⟨_, List.mem_map_of_mem (List.mem_filter.2 ⟨List.mem_map_of_mem hr, ?_⟩), mem x hx h1, mem y hy h2⟩
    have := mem x hx h1
    rw [Interval.pts_mk_normalized] at this
    rw [Bool.not_eq_true', Bool.eq_false_iff, ne_eq, RawInterval.isEmpty_iff]
    intro e; rw [e] at this; cases this
  have sides : ∀ l u, b.raw.complement = [.upTo l, .upFrom u] → l ≤ u → (∀ z, z ∈ b.pts ↔ l ≤ z ∧ z ≤ u) →
      ∃ k ∈ a.minus b, x ∈ k.pts ∧ y ∈ k.pts := by
    intro l u hc hlu hz
    have side : ∀ z, z ∉ b.pts → z < l ∨ u < z := fun z h => by
      by_contra g
      push Not at g
      exact h ((hz z).2 g)
    have hl : l ∈ b.pts := (hz l).2 ⟨le_rfl, hlu⟩
    rcases side x (h x Set.left_mem_uIcc) with h1 | h1 <;> rcases side y (h y Set.right_mem_uIcc) with h2 | h2
    · exact key (.upTo l) (by simp [hc]) h1 h2
    · exact absurd hl (h l (Set.mem_uIcc.2 (.inl ⟨h1.le, hlu.trans h2.le⟩)))
    · exact absurd hl (h l (Set.mem_uIcc.2 (.inr ⟨h2.le, hlu.trans h1.le⟩)))
    · exact key (.upFrom u) (by simp [hc]) h1 h2
  rcases Interval.obtainable_cases hb with rfl | ⟨p, rfl⟩ | ⟨l, u, rfl, hlu⟩
  · exact key .full (by simp [RawInterval.complement]) trivial trivial
  · refine sides p p rfl le_rfl fun z => ?_
    rw [Interval.pts_eq]
    exact ⟨fun h => by rw [show z = p from h]; exact ⟨le_rfl, le_rfl⟩, fun h => le_antisymm h.2 h.1⟩
  · refine sides l u rfl (Interval.real_mk_closed.1 hr) fun z => ?_
    rw [Interval.pts_eq]; rfl

/-- An interval has all values between two of its values. -/
theorem Interval.between {a : Interval α} (ha : a.Obtainable) {x y z : α} (hx : x ∈ a.pts) (hy : y ∈ a.pts)
    (hz : z ∈ Set.uIcc x y) : z ∈ a.pts := by
  rcases Interval.incl_bounds ha with rfl | ⟨s, t, -, -, -, -, -, h⟩
  · cases hx
  · have h1 := (h x).1 hx
    have h2 := (h y).1 hy
    rcases Set.mem_uIcc.1 hz with g | g
    · exact (h z).2 ⟨h1.1.trans g.1, g.2.trans h2.2⟩
    · exact (h z).2 ⟨h2.1.trans g.1, g.2.trans h1.2⟩

omit [LawfulFinite α] in
theorem Interval.mem_splitAt {ps : List (Interval α)} {i k : Interval α} :
    k ∈ Interval.splitAt ps i ↔ (∃ p ∈ ps, k = p.intersect i ∨ k ∈ p.minus i) ∧ k.isEmpty = false := by
  simp [Interval.splitAt]

/-- Pieces that have values, none in common. -/
def Interval.Parts (ps : List (Interval α)) : Prop :=
  (∀ p ∈ ps, p.Obtainable ∧ ∃ x, x ∈ p.pts) ∧ ps.Pairwise fun p q => Disjoint p.pts q.pts

omit [Finite α] [LawfulFinite α] in
theorem Interval.nonempty_iff {k : Interval α} (h : k.Real) : k.isEmpty = false ↔ ∃ x, x ∈ k.pts := by
  constructor
  · intro e
    rcases h with h | h
    · rw [h] at e; cases e
    · exact h
  · rintro ⟨x, hx⟩
    rcases k with ⟨r⟩
    cases r <;> first | rfl | cases hx

theorem Interval.splitAt_parts {ps : List (Interval α)} (h : Interval.Parts ps) {i : Interval α} (hi : i.Obtainable) :
    Interval.Parts (Interval.splitAt ps i) := by
  refine ⟨fun k hk => ?_, ?_⟩
  · obtain ⟨⟨p, hp, hk⟩, he⟩ := Interval.mem_splitAt.1 hk
    have ho := (h.1 p hp).1
    rcases hk with rfl | hk
    · exact ⟨.intersect ho hi, (Interval.nonempty_iff (Interval.real_intersect ho hi)).1 he⟩
    · exact ⟨.minus ho hi hk, (Interval.nonempty_iff (Interval.real_minus ho hk)).1 he⟩
  · rw [Interval.splitAt]
    refine List.Pairwise.filter _ (List.pairwise_flatMap.2 ⟨fun p hp => ?_, h.2.imp fun {p q} d => ?_⟩)
    · refine List.pairwise_cons.2 ⟨fun k hk => ?_, (Interval.minus_shape (h.1 p hp).1 hi).1⟩
      rw [Interval.pts_intersect, Set.disjoint_left]
      exact fun x hx hk' => ((Interval.mem_minus p i x).1 ⟨k, hk, hk'⟩).2 hx.2
    · have sub : ∀ {p k : Interval α}, k ∈ p.intersect i :: p.minus i → k.pts ⊆ p.pts := by
        intro p k hk x hx
        rcases List.mem_cons.1 hk with rfl | hk
        · rw [Interval.pts_intersect] at hx; exact hx.1
        · exact ((Interval.mem_minus p i x).1 ⟨k, hk, hx⟩).1
      exact fun k hk m hm => d.mono (sub hk) (sub hm)

omit [LawfulFinite α] in
theorem Interval.pieces_snoc (is : List (Interval α)) (i : Interval α) :
    Interval.pieces (is ++ [i]) = Interval.splitAt (Interval.pieces is) i := by
  rw [Interval.pieces, List.foldl_append]; rfl

theorem Interval.pieces_parts (is : List (Interval α)) (ho : ∀ i ∈ is, i.Obtainable) : Interval.Parts (Interval.pieces is) := by
  induction is using List.reverseRecOn with
  | nil =>
    refine ⟨fun p hp => ?_, List.pairwise_singleton _ _⟩
    rw [List.mem_singleton.1 hp]
    exact ⟨.full, minimum, (C21_unbounded (minimum : α) minimum).2.2.2.2⟩
  | append_singleton is i ih =>
    rw [Interval.pieces_snoc]
    exact Interval.splitAt_parts (ih fun j hj => ho j (by simp [hj])) (ho i (by simp))

/-- **C146.**  The pieces cover every value once, and two values are in the same piece exactly if no interval separates
them. -/
theorem C146_pieces (is : List (Interval α)) (ho : ∀ i ∈ is, i.Obtainable ∧ i.Real) :
    (∀ p ∈ Interval.pieces is, p.isEmpty = false) ∧
    (Interval.pieces is).Pairwise (fun p q => ∀ x, ¬ (p.contains x = true ∧ q.contains x = true)) ∧
    ∀ x y, (∃ p ∈ Interval.pieces is, p.contains x = true ∧ p.contains y = true) ↔ Unseparated is x y := by
  have hp := Interval.pieces_parts is fun i hi => (ho i hi).1
  refine ⟨fun p h => (Interval.nonempty_iff (.inr (hp.1 p h).2)).2 (hp.1 p h).2,
    hp.2.imp fun d x hx => Set.disjoint_left.1 d hx.1 hx.2, ?_⟩
  clear hp
  induction is using List.reverseRecOn with
  | nil =>
    intro x y
    exact ⟨fun _ i hi => absurd hi List.not_mem_nil, fun _ => ⟨.full, .head _, (C21_unbounded x x).2.2.2.2, (C21_unbounded x y).2.2.2.2⟩⟩
  | append_singleton is i ih =>
    intro x y
    have ih := ih (fun j hj => ho j (by simp [hj])) x y
    have hp := Interval.pieces_parts is fun j hj => (ho j (by simp [hj])).1
    obtain ⟨hi, hr⟩ := ho i (by simp)
    have e : Unseparated (is ++ [i]) x y ↔ Unseparated is x y ∧ ∀ z ∈ Set.uIcc x y, z ∈ i.pts ↔ x ∈ i.pts := by
      simp only [Unseparated, List.mem_append, List.mem_singleton]
      exact ⟨fun h => ⟨fun j hj => h j (.inl hj), h i (.inr rfl)⟩,
        fun h j hj => hj.elim (h.1 j) fun e => by rw [e]; exact h.2⟩
    rw [e, ← ih, Interval.pieces_snoc]
    constructor
    · rintro ⟨k, hk, hx, hy⟩
      obtain ⟨⟨p, hpm, hk⟩, -⟩ := Interval.mem_splitAt.1 hk
      have hpo := (hp.1 p hpm).1
      rcases hk with rfl | hk
      · have m : ∀ z ∈ Set.uIcc x y, z ∈ (p.intersect i).pts := fun z hz => Interval.between (.intersect hpo hi) hx hy hz
        rw [Interval.pts_intersect] at m
        exact ⟨⟨p, hpm, (m x Set.left_mem_uIcc).1, (m y Set.right_mem_uIcc).1⟩,
          fun z hz => ⟨fun _ => (m x Set.left_mem_uIcc).2, fun _ => (m z hz).2⟩⟩
      · have m : ∀ z ∈ Set.uIcc x y, z ∈ p.pts ∧ z ∉ i.pts := fun z hz =>
          (Interval.mem_minus p i z).1 ⟨k, hk, Interval.between (.minus hpo hi hk) hx hy hz⟩
        exact ⟨⟨p, hpm, (m x Set.left_mem_uIcc).1, (m y Set.right_mem_uIcc).1⟩,
          fun z hz => ⟨fun h => absurd h (m z hz).2, fun h => absurd h (m x Set.left_mem_uIcc).2⟩⟩
    · rintro ⟨⟨p, hpm, hx, hy⟩, h⟩
      have hpo := (hp.1 p hpm).1
      by_cases hxi : x ∈ i.pts
      · have hyi := (h y Set.right_mem_uIcc).2 hxi
        have mem : ∀ z, z ∈ p.pts → z ∈ i.pts → z ∈ (p.intersect i).pts := fun z h1 h2 => by
          rw [Interval.pts_intersect]; exact ⟨h1, h2⟩
        exact ⟨_, Interval.mem_splitAt.2 ⟨⟨p, hpm, .inl rfl⟩,
          (Interval.nonempty_iff (Interval.real_intersect hpo hi)).2 ⟨x, mem x hx hxi⟩⟩, mem x hx hxi, mem y hy hyi⟩
      · obtain ⟨k, hk, h1, h2⟩ := Interval.minus_same hi hr hx hy fun z hz g => hxi ((h z hz).1 g)
        exact ⟨k, Interval.mem_splitAt.2 ⟨⟨p, hpm, .inr hk⟩,
          (Interval.nonempty_iff (Interval.real_minus hpo hk)).2 ⟨x, h1⟩⟩, h1, h2⟩

/-- **C146.**  So every piece lies in each of the intervals or outside it, and every value is in just as many of the intervals
as the others of its piece. -/
theorem C146_uniform (is : List (Interval α)) (ho : ∀ i ∈ is, i.Obtainable ∧ i.Real) (p : Interval α)
    (hp : p ∈ Interval.pieces is) (x y : α) (hx : p.contains x = true) (hy : p.contains y = true) :
    is.map (·.contains x) = is.map (·.contains y) := by
  refine List.map_congr_left fun i hi => ?_
  have := ((C146_pieces is ho).2.2 x y).1 ⟨p, hp, hx, hy⟩ i hi y Set.right_mem_uIcc
  rw [Bool.eq_iff_iff]
  exact this.symm

/-- **C146.**  There are at most two pieces more for each interval. -/
theorem C146_count (is : List (Interval α)) (ho : ∀ i ∈ is, i.Obtainable ∧ i.Real) :
    (Interval.pieces is).length ≤ 2 * is.length + 1 := by
  have hp := Interval.pieces_parts is fun i hi => (ho i hi).1
  have least : ∀ p ∈ Interval.pieces is, ∃ m, p.infimum = some m ∧ m ∈ p.pts ∧ ∀ x ∈ p.pts, m ≤ x := by
    intro p h
    have hr : p.Real := .inr (hp.1 p h).2
    obtain ⟨x1, -, x3, -⟩ := C31_extrema_partial p (hp.1 p h).1 hr
    cases e : p.infimum with
    | none => obtain ⟨x, hx⟩ := (hp.1 p h).2; rw [x3.1 e] at hx; cases hx
    | some m => exact ⟨m, rfl, ((x1 m).1 e).1, fun x hx => ((x1 m).1 e).2 hx⟩
  let starts : List (Option α) := some minimum :: (is.map Interval.infimum ++ is.map fun i => i.supremum.bind succ)
  have hs : starts.length = 2 * is.length + 1 := by simp [starts]; omega
  have nd : ((Interval.pieces is).map Interval.infimum).Nodup := by
    rw [List.Nodup, List.pairwise_map]
    refine hp.2.imp_of_mem fun {p q} h1 h2 d e => ?_
    obtain ⟨m, e1, hm, -⟩ := least p h1
    obtain ⟨n, e2, hn, -⟩ := least q h2
    rw [e1, e2] at e; cases e
    exact Set.disjoint_left.1 d hm hn
  have sub : (Interval.pieces is).map Interval.infimum ⊆ starts := by
    intro o h
    obtain ⟨p, h1, rfl⟩ := List.mem_map.1 h
    obtain ⟨m, e1, hm, hle⟩ := least p h1
    rw [e1]
    cases hpm : pred m with
    | none => rw [show m = minimum from (LawfulFinite.pred_none _).1 hpm]; exact .head _
    | some q =>
      have hq := LawfulFinite.pred_some _ _ hpm
      have hns : ¬ Unseparated is m q := fun g => by
        obtain ⟨k, hk, k1, k2⟩ := ((C146_pieces is ho).2.2 m q).2 g
        have : k = p := by
          by_contra hne
          have : Std.Symm fun p q : Interval α => Disjoint p.pts q.pts := ⟨fun _ _ h => h.symm⟩
          exact Set.disjoint_left.1 (hp.2.forall hk h1 hne) k1 hm
        rw [this] at k2
        exact absurd (hle q k2) (not_le.2 hq.1)
      rw [Unseparated] at hns; push Not at hns
      obtain ⟨i, hi, z, hz, g⟩ := hns
      obtain ⟨oi, ri⟩ := ho i hi
      obtain ⟨x1, x2, -, -⟩ := C31_extrema_partial i oi ri
      have hz' : z = m ∨ z = q := by
        rcases Set.mem_uIcc.1 hz with h | h
        · exact absurd (h.1.trans h.2) (not_le.2 hq.1)
        · rcases h.2.eq_or_lt with h' | h'
          · exact .inl h'
          · exact .inr (le_antisymm (hq.2 z h') h.1)
      rcases hz' with rfl | rfl
      · rcases g with g | g
        · exact absurd g.1 g.2
        · exact absurd g.2 g.1
      rcases g with ⟨g1, g2⟩ | ⟨g1, g2⟩
      · have : i.supremum = some z := (x2 z).2 ⟨g1, fun y hy => by
          by_contra hn
          have hmy : m ≤ y := by
            by_contra h
            exact hn (hq.2 y (not_le.1 h))
          exact g2 (Interval.between oi g1 hy (Set.mem_uIcc.2 (.inl ⟨hq.1.le, hmy⟩)))⟩
        refine .tail _ (List.mem_append.2 (.inr (List.mem_map.2 ⟨i, hi, ?_⟩)))
        rw [this]
        exact succ_of_pred hpm
      · have : i.infimum = some m := (x1 m).2 ⟨g2, fun y hy => by
          by_contra hn
          exact g1 (Interval.between oi g2 hy (Set.mem_uIcc.2 (.inr ⟨hq.2 y (not_le.1 hn), hq.1.le⟩)))⟩
        exact .tail _ (List.mem_append.2 (.inl (List.mem_map.2 ⟨i, hi, this⟩)))
  have := (nd.subperm sub).length_le
  rw [List.length_map, hs] at this
  exact this

/-- Intervals used in the examples. -/
def Interval.demo146 : List (Interval U8) := [.mkClosed (u8 2) (u8 6), .mkClosed (u8 4) (u8 9)]

theorem Interval.demo146_ok : ∀ i ∈ Interval.demo146, i.Obtainable ∧ i.Real := by
  simp only [Interval.demo146, List.mem_cons, List.not_mem_nil, or_false]
  rintro i (rfl | rfl)
  · exact ⟨.mkClosed _ _, .inr ⟨u8 2, by decide⟩⟩
  · exact ⟨.mkClosed _ _, .inr ⟨u8 4, by decide⟩⟩

example : (∀ i ∈ Interval.demo146, i.Obtainable ∧ i.Real) ∧
    (Interval.pieces Interval.demo146).map (fun p => (p.infimum, p.supremum)) =
      [(some (u8 4), some (u8 6)), (some (u8 2), some (u8 3)), (some (u8 0), some (u8 1)), (some (u8 7), some (u8 9)),
        (some (u8 10), some (u8 255))] ∧
    (Interval.pieces Interval.demo146).length = 2 * Interval.demo146.length + 1 :=
  ⟨Interval.demo146_ok, by decide, by decide⟩

/-- **C146.**  An open interval between neighbours, which has no value, separates them nevertheless. -/
theorem C146_counterexample : (Interval.mkOpen (u8 3) (u8 4)).Obtainable ∧
    Unseparated [Interval.mkOpen (u8 3) (u8 4)] (u8 3) (u8 4) ∧
    ¬ ∃ p ∈ Interval.pieces [Interval.mkOpen (u8 3) (u8 4)], p.contains (u8 3) = true ∧ p.contains (u8 4) = true := by
  refine ⟨.mkOpen _ _, fun i hi z _ => ?_, by decide⟩
  rw [List.mem_singleton.1 hi]
  have none : ∀ z, z ∉ (Interval.mkOpen (u8 3) (u8 4)).pts := fun z h => by
    exact absurd h (Bool.eq_false_iff.1 (Interval.phantom_no_point z))
  exact ⟨fun h => absurd h (none z), fun h => absurd h (none _)⟩

end NI
