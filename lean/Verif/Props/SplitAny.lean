import Verif.Props.Split

/-! # Cutting the line at the ends of any intervals (C146) -/

namespace NI
open _root_.NI.Finite TT
variable {α : Type} [LinearOrder α] [Finite α] [LawfulFinite α]

/-- An interval is real, or lies between two neighbours. -/
theorem Interval.real_or_phantom {i : Interval α} (h : i.Obtainable) : i.Real ∨
    ∃ lo hi, i.infimum = some lo ∧ i.supremum = some hi ∧ succ hi = some lo ∧ ∀ x, x ∉ i.pts := by
  rcases Interval.obtainable_cases h with rfl | ⟨p, rfl⟩ | ⟨l, u, rfl, hlu⟩
  · exact .inl (.inl rfl)
  · exact .inl (.inr ⟨p, by simp [Interval.contains, RawInterval.contains]⟩)
  · rcases le_or_gt l u with g | g
    · exact .inl (Interval.real_mk_closed.2 g)
    · refine .inr ⟨l, u, rfl, rfl, hlu.resolve_left (not_le.2 g), fun x hx => ?_⟩
      rw [Interval.pts_eq] at hx
      exact absurd (hx.1.trans hx.2) (not_le.2 g)

/-- What `minus` keeps on one side of an interval without values is in one piece, and the sides are kept apart. -/
theorem Interval.minus_phantom {a b : Interval α} (hb : b.Obtainable) {lo hi : α} (h1 : b.infimum = some lo) (h2 : b.supremum = some hi)
    (hlt : hi < lo) {x y : α} (hx : x ∈ a.pts) (hy : y ∈ a.pts) :
    (∃ k ∈ a.minus b, x ∈ k.pts ∧ y ∈ k.pts) ↔ (x ≤ hi ↔ y ≤ hi) := by
  rcases Interval.obtainable_cases hb with rfl | ⟨p, rfl⟩ | ⟨l, u, rfl, hlu⟩
  · cases h1
  · cases h1; cases h2; exact absurd hlt (lt_irrefl _)
  cases h1; cases h2
  have hs := LawfulFinite.succ_some _ _ (hlu.resolve_left (not_le.2 hlt))
  have hside : ∀ z, z < lo ↔ z ≤ hi := fun z => ⟨fun g => by
    by_contra hn
    exact absurd (hs.2 z (not_le.1 hn)) (not_le.2 g), fun g => g.trans_lt hlt⟩
  have mem : ∀ r : RawInterval α, ∀ z, z ∈ (⟨(a.raw.intersect r).normalized⟩ : Interval α).pts ↔ z ∈ a.pts ∧ z ∈ r.pts := fun r z => by
    rw [Interval.pts_mk_normalized, C03_intersect, ← Interval.pts_eq]; rfl
  constructor
  · rintro ⟨k, hk, k1, k2⟩
    obtain ⟨r, hr, rfl⟩ := List.mem_map.1 hk
    obtain ⟨c, hc, rfl⟩ := List.mem_map.1 (List.mem_filter.1 hr).1
    have m1 := ((mem c x).1 k1).2
    have m2 := ((mem c y).1 k2).2
    simp only [RawInterval.complement, List.mem_cons, List.not_mem_nil, or_false] at hc
    rcases hc with rfl | rfl
    · exact iff_of_true ((hside x).1 m1) ((hside y).1 m2)
    · exact iff_of_false (not_le.2 m1) (not_le.2 m2)
  · have key : ∀ r ∈ (RawInterval.closed lo hi).complement, x ∈ r.pts → y ∈ r.pts →
        ∃ k ∈ a.minus ⟨.closed lo hi⟩, x ∈ k.pts ∧ y ∈ k.pts := by
      intro r hr g1 g2
      refine ⟨_, List.mem_map_of_mem (List.mem_filter.2 ⟨List.mem_map_of_mem hr, ?_⟩), (mem r x).2 ⟨hx, g1⟩, (mem r y).2 ⟨hy, g2⟩⟩
      have := (mem r x).2 ⟨hx, g1⟩
      rw [Interval.pts_mk_normalized] at this
      rw [Bool.not_eq_true', Bool.eq_false_iff, ne_eq, RawInterval.isEmpty_iff]
      intro e; rw [e] at this; cases this
    intro h
    by_cases g : x ≤ hi
    · exact key (.upTo lo) (by simp [RawInterval.complement]) ((hside x).2 g) ((hside y).2 (h.1 g))
    · exact key (.upFrom hi) (by simp [RawInterval.complement]) (not_le.1 g) (not_le.1 fun g' => g (h.2 g'))

/-- **C146.**  For intervals of any kind: two values are in the same piece exactly if no interval separates them, where an interval
without values separates what is before it from what is after it. -/
theorem C146_pieces_any (is : List (Interval α)) (ho : ∀ i ∈ is, i.Obtainable) :
    (∀ p ∈ Interval.pieces is, p.isEmpty = false) ∧
    (Interval.pieces is).Pairwise (fun p q => ∀ x, ¬ (p.contains x = true ∧ q.contains x = true)) ∧
    ∀ x y, (∃ p ∈ Interval.pieces is, p.contains x = true ∧ p.contains y = true) ↔ UnseparatedAny is x y := by
  have hp := Interval.pieces_parts is ho
  refine ⟨fun p h => (Interval.nonempty_iff (.inr (hp.1 p h).2)).2 (hp.1 p h).2,
    hp.2.imp fun d x hx => Set.disjoint_left.1 d hx.1 hx.2, ?_⟩
  clear hp
  induction is using List.reverseRecOn with
  | nil =>
    intro x y
    exact ⟨fun _ i hi => absurd hi List.not_mem_nil, fun _ => ⟨.full, .head _, (C21_unbounded x x).2.2.2.2, (C21_unbounded x y).2.2.2.2⟩⟩
  | append_singleton is i ih =>
    intro x y
    have ih := ih (fun j hj => ho j (by simp [hj])) x y
    have hp := Interval.pieces_parts is fun j hj => ho j (by simp [hj])
    have hi := ho i (by simp)
    have e : UnseparatedAny (is ++ [i]) x y ↔ UnseparatedAny is x y ∧ ((∀ z ∈ Set.uIcc x y, z ∈ i.pts ↔ x ∈ i.pts) ∧
        ∀ lo hi, i.infimum = some lo → i.supremum = some hi → hi < lo → (x ≤ hi ↔ y ≤ hi)) := by
      simp only [UnseparatedAny, List.mem_append, List.mem_singleton]
      exact ⟨fun h => ⟨fun j hj => h j (.inl hj), h i (.inr rfl)⟩,
        fun h j hj => hj.elim (h.1 j) fun e => by rw [e]; exact h.2⟩
    rw [e, ← ih, Interval.pieces_snoc]
    constructor
    · rintro ⟨k, hk, hx, hy⟩
      obtain ⟨⟨p, hpm, hk⟩, -⟩ := Interval.mem_splitAt.1 hk
      have hpo := (hp.1 p hpm).1
      rcases hk with rfl | hk
      · have m : ∀ z ∈ Set.uIcc x y, z ∈ (p.intersect i).pts := fun z hz => Interval.between (.intersect hpo hi) hx hy hz
        rw [Interval.pts_intersect] at m
        refine ⟨⟨p, hpm, (m x Set.left_mem_uIcc).1, (m y Set.right_mem_uIcc).1⟩,
          fun z hz => ⟨fun _ => (m x Set.left_mem_uIcc).2, fun _ => (m z hz).2⟩, fun lo hi' f1 f2 f3 => ?_⟩
        have hr : i.Real := .inr ⟨x, (m x Set.left_mem_uIcc).2⟩
        obtain ⟨x1, x2, -, -⟩ := C31_extrema_partial i hi hr
        exact absurd (((x2 hi').1 f2).2 ((x1 lo).1 f1).1) (not_le.2 f3)
      · have m : ∀ z ∈ Set.uIcc x y, z ∈ p.pts ∧ z ∉ i.pts := fun z hz =>
          (Interval.mem_minus p i z).1 ⟨k, hk, Interval.between (.minus hpo hi hk) hx hy hz⟩
        exact ⟨⟨p, hpm, (m x Set.left_mem_uIcc).1, (m y Set.right_mem_uIcc).1⟩,
          fun z hz => ⟨fun h => absurd h (m z hz).2, fun h => absurd h (m x Set.left_mem_uIcc).2⟩, fun lo hi' f1 f2 f3 =>
          (Interval.minus_phantom hi f1 f2 f3 (m x Set.left_mem_uIcc).1 (m y Set.right_mem_uIcc).1).1 ⟨k, hk, hx, hy⟩⟩
    · rintro ⟨⟨p, hpm, hx, hy⟩, h, hf⟩
      have hpo := (hp.1 p hpm).1
      by_cases hxi : x ∈ i.pts
      · have hyi := (h y Set.right_mem_uIcc).2 hxi
        have mem : ∀ z, z ∈ p.pts → z ∈ i.pts → z ∈ (p.intersect i).pts := fun z h1 h2 => by
          rw [Interval.pts_intersect]; exact ⟨h1, h2⟩
        exact ⟨_, Interval.mem_splitAt.2 ⟨⟨p, hpm, .inl rfl⟩,
          (Interval.nonempty_iff (Interval.real_intersect hpo hi)).2 ⟨x, mem x hx hxi⟩⟩, mem x hx hxi, mem y hy hyi⟩
      · obtain ⟨k, hk, h1, h2⟩ : ∃ k ∈ p.minus i, x ∈ k.pts ∧ y ∈ k.pts := by
          rcases Interval.real_or_phantom hi with hr | ⟨lo, up, e1, e2, e3, -⟩
          · exact Interval.minus_same hi hr hx hy fun z hz g => hxi ((h z hz).1 g)
          · have hlt := (LawfulFinite.succ_some _ _ e3).1
            exact (Interval.minus_phantom hi e1 e2 hlt hx hy).2 (hf lo up e1 e2 hlt)
        exact ⟨k, Interval.mem_splitAt.2 ⟨⟨p, hpm, .inr hk⟩,
          (Interval.nonempty_iff (Interval.real_minus hpo hk)).2 ⟨x, h1⟩⟩, h1, h2⟩

/-- **C146.**  Every piece lies in each of the intervals or outside it, whatever the intervals. -/
theorem C146_uniform_any (is : List (Interval α)) (ho : ∀ i ∈ is, i.Obtainable) (p : Interval α)
    (hp : p ∈ Interval.pieces is) (x y : α) (hx : p.contains x = true) (hy : p.contains y = true) :
    is.map (·.contains x) = is.map (·.contains y) := by
  refine List.map_congr_left fun i hi => ?_
  have := (((C146_pieces_any is ho).2.2 x y).1 ⟨p, hp, hx, hy⟩ i hi).1 y Set.right_mem_uIcc
  rw [Bool.eq_iff_iff]
  exact this.symm

/-- **C146.**  The bound on the number of pieces holds for intervals of any kind. -/
theorem C146_count_any (is : List (Interval α)) (ho : ∀ i ∈ is, i.Obtainable) :
    (Interval.pieces is).length ≤ 2 * is.length + 1 := by
  have hp := Interval.pieces_parts is ho
  have least : ∀ p ∈ Interval.pieces is, ∃ m, p.infimum = some m ∧ m ∈ p.pts ∧ ∀ x ∈ p.pts, m ≤ x := by
    intro p h
    have hr : p.Real := .inr (hp.1 p h).2
    obtain ⟨x1, -, x3, -⟩ := C31_extrema_partial p (hp.1 p h).1 hr
    cases e : p.infimum with
    | none => obtain ⟨x, hx⟩ := (hp.1 p h).2; rw [x3.1 e] at hx; cases hx
    | some m => exact ⟨m, rfl, ((x1 m).1 e).1, fun x hx => ((x1 m).1 e).2 hx⟩
  let starts : List (Option α) := some minimum :: (is.map Interval.infimum ++ is.map fun i => i.supremum.bind succ)
  have hs : starts.length = 2 * is.length + 1 := by simp [starts]; omega
  have nd : ((Interval.pieces is).map Interval.infimum).Nodup := by
    rw [List.Nodup, List.pairwise_map]
    refine hp.2.imp_of_mem fun {p q} h1 h2 d e => ?_
    obtain ⟨m, e1, hm, -⟩ := least p h1
    obtain ⟨n, e2, hn, -⟩ := least q h2
    rw [e1, e2] at e; cases e
    exact Set.disjoint_left.1 d hm hn
  have sub : (Interval.pieces is).map Interval.infimum ⊆ starts := by
    intro o h
    obtain ⟨p, h1, rfl⟩ := List.mem_map.1 h
    obtain ⟨m, e1, hm, hle⟩ := least p h1
    rw [e1]
    cases hpm : pred m with
    | none => rw [show m = minimum from (LawfulFinite.pred_none _).1 hpm]; exact .head _
    | some q =>
      have hq := LawfulFinite.pred_some _ _ hpm
      have hns : ¬ UnseparatedAny is m q := fun g => by
        obtain ⟨k, hk, k1, k2⟩ := ((C146_pieces_any is ho).2.2 m q).2 g
        have : k = p := by
          by_contra hne
          have : Std.Symm fun p q : Interval α => Disjoint p.pts q.pts := ⟨fun _ _ h => h.symm⟩
          exact Set.disjoint_left.1 (hp.2.forall hk h1 hne) k1 hm
        rw [this] at k2
        exact absurd (hle q k2) (not_le.2 hq.1)
      obtain ⟨i, hi, hns⟩ : ∃ i ∈ is, ¬ ((∀ z ∈ Set.uIcc m q, z ∈ i.pts ↔ m ∈ i.pts) ∧
          ∀ lo hi, i.infimum = some lo → i.supremum = some hi → hi < lo → (m ≤ hi ↔ q ≤ hi)) := by
        by_contra g
        exact hns fun i hi => by
          by_contra g'
          exact g ⟨i, hi, g'⟩
      have oi := ho i hi
      rcases Interval.real_or_phantom oi with ri | ⟨lo, up, e2, e3, hs', hno⟩
      case inr =>
        have : m = lo := by
          by_contra hne
          have hup := LawfulFinite.succ_some _ _ hs'
          refine hns ⟨fun z _ => ⟨fun h => absurd h (hno z), fun h => absurd h (hno m)⟩, fun lo' up' f2 f3 _ => ?_⟩
          rw [e2] at f2; rw [e3] at f3; cases f2; cases f3
          refine ⟨fun h => hq.1.le.trans h, fun h => ?_⟩
          by_contra hn
          have h1 := hup.2 m (not_le.1 hn)
          exact absurd (hq.2 lo (lt_of_le_of_ne h1 (Ne.symm hne))) (not_le.2 (h.trans_lt hup.1))
        rw [this]
        exact .tail _ (List.mem_append.2 (.inl (List.mem_map.2 ⟨i, hi, e2⟩)))
      obtain ⟨x1, x2, -, -⟩ := C31_extrema_partial i oi ri
      have hns' : ¬ ∀ z ∈ Set.uIcc m q, z ∈ i.pts ↔ m ∈ i.pts := fun g => hns ⟨g, fun lo up f2 f3 f4 => by
        have h1 := ((x1 lo).1 f2).1
        exact absurd (((x2 up).1 f3).2 h1) (not_le.2 f4)⟩
      push Not at hns'
      obtain ⟨z, hz, g⟩ := hns'
      have hz' : z = m ∨ z = q := by
        rcases Set.mem_uIcc.1 hz with h | h
        · exact absurd (h.1.trans h.2) (not_le.2 hq.1)
        · rcases h.2.eq_or_lt with h' | h'
          · exact .inl h'
          · exact .inr (le_antisymm (hq.2 z h') h.1)
      rcases hz' with rfl | rfl
      · rcases g with g | g
        · exact absurd g.1 g.2
        · exact absurd g.2 g.1
      rcases g with ⟨g1, g2⟩ | ⟨g1, g2⟩
      · have : i.supremum = some z := (x2 z).2 ⟨g1, fun y hy => by
          by_contra hn
          have hmy : m ≤ y := by
            by_contra h
            exact hn (hq.2 y (not_le.1 h))
          exact g2 (Interval.between oi g1 hy (Set.mem_uIcc.2 (.inl ⟨hq.1.le, hmy⟩)))⟩
        refine .tail _ (List.mem_append.2 (.inr (List.mem_map.2 ⟨i, hi, ?_⟩)))
        rw [this]
        exact succ_of_pred hpm
      · have : i.infimum = some m := (x1 m).2 ⟨g2, fun y hy => by
          by_contra hn
          exact g1 (Interval.between oi g2 hy (Set.mem_uIcc.2 (.inr ⟨hq.2 y (not_le.1 hn), hq.1.le⟩)))⟩
        exact .tail _ (List.mem_append.2 (.inl (List.mem_map.2 ⟨i, hi, this⟩)))
  have := (nd.subperm sub).length_le
  rw [List.length_map, hs] at this
  exact this

example : (∀ i ∈ [Interval.mkOpen (u8 3) (u8 4), .mkClosed (u8 2) (u8 6)], i.Obtainable) ∧
    (Interval.pieces [Interval.mkOpen (u8 3) (u8 4), .mkClosed (u8 2) (u8 6)]).map (fun p => (p.infimum, p.supremum)) =
      [(some (u8 2), some (u8 3)), (some (u8 0), some (u8 1)), (some (u8 4), some (u8 6)), (some (u8 7), some (u8 255))] := by
  refine ⟨?_, by decide⟩
  simp only [List.mem_cons, List.not_mem_nil, or_false]
  rintro i (rfl | rfl)
  · exact .mkOpen _ _
  · exact .mkClosed _ _

end NI
