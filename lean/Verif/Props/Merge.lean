import Verif.SpecMerge
import Verif.Props.Blocks
import Verif.Props.Longest

/-! # C151: merging a sorted list of intervals -/

namespace NI
open _root_.NI.Finite TT

variable {α : Type} [LinearOrder α] [Finite α] [LawfulFinite α]

/-- The interval from `a` to `b`. -/
def Interval.Range (i : Interval α) (a b : α) : Prop :=
  i.Obtainable ∧ i.infimum = some a ∧ i.supremum = some b ∧ i.pts = Set.Icc a b ∧ a ≤ b

theorem Interval.Range.of_pts {i : Interval α} (ho : i.Obtainable) {a b : α} (hab : a ≤ b) (h : i.pts = Set.Icc a b) :
    i.Range a b := by
  obtain ⟨x1, x2, -, -⟩ := C31_extrema_partial i ho (.inr ⟨a, (Set.ext_iff.1 h a).2 ⟨le_rfl, hab⟩⟩)
  exact ⟨ho, (x1 a).2 (h ▸ ⟨⟨le_rfl, hab⟩, fun x hx => hx.1⟩), (x2 b).2 (h ▸ ⟨⟨hab, le_rfl⟩, fun x hx => hx.2⟩), h, hab⟩

theorem Interval.Range.real {i : Interval α} {a b : α} (h : i.Range a b) : i.Real :=
  .inr ⟨a, (Set.ext_iff.1 h.2.2.2.1 a).2 ⟨le_rfl, h.2.2.2.2⟩⟩

theorem Interval.Range.exists {i : Interval α} (ho : i.Obtainable) (hn : i.pts.Nonempty) : ∃ a b, i.Range a b := by
  obtain ⟨x, hx⟩ := hn
  rcases Interval.real_cases ho (.inr ⟨x, hx⟩) with rfl | ⟨p, rfl⟩ | ⟨l, u, rfl, h⟩
  · exact absurd hx (by simp [Interval.pts, Interval.contains, RawInterval.contains])
  · refine ⟨p, p, .of_pts ho le_rfl ?_⟩
    rw [Interval.pts_eq]; ext y
    simp [RawInterval.pts, le_antisymm_iff, and_comm]
  · exact ⟨l, u, .of_pts ho h (Interval.pts_eq _)⟩

theorem Interval.Range.enclose {i j : Interval α} {a b c d : α} (hi : i.Range a b) (hj : j.Range c d) :
    (i.enclose j).Range (min a c) (max b d) := by
  have ho : (i.enclose j).Obtainable := .enclose hi.1 hj.1
  obtain ⟨⟨h1, h2⟩, h3, -⟩ := C30_enclose_partial i j hi.1 hj.1
  rw [hi.2.2.2.1] at h1; rw [hj.2.2.2.1] at h2
  have hab := hi.2.2.2.2
  have hcd := hj.2.2.2.2
  obtain ⟨e, f, he⟩ := Interval.Range.exists ho ⟨a, h1 ⟨le_rfl, hab⟩⟩
  rw [he.2.2.2.1] at h1 h2
  have m : (Interval.mkClosed (min a c) (max b d)).pts = Set.Icc (min a c) (max b d) := by
    ext x; exact (C21_bounded _ _ x).2.2.2.1
  have h3 := h3 hi.real hj.real (.mkClosed (min a c) (max b d))
    (by rw [m, hi.2.2.2.1]; exact Set.Icc_subset_Icc (min_le_left _ _) (le_max_left _ _))
    (by rw [m, hj.2.2.2.1]; exact Set.Icc_subset_Icc (min_le_right _ _) (le_max_right _ _))
  rw [m, he.2.2.2.1] at h3
  have e1 : e = min a c := le_antisymm (le_min (h1 ⟨le_rfl, hab⟩).1 (h2 ⟨le_rfl, hcd⟩).1) (h3 ⟨le_rfl, he.2.2.2.2⟩).1
  have e2 : f = max b d := le_antisymm (h3 ⟨he.2.2.2.2, le_rfl⟩).2 (max_le (h1 ⟨hab, le_rfl⟩).2 (h2 ⟨hcd, le_rfl⟩).2)
  rw [← e1, ← e2]; exact he

theorem Interval.Range.overlap {i j : Interval α} {a b c d : α} (hi : i.Range a b) (hj : j.Range c d) (hac : a ≤ c) :
    i.overlap j = true ↔ c ≤ b := by
  rw [Interval.overlap, C29_intersects i j hi.1 hj.1]
  have e1 : ∀ x, i.contains x = true ↔ x ∈ Set.Icc a b := fun x => Set.ext_iff.1 hi.2.2.2.1 x
  have e2 : ∀ x, j.contains x = true ↔ x ∈ Set.Icc c d := fun x => Set.ext_iff.1 hj.2.2.2.1 x
  simp only [e1, e2]
  exact ⟨fun ⟨x, h1, h2⟩ => h2.1.trans h1.2, fun h => ⟨c, ⟨hac, h⟩, le_rfl, hj.2.2.2.2⟩⟩

theorem Interval.Range.touch {i j : Interval α} {a b c d : α} (hi : i.Range a b) (hj : j.Range c d) (hac : a ≤ c) :
    i.touch j = true ↔ c ≤ b ∨ succ b = some c := by
  rw [Interval.touch, Bool.or_eq_true, decide_eq_true_iff, hi.2.2.1, hj.2.1]
  exact or_congr_left (hi.overlap hj hac)

/-- What merging gives, if joining is decided by the end of the one and the start of the other. -/
theorem Interval.mergeFrom_ok {join : Interval α → Interval α → Bool} {J : α → α → Prop}
    (hJ : ∀ {i j : Interval α} {a b c d : α}, i.Range a b → j.Range c d → a ≤ c → (join i j = true ↔ J b c))
    (hle : ∀ {b c : α}, c ≤ b → J b c) (hanti : ∀ {b c d : α}, c ≤ d → J b d → J b c)
    (hcov : ∀ {b c x : α}, J b c → b < x → c ≤ x) : ∀ (js : List (Interval α)) (c : Interval α) (a b : α), c.Range a b →
    (∀ j ∈ js, ∃ l u, j.Range l u ∧ a ≤ l) →
    js.Pairwise (fun i j => ∀ a b, i.infimum = some a → j.infimum = some b → a ≤ b) →
    (∀ r ∈ Interval.mergeFrom join c js, ∃ l u, r.Range l u ∧ a ≤ l) ∧
    (Interval.mergeFrom join c js).Pairwise (fun r r' => ∀ l u l' u', r.Range l u → r'.Range l' u' → u < l' ∧ ¬ J u l') ∧
    (∀ x, (∃ r ∈ Interval.mergeFrom join c js, x ∈ r.pts) ↔ ∃ i ∈ c :: js, x ∈ i.pts) ∧
    ∀ i ∈ c :: js, ∃ r ∈ Interval.mergeFrom join c js, i.pts ⊆ r.pts
  | [], c, a, b, hc, _, _ => by
    refine ⟨fun r hr => ?_, List.pairwise_singleton _ _, fun x => Iff.rfl, fun i hi => ⟨i, hi, subset_rfl⟩⟩
    rw [List.mem_singleton.1 hr]; exact ⟨a, b, hc, le_rfl⟩
  | j :: js, c, a, b, hc, hj, hs => by
    obtain ⟨l, u, hlu, hal⟩ := hj j (.head _)
    obtain ⟨s1, s2⟩ := List.pairwise_cons.1 hs
    rw [Interval.mergeFrom]
    by_cases h : join c j = true
    · rw [if_pos h]
      have hJp : J b l := (hJ hc hlu hal).1 h
      have he := hc.enclose hlu
      rw [min_eq_left hal] at he
      obtain ⟨i1, i2, i3, i4⟩ := mergeFrom_ok hJ hle hanti hcov js (c.enclose j) a (max b u) he
        (fun k hk => hj k (.tail _ hk)) s2
      refine ⟨i1, i2, fun x => ?_, fun i hi => ?_⟩
      rotate_left
      · have hin : i = c ∨ i = j → i.pts ⊆ (c.enclose j).pts := by
          rintro (rfl | rfl)
          · rw [he.2.2.2.1, hc.2.2.2.1]; exact Set.Icc_subset_Icc le_rfl (le_max_left _ _)
          · rw [he.2.2.2.1, hlu.2.2.2.1]; exact Set.Icc_subset_Icc hal (le_max_right _ _)
        rcases List.mem_cons.1 hi with rfl | hi
        · obtain ⟨r, hr, h'⟩ := i4 _ (.head _)
          exact ⟨r, hr, (hin (.inl rfl)).trans h'⟩
        · rcases List.mem_cons.1 hi with rfl | hi
          · obtain ⟨r, hr, h'⟩ := i4 _ (.head _)
            exact ⟨r, hr, (hin (.inr rfl)).trans h'⟩
          · exact i4 i (.tail _ hi)
      rw [i3 x, List.exists_mem_cons_iff, List.exists_mem_cons_iff, List.exists_mem_cons_iff, ← or_assoc]
      refine or_congr_left ?_
      rw [he.2.2.2.1, hc.2.2.2.1, hlu.2.2.2.1]
      constructor
      · rintro ⟨h1, h2⟩
        rcases le_or_gt x b with hx | hx
        · exact .inl ⟨h1, hx⟩
        · exact .inr ⟨hcov hJp hx, (le_max_iff.1 h2).resolve_left (not_le.2 hx)⟩
      · rintro (⟨h1, h2⟩ | ⟨h1, h2⟩)
        · exact ⟨h1, h2.trans (le_max_left _ _)⟩
        · exact ⟨hal.trans h1, h2.trans (le_max_right _ _)⟩
    · rw [if_neg h]
      have hJn : ¬ J b l := fun g => h ((hJ hc hlu hal).2 g)
      obtain ⟨i1, i2, i3, i4⟩ := mergeFrom_ok hJ hle hanti hcov js j l u hlu (fun k hk => by
        obtain ⟨l', u', hk', -⟩ := hj k (.tail _ hk)
        exact ⟨l', u', hk', s1 k hk l l' hlu.2.1 hk'.2.1⟩) s2
      have inj : ∀ {r : Interval α} {p q p' q' : α}, r.Range p q → r.Range p' q' → p = p' ∧ q = q' := fun h1 h2 => by
        have e1 := h1.2.1.symm.trans h2.2.1
        have e2 := h1.2.2.1.symm.trans h2.2.2.1
        cases e1; cases e2; exact ⟨rfl, rfl⟩
      refine ⟨fun r hr => ?_, List.pairwise_cons.2 ⟨fun r hr p q p' q' hp hq => ?_, i2⟩, fun x => ?_, fun i hi => ?_⟩
      · rcases List.mem_cons.1 hr with rfl | hr
        · exact ⟨a, b, hc, le_rfl⟩
        · obtain ⟨l', u', h1, h2⟩ := i1 r hr
          exact ⟨l', u', h1, hal.trans h2⟩
      · obtain ⟨rfl, rfl⟩ := inj hp hc
        obtain ⟨l', u', h1, h2⟩ := i1 r hr
        obtain ⟨rfl, rfl⟩ := inj hq h1
        have : ¬ J q p' := fun g => hJn (hanti h2 g)
        exact ⟨not_le.1 fun g => this (hle g), this⟩
      · rw [List.exists_mem_cons_iff, i3 x, List.exists_mem_cons_iff (l := j :: js)]
      · rcases List.mem_cons.1 hi with rfl | hi
        · exact ⟨_, .head _, subset_rfl⟩
        · obtain ⟨r, hr, h'⟩ := i4 i hi
          exact ⟨r, .tail _ hr, h'⟩

/-- Merging what overlaps never spans a step that none of the intervals spans. -/
theorem Interval.mergeFrom_links : ∀ (js : List (Interval α)) (c : Interval α) (a b : α), c.Range a b →
    (∀ j ∈ js, ∃ l u, j.Range l u ∧ a ≤ l) →
    js.Pairwise (fun i j => ∀ a b, i.infimum = some a → j.infimum = some b → a ≤ b) →
    ∀ r ∈ Interval.mergeFrom Interval.overlap c js,
    ∀ z z', z < z' → succ z = some z' → z ∈ r.pts → z' ∈ r.pts → ∃ i ∈ c :: js, z ∈ i.pts ∧ z' ∈ i.pts
  | [], c, a, b, hc, _, _, r, hr, z, z', _, _, h1, h2 => ⟨r, hr, h1, h2⟩
  | j :: js, c, a, b, hc, hj, hs, r, hr, z, z', hlt, hz, h1, h2 => by
    obtain ⟨l, u, hlu, hal⟩ := hj j (.head _)
    obtain ⟨s1, s2⟩ := List.pairwise_cons.1 hs
    rw [Interval.mergeFrom] at hr
    by_cases h : Interval.overlap c j = true
    · rw [if_pos h] at hr
      have hlb := (hc.overlap hlu hal).1 h
      have he := hc.enclose hlu
      rw [min_eq_left hal] at he
      obtain ⟨i, hi, g1, g2⟩ := mergeFrom_links js (c.enclose j) a (max b u) he (fun k hk => hj k (.tail _ hk)) s2 r hr z z' hlt
        hz h1 h2
      rcases List.mem_cons.1 hi with rfl | hi
      · rw [he.2.2.2.1] at g1 g2
        rcases le_or_gt z' b with hb | hb
        · exact ⟨c, .head _, hc.2.2.2.1 ▸ ⟨g1.1, hlt.le.trans hb⟩, hc.2.2.2.1 ▸ ⟨g2.1, hb⟩⟩
        · have hbz : b ≤ z := not_lt.1 fun g => absurd hb (not_lt.2 ((LawfulFinite.succ_some _ _ hz).2 b g))
          have hu : z' ≤ u := (le_max_iff.1 g2.2).resolve_left (not_le.2 hb)
          exact ⟨j, .tail _ (.head _), hlu.2.2.2.1 ▸ ⟨hlb.trans hbz, hlt.le.trans hu⟩, hlu.2.2.2.1 ▸ ⟨hlb.trans hb.le, hu⟩⟩
      · exact ⟨i, .tail _ (.tail _ hi), g1, g2⟩
    · rw [if_neg h] at hr
      rcases List.mem_cons.1 hr with rfl | hr
      · exact ⟨r, .head _, h1, h2⟩
      · obtain ⟨i, hi, g⟩ := mergeFrom_links js j l u hlu (fun k hk => by
          obtain ⟨l', u', hk', -⟩ := hj k (.tail _ hk)
          exact ⟨l', u', hk', s1 k hk l l' hlu.2.1 hk'.2.1⟩) s2 r hr z z' hlt hz h1 h2
        exact ⟨i, .tail _ hi, g⟩

theorem Interval.merge_ok {join : Interval α → Interval α → Bool} {J : α → α → Prop}
    (hJ : ∀ {i j : Interval α} {a b c d : α}, i.Range a b → j.Range c d → a ≤ c → (join i j = true ↔ J b c))
    (hle : ∀ {b c : α}, c ≤ b → J b c) (hanti : ∀ {b c d : α}, c ≤ d → J b d → J b c)
    (hcov : ∀ {b c x : α}, J b c → b < x → c ≤ x) (is js : List (Interval α))
    (h : ∀ i ∈ is, i.Obtainable ∧ i.pts.Nonempty) (hs : Interval.SortedFrom is js) :
    (∀ r ∈ Interval.merge join js, ∃ l u, r.Range l u) ∧
    (Interval.merge join js).Pairwise (fun r r' => ∀ l u l' u', r.Range l u → r'.Range l' u' → u < l' ∧ ¬ J u l') ∧
    (∀ x, (∃ r ∈ Interval.merge join js, x ∈ r.pts) ↔ ∃ i ∈ is, x ∈ i.pts) ∧
    ∀ i ∈ is, ∃ r ∈ Interval.merge join js, i.pts ⊆ r.pts := by
  have hr : ∀ j ∈ js, ∃ l u, j.Range l u := fun j hj =>
    Interval.Range.exists (h j (hs.1.subset hj)).1 (h j (hs.1.subset hj)).2
  have hm : ∀ x, (∃ i ∈ js, x ∈ i.pts) ↔ ∃ i ∈ is, x ∈ i.pts := fun x =>
    exists_congr fun i => and_congr_left fun _ => hs.1.mem_iff
  cases js with
  | nil => exact ⟨by simp [Interval.merge], .nil, hm, fun i hi => absurd (hs.1.mem_iff.2 hi) (by simp)⟩
  | cons j js =>
    obtain ⟨l, u, hlu⟩ := hr j (.head _)
    obtain ⟨s1, s2⟩ := List.pairwise_cons.1 hs.2
    obtain ⟨i1, i2, i3, i4⟩ := Interval.mergeFrom_ok hJ hle hanti hcov js j l u hlu (fun k hk => by
      obtain ⟨l', u', hk'⟩ := hr k (.tail _ hk)
      exact ⟨l', u', hk', s1 k hk l l' hlu.2.1 hk'.2.1⟩) s2
    exact ⟨fun r hr => by obtain ⟨l, u, h, -⟩ := i1 r hr; exact ⟨l, u, h⟩, i2, fun x => (i3 x).trans (hm x),
      fun i hi => i4 i (hs.1.mem_iff.2 hi)⟩

/-- The intervals of a list in order, each with an end before the start of the next. -/
theorem Interval.ordered {rs : List (Interval α)} {J : α → α → Prop} (h : ∀ r ∈ rs, ∃ l u, r.Range l u)
    (hp : rs.Pairwise (fun r r' => ∀ l u l' u', r.Range l u → r'.Range l' u' → u < l' ∧ ¬ J u l')) :
    (rs.map Interval.pts).Pairwise (fun r r' => ∀ x ∈ r, ∀ y ∈ r', x < y) ∧
    ∀ r ∈ rs, ∀ r' ∈ rs, ∀ l u l' u', r.Range l u → r'.Range l' u' → (l = l' ∧ u = u') ∨ (u < l' ∧ ¬ J u l') ∨ (u' < l ∧ ¬ J u' l) := by
  refine ⟨List.pairwise_map.2 (hp.imp_of_mem fun {r r'} hr hr' g x hx y hy => ?_), fun r hr r' hr' l u l' u' g g' => ?_⟩
  · obtain ⟨l, u, k⟩ := h r hr
    obtain ⟨l', u', k'⟩ := h r' hr'
    rw [k.2.2.2.1] at hx; rw [k'.2.2.2.1] at hy
    exact hx.2.trans_lt ((g l u l' u' k k').1.trans_le hy.1)
  · by_cases e : r = r'
    · subst e
      have e1 := g.2.1.symm.trans g'.2.1
      have e2 := g.2.2.1.symm.trans g'.2.2.1
      cases e1; cases e2; exact .inl ⟨rfl, rfl⟩
    · have : Std.Symm (fun r r' : Interval α => (∀ l u l' u', r.Range l u → r'.Range l' u' → u < l' ∧ ¬ J u l') ∨
        (∀ l u l' u', r'.Range l u → r.Range l' u' → u < l' ∧ ¬ J u l')) := ⟨fun _ _ k => k.symm⟩
      have := (hp.imp (S := fun r r' => (∀ l u l' u', r.Range l u → r'.Range l' u' → u < l' ∧ ¬ J u l') ∨
        (∀ l u l' u', r'.Range l u → r.Range l' u' → u < l' ∧ ¬ J u l')) fun k => Or.inl k).forall hr hr' e
      rcases this with k | k
      · exact .inr (.inl (k l u l' u' g g'))
      · exact .inr (.inr (k l' u' l u g' g))

/-- **C151.**  Sorting intervals with values by their infimum and merging neighbours into the one before them if they overlap
it or begin right after it, by `enclose`, gives exactly the maximal runs of their values, which are also what the
selection collected from them lists. -/
theorem C151_touch (dbg : Bool) (is js : List (Interval α)) (h : ∀ i ∈ is, i.Obtainable ∧ i.pts.Nonempty)
    (hs : Interval.SortedFrom is js) :
    MaximalRuns {x | ∃ i ∈ is, i.contains x = true} ((Interval.merge Interval.touch js).map Interval.pts) ∧
    ∃ s ls, Selection.fromIntervals dbg is = .ok s ∧ s.intervals dbg = .ok ls ∧
      ls.map Interval.pts = (Interval.merge Interval.touch js).map Interval.pts := by
  obtain ⟨i1, i2, i3, i4⟩ := Interval.merge_ok (join := Interval.touch) (J := fun b c => c ≤ b ∨ succ b = some c)
    (fun h1 h2 h3 => h1.touch h2 h3) .inl (fun {b c d} hcd g => by
      rcases g with g | g
      · exact .inl (hcd.trans g)
      · rcases hcd.lt_or_eq with hlt | rfl
        · exact .inl (not_lt.1 fun k => absurd hlt (not_lt.2 ((LawfulFinite.succ_some _ _ g).2 c k)))
        · exact .inr g) (fun {b c x} g hx => by
      rcases g with g | g
      · exact g.trans hx.le
      · exact (LawfulFinite.succ_some _ _ g).2 x hx) is js h hs
  obtain ⟨o1, o2⟩ := Interval.ordered i1 i2
  have m : MaximalRuns {x | ∃ i ∈ is, i.contains x = true} ((Interval.merge Interval.touch js).map Interval.pts) := by
    refine ⟨fun R hR => ?_, o1, fun x => ?_⟩
    · obtain ⟨r, hr, rfl⟩ := List.mem_map.1 hR
      obtain ⟨l, u, k⟩ := i1 r hr
      refine ⟨l, u, k.2.2.2.2, k.2.2.2.1, fun p hp hS => ?_, fun q hq hS => ?_⟩
      · obtain ⟨r', hr', hp'⟩ := (i3 p).2 hS
        obtain ⟨l', u', k'⟩ := i1 r' hr'
        rw [k'.2.2.2.1] at hp'
        obtain ⟨hlt, hmax⟩ := LawfulFinite.pred_some _ _ hp
        rcases o2 r hr r' hr' l u l' u' k k' with ⟨rfl, -⟩ | ⟨g, -⟩ | ⟨g1, g2⟩
        · exact absurd hp'.1 (not_le.2 hlt)
        · exact absurd (k.2.2.2.2.trans (g.le.trans hp'.1)) (not_le.2 hlt)
        · have : u' = p := le_antisymm (hmax u' g1) hp'.2
          exact g2 (.inr (this ▸ pred_eq_iff.1 hp))
      · obtain ⟨r', hr', hq'⟩ := (i3 q).2 hS
        obtain ⟨l', u', k'⟩ := i1 r' hr'
        rw [k'.2.2.2.1] at hq'
        obtain ⟨hlt, hmin⟩ := LawfulFinite.succ_some _ _ hq
        rcases o2 r hr r' hr' l u l' u' k k' with ⟨-, rfl⟩ | ⟨g1, g2⟩ | ⟨g, -⟩
        · exact absurd hq'.2 (not_le.2 hlt)
        · have : l' = q := le_antisymm hq'.1 (hmin l' g1)
          exact g2 (.inr (this ▸ hq))
        · exact absurd (hq'.2.trans (g.le.trans k.2.2.2.2)) (not_le.2 hlt)
    · rw [show (x ∈ {x | ∃ i ∈ is, i.contains x = true}) ↔ ∃ i ∈ is, x ∈ i.pts from Iff.rfl, ← i3 x]
      simp
  refine ⟨m, ?_⟩
  obtain ⟨s, e, -, hp⟩ := C48_from_intervals dbg is fun i hi => (h i hi).1
  have ub : s.UnionBuilt := .fromIntervals (fun i hi => ⟨(h i hi).1, .inr (h i hi).2⟩) e
  obtain ⟨ls, e', -, m'⟩ := C120_runs dbg s (.built ub)
  refine ⟨s, ls, e, e', ?_⟩
  rw [show s.pts dbg = {x | ∃ i ∈ is, i.contains x = true} from Set.ext hp] at m'
  exact m'.unique m

example : Interval.SortedFrom [Interval.mkClosed (u8 6) (u8 9), .mkClosed (u8 1) (u8 3), .point (u8 4), .mkClosed (u8 2) (u8 3)]
      [Interval.mkClosed (u8 1) (u8 3), .mkClosed (u8 2) (u8 3), .point (u8 4), .mkClosed (u8 6) (u8 9)] ∧
    Interval.merge Interval.touch [Interval.mkClosed (u8 1) (u8 3), .mkClosed (u8 2) (u8 3), .point (u8 4),
      .mkClosed (u8 6) (u8 9)] = [.mkClosed (u8 1) (u8 4), .mkClosed (u8 6) (u8 9)] ∧
    Interval.merge Interval.overlap [Interval.mkClosed (u8 1) (u8 3), .mkClosed (u8 2) (u8 3), .point (u8 4),
      .mkClosed (u8 6) (u8 9)] = [.mkClosed (u8 1) (u8 3), .point (u8 4), .mkClosed (u8 6) (u8 9)] :=
  ⟨⟨by decide, by
    refine (List.pairwise_map (f := Interval.infimum) (R := fun a b => ∀ x y, a = some x → b = some y → x ≤ y)).1 ?_
    show [some (u8 1), some (u8 2), some (u8 4), some (u8 6)].Pairwise _
    simp only [List.pairwise_cons, List.mem_cons, forall_eq_or_imp, Option.some.injEq]
    refine ⟨⟨?_, ?_, ?_, ?_⟩, ⟨?_, ?_, ?_⟩, ⟨?_, ?_⟩, ?_, ?_⟩ <;> simp <;> decide⟩, by decide, by decide⟩

/-- **C151.**  If they are only merged if they overlap, two values end up in one interval exactly if no step between them is
one that none of the intervals spans. -/
theorem C151_overlap (is js : List (Interval α)) (h : ∀ i ∈ is, i.Obtainable ∧ i.pts.Nonempty)
    (hs : Interval.SortedFrom is js) :
    ((Interval.merge Interval.overlap js).map Interval.pts).Pairwise (fun r r' => ∀ x ∈ r, ∀ y ∈ r', x < y) ∧
    ∀ x y, (∃ r ∈ Interval.merge Interval.overlap js, r.contains x = true ∧ r.contains y = true) ↔ Linked is x y := by
  obtain ⟨i1, i2, i3, i4⟩ := Interval.merge_ok (join := Interval.overlap) (J := fun b c => c ≤ b)
    (fun h1 h2 h3 => h1.overlap h2 h3) id (fun hcd g => hcd.trans g) (fun g hx => g.trans hx.le) is js h hs
  obtain ⟨o1, o2⟩ := Interval.ordered i1 i2
  refine ⟨o1, fun x y => ⟨fun ⟨r, hr, hx, hy⟩ => ⟨(i3 x).1 ⟨r, hr, hx⟩, (i3 y).1 ⟨r, hr, hy⟩, fun z z' h1 h2 hz => ?_⟩,
    fun ⟨hx, hy, hl⟩ => ?_⟩⟩
  · obtain ⟨l, u, k⟩ := i1 r hr
    have hx' : x ∈ Set.Icc l u := k.2.2.2.1 ▸ hx
    have hy' : y ∈ Set.Icc l u := k.2.2.2.1 ▸ hy
    obtain ⟨hlt, -⟩ := LawfulFinite.succ_some _ _ hz
    have l1 : l ≤ z := (le_min hx'.1 hy'.1).trans h1
    have l2 : z' ≤ u := h2.trans (max_le hx'.2 hy'.2)
    have key : ∃ i ∈ js, z ∈ i.pts ∧ z' ∈ i.pts := by
      cases js with
      | nil => cases hr
      | cons j js =>
        have rg : ∀ i ∈ j :: js, ∃ l u, i.Range l u := fun i hi =>
          Interval.Range.exists (h i (hs.1.subset hi)).1 (h i (hs.1.subset hi)).2
        obtain ⟨a, b, hab⟩ := rg j (.head _)
        obtain ⟨s1, s2⟩ := List.pairwise_cons.1 hs.2
        exact Interval.mergeFrom_links js j a b hab (fun i hi => by
          obtain ⟨a', b', h'⟩ := rg i (.tail _ hi)
          exact ⟨a', b', h', s1 i hi a a' hab.2.1 h'.2.1⟩) s2 r hr z z' hlt hz
          (k.2.2.2.1 ▸ ⟨l1, hlt.le.trans l2⟩) (k.2.2.2.1 ▸ ⟨l1.trans hlt.le, l2⟩)
    obtain ⟨i, hi, g⟩ := key
    exact ⟨i, hs.1.subset hi, g⟩
  · obtain ⟨r, hr, hxr⟩ := (i3 x).2 hx
    obtain ⟨r', hr', hyr⟩ := (i3 y).2 hy
    obtain ⟨l, u, k⟩ := i1 r hr
    obtain ⟨l', u', k'⟩ := i1 r' hr'
    -- a result that ends before another begins is not linked to it
    have apart : ∀ {r r' : Interval α} {l u l' u' x y : α}, r ∈ Interval.merge Interval.overlap js →
        r' ∈ Interval.merge Interval.overlap js → r.Range l u → r'.Range l' u' → x ∈ r.pts → y ∈ r'.pts → u < l' →
        (∀ z z', x ≤ z → z' ≤ y → succ z = some z' → ∃ i ∈ is, i.contains z = true ∧ i.contains z' = true) → False := by
      intro r r' l u l' u' x y hr hr' k k' hx hy hlt hl
      have hx' : x ∈ Set.Icc l u := k.2.2.2.1 ▸ hx
      have hy' : y ∈ Set.Icc l' u' := k'.2.2.2.1 ▸ hy
      obtain ⟨q, hq⟩ : ∃ q, succ u = some q := by
        cases e : succ u with
        | some q => exact ⟨q, rfl⟩
        | none => exact absurd hlt (not_lt.2 ((LawfulFinite.succ_none u).1 e ▸ LawfulFinite.le_max l'))
      obtain ⟨g1, g2⟩ := LawfulFinite.succ_some _ _ hq
      obtain ⟨i, hi, c1, c2⟩ := hl u q hx'.2 ((g2 l' hlt).trans hy'.1) hq
      obtain ⟨t, ht, hit⟩ := i4 i hi
      obtain ⟨a, b, kt⟩ := i1 t ht
      have d1 : u ∈ Set.Icc a b := kt.2.2.2.1 ▸ hit c1
      have d2 : q ∈ Set.Icc a b := kt.2.2.2.1 ▸ hit c2
      rcases o2 r hr t ht l u a b k kt with ⟨-, rfl⟩ | ⟨g, -⟩ | ⟨g, -⟩
      · exact absurd d2.2 (not_le.2 g1)
      · exact absurd d1.1 (not_le.2 g)
      · exact absurd (d1.2.trans (g.le.trans k.2.2.2.2)) (by exact fun _ => absurd (d2.2.trans (g.le.trans k.2.2.2.2)) (not_le.2 g1))
    rcases o2 r hr r' hr' l u l' u' k k' with ⟨rfl, rfl⟩ | ⟨g, -⟩ | ⟨g, -⟩
    · exact ⟨r, hr, hxr, (Set.ext_iff.1 (k.2.2.2.1.trans k'.2.2.2.1.symm) y).2 hyr⟩
    · refine (apart hr hr' k k' hxr hyr g fun z z' h1 h2 => hl z z' ((min_le_left _ _).trans h1) (h2.trans (le_max_right _ _))).elim
    · refine (apart hr' hr k' k hyr hxr g fun z z' h1 h2 => hl z z' ((min_le_right _ _).trans h1) (h2.trans (le_max_left _ _))).elim

/-- **C151.**  So it lists what the selection does exactly if every two neighbours that are in some of the intervals are in one
of them together. -/
theorem C151_overlap_iff (is js : List (Interval α)) (h : ∀ i ∈ is, i.Obtainable ∧ i.pts.Nonempty)
    (hs : Interval.SortedFrom is js) :
    (Interval.merge Interval.overlap js).map Interval.pts = (Interval.merge Interval.touch js).map Interval.pts ↔
    ∀ z z', succ z = some z' → (∃ i ∈ is, i.contains z = true) → (∃ i ∈ is, i.contains z' = true) →
      ∃ i ∈ is, i.contains z = true ∧ i.contains z' = true := by
  obtain ⟨m, -⟩ := C151_touch true is js h hs
  obtain ⟨o, l⟩ := C151_overlap is js h hs
  obtain ⟨i1, i2, i3, i4⟩ := Interval.merge_ok (join := Interval.overlap) (J := fun b c => c ≤ b)
    (fun h1 h2 h3 => h1.overlap h2 h3) id (fun hcd g => hcd.trans g) (fun g hx => g.trans hx.le) is js h hs
  constructor
  · intro e z z' hz h1 h2
    rw [← e] at m
    have hlt := (LawfulFinite.succ_some _ _ hz).1
    have hsub : Set.Icc z z' ⊆ {x | ∃ i ∈ is, i.contains x = true} := fun x hx => by
      rcases eq_or_lt_of_le hx.1 with rfl | hx1
      · exact h1
      · rw [le_antisymm hx.2 ((LawfulFinite.succ_some _ _ hz).2 x hx1)]; exact h2
    obtain ⟨r, hr, hr'⟩ := m.block hlt.le hsub
    obtain ⟨i, hi, rfl⟩ := List.mem_map.1 hr
    obtain ⟨-, -, g⟩ := (l z z').1 ⟨i, hi, hr' ⟨le_rfl, hlt.le⟩, hr' ⟨hlt.le, le_rfl⟩⟩
    exact g z z' (min_le_left _ _) (le_max_right _ _) hz
  · intro hc
    refine MaximalRuns.unique (S := {x | ∃ i ∈ is, i.contains x = true}) ⟨fun R hR => ?_, o, fun x => ?_⟩ m
    · obtain ⟨r, hr, rfl⟩ := List.mem_map.1 hR
      obtain ⟨a, b, k⟩ := i1 r hr
      have hmem : ∀ x, x ∈ r.pts ↔ x ∈ Set.Icc a b := fun x => Set.ext_iff.1 k.2.2.2.1 x
      have once : ∀ r' ∈ Interval.merge Interval.overlap js, ∀ x, x ∈ r.pts → x ∈ r'.pts → r'.pts = r.pts := by
        intro r' hr' x hx hx'
        obtain ⟨a', b', k'⟩ := i1 r' hr'
        rw [k.2.2.2.1] at hx ⊢; rw [k'.2.2.2.1] at hx' ⊢
        rcases (Interval.ordered i1 i2).2 r hr r' hr' a b a' b' k k' with ⟨rfl, rfl⟩ | ⟨g, -⟩ | ⟨g, -⟩
        · rfl
        · exact absurd (hx'.1.trans hx.2) (not_le.2 g)
        · exact absurd (hx.1.trans hx'.2) (not_le.2 g)
      refine ⟨a, b, k.2.2.2.2, k.2.2.2.1, fun p hp hS => ?_, fun q hq hS => ?_⟩
      · have ha : a ∈ r.pts := (hmem a).2 ⟨le_rfl, k.2.2.2.2⟩
        have hpa := pred_eq_iff.1 hp
        obtain ⟨i, hi, c1, c2⟩ := hc p a hpa hS ((i3 a).1 ⟨r, hr, ha⟩)
        obtain ⟨t, ht, hit⟩ := i4 i hi
        have := (hmem p).1 (once t ht a ha (hit c2) ▸ hit c1)
        exact absurd this.1 (not_le.2 (LawfulFinite.pred_some _ _ hp).1)
      · have hb : b ∈ r.pts := (hmem b).2 ⟨k.2.2.2.2, le_rfl⟩
        obtain ⟨i, hi, c1, c2⟩ := hc b q hq ((i3 b).1 ⟨r, hr, hb⟩) hS
        obtain ⟨t, ht, hit⟩ := i4 i hi
        have := (hmem q).1 (once t ht b hb (hit c1) ▸ hit c2)
        exact absurd this.2 (not_le.2 (LawfulFinite.succ_some _ _ hq).1)
    · rw [show (x ∈ {x | ∃ i ∈ is, i.contains x = true}) ↔ ∃ i ∈ is, x ∈ i.pts from Iff.rfl, ← i3 x]
      simp

/-- **C151.**  An interval without values, which `into_non_empty` keeps, is an interval of the result.
`[1,2]`, `]3,4[` and `[7,9]`: -/
theorem C151_counterexample :
    (Interval.mkOpen (u8 3) (u8 4)).intoNonEmpty = some (Interval.mkOpen (u8 3) (u8 4)) ∧
    (Interval.merge Interval.overlap [Interval.mkClosed (u8 1) (u8 2), .mkOpen (u8 3) (u8 4), .mkClosed (u8 7) (u8 9)]).length = 3 := by decide

end NI
