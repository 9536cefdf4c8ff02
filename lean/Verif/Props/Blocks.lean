import Verif.SpecBlocks
import Verif.Props.Pad
import Verif.Props.Runs
import Mathlib.Order.Monotone.Basic

/-! # C148: rounding a selection to blocks -/

namespace NI
open _root_.NI.Finite TT

variable {α β : Type _} [LinearOrder α] [Finite α] [LawfulFinite α] [LinearOrder β] [Finite β] [LawfulFinite β]

/-- The ends of the listed intervals, for a selection of any history. -/
theorem Selection.Reachable.ends (dbg : Bool) {s : Selection α} (hs : s.Reachable) :
    ∃ is, s.intervals dbg = .ok is ∧
      (∀ i ∈ is, ∃ l u, i.infimum = some l ∧ i.supremum = some u ∧ i.pts = Set.Icc l u ∧
        (l ≤ u ∨ succ u = some l)) ∧
      ∀ x, x ∈ s.pts dbg ↔ ∃ i ∈ is, x ∈ i.pts := by
  obtain ⟨is, e, -, -, h⟩ := C56_cover_partial dbg s hs
  refine ⟨is, e, fun i hi => ?_, h⟩
  rcases (C56_shape dbg s hs is e i hi).2 with ⟨l, u, h1, h2, h3, h4⟩ | ⟨p, q, h1, -, -, -, h2, h3, h4⟩
  · have h3 : i.raw.lowerBound = _ := h3
    have h4 : i.raw.upperBound = _ := h4
    exact ⟨l, u, by simp [Interval.infimum, RawInterval.infimum, h3],
      by simp [Interval.supremum, RawInterval.supremum, h4], h2, .inl h1⟩
  · have h3 : i.raw.lowerBound = _ := h3
    have h4 : i.raw.upperBound = _ := h4
    exact ⟨q, p, by simp [Interval.infimum, RawInterval.infimum, h3],
      by simp [Interval.supremum, RawInterval.supremum, h4],
      by rw [h2, Set.Icc_eq_empty (not_le.2 (LawfulFinite.succ_some p q h1).1)], .inr h1⟩

/-- What `mapEnds` makes of a selection, whatever `f` and `g` are. -/
theorem Selection.mapEnds_ok (dbg : Bool) (f g : α → β) {s : Selection α} (hs : s.Reachable) (is : List (Interval α))
    (e : s.intervals dbg = .ok is) :
    ∃ r, s.mapEnds dbg f g = .ok r ∧ r.Reachable ∧
      ((∀ i ∈ is, ∃ l u, i.infimum = some l ∧ i.supremum = some u ∧ f l ≤ g u) → r.UnionBuilt) ∧
      ∀ x, x ∈ r.pts dbg ↔ ∃ i ∈ is, ∃ l u, i.infimum = some l ∧ i.supremum = some u ∧ x ∈ Set.Icc (f l) (g u) := by
  obtain ⟨is', e', h, -⟩ := hs.ends dbg
  rw [e] at e'; cases e'
  let st : Interval α → Interval β := fun i => match i.infimum, i.supremum with
    | some l, some u => .mkClosed (f l) (g u)
    | _, _ => .empty
  have hst : ∀ i ∈ is, Interval.mapEnds f g i = .ok (st i) ∧ (st i).Obtainable ∧
      ∃ l u, i.infimum = some l ∧ i.supremum = some u ∧ st i = .mkClosed (f l) (g u) ∧
        (st i).pts = Set.Icc (f l) (g u) := by
    intro i hi
    obtain ⟨l, u, h1, h2, -⟩ := h i hi
    have : st i = .mkClosed (f l) (g u) := by simp only [st, h1, h2]
    rw [this]
    refine ⟨by simp only [Interval.mapEnds, h1, h2], .mkClosed _ _, l, u, h1, h2, rfl, ?_⟩
    ext x
    exact (C21_bounded (f l) (g u) x).2.2.2.1
  obtain ⟨r, hr, hR, hp⟩ := C48_from_intervals dbg (is.map st) (by
    intro i hi; obtain ⟨j, hj, rfl⟩ := List.mem_map.1 hi; exact (hst j hj).2.1)
  refine ⟨r, ?_, hR, fun hle => .fromIntervals (fun i hi => ?_) hr, fun x => ?_⟩
  · simp only [Selection.mapEnds, e, bind, Except.bind, mapM_all fun i hi => (hst i hi).1]
    exact hr
  · obtain ⟨j, hj, rfl⟩ := List.mem_map.1 hi
    obtain ⟨l, u, h1, h2, h3, -⟩ := (hst j hj).2.2
    obtain ⟨l', u', h1', h2', hlu⟩ := hle j hj
    rw [h1] at h1'; rw [h2] at h2'; cases h1'; cases h2'
    exact ⟨(hst j hj).2.1, h3 ▸ Interval.closed_real hlu⟩
  · rw [hp x]
    constructor
    · rintro ⟨i, hi, hx⟩
      obtain ⟨j, hj, rfl⟩ := List.mem_map.1 hi
      obtain ⟨l, u, h1, h2, -, h3⟩ := (hst j hj).2.2
      exact ⟨j, hj, l, u, h1, h2, h3 ▸ hx⟩
    · rintro ⟨j, hj, l, u, h1, h2, hx⟩
      obtain ⟨l', u', h1', h2', -, h3⟩ := (hst j hj).2.2
      rw [h1] at h1'; rw [h2] at h2'; cases h1'; cases h2'
      exact ⟨_, List.mem_map_of_mem hj, h3 ▸ hx⟩

/-- The listed intervals of a selection edited in place, by their ends. -/
theorem Selection.Edited.ends' (dbg : Bool) {s : Selection α} (hs : s.Edited) :
    ∃ is, s.intervals dbg = .ok is ∧
      (∀ i ∈ is, ∃ l u, i.infimum = some l ∧ i.supremum = some u ∧ i.pts = Set.Icc l u ∧ l ≤ u ∧
        (∀ p, pred l = some p → p ∉ s.pts dbg) ∧ ∀ q, succ u = some q → q ∉ s.pts dbg) ∧
      ∀ x, x ∈ s.pts dbg ↔ ∃ i ∈ is, x ∈ i.pts := by
  obtain ⟨is, e, h, hx⟩ := hs.reachable_crisp.1.ends dbg
  obtain ⟨is', e', -, m⟩ := C120_runs dbg s hs
  rw [e] at e'; cases e'
  refine ⟨is, e, fun i hi => ?_, hx⟩
  obtain ⟨l, u, h1, h2, h3, -⟩ := h i hi
  obtain ⟨a, b, hab, k, m1, m2⟩ := m.1 _ (List.mem_map_of_mem hi)
  rw [h3] at k
  have hlu : l ≤ u := by
    have : a ∈ Set.Icc l u := k ▸ ⟨le_rfl, hab⟩
    exact this.1.trans this.2
  have k1 := (Set.Icc_subset_Icc_iff hlu).1 k.le
  have k2 := (Set.Icc_subset_Icc_iff hab).1 k.ge
  cases le_antisymm k1.1 k2.1
  cases le_antisymm k1.2 k2.2
  exact ⟨_, _, h1, h2, h3, hlu, m1, m2⟩

omit [Finite α] [LawfulFinite α] [Finite β] [LawfulFinite β] in
theorem BlockMap.mono {f : α → β} (h : BlockMap f) : Monotone f := fun l u hlu => by
  have : f l ∈ Set.Icc (f l) (f u) := h l u hlu ▸ ⟨l, ⟨le_rfl, hlu⟩, rfl⟩
  exact this.2

/-- **C148.** The blocks a selection has a value of. -/
theorem C148_touched (dbg : Bool) (f : α → β) (hf : BlockMap f) (s : Selection α) (hs : s.Edited) :
    ∃ r, s.blocks dbg f = .ok r ∧ r.UnionBuilt ∧ r.pts dbg = f '' s.pts dbg := by
  obtain ⟨is, e, h, hx⟩ := hs.ends' dbg
  obtain ⟨r, hr, -, hu, hp⟩ := Selection.mapEnds_ok dbg f f hs.reachable_crisp.1 is e
  refine ⟨r, hr, hu fun i hi => ?_, Set.ext fun b => ?_⟩
  · obtain ⟨l, u, h1, h2, -, h3, -⟩ := h i hi
    exact ⟨l, u, h1, h2, hf.mono h3⟩
  · rw [hp b]
    constructor
    · rintro ⟨i, hi, l, u, h1, h2, hb⟩
      obtain ⟨l', u', h1', h2', h3, h4, -⟩ := h i hi
      rw [h1] at h1'; rw [h2] at h2'; cases h1'; cases h2'
      rw [← hf l u h4] at hb
      obtain ⟨x, hx', rfl⟩ := hb
      exact ⟨x, (hx x).2 ⟨i, hi, h3 ▸ hx'⟩, rfl⟩
    · rintro ⟨x, hx', rfl⟩
      obtain ⟨i, hi, hxi⟩ := (hx x).1 hx'
      obtain ⟨l, u, h1, h2, h3, -⟩ := h i hi
      rw [h3] at hxi
      exact ⟨i, hi, l, u, h1, h2, hf.mono hxi.1, hf.mono hxi.2⟩

/-- **C148.** That is so of no other `f`. -/
theorem C148_exact (dbg : Bool) (f : α → β) :
    BlockMap f ↔ ∀ s : Selection α, s.Edited → ∃ r, s.blocks dbg f = .ok r ∧ r.pts dbg = f '' s.pts dbg := by
  refine ⟨fun h s hs => ?_, fun h l u hlu => ?_⟩
  · obtain ⟨r, h1, -, h2⟩ := C148_touched dbg f h s hs
    exact ⟨r, h1, h2⟩
  · have hE : (Selection.ofInterval (Interval.mkClosed l u)).Edited :=
      .built (.ofInterval (.mkClosed _ _) (Interval.closed_real hlu))
    have hp : (Selection.ofInterval (Interval.mkClosed l u)).pts dbg = Set.Icc l u := by
      rw [(C48_start dbg _ (.mkClosed l u)).2.2]
      ext x
      exact (C21_bounded l u x).2.2.2.1
    obtain ⟨r, hr, e⟩ := h _ hE
    obtain ⟨is, ei, hi, hx⟩ := hE.ends' dbg
    rw [hp] at e hi hx
    obtain ⟨r', hr', -, -, hb⟩ := Selection.mapEnds_ok dbg f f hE.reachable_crisp.1 is ei
    rw [← Selection.blocks, hr] at hr'; cases hr'
    have key : ∀ i ∈ is, i.infimum = some l ∧ i.supremum = some u := by
      intro i hi'
      obtain ⟨a, b, h1, h2, h3, h4, h5, h6⟩ := hi i hi'
      have ha := (hx a).2 ⟨i, hi', h3 ▸ ⟨le_rfl, h4⟩⟩
      have hb := (hx b).2 ⟨i, hi', h3 ▸ ⟨h4, le_rfl⟩⟩
      have : a = l := by
        refine le_antisymm (not_lt.1 fun g => ?_) ha.1
        cases hpa : pred a with
        | none => exact absurd ((LawfulFinite.pred_none a).1 hpa ▸ g) (not_lt.2 (LawfulFinite.min_le l))
        | some p =>
          exact h5 p hpa ⟨(LawfulFinite.pred_some a p hpa).2 l g,
            ((LawfulFinite.pred_some a p hpa).1.le.trans ha.2)⟩
      subst this
      have : b = u := by
        refine le_antisymm hb.2 (not_lt.1 fun g => ?_)
        cases hpa : succ b with
        | none => exact absurd ((LawfulFinite.succ_none b).1 hpa ▸ g) (not_lt.2 (LawfulFinite.le_max u))
        | some p =>
          exact h6 p hpa ⟨(hb.1.trans (LawfulFinite.succ_some b p hpa).1.le), (LawfulFinite.succ_some b p hpa).2 u g⟩
      subst this
      exact ⟨h1, h2⟩
    rw [← e]
    ext b
    rw [hb b]
    constructor
    · rintro ⟨i, hi', a, c, h1, h2, h3⟩
      obtain ⟨k1, k2⟩ := key i hi'
      rw [h1] at k1; rw [h2] at k2; cases k1; cases k2
      exact h3
    · intro h3
      obtain ⟨i, hi', -⟩ := (hx l).1 ⟨le_rfl, hlu⟩
      exact ⟨i, hi', l, u, (key i hi').1, (key i hi').2, h3⟩

/-- **C148.** Whatever the history, the blocks are right if and only if no interval without values is listed whose two
ends are in the same block, none of whose values is selected. -/
theorem C148_any_iff (dbg : Bool) (f : α → β) (hf : BlockMap f) (s : Selection α) (hs : s.Reachable)
    (is : List (Interval α)) (e : s.intervals dbg = .ok is) :
    ∃ r, s.blocks dbg f = .ok r ∧ f '' s.pts dbg ⊆ r.pts dbg ∧
      (r.pts dbg = f '' s.pts dbg ↔ ∀ i ∈ is, i.pts = ∅ → ∀ l u, i.infimum = some l → i.supremum = some u →
        f l = f u → ∃ x ∈ s.pts dbg, f x = f l) := by
  obtain ⟨is', e', h, hx⟩ := hs.ends dbg
  rw [e] at e'; cases e'
  obtain ⟨r, hr, -, -, hp⟩ := Selection.mapEnds_ok dbg f f hs is e
  have sub : f '' s.pts dbg ⊆ r.pts dbg := by
    rintro _ ⟨x, hx', rfl⟩
    obtain ⟨i, hi, hxi⟩ := (hx x).1 hx'
    obtain ⟨l, u, h1, h2, h3, -⟩ := h i hi
    rw [h3] at hxi
    exact (hp _).2 ⟨i, hi, l, u, h1, h2, hf.mono hxi.1, hf.mono hxi.2⟩
  refine ⟨r, hr, sub, fun hh i hi he l u h1 h2 hlu => ?_, fun hh => (Set.Subset.antisymm · sub) fun b hb => ?_⟩
  · have : f l ∈ r.pts dbg := (hp _).2 ⟨i, hi, l, u, h1, h2, le_rfl, hlu.le⟩
    rw [hh] at this
    obtain ⟨x, hx', hx''⟩ := this
    exact ⟨x, hx', hx''⟩
  · obtain ⟨i, hi, l, u, h1, h2, hb⟩ := (hp b).1 hb
    obtain ⟨l', u', h1', h2', h3, h4⟩ := h i hi
    rw [h1] at h1'; rw [h2] at h2'; cases h1'; cases h2'
    rcases h4 with h4 | h4
    · rw [← hf l u h4] at hb
      obtain ⟨x, hx', rfl⟩ := hb
      exact ⟨x, (hx x).2 ⟨i, hi, h3 ▸ hx'⟩, rfl⟩
    · have hlt := (LawfulFinite.succ_some u l h4).1
      have hlu : f l = f u := le_antisymm (hb.1.trans hb.2) (hf.mono hlt.le)
      obtain ⟨x, hx', hx''⟩ := hh i hi (by rw [h3, Set.Icc_eq_empty (not_le.2 hlt)]) l u h1 h2 hlu
      exact ⟨x, hx', hx''.trans (le_antisymm hb.1 (hlu ▸ hb.2))⟩

/-- **C148.** The blocks a selection has all values of. -/
theorem C148_filled (dbg : Bool) (f : α → β) (hf : BlockMap f) (s : Selection α) (hs : s.Edited) :
    ∃ r, s.wholeBlocks dbg f = .ok r ∧ r.Edited ∧ ∀ b, b ∈ r.pts dbg ↔ ∀ x, f x = b → x ∈ s.pts dbg := by
  obtain ⟨c, hc, -, pc⟩ := Selection.complement_right dbg s hs.reachable_crisp.1
  obtain ⟨t, ht, ut, pt⟩ := C148_touched dbg f hf c (.complement hs hc)
  obtain ⟨r, hr, -, pr⟩ := Selection.complement_right dbg t ut.reachable
  refine ⟨r, ?_, .complement (.built ut) hr, fun b => ?_⟩
  · simp only [Selection.wholeBlocks, hc, bind, Except.bind, ht, hr]
  · rw [pr, pt, pc]
    simp only [Set.mem_compl_iff, Set.mem_image, not_exists, not_and]
    exact ⟨fun h x hx => by_contra fun g => h x g hx, fun h x hx he => hx (h x he)⟩

/-- **C148.** Rounding out: the values whose block has a value of the selection. -/
theorem C148_round_out (dbg : Bool) (f : α → β) (first last : β → α) (hf : BlockMap f) (he : BlockEnds f first last)
    (s : Selection α) (hs : s.Edited) :
    ∃ r, s.roundOut dbg f first last = .ok r ∧ r.UnionBuilt ∧ r.pts dbg = {x | ∃ y ∈ s.pts dbg, f y = f x} := by
  obtain ⟨t, ht, ut, pt⟩ := C148_touched dbg f hf s hs
  have tE : t.Edited := .built ut
  obtain ⟨is, e, h, hx⟩ := tE.ends' dbg
  obtain ⟨r, hr, -, hu, hp⟩ := Selection.mapEnds_ok dbg first last ut.reachable is e
  have rg : ∀ i ∈ is, ∀ b ∈ i.pts, b ∈ Set.range f := fun i hi b hb => by
    have : b ∈ t.pts dbg := (hx b).2 ⟨i, hi, hb⟩
    rw [pt] at this
    obtain ⟨y, -, rfl⟩ := this
    exact ⟨y, rfl⟩
  have key : ∀ i ∈ is, ∀ l u, i.infimum = some l → i.supremum = some u → l ≤ u ∧ i.pts = Set.Icc l u ∧
      f ⁻¹' i.pts = Set.Icc (first l) (last u) := by
    intro i hi l u h1 h2
    obtain ⟨l', u', h1', h2', h3, h4, -⟩ := h i hi
    rw [h1] at h1'; rw [h2] at h2'; cases h1'; cases h2'
    exact ⟨h4, h3, h3 ▸ he l (rg i hi l (h3 ▸ ⟨le_rfl, h4⟩)) u (rg i hi u (h3 ▸ ⟨h4, le_rfl⟩)) h4⟩
  refine ⟨r, by simp only [Selection.roundOut, ht, bind, Except.bind, hr], hu fun i hi => ?_, Set.ext fun x => ?_⟩
  · obtain ⟨l, u, h1, h2, -⟩ := h i hi
    obtain ⟨h3, h4, h5⟩ := key i hi l u h1 h2
    have hl : l ∈ i.pts := h4 ▸ ⟨le_rfl, h3⟩
    obtain ⟨x, rfl⟩ := rg i hi l hl
    have : x ∈ f ⁻¹' i.pts := hl
    rw [h5] at this
    exact ⟨f x, u, h1, h2, this.1.trans this.2⟩
  · rw [hp x]
    have : (∃ y ∈ s.pts dbg, f y = f x) ↔ f x ∈ t.pts dbg := by rw [pt]; exact Iff.rfl
    rw [Set.mem_ofPred_eq, this, hx]
    constructor
    · rintro ⟨i, hi, l, u, h1, h2, h3⟩
      rw [← (key i hi l u h1 h2).2.2] at h3
      exact ⟨i, hi, h3⟩
    · rintro ⟨i, hi, h3⟩
      obtain ⟨l, u, h1, h2, -⟩ := h i hi
      exact ⟨i, hi, l, u, h1, h2, (key i hi l u h1 h2).2.2 ▸ h3⟩

/-- **C148.** Rounding in: the values whose block is selected entirely. -/
theorem C148_round_in (dbg : Bool) (f : α → β) (first last : β → α) (hf : BlockMap f) (he : BlockEnds f first last)
    (s : Selection α) (hs : s.Edited) :
    ∃ r, s.roundIn dbg f first last = .ok r ∧ r.Edited ∧
      r.pts dbg = {x | ∀ y, f y = f x → y ∈ s.pts dbg} := by
  obtain ⟨c, hc, -, pc⟩ := Selection.complement_right dbg s hs.reachable_crisp.1
  obtain ⟨t, ht, ut, pt⟩ := C148_round_out dbg f first last hf he c (.complement hs hc)
  obtain ⟨r, hr, -, pr⟩ := Selection.complement_right dbg t ut.reachable
  refine ⟨r, ?_, .complement (.built ut) hr, Set.ext fun b => ?_⟩
  · simp only [Selection.roundIn, hc, bind, Except.bind, ht, hr]
  · rw [pr, pt, pc]
    simp only [Set.mem_compl_iff, Set.mem_ofPred_eq, not_exists, not_and]
    exact ⟨fun h x hx => by_contra fun g => h x g hx, fun h x hx he => hx (h x he)⟩

variable {lo hi : Int} [Fact (lo ≤ hi)]

/-- **C148.** Blocks of `k ≥ 1` integers are so numbered, in a type with 0, and those are their ends. -/
theorem C148_integers (k : MInt lo hi) (h0 : lo ≤ 0) (h1 : 0 ≤ hi) (hk : 1 ≤ k.1) :
    BlockMap (MInt.block k) ∧ BlockEnds (MInt.block k) (MInt.blockFirst k) (MInt.blockLast k) ∧
      ∀ x, (MInt.block k x).1 * k.1 ≤ x.1 ∧ x.1 < (MInt.block k x).1 * k.1 + k.1 := by
  have kp : 0 < k.1 := by omega
  have val : ∀ x : MInt lo hi, (MInt.block k x).1 = x.1 / k.1 := by
    intro x
    have b := x.2
    have : lo ≤ x.1 / k.1 := by
      rw [Int.le_ediv_iff_mul_le kp]
      have : lo * k.1 ≤ lo * 1 := Int.mul_le_mul_of_nonpos_left h0 hk
      omega
    have : x.1 / k.1 ≤ hi := by
      have : x.1 / k.1 ≤ hi / k.1 := Int.ediv_le_ediv kp b.2
      have := Int.ediv_le_self k.1 h1
      omega
    show max lo (min hi (x.1 / k.1)) = _
    omega
  have le1 : ∀ (b : Int) (x : MInt lo hi), b ≤ x.1 / k.1 ↔ b * k.1 ≤ x.1 := fun b x => Int.le_ediv_iff_mul_le kp
  have le2 : ∀ (b : Int) (x : MInt lo hi), x.1 / k.1 ≤ b ↔ x.1 < b * k.1 + k.1 := fun b x => by
    rw [← Int.lt_add_one_iff, Int.ediv_lt_iff_lt_mul kp, Int.add_mul, Int.one_mul]
  have icc : ∀ (b c x : MInt lo hi), x ∈ Set.Icc b c ↔ b.1 ≤ x.1 ∧ x.1 ≤ c.1 := fun b c x => Iff.rfl
  refine ⟨fun l u hlu => Set.ext fun b => ?_, ?_, fun x => ?_⟩
  · have hlu : l.1 ≤ u.1 := hlu
    rw [icc, val, val]
    constructor
    · rintro ⟨x, hx, rfl⟩
      rw [icc] at hx
      rw [val]
      exact ⟨Int.ediv_le_ediv kp hx.1, Int.ediv_le_ediv kp hx.2⟩
    · rintro ⟨h2, h3⟩
      have h4 := (le1 _ _).1 h3
      have b1 := l.2; have b2 := u.2
      refine ⟨⟨max l.1 (b.1 * k.1), by omega, by omega⟩, ?_, Subtype.ext ?_⟩
      · rw [icc]
        show l.1 ≤ max l.1 (b.1 * k.1) ∧ max l.1 (b.1 * k.1) ≤ u.1
        omega
      · rw [val]
        show max l.1 (b.1 * k.1) / k.1 = b.1
        rcases le_total l.1 (b.1 * k.1) with g | g
        · rw [max_eq_right g, Int.mul_ediv_cancel _ (by omega)]
        · rw [max_eq_left g]
          have := (le1 b.1 l).2 g
          omega
  · rintro _ ⟨y, rfl⟩ _ ⟨z, rfl⟩ -
    ext x
    rw [Set.mem_preimage, icc, icc, val x, le1, le2]
    have b1 := x.2; have b2 := y.2; have b3 := z.2
    have g1 := (le1 _ y).1 le_rfl
    have g2 := (le2 _ z).1 le_rfl
    have e1 := val y
    have e2 := val z
    show _ ↔ max lo (min hi ((MInt.block k y).1 * k.1)) ≤ x.1 ∧
      x.1 ≤ max lo (min hi ((MInt.block k z).1 * k.1 + k.1 - 1))
    rw [e1, e2]
    omega
  · rw [val]
    exact ⟨(le1 _ x).1 le_rfl, (le2 _ x).1 le_rfl⟩

example : (Selection.demo [(u8 3, u8 25), (u8 40, u8 40), (u8 246, u8 255)]).Edited ∧ (1 : Int) ≤ (u8 10).1 ∧
    ((Selection.demo [(u8 3, u8 25), (u8 40, u8 40), (u8 246, u8 255)]).blocks true (MInt.block (u8 10)) >>=
      (·.intervals true)) = .ok [.mkClosed (u8 0) (u8 2), ⟨.closed (u8 4) (u8 4)⟩, .mkClosed (u8 24) (u8 25)] ∧
    ((Selection.demo [(u8 3, u8 25), (u8 40, u8 40), (u8 246, u8 255)]).roundOut true (MInt.block (u8 10))
      (MInt.blockFirst (u8 10)) (MInt.blockLast (u8 10)) >>= (·.intervals true)) =
        .ok [.mkClosed (u8 0) (u8 29), .mkClosed (u8 40) (u8 49), .mkClosed (u8 240) (u8 255)] ∧
    ((Selection.demo [(u8 3, u8 25), (u8 40, u8 40), (u8 246, u8 255)]).roundIn true (MInt.block (u8 10))
      (MInt.blockFirst (u8 10)) (MInt.blockLast (u8 10)) >>= (·.intervals true)) =
        .ok [.mkClosed (u8 10) (u8 19), .mkClosed (u8 250) (u8 255)] :=
  ⟨.built (Selection.demo_built _ (by decide)), by decide, by decide, by decide, by decide⟩

/-- **C148.** An interval without values gives a block: `]3,4[` and `[7,9]`, in blocks of five. -/
theorem C148_counterexample : Selection.mixed.Reachable ∧
    (Selection.mixed.blocks true (MInt.block (u8 5)) >>= (·.intervals true)) = .ok [.mkClosed (u8 0) (u8 1)] ∧
    ¬ ∃ x ∈ Selection.mixed.pts true, MInt.block (u8 5) x = u8 0 := by
  refine ⟨Selection.mixed_reachable, by decide, ?_⟩
  rintro ⟨x, hx, h⟩
  obtain ⟨is, e, -, -, hc⟩ := C56_cover_partial true _ Selection.mixed_reachable
  rw [Selection.mixed_intervals] at e; cases e
  obtain ⟨i, hi, hx⟩ := (hc x).1 hx
  rcases List.mem_pair.1 hi with rfl | rfl
  · rw [Interval.pts_eq] at hx
    exact absurd (le_trans hx.1 hx.2) (by decide)
  · rw [Interval.pts_eq] at hx
    have h7 : (7 : Int) ≤ x.1 := hx.1
    have := ((C148_integers (u8 5) (by decide) (by decide) (by decide)).2.2 x).2
    rw [h] at this
    have : x.1 < 0 * 5 + 5 := this
    omega

end NI
