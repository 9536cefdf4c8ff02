import Verif.SpecRank
import Verif.Props.Pad
import Verif.Props.Tally
import Mathlib.Order.Interval.Finset.Nat
import Mathlib.Data.Int.Interval

/-! # C147: counting and picking the values of a selection by the sizes of its intervals -/

namespace NI
open _root_.NI.Finite TT
variable {lo hi : Int} [Fact (lo ≤ hi)]

omit [Fact (lo ≤ hi)] in
/-- How many values there are from `l` to `u`. -/
theorem MInt.icc_ncard {l u : MInt lo hi} (h : l ≤ u) : (Set.Icc l u).ncard = (u.1 - l.1).toNat + 1 := by
  have h : l.1 ≤ u.1 := h
  rw [← Set.ncard_image_of_injective _ Subtype.val_injective]
  have : Subtype.val '' Set.Icc l u = ((Finset.Icc l.1 u.1 : Finset Int) : Set Int) := by
    ext z
    simp only [Set.mem_image, Finset.coe_Icc, Set.mem_Icc]
    constructor
    · rintro ⟨x, hx, rfl⟩; exact hx
    · intro hz; exact ⟨⟨z, by have := l.2.1; have := u.2.2; omega⟩, hz, rfl⟩
  rw [this, Set.ncard_coe_finset, Int.card_Icc]
  omega

omit [Fact (lo ≤ hi)] in
/-- Disjoint sets are counted one by one. -/
theorem MInt.sum_ncard : ∀ {rs : List (Set (MInt lo hi))}, rs.Pairwise (fun r r' => ∀ x ∈ r, ∀ y ∈ r', x < y) →
    {x | ∃ r ∈ rs, x ∈ r}.ncard = (rs.map Set.ncard).sum
  | [], _ => by simp
  | r :: rs, h => by
    obtain ⟨h1, h2⟩ := List.pairwise_cons.1 h
    have e : {x | ∃ r' ∈ r :: rs, x ∈ r'} = r ∪ {x | ∃ r' ∈ rs, x ∈ r'} := by
      ext x; simp
    have dj : Disjoint r {x | ∃ r' ∈ rs, x ∈ r'} := Set.disjoint_left.2 fun x hx h => by
      obtain ⟨r', hr', hx'⟩ := h
      exact absurd (h1 r' hr' x hx x hx') (lt_irrefl x)
    rw [e, Set.ncard_union_eq dj (MInt.finite _) (MInt.finite _), MInt.sum_ncard h2, List.map_cons, List.sum_cons]

/-- The difference of two values not further apart than the type can say. -/
def Subtracts (sub : MInt lo hi → MInt lo hi → Option (MInt lo hi)) : Prop :=
  ∀ l u : MInt lo hi, l ≤ u → u.1 - l.1 ≤ hi → ∃ d, sub u l = some d ∧ d.1 = u.1 - l.1

omit [Fact (lo ≤ hi)] in
theorem Subtracts.both (h0 : lo ≤ 0) : Subtracts (MInt.sub : MInt lo hi → _) ∧
    Subtracts fun a b : MInt lo hi => some (MInt.wrapSub a b) := by
  refine ⟨fun l u h1 h2 => ?_, fun l u h1 h2 => ?_⟩ <;> have h1 : l.1 ≤ u.1 := h1
  · exact ⟨⟨u.1 - l.1, by omega, h2⟩, by rw [MInt.sub, MInt.checkedSub, dif_pos ⟨by omega, h2⟩], rfl⟩
  · exact ⟨_, rfl, (MInt.wrapSub_val u l).2.2 ⟨by omega, h2⟩⟩

/-- The listed intervals of a selection edited in place, in order, by their ends. -/
theorem Selection.Edited.runs (dbg : Bool) {s : Selection (MInt lo hi)} (hs : s.Edited) :
    ∃ is, s.intervals dbg = .ok is ∧
      (∀ i ∈ is, i.Obtainable ∧ ∃ l u, l ≤ u ∧ i.infimum = some l ∧ i.supremum = some u ∧ i.pts = Set.Icc l u) ∧
      is.Pairwise (fun i j => ∀ x ∈ i.pts, ∀ y ∈ j.pts, x < y) ∧ s.pts dbg = {x | ∃ i ∈ is, x ∈ i.pts} := by
  obtain ⟨is, e, ho, m⟩ := C120_runs dbg s hs
  refine ⟨is, e, fun i hi => ?_, List.pairwise_map.1 m.2.1, ?_⟩
  · obtain ⟨a, b, hab, e1, -⟩ := m.1 _ (List.mem_map_of_mem hi)
    obtain ⟨x1, x2, -, -⟩ := C31_extrema_partial i (ho i hi).1 (.inr ⟨a, (Set.ext_iff.1 e1 a).2 ⟨le_rfl, hab⟩⟩)
    exact ⟨(ho i hi).1, a, b, hab, (x1 a).2 (e1 ▸ ⟨⟨le_rfl, hab⟩, fun x hx => hx.1⟩),
      (x2 b).2 (e1 ▸ ⟨⟨hab, le_rfl⟩, fun x hx => hx.2⟩), e1⟩
  · ext x
    rw [m.2.2 x]
    simp

/-- No run is longer than the type can say. -/
def Selection.Fits (dbg : Bool) (s : Selection (MInt lo hi)) : Prop :=
  ∀ l u : MInt lo hi, l ≤ u → Set.Icc l u ⊆ s.pts dbg → u.1 - l.1 ≤ hi

omit [Fact (lo ≤ hi)] in
theorem Interval.size_ncard {sub : MInt lo hi → MInt lo hi → Option (MInt lo hi)} (hsub : Subtracts sub)
    {i : Interval (MInt lo hi)} {l u : MInt lo hi} (hlu : l ≤ u) (h1 : i.infimum = some l) (h2 : i.supremum = some u)
    (h3 : i.pts = Set.Icc l u) (h4 : u.1 - l.1 ≤ hi) :
    ∃ d : MInt lo hi, i.size sub = .ok (some d) ∧ d.1 = u.1 - l.1 ∧ d.1.toNat + 1 = i.pts.ncard := by
  obtain ⟨d, e, hd⟩ := hsub l u hlu h4
  refine ⟨d, by rw [Interval.size, h1, h2]; simp only [e], hd, ?_⟩
  rw [h3, MInt.icc_ncard hlu, hd]

/-- **C147.**  The sizes and one for each interval add up to the number of values. -/
theorem C147_count (h0 : lo ≤ 0) (dbg : Bool) (sub : MInt lo hi → MInt lo hi → Option (MInt lo hi))
    (hsub : sub = MInt.sub ∨ sub = fun a b => some (MInt.wrapSub a b)) (s : Selection (MInt lo hi)) (hs : s.Edited)
    (hf : s.Fits dbg) : s.count dbg sub = .ok (s.pts dbg).ncard := by
  have hsub : Subtracts sub := by
    rcases hsub with rfl | rfl
    exacts [(Subtracts.both h0).1, (Subtracts.both h0).2]
  obtain ⟨is, e, ends, ord, m⟩ := hs.runs dbg
  rw [Selection.count, e]
  show ((is.mapM _ : Except Panic (List Nat)) >>= fun ns => .ok ns.sum) = _
  rw [mapM_all (g := fun i => i.pts.ncard) fun i hi => ?_]
  · show Except.ok _ = _
    rw [m, show {x | ∃ i ∈ is, x ∈ i.pts} = {x | ∃ r ∈ is.map Interval.pts, x ∈ r} by ext; simp,
      MInt.sum_ncard (List.pairwise_map.2 ord), List.map_map]
    rfl
  · obtain ⟨-, l, u, hlu, h1, h2, h3⟩ := ends i hi
    obtain ⟨d, e, -, hd⟩ := Interval.size_ncard hsub hlu h1 h2 h3
      (hf l u hlu fun x hx => by rw [m]; exact ⟨i, hi, h3 ▸ hx⟩)
    rw [e, ← hd]; rfl

example : (Selection.demo [(u8 2, u8 5), (u8 9, u8 9)]).Edited ∧ (Selection.demo [(u8 2, u8 5), (u8 9, u8 9)]).Fits true ∧
    (Selection.demo [(u8 2, u8 5), (u8 9, u8 9)]).count true MInt.sub = .ok 5 :=
  ⟨.built (Selection.demo_built _ (by decide)), fun l u _ _ => by have := l.2.1; have := u.2.2; omega, by decide⟩

/-- **C147.**  Those of the intervals cut off after `x` add up to the number of values up to `x`. -/
theorem C147_rank (h0 : lo ≤ 0) (dbg : Bool) (sub : MInt lo hi → MInt lo hi → Option (MInt lo hi))
    (hsub : sub = MInt.sub ∨ sub = fun a b => some (MInt.wrapSub a b)) (s : Selection (MInt lo hi)) (hs : s.Edited)
    (hf : s.Fits dbg) (x : MInt lo hi) : s.rank dbg sub x = .ok (s.pts dbg ∩ Set.Iic x).ncard := by
  have hsub : Subtracts sub := by
    rcases hsub with rfl | rfl
    exacts [(Subtracts.both h0).1, (Subtracts.both h0).2]
  obtain ⟨is, e, ends, ord, m⟩ := hs.runs dbg
  rw [Selection.rank, e]
  show ((is.mapM _ : Except Panic (List Nat)) >>= fun ns => .ok ns.sum) = _
  have hp : ∀ i : Interval (MInt lo hi), (i.intersect (.unboundedTo x)).pts = i.pts ∩ Set.Iic x := fun i => by
    rw [Interval.pts_intersect]
    ext y
    exact and_congr_right fun _ => (C21_unbounded x y).2.1
  rw [mapM_all (g := fun i => (i.pts ∩ Set.Iic x).ncard) fun i hi => ?_]
  · show Except.ok _ = _
    rw [m, show {x | ∃ i ∈ is, x ∈ i.pts} ∩ Set.Iic x = {y | ∃ r ∈ is.map fun i => i.pts ∩ Set.Iic x, y ∈ r} by
      ext y
      simp only [Set.mem_inter_iff, Set.mem_ofPred_eq, List.mem_map, exists_exists_and_eq_and]
      exact ⟨fun ⟨⟨i, hi, hy⟩, hx⟩ => ⟨i, hi, hy, hx⟩, fun ⟨i, hi, hy, hx⟩ => ⟨⟨i, hi, hy⟩, hx⟩⟩,
      MInt.sum_ncard (List.pairwise_map.2 (ord.imp fun h y hy z hz => h y hy.1 z hz.1)), List.map_map]
    rfl
  · obtain ⟨ho, l, u, hlu, h1, h2, h3⟩ := ends i hi
    have hj := Interval.real_intersect ho (.unboundedTo x)
    have hjo : (i.intersect (.unboundedTo x)).Obtainable := .intersect ho (.unboundedTo x)
    obtain ⟨x1, x2, x3, -⟩ := C31_extrema_partial _ hjo hj
    rw [← hp i]
    by_cases hlx : l ≤ x
    · have hm : (i.intersect (.unboundedTo x)).pts = Set.Icc l (min u x) := by
        rw [hp, h3]; ext y
        simp only [Set.mem_inter_iff, Set.mem_Icc, Set.mem_Iic, le_min_iff, and_assoc]
      have hle : l ≤ min u x := le_min hlu hlx
      obtain ⟨d, e, -, hd⟩ := Interval.size_ncard hsub hle ((x1 l).2 (hm ▸ ⟨⟨le_rfl, hle⟩, fun y hy => hy.1⟩))
        ((x2 _).2 (hm ▸ ⟨⟨hle, le_rfl⟩, fun y hy => hy.2⟩)) hm
        (hf l _ hle fun y hy => by rw [m]; exact ⟨i, hi, h3 ▸ ⟨hy.1, hy.2.trans (min_le_left u x)⟩⟩)
      rw [e, ← hd]; rfl
    · have hm : (i.intersect (.unboundedTo x)).pts = ∅ := by
        rw [hp, h3]
        exact Set.eq_empty_of_forall_notMem fun y hy => hlx (hy.1.1.trans hy.2)
      rw [hm, Set.ncard_empty, Interval.size, x3.2 hm]; rfl

example : (Selection.demo [(u8 2, u8 5), (u8 9, u8 12)]).rank true MInt.sub (u8 10) = .ok 6 := by decide

omit [Fact (lo ≤ hi)] in
/-- The number of smaller values tells values of a set apart. -/
theorem MInt.rank_inj {S : Set (MInt lo hi)} {x y : MInt lo hi} (hx : x ∈ S) (hy : y ∈ S)
    (h : (S ∩ Set.Iio x).ncard = (S ∩ Set.Iio y).ncard) : x = y := by
  have key : ∀ {x y : MInt lo hi}, x ∈ S → y ∈ S → x < y → (S ∩ Set.Iio x).ncard < (S ∩ Set.Iio y).ncard := fun hx _ hxy =>
    Set.ncard_lt_ncard ⟨fun z hz => ⟨hz.1, lt_trans hz.2 hxy⟩, fun hsub => absurd (Set.mem_Iio.1 (hsub ⟨hx, hxy⟩).2) (lt_irrefl _)⟩ (MInt.finite _)
  rcases lt_trichotomy x y with h' | h' | h'
  · exact absurd h (key hx hy h').ne
  · exact h'
  · exact absurd h.symm (key hy hx h').ne

theorem Interval.pickFrom_spec (h0 : lo ≤ 0) {sub : MInt lo hi → MInt lo hi → Option (MInt lo hi)} (hsub : Subtracts sub) :
    ∀ (is : List (Interval (MInt lo hi))),
      (∀ i ∈ is, ∃ l u, l ≤ u ∧ i.infimum = some l ∧ i.supremum = some u ∧ i.pts = Set.Icc l u ∧ u.1 - l.1 ≤ hi) →
      is.Pairwise (fun i j => ∀ x ∈ i.pts, ∀ y ∈ j.pts, x < y) → ∀ k, ∃ o, Interval.pickFrom sub is k = .ok o ∧
        ∀ x, o = some x ↔ x ∈ {x | ∃ i ∈ is, x ∈ i.pts} ∧ ({x | ∃ i ∈ is, x ∈ i.pts} ∩ Set.Iio x).ncard = k
  | [], _, _, k => ⟨none, rfl, fun x => by simp⟩
  | i :: is, ends, ord, k => by
    obtain ⟨l, u, hlu, h1, h2, h3, h4⟩ := ends i (.head _)
    obtain ⟨d, e, hd, hn⟩ := Interval.size_ncard hsub hlu h1 h2 h3 h4
    have hlu' : l.1 ≤ u.1 := hlu
    obtain ⟨o1, o2⟩ := List.pairwise_cons.1 ord
    have split : {x | ∃ j ∈ i :: is, x ∈ j.pts} = i.pts ∪ {x | ∃ j ∈ is, x ∈ j.pts} := by ext; simp
    rw [split, Interval.pickFrom, e]
    simp only [bind, Except.bind]
    by_cases hk : k < d.1.toNat + 1
    · rw [if_pos hk, h1]
      have hc : (MInt.cast k : MInt lo hi).1 = k := by
        have := d.2.2
        rw [MInt.cast]
        simp only
        rw [Int.emod_eq_of_lt (by omega) (by omega)]
        omega
      have hb : lo ≤ l.1 + (MInt.cast k : MInt lo hi).1 ∧ l.1 + (MInt.cast k : MInt lo hi).1 ≤ hi := by
        have := l.2.1; have := u.2.2
        rw [hc]; omega
      simp only [MInt.plus, dif_pos hb]
      have hx : (⟨l.1 + (MInt.cast k : MInt lo hi).1, hb⟩ : MInt lo hi) ∈ Set.Icc l u :=
        ⟨show l.1 ≤ l.1 + _ by rw [hc]; omega, show l.1 + _ ≤ u.1 by rw [hc]; omega⟩
      have hr : ((i.pts ∪ {x | ∃ j ∈ is, x ∈ j.pts}) ∩ Set.Iio (⟨l.1 + (MInt.cast k : MInt lo hi).1, hb⟩ : MInt lo hi)).ncard = k := by
        have e1 : ((i.pts ∪ {x | ∃ j ∈ is, x ∈ j.pts}) ∩ Set.Iio (⟨l.1 + (MInt.cast k : MInt lo hi).1, hb⟩ : MInt lo hi)) =
            {y | l.1 ≤ y.1 ∧ y.1 < l.1 + k} := by
          ext y
          simp only [Set.mem_inter_iff, Set.mem_union, Set.mem_Iio, Set.mem_ofPred_eq]
          have lt_iff : y < (⟨l.1 + (MInt.cast k : MInt lo hi).1, hb⟩ : MInt lo hi) ↔ y.1 < l.1 + k := by
            show y.1 < l.1 + (MInt.cast k : MInt lo hi).1 ↔ _
            rw [hc]
          rw [lt_iff]
          constructor
          · rintro ⟨hy | ⟨j, hj, hy⟩, hlt⟩
            · rw [h3] at hy; exact ⟨hy.1, hlt⟩
            · have : l.1 < y.1 := o1 j hj l (h3 ▸ ⟨le_rfl, hlu⟩) y hy
              exact ⟨this.le, hlt⟩
          · rintro ⟨g1, g2⟩
            refine ⟨.inl (h3 ▸ ⟨g1, ?_⟩), g2⟩
            show y.1 ≤ u.1
            omega
        rw [e1]
        rcases Nat.eq_zero_or_pos k with rfl | hpos
        · rw [Set.ncard_eq_zero (MInt.finite _)]
          exact Set.eq_empty_of_forall_notMem fun y hy => by
            obtain ⟨g1, g2⟩ := hy; omega
        · have hl' : lo ≤ l.1 + k - 1 ∧ l.1 + k - 1 ≤ hi := by rw [hc] at hb; have := l.2.1; omega
          have : {y : MInt lo hi | l.1 ≤ y.1 ∧ y.1 < l.1 + k} = Set.Icc l ⟨l.1 + k - 1, hl'⟩ := by
            ext y
            show l.1 ≤ y.1 ∧ y.1 < l.1 + k ↔ l.1 ≤ y.1 ∧ y.1 ≤ l.1 + k - 1
            omega
          rw [this, MInt.icc_ncard (show l.1 ≤ l.1 + k - 1 by omega)]
          simp only
          omega
      refine ⟨_, rfl, fun x => ⟨fun ex => ?_, fun ⟨m1, m2⟩ => ?_⟩⟩
      · cases ex; exact ⟨.inl (h3 ▸ hx), hr⟩
      · rw [MInt.rank_inj (.inl (h3 ▸ hx)) m1 (hr.trans m2.symm)]
    · rw [if_neg hk]
      obtain ⟨o, e', ho⟩ := Interval.pickFrom_spec h0 hsub is (fun j hj => ends j (.tail _ hj)) o2 (k - (d.1.toNat + 1))
      refine ⟨o, e', fun x => ?_⟩
      rw [ho]
      have front : x ∈ i.pts → ((i.pts ∪ {x | ∃ j ∈ is, x ∈ j.pts}) ∩ Set.Iio x).ncard < i.pts.ncard := fun hx =>
        Set.ncard_lt_ncard ⟨fun y hy => hy.1.elim id fun ⟨j, hj, hyj⟩ =>
          absurd (o1 j hj x hx y hyj) (not_lt.2 (le_of_lt hy.2)), fun g => lt_irrefl x (g hx).2⟩ (MInt.finite _)
      have back : x ∈ {x | ∃ j ∈ is, x ∈ j.pts} → ((i.pts ∪ {x | ∃ j ∈ is, x ∈ j.pts}) ∩ Set.Iio x).ncard =
          i.pts.ncard + ({x | ∃ j ∈ is, x ∈ j.pts} ∩ Set.Iio x).ncard := by
        rintro ⟨j, hj, hxj⟩
        have hin : i.pts ∩ Set.Iio x = i.pts := Set.inter_eq_left.2 fun y hy => o1 j hj y hy x hxj
        rw [Set.union_inter_distrib_right, hin]
        refine Set.ncard_union_eq (Set.disjoint_left.2 ?_) (MInt.finite _) (MInt.finite _)
        rintro y hy ⟨⟨m, hm, hym⟩, -⟩
        exact absurd (o1 m hm y hy y hym) (lt_irrefl y)
      constructor
      · rintro ⟨m1, m2⟩
        refine ⟨.inr m1, ?_⟩
        rw [back m1, m2]; omega
      · rintro ⟨m1 | m1, m2⟩
        · have := front m1; omega
        · rw [back m1] at m2
          exact ⟨m1, by omega⟩

/-- **C147.**  Counting off the sizes finds the value with `k` smaller values, or that there are not as many. -/
theorem C147_pick (h0 : lo ≤ 0) (dbg : Bool) (sub : MInt lo hi → MInt lo hi → Option (MInt lo hi))
    (hsub : sub = MInt.sub ∨ sub = fun a b => some (MInt.wrapSub a b)) (s : Selection (MInt lo hi)) (hs : s.Edited)
    (hf : s.Fits dbg) (k : Nat) : ∃ o, s.pick dbg sub k = .ok o ∧
      ∀ x, o = some x ↔ x ∈ s.pts dbg ∧ (s.pts dbg ∩ Set.Iio x).ncard = k := by
  have hsub : Subtracts sub := by
    rcases hsub with rfl | rfl
    exacts [(Subtracts.both h0).1, (Subtracts.both h0).2]
  obtain ⟨is, e, ends, ord, m⟩ := hs.runs dbg
  obtain ⟨o, e', ho⟩ := Interval.pickFrom_spec h0 hsub is (fun i hi => by
    obtain ⟨-, l, u, hlu, h1, h2, h3⟩ := ends i hi
    exact ⟨l, u, hlu, h1, h2, h3, hf l u hlu fun x hx => by rw [m]; exact ⟨i, hi, h3 ▸ hx⟩⟩) ord k
  refine ⟨o, ?_, by rw [m]; exact ho⟩
  rw [Selection.pick, e]
  exact e'

example : (Selection.demo [(u8 2, u8 5), (u8 9, u8 12)]).pick true MInt.sub 5 = .ok (some (u8 10)) ∧
    (Selection.demo [(u8 2, u8 5), (u8 9, u8 12)]).pick true MInt.sub 8 = .ok none := by decide

/-- **C147.**  Debug builds panic when counting exactly if a run is longer than the type can say; never for unsigned types. -/
theorem C147_overflow (h0 : lo ≤ 0) (dbg : Bool) (s : Selection (MInt lo hi)) (hs : s.Edited) :
    (s.count dbg MInt.sub = .error .overflow ↔ ¬ s.Fits dbg) ∧ (lo = 0 → s.Fits dbg) := by
  refine ⟨⟨fun h hf => ?_, fun h => ?_⟩, fun hl l u _ _ => by have := l.2.1; have := u.2.2; omega⟩
  · rw [C147_count h0 dbg _ (.inl rfl) s hs hf] at h; cases h
  · obtain ⟨is, e, ends, ord, m⟩ := hs.runs dbg
    obtain ⟨is', e', ho, mr⟩ := C120_runs dbg s hs
    rw [e] at e'; cases e'
    have size : ∀ i ∈ is, ∀ l u, l ≤ u → i.infimum = some l → i.supremum = some u →
        (hi < u.1 - l.1 ∧ i.size MInt.sub = .error .overflow) ∨ ∃ d, i.size MInt.sub = .ok (some d) := by
      intro i hi' l u hlu h1 h2
      have hlu : l.1 ≤ u.1 := hlu
      rw [Interval.size, h1, h2]
      by_cases hd : u.1 - l.1 ≤ hi
      · exact .inr ⟨⟨u.1 - l.1, by omega, hd⟩, by simp only [MInt.sub, MInt.checkedSub, dif_pos (show lo ≤ u.1 - l.1 ∧ u.1 - l.1 ≤ hi from ⟨by omega, hd⟩)]⟩
      · exact .inl ⟨not_le.1 hd, by simp only [MInt.sub, MInt.checkedSub, dif_neg (show ¬ (lo ≤ u.1 - l.1 ∧ u.1 - l.1 ≤ hi) by omega)]⟩
    rw [Selection.count, e]
    show ((is.mapM _ : Except Panic (List Nat)) >>= fun ns => .ok ns.sum) = _
    simp only [Selection.Fits] at h; push Not at h
    obtain ⟨a, b, hab, hsub, hlt⟩ := h
    obtain ⟨r, hr, hr'⟩ := MaximalRuns.block mr hab hsub
    obtain ⟨i, hi', rfl⟩ := List.mem_map.1 hr
    obtain ⟨-, l, u, hlu, h1, h2, h3⟩ := ends i hi'
    rw [h3] at hr'
    have g1 : l.1 ≤ a.1 := (hr' ⟨le_rfl, hab⟩).1
    have g2 : b.1 ≤ u.1 := (hr' ⟨hab, le_rfl⟩).2
    have hbad : i.size MInt.sub = .error .overflow := by
      rw [Interval.size, h1, h2]
      simp only [MInt.sub, MInt.checkedSub, dif_neg (show ¬ (lo ≤ u.1 - l.1 ∧ u.1 - l.1 ≤ hi) by omega)]
    refine (congrArg (fun r : Except Panic (List Nat) => r >>= fun ns => Except.ok ns.sum)
      (mapM_overflow (fun j hj => ?_) ⟨i, hi', by rw [hbad]; rfl⟩)).trans rfl
    obtain ⟨-, l, u, hlu, h1, h2, -⟩ := ends j hj
    rcases size j hj l u hlu h1 h2 with ⟨-, h⟩ | ⟨d, h⟩
    · left; rw [h]; rfl
    · right; rw [h]; exact ⟨_, rfl⟩

example : ∃ s : Selection I8, s.Edited ∧ ¬ s.Fits true :=
  ⟨.full, .built .full, fun h => absurd (h (MInt.lit (-128)) (MInt.lit 127) (by decide) (fun x _ => by
    rw [(C48_start true .empty .empty).2.1]; trivial)) (by decide)⟩

end NI
