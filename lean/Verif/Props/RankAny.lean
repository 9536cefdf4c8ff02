import Verif.Props.Rank
import Verif.Props.Lookup

/-! # C147 for selections of any history -/

namespace NI
open _root_.NI.Finite TT
variable {lo hi : Int} [Fact (lo ≤ hi)]

/-- The listed intervals of a selection of any history, in order, by their ends. -/
theorem Selection.Reachable.parts (dbg : Bool) {s : Selection (MInt lo hi)} (hs : s.Reachable) :
    ∃ is, s.intervals dbg = .ok is ∧
      (∀ i ∈ is, i.Obtainable ∧ ∃ l u, i.infimum = some l ∧ i.supremum = some u ∧ i.pts = Set.Icc l u ∧
        (l ≤ u ∨ succ u = some l)) ∧
      is.Pairwise (fun i j => ∀ x ∈ i.pts, ∀ y ∈ j.pts, x < y) ∧ s.pts dbg = {x | ∃ i ∈ is, x ∈ i.pts} := by
  obtain ⟨is, e, ends, ord, m⟩ := hs.sorted dbg
  refine ⟨is, e, ends, ord.imp_of_mem fun {i j} hi hj h x hx y hy => ?_, Set.ext m⟩
  obtain ⟨-, l, u, -, h2, h3, -⟩ := ends i hi
  obtain ⟨-, l', u', k1, -, k3, -⟩ := ends j hj
  rw [h3] at hx; rw [k3] at hy
  exact hx.2.trans_lt ((h u l' h2 k1).trans_le hy.1)

/-- **C147.**  Whatever the selection's history, the sizes of the intervals cut off after `x` add up to the number of values
up to `x`. -/
theorem C147_rank_any (h0 : lo ≤ 0) (dbg : Bool) (sub : MInt lo hi → MInt lo hi → Option (MInt lo hi))
    (hsub : sub = MInt.sub ∨ sub = fun a b => some (MInt.wrapSub a b)) (s : Selection (MInt lo hi)) (hs : s.Reachable)
    (hf : s.Fits dbg) (x : MInt lo hi) : s.rank dbg sub x = .ok (s.pts dbg ∩ Set.Iic x).ncard := by
  have hsub : Subtracts sub := by
    rcases hsub with rfl | rfl
    exacts [(Subtracts.both h0).1, (Subtracts.both h0).2]
  obtain ⟨is, e, ends, ord, m⟩ := hs.parts dbg
  rw [Selection.rank, e]
  show ((is.mapM _ : Except Panic (List Nat)) >>= fun ns => .ok ns.sum) = _
  have hp : ∀ i : Interval (MInt lo hi), (i.intersect (.unboundedTo x)).pts = i.pts ∩ Set.Iic x := fun i => by
    rw [Interval.pts_intersect]
    ext y
    exact and_congr_right fun _ => (C21_unbounded x y).2.1
  rw [mapM_all (g := fun i => (i.pts ∩ Set.Iic x).ncard) fun i hi => ?_]
  · show Except.ok _ = _
    rw [m, show {x | ∃ i ∈ is, x ∈ i.pts} ∩ Set.Iic x = {y | ∃ r ∈ is.map fun i => i.pts ∩ Set.Iic x, y ∈ r} by
      ext y
      simp only [Set.mem_inter_iff, Set.mem_ofPred_eq, List.mem_map, exists_exists_and_eq_and]
      exact ⟨fun ⟨⟨i, hi, hy⟩, hx⟩ => ⟨i, hi, hy, hx⟩, fun ⟨i, hi, hy, hx⟩ => ⟨⟨i, hi, hy⟩, hx⟩⟩,
      MInt.sum_ncard (List.pairwise_map.2 (ord.imp fun h y hy z hz => h y hy.1 z hz.1)), List.map_map]
    rfl
  · obtain ⟨ho, l, u, h1, h2, h3, -⟩ := ends i hi
    have hj := Interval.real_intersect ho (.unboundedTo x)
    have hjo : (i.intersect (.unboundedTo x)).Obtainable := .intersect ho (.unboundedTo x)
    obtain ⟨x1, x2, x3, -⟩ := C31_extrema_partial _ hjo hj
    rw [← hp i]
    have hm : (i.intersect (.unboundedTo x)).pts = Set.Icc l (min u x) := by
      rw [hp, h3]; ext y
      simp only [Set.mem_inter_iff, Set.mem_Icc, Set.mem_Iic, le_min_iff, and_assoc]
    by_cases hle : l ≤ min u x
    · obtain ⟨d, e, -, hd⟩ := Interval.size_ncard hsub hle ((x1 l).2 (hm ▸ ⟨⟨le_rfl, hle⟩, fun y hy => hy.1⟩))
        ((x2 _).2 (hm ▸ ⟨⟨hle, le_rfl⟩, fun y hy => hy.2⟩)) hm
        (hf l _ hle fun y hy => by rw [m]; exact ⟨i, hi, h3 ▸ ⟨hy.1, hy.2.trans (min_le_left u x)⟩⟩)
      rw [e, ← hd]; rfl
    · have hm : (i.intersect (.unboundedTo x)).pts = ∅ := by rw [hm, Set.Icc_eq_empty hle]
      rw [hm, Set.ncard_empty, Interval.size, x3.2 hm]; rfl

/-- **C147.**  Cut off after the last value of the type, they add up to the number of values. -/
theorem C147_total_any (h0 : lo ≤ 0) (dbg : Bool) (sub : MInt lo hi → MInt lo hi → Option (MInt lo hi))
    (hsub : sub = MInt.sub ∨ sub = fun a b => some (MInt.wrapSub a b)) (s : Selection (MInt lo hi)) (hs : s.Reachable)
    (hf : s.Fits dbg) : s.rank dbg sub (maximum : MInt lo hi) = .ok (s.pts dbg).ncard := by
  rw [C147_rank_any h0 dbg sub hsub s hs hf]
  congr 2
  exact Set.inter_eq_left.2 fun x _ => LawfulFinite.le_max x

example : Selection.mixed.Reachable ∧ Selection.mixed.Fits true ∧ Selection.mixed.rank true MInt.sub (u8 8) = .ok 2 ∧
    Selection.mixed.rank true MInt.sub maximum = .ok 3 :=
  ⟨Selection.mixed_reachable, fun l u _ _ => by have := l.2.1; have := u.2.2; omega, by decide, by decide⟩

open Classical in
/-- **C147.**  For unsigned types and whatever history, counting without cutting off is right if every listed interval has a
value.  If `k > 0` of them have none, debug builds panic, and release builds count `k` times as many values too many as the
type has. -/
theorem C147_count_any {hi : Int} [Fact ((0 : Int) ≤ hi)] (dbg : Bool) (s : Selection (MInt 0 hi)) (hs : s.Reachable) :
    ∃ is, s.intervals dbg = .ok is ∧
      ((∀ i ∈ is, i.pts.Nonempty) → s.count dbg MInt.sub = .ok (s.pts dbg).ncard) ∧
      ((∃ i ∈ is, i.pts = ∅) → s.count dbg MInt.sub = .error .overflow) ∧
      s.count dbg (fun a b => some (MInt.wrapSub a b)) =
        .ok ((s.pts dbg).ncard + is.countP (fun i => i.pts = ∅) * (hi.toNat + 1)) := by
  obtain ⟨is, e, ends, ord, m⟩ := hs.parts dbg
  have hhi := Fact.out (p := (0 : Int) ≤ hi)
  have card : (s.pts dbg).ncard = (is.map fun i => i.pts.ncard).sum := by
    rw [m, show {x | ∃ i ∈ is, x ∈ i.pts} = {x | ∃ r ∈ is.map Interval.pts, x ∈ r} by ext; simp,
      MInt.sum_ncard (List.pairwise_map.2 ord), List.map_map]
    rfl
  have good : ∀ sub : MInt 0 hi → MInt 0 hi → Option (MInt 0 hi), Subtracts sub → ∀ i ∈ is, i.pts.Nonempty →
      ∃ d : MInt 0 hi, i.size sub = .ok (some d) ∧ d.1.toNat + 1 = i.pts.ncard := fun sub hsub i hi' ⟨y, hy⟩ => by
    obtain ⟨-, l, u, h1, h2, h3, -⟩ := ends i hi'
    rw [h3] at hy
    obtain ⟨d, e, -, hd⟩ := Interval.size_ncard hsub (hy.1.trans hy.2) h1 h2 h3 (by have := l.2.1; have := u.2.2; omega)
    exact ⟨d, e, hd⟩
  have bad : ∀ i ∈ is, i.pts = ∅ → i.size MInt.sub = .error .overflow ∧
      ∃ d : MInt 0 hi, i.size (fun a b => some (MInt.wrapSub a b)) = .ok (some d) ∧ d.1 = hi := fun i hi' h => by
    obtain ⟨-, l, u, h1, h2, h3, h4⟩ := ends i hi'
    have hlu : ¬ l ≤ u := fun hlu => by
      have : l ∈ i.pts := h3 ▸ ⟨le_rfl, hlu⟩
      rw [h] at this; exact this
    have h4 := h4.resolve_left hlu
    have hs' : l.1 = u.1 + 1 := (MInt.succ_eq u l).1 h4
    constructor
    · rw [Interval.size, h1, h2]
      simp only [MInt.sub, MInt.checkedSub, dif_neg (show ¬ (0 ≤ u.1 - l.1 ∧ u.1 - l.1 ≤ hi) by omega)]
    · refine ⟨_, by rw [Interval.size, h1, h2], ?_⟩
      show 0 + (u.1 - l.1 - 0) % (hi - 0 + 1) = hi
      rw [show u.1 - l.1 - 0 = hi + (hi - 0 + 1) * (-1) by omega, Int.add_mul_emod_self_left]
      rw [Int.emod_eq_of_lt hhi (by omega)]
      omega
  refine ⟨is, e, fun h => ?_, fun ⟨i, hi', h⟩ => ?_, ?_⟩
  · rw [Selection.count, e]
    show ((is.mapM _ : Except Panic (List Nat)) >>= fun ns => .ok ns.sum) = _
    rw [mapM_all (g := fun i => i.pts.ncard) fun i hi => ?_, card]
    · rfl
    · obtain ⟨d, e, hd⟩ := good _ (Subtracts.both le_rfl).1 i hi (h i hi)
      rw [e, ← hd]; rfl
  · rw [Selection.count, e]
    show ((is.mapM _ : Except Panic (List Nat)) >>= fun ns => .ok ns.sum) = _
    refine (congrArg (fun r : Except Panic (List Nat) => r >>= fun ns => Except.ok ns.sum)
      (mapM_overflow (fun j hj => ?_) ⟨i, hi', by rw [(bad i hi' h).1]; rfl⟩)).trans rfl
    rcases j.pts.eq_empty_or_nonempty with h | h
    · left; rw [(bad j hj h).1]; rfl
    · right
      obtain ⟨d, e, -⟩ := good _ (Subtracts.both le_rfl).1 j hj h
      rw [e]; exact ⟨_, rfl⟩
  · rw [Selection.count, e]
    show ((is.mapM _ : Except Panic (List Nat)) >>= fun ns => .ok ns.sum) = _
    rw [mapM_all (g := fun i => i.pts.ncard + if i.pts = ∅ then hi.toNat + 1 else 0) fun i hi => ?_, card]
    · show Except.ok _ = _
      congr 1
      clear e ends ord m card good bad
      induction is with
      | nil => simp
      | cons i is ih =>
        rw [List.map_cons, List.sum_cons, ih, List.map_cons, List.sum_cons, List.countP_cons]
        by_cases h : i.pts = ∅ <;> simp only [h, decide_true, decide_false, if_true, if_false, Nat.add_mul, Nat.one_mul, Bool.false_eq_true] <;> omega
    · by_cases h : i.pts = ∅
      · obtain ⟨d, e, hd⟩ := (bad i hi h).2
        rw [e, if_pos h, h, Set.ncard_empty, Nat.zero_add]
        show Except.ok _ = Except.ok _
        rw [hd]
      · obtain ⟨d, e, hd⟩ := good _ (Subtracts.both le_rfl).2 i hi (Set.nonempty_iff_ne_empty.2 h)
        rw [e, if_neg h, ← hd]; rfl

/-- **C147.**  Both happen: `]3,4[` and `[7,9]`. -/
theorem C147_count_counterexample : Selection.mixed.Reachable ∧
    Selection.mixed.count true MInt.sub = .error .overflow ∧
    Selection.mixed.count false (fun a b => some (MInt.wrapSub a b)) = .ok (3 + 256) :=
  ⟨Selection.mixed_reachable, by decide, by decide⟩

end NI
