import Verif.SpecLookup
import Verif.Props.Blocks
import Verif.Props.ClosureAny

/-! # C149, C150: binary search and the merge sweep over listed intervals -/

namespace NI
open _root_.NI.Finite TT

variable {α : Type _} [LinearOrder α] [Finite α] [LawfulFinite α]

/-- The listed intervals of a selection of any history, by their ends, in order. -/
theorem Selection.Reachable.sorted (dbg : Bool) {s : Selection α} (hs : s.Reachable) :
    ∃ is, s.intervals dbg = .ok is ∧
      (∀ i ∈ is, i.Obtainable ∧ ∃ l u, i.infimum = some l ∧ i.supremum = some u ∧ i.pts = Set.Icc l u ∧
        (l ≤ u ∨ succ u = some l)) ∧
      is.Pairwise (fun i j => ∀ u l, i.supremum = some u → j.infimum = some l → u < l) ∧
      ∀ x, x ∈ s.pts dbg ↔ ∃ i ∈ is, x ∈ i.pts := by
  obtain ⟨is, e, h, hx⟩ := hs.ends dbg
  obtain ⟨is', e', ho, -⟩ := C56_cover_partial dbg s hs
  rw [e] at e'; cases e'
  refine ⟨is, e, fun i hi => ⟨ho i hi, h i hi⟩, ?_, hx⟩
  have v := Selection.reachable_valid hs
  rw [Selection.intervals_eq dbg v] at e
  cases e
  rw [List.pairwise_map]
  refine (TT.pieces_sep v.1).1.imp_of_mem fun {i j} hi hj ⟨ub, lb, h1, h2, h3⟩ u l hu hl => ?_
  obtain ⟨-, u', -, ub', -, g1, -, g2, -, g3⟩ := Selection.run_ends' hs hi
  obtain ⟨l', -, lb', -, k1, -, k2, -, k3, -⟩ := Selection.run_ends' hs hj
  rw [h1] at g2; rw [h2] at k2; cases g2; cases k2
  have g1 : (Selection.run i).raw.upperBound = _ := g1
  have k1 : (Selection.run j).raw.lowerBound = _ := k1
  simp only [Interval.supremum, RawInterval.supremum, g1, Option.some.injEq] at hu
  simp only [Interval.infimum, RawInterval.infimum, k1, Option.some.injEq] at hl
  subst hu hl
  rcases h3 with h3 | ⟨r, rfl, rfl⟩
  · have A : (∃ a, (Tine.upper ub).key = .fin a ∧ u' ≤ a) ∨ (Tine.upper ub).key = .top := by
      rcases g3 with rfl | ⟨q, hq, rfl⟩ | ⟨rfl, -⟩
      · exact .inl ⟨u', rfl, le_rfl⟩
      · exact .inl ⟨q, rfl, (LawfulFinite.succ_some _ _ hq).1.le⟩
      · exact .inr rfl
    have B : (∃ a, (Tine.lower lb).key = .fin a ∧ a ≤ l') ∨ (Tine.lower lb).key = .bot := by
      rcases k3 with rfl | ⟨q, hq, rfl⟩ | ⟨rfl, -⟩
      · exact .inl ⟨l', rfl, le_rfl⟩
      · exact .inl ⟨q, rfl, (LawfulFinite.pred_some _ _ hq).1.le⟩
      · exact .inr rfl
    rcases A with ⟨a, ea, ha⟩ | ea <;> rcases B with ⟨b, eb, hb⟩ | eb <;> rw [ea, eb] at h3
    · exact ha.trans_lt (lt_of_lt_of_le (by simpa using h3) hb)
    all_goals simp at h3
  · rcases g3 with h | ⟨q, hq, h⟩ | ⟨h, -⟩ <;> cases h
    rcases k3 with h | ⟨p, hp, h⟩ | ⟨h, -⟩ <;> cases h
    exact (LawfulFinite.succ_some _ _ hq).1.trans (LawfulFinite.pred_some _ _ hp).1

/-- The outcomes of the probes: first `Less`, then at most one `Equal`, then `Greater`. -/
theorem C149_partitioned (dbg : Bool) (s : Selection α) (hs : s.Reachable) (x : α) :
    ∃ as m bs, s.intervals dbg = .ok (as ++ Option.toList m ++ bs) ∧
      (∀ i ∈ as, i.probe x = .ok .lt ∧ ∀ y ∈ i.pts, y < x) ∧ (∀ i ∈ m, i.probe x = .ok .eq ∧ x ∈ i.pts) ∧
      (∀ i ∈ bs, i.probe x = .ok .gt ∧ ∀ y ∈ i.pts, x < y) ∧ (x ∈ s.pts dbg ↔ m.isSome) := by
  obtain ⟨is, e, h, hp, hx⟩ := hs.sorted dbg
  suffices ∃ as m bs, is = as ++ Option.toList m ++ bs ∧
      (∀ i ∈ as, i.probe x = .ok .lt ∧ ∀ y ∈ i.pts, y < x) ∧ (∀ i ∈ m, i.probe x = .ok .eq ∧ x ∈ i.pts) ∧
      (∀ i ∈ bs, i.probe x = .ok .gt ∧ ∀ y ∈ i.pts, x < y) by
    obtain ⟨as, m, bs, rfl, h1, h2, h3⟩ := this
    refine ⟨as, m, bs, e, h1, h2, h3, (hx x).trans ?_⟩
    constructor
    · rintro ⟨i, hi, hxi⟩
      rcases List.mem_append.1 hi with hi | hi
      · rcases List.mem_append.1 hi with hi | hi
        · exact absurd ((h1 i hi).2 x hxi) (lt_irrefl x)
        · cases m
          · cases hi
          · rfl
      · exact absurd ((h3 i hi).2 x hxi) (lt_irrefl x)
    · intro hm
      obtain ⟨i, rfl⟩ := Option.isSome_iff_exists.1 hm
      exact ⟨i, by simp, (h2 i rfl).2⟩
  clear e hx
  induction is with
  | nil => exact ⟨[], none, [], rfl, by simp, by simp, by simp⟩
  | cons i is ih =>
    obtain ⟨-, l, u, h1, h2, h3, h4⟩ := h i (.head _)
    have hp' := List.pairwise_cons.1 hp
    have pr : i.probe x = .ok (if u < x then .lt else if x < l then .gt else .eq) := by
      simp only [Interval.probe, h1, h2]
    by_cases c1 : u < x
    · obtain ⟨as, m, bs, e, g1, g2, g3⟩ := ih (fun j hj => h j (.tail _ hj)) hp'.2
      refine ⟨i :: as, m, bs, by rw [e]; rfl, fun j hj => ?_, g2, g3⟩
      rcases List.mem_cons.1 hj with rfl | hj
      · exact ⟨by rw [pr, if_pos c1], fun y hy => ((h3 ▸ hy : y ∈ Set.Icc l u).2).trans_lt c1⟩
      · exact g1 j hj
    · have c1' := not_lt.1 c1
      have later : ∀ j ∈ is, j.probe x = .ok .gt ∧ ∀ y ∈ j.pts, x < y := by
        intro j hj
        obtain ⟨-, l', u', k1, k2, k3, k4⟩ := h j (.tail _ hj)
        have hul := hp'.1 j hj u l' h2 k1
        have hxl : x < l' := c1'.trans_lt hul
        have hxu : ¬ u' < x := by
          rcases k4 with k4 | k4
          · exact not_lt.2 (hxl.le.trans k4)
          · exact fun g => absurd ((LawfulFinite.succ_some _ _ k4).2 x g) (not_le.2 hxl)
        refine ⟨by simp only [Interval.probe, k1, k2, if_neg hxu, if_pos hxl], fun y hy => ?_⟩
        exact hxl.trans_le (k3 ▸ hy : y ∈ Set.Icc l' u').1
      by_cases c2 : x < l
      · refine ⟨[], none, i :: is, rfl, by simp, by simp, fun j hj => ?_⟩
        rcases List.mem_cons.1 hj with rfl | hj
        · exact ⟨by rw [pr, if_neg c1, if_pos c2], fun y hy => c2.trans_le (h3 ▸ hy : y ∈ Set.Icc l u).1⟩
        · exact later j hj
      · refine ⟨[], some i, is, rfl, by simp, ?_, later⟩
        rintro j ⟨⟩
        exact ⟨by rw [pr, if_neg c1, if_neg c2], h3 ▸ ⟨not_lt.1 c2, c1'⟩⟩

omit [LinearOrder α] [Finite α] [LawfulFinite α] in
/-- A search among outcomes that are in order finds the one that is `Equal`, or the place where it would be. -/
theorem search_ok {β : Type _} {cmp : β → Except Panic Ordering} (mid : Nat → Nat → Nat) (as bs : List β) (m : Option β)
    (h1 : ∀ i ∈ as, cmp i = .ok .lt) (h2 : ∀ i ∈ m, cmp i = .ok .eq) (h3 : ∀ i ∈ bs, cmp i = .ok .gt) :
    ∀ n lo hi, lo ≤ as.length → as.length + m.toList.length ≤ hi → hi ≤ (as ++ m.toList ++ bs).length → hi - lo ≤ n →
      search cmp mid (as ++ m.toList ++ bs) n lo hi = .ok (if m.isSome then .inl as.length else .inr as.length) := by
  intro n
  induction n with
  | zero =>
    intro lo hi g1 g2 g3 g4
    cases m with
    | none => simp only [Option.toList, List.length_nil] at g2; simp [search]; omega
    | some y => simp only [Option.toList, List.length_cons, List.length_nil] at g2; omega
  | succ n ih =>
    intro lo hi g1 g2 g3 g4
    rw [search]
    by_cases hlt : lo < hi
    · rw [if_pos hlt]
      have hm := Nat.mod_lt (mid lo hi) (y := hi - lo) (by omega)
      generalize mid lo hi % (hi - lo) = k at hm ⊢
      simp only
      by_cases c1 : lo + k < as.length
      · have : (as ++ m.toList ++ bs)[lo + k]? = some as[lo + k] := by
          rw [List.append_assoc, List.getElem?_append_left c1, List.getElem?_eq_getElem c1]
        rw [this]
        simp only [h1 _ (List.getElem_mem c1), bind, Except.bind]
        exact ih _ _ (by omega) g2 g3 (by omega)
      · by_cases c2 : lo + k < as.length + m.toList.length
        · cases m with
          | none => simp at c2; omega
          | some y =>
            have : lo + k = as.length := by simp at c2; omega
            rw [this]
            have : (as ++ (some y).toList ++ bs)[as.length]? = some y := by simp
            rw [this]
            simp only [h2 y rfl, bind, Except.bind]
            rfl
        · have c3 : lo + k - (as ++ m.toList).length < bs.length := by simp only [List.length_append] at g3 ⊢; omega
          have : (as ++ m.toList ++ bs)[lo + k]? = some bs[lo + k - (as ++ m.toList).length] := by
            rw [List.getElem?_append_right (by simp only [List.length_append]; omega), List.getElem?_eq_getElem c3]
          rw [this]
          simp only [h3 _ (List.getElem_mem c3), bind, Except.bind]
          exact ih _ _ (by omega) (by omega) (by omega) (by omega)
    · rw [if_neg hlt]
      cases m with
      | none => simp only [Option.toList, List.length_nil] at g2; simp; omega
      | some y => simp only [Option.toList, List.length_cons, List.length_nil] at g2; omega

/-- **C149.** Binary search in the list of the intervals, for a selection of any history: it finds the interval with the
value exactly if the selection contains it, and otherwise its place between those below and those above. -/
theorem C149_lookup (dbg : Bool) (mid : Nat → Nat → Nat) (s : Selection α) (hs : s.Reachable) (x : α) :
    ∃ is k, s.intervals dbg = .ok is ∧
      ((x ∈ s.pts dbg ∧ s.lookup dbg mid x = .ok (.inl k) ∧ ∃ i, is[k]? = some i ∧ x ∈ i.pts) ∨
        (x ∉ s.pts dbg ∧ s.lookup dbg mid x = .ok (.inr k) ∧ k ≤ is.length ∧ (∀ i ∈ is.take k, ∀ y ∈ i.pts, y < x) ∧
          ∀ i ∈ is.drop k, ∀ y ∈ i.pts, x < y)) := by
  obtain ⟨as, m, bs, e, h1, h2, h3, h4⟩ := C149_partitioned dbg s hs x
  have key : s.lookup dbg mid x = .ok (if m.isSome then .inl as.length else .inr as.length) := by
    simp only [Selection.lookup, e, bind, Except.bind]
    exact search_ok mid as bs m (fun i hi => (h1 i hi).1) (fun i hi => (h2 i hi).1) (fun i hi => (h3 i hi).1) _ _ _
      (Nat.zero_le _) (by simp) le_rfl (Nat.le_refl _)
  refine ⟨_, as.length, e, ?_⟩
  cases m with
  | none =>
    refine .inr ⟨fun g => by simpa using h4.1 g, key, by simp, fun i hi => ?_, fun i hi => ?_⟩
    · simp at hi; exact (h1 i hi).2
    · simp at hi; exact (h3 i hi).2
  | some i => exact .inl ⟨h4.2 rfl, key, i, by simp, (h2 i rfl).2⟩

example : Selection.mixed.Reachable ∧
    [Selection.mixed.lookup true (fun _ h => h / 2) (u8 3), Selection.mixed.lookup true (fun _ h => h / 2) (u8 4),
      Selection.mixed.lookup true (fun _ h => h / 2) (u8 8), Selection.mixed.lookup true (fun _ h => h / 2) (u8 10)] =
      [.ok (.inr 0), .ok (.inr 1), .ok (.inl 1), .ok (.inr 2)] :=
  ⟨Selection.mixed_reachable, by decide⟩

/-- **C149.** For selections edited in place, the intervals beside the place found end with the nearest values. -/
theorem C149_nearest (dbg : Bool) (mid : Nat → Nat → Nat) (s : Selection α) (hs : s.Edited) (x : α) (k : Nat)
    (h : s.lookup dbg mid x = .ok (.inr k)) (is : List (Interval α)) (hi : s.intervals dbg = .ok is) :
    (∀ i, is[k]? = some i → ∃ l, i.infimum = some l ∧ IsLeast (s.pts dbg ∩ Set.Ioi x) l) ∧
    (is[k]? = none → s.pts dbg ∩ Set.Ioi x = ∅) ∧
    (∀ i, 0 < k → is[k - 1]? = some i → ∃ u, i.supremum = some u ∧ IsGreatest (s.pts dbg ∩ Set.Iio x) u) ∧
    (k = 0 → s.pts dbg ∩ Set.Iio x = ∅) := by
  obtain ⟨is1, k', e, hh⟩ := C149_lookup dbg mid s hs.reachable_crisp.1 x
  rw [hi] at e; cases e
  obtain ⟨is2, e, hp, hx⟩ := hs.ends' dbg
  rw [hi] at e; cases e
  obtain ⟨is3, e, -, hq, -⟩ := hs.reachable_crisp.1.sorted dbg
  rw [hi] at e; cases e
  rcases hh with ⟨-, g, -⟩ | ⟨hxs, g, hk, lt, gt⟩
  · rw [h] at g; cases g
  rw [h] at g; cases g
  have mem : ∀ y ∈ s.pts dbg, (∃ i ∈ is.take k, y ∈ i.pts) ∨ ∃ i ∈ is.drop k, y ∈ i.pts := fun y hy => by
    obtain ⟨i, hi, hyi⟩ := (hx y).1 hy
    rw [← List.take_append_drop k is] at hi
    rcases List.mem_append.1 hi with hi | hi
    exacts [.inl ⟨i, hi, hyi⟩, .inr ⟨i, hi, hyi⟩]
  refine ⟨fun i hik => ?_, fun hik => ?_, fun i hk0 hik => ?_, fun hk0 => ?_⟩
  · obtain ⟨hlt, rfl⟩ := List.getElem?_eq_some_iff.1 hik
    have hm := List.getElem_mem hlt
    obtain ⟨l, u, h1, h2, h3, h4, -⟩ := hp _ hm
    have hd : is.drop k = is[k] :: is.drop (k + 1) := List.drop_eq_getElem_cons hlt
    have hl : l ∈ (is[k]).pts := h3 ▸ ⟨le_rfl, h4⟩
    refine ⟨l, h1, ⟨(hx l).2 ⟨_, hm, hl⟩, gt _ (hd ▸ .head _) l hl⟩, fun y hy => ?_⟩
    rcases mem y hy.1 with ⟨i, hi, hyi⟩ | ⟨i, hi, hyi⟩
    · exact absurd (lt i hi y hyi) (not_lt.2 hy.2.le)
    · rw [hd] at hi
      rcases List.mem_cons.1 hi with rfl | hi
      · exact (h3 ▸ hyi : y ∈ Set.Icc l u).1
      · obtain ⟨l', u', h1', h2', h3', h4', -⟩ := hp i (List.mem_of_mem_drop hi)
        have hq' : (is.drop k).Pairwise _ := hq.sublist (List.drop_sublist k is)
        rw [hd] at hq'
        have := (List.pairwise_cons.1 hq').1 i hi u l' h2 h1'
        exact h4.trans (this.le.trans (h3' ▸ hyi : y ∈ Set.Icc l' u').1)
  · refine Set.eq_empty_of_forall_notMem fun y hy => ?_
    rcases mem y hy.1 with ⟨i, hi, hyi⟩ | ⟨i, hi, hyi⟩
    · exact absurd (lt i hi y hyi) (not_lt.2 hy.2.le)
    · rw [List.drop_eq_nil_of_le (List.getElem?_eq_none_iff.1 hik)] at hi
      cases hi
  · obtain ⟨hlt, rfl⟩ := List.getElem?_eq_some_iff.1 hik
    have hm := List.getElem_mem hlt
    obtain ⟨l, u, h1, h2, h3, h4, -⟩ := hp _ hm
    have hd : is.take k = is.take (k - 1) ++ [is[k - 1]] := by
      have := List.take_append_getElem hlt
      rw [this]; congr 1; omega
    have hu : u ∈ (is[k - 1]).pts := h3 ▸ ⟨h4, le_rfl⟩
    refine ⟨u, h2, ⟨(hx u).2 ⟨_, hm, hu⟩, lt _ (hd ▸ List.mem_append_right _ (.head _)) u hu⟩, fun y hy => ?_⟩
    rcases mem y hy.1 with ⟨i, hi, hyi⟩ | ⟨i, hi, hyi⟩
    · rw [hd] at hi
      rcases List.mem_append.1 hi with hi | hi
      · obtain ⟨l', u', h1', h2', h3', h4', -⟩ := hp i (List.mem_of_mem_take hi)
        have hq' : (is.take k).Pairwise _ := hq.sublist (List.take_sublist k is)
        rw [hd] at hq'
        have := (List.pairwise_append.1 hq').2.2 i hi _ (.head _) u' l h2' h1
        exact ((h3' ▸ hyi : y ∈ Set.Icc l' u').2.trans this.le).trans h4
      · cases List.mem_singleton.1 hi
        exact (h3 ▸ hyi : y ∈ Set.Icc l u).2
    · exact absurd (gt i hi y hyi) (not_lt.2 hy.2.le)
  · subst hk0
    refine Set.eq_empty_of_forall_notMem fun y hy => ?_
    rcases mem y hy.1 with ⟨i, hi, hyi⟩ | ⟨i, hi, hyi⟩
    · cases hi
    · exact absurd (gt i hi y hyi) (not_lt.2 hy.2.le)

example : (Selection.demo [(u8 2, u8 3), (u8 7, u8 9)]).Edited ∧
    (Selection.demo [(u8 2, u8 3), (u8 7, u8 9)]).lookup true (fun l h => (h - l) / 2) (u8 5) = .ok (.inr 1) :=
  ⟨.built (Selection.demo_built _ (by decide)), by decide⟩

/-- **C149.** Beside an interval without values this is not so: after 2 the next value would be 4. -/
theorem C149_nearest_counterexample : Selection.mixed.Reachable ∧
    Selection.mixed.lookup true (fun l h => (h - l) / 2) (u8 2) = .ok (.inr 0) ∧
    (Selection.mixed.intervals true).map (fun is => (is[0]?.bind (·.infimum))) = .ok (some (u8 4)) ∧
    Selection.mixed.contains true (u8 4) = .ok false :=
  ⟨Selection.mixed_reachable, by decide, by decide, by decide⟩

/-- Walking down two lists of intervals that are in order. -/
theorem Interval.sweep_ok : ∀ (n : Nat) (is js : List (Interval α)), is.length + js.length ≤ n →
    (∀ i ∈ is, ∃ l u, i.infimum = some l ∧ i.supremum = some u ∧ i.pts = Set.Icc l u ∧ (l ≤ u ∨ succ u = some l)) →
    (∀ i ∈ js, ∃ l u, i.infimum = some l ∧ i.supremum = some u ∧ i.pts = Set.Icc l u ∧ (l ≤ u ∨ succ u = some l)) →
    is.Pairwise (fun i j => ∀ u l, i.supremum = some u → j.infimum = some l → u < l) →
    js.Pairwise (fun i j => ∀ u l, i.supremum = some u → j.infimum = some l → u < l) →
    ∃ ks, Interval.sweepAux n is js = .ok ks ∧ ks.length ≤ is.length + js.length ∧
      (∀ k ∈ ks, ∃ i ∈ is, ∃ j ∈ js, k = i.intersect j) ∧
      ∀ x i j, i ∈ is → j ∈ js → x ∈ i.pts → x ∈ j.pts → ∃ k ∈ ks, x ∈ k.pts
  | n, [], js => fun _ _ _ _ _ => ⟨[], by cases n <;> rfl, Nat.zero_le _, by simp, by simp⟩
  | n, i :: is, [] => fun _ _ _ _ _ => ⟨[], by cases n <;> rfl, Nat.zero_le _, by simp, by simp⟩
  | 0, i :: is, j :: js => fun h => absurd h (by simp)
  | n + 1, i :: is, j :: js => fun hn h1 h2 p1 p2 => by
    obtain ⟨l, u, a1, a2, a3, a4⟩ := h1 i (.head _)
    obtain ⟨l', u', b1, b2, b3, b4⟩ := h2 j (.head _)
    have q1 := List.pairwise_cons.1 p1
    have q2 := List.pairwise_cons.1 p2
    rw [Interval.sweepAux]
    simp only [a2, b2]
    by_cases c : u < u'
    · obtain ⟨ks, e, hl, hk, hx⟩ := Interval.sweep_ok n is (j :: js) (by simp at hn ⊢; omega) (fun k hk => h1 k (.tail _ hk)) h2 q1.2 p2
      refine ⟨i.intersect j :: ks, by simp only [if_pos c, e, bind, Except.bind], by simp at hl ⊢; omega, ?_, ?_⟩
      · rintro k hk'
        rcases List.mem_cons.1 hk' with rfl | hk'
        · exact ⟨i, .head _, j, .head _, rfl⟩
        · obtain ⟨i', hi', j', hj', e'⟩ := hk k hk'
          exact ⟨i', .tail _ hi', j', hj', e'⟩
      · intro x i' j' hi' hj' hxi hxj
        rcases List.mem_cons.1 hi' with rfl | hi'
        · rcases List.mem_cons.1 hj' with rfl | hj'
          · exact ⟨_, .head _, (C27_set_operations _ _ x).1.2 ⟨hxi, hxj⟩⟩
          · obtain ⟨l2, u2, d1, d2, d3, -⟩ := h2 j' (.tail _ hj')
            have := q2.1 j' hj' u' l2 b2 d1
            have g1 := (a3 ▸ hxi : x ∈ Set.Icc l u).2
            have g2 := (d3 ▸ hxj : x ∈ Set.Icc l2 u2).1
            exact absurd (g2.trans g1) (not_le.2 (c.trans this))
        · obtain ⟨k, hk', hxk⟩ := hx x i' j' hi' hj' hxi hxj
          exact ⟨k, .tail _ hk', hxk⟩
    · obtain ⟨ks, e, hl, hk, hx⟩ := Interval.sweep_ok n (i :: is) js (by simp at hn ⊢; omega) h1 (fun k hk => h2 k (.tail _ hk)) p1 q2.2
      refine ⟨i.intersect j :: ks, by simp only [if_neg c, e, bind, Except.bind], by simp at hl ⊢; omega, ?_, ?_⟩
      · rintro k hk'
        rcases List.mem_cons.1 hk' with rfl | hk'
        · exact ⟨i, .head _, j, .head _, rfl⟩
        · obtain ⟨i', hi', j', hj', e'⟩ := hk k hk'
          exact ⟨i', hi', j', .tail _ hj', e'⟩
      · intro x i' j' hi' hj' hxi hxj
        rcases List.mem_cons.1 hj' with rfl | hj'
        · rcases List.mem_cons.1 hi' with rfl | hi'
          · exact ⟨_, .head _, (C27_set_operations _ _ x).1.2 ⟨hxi, hxj⟩⟩
          · obtain ⟨l2, u2, d1, d2, d3, -⟩ := h1 i' (.tail _ hi')
            have := q1.1 i' hi' u l2 a2 d1
            have g1 := (b3 ▸ hxj : x ∈ Set.Icc l' u').2
            have g2 := (d3 ▸ hxi : x ∈ Set.Icc l2 u2).1
            exact absurd (g2.trans g1) (not_le.2 ((not_lt.1 c).trans_lt this))
        · obtain ⟨k, hk', hxk⟩ := hx x i' j' hi' hj' hxi hxj
          exact ⟨k, .tail _ hk', hxk⟩

/-- **C150.** The sweep gives the intersection of two selections of any history, in no more steps than there are
intervals in both, and a selection as built by unions. -/
theorem C150_sweep (dbg : Bool) (a b : Selection α) (ha : a.Reachable) (hb : b.Reachable) :
    ∃ r, a.sweep dbg b = .ok r ∧ r.UnionBuilt ∧ r.pts dbg = a.pts dbg ∩ b.pts dbg ∧
      ∃ is js ks, a.intervals dbg = .ok is ∧ b.intervals dbg = .ok js ∧ Interval.sweep is js = .ok ks ∧
        ks.length ≤ is.length + js.length := by
  obtain ⟨is, e, h1, p1, x1⟩ := ha.sorted dbg
  obtain ⟨js, e', h2, p2, x2⟩ := hb.sorted dbg
  obtain ⟨ks, ek, hl, hk, hx⟩ := Interval.sweep_ok _ is js le_rfl (fun i hi => (h1 i hi).2) (fun i hi => (h2 i hi).2) p1 p2
  have ho : ∀ k ∈ ks, k.Obtainable ∧ k.Real := fun k hk' => by
    obtain ⟨i, hi, j, hj, rfl⟩ := hk k hk'
    exact ⟨.intersect (h1 i hi).1 (h2 j hj).1, Interval.real_intersect (h1 i hi).1 (h2 j hj).1⟩
  obtain ⟨r, hr, -, hp⟩ := C48_from_intervals dbg ks fun k hk => (ho k hk).1
  refine ⟨r, by simp only [Selection.sweep, Interval.sweep, e, e', ek, bind, Except.bind, hr], .fromIntervals ho hr,
    Set.ext fun x => ?_, is, js, ks, e, e', ek, hl⟩
  rw [hp x]
  constructor
  · rintro ⟨k, hk', hxk⟩
    obtain ⟨i, hi, j, hj, rfl⟩ := hk k hk'
    obtain ⟨g1, g2⟩ := (C27_set_operations _ _ x).1.1 hxk
    exact ⟨(x1 x).2 ⟨i, hi, g1⟩, (x2 x).2 ⟨j, hj, g2⟩⟩
  · rintro ⟨g1, g2⟩
    obtain ⟨i, hi, hxi⟩ := (x1 x).1 g1
    obtain ⟨j, hj, hxj⟩ := (x2 x).1 g2
    exact hx x i j hi hj hxi hxj

example : (Selection.demo [(u8 0, u8 1), (u8 4, u8 5)]).Reachable ∧ Selection.mixed.Reachable ∧
    ((Selection.demo [(u8 0, u8 1), (u8 3, u8 8)]).sweep true Selection.mixed >>= (·.intervals true)) =
      .ok [.mkClosed (u8 7) (u8 8)] :=
  ⟨(Selection.demo_built _ (by decide)).reachable, Selection.mixed_reachable, by decide⟩

/-- **C150.** So the result does not depend on the order of the operands or on their histories. -/
theorem C150_same (dbg : Bool) (a b a' b' : Selection α) (ha : a.Reachable) (hb : b.Reachable) (ha' : a'.Reachable)
    (hb' : b'.Reachable) (h : a.pts dbg ∩ b.pts dbg = a'.pts dbg ∩ b'.pts dbg) :
    a.sweep dbg b = a'.sweep dbg b' := by
  obtain ⟨r, e, u, p, -⟩ := C150_sweep dbg a b ha hb
  obtain ⟨r', e', u', p', -⟩ := C150_sweep dbg a' b' ha' hb'
  rw [e, e', (C55_union_built_partial dbg r r' u u').2 (by rw [p, p', h])]

example : Selection.mixed.pts true ∩ (Selection.demo [(u8 0, u8 8)]).pts true =
    (Selection.demo [(u8 0, u8 8)]).pts true ∩ Selection.mixed.pts true ∧
    Selection.mixed.sweep true (Selection.demo [(u8 0, u8 8)]) = .ok (Selection.demo [(u8 7, u8 8)]) :=
  ⟨Set.inter_comm _ _, by decide⟩

end NI
