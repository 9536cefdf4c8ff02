import Verif.Props.RunFilter
import Verif.Props.Lookup

/-! # C143 for selections of any history -/

namespace NI
open _root_.NI.Finite TT

variable {α : Type} [LinearOrder α] [Finite α] [LawfulFinite α]

/-- A value lies in one of the listed intervals only. -/
theorem Selection.Reachable.once (dbg : Bool) {s : Selection α} (hs : s.Reachable) {is : List (Interval α)}
    (h : s.intervals dbg = .ok is) {i j : Interval α} (hi : i ∈ is) (hj : j ∈ is) {x : α} (hx : x ∈ i.pts)
    (hx' : x ∈ j.pts) : i = j := by
  obtain ⟨is', e, ends, ord, -⟩ := hs.sorted dbg
  rw [h] at e; cases e
  by_contra hne
  have pw : is.Pairwise fun i j : Interval α => x ∉ i.pts ∨ x ∉ j.pts := ord.imp_of_mem fun {i j} hi hj h => by
    obtain ⟨-, l, u, -, h2, h3, -⟩ := ends i hi
    obtain ⟨-, l', u', k1, -, k3, -⟩ := ends j hj
    by_contra k
    rw [not_or, not_not, not_not, h3, k3] at k
    exact lt_irrefl _ ((k.1.2.trans_lt (h u l' h2 k1)).trans_le k.2.1)
  have : Std.Symm (fun i j : Interval α => x ∉ i.pts ∨ x ∉ j.pts) := ⟨fun _ _ h => h.symm⟩
  rcases List.Pairwise.forall pw hi hj hne with h | h
  exacts [h hx, h hx']

/-- **C143.**  Whatever the selection's history, `s.interval_iter().filter(p).collect()` has exactly those values of the selection
whose listed interval meets the condition. -/
theorem C143_keep_any (dbg : Bool) (p : Interval α → Bool) (s : Selection α) (hs : s.Reachable) :
    ∃ is r, s.intervals dbg = .ok is ∧ s.keepRuns dbg p = .ok r ∧ r.Reachable ∧
      (∀ x, x ∈ s.pts dbg ↔ ∃ i ∈ is, x ∈ i.pts) ∧ r.pts dbg ⊆ s.pts dbg ∧
      ∀ i ∈ is, ∀ x ∈ i.pts, (x ∈ r.pts dbg ↔ p i = true) := by
  obtain ⟨is, e, ends, -, m⟩ := hs.sorted dbg
  obtain ⟨r, hr, hR, hp⟩ := C48_from_intervals dbg (is.filter p) fun i hi => (ends i (List.mem_filter.1 hi).1).1
  refine ⟨is, r, e, by simp only [Selection.keepRuns, e, bind, Except.bind]; exact hr, hR, m, fun x hx => ?_, fun i hi x hx => ?_⟩
  · obtain ⟨i, hi, hx⟩ := (hp x).1 hx
    exact (m x).2 ⟨i, (List.mem_filter.1 hi).1, hx⟩
  · rw [hp x]
    constructor
    · rintro ⟨j, hj, hxj⟩
      obtain ⟨hj, hpj⟩ := List.mem_filter.1 hj
      rwa [hs.once dbg e hi hj hx hxj]
    · exact fun h => ⟨i, List.mem_filter.2 ⟨hi, h⟩, hx⟩

example : Selection.mixed.Reachable ∧ Selection.mixed.keepRuns true (fun i => i.contains (u8 8)) >>= (·.intervals true) =
    .ok [.mkClosed (u8 7) (u8 9)] := ⟨Selection.mixed_reachable, by decide⟩

/-- **C143.**  Whatever the selection's history, `s.extend(s.complement().interval_iter().filter(p))` adds exactly those missing
values whose listed gap meets the condition. -/
theorem C143_close_any (dbg : Bool) (p : Interval α → Bool) (s : Selection α) (hs : s.Reachable) :
    ∃ c gs r, s.complement dbg = .ok c ∧ c.intervals dbg = .ok gs ∧ s.closeGaps dbg p = .ok r ∧ r.Reachable ∧
      (∀ x, x ∉ s.pts dbg ↔ ∃ i ∈ gs, x ∈ i.pts) ∧ s.pts dbg ⊆ r.pts dbg ∧
      ∀ i ∈ gs, ∀ x ∈ i.pts, (x ∈ r.pts dbg ↔ p i = true) := by
  obtain ⟨c, hc, hC, pc, -⟩ := C62_complement dbg s hs
  obtain ⟨gs, e, ends, -, m⟩ := hC.sorted dbg
  obtain ⟨r, hr, hR, hp⟩ := C48_extend dbg s hs (gs.filter p) fun i hi => (ends i (List.mem_filter.1 hi).1).1
  have m' : ∀ x, x ∉ s.pts dbg ↔ ∃ i ∈ gs, x ∈ i.pts := fun x => by rw [← m x, pc]; rfl
  refine ⟨c, gs, r, hc, e, by simp only [Selection.closeGaps, hc, e, bind, Except.bind]; exact hr, hR, m',
    fun x hx => (hp x).2 (.inl hx), fun i hi x hx => ?_⟩
  rw [hp x, or_iff_right ((m' x).2 ⟨i, hi, hx⟩)]
  constructor
  · rintro ⟨j, hj, hxj⟩
    obtain ⟨hj, hpj⟩ := List.mem_filter.1 hj
    rwa [hC.once dbg e hi hj hx hxj]
  · exact fun h => ⟨i, List.mem_filter.2 ⟨hi, h⟩, hx⟩

example : Selection.mixed.Reachable ∧ Selection.mixed.closeGaps true (fun i => i.contains (u8 200)) >>= (·.contains true (u8 12)) =
    .ok true := ⟨Selection.mixed_reachable, by decide⟩

/-- The two things that go wrong with sizes for other histories: the union of two complements, `{2, 3}` and `{4, 5}`, lists
them apart and so both are short; and the size of a listed interval without values panics in debug builds. -/
theorem C143_any_counterexample :
    (∃ s : Selection U8, s.Reachable ∧ (∀ x ∈ [u8 2, u8 3, u8 4, u8 5], s.contains true x = .ok true) ∧
      s.keepLong true MInt.sub (u8 3) = .ok .new) ∧
    Selection.mixed.Reachable ∧ Selection.mixed.keepLong true MInt.sub (u8 0) = .error .overflow := by
  have mk : ∀ l l' u u' : U8, ∀ t : Selection U8,
      (Selection.fromIntervals true [.unboundedUpTo l', .unboundedUpFrom u']) = .ok t →
      t.complement true = .ok ⟨[.lower (.incl l), .upper (.incl u)]⟩ →
      (⟨[.lower (.incl l), .upper (.incl u)]⟩ : Selection U8).Reachable := fun l l' u u' t h1 h2 =>
    .complement (.fromIntervals (fun i hi => by
      rcases List.mem_pair.1 hi with rfl | rfl
      exacts [.unboundedUpTo _, .unboundedUpFrom _]) h1) h2
  refine ⟨⟨⟨[.lower (.incl (u8 2)), .upper (.incl (u8 3)), .lower (.incl (u8 4)), .upper (.incl (u8 5))]⟩, ?_, ?_, by decide⟩,
    Selection.mixed_reachable, by decide⟩
  · exact .union (dbg := true) (mk (u8 2) (u8 2) (u8 3) (u8 3) ⟨[.lower .inf, .upper (.excl (u8 2)), .lower (.excl (u8 3)), .upper .inf]⟩
      (by decide) (by decide)) (mk (u8 4) (u8 4) (u8 5) (u8 5) ⟨[.lower .inf, .upper (.excl (u8 4)), .lower (.excl (u8 5)), .upper .inf]⟩
      (by decide) (by decide)) (by decide)
  · decide

end NI
