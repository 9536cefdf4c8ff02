import Verif.SpecHeapPages
import Verif.Props.StripHeap

/-! # A heap of pages, taken out in place (C131) -/

set_option linter.unusedVariables false
set_option linter.unusedSectionVars false

namespace NI
open _root_.NI.Finite TT

theorem SparseCalls.Paged.never_cut {α : Type} [LinearOrder α] [Finite α] [LawfulFinite α] {cs : SparseCalls α} (hp : cs.Paged) : cs.NeverCut := by
  rintro A B i rfl y ⟨x, z, hy, hz, -, -, h3, h4, h5⟩
  obtain ⟨w, hw, hq⟩ := hp y
  have hq : ∀ c ∈ A, c.1.contains y = c.1.contains w := fun c hc => hq c (List.mem_append_left _ hc)
  rcases hw with hw | hw
  · rw [hz] at hw; cases hw
    rw [SparseCalls.written_congr (Q := fun j => j.contains y) fun c hc => by rw [← hq c hc, Bool.or_self], h3] at h5
    cases h5
  · have := pred_eq_iff.2 hw
    rw [pred_eq_iff.2 hy] at this; cases this
    rw [SparseCalls.written_congr (Q := fun j => j.contains y) fun c hc => by rw [← hq c hc, Bool.or_self], h3] at h4
    cases h4

variable {hi : Int} [Fact (0 ≤ hi)]

theorem MInt.succ_of {a b : MInt 0 hi} (h : b.1 = a.1 + 1) : succ a = some b := by
  obtain ⟨a, ha⟩ := a
  obtain ⟨b, hb⟩ := b
  obtain rfl : b = a + 1 := h
  have h1 : a ≠ hi := by have := hb.2; omega
  have h2 : 0 ≤ a + 1 ∧ a + 1 ≤ hi := hb
  simp [Finite.succ, MInt.succRaw, MInt.checkedAdd, h1, h2]

/-- As long as whole pages are asked for and given back, whole pages are handed out. -/
theorem HeapRun.pages {k : Int} {F F' : Set (MInt 0 hi)} {cs os} (h : HeapRun F cs os F') (hc : ∀ c ∈ cs, c.OfPages k)
    (hF : ∀ y z : MInt 0 hi, z.1 = y.1 + 1 → ¬ k ∣ z.1 → (y ∈ F ↔ z ∈ F)) :
    ∀ c ∈ heapCalls cs os, ∃ l u : MInt 0 hi, c.1 = .mkClosed l u ∧ k ∣ l.1 ∧ k ∣ u.1 + 1 := by
  have same : ∀ l u y z : MInt 0 hi, k ∣ l.1 → k ∣ u.1 + 1 → z.1 = y.1 + 1 → ¬ k ∣ z.1 → (y ∈ Set.Icc l u ↔ z ∈ Set.Icc l u) :=
    fun l u y z hl hu e hz => by
      have h1 : l.1 ≠ z.1 := fun h => hz (h ▸ hl)
      have h2 : u.1 ≠ y.1 := fun h => hz (by rw [e, ← h]; exact hu)
      show (l.1 ≤ y.1 ∧ y.1 ≤ u.1) ↔ (l.1 ≤ z.1 ∧ z.1 ≤ u.1)
      omega
  induction h with
  | nil F => exact fun c h => nomatch h
  | @take F n l u cs os F' hf hm _ ih =>
    have hn : k ∣ n.1 + 1 := hc _ (.head _)
    have hl : k ∣ l.1 := by
      by_contra hl
      have h0 : 0 ≤ l.1 := l.2.1
      have h1 : l.1 ≠ 0 := fun h => hl (by rw [h]; exact Int.dvd_zero k)
      have h2 : 0 ≤ n.1 := n.2.1
      have h3 := hf.1
      have h4 := l.2.2
      have h5 := u.2.2
      let l' : MInt 0 hi := ⟨l.1 - 1, by omega⟩
      let u' : MInt 0 hi := ⟨u.1 - 1, by omega⟩
      have hle : l ≤ u := show l.1 ≤ u.1 by omega
      have : l ≤ l' := hm l' u' ⟨by show u.1 - 1 = l.1 - 1 + n.1; omega, fun x hx => by
        have hx1 : l.1 - 1 ≤ x.1 := hx.1
        have hx2 : x.1 ≤ u.1 - 1 := hx.2
        by_cases hxl : l.1 ≤ x.1
        · exact hf.2 ⟨hxl, show x.1 ≤ u.1 by omega⟩
        · exact (hF x l (by omega) hl).2 (hf.2 ⟨le_rfl, hle⟩)⟩
      have : l.1 ≤ l.1 - 1 := this
      omega
    have hu : k ∣ u.1 + 1 := by
      rw [hf.1, add_assoc]; exact Int.dvd_add hl hn
    intro c hm
    rcases List.mem_cons.1 hm with rfl | hm
    · exact ⟨l, u, rfl, hl, hu⟩
    · refine ih (fun c h => hc c (.tail _ h)) (fun y z e hz => ?_) c hm
      rw [Set.mem_sdiff, Set.mem_sdiff, hF y z e hz, same l u y z hl hu e hz]
  | @out F n cs os F' _ _ ih => exact ih (fun c h => hc c (.tail _ h)) hF
  | @give F l u cs os F' _ ih =>
    obtain ⟨hl, hu⟩ : k ∣ l.1 ∧ k ∣ u.1 + 1 := hc _ (.head _)
    intro c hm
    rcases List.mem_cons.1 hm with rfl | hm
    · exact ⟨l, u, rfl, hl, hu⟩
    · refine ih (fun c h => hc c (.tail _ h)) (fun y z e hz => ?_) c hm
      rw [Set.mem_union, Set.mem_union, hF y z e hz, same l u y z hl hu e hz]

/-- **C131.**  Free numbers kept, at first all, blocks taken out by `minus_in_place`: all answers are right if the numbers are made of pages of
two or more, whole pages are asked for, and whole pages are given back, as the blocks that were handed out or not. -/
theorem C131_in_place_pages (dbg : Bool) (k : Int) (hk : 2 ≤ k) (hhi : k ∣ hi + 1) (cs : List (HeapCall (MInt 0 hi)))
    (hc : ∀ c ∈ cs, c.OfPages k) (os : List (Option (MInt 0 hi × MInt 0 hi))) (F : Set (MInt 0 hi)) (h : HeapRun Set.univ cs os F) :
    ∃ s, (Selection.full : Selection (MInt 0 hi)).heap (.inPlace dbg) dbg cs = .ok (os, s) ∧ s.pts dbg = F := by
  refine C131_in_place dbg cs os F h (SparseCalls.Paged.never_cut fun y => ?_)
  have hp := h.pages hc fun _ _ _ _ => Iff.rfl
  have con : ∀ l u x : MInt 0 hi, (Interval.mkClosed l u).contains x = true ↔ l.1 ≤ x.1 ∧ x.1 ≤ u.1 := fun l u x => by
    have : x ∈ (Interval.mkClosed l u).pts ↔ x ∈ Set.Icc l u := by rw [Interval.closed_pts]
    exact this
  have h0 : 0 ≤ y.1 := y.2.1
  have h1 : y.1 ≤ hi := y.2.2
  by_cases hy : k ∣ y.1 + 1
  · have hn : ¬ k ∣ y.1 := fun h => by
      have := Int.le_of_dvd (by omega) ((Int.dvd_add_right h).1 hy)
      omega
    have h2 : y.1 ≠ 0 := fun h => hn (by rw [h]; exact Int.dvd_zero k)
    refine ⟨⟨y.1 - 1, by omega⟩, .inr (MInt.succ_of (by simp)), fun c hm => ?_⟩
    obtain ⟨l, u, e, hl, hu⟩ := hp c hm
    rw [e, Bool.eq_iff_iff, con, con]
    have h3 : l.1 ≠ y.1 := fun h => hn (h ▸ hl)
    have h4 : u.1 + 1 ≠ y.1 := fun h => hn (h ▸ hu)
    show _ ↔ l.1 ≤ y.1 - 1 ∧ y.1 - 1 ≤ u.1
    omega
  · have h2 : y.1 ≠ hi := fun h => hy (by rw [h]; exact hhi)
    refine ⟨⟨y.1 + 1, by omega⟩, .inl (MInt.succ_of rfl), fun c hm => ?_⟩
    obtain ⟨l, u, e, hl, hu⟩ := hp c hm
    rw [e, Bool.eq_iff_iff, con, con]
    have h3 : l.1 ≠ y.1 + 1 := fun h => hy (h ▸ hl)
    have h4 : u.1 ≠ y.1 := fun h => hy (h ▸ hu)
    show _ ↔ l.1 ≤ y.1 + 1 ∧ y.1 + 1 ≤ u.1
    omega

/-- Pages of four: three pages asked for, the middle one given back, one asked for. -/
example : (4 : Int) ∣ 255 + 1 ∧
    (∀ c ∈ [HeapCall.take (u8 11), .give (u8 4) (u8 7), .take (u8 3)], HeapCall.OfPages 4 c) ∧
    (do return (← (Selection.full : Selection U8).heap (.inPlace true) true [.take (u8 11), .give (u8 4) (u8 7), .take (u8 3)]).1) =
      .ok [some (u8 0, u8 11), none, some (u8 4, u8 7)] :=
  ⟨by decide, by simp [HeapCall.OfPages, u8], by decide⟩

end NI
