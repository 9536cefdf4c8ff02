import Verif.Props.StripRuns
import Verif.Props.Patch

/-!
# C130: bringing a copy of any history up to date by right lists
-/

set_option linter.unusedVariables false
set_option linter.unusedSectionVars false

namespace NI
open _root_.NI.Finite TT
variable {α : Type} [LinearOrder α] [Finite α] [LawfulFinite α]

theorem Selection.drop_removeAll (dbg : Bool) (is : List (Interval α)) (s : Selection α) : s.drop dbg is = s.removeAll dbg is := by
  induction is generalizing s with
  | nil => rfl
  | cons i is ih =>
    rw [Selection.drop, List.foldlM_cons, Selection.removeAll]
    exact congrArg _ (funext ih)

/-- **C130.**  If the lists are right, taking out what has gone and putting in what has come gives a copy of any history the values of
the new version, and those that the complement of the copy lists as points and that lie beside an interval of what has gone. -/
theorem C130_patch_any (dbg : Bool) (copy : Selection α) (hr : copy.Reachable) (N : Set α) (gone come : List (Interval α))
    (hi : ∀ i ∈ gone ++ come, i.Obtainable) (hg : ∀ x, (∃ i ∈ gone, x ∈ i.pts) ↔ x ∈ copy.pts dbg \ N)
    (hc : ∀ x, (∃ i ∈ come, x ∈ i.pts) ↔ x ∈ N \ copy.pts dbg) :
    ∃ p, copy.patch dbg (gone, come) = .ok p ∧ p.Reachable ∧
      ∀ x, x ∈ p.pts dbg ↔ x ∈ N ∨ (copy.Pinhole dbg x ∧ ∃ i ∈ gone, i.beside x = true) := by
  obtain ⟨r, e1, r1, k1⟩ := C75_removals_any dbg copy hr gone fun i h => hi i (List.mem_append_left _ h)
  obtain ⟨p, e2, r2, k2⟩ := Selection.put_pts dbg r1 (is := come) (fun i h => hi i (List.mem_append_right _ h)) fun x => (hc x).symm
  refine ⟨p, by rw [Selection.patch, Selection.drop_removeAll, e1]; exact e2, r2, fun x => ?_⟩
  have h1 := C73_pinhole dbg copy hr x
  have h2 := hg x
  have h3 : (∀ i ∈ gone, x ∉ i.pts) ↔ ¬ ∃ i ∈ gone, x ∈ i.pts := by simp
  rw [k2, Set.mem_union, k1, h3, h2]
  simp only [Set.mem_sdiff]
  generalize (x ∈ copy.pts dbg) = A at *
  generalize (x ∈ N) = B at *
  generalize (copy.Pinhole dbg x) = C at *
  generalize (∃ i ∈ gone, i.beside x = true) = D at *
  clear * - h1
  tauto

/-- **C130.**  If what has come is put in first, the values that come in besides are those that the complement then lists as points. -/
theorem C130_put_first_any (dbg : Bool) (copy : Selection α) (hr : copy.Reachable) (N : Set α) (gone come : List (Interval α))
    (hi : ∀ i ∈ gone ++ come, i.Obtainable) (hg : ∀ x, (∃ i ∈ gone, x ∈ i.pts) ↔ x ∈ copy.pts dbg \ N)
    (hc : ∀ x, (∃ i ∈ come, x ∈ i.pts) ↔ x ∈ N \ copy.pts dbg) :
    ∃ s p, copy.put dbg come = .ok s ∧ copy.patchPutFirst dbg (gone, come) = .ok p ∧ p.Reachable ∧
      ∀ x, x ∈ p.pts dbg ↔ x ∈ N ∨ (s.Pinhole dbg x ∧ ∃ i ∈ gone, i.beside x = true) := by
  obtain ⟨s, e2, r2, k2⟩ := Selection.put_pts dbg hr (is := come) (fun i h => hi i (List.mem_append_right _ h)) fun x => (hc x).symm
  obtain ⟨p, e1, r1, k1⟩ := C75_removals_any dbg s r2 gone fun i h => hi i (List.mem_append_left _ h)
  refine ⟨s, p, e2, by rw [Selection.patchPutFirst, e2]; exact (Selection.drop_removeAll ..).trans e1, r1, fun x => ?_⟩
  have h1 := C73_pinhole dbg s r2 x
  have h3 : (∀ i ∈ gone, x ∉ i.pts) ↔ ¬ ∃ i ∈ gone, x ∈ i.pts := by simp
  rw [k2] at h1
  rw [k1, k2, h3, hg]
  simp only [Set.mem_union, Set.mem_sdiff] at h1 ⊢
  generalize (x ∈ copy.pts dbg) = A at *
  generalize (x ∈ N) = B at *
  generalize (s.Pinhole dbg x) = C at *
  generalize (∃ i ∈ gone, i.beside x = true) = D at *
  clear * - h1
  tauto

/-- **C130.**  So for a copy of any history taking out first is never worse: what comes in wrongly then does so too if what has come
is put in first. -/
theorem C130_take_first_any (dbg : Bool) (copy : Selection α) (hr : copy.Reachable) (N : Set α) (gone come : List (Interval α))
    (hi : ∀ i ∈ gone ++ come, i.Obtainable) (hg : ∀ x, (∃ i ∈ gone, x ∈ i.pts) ↔ x ∈ copy.pts dbg \ N)
    (hc : ∀ x, (∃ i ∈ come, x ∈ i.pts) ↔ x ∈ N \ copy.pts dbg) :
    ∃ p q, copy.patch dbg (gone, come) = .ok p ∧ copy.patchPutFirst dbg (gone, come) = .ok q ∧
      N ⊆ p.pts dbg ∧ p.pts dbg ⊆ q.pts dbg := by
  obtain ⟨p, e1, -, k1⟩ := C130_patch_any dbg copy hr N gone come hi hg hc
  obtain ⟨s, q, e2, e3, -, k2⟩ := C130_put_first_any dbg copy hr N gone come hi hg hc
  refine ⟨p, q, e1, e3, fun x hx => (k1 x).2 (.inl hx), fun x hx => (k2 x).2 ?_⟩
  rcases (k1 x).1 hx with h | ⟨h, b⟩
  · exact .inl h
  · by_cases hN : x ∈ N
    · exact .inl hN
    refine .inr ⟨?_, b⟩
    obtain ⟨s', e4, hs⟩ := (Strip.ofTree_of hr).adds dbg come fun i h => hi i (List.mem_append_right _ h)
    obtain rfl : s' = s := Except.ok.inj (e4.symm.trans e2)
    rw [Selection.pinhole_iff dbg (Selection.reachable_valid hr), (Strip.ofTree_of hr).hole] at h
    rw [Selection.pinhole_iff dbg (Selection.reachable_valid hs.1), hs.hole]
    have hx : ∀ i ∈ come, i.contains x = false := fun i hm => by
      have := (not_congr (hc x)).2 fun h => hN h.1
      rw [← Bool.not_eq_true]
      exact fun hcx => this ⟨i, hm, hcx⟩
    clear * - h hx
    revert h
    generalize Strip.ofTree copy = p
    induction come generalizing p with
    | nil => exact id
    | cons i is ih =>
      intro h
      refine ih (fun j hj => hx j (.tail _ hj)) _ ?_
      have hi := hx i (.head _)
      simp only [Strip.hole, Bool.and_eq_true, Bool.not_eq_true'] at h ⊢
      refine ⟨⟨?_, ?_⟩, ?_⟩
      · rw [Strip.add_val, h.1.1, hi]; rfl
      · rw [Strip.add_joint, h.1.2]; rfl
      · cases hp : pred x with
        | none => rw [hp] at h; exact absurd h.2 (by simp)
        | some y =>
          rw [hp] at h
          simp only [Option.any_some] at h ⊢
          rw [Strip.add_joint, h.2]; rfl

/-- **C130.**  With lists formed by complements, and copy and versions of any history, the copy gets the values of the new version
exactly if no value missing from both versions that the complement of the copy lists as a point lies beside an interval that has gone. -/
theorem C130_exact_any (dbg : Bool) (copy old new : Selection α) (hr : copy.Reachable) (ho : old.Reachable)
    (hn : new.Reachable) (h : copy.pts dbg = old.pts dbg) :
    ∃ gone come p, old.diffByComplements dbg new = .ok (gone, come) ∧ copy.patch dbg (gone, come) = .ok p ∧ p.Reachable ∧
      (p.pts dbg = new.pts dbg ↔ ∀ x, copy.Pinhole dbg x → x ∉ new.pts dbg → ∀ i ∈ gone, i.beside x = false) := by
  obtain ⟨gone, come, e, hw, hg, hc, -⟩ := C130_diff_complements dbg old new ho hn
  obtain ⟨p, e1, r, k⟩ := C130_patch_any dbg copy hr (new.pts dbg) gone come hw (by rw [h]; exact hg) (by rw [h]; exact hc)
  refine ⟨gone, come, p, e, e1, r, ?_⟩
  rw [Set.ext_iff]
  refine forall_congr' fun x => ?_
  rw [k]
  constructor
  · intro hx hp hn i hm
    rw [← Bool.not_eq_true]
    exact fun hb => hn (hx.1 (.inr ⟨hp, i, hm, hb⟩))
  · intro hx
    refine ⟨?_, .inl⟩
    rintro (hn | ⟨hp, i, hm, hb⟩)
    · exact hn
    · by_contra hn
      rw [hx hp hn i hm] at hb; cases hb

/-- From {3, 5, …, 9} to {2, 3, 6, …, 9}: 4 comes in, for 5 has gone.  If the copy is 3 to 9 less 4, and so has the same values, it does
not; the lists that are sent are the same. -/
example : (Selection.demo [(u8 3, u8 3), (u8 5, u8 9)]).diffByComplements true (Selection.demo [(u8 2, u8 3), (u8 6, u8 9)]) =
      .ok ([⟨.closed (u8 5) (u8 5)⟩], [⟨.closed (u8 2) (u8 2)⟩]) ∧
    (do (← (Selection.demo [(u8 3, u8 3), (u8 5, u8 9)]).patch true ([⟨.closed (u8 5) (u8 5)⟩], [⟨.closed (u8 2) (u8 2)⟩])).contains true (u8 4)) = .ok true ∧
    (do (← (← (Selection.demo [(u8 3, u8 9)]).minusInPlace true (.point (u8 4))).patch true
      ([⟨.closed (u8 5) (u8 5)⟩], [⟨.closed (u8 2) (u8 2)⟩])).contains true (u8 4)) = .ok false ∧
    (Selection.demo [(u8 3, u8 3), (u8 5, u8 9)]).Reachable ∧ (Selection.demo [(u8 2, u8 3), (u8 6, u8 9)]).Reachable ∧
    (Selection.demo [(u8 3, u8 3), (u8 5, u8 9)]).Pinhole true (u8 4) :=
  ⟨by decide, by decide, by decide, (Selection.demo_built _ (by decide)).reachable, (Selection.demo_built _ (by decide)).reachable,
    _, _, rfl, rfl, by decide⟩

end NI
