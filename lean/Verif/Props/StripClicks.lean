import Verif.SpecClicks
import Verif.Props.StripHeap
import Verif.Props.Toggle

/-! # Switching values one after the other: exactly when it goes wrong (C135) -/

set_option linter.unusedVariables false
set_option linter.unusedSectionVars false

namespace NI
open _root_.NI.Finite TT
variable {α : Type} [LinearOrder α] [Finite α]

theorem SparseCalls.careful_snoc (cs : SparseCalls α) (i : Interval α) (b : Bool) :
    SparseCalls.Careful (cs ++ [(i, b)]) ↔ cs.Careful ∧ (b = false → ¬ cs.Bridged i) := by
  constructor
  · exact fun h => ⟨h.prefix, fun hb => h cs [] i (by rw [hb])⟩
  · rintro ⟨h, k⟩ A B j e
    rcases List.eq_nil_or_concat B with rfl | ⟨B, c, rfl⟩
    · obtain ⟨rfl, e2⟩ := List.append_inj' e rfl
      simp only [List.cons.injEq, Prod.mk.injEq, and_true] at e2
      obtain ⟨rfl, rfl⟩ := e2
      exact k rfl
    · rw [List.concat_eq_append, ← List.cons_append, ← List.append_assoc] at e
      exact h A B j (List.append_inj' e rfl).1

theorem clickCalls_snoc (cs : SparseCalls α) (vs : List α) (v : α) :
    clickCalls cs (vs ++ [v]) = clickCalls cs vs ++ [(.point v, !(clickCalls cs vs).written fun j => j.contains v)] := by
  rw [clickCalls, List.foldl_append]; rfl

theorem clicksOn_snoc (X : Set α) (vs : List α) (v : α) : clicksOn X (vs ++ [v]) = InOne (clicksOn X vs) {v} := by
  rw [clicksOn, List.foldl_append]; rfl

variable [LawfulFinite α]

theorem clickCalls_there (cs : SparseCalls α) (vs : List α) : (clickCalls cs vs).there = clicksOn cs.there vs := by
  induction vs using List.reverseRecOn with
  | nil => rfl
  | append_singleton vs v ih =>
    obtain ⟨-, hp⟩ := Interval.point_real v
    have hm : v ∈ (clickCalls cs vs).there ↔ _ := SparseCalls.mem_there (clickCalls cs vs) v
    rw [clickCalls_snoc, clicksOn_snoc, SparseCalls.there_snoc, ← ih]
    ext x
    cases hw : (clickCalls cs vs).written fun j => j.contains v
    · rw [hw] at hm
      have hm : v ∉ (clickCalls cs vs).there := fun h => Bool.false_ne_true (hm.1 h)
      simp only [Bool.not_false, if_true, hp, InOne, Set.mem_union, Set.mem_singleton_iff, Set.mem_ofPred_eq]
      constructor
      · rintro (h | rfl)
        · exact .inl ⟨h, fun k => hm (k ▸ h)⟩
        · exact .inr ⟨rfl, hm⟩
      · exact fun h => h.elim (fun h => .inl h.1) fun h => .inr h.1
    · have hm := hm.2 hw
      simp only [Bool.not_true, Bool.false_eq_true, if_false, hp, InOne, Set.mem_sdiff, Set.mem_singleton_iff, Set.mem_ofPred_eq]
      exact ⟨fun h => .inl h, fun h => h.elim id fun h => absurd (h.1 ▸ hm) h.2⟩

theorem clickCalls_real {cs : SparseCalls α} (h : ∀ c ∈ cs, c.1.Obtainable ∧ c.1.Real) (vs : List α) : ∀ c ∈ clickCalls cs vs, c.1.Obtainable ∧ c.1.Real := by
  induction vs using List.reverseRecOn with
  | nil => exact h
  | append_singleton vs v ih =>
    intro c hc
    rw [clickCalls_snoc] at hc
    rcases List.mem_append.1 hc with hc | hc
    · exact ih c hc
    · rw [List.mem_singleton] at hc; subst hc; exact ⟨.point v, (Interval.point_real v).1⟩

theorem Selection.clicks_snoc (dbg : Bool) (vs : List α) (v : α) {s r : Selection α} (e : s.clicks dbg vs = .ok r) :
    s.clicks dbg (vs ++ [v]) = r.click dbg v := by
  rw [Selection.clicks, List.foldlM_append]
  change s.clicks dbg vs >>= _ = _
  rw [e]
  show (r.click dbg v >>= _) = _
  cases r.click dbg v <;> rfl

/-- As long as no bridged value is switched off the calls are those that should be made. -/
theorem Selection.clicks_run (dbg : Bool) {cs : SparseCalls α} (h : ∀ c ∈ cs, c.1.Obtainable ∧ c.1.Real) {s0 : Selection α}
    (e0 : cs.run dbg = .ok s0) (vs : List α) (hc : (clickCalls cs vs).Careful) :
    ∃ s, s0.clicks dbg vs = .ok s ∧ (clickCalls cs vs).run dbg = .ok s ∧ s.Reachable ∧ s.pts dbg = clicksOn cs.there vs := by
  have fin : ∀ {vs : List α} {s}, (clickCalls cs vs).Careful → (clickCalls cs vs).run dbg = .ok s → s.Reachable ∧ s.pts dbg = clicksOn cs.there vs :=
    fun {vs s} hc e => by
      obtain ⟨_, e', r, k⟩ := C156_exact dbg _ (clickCalls_real h vs)
      rw [e] at e'; cases e'
      exact ⟨r, by rw [(k hc).1, clickCalls_there]⟩
  induction vs using List.reverseRecOn with
  | nil => exact ⟨s0, rfl, e0, fin hc e0⟩
  | append_singleton vs v ih =>
    rw [clickCalls_snoc] at hc
    obtain ⟨s, e, er, r, k⟩ := ih hc.prefix
    have hr := clickCalls_real h (vs ++ [v])
    obtain ⟨s1, e1, -⟩ := C156_exact dbg _ hr
    refine ⟨s1, ?_, e1, fin (by rw [clickCalls_snoc]; exact hc) e1⟩
    rw [clickCalls_snoc, SparseCalls.run_snoc dbg _ _ _ er] at e1
    rw [Selection.clicks_snoc dbg vs v e, ← e1]
    obtain ⟨b, hb⟩ := C48_contains_total s r v
    have hv : b = (clickCalls cs vs).written fun j => j.contains v := by
      rw [Bool.eq_iff_iff, ← SparseCalls.mem_there, clickCalls_there, ← k]
      show _ ↔ s.contains dbg v = .ok true
      rw [hb, Except.ok.injEq]
    rw [← hv]
    cases b <;> simp [Selection.click, hb, bind, Except.bind]

/-- **C135.**  Switching values one after the other, after any ranges put in and taken out in place without going wrong: it is right at every
moment exactly if none is switched off next to one that is out, the other side of which is in, both sides having come in since that one went
out, if it was in at all. -/
theorem C135_clicks_exact (dbg : Bool) (cs : SparseCalls α) (h : ∀ c ∈ cs, c.1.Obtainable ∧ c.1.Real) (hcs : cs.Careful) (vs : List α) :
    ∃ s0, cs.run dbg = .ok s0 ∧ ((∀ A B, vs = A ++ B → ∃ s, s0.clicks dbg A = .ok s ∧ s.pts dbg = clicksOn cs.there A) ↔ (clickCalls cs vs).Careful) := by
  obtain ⟨s0, e0, -⟩ := C156_exact dbg cs h
  refine ⟨s0, e0, ?_⟩
  induction vs using List.reverseRecOn with
  | nil =>
    refine ⟨fun _ => hcs, fun h1 A B e => ?_⟩
    obtain ⟨rfl, rfl⟩ := List.append_eq_nil_iff.1 e.symm
    obtain ⟨s, e, -, -, k⟩ := Selection.clicks_run dbg h e0 _ h1
    exact ⟨s, e, k⟩
  | append_singleton vs v ih =>
    constructor
    · intro h1
      have hc := ih.1 fun A B e => h1 A (B ++ [v]) (by rw [e, List.append_assoc])
      rw [clickCalls_snoc, SparseCalls.careful_snoc]
      refine ⟨hc, fun hw hb => ?_⟩
      obtain ⟨s, e, er, r, k⟩ := Selection.clicks_run dbg h e0 _ hc
      obtain ⟨_, e', -, m⟩ := C156_exact dbg _ (clickCalls_real h vs)
      rw [er] at e'; cases e'
      obtain ⟨hr, hp⟩ := Interval.point_real v
      obtain ⟨s1, e1, -, m⟩ := (m hc).2 (.point v) (.point v) hr
      obtain ⟨s2, e2, k2⟩ := h1 (vs ++ [v]) [] (by simp)
      have hv : v ∈ clicksOn cs.there vs := by
        rw [← clickCalls_there, SparseCalls.mem_there]; simpa using hw
      have hv' : s.contains dbg v = .ok true := show v ∈ s.pts dbg by rw [k]; exact hv
      have e3 : s.click dbg v = s.minusInPlace dbg (.point v) := by simp [Selection.click, hv', bind, Except.bind]
      rw [Selection.clicks_snoc dbg vs v e, e3, e1] at e2
      cases e2
      refine m.1 ?_ hb
      rw [k2, clicksOn_snoc, hp, k]
      ext x
      simp only [InOne, Set.mem_sdiff, Set.mem_singleton_iff, Set.mem_ofPred_eq]
      exact ⟨fun h => h.elim id fun h => absurd (h.1 ▸ hv) h.2, fun h => .inl h⟩
    · intro h1 A B e
      rcases List.eq_nil_or_concat B with rfl | ⟨B, c, rfl⟩
      · rw [List.append_nil] at e
        subst e
        obtain ⟨s, e, -, -, k⟩ := Selection.clicks_run dbg h e0 _ h1
        exact ⟨s, e, k⟩
      · rw [List.concat_eq_append, ← List.append_assoc] at e
        rw [clickCalls_snoc] at h1
        exact ih.2 h1.prefix A B (List.append_inj' e rfl).1

/-- **C135.**  And the first such switch leaves in, besides what should be in, exactly the values at which it is bridged. -/
theorem C135_clicks_wrong (dbg : Bool) (cs : SparseCalls α) (h : ∀ c ∈ cs, c.1.Obtainable ∧ c.1.Real) (vs : List α)
    (hc : (clickCalls cs vs).Careful) (v : α) (hv : v ∈ clicksOn cs.there vs) :
    ∃ s0 s, cs.run dbg = .ok s0 ∧ s0.clicks dbg (vs ++ [v]) = .ok s ∧
      s.pts dbg = clicksOn cs.there (vs ++ [v]) ∪ {y | (clickCalls cs vs).BridgedAt (.point v) y} := by
  obtain ⟨s0, e0, -⟩ := C156_exact dbg cs h
  obtain ⟨s, e, er, r, k⟩ := Selection.clicks_run dbg h e0 _ hc
  obtain ⟨_, e', -, m⟩ := C156_exact dbg _ (clickCalls_real h vs)
  rw [er] at e'; cases e'
  obtain ⟨hr, hp⟩ := Interval.point_real v
  obtain ⟨s1, e1, m, -⟩ := (m hc).2 (.point v) (.point v) hr
  have hv' : s.contains dbg v = .ok true := show v ∈ s.pts dbg by rw [k]; exact hv
  have e3 : s.click dbg v = s.minusInPlace dbg (.point v) := by simp [Selection.click, hv', bind, Except.bind]
  refine ⟨s0, s1, e0, by rw [Selection.clicks_snoc dbg vs v e, e3, e1], ?_⟩
  rw [m, clicksOn_snoc, hp, k]
  congr 1
  ext x
  simp only [InOne, Set.mem_sdiff, Set.mem_singleton_iff, Set.mem_ofPred_eq]
  exact ⟨fun h => .inl h, fun h => h.elim id fun h => absurd (h.1 ▸ hv) h.2⟩

/-- 2 and 4 are switched on: switching 4 off is bridged at 3. -/
example : (clickCalls [] [u8 2, u8 4]).Careful ∧ u8 4 ∈ clicksOn ∅ [u8 2, u8 4] ∧
    (clickCalls [] [u8 2, u8 4]).BridgedAt (.point (u8 4)) (u8 3) := by
  refine ⟨fun A B i e => ?_, .inr ⟨rfl, ?_⟩, u8 2, u8 4, by decide, by decide, by decide, by decide, by decide, by decide, by decide⟩
  · have h : (i, false) ∈ clickCalls [] [u8 2, u8 4] := by rw [e]; simp
    exact absurd rfl ((by decide : ∀ c ∈ clickCalls [] [u8 2, u8 4], c.2 ≠ false) _ h)
  · show u8 4 ∉ InOne ∅ {u8 2}
    simp only [InOne, Set.mem_ofPred_eq, Set.mem_singleton_iff]
    have : u8 4 ≠ u8 2 := by decide
    simp [this]

theorem clickCalls_mem (vs : List α) : ∀ c ∈ clickCalls [] vs, ∃ v ∈ vs, c.1 = .point v := by
  induction vs using List.reverseRecOn with
  | nil => exact fun c h => nomatch h
  | append_singleton vs v ih =>
    intro c hc
    rw [clickCalls_snoc] at hc
    rcases List.mem_append.1 hc with hc | hc
    · obtain ⟨w, hw, e⟩ := ih c hc
      exact ⟨w, List.mem_append_left _ hw, e⟩
    · rw [List.mem_singleton] at hc; subst hc; exact ⟨v, by simp, rfl⟩

/-- **C135.**  Switching is right at every moment, whatever the order, if no two of the values switched have exactly one value between
them. -/
theorem C135_clicks_spaced (dbg : Bool) (vs : List α) (h : ∀ x y z, succ x = some y → succ y = some z → x ∈ vs → z ∉ vs) :
    ∃ s, (Selection.new : Selection α).clicks dbg vs = .ok s ∧ s.pts dbg = clicksOn ∅ vs := by
  have hc : (clickCalls [] vs).Careful := by
    rintro A B i e ⟨y, x, z, exy, eyz, -, -, h1, h2, h3⟩
    have key : ∀ w, w = x ∨ w = z → (A.written fun j => j.contains w || j.contains y) = true → w ∈ vs := fun w hw h2 => by
      by_contra hn
      have : (A.written fun j => j.contains w || j.contains y) = A.written fun j => j.contains y := by
        refine SparseCalls.written_congr fun c hc => ?_
        obtain ⟨v, hv, e⟩ := clickCalls_mem vs c (by rw [e]; exact List.mem_append_left _ hc)
        have : c.1.contains w = false := by
          rw [e, Bool.eq_false_iff]
          intro k
          have : w ∈ (Interval.point v).pts := k
          rw [(Interval.point_real v).2] at this
          exact hn (this ▸ hv)
        rw [this, Bool.false_or]
      rw [this, h1] at h2
      exact Bool.false_ne_true h2
    refine h x y z exy eyz (key x (.inl rfl) h2) (key z (.inr rfl) ?_)
    simpa only [Bool.or_comm] using h3
  obtain ⟨s, e, -, -, k⟩ := Selection.clicks_run dbg (cs := []) (by simp) rfl _ hc
  exact ⟨s, e, k⟩

/-- 2, 5, 2, 5 and 9. -/
example : ∀ x y z : U8, succ x = some y → succ y = some z → x ∈ [u8 2, u8 5, u8 2, u8 5, u8 9] → z ∉ [u8 2, u8 5, u8 2, u8 5, u8 9] := by
  intro x y z e1 e2 hx
  simp only [List.mem_cons, List.not_mem_nil, or_false] at hx
  rcases hx with rfl | rfl | rfl | rfl | rfl
  all_goals
    first
    | rw [show succ (u8 2) = some (u8 3) by decide] at e1; cases e1
      rw [show succ (u8 3) = some (u8 4) by decide] at e2; cases e2; decide
    | rw [show succ (u8 5) = some (u8 6) by decide] at e1; cases e1
      rw [show succ (u8 6) = some (u8 7) by decide] at e2; cases e2; decide
    | rw [show succ (u8 9) = some (u8 10) by decide] at e1; cases e1
      rw [show succ (u8 10) = some (u8 11) by decide] at e2; cases e2; decide

end NI
