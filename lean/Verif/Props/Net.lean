import Verif.Props.Order
import Verif.Props.Steps
import Verif.SpecNet

/-! # Replicas that exchange their selections (C123) -/

namespace NI
open _root_.NI.Finite TT

section
variable {ρ : Type} [DecidableEq ρ] {α : Type} [LinearOrder α] [Finite α] [LawfulFinite α]

omit [Finite α] [LawfulFinite α] in
theorem ptsOf_union (K L : Set (Interval α)) : ptsOf (K ∪ L) = ptsOf K ∪ ptsOf L := by
  ext x
  constructor
  · rintro ⟨i, h | h, hx⟩
    exacts [.inl ⟨i, h, hx⟩, .inr ⟨i, h, hx⟩]
  · rintro (⟨i, h, hx⟩ | ⟨i, h, hx⟩)
    exacts [⟨i, .inl h, hx⟩, ⟨i, .inr h, hx⟩]

omit [Finite α] [LawfulFinite α] in
theorem ptsOf_one (i : Interval α) : ptsOf {i} = i.pts := by
  ext x; simp [ptsOf]

/-- A replica holds what it knows. -/
def Net.Holds (dbg : Bool) (x : Selection α × Selection α) (k : Set (Interval α) × Set (Interval α)) : Prop :=
  (x.1.UnionBuilt ∧ x.1.pts dbg = ptsOf k.1) ∧ x.2.UnionBuilt ∧ x.2.pts dbg = ptsOf k.2

omit [DecidableEq ρ] in
theorem Net.holds_union (dbg : Bool) {x : Selection α} {k : Set (Interval α)} (h : x.UnionBuilt ∧ x.pts dbg = ptsOf k)
    {i : Interval α} (hi : i.Obtainable) (hr : i.Real) :
    ∃ x', x.unionInPlace dbg i = .ok x' ∧ x'.UnionBuilt ∧ x'.pts dbg = ptsOf (k ∪ {i}) := by
  obtain ⟨x', e, -, p⟩ := C48_union_in_place dbg x h.1.reachable i hi
  exact ⟨x', e, .unionInPlace h.1 hi hr e, by rw [p, h.2, ptsOf_union, ptsOf_one]⟩

omit [DecidableEq ρ] in
theorem Net.holds_merge (dbg : Bool) {x y : Selection α} {k l : Set (Interval α)}
    (h : x.UnionBuilt ∧ x.pts dbg = ptsOf k) (h' : y.UnionBuilt ∧ y.pts dbg = ptsOf l) :
    ∃ x', x.union dbg y = .ok x' ∧ x'.UnionBuilt ∧ x'.pts dbg = ptsOf (k ∪ l) := by
  obtain ⟨x', e, -, p⟩ := Selection.union_right dbg x y h.1.reachable h'.1.reachable
  exact ⟨x', e, .union h.1 h'.1 e, by rw [p, h.2, h'.2, ptsOf_union]⟩

omit [LawfulFinite α] in
theorem Net.holds_set (dbg : Bool) {n : Net ρ (Selection α)} {k : Net ρ (Set (Interval α))}
    (h : ∀ r, Holds dbg (n.at_ r) (k.at_ r)) {r : ρ} {x y} (hx : Holds dbg x y) (q : ρ) :
    Holds dbg ((n.set r x).at_ q) ((k.set r y).at_ q) := by
  by_cases e : q = r
  · subst e; simpa [Net.set] using hx
  · simpa [Net.set, e] using h q

theorem Net.step_holds (dbg : Bool) {n : Net ρ (Selection α)} {k : Net ρ (Set (Interval α))}
    (h : ∀ r, Holds dbg (n.at_ r) (k.at_ r)) (hs : List.Forall₂ (Holds dbg) n.sent k.sent)
    {e : NetEvent ρ (Interval α)} (he : e.Legal) :
    ∃ n', n.step dbg e = .ok n' ∧ (∀ r, Holds dbg (n'.at_ r) ((k.knows e).at_ r)) ∧
      List.Forall₂ (Holds dbg) n'.sent (k.knows e).sent := by
  cases e with
  | add r i =>
    obtain ⟨x', e, u⟩ := holds_union dbg (h r).1 he.1 he.2
    exact ⟨n.set r (x', (n.at_ r).2), by simp only [step, e, bind, Except.bind], holds_set dbg h ⟨u, (h r).2⟩, hs⟩
  | remove r i =>
    obtain ⟨x', e, u⟩ := holds_union dbg (h r).2 he.1 he.2
    exact ⟨n.set r ((n.at_ r).1, x'), by simp only [step, e, bind, Except.bind], holds_set dbg h ⟨(h r).1, u⟩, hs⟩
  | send r =>
    exact ⟨_, rfl, h, List.rel_append hs (.cons (h r) .nil)⟩
  | deliver j r =>
    cases hm : n.sent[j]? with
    | none =>
      have : k.sent[j]? = none := by
        rw [List.getElem?_eq_none_iff] at hm ⊢
        rwa [← hs.length_eq]
      exact ⟨n, by simp only [step, hm], by simpa only [knows, this] using h, by simpa only [knows, this] using hs⟩
    | some m =>
      obtain ⟨hj, hm'⟩ := List.getElem?_eq_some_iff.1 hm
      have hj' : j < k.sent.length := hs.length_eq ▸ hj
      have hk : k.sent[j]? = some k.sent[j] := List.getElem?_eq_getElem hj'
      have hh : Holds dbg m k.sent[j] := hm' ▸ hs.get hj hj'
      obtain ⟨x', e1, u1⟩ := holds_merge dbg (h r).1 hh.1
      obtain ⟨y', e2, u2⟩ := holds_merge dbg (h r).2 hh.2
      refine ⟨n.set r (x', y'), by simp only [step, hm, e1, e2, bind, Except.bind], ?_, ?_⟩
      · simpa only [knows, hk] using holds_set dbg h (r := r) (x := (x', y')) (y := (_, _)) ⟨u1, u2⟩
      · simp only [knows, hk]; exact hs

/-- Two replicas, `false` and `true`; the first puts in 3 to 9 and the second takes out 5; both states are sent and
delivered, the first one twice. -/
def Net.demo : List (NetEvent Bool (Interval U8)) :=
  [.add false (.mkClosed (u8 3) (u8 9)), .send false, .remove true (.mkClosed (u8 5) (u8 5)), .deliver 0 true,
    .send true, .add false (.mkClosed (u8 8) (u8 9)), .deliver 0 true, .deliver 1 false]

theorem Net.demo_legal : ∀ e ∈ Net.demo, e.Legal := by
  intro e he
  simp only [demo, List.mem_cons, List.not_mem_nil, or_false] at he
  rcases he with rfl | rfl | rfl | rfl | rfl | rfl | rfl | rfl <;>
    first | trivial | exact ⟨.mkClosed _ _, Interval.closed_real (by decide)⟩

/-- Whatever happens, nothing panics and each replica holds exactly what it knows. -/
theorem C123_holds (dbg : Bool) (es : List (NetEvent ρ (Interval α))) (he : ∀ e ∈ es, e.Legal) :
    ∃ n, Net.run dbg es = .ok n ∧ ∀ r, (n.at_ r).1.UnionBuilt ∧ (n.at_ r).2.UnionBuilt ∧
      (n.at_ r).1.pts dbg = ptsOf ((Net.known es).at_ r).1 ∧ (n.at_ r).2.pts dbg = ptsOf ((Net.known es).at_ r).2 := by
  have go : ∀ (es : List (NetEvent ρ (Interval α))) (n : Net ρ (Selection α)) (k : Net ρ (Set (Interval α))),
      (∀ e ∈ es, e.Legal) → (∀ r, Net.Holds dbg (n.at_ r) (k.at_ r)) →
      List.Forall₂ (Net.Holds dbg) n.sent k.sent → ∃ n', es.foldlM (Net.step dbg) n = .ok n' ∧
        ∀ r, Net.Holds dbg (n'.at_ r) ((es.foldl Net.knows k).at_ r) := by
    intro es
    induction es with
    | nil => exact fun n k _ h _ => ⟨n, rfl, h⟩
    | cons e es ih =>
      intro n k he h hs
      obtain ⟨n1, e1, h1, s1⟩ := Net.step_holds dbg h hs (he e List.mem_cons_self)
      obtain ⟨n', e', h'⟩ := ih n1 (k.knows e) (fun e h => he e (List.mem_cons_of_mem _ h)) h1 s1
      exact ⟨n', by rw [List.foldlM_cons, e1]; exact e', h'⟩
  have e0 : (Selection.new : Selection α).pts dbg = ptsOf ∅ := by
    ext x
    constructor
    · intro h; cases h
    · rintro ⟨i, h, -⟩; cases h
  obtain ⟨n, e, h⟩ := go es ⟨fun _ => (.new, .new), []⟩ ⟨fun _ => (∅, ∅), []⟩ he
    (fun r => ⟨⟨.new, e0⟩, .new, e0⟩) .nil
  exact ⟨n, e, fun r => ⟨(h r).1.1, (h r).2.1, (h r).1.2, (h r).2.2⟩⟩

example : (∀ e ∈ Net.demo, e.Legal) ∧
    (Net.run true Net.demo).bind (fun n => (n.at_ true).1.intervals true) = .ok [.mkClosed (u8 3) (u8 9)] ∧
    (Net.run true Net.demo).bind (fun n => (n.at_ true).2.intervals true) = .ok [⟨.closed (u8 5) (u8 5)⟩] :=
  ⟨Net.demo_legal, by decide, by decide⟩

/-- Each replica shows what it knows to be put in and not to be taken out. -/
theorem C123_shown (dbg : Bool) (es : List (NetEvent ρ (Interval α))) (he : ∀ e ∈ es, e.Legal) :
    ∃ n, Net.run dbg es = .ok n ∧ ∀ r, ∃ s, Net.shown dbg (n.at_ r) = .ok s ∧
      s.pts dbg = ptsOf ((Net.known es).at_ r).1 \ ptsOf ((Net.known es).at_ r).2 := by
  obtain ⟨n, e, h⟩ := C123_holds dbg es he
  refine ⟨n, e, fun r => ?_⟩
  obtain ⟨u1, u2, p1, p2⟩ := h r
  obtain ⟨c, e1, r1, q1⟩ := Selection.complement_right dbg _ u1.reachable
  obtain ⟨d, e2, r2, q2⟩ := Selection.union_right dbg c _ r1 u2.reachable
  obtain ⟨s, e3, -, q3⟩ := Selection.complement_right dbg d r2
  refine ⟨s, by simp only [Net.shown, e1, e2, e3, bind, Except.bind], ?_⟩
  rw [q3, q2, q1, p1, p2, Set.compl_union, compl_compl]
  rfl

example : (∀ e ∈ Net.demo, e.Legal) ∧
    (Net.run true Net.demo).bind (fun n => do (← Net.shown true (n.at_ true)).intervals true) =
      .ok [.mkClosed (u8 3) (u8 4), .mkClosed (u8 6) (u8 9)] :=
  ⟨Net.demo_legal, by decide⟩

/-- Replicas that know the same points to be put in and taken out hold and show equal values, in one network or in
two, whatever the order in which they came to know them. -/
theorem C123_converge (dbg : Bool) (es es' : List (NetEvent ρ (Interval α))) (he : ∀ e ∈ es, e.Legal)
    (he' : ∀ e ∈ es', e.Legal) (r r' : ρ)
    (h1 : ptsOf ((Net.known es).at_ r).1 = ptsOf ((Net.known es').at_ r').1)
    (h2 : ptsOf ((Net.known es).at_ r).2 = ptsOf ((Net.known es').at_ r').2) :
    ∃ n n', Net.run dbg es = .ok n ∧ Net.run dbg es' = .ok n' ∧ n.at_ r = n'.at_ r' ∧
      Net.shown dbg (n.at_ r) = Net.shown dbg (n'.at_ r') := by
  obtain ⟨n, e, h⟩ := C123_holds dbg es he
  obtain ⟨n', e', h'⟩ := C123_holds dbg es' he'
  obtain ⟨u1, u2, p1, p2⟩ := h r
  obtain ⟨v1, v2, q1, q2⟩ := h' r'
  have k : n.at_ r = n'.at_ r' := Prod.ext
    ((C55_union_built_partial dbg _ _ u1 v1).2 (by rw [p1, q1, h1]))
    ((C55_union_built_partial dbg _ _ u2 v2).2 (by rw [p2, q2, h2]))
  exact ⟨n, n', e, e', k, by rw [k]⟩

end

example : (∀ e ∈ Net.demo, e.Legal) ∧
    (Net.run true Net.demo).bind (fun n => do (← Net.shown true (n.at_ false)).intervals true) =
      .ok [.mkClosed (u8 3) (u8 4), .mkClosed (u8 6) (u8 9)] ∧
    (Net.run true Net.demo).bind (fun n => do (← Net.shown true (n.at_ true)).intervals true) =
      .ok [.mkClosed (u8 3) (u8 4), .mkClosed (u8 6) (u8 9)] :=
  ⟨Net.demo_legal, by decide, by decide⟩

end NI
