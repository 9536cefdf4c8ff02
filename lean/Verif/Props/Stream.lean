import Verif.SpecStream
import Verif.Props.Heap
import Verif.Props.Agree

/-! # Putting a stream together from segments (C132) -/

namespace NI
open _root_.NI.Finite TT

section
variable {α : Type} [LinearOrder α]

theorem received_cons (R : Set α) (c : α × α) (cs : List (α × α)) :
    received R (c :: cs) = received (R ∪ Set.Icc c.1 c.2) cs := by
  ext x
  simp only [received, Set.mem_union, Set.mem_ofPred_eq, List.exists_mem_cons_iff]
  tauto

theorem received_nil (R : Set α) : received R [] = R := by simp [received]

theorem Ready.mono {R R' : Set α} (h : R ⊆ R') : Ready R ⊆ Ready R' := fun _ hx y hy => h (hx y hy)

/-- A receiver that does this passes on all that is ready, in ascending order and nothing twice. -/
theorem C132_in_order {R : Set α} {cs : List (α × α)} {os : List (Option (Interval α))} (h : StreamRun R cs os) :
    (os.filterMap id).Pairwise (fun i j => ∀ x ∈ i.pts, ∀ y ∈ j.pts, x < y) ∧
    ∀ x, x ∈ Ready (received R cs) ↔ x ∈ Ready R ∨ ∃ i ∈ os.filterMap id, x ∈ i.pts := by
  have key : ∀ {R : Set α} {cs : List (α × α)} {os : List (Option (Interval α))}, StreamRun R cs os →
      ∀ i ∈ os.filterMap id, ∀ x ∈ i.pts, x ∉ Ready R := by
    intro R cs os h
    induction h with
    | nil => simp
    | wait e _ ih => intro i hi x hx; rw [← e]; exact ih i (by simpa using hi) x hx
    | @pass R a b j cs os _ e _ ih =>
      intro i hi x hx
      rcases List.mem_cons.1 (show i ∈ j :: os.filterMap id from hi) with rfl | hi
      · rw [e] at hx; exact hx.2
      · exact fun h => ih i hi x hx (Ready.mono Set.subset_union_left h)
  induction h with
  | nil R => simp [received_nil]
  | wait e _ ih => rw [received_cons]; exact ⟨by simpa using ih.1, fun x => by rw [ih.2, e]; simp⟩
  | @pass R a b i cs os _ e h ih =>
    rw [received_cons]
    refine ⟨List.pairwise_cons.2 ⟨fun j hj x hx y hy => ?_, ih.1⟩, fun x => ?_⟩
    · rw [e] at hx
      by_contra hxy
      exact key h j hj y hy fun z hz => hx.1 z (hz.trans (not_lt.1 hxy))
    · rw [ih.2]
      change _ ↔ _ ∨ ∃ j ∈ i :: os.filterMap id, x ∈ j.pts
      rw [List.exists_mem_cons_iff, e]
      have := @Ready.mono _ _ R (R ∪ Set.Icc a b) Set.subset_union_left x
      simp only [Set.mem_sdiff]
      tauto

/-- 2 to 3, then 0 to 1: all four are passed on with the second segment. -/
example : StreamRun (∅ : Set U8) [(u8 2, u8 3), (u8 0, u8 1)] [none, some (.mkClosed (u8 0) (u8 3))] := by
  have h0 : Ready (∅ : Set U8) = ∅ := Set.eq_empty_of_forall_notMem fun x h => h x le_rfl
  have h1 : Ready (∅ ∪ Set.Icc (u8 2) (u8 3)) = ∅ := Set.eq_empty_of_forall_notMem fun x h => by
    have : (u8 0) ∈ ∅ ∪ Set.Icc (u8 2) (u8 3) := h (u8 0) x.2.1
    rw [Set.empty_union] at this
    exact absurd this.1 (by decide)
  refine .wait (h1.trans h0.symm) (.pass ⟨u8 0, by rw [Interval.closed_pts]; exact ⟨le_rfl, by decide⟩⟩ ?_ (.nil _))
  rw [h1, Set.sdiff_empty, Interval.closed_pts]
  ext x
  constructor
  · intro hx y hy
    have h3 : x.1 ≤ 3 := hx.2
    have h4 : y.1 ≤ x.1 := hy
    by_cases h : y.1 ≤ 1
    · exact .inr ⟨y.2.1, h⟩
    · exact .inl (.inr ⟨by change 2 ≤ y.1; omega, by change y.1 ≤ 3; omega⟩)
  · intro hx
    rcases hx x le_rfl with (h | h) | h
    · exact h.elim
    · exact ⟨x.2.1, h.2⟩
    · exact ⟨x.2.1, h.2.trans (by decide)⟩
end

section
variable {α : Type} [LinearOrder α] [Finite α] [LawfulFinite α]

theorem Interval.segment_real (l u : α) : (Interval.mkClosed l u).Real := by
  rcases le_or_gt l u with h | h
  · exact Interval.closed_real h
  · refine .inl ?_
    rw [Interval.mkClosed, RawInterval.mkClosed, if_neg (not_lt.2 h.le), if_neg (ne_of_gt h)]; rfl

theorem Selection.put_segment (dbg : Bool) (s : Selection α) (l u : α) (hs : s.Edited) :
    ∃ s', s.unionInPlace dbg (.mkClosed l u) = .ok s' ∧ s'.Edited ∧ s'.pts dbg = s.pts dbg ∪ Set.Icc l u := by
  obtain ⟨s1, e1, -, p1⟩ := C48_union_in_place dbg s hs.reachable_crisp.1 (.mkClosed l u) (.mkClosed l u)
  exact ⟨s1, e1, .unionInPlace hs (.mkClosed l u) (Interval.segment_real l u) e1, by rw [p1, Interval.closed_pts]⟩

/-- What has been passed on if this is next. -/
def Done : Option α → Set α
  | none => Set.univ
  | some n => Set.Iio n

omit [Finite α] [LawfulFinite α] in
theorem Ready.wait {R : Set α} {n : α} (h1 : ∀ y < n, y ∈ R) (h2 : n ∉ R) : Ready R = Done (some n) := by
  ext x
  constructor
  · intro h
    by_contra hx
    exact h2 (h n (not_lt.1 hx))
  · exact fun h y hy => h1 y (lt_of_le_of_lt hy h)

omit [Finite α] [LawfulFinite α] in
theorem Ready.eq {R : Set α} {n : α} (h : Ready R = Done (some n)) : (∀ y < n, y ∈ R) ∧ n ∉ R := by
  have h1 : ∀ y < n, y ∈ R := fun y hy => (show y ∈ Ready R from h ▸ hy) y le_rfl
  refine ⟨h1, fun hn => ?_⟩
  have : n ∈ Ready R := fun y hy => hy.lt_or_eq.elim (h1 y) fun e => e ▸ hn
  rw [h] at this
  exact lt_irrefl _ this

theorem Ready.next {R : Set α} {n u : α} (h1 : ∀ y < n, y ∈ R) (h2 : Set.Icc n u ⊆ R)
    (h3 : ∀ q, succ u = some q → q ∉ R) : Ready R = Done (succ u) := by
  have h4 : ∀ y ≤ u, y ∈ R := fun y hy => (lt_or_ge y n).elim (h1 y) fun h => h2 ⟨h, hy⟩
  cases hq : succ u with
  | none =>
    have := (LawfulFinite.succ_none u).1 hq
    exact Set.eq_univ_of_forall fun x y _ => h4 y (this ▸ LawfulFinite.le_max y)
  | some q =>
    refine Ready.wait (fun y hy => h4 y ?_) (h3 q hq)
    by_contra hc
    exact absurd ((LawfulFinite.succ_some u q hq).2 y (not_le.1 hc)) (not_le.2 hy)

theorem Done.succ {l u : α} (hu : l ≤ u) : Done (Finite.succ u) = Set.Iio l ∪ Set.Icc l u := by
  ext x
  cases h : Finite.succ u with
  | none =>
    have := (LawfulFinite.succ_none u).1 h
    have hx := this ▸ LawfulFinite.le_max x
    simp only [Done, Set.mem_univ, Set.mem_union, Set.mem_Iio, Set.mem_Icc, hx, and_true, true_iff]
    exact lt_or_ge x l
  | some q =>
    obtain ⟨g1, g2⟩ := LawfulFinite.succ_some u q h
    simp only [Done, Set.mem_union, Set.mem_Iio, Set.mem_Icc]
    constructor
    · intro hx
      refine (lt_or_ge x l).imp_right fun h => ⟨h, ?_⟩
      by_contra hc
      exact absurd (g2 x (not_le.1 hc)) (not_le.2 hx)
    · rintro (h | h)
      · exact h.trans (lt_of_le_of_lt hu g1)
      · exact lt_of_le_of_lt h.2 g1

/-- The first interval a selection lists, if nothing is missing between its first value and `n`. -/
theorem Selection.head_run (dbg : Bool) (s : Selection α) (hs : s.Edited) (n : α)
    (hn : n ∈ s.pts dbg → ∀ x ∈ s.pts dbg, ∀ y, x ≤ y → y ≤ n → y ∈ s.pts dbg) :
    ∃ is, s.intervals dbg = .ok is ∧
      (n ∉ s.pts dbg → ∀ i js, is = i :: js → i.contains n = false) ∧
      (n ∈ s.pts dbg → ∃ i js l u, is = i :: js ∧ i.Obtainable ∧ i.Real ∧ i.pts = Set.Icc l u ∧ l ≤ n ∧ n ≤ u ∧
        i.supremum = some u ∧ Set.Icc l u ⊆ s.pts dbg ∧ ∀ q, succ u = some q → q ∉ s.pts dbg) := by
  obtain ⟨is, e, ho, m1, m2, m3⟩ := C120_runs dbg s hs
  refine ⟨is, e, ?_, fun h => ?_⟩
  · rintro h i js rfl
    rw [← Bool.not_eq_true]
    exact fun hc => h ((m3 n).2 ⟨i.pts, by simp, hc⟩)
  · obtain ⟨r, hr, hnr⟩ := (m3 n).1 h
    cases is with
    | nil => simp at hr
    | cons i js =>
      obtain ⟨l, u, hlu, ei, -, hu⟩ := m1 i.pts (by simp)
      have hrl : i.Real := .inr ⟨l, (Set.ext_iff.1 ei l).2 ⟨le_rfl, hlu⟩⟩
      obtain ⟨-, x2, -, -⟩ := C31_extrema_partial i (ho i (by simp)).1 hrl
      have e2 : i.supremum = some u := (x2 u).2 (ei ▸ ⟨⟨hlu, le_rfl⟩, fun x hx => hx.2⟩)
      have hsub : Set.Icc l u ⊆ s.pts dbg := fun x hx => (m3 x).2 ⟨i.pts, by simp, ei ▸ hx⟩
      have hni : n ∈ i.pts := by
        rw [List.map_cons, List.mem_cons] at hr
        rcases hr with rfl | hr
        · exact hnr
        · exfalso
          rw [List.map_cons, List.pairwise_cons] at m2
          have hun : u < n := m2.1 r hr u (ei ▸ ⟨hlu, le_rfl⟩) n hnr
          cases hq : succ u with
          | none => exact absurd (LawfulFinite.le_max n) (not_le.2 ((LawfulFinite.succ_none u).1 hq ▸ hun))
          | some q =>
            obtain ⟨g1, g2⟩ := LawfulFinite.succ_some u q hq
            exact hu q hq (hn h u (hsub ⟨hlu, le_rfl⟩) q g1.le (g2 n hun))
      rw [ei] at hni
      exact ⟨i, js, l, u, rfl, (ho i (by simp)).1, hrl, ei, hni.1, hni.2, e2, hsub, hu⟩

/-- The receiver is right if taking out is. -/
theorem Selection.reassemble_right (dbg : Bool) (takeOut : Selection α → Interval α → Except Panic (Selection α))
    (Q : Set α → Prop)
    (ht : ∀ (R : Set α) (p : Selection α) (i : Interval α) (n u : α), Q R → p.Edited → i.Obtainable → i.Real →
      i.pts = Set.Icc n u → n ≤ u → p.pts dbg = R \ Set.Iio n → (∀ y < n, y ∈ R) → Set.Icc n u ⊆ R →
      ∃ p', takeOut p i = .ok p' ∧ p'.Edited ∧ p'.pts dbg = p.pts dbg \ i.pts)
    (cs : List (α × α)) (R : Set α) (hQ : ∀ k, Q (received R (cs.take k))) (p : Selection α) (hp : p.Edited)
    (n : Option α) (hn : Ready R = Done n) (hpR : p.pts dbg = R \ Done n) :
    ∃ os, p.reassemble takeOut dbg n cs = .ok os ∧ StreamRun R cs os := by
  induction cs generalizing R p n with
  | nil => exact ⟨[], rfl, .nil R⟩
  | cons c cs ih =>
    obtain ⟨a, b⟩ := c
    have hQ' : ∀ k, Q (received (R ∪ Set.Icc a b) (cs.take k)) := fun k => by
      have := hQ (k + 1)
      rwa [List.take_succ_cons, received_cons] at this
    cases n with
    | none =>
      have hu : Ready R = Set.univ := hn
      have hR : ∀ x, x ∈ R := fun x => (show x ∈ Ready R from hu ▸ trivial) x le_rfl
      have hR' : R ∪ Set.Icc a b = R := by ext x; simp [hR x]
      obtain ⟨os, e, r⟩ := ih (R ∪ Set.Icc a b) hQ' p hp none (hR'.symm ▸ hn) (hR'.symm ▸ hpR)
      refine ⟨none :: os, by simp only [Selection.reassemble, e, bind, Except.bind]; rfl, .wait (by rw [hR']) r⟩
    | some n =>
      obtain ⟨p1, e1, k1, q1⟩ := p.put_segment dbg (max a n) b hp
      have hlt := (Ready.eq hn).1
      have q1 : p1.pts dbg = (R ∪ Set.Icc a b) \ Set.Iio n := by
        rw [q1, hpR]
        ext x
        simp only [Done, Set.mem_union, Set.mem_sdiff, Set.mem_Iio, Set.mem_Icc, max_le_iff, not_lt]
        tauto
      have hlt' : ∀ y < n, y ∈ R ∪ Set.Icc a b := fun y hy => .inl (hlt y hy)
      obtain ⟨is, e2, f1, f2⟩ := p1.head_run dbg k1 n fun h x hx y hxy hyn => by
        rw [q1] at hx
        have : n ≤ x := not_lt.1 hx.2
        have : y = n := le_antisymm hyn (this.trans hxy)
        rwa [this]
      by_cases hm : n ∈ p1.pts dbg
      · obtain ⟨i, js, l, u, rfl, ho, hrl, ei, hl, hu, e3, hsub, hq⟩ := f2 hm
        have hln : l = n := by
          refine le_antisymm hl ?_
          have := hsub ⟨le_rfl, hl.trans hu⟩
          rw [q1] at this
          exact not_lt.1 this.2
        subst hln
        have hsub' : Set.Icc l u ⊆ R ∪ Set.Icc a b := fun x hx => by
          have := hsub hx; rw [q1] at this; exact this.1
        have hq' : ∀ q, succ u = some q → q ∉ R ∪ Set.Icc a b := fun q h hc => by
          refine hq q h ?_
          rw [q1]
          exact ⟨hc, not_lt.2 (hu.trans (LawfulFinite.succ_some u q h).1.le)⟩
        have hr := Ready.next hlt' hsub' hq'
        have hQ0 : Q (R ∪ Set.Icc a b) := by have := hQ' 0; rwa [List.take_zero, received_nil] at this
        obtain ⟨p2, e4, k4, q4⟩ := ht (R ∪ Set.Icc a b) p1 i l u hQ0 k1 ho hrl ei hu q1 hlt' hsub'
        have hd : Done (succ u) = Set.Iio l ∪ Set.Icc l u := Done.succ hu
        obtain ⟨os, e, r⟩ := ih _ hQ' p2 k4 (succ u) hr (by rw [q4, q1, ei, hd, Set.sdiff_sdiff])
        refine ⟨some i :: os, ?_, .pass ⟨l, ei ▸ ⟨le_rfl, hu⟩⟩ ?_ r⟩
        · have hc : i.contains l = true := show l ∈ i.pts from ei ▸ ⟨le_rfl, hu⟩
          simp only [Selection.reassemble, e1, e2, e3, e4, hc, if_true, Option.bind_some, e, bind, Except.bind]; rfl
        · rw [hr, hn, hd, ei, Done]
          ext x
          simp only [Set.mem_sdiff, Set.mem_union, Set.mem_Iio, Set.mem_Icc, not_lt]
          constructor
          · exact fun h => ⟨.inr h, h.1⟩
          · rintro ⟨h | h, h'⟩
            · exact absurd h (not_lt.2 h')
            · exact h
      · have hm' : n ∉ R ∪ Set.Icc a b := fun h => hm (by rw [q1]; exact ⟨h, lt_irrefl _⟩)
        have hr := Ready.wait hlt' hm'
        obtain ⟨os, e, r⟩ := ih _ hQ' p1 k1 (some n) hr q1
        refine ⟨none :: os, ?_, .wait (by rw [hr, hn]) r⟩
        cases is with
        | nil => simp only [Selection.reassemble, e1, e2, e, bind, Except.bind]; rfl
        | cons i js =>
          simp only [Selection.reassemble, e1, e2, f1 hm i js rfl, e, bind, Except.bind]; rfl

theorem Ready.start : Ready (∅ : Set α) = Done (some minimum) :=
  Ready.wait (fun y hy => absurd (LawfulFinite.min_le y) (not_le.2 hy)) id

/-- The receiver that takes out by complement and union is right, whatever the segments. -/
theorem C132_by_complement (dbg : Bool) (cs : List (α × α)) :
    ∃ os, (Selection.new : Selection α).reassemble (Selection.outByComplement dbg) dbg (some minimum) cs = .ok os ∧
      StreamRun ∅ cs os := by
  refine Selection.reassemble_right dbg _ (fun _ => True) ?_ cs ∅ (fun _ => trivial) .new (.built .new) _ Ready.start ?_
  · intro R p i n u _ hp ho hr ei _ _ _ _
    obtain ⟨c, e1, r1, p1⟩ := Selection.complement_right dbg p hp.reachable_crisp.1
    obtain ⟨d, e2, -, p2⟩ := C48_union_in_place dbg c r1 i ho
    have k2 : d.Edited := .unionInPlace (.complement hp e1) ho hr e2
    obtain ⟨s', e3, r3, p3⟩ := Selection.complement_right dbg d k2.reachable_crisp.1
    refine ⟨s', by simp only [Selection.outByComplement, e1, e2, e3, bind, Except.bind], .complement k2 e3, ?_⟩
    rw [p3, p2, p1, Set.compl_union, compl_compl]; rfl
  · rw [(C48_start dbg _ (.mkClosed minimum minimum)).1, Set.empty_sdiff]

/-- The segments that go wrong below. -/
example : (Selection.new : Selection U8).reassemble (Selection.outByComplement true) true (some (u8 0))
    [(u8 3, u8 4), (u8 0, u8 1), (u8 5, u8 6), (u8 2, u8 2), (u8 6, u8 7)] =
    .ok [none, some (.mkClosed (u8 0) (u8 1)), none, some (.mkClosed (u8 2) (u8 6)), some ⟨.closed (u8 7) (u8 7)⟩] := by
  decide

/-- The receiver that takes out by `minus_in_place` passes on what it has not received: 2, when 3 to 4 and 0 to 1 have
come. -/
theorem C132_counterexample (dbg : Bool) :
    (Selection.new : Selection U8).reassemble (Selection.outInPlace dbg) dbg (some minimum)
      [(u8 3, u8 4), (u8 0, u8 1), (u8 5, u8 6), (u8 2, u8 2), (u8 6, u8 7)] =
      .ok [none, some (.mkClosed (u8 0) (u8 1)), some (.mkClosed (u8 2) (u8 6)), none, some ⟨.closed (u8 7) (u8 7)⟩] := by
  cases dbg <;> decide

/-- It is right if what it waits for next is never missing alone. -/
theorem C132_in_place (dbg : Bool) (cs : List (α × α))
    (h : ∀ k x, (∀ y < x, y ∈ received ∅ (cs.take k)) → ¬ MissingAlone (received ∅ (cs.take k)) x) :
    ∃ os, (Selection.new : Selection α).reassemble (Selection.outInPlace dbg) dbg (some minimum) cs = .ok os ∧
      StreamRun ∅ cs os := by
  refine Selection.reassemble_right dbg _ (fun R => ∀ x, (∀ y < x, y ∈ R) → ¬ MissingAlone R x) ?_ cs ∅ h .new
    (.built .new) _ Ready.start ?_
  · intro R p i n u hR hp ho hr ei hnu hpR hlt hsub
    obtain ⟨p', e, q⟩ := (C50_exact_any dbg p hp.reachable_crisp.1 i ho).2 fun x hx => by
      have hm := Selection.edited_pinhole dbg hp hx
      obtain ⟨h0, ⟨a, ha, ea⟩, b, hb, eb⟩ := hm
      rw [hpR] at h0 ha hb
      have hax := (LawfulFinite.pred_some x a ea).1
      have hnx : n ≤ x := (not_lt.1 ha.2).trans hax.le
      have hxR : x ∉ R := fun h => h0 ⟨h, not_lt.2 hnx⟩
      have hux : u < x := by
        by_contra hc
        exact hxR (hsub ⟨hnx, not_lt.1 hc⟩)
      have hni : n ∈ i.pts := ei ▸ ⟨le_rfl, hnu⟩
      rcases Interval.single' ho hr with rfl | ⟨l', u', -, b3, -, -, -, b1, b2⟩
      · exact absurd hni (by simp [Interval.pts, Interval.contains, RawInterval.contains])
      rw [ei] at b3
      obtain ⟨rfl, rfl⟩ := (Set.Icc_eq_Icc_iff hnu).1 b3
      rw [b1, b2]
      constructor
      · rintro l h hl
        cases h
        exact absurd (LawfulFinite.pred_some _ _ hl).1 (not_lt.2 hnx)
      · rintro v h hv
        cases h
        refine hR x (fun y hy => ?_) ⟨hxR, ⟨a, ha.1, ea⟩, b, hb.1, eb⟩
        have hyu : y ≤ u := by
          by_contra hc
          exact absurd ((LawfulFinite.succ_some _ _ hv).2 y (not_le.1 hc)) (not_le.2 hy)
        exact (lt_or_ge y n).elim (hlt y) fun h => hsub ⟨h, hyu⟩
    exact ⟨p', e, .minusInPlace hp ho hr e, q⟩
  · rw [(C48_start dbg _ (.mkClosed minimum minimum)).1, Set.empty_sdiff]

/-- What is missing next is two values or nothing. -/
example : ∃ cs : List (U8 × U8), cs = [(u8 4, u8 5), (u8 0, u8 1), (u8 1, u8 3)] ∧
    (∀ k x, (∀ y < x, y ∈ received ∅ (cs.take k)) → ¬ MissingAlone (received ∅ (cs.take k)) x) ∧
    (Selection.new : Selection U8).reassemble (Selection.outInPlace true) true (some minimum) cs =
      .ok [none, some (.mkClosed (u8 0) (u8 1)), some (.mkClosed (u8 2) (u8 5))] := by
  refine ⟨_, rfl, fun k x h hm => ?_, by decide⟩
  obtain ⟨h0, ⟨a, ha, ea⟩, b, hb, eb⟩ := hm
  have h1 := (LawfulFinite.pred_some x a ea).1
  obtain ⟨h2, h3⟩ := LawfulFinite.succ_some x b eb
  have h1 : a.1 < x.1 := h1
  have h2 : x.1 < b.1 := h2
  have h3 : b.1 ≤ x.1 + 1 := h3 ⟨x.1 + 1, by have := x.2.1; omega, by have := b.2.2; omega⟩ (by change x.1 < x.1 + 1; omega)
  have mem : ∀ (y : U8) (k : Nat), y ∈ received ∅ ([(u8 4, u8 5), (u8 0, u8 1), (u8 1, u8 3)].take k) ↔
      (1 ≤ k ∧ 4 ≤ y.1 ∧ y.1 ≤ 5) ∨ (2 ≤ k ∧ y.1 ≤ 1) ∨ (3 ≤ k ∧ 1 ≤ y.1 ∧ y.1 ≤ 3) := by
    intro y k
    have y0 := y.2.1
    have c : ∀ m n : U8, y ∈ Set.Icc m n ↔ m.1 ≤ y.1 ∧ y.1 ≤ n.1 := fun _ _ => Iff.rfl
    rcases k with _ | _ | _ | k <;> simp [received, c, u8, -Set.mem_Icc] <;> omega
  have h4 := fun y hy => (mem y k).1 (h y hy)
  rw [mem] at h0 ha hb
  have h5 := fun hy => h4 (u8 3) hy
  have h5 : 3 < x.1 → _ := h5
  have h6 := fun hy => h4 (u8 2) hy
  have h6 : 2 < x.1 → _ := h6
  simp only [u8] at h5 h6
  omega

/-- The receiver that keeps all it has received is right, whatever the segments. -/
theorem C132_all (dbg : Bool) (cs : List (α × α)) :
    ∃ os, (Selection.new : Selection α).reassembleAll dbg (some minimum) cs = .ok os ∧ StreamRun ∅ cs os := by
  have all : ∀ (cs : List (α × α)) (R : Set α) (s : Selection α) (n : Option α), s.Edited → Ready R = Done n →
      (n.isSome → s.pts dbg = R) → ∃ os, s.reassembleAll dbg n cs = .ok os ∧ StreamRun R cs os := by
    intro cs
    induction cs with
    | nil => exact fun R s n _ _ _ => ⟨[], rfl, .nil R⟩
    | cons c cs ih =>
      obtain ⟨a, b⟩ := c
      intro R s n hs hn hsR
      cases n with
      | none =>
        have hu : Ready R = Set.univ := hn
        have hR : ∀ x, x ∈ R := fun x => (show x ∈ Ready R from hu ▸ trivial) x le_rfl
        have hR' : R ∪ Set.Icc a b = R := by ext x; simp [hR x]
        obtain ⟨os, e, r⟩ := ih (R ∪ Set.Icc a b) s none hs (hR'.symm ▸ hn) (by simp)
        exact ⟨none :: os, by simp only [Selection.reassembleAll, e, bind, Except.bind]; rfl, .wait (by rw [hR']) r⟩
      | some n =>
        obtain ⟨s1, e1, k1, q1⟩ := s.put_segment dbg a b hs
        rw [hsR rfl] at q1
        have hlt : ∀ y < n, y ∈ R ∪ Set.Icc a b := fun y hy => .inl ((Ready.eq hn).1 y hy)
        obtain ⟨is, e2, f1, f2⟩ := s1.head_run dbg k1 n fun h x hx y hxy hyn => by
          rw [q1] at h ⊢
          exact hyn.lt_or_eq.elim (hlt y) fun e => e ▸ h
        rw [q1] at f1 f2
        by_cases hm : n ∈ R ∪ Set.Icc a b
        · obtain ⟨i, js, l, u, rfl, ho, hrl, ei, hl, hu, e3, hsub, hq⟩ := f2 hm
          have hr := Ready.next hlt (fun x hx => hsub ⟨hl.trans hx.1, hx.2⟩) hq
          obtain ⟨os, e, r⟩ := ih _ s1 (succ u) k1 hr fun _ => q1
          refine ⟨some (.mkClosed n u) :: os, ?_, .pass ⟨n, by rw [Interval.closed_pts]; exact ⟨le_rfl, hu⟩⟩ ?_ r⟩
          · have hc : i.contains n = true := show n ∈ i.pts from ei ▸ ⟨hl, hu⟩
            simp only [Selection.reassembleAll, e1, e2, e3, hc, if_true, e, bind, Except.bind]; rfl
          · rw [hr, hn, Done.succ hu, Interval.closed_pts, Done]
            ext x
            simp only [Set.mem_sdiff, Set.mem_union, Set.mem_Iio, Set.mem_Icc, not_lt]
            constructor
            · exact fun h => ⟨.inr h, h.1⟩
            · rintro ⟨h | h, h'⟩
              · exact absurd h (not_lt.2 h')
              · exact h
        · have hr := Ready.wait hlt hm
          obtain ⟨os, e, r⟩ := ih _ s1 (some n) k1 hr fun _ => q1
          refine ⟨none :: os, ?_, .wait (by rw [hr, hn]) r⟩
          cases is with
          | nil => simp only [Selection.reassembleAll, e1, e2, e, bind, Except.bind]; rfl
          | cons i js =>
            cases h : i.supremum <;>
              simp only [Selection.reassembleAll, e1, e2, h, f1 hm i js rfl, e, bind, Except.bind] <;> rfl
  exact all cs ∅ .new _ (.built .new) Ready.start fun _ => (C48_start dbg _ (.mkClosed minimum minimum)).1

/-- Segments that overlap and come twice. -/
example : (Selection.new : Selection U8).reassembleAll true (some minimum)
    [(u8 3, u8 4), (u8 0, u8 1), (u8 0, u8 1), (u8 1, u8 3), (u8 5, u8 255), (u8 7, u8 9)] =
    .ok [none, some (.mkClosed (u8 0) (u8 1)), none, some (.mkClosed (u8 2) (u8 4)), some (.mkClosed (u8 5) (u8 255)),
      none] := by
  decide
end

end NI
