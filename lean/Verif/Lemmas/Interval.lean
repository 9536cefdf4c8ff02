import Verif.Props.Raw
import Verif.Props.Normalize

/-! # Lemmas on `Interval` -/

set_option linter.unusedSimpArgs false
set_option linter.unusedVariables false
set_option linter.unnecessarySeqFocus false
set_option linter.unusedSectionVars false

namespace NI
open Finite

namespace Interval
variable {α : Type _} [LinearOrder α]

theorem pts_eq (i : Interval α) : i.pts = i.raw.pts := by
  ext x; exact RawInterval.contains_iff _ _

theorem real_mk_empty : (⟨.empty⟩ : Interval α).Real := .inl rfl
theorem real_mk_point (p : α) : (⟨.point p⟩ : Interval α).Real :=
  .inr ⟨p, by simp [contains, RawInterval.contains]⟩

theorem real_mk_closed {l u : α} : (⟨.closed l u⟩ : Interval α).Real ↔ l ≤ u := by
  constructor
  · rintro (h | ⟨x, h⟩)
    · simp [isEmpty] at h
    · simp [contains, RawInterval.contains] at h; exact le_trans h.1 h.2
  · intro h
    exact .inr ⟨l, by simp [contains, RawInterval.contains, h]⟩

variable [Finite α] [LawfulFinite α]

theorem real_cases {i : Interval α} (h : i.Obtainable) (hr : i.Real) :
    i = ⟨.empty⟩ ∨ (∃ p, i = ⟨.point p⟩) ∨ (∃ l u, i = ⟨.closed l u⟩ ∧ l ≤ u) := by
  rcases obtainable_cases h with rfl | ⟨p, rfl⟩ | ⟨l, u, rfl, _⟩
  · exact .inl rfl
  · exact .inr (.inl ⟨p, rfl⟩)
  · exact .inr (.inr ⟨l, u, rfl, real_mk_closed.1 hr⟩)

/-- Normalization is `Real` unless it comes from the open interval between two neighbours. -/
theorem real_normalized {r : RawInterval α} (h : r.WF) (ho : ∀ a b, r ≠ .opn a b) :
    (⟨r.normalized⟩ : Interval α).Real := by
  cases r <;> simp only [RawInterval.normalized]
  case empty => exact real_mk_empty
  case point p => exact real_mk_point p
  case opn a b => exact absurd rfl (ho a b)
  case leftOpen l r =>
    cases h1 : succ l
    · exact real_mk_empty
    · simp only [Option.elim]; rw [real_mk_closed, succ_le_iff h1]; exact h
  case rightOpen l r =>
    cases h1 : pred r
    · exact real_mk_empty
    · simp only [Option.elim]; rw [real_mk_closed, le_pred_iff h1]; exact h
  case closed l r => rw [real_mk_closed]; exact le_of_lt h
  case upTo r =>
    cases h1 : pred r
    · exact real_mk_empty
    · simp only [Option.elim]; rw [real_mk_closed]; exact minimum_le _
  case upFrom r =>
    cases h1 : succ r
    · exact real_mk_empty
    · simp only [Option.elim]; rw [real_mk_closed]; exact le_maximum _
  case «to» p => rw [real_mk_closed]; exact minimum_le _
  case frm p => rw [real_mk_closed]; exact le_maximum _
  case full => rw [real_mk_closed]; exact le_maximum _

omit [Finite α] [LawfulFinite α] in
/-- An intersection of which one lower bound and one upper bound may be exclusive is open only if
both are. -/
theorem intersect_opn {a b : RawInterval α} {l u : α} (h : a.intersect b = .opn l u) :
    (a.lowerBound = some (.excl l) ∨ b.lowerBound = some (.excl l)) ∧
    (a.upperBound = some (.excl u) ∨ b.upperBound = some (.excl u)) := by
  rcases a.bounds_cases with ⟨rfl, _⟩ | ⟨la, ua, h1, h2, _⟩
  · simp [RawInterval.intersect_empty_left] at h
  rcases b.bounds_cases with ⟨rfl, _⟩ | ⟨lb, ub, h3, h4, _⟩
  · simp [RawInterval.intersect_empty_right] at h
  rw [RawInterval.intersect_of_bounds h1 h2 h3 h4] at h
  split_ifs at h with hc
  obtain ⟨k1, k2, _⟩ := RawInterval.new_of_compat hc
  rw [h] at k1 k2
  simp only [RawInterval.lowerBound, RawInterval.upperBound, Option.some.injEq] at k1 k2
  rw [h1, h2, h3, h4]
  obtain ⟨_, _, s3, s4⟩ := C01_selects la lb
  obtain ⟨_, _, s5, s6⟩ := C01_selects ua ub
  constructor
  · rcases s4 with e | e <;> rw [e] at k1 <;> simp [k1]
  · rcases s5 with e | e <;> rw [e] at k2 <;> simp [k2]

theorem nf_bounds {i : RawInterval α} (h : i.NF) (b : α) :
    i.lowerBound ≠ some (.excl b) ∧ i.upperBound ≠ some (.excl b) := by
  cases i <;> simp_all [RawInterval.NF, RawInterval.lowerBound, RawInterval.upperBound]

theorem real_intersect {a b : Interval α} (ha : a.Obtainable) (hb : b.Obtainable) :
    (a.intersect b).Real := by
  simp only [intersect, ofRaw, RawInterval.normalized_idem]
  refine real_normalized (RawInterval.intersect_wf _ _) ?_
  intro l u h
  rcases (intersect_opn h).1 with h | h
  · exact (nf_bounds (obtainable_nf ha) l).1 h
  · exact (nf_bounds (obtainable_nf hb) l).1 h

omit [Finite α] [LawfulFinite α] in
theorem complement_bounds {b k : RawInterval α} (hk : k ∈ b.complement) :
    k.lowerBound = some .inf ∨ k.upperBound = some .inf := by
  cases b <;> simp [RawInterval.complement] at hk <;> (try rcases hk with rfl | rfl) <;>
    simp_all [RawInterval.lowerBound, RawInterval.upperBound]

theorem real_minus {a b c : Interval α} (ha : a.Obtainable) (hc : c ∈ a.minus b) : c.Real := by
  simp only [minus, List.mem_map] at hc
  obtain ⟨r, hr, rfl⟩ := hc
  simp only [RawInterval.minus, List.mem_filter, List.mem_map] at hr
  obtain ⟨⟨k, hk, rfl⟩, _⟩ := hr
  refine real_normalized (RawInterval.intersect_wf _ _) ?_
  intro l u h
  obtain ⟨k1, k2⟩ := intersect_opn h
  have n1 := nf_bounds (obtainable_nf ha) l
  have n2 := nf_bounds (obtainable_nf ha) u
  rcases complement_bounds hk with e | e <;> simp_all

theorem real_complement {a c : Interval α} (hc : c ∈ a.complement) : c.Real := by
  simp only [complement, List.mem_map] at hc
  obtain ⟨r, hr, rfl⟩ := hc
  refine real_normalized (RawInterval.complement_wf _ _ hr) ?_
  rintro l u rfl
  rcases complement_bounds hr with e | e <;> simp [RawInterval.lowerBound, RawInterval.upperBound] at e

/-! ### Points of the operations -/

theorem pts_intersect (a b : Interval α) : (a.intersect b).pts = a.pts ∩ b.pts := by
  rw [pts_eq, pts_eq, pts_eq]
  simp only [intersect, ofRaw, RawInterval.normalized_idem]
  rw [RawInterval.normalized_pts, C03_intersect]

theorem mem_minus (a b : Interval α) (x : α) :
    (∃ c ∈ a.minus b, x ∈ c.pts) ↔ x ∈ a.pts ∧ x ∉ b.pts := by
  simp only [pts_eq]
  rw [← C06_minus]
  simp only [minus, List.mem_map]
  constructor
  · rintro ⟨_, ⟨r, hr, rfl⟩, hx⟩
    exact ⟨r, hr, by rw [← RawInterval.normalized_pts]; exact hx⟩
  · rintro ⟨r, hr, hx⟩
    exact ⟨_, ⟨r, hr, rfl⟩, by rw [RawInterval.normalized_pts]; exact hx⟩

theorem mem_complement (a : Interval α) (x : α) :
    (∃ c ∈ a.complement, x ∈ c.pts) ↔ x ∉ a.pts := by
  simp only [pts_eq]
  rw [← C04_complement]
  simp only [complement, List.mem_map]
  constructor
  · rintro ⟨_, ⟨r, hr, rfl⟩, hx⟩
    exact ⟨r, hr, by rw [← RawInterval.normalized_pts]; exact hx⟩
  · rintro ⟨r, hr, hx⟩
    exact ⟨_, ⟨r, hr, rfl⟩, by rw [RawInterval.normalized_pts]; exact hx⟩

/-! ### Iteration -/

omit [Finite α] [LawfulFinite α] in
theorem minus_lower (l u : α) : (RawInterval.closed l u).minus (.point l) =
    if l < u then [.leftOpen l u] else [] := by
  have e1 : (RawInterval.closed l u).intersect (.upTo l) = .empty := by
    rw [RawInterval.intersect_of_bounds rfl rfl rfl rfl, if_neg]
    rw [Bound.compat_gi, Bound.compat_li, Bound.compat_li]; simp [Bound.Compat]
  have e2 : (RawInterval.closed l u).intersect (.upFrom l) =
      if l < u then .leftOpen l u else .empty := by
    rw [RawInterval.intersect_of_bounds rfl rfl rfl rfl]
    simp only [Bound.greatestIntersect, Bound.leastIntersect, le_refl, lt_irrefl, if_true,
      if_false, Bound.Compat, gt_iff_lt]
    split_ifs <;> simp_all [Bound.Compat, RawInterval.new, RawInterval.mkLeftOpen]
  simp only [RawInterval.minus, RawInterval.complement, List.map_cons, List.map_nil, e1, e2]
  split_ifs <;> rfl

omit [Finite α] [LawfulFinite α] in
theorem minus_upper (l u : α) : (RawInterval.closed l u).minus (.point u) =
    if l < u then [.rightOpen l u] else [] := by
  have e1 : (RawInterval.closed l u).intersect (.upFrom u) = .empty := by
    rw [RawInterval.intersect_of_bounds rfl rfl rfl rfl, if_neg]
    rw [Bound.compat_gi, Bound.compat_li, Bound.compat_li]; simp [Bound.Compat]
  have e2 : (RawInterval.closed l u).intersect (.upTo u) =
      if l < u then .rightOpen l u else .empty := by
    rw [RawInterval.intersect_of_bounds rfl rfl rfl rfl]
    simp only [Bound.greatestIntersect, Bound.leastIntersect, le_refl, lt_irrefl, if_true,
      if_false, Bound.Compat, gt_iff_lt]
    split_ifs <;> simp_all [Bound.Compat, RawInterval.new, RawInterval.mkRightOpen]
  simp only [RawInterval.minus, RawInterval.complement, List.map_cons, List.map_nil, e1, e2]
  split_ifs <;> rfl

theorem next_closed {l u : α} (h : l ≤ u) :
    ∃ i' : Interval α, next ⟨.closed l u⟩ = .ok (some l, i') ∧ i'.Obtainable ∧ i'.Real ∧
      i'.pts = Set.Ioc l u := by
  have hm : (⟨.closed l u⟩ : Interval α).minus (ofPoint l) =
      if l < u then [ofRaw (.leftOpen l u)] else [] := by
    rw [minus, ofPoint]
    show List.map _ ((RawInterval.closed l u).minus (.point l)) = _
    rw [minus_lower]; split_ifs <;> rfl
  refine ⟨_, rfl, ?_⟩
  rw [hm]
  split_ifs with hlt
  · have w : (RawInterval.leftOpen l u).WF := hlt
    refine ⟨Interval.Obtainable.ofRaw _ w, real_normalized w (by simp), ?_⟩
    rw [pts_eq]
    exact RawInterval.normalized_pts (.leftOpen l u)
  · refine ⟨.empty, real_mk_empty, ?_⟩
    rw [pts_eq]
    ext x
    refine ⟨fun h => absurd h id, fun h => absurd (lt_of_lt_of_le h.1 h.2) hlt⟩

theorem nextBack_closed {l u : α} (h : l ≤ u) :
    ∃ i' : Interval α, nextBack ⟨.closed l u⟩ = .ok (some u, i') ∧ i'.Obtainable ∧ i'.Real ∧
      i'.pts = Set.Ico l u := by
  have hm : (⟨.closed l u⟩ : Interval α).minus (ofPoint u) =
      if l < u then [ofRaw (.rightOpen l u)] else [] := by
    rw [minus, ofPoint]
    show List.map _ ((RawInterval.closed l u).minus (.point u)) = _
    rw [minus_upper]; split_ifs <;> rfl
  refine ⟨_, rfl, ?_⟩
  rw [hm]
  split_ifs with hlt
  · have w : (RawInterval.rightOpen l u).WF := hlt
    refine ⟨Interval.Obtainable.ofRaw _ w, real_normalized w (by simp), ?_⟩
    rw [pts_eq]
    exact RawInterval.normalized_pts (.rightOpen l u)
  · refine ⟨.empty, real_mk_empty, ?_⟩
    rw [pts_eq]
    ext x
    refine ⟨fun h => absurd h id, fun h => absurd (lt_of_le_of_lt h.1 h.2) hlt⟩

theorem next_point (p : α) : next (⟨.point p⟩ : Interval α) = .ok (some p, .empty) ∧
    nextBack (⟨.point p⟩ : Interval α) = .ok (some p, .empty) := by
  have e1 : (RawInterval.point p).intersect (.upFrom p) = .empty := by
    rw [RawInterval.intersect_of_bounds rfl rfl rfl rfl, if_neg]
    rw [Bound.compat_gi, Bound.compat_li, Bound.compat_li]; simp [Bound.Compat]
  have e2 : (RawInterval.point p).intersect (.upTo p) = .empty := by
    rw [RawInterval.intersect_of_bounds rfl rfl rfl rfl, if_neg]
    rw [Bound.compat_gi, Bound.compat_li, Bound.compat_li]; simp [Bound.Compat]
  constructor <;>
  simp [next, nextBack, lowerBound, upperBound, RawInterval.lowerBound, RawInterval.upperBound,
    minus, ofPoint, RawInterval.normalized, RawInterval.minus, RawInterval.complement, e1, e2,
    RawInterval.isEmpty]

/-- One step of the iterator takes away the least/greatest point. -/
theorem iter_step {i : Interval α} (h : i.Obtainable) (hr : i.Real) :
    (i.pts = ∅ ∧ next i = .ok (none, i) ∧ nextBack i = .ok (none, i)) ∨
    ((∃ m i', IsLeast i.pts m ∧ next i = .ok (some m, i') ∧ i'.Obtainable ∧ i'.Real ∧
        i'.pts = i.pts \ {m}) ∧
     (∃ m i', IsGreatest i.pts m ∧ nextBack i = .ok (some m, i') ∧ i'.Obtainable ∧ i'.Real ∧
        i'.pts = i.pts \ {m})) := by
  rcases real_cases h hr with rfl | ⟨p, rfl⟩ | ⟨l, u, rfl, hlu⟩
  · refine .inl ⟨by rw [pts_eq]; rfl, rfl, rfl⟩
  · have hp : (⟨.point p⟩ : Interval α).pts = {p} := pts_eq _
    have he : (∅ : Set α) = {p} \ {p} := by
      ext x; exact ⟨fun h => absurd h id, fun h => h.2 h.1⟩
    have he' : (Interval.empty : Interval α).pts = {p} \ {p} := by rw [pts_eq, ← he]; rfl
    refine .inr ⟨⟨p, .empty, ?_, (next_point p).1, .empty, real_mk_empty, ?_⟩,
      ⟨p, .empty, ?_, (next_point p).2, .empty, real_mk_empty, ?_⟩⟩
    · rw [hp]; exact ⟨rfl, fun x hx => le_of_eq (Eq.symm hx)⟩
    · rw [hp]; exact he'
    · rw [hp]; exact ⟨rfl, fun x hx => le_of_eq hx⟩
    · rw [hp]; exact he'
  · have hp : (⟨.closed l u⟩ : Interval α).pts = Set.Icc l u := pts_eq _
    obtain ⟨i', h1, h2, h3, h4⟩ := next_closed hlu
    obtain ⟨j', k1, k2, k3, k4⟩ := nextBack_closed hlu
    refine .inr ⟨⟨l, i', ?_, h1, h2, h3, ?_⟩, ⟨u, j', ?_, k1, k2, k3, ?_⟩⟩
    · rw [hp]; exact ⟨⟨le_refl _, hlu⟩, fun x hx => hx.1⟩
    · rw [h4, hp]; ext x
      constructor
      · rintro ⟨a, b⟩; exact ⟨⟨a.le, b⟩, a.ne'⟩
      · rintro ⟨⟨a, b⟩, c⟩; exact ⟨lt_of_le_of_ne a (Ne.symm c), b⟩
    · rw [hp]; exact ⟨⟨hlu, le_refl _⟩, fun x hx => hx.2⟩
    · rw [k4, hp]; ext x
      constructor
      · rintro ⟨a, b⟩; exact ⟨⟨a, b.le⟩, b.ne⟩
      · rintro ⟨⟨a, b⟩, c⟩; exact ⟨a, lt_of_le_of_ne b c⟩

theorem drive_walk (cs : List IterCall) : ∀ {i : Interval α}, i.Obtainable → i.Real →
    ∃ os, drive next nextBack i cs = .ok os ∧ Walk i.pts cs os := by
  induction cs with
  | nil => intro i _ _; exact ⟨[], rfl, .nil _⟩
  | cons c cs ih =>
    intro i h hr
    rcases iter_step h hr with ⟨he, h1, h2⟩ | ⟨⟨m, i', hm, h1, h2, h3, h4⟩, ⟨m', j', hm', k1, k2, k3, k4⟩⟩
    · obtain ⟨os, e, w⟩ := ih h hr
      refine ⟨none :: os, ?_, .done he w⟩
      cases c <;> simp only [drive, h1, h2, bind, Except.bind, e] <;> rfl
    · cases c
      · obtain ⟨os, e, w⟩ := ih h2 h3
        refine ⟨some m :: os, ?_, .next hm (h4 ▸ w)⟩
        simp only [drive, h1, bind, Except.bind, e]; rfl
      · obtain ⟨os, e, w⟩ := ih k2 k3
        refine ⟨some m' :: os, ?_, .nextBack hm' (k4 ▸ w)⟩
        simp only [drive, k1, bind, Except.bind, e]; rfl

end Interval
end NI
