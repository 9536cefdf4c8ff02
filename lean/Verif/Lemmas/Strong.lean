import Verif.Lemmas.Canon
import Verif.SpecMore

/-!
# `union_all` on intervals in ascending order: lemmas for C11
-/

set_option linter.unusedSimpArgs false
set_option linter.unusedVariables false

namespace NI
namespace TT
variable {α : Type} [LinearOrder α]

theorem meet_cases {a b : RawInterval α} (ha : a.WF) (hb : b.WF) (na : a ≠ .empty) (nb : b ≠ .empty) :
    ((a.intersects b || a.isAdjacentTo b) = false ∧ (SepI a b ∨ SepI b a)) ∨
    ((a.intersects b || a.isAdjacentTo b) = true ∧ a.enclose b ≠ .empty ∧ ∀ aft k, RealPos aft k →
      icov (a.enclose b) aft k = (icov a aft k || icov b aft k)) := by
  have n1 : a.isEmpty = false := by
    rw [Bool.eq_false_iff, ne_eq, RawInterval.isEmpty_iff]; exact na
  have n2 : b.isEmpty = false := by
    rw [Bool.eq_false_iff, ne_eq, RawInterval.isEmpty_iff]; exact nb
  have hu : a.union b = if a.intersects b || a.isAdjacentTo b then [a.enclose b] else [a, b] := by
    simp only [RawInterval.union, n1, n2]
  cases hm : (a.intersects b || a.isAdjacentTo b)
  · rcases union_cases ha hb na nb with ⟨-, h⟩ | ⟨h, -⟩
    · exact .inl ⟨rfl, h⟩
    · rw [hu, hm] at h; simp at h
  · rcases union_cases ha hb na nb with ⟨h, -⟩ | ⟨-, h⟩
    · rw [hu, hm] at h; simp at h
    · exact .inr ⟨rfl, h⟩

theorem sep_no_meet {a b : RawInterval α} (ha : a.WF) (hb : b.WF) (h : SepI a b) :
    (a.intersects b || a.isAdjacentTo b) = false := by
  obtain ⟨u, l, h1, h2, hs⟩ := h
  have n1 : a.isEmpty = false := by
    rw [Bool.eq_false_iff, ne_eq, RawInterval.isEmpty_iff]; rintro rfl; cases h1
  have n2 : b.isEmpty = false := by
    rw [Bool.eq_false_iff, ne_eq, RawInterval.isEmpty_iff]; rintro rfl; cases h2
  have hu : a.union b = if a.intersects b || a.isAdjacentTo b then [a.enclose b] else [a, b] := by
    simp only [RawInterval.union, n1, n2]
  rw [sep_union ha hb h1 h2 hs] at hu
  cases hm : (a.intersects b || a.isAdjacentTo b)
  · rfl
  · rw [hm] at hu; simp at hu

theorem sep_mono {u l l' : Bound α} (h : Sep u l) (hb : l.NotBehind l') : Sep u l' := by
  rcases u with x | x | _ <;> rcases l with y | y | _ <;> rcases l' with z | z | _ <;>
    simp [Sep, Bound.NotBehind, Tine.key] at h hb ⊢ <;> grind

theorem sepI_mono {a b c : RawInterval α} (h : SepI a b) (nc : c ≠ .empty) (hb : b.StartsBefore c) :
    SepI a c := by
  obtain ⟨u, l, h1, h2, hs⟩ := h
  rcases c.bounds_cases with ⟨rfl, -⟩ | ⟨lc, uc, c1, c2, -⟩
  · exact absurd rfl nc
  · exact ⟨u, lc, h1, c1, sep_mono hs (hb l h2 lc c1)⟩

theorem sepI_lower {a b c : RawInterval α} (h : SepI a b) (e : c.lowerBound = b.lowerBound) : SepI a c := by
  obtain ⟨u, l, h1, h2, hs⟩ := h
  exact ⟨u, l, h1, e ▸ h2, hs⟩

/-- An interval that starts no later cannot be beyond a gap. -/
theorem starts_no_sep {a b : RawInterval α} (hb : b.WF) (h : a.StartsBefore b) :
    ¬ SepI b a := by
  rintro ⟨u, l, h1, h2, hs⟩
  rcases b.bounds_cases with ⟨rfl, -⟩ | ⟨lb, ub, b1, b2, -⟩
  · cases h1
  · have hc := RawInterval.wf_compat hb b1 b2
    have hn := h l h2 lb b1
    rw [b2] at h1
    cases h1
    revert hs hc hn
    rcases u with x | x | _ <;> rcases l with y | y | _ <;> rcases lb with z | z | _ <;>
      simp [Sep, Bound.NotBehind, Tine.key, Bound.Compat] <;> grind

theorem enclose_lower {a b : RawInterval α} (na : a ≠ .empty) (nb : b ≠ .empty) (ne : a.enclose b ≠ .empty)
    (ha : a.WF) (h : a.StartsBefore b) : (a.enclose b).lowerBound = a.lowerBound := by
  rcases a.bounds_cases with ⟨rfl, -⟩ | ⟨la, ua, a1, a2, -⟩
  · exact absurd rfl na
  rcases b.bounds_cases with ⟨rfl, -⟩ | ⟨lb, ub, b1, b2, -⟩
  · exact absurd rfl nb
  have hc := Bound.compat_lu la lb ua ub (RawInterval.wf_compat ha a1 a2)
  rw [RawInterval.enclose_of_bounds a1 a2 b1 b2, (new_bounds' hc).1, a1]
  have hn := h la a1 lb b1
  revert hn
  rcases la with x | x | _ <;> rcases lb with z | z | _ <;>
    simp [Bound.NotBehind, Bound.leastUnion] <;> grind

/-- What a list of intervals covers. -/
noncomputable def lcov (is : List (RawInterval α)) (aft : Bool) (k : Key α) : Bool := is.any fun i => icov i aft k

/-- One merge of an interval that starts no earlier than those seen so far. -/
theorem merge_ascending {n : RawInterval α} (hn : n.WF) (nn : n ≠ .empty) (prev : List (RawInterval α))
    (hw : ∀ i ∈ prev, i.WF ∧ i ≠ .empty) (hp : prev.Pairwise SepI) (hs : ∀ i ∈ prev, i.StartsBefore n) :
    (∀ i ∈ RawInterval.unionAllMerge n prev, i.WF ∧ i ≠ .empty) ∧
    (RawInterval.unionAllMerge n prev).Pairwise SepI ∧
    (∀ i ∈ RawInterval.unionAllMerge n prev, ∃ j ∈ n :: prev, i.lowerBound = j.lowerBound) ∧
    ∀ aft k, RealPos aft k →
      lcov (RawInterval.unionAllMerge n prev) aft k = (icov n aft k || lcov prev aft k) := by
  induction prev with
  | nil => simp [RawInterval.unionAllMerge, hn, nn, lcov]
  | cons item prev ih =>
    obtain ⟨hi, hw'⟩ := List.forall_mem_cons.1 hw
    obtain ⟨hp1, hp2⟩ := List.pairwise_cons.1 hp
    obtain ⟨hs1, hs2⟩ := List.forall_mem_cons.1 hs
    obtain ⟨i1, i2, i3, i4⟩ := ih hw' hp2 hs2
    rcases meet_cases hi.1 hn hi.2 nn with ⟨hm, hg⟩ | ⟨hm, he, hc⟩
    · have hg : SepI item n := hg.resolve_right (starts_no_sep hn hs1)
      rw [RawInterval.unionAllMerge, hm]
      simp only [Bool.false_eq_true, if_false]
      refine ⟨List.forall_mem_cons.2 ⟨hi, i1⟩, List.pairwise_cons.2 ⟨fun j hj => ?_, i2⟩, ?_,
        fun aft k hr => ?_⟩
      · obtain ⟨m, hm, e⟩ := i3 j hj
        rcases List.mem_cons.1 hm with rfl | hm
        · exact sepI_lower hg e
        · exact sepI_lower (hp1 m hm) e
      · refine List.forall_mem_cons.2 ⟨⟨item, by simp, rfl⟩, fun j hj => ?_⟩
        obtain ⟨m, hm, e⟩ := i3 j hj
        refine ⟨m, ?_, e⟩
        rcases List.mem_cons.1 hm with rfl | hm <;> simp [*]
      · have := i4 aft k hr
        simp only [lcov, List.any_cons] at this ⊢
        rw [this]
        ac_rfl
    · -- the interval met is the last one
      have hnil : prev = [] := by
        cases prev with
        | nil => rfl
        | cons p prev =>
          have := sep_no_meet hi.1 hn (sepI_mono (hp1 p (by simp)) nn (hs2 p (by simp)))
          rw [this] at hm; cases hm
      subst hnil
      rw [RawInterval.unionAllMerge, hm]
      simp only [if_true]
      refine ⟨by simpa using ⟨RawInterval.enclose_wf _ _, he⟩, by simp, ?_, fun aft k hr => ?_⟩
      · simp only [List.mem_singleton, forall_eq]
        exact ⟨item, by simp, enclose_lower hi.2 nn he hi.1 hs1⟩
      · simp only [lcov, List.any_cons, List.any_nil, Bool.or_false]
        rw [hc aft k hr, Bool.or_comm]

theorem full_cov {aft : Bool} {k : Key α} (hr : RealPos aft k) : icov (.full : RawInterval α) aft k = true := by
  rw [icov_iff (i := .full) trivial rfl rfl hr]
  obtain ⟨r1, r2⟩ := hr
  cases k with
  | top => exact absurd rfl r1
  | bot => obtain rfl := r2 rfl; simp [lowS, upS, Tine.key, Bound.isInclusive]
  | fin x => cases aft <;> simp [lowS, upS, Tine.key, Bound.isInclusive]

theorem step_ascending {n : RawInterval α} (hn : n.WF) (nn : n ≠ .empty) (prev : List (RawInterval α))
    (hw : ∀ i ∈ prev, i.WF ∧ i ≠ .empty) (hp : prev.Pairwise SepI) (hs : ∀ i ∈ prev, i.StartsBefore n) :
    (∀ i ∈ RawInterval.unionAllStep prev n, i.WF ∧ i ≠ .empty) ∧
    (RawInterval.unionAllStep prev n).Pairwise SepI ∧
    (∀ i ∈ RawInterval.unionAllStep prev n, ∃ j ∈ n :: prev, i.lowerBound = j.lowerBound) ∧
    ∀ aft k, RealPos aft k →
      lcov (RawInterval.unionAllStep prev n) aft k = (icov n aft k || lcov prev aft k) := by
  rw [RawInterval.unionAllStep]
  split_ifs with hf
  · subst hf
    refine ⟨by simp [RawInterval.WF], by simp, by simp, fun aft k hr => ?_⟩
    simp [lcov, full_cov hr]
  · exact merge_ascending hn nn prev hw hp hs

theorem fold_ascending (is : List (RawInterval α)) : ∀ (prev : List (RawInterval α)),
    (∀ i ∈ is, i.WF ∧ i ≠ .empty) → is.Pairwise RawInterval.StartsBefore →
    (∀ i ∈ prev, i.WF ∧ i ≠ .empty) → prev.Pairwise SepI →
    (∀ i ∈ prev, ∀ j ∈ is, i.StartsBefore j) →
    (∀ i ∈ is.foldl RawInterval.unionAllStep prev, i.WF ∧ i ≠ .empty) ∧
    (is.foldl RawInterval.unionAllStep prev).Pairwise SepI ∧
    ∀ aft k, RealPos aft k → lcov (is.foldl RawInterval.unionAllStep prev) aft k =
      (lcov is aft k || lcov prev aft k) := by
  induction is with
  | nil => intro prev _ _ hw hp _; exact ⟨hw, hp, fun aft k _ => by simp [lcov]⟩
  | cons n is ih =>
    intro prev hi his hw hp hs
    obtain ⟨hn, hi'⟩ := List.forall_mem_cons.1 hi
    obtain ⟨s1, s2⟩ := List.pairwise_cons.1 his
    obtain ⟨a1, a2, a3, a4⟩ := step_ascending hn.1 hn.2 prev hw hp fun i h => hs i h n (by simp)
    obtain ⟨b1, b2, b3⟩ := ih _ hi' s2 a1 a2 (by
      intro i h j hj
      obtain ⟨m, hm, e⟩ := a3 i h
      intro a ha b hb
      rw [e] at ha
      rcases List.mem_cons.1 hm with rfl | hm
      · exact s1 j hj a ha b hb
      · exact hs m hm j (by simp [hj]) a ha b hb)
    refine ⟨b1, b2, fun aft k hr => ?_⟩
    rw [List.foldl_cons, b3 aft k hr, a4 aft k hr]
    simp only [lcov, List.any_cons]
    ac_rfl

theorem unionAll_ascending (is : List (RawInterval α)) (hw : ∀ i ∈ is, i.WF)
    (hs : is.Pairwise RawInterval.StartsBefore) :
    (∀ i ∈ RawInterval.unionAll is, i.WF ∧ i ≠ .empty) ∧ (RawInterval.unionAll is).Pairwise SepI ∧
    ∀ aft k, RealPos aft k → lcov (RawInterval.unionAll is) aft k = lcov is aft k := by
  have hf : ∀ i ∈ is.filter fun i => !i.isEmpty, i.WF ∧ i ≠ .empty := by
    intro i hi
    rw [List.mem_filter] at hi
    refine ⟨hw i hi.1, fun e => ?_⟩
    subst e
    simp [RawInterval.isEmpty] at hi
  have hc : ∀ aft k, lcov (is.filter fun i => !i.isEmpty) aft k = lcov is aft k := by
    intro aft k
    clear hw hs hf
    induction is with
    | nil => rfl
    | cons i is ih =>
      have e : ∀ l, lcov (i :: l) aft k = (icov i aft k || lcov l aft k) := fun _ => rfl
      cases h : i.isEmpty
      · rw [List.filter_cons_of_pos (by simp [h]), e, e, ih]
      · rw [List.filter_cons_of_neg (by simp [h]), e, ih]
        rw [RawInterval.isEmpty_iff] at h
        subst h
        rfl
  have hs' := hs.filter fun i => !i.isEmpty
  rw [RawInterval.unionAll]
  revert hf hc hs'
  generalize is.filter (fun i => !i.isEmpty) = L
  intro hf hc hs'
  cases L with
  | nil => exact ⟨by simp, by simp, fun aft k _ => hc aft k⟩
  | cons n L =>
    obtain ⟨s1, s2⟩ := List.pairwise_cons.1 hs'
    obtain ⟨g1, g2, g3⟩ := fold_ascending L [n] (fun i h => hf i (by simp [h])) s2
      (fun i h => hf i (by simp at h; simp [h])) (by simp) (by simpa using s1)
    refine ⟨g1, g2, fun aft k hr => ?_⟩
    rw [← hc]
    rw [g3 aft k hr]
    simp only [lcov, List.any_cons, List.any_nil, Bool.or_false]
    exact Bool.or_comm _ _

end TT
end NI
