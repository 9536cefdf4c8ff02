import Verif.SpecGaps
import Verif.Lemmas.Piecewise

/-!
# The pieces of a complement are the gaps
-/

set_option linter.unusedSectionVars false

namespace NI
namespace TT
variable {α : Type} [LinearOrder α]

/-- The gap between two ends. -/
def gap (l u : Option (Bound α)) : Option (RawInterval α) := l.bind fun l => u.map fun u => RawInterval.new l u

/-- The gaps above a bound. -/
def gapsFrom (lo : Option (Bound α)) : List (RawInterval α) → List (RawInterval α)
  | [] => (gap lo (some .inf)).toList
  | i :: is => (gap lo (i.lowerBound.bind Bound.turned)).toList ++ gapsFrom (i.upperBound.bind Bound.turned) is

theorem gapsFrom_eq (is : List (RawInterval α)) : ∀ lo, gapsFrom lo is =
    ((lo :: is.map fun i => i.upperBound.bind Bound.turned).zip
      ((is.map fun i => i.lowerBound.bind Bound.turned) ++ [some .inf])).filterMap fun p =>
        p.1.bind fun l => p.2.map fun u => RawInterval.new l u := by
  induction is with
  | nil => intro lo; cases lo <;> simp [gapsFrom, gap]
  | cons i is ih =>
    intro lo
    rw [gapsFrom, ih]
    simp only [List.map_cons, List.cons_append, List.zip_cons_cons, List.filterMap_cons]
    cases lo <;> cases i.lowerBound.bind Bound.turned <;> simp [gap]

theorem turned_up {u v : Bound α} (h : u.turned = some v) {aft : Bool} {k : Key α} (hr : RealPos aft k) :
    lowS v aft k ↔ ¬ upS u aft k := by
  obtain ⟨r1, r2⟩ := hr
  cases k with
  | top => exact absurd rfl r1
  | bot =>
    obtain rfl := r2 rfl
    rcases u with x | x | _ <;> cases h <;> simp [lowS, upS, Tine.key, Bound.isInclusive]
  | fin y =>
    rcases u with x | x | _ <;> cases h <;> cases aft <;>
      simp [lowS, upS, Tine.key, Bound.isInclusive] <;> grind

theorem turned_low {l v : Bound α} (h : l.turned = some v) {aft : Bool} {k : Key α} (hr : RealPos aft k) :
    upS v aft k ↔ ¬ lowS l aft k := by
  obtain ⟨r1, r2⟩ := hr
  cases k with
  | top => exact absurd rfl r1
  | bot =>
    obtain rfl := r2 rfl
    rcases l with x | x | _ <;> cases h <;> simp [lowS, upS, Tine.key, Bound.isInclusive]
  | fin y =>
    rcases l with x | x | _ <;> cases h <;> cases aft <;>
      simp [lowS, upS, Tine.key, Bound.isInclusive] <;> grind

theorem inf_up {aft : Bool} {k : Key α} (hr : RealPos aft k) : upS (.inf : Bound α) aft k := by
  obtain ⟨r1, r2⟩ := hr
  cases k with
  | top => exact absurd rfl r1
  | bot => simp [upS, Tine.key]
  | fin y => simp [upS, Tine.key]

theorem inf_low {aft : Bool} {k : Key α} (hr : RealPos aft k) : lowS (.inf : Bound α) aft k := by
  obtain ⟨r1, r2⟩ := hr
  cases k with
  | top => exact absurd rfl r1
  | bot => obtain rfl := r2 rfl; simp [lowS, Tine.key]
  | fin y => simp [lowS, Tine.key]

/-- The gap between separated intervals is a proper one. -/
theorem sep_compat {u l : Bound α} (h : Sep u l) : ∃ v w, u.turned = some v ∧ l.turned = some w ∧ v.Compat w := by
  rcases u with x | x | _ <;> rcases l with y | y | _ <;>
    simp [Sep, Tine.key, Bound.turned, Bound.Compat] at h ⊢ <;> grind

theorem gap_sep_low {u l : Bound α} (h : Sep u l) {aft : Bool} {k : Key α} (hr : RealPos aft k)
    (hl : lowS l aft k) : ¬ upS u aft k := by
  obtain ⟨r1, r2⟩ := hr
  cases k with
  | top => exact absurd rfl r1
  | bot =>
    obtain rfl := r2 rfl
    rcases u with x | x | _ <;> rcases l with y | y | _ <;>
      simp [Sep, lowS, Tine.key, Bound.isInclusive] at h hl ⊢
  | fin z =>
    rcases u with x | x | _ <;> rcases l with y | y | _ <;> cases aft <;>
      simp [Sep, lowS, upS, Tine.key, Bound.isInclusive] at h hl ⊢ <;> grind

theorem compat_cover {l u : Bound α} (h : l.Compat u) {aft : Bool} {k : Key α} (hr : RealPos aft k) :
    lowS l aft k ∨ upS u aft k := by
  obtain ⟨r1, r2⟩ := hr
  cases k with
  | top => exact absurd rfl r1
  | bot =>
    obtain rfl := r2 rfl
    rcases u with x | x | _ <;> rcases l with y | y | _ <;>
      simp [Bound.Compat, lowS, upS, Tine.key, Bound.isInclusive] at h ⊢
  | fin z =>
    rcases u with x | x | _ <;> rcases l with y | y | _ <;> cases aft <;>
      simp [Bound.Compat, lowS, upS, Tine.key, Bound.isInclusive] at h ⊢ <;> grind

/-- The gaps on the two sides of an interval are separated. -/
theorem turned_sep {l u v w : Bound α} (h : l.Compat u) (hl : l.turned = some v) (hu : u.turned = some w) : Sep v w := by
  rcases u with x | x | _ <;> rcases l with y | y | _ <;> cases hl <;> cases hu <;>
    simp [Sep, Tine.key, Bound.Compat] at h ⊢ <;> grind

theorem turned_sep_trans {l u l' u' v w : Bound α} (h : l.Compat u) (h' : l'.Compat u') (hs : Sep u l')
    (hl : l.turned = some v) (hu : u'.turned = some w) : Sep v w := by
  rcases u with x | x | _ <;> rcases l with y | y | _ <;> cases hl <;>
    rcases u' with x' | x' | _ <;> rcases l' with y' | y' | _ <;> cases hu <;>
    simp [Sep, Tine.key, Bound.Compat] at h h' hs ⊢ <;> grind

theorem gapsFrom_ok (is : List (RawInterval α)) (hw : ∀ i ∈ is, i.WF ∧ i ≠ .empty) (hs : is.Pairwise SepI) :
    ∀ lo : Option (Bound α), (lo = none → is = []) →
    (∀ b, lo = some b → ∀ i ∈ is, ∀ l, i.lowerBound = some l → (∀ w, l.turned = some w → b.Compat w) ∧
      ∀ aft k, RealPos aft k → lowS l aft k → lowS b aft k) →
    (∀ g ∈ gapsFrom lo is, g.WF ∧ g ≠ .empty ∧ ∃ w, g.lowerBound = some w ∧
      (lo = some w ∨ ∃ i ∈ is, i.upperBound.bind Bound.turned = some w)) ∧
    (gapsFrom lo is).Pairwise SepI ∧
    ∀ aft k, RealPos aft k → (((gapsFrom lo is).any fun g => icov g aft k) = true ↔
      (∃ b, lo = some b ∧ lowS b aft k) ∧ (is.any fun i => icov i aft k) = false) := by
  have one : ∀ {a b : Bound α}, a.Compat b → (RawInterval.new a b).WF ∧ RawInterval.new a b ≠ .empty ∧
      (RawInterval.new a b).lowerBound = some a ∧ (RawInterval.new a b).upperBound = some b ∧
      ∀ aft k, RealPos aft k → (icov (RawInterval.new a b) aft k = true ↔ lowS a aft k ∧ upS b aft k) := by
    intro a b h
    obtain ⟨h1, h2, h3⟩ := RawInterval.new_of_compat h
    exact ⟨RawInterval.new_wf _ _, h3, h1, h2, fun aft k hr => icov_iff (RawInterval.new_wf _ _) h1 h2 hr⟩
  induction is with
  | nil =>
    intro lo _ _
    cases lo with
    | none => simp [gapsFrom, gap]
    | some b =>
      obtain ⟨h1, h2, h3, -, h4⟩ := one (a := b) (b := .inf) (by cases b <;> trivial)
      simp only [gapsFrom, gap, Option.bind_some, Option.map_some, Option.toList_some, List.mem_singleton,
        forall_eq, List.pairwise_singleton, List.any_cons, List.any_nil, Bool.or_false, true_and]
      refine ⟨⟨h1, h2, b, h3, .inl rfl⟩, fun aft k hr => ?_⟩
      rw [h4 aft k hr]
      simp [inf_up hr]
  | cons i is ih =>
    intro lo hn hb
    cases lo with
    | none => exact absurd (hn rfl) (by simp)
    | some b =>
    obtain ⟨wi, ni⟩ := hw i (.head _)
    obtain ⟨hs1, hs2⟩ := List.pairwise_cons.1 hs
    rcases i.bounds_cases with ⟨rfl, -⟩ | ⟨l, u, e1, e2, -⟩
    · exact absurd rfl ni
    have ci := RawInterval.wf_compat wi e1 e2
    obtain ⟨b1, b2⟩ := hb b rfl i (.head _) l e1
    have sep : ∀ j ∈ is, ∃ l', j.lowerBound = some l' ∧ Sep u l' := by
      intro j hj
      obtain ⟨u0, l', h1, h2, h3⟩ := hs1 j hj
      rw [e2, Option.some.injEq] at h1; subst h1
      exact ⟨l', h2, h3⟩
    obtain ⟨g1, g2, g3⟩ := ih (fun j hj => hw j (.tail _ hj)) hs2 u.turned
      (by
        intro hu
        cases is with
        | nil => rfl
        | cons j js =>
          obtain ⟨l', -, h⟩ := sep j (.head _)
          obtain ⟨v, w, h1, -⟩ := sep_compat h
          rw [hu] at h1; cases h1)
      (by
        intro c hc j hj l' hl'
        obtain ⟨l'', h1, h⟩ := sep j hj
        rw [hl', Option.some.injEq] at h1; subst h1
        refine ⟨fun w hw => ?_, fun aft k hr hl => (turned_up hc hr).2 (gap_sep_low h hr hl)⟩
        obtain ⟨v, w', k1, k2, k3⟩ := sep_compat h
        rw [hc] at k1; rw [hw] at k2
        cases k1; cases k2; exact k3)
    have anyIs : ∀ aft k, RealPos aft k → (is.any fun j => icov j aft k) = true →
        lowS l aft k ∧ ¬ upS u aft k := by
      intro aft k hr h
      obtain ⟨j, hj, hc⟩ := List.any_eq_true.1 h
      obtain ⟨l', h1, h2⟩ := sep j hj
      rcases j.bounds_cases with ⟨rfl, -⟩ | ⟨l'', u', j1, j2, -⟩
      · cases h1
      rw [icov_iff (hw j (.tail _ hj)).1 j1 j2 hr] at hc
      rw [j1, Option.some.injEq] at h1; subst h1
      have h3 := gap_sep_low h2 hr hc.1
      exact ⟨(compat_cover ci hr).resolve_right h3, h3⟩
    have cov_i := fun aft k (hr : RealPos aft k) => icov_iff wi e1 e2 hr
    rw [gapsFrom, e1, e2, Option.bind_some, Option.bind_some]
    cases hl : l.turned with
    | none =>
      have hli : l = .inf := by rcases l with x | x | _ <;> simp [Bound.turned] at hl ⊢
      subst hli
      simp only [gap, Option.map_none, Option.bind_some, Option.toList_none, List.nil_append]
      refine ⟨fun g hg => ?_, g2, fun aft k hr => ?_⟩
      · obtain ⟨k1, k2, w, k3, k4⟩ := g1 g hg
        refine ⟨k1, k2, w, k3, .inr ?_⟩
        rcases k4 with k4 | ⟨j, hj, k4⟩
        · exact ⟨i, .head _, by rw [e2, Option.bind_some, k4]⟩
        · exact ⟨j, .tail _ hj, k4⟩
      · rw [g3 aft k hr, List.any_cons, Bool.or_eq_false_iff, Bool.eq_false_iff (b := icov i aft k), Ne,
          cov_i aft k hr]
        have hlow : lowS b aft k := b2 aft k hr (inf_low hr)
        have := anyIs aft k hr
        have hlo := inf_low (α := α) hr
        constructor
        · rintro ⟨⟨c, hc, h1⟩, h2⟩
          rw [turned_up hc hr] at h1
          exact ⟨⟨b, rfl, hlow⟩, fun h => h1 h.2, h2⟩
        · rintro ⟨-, h1, h2⟩
          have hu : ¬ upS u aft k := fun h => h1 ⟨hlo, h⟩
          refine ⟨?_, h2⟩
          cases hc : u.turned with
          | none =>
            exfalso
            have : u = .inf := by rcases u with x | x | _ <;> simp [Bound.turned] at hc ⊢
            subst this
            exact hu (inf_up hr)
          | some c => exact ⟨c, rfl, (turned_up hc hr).2 hu⟩
    | some w =>
      obtain ⟨h1, h2, h3, h4, h5⟩ := one (b1 w hl)
      simp only [gap, Option.map_some, Option.bind_some, Option.toList_some, List.singleton_append]
      refine ⟨?_, ?_, fun aft k hr => ?_⟩
      · intro g hg
        rcases List.mem_cons.1 hg with rfl | hg
        · exact ⟨h1, h2, b, h3, .inl rfl⟩
        · obtain ⟨k1, k2, w, k3, k4⟩ := g1 g hg
          refine ⟨k1, k2, w, k3, .inr ?_⟩
          rcases k4 with k4 | ⟨j, hj, k4⟩
          · exact ⟨i, .head _, by rw [e2, Option.bind_some, k4]⟩
          · exact ⟨j, .tail _ hj, k4⟩
      · rw [List.pairwise_cons]
        refine ⟨fun g hg => ?_, g2⟩
        obtain ⟨-, -, v, k3, k4⟩ := g1 g hg
        refine ⟨w, v, h4, k3, ?_⟩
        rcases k4 with k4 | ⟨j, hj, k4⟩
        · exact turned_sep ci hl k4
        · obtain ⟨l', m1, m2⟩ := sep j hj
          rcases j.bounds_cases with ⟨rfl, -⟩ | ⟨l'', u', j1, j2, -⟩
          · cases m1
          rw [j1, Option.some.injEq] at m1; subst m1
          rw [j2, Option.bind_some] at k4
          exact turned_sep_trans ci (RawInterval.wf_compat (hw j (.tail _ hj)).1 j1 j2) m2 hl k4
      · rw [List.any_cons, Bool.or_eq_true, g3 aft k hr, h5 aft k hr, turned_low hl hr, List.any_cons,
          Bool.or_eq_false_iff, Bool.eq_false_iff (b := icov i aft k), Ne, cov_i aft k hr]
        have a1 := anyIs aft k hr
        have a2 := b2 aft k hr
        have a3 := compat_cover ci hr
        have a4 : (∃ c, u.turned = some c ∧ lowS c aft k) ↔ ¬ upS u aft k := by
          constructor
          · rintro ⟨c, hc, h⟩; exact (turned_up hc hr).1 h
          · intro h
            cases hc : u.turned with
            | none =>
              exfalso
              have : u = .inf := by rcases u with x | x | _ <;> simp [Bound.turned] at hc ⊢
              subst this
              exact h (inf_up hr)
            | some c => exact ⟨c, rfl, (turned_up hc hr).2 h⟩
        rw [a4]
        simp only [Option.some.injEq, exists_eq_left']
        cases hany : (is.any fun j => icov j aft k)
        · simp only [and_true]
          tauto
        · have := a1 hany
          simp only [Bool.true_eq_false, and_false]
          tauto

end TT
end NI
