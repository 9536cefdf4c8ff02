import Verif.Props.StripPool

/-!
# C121: exactly when a pool of the numbers of an interval goes wrong
-/

set_option linter.unusedVariables false
set_option linter.unusedSectionVars false

namespace NI
open _root_.NI.Finite TT
variable {α : Type} [LinearOrder α] [Finite α] [LawfulFinite α]

omit [LinearOrder α] [Finite α] [LawfulFinite α] in
theorem latest_cons (x : α) (b : Bool) (h : List (α × Bool)) (P : α → Bool) :
    latest ((x, b) :: h) P = if P x then some b else latest h P := by
  rw [latest, List.find?_cons]
  cases P x <;> rfl

omit [LinearOrder α] [Finite α] [LawfulFinite α] in
/-- The latest of two numbers is the latest of one of them. -/
theorem latest_or (h : List (α × Bool)) (P Q : α → Bool) :
    (latest h (fun n => P n || Q n) = latest h P ∧ (latest h P ≠ none ∨ latest h Q = none)) ∨
      (latest h (fun n => P n || Q n) = latest h Q ∧ latest h Q ≠ none) := by
  induction h with
  | nil => exact .inl ⟨rfl, .inr rfl⟩
  | cons e h ih =>
    obtain ⟨x, b⟩ := e
    simp only [latest_cons]
    cases hp : P x <;> cases hq : Q x <;> simp [ih]

/-- The flags of a pool told by what has happened to the numbers. -/
structure Strip.Told (i : Interval α) (h : List (α × Bool)) (p : Strip α) : Prop where
  val : ∀ x, p.val x = (latest h fun n => decide (n = x)).getD (i.contains x)
  joint : ∀ x y, succ x = some y → p.joint x = (latest h fun n => decide (n = x) || decide (n = y)).getD (i.joins x)
  last : ∀ x, succ x = none → p.joint x = false
  inn : ∀ x, latest h (fun n => decide (n = x)) ≠ none → x ∈ i.pts

theorem Strip.Told.add {i : Interval α} {h : List (α × Bool)} {p : Strip α} (k : p.Told i h) {x : α} (hx : x ∈ i.pts) :
    (p.add (.point x)).Told i ((x, true) :: h) := by
  refine ⟨fun y => ?_, fun y z hz => ?_, fun y hy => ?_, fun y hy => ?_⟩
  · rw [latest_cons, Strip.add_val, k.val]
    have := Interval.point_contains x y
    by_cases e : x = y
    · rw [this.2 e.symm]; simp [e]
    · have : (Interval.point x).contains y = false := by rw [← Bool.not_eq_true, this]; exact fun h => e h.symm
      simp [e, this]
  · rw [latest_cons, Strip.add_joint, k.joint y z hz]
    have := Interval.point_joins x y
    by_cases e : x = y ∨ x = z
    · have : (Interval.point x).joins y = true := this.2 (e.imp (fun e => ⟨e.symm, by rw [e, hz]; rfl⟩) fun e => by rw [hz, e])
      simp [e, this]
    · have : (Interval.point x).joins y = false := by
        rw [← Bool.not_eq_true, this]
        rintro (⟨h, -⟩ | h)
        · exact e (.inl h.symm)
        · rw [hz] at h; cases h; exact e (.inr rfl)
      simp [e, this]
  · rw [Strip.add_joint, k.last y hy, Strip.joins_last _ hy]; rfl
  · rw [latest_cons] at hy
    by_cases e : x = y
    · exact e ▸ hx
    · simp only [e, decide_false, Bool.false_eq_true, if_false] at hy
      exact k.inn y hy

theorem Strip.Told.remove {i : Interval α} {h : List (α × Bool)} {p : Strip α} (k : p.Told i h) {x : α} (hx : x ∈ i.pts)
    (hh : ∀ y, (p.hole y && (Interval.point x).beside y) = false) : (p.remove (.point x)).Told i ((x, false) :: h) := by
  refine ⟨fun y => ?_, fun y z hz => ?_, fun y hy => ?_, fun y hy => ?_⟩
  · rw [latest_cons, Strip.remove_val, hh, k.val]
    have := Interval.point_contains x y
    by_cases e : x = y
    · rw [this.2 e.symm]; simp [e]
    · have : (Interval.point x).contains y = false := by rw [← Bool.not_eq_true, this]; exact fun h => e h.symm
      simp [e, this]
  · rw [latest_cons, Strip.remove_joint, k.joint y z hz]
    have := Interval.point_joins x y
    by_cases e : x = y ∨ x = z
    · have : (Interval.point x).joins y = true := this.2 (e.imp (fun e => ⟨e.symm, by rw [e, hz]; rfl⟩) fun e => by rw [hz, e])
      simp [e, this]
    · have : (Interval.point x).joins y = false := by
        rw [← Bool.not_eq_true, this]
        rintro (⟨h, -⟩ | h)
        · exact e (.inl h.symm)
        · rw [hz] at h; cases h; exact e (.inr rfl)
      simp [e, this]
  · rw [Strip.remove_joint, k.last y hy]; rfl
  · rw [latest_cons] at hy
    by_cases e : x = y
    · exact e ▸ hx
    · simp only [e, decide_false, Bool.false_eq_true, if_false] at hy
      exact k.inn y hy

theorem Strip.told_interval {i : Interval α} (hi : i.Obtainable) : (Strip.nothing.add i).Told i [] :=
  ⟨fun x => by simp [Strip.add_val, Strip.nothing, latest], fun x y _ => by simp [Strip.add_joint, Strip.nothing, latest],
    fun x hx => by simp [Strip.add_joint, Strip.nothing, Strip.joins_last _ hx], fun x hx => by simp [latest] at hx⟩

/-- Nothing is joined that is not free on one side. -/
theorem Strip.Told.side {i : Interval α} (hi : i.Obtainable) (hr : i.Real) {h : List (α × Bool)} {p : Strip α} (k : p.Told i h) {x y : α}
    (hy : succ x = some y) (hj : p.joint x = true) : p.val x = true ∨ p.val y = true := by
  rw [k.joint x y hy] at hj
  rw [k.val, k.val]
  rcases latest_or h (fun n => decide (n = x)) (fun n => decide (n = y)) with ⟨e, c⟩ | ⟨e, c⟩
  · rw [e] at hj
    rcases c with c | c
    · obtain ⟨b, hb⟩ := Option.ne_none_iff_exists'.1 c
      rw [hb] at hj ⊢; exact .inl hj
    · cases hb : latest h (fun n => decide (n = x)) with
      | some b => rw [hb] at hj; exact .inl hj
      | none =>
        rw [hb] at hj
        rw [c]
        have := (Strip.stacked_interval hi hr).joint x (by simpa [Strip.add_joint, Strip.nothing] using hj)
        obtain ⟨z, hz, this⟩ := this
        rw [hy] at hz; cases hz
        simpa [Strip.add_val, Strip.nothing] using this
  · rw [e] at hj
    obtain ⟨b, hb⟩ := Option.ne_none_iff_exists'.1 c
    rw [hb] at hj ⊢; exact .inr hj

/-- Free numbers are numbers of the pool. -/
theorem Strip.Told.sub {i : Interval α} {h : List (α × Bool)} {p : Strip α} (k : p.Told i h) {x : α} (hx : p.val x = true) : x ∈ i.pts := by
  rw [k.val] at hx
  cases hb : latest h (fun n => decide (n = x)) with
  | some b => exact k.inn x (by rw [hb]; simp)
  | none => rw [hb] at hx; exact hx

/-- The number beside the least free one that comes in wrongly. -/
theorem Strip.Told.wedged {i : Interval α} (hi : i.Obtainable) (hr : i.Real) {h : List (α × Bool)} {p : Strip α} (k : p.Told i h) {x : α}
    (hx : p.val x = true) (hl : ∀ y, p.val y = true → x ≤ y) :
    (∀ y, (p.hole y && (Interval.point x).beside y) = false) ↔ ¬ Wedged h x := by
  have hX := Interval.pts_ordConnected hi
  constructor
  · rintro hh ⟨y, z, hy, hz, h1, h2, h3⟩
    have v : p.val y = false := by rw [k.val, h1]; rfl
    have j1 : p.joint x = true := by rw [k.joint x y hy, h2]; rfl
    have j2 : p.joint y = true := by rw [k.joint y z hz, h3]; rfl
    have := hh y
    rw [(Interval.point_beside x y).2 (.inr (pred_eq_iff.2 hy)), Bool.and_true, Strip.hole, v, j2, pred_eq_iff.2 hy, Option.any_some, j1] at this
    cases this
  · intro hw y
    rw [Bool.eq_false_iff]
    intro hc
    simp only [Bool.and_eq_true, Interval.point_beside] at hc
    obtain ⟨hh, hb⟩ := hc
    simp only [Strip.hole, Bool.and_eq_true, Bool.not_eq_true', Option.any_eq_true] at hh
    obtain ⟨⟨v, j2⟩, w, hw', j1⟩ := hh
    have hs := pred_eq_iff.1 hw'
    have a1 := k.side hi hr hs j1
    rw [v] at a1
    simp only [Bool.false_eq_true, or_false] at a1
    have l1 := (LawfulFinite.succ_some w y hs).1
    rcases hb with hb | hb
    · exact absurd (hl w a1) (not_le.2 (l1.trans (LawfulFinite.succ_some y x hb).1))
    · rw [hw'] at hb; cases hb
      cases hz : succ y with
      | none => rw [k.last y hz] at j2; cases j2
      | some z =>
        have l2 := (LawfulFinite.succ_some y z hz).1
        have a2 := k.side hi hr hz j2
        rw [v] at a2
        simp only [Bool.false_eq_true, false_or] at a2
        have hyi : y ∈ i.pts := hX.out (k.sub a1) (k.sub a2) ⟨l1.le, l2.le⟩
        have ho : HandedOut h y := by
          rw [k.val] at v
          cases hb : latest h (fun n => decide (n = y)) with
          | some b => rw [hb] at v; exact hb.trans (congrArg some v)
          | none => rw [hb] at v; exact absurd (show i.contains y = true from hyi) (by rw [show i.contains y = false from v]; simp)
        refine hw ⟨y, z, hs, hz, ho, ?_, ?_⟩
        · rw [k.joint x y hs] at j1
          rcases latest_or h (fun n => decide (n = x)) (fun n => decide (n = y)) with ⟨e, c⟩ | ⟨e, c⟩
          · have c := c.resolve_right (by rw [show latest h (fun n => decide (n = y)) = some false from ho]; simp)
            rw [e] at j1 ⊢
            obtain ⟨b, hb⟩ := Option.ne_none_iff_exists'.1 c
            rw [hb] at j1 ⊢; exact congrArg some j1
          · rw [e, show latest h (fun n => decide (n = y)) = some false from ho] at j1; cases j1
        · rw [k.joint y z hz] at j2
          rcases latest_or h (fun n => decide (n = y)) (fun n => decide (n = z)) with ⟨e, c⟩ | ⟨e, c⟩
          · rw [e, show latest h (fun n => decide (n = y)) = some false from ho] at j2; cases j2
          · rw [e] at j2 ⊢
            obtain ⟨b, hb⟩ := Option.ne_none_iff_exists'.1 c
            rw [hb] at j2 ⊢; exact congrArg some j2

/-- **C121.**  A pool of the numbers of an interval, from which numbers are removed by `minus_in_place`, does what its users rely on as
long as they give back only what they have and no number is handed out when the one after it is in use and was handed out before
both its neighbours were given back; and the first `take` of such a number goes wrong. -/
theorem C121_exact (dbg : Bool) (i : Interval α) (hi : i.Obtainable) (hr : i.Real) (cs : List (PoolCall α)) :
    ∃ os s', (Selection.ofInterval i).pool (Selection.removeInPlace dbg) dbg cs = .ok (os, s') ∧
      (CarefulUse [] cs os → PoolRun i.pts cs os (s'.pts dbg) ∧ ∀ x, IsLeast (s'.pts dbg) x →
        ((∃ s1, s'.removeInPlace dbg x = .ok s1 ∧ s1.pts dbg = s'.pts dbg \ {x}) ↔ ¬ Wedged (poolEvents [] cs os) x)) := by
  have mem : ∀ {s : Selection α} {p : Strip α}, p.Of s → ∀ x, x ∈ s.pts dbg ↔ p.val x = true := fun {s p} h x => by
    rw [Selection.mem_pts dbg (Selection.reachable_valid h.1), h.2.1]
  have rem : ∀ {p : Strip α} {x : α}, (∀ y, (p.hole y && (Interval.point x).beside y) = false) ↔
      ∀ y, (p.remove (.point x)).val y = true ↔ p.val y = true ∧ y ≠ x := fun {p x} => by
    refine forall_congr' fun y => ?_
    rw [Strip.remove_val]
    have h1 := Interval.point_contains x y
    have h2 : p.hole y = true → p.val y = false := fun h => by
      simp only [Strip.hole, Bool.and_eq_true, Bool.not_eq_true'] at h
      exact h.1.1
    simp only [ne_eq, ← h1]
    generalize p.hole y = a at *
    generalize p.val y = b at *
    generalize (Interval.point x).contains y = c at *
    generalize (Interval.point x).beside y = d at *
    clear * - h2
    cases a <;> cases b <;> cases c <;> cases d <;> simp_all
  have main : ∀ (cs : List (PoolCall α)) (s : Selection α) (p : Strip α) (h : List (α × Bool)), s.Edited → p.Of s →
      ∃ os s', s.pool (Selection.removeInPlace dbg) dbg cs = .ok (os, s') ∧
        (p.Told i h → CarefulUse h cs os → PoolRun (s.pts dbg) cs os (s'.pts dbg) ∧ ∀ x, IsLeast (s'.pts dbg) x →
          ((∃ s1, s'.removeInPlace dbg x = .ok s1 ∧ s1.pts dbg = s'.pts dbg \ {x}) ↔ ¬ Wedged (poolEvents h cs os) x)) := by
    intro cs
    induction cs with
    | nil =>
      refine fun s p h hs hp => ⟨[], s, rfl, fun k _ => ⟨.nil _, fun x hl => ?_⟩⟩
      rw [poolEvents, ← k.wedged hi hr ((mem hp x).1 hl.1) fun y hy => hl.2 ((mem hp y).2 hy), rem]
      · obtain ⟨s1, e1, h1⟩ := hp.remove dbg (.point x)
        rw [Selection.removeInPlace, e1]
        simp only [Except.ok.injEq, exists_eq_left', Set.ext_iff, mem h1, Set.mem_sdiff, mem hp, Set.mem_singleton_iff, ne_eq]
      all_goals simp
    | cons c cs ih =>
      intro s p h hs hp
      cases c with
      | take =>
        rcases Selection.first_point dbg hs with ⟨h0, it, e⟩ | ⟨x, it, hl, e⟩
        · obtain ⟨os, s', e', r⟩ := ih s p h hs hp
          refine ⟨none :: os, s', by simp only [Selection.pool, e, e', bind, Except.bind]; rfl, fun k hu => ?_⟩
          cases hu with
          | out hu => exact ⟨.out h0 (r k hu).1, (r k hu).2⟩
        · obtain ⟨s1, e1, h1⟩ := hp.remove dbg (.point x)
          obtain ⟨os, s', e', r⟩ := ih s1 _ ((x, false) :: h) (.minusInPlace hs (.point x) (Interval.real_mk_point x) e1) h1
          refine ⟨some x :: os, s', by simp only [Selection.pool, Selection.removeInPlace, e, e1, e', bind, Except.bind]; rfl, fun k hu => ?_⟩
          cases hu with
          | take hw hu =>
            have hh := (k.wedged hi hr ((mem hp x).1 hl.1) fun y hy => hl.2 ((mem hp y).2 hy)).2 hw
            have := r (k.remove (k.sub ((mem hp x).1 hl.1)) hh) hu
            have k2 := rem.1 hh
            have hpt : s1.pts dbg = s.pts dbg \ {x} := by
              ext y
              rw [mem h1, k2, Set.mem_sdiff, mem hp]; rfl
            rw [hpt] at this
            exact ⟨.take hl this.1, this.2⟩
      | give x =>
        obtain ⟨s1, e1, h1⟩ := hp.add dbg (.point x)
        obtain ⟨os, s', e', r⟩ := ih s1 _ ((x, true) :: h) (.unionInPlace hs (.point x) (Interval.real_mk_point x) e1) h1
        refine ⟨none :: os, s', by simp only [Selection.pool, e1, e', bind, Except.bind]; rfl, fun k hu => ?_⟩
        cases hu with
        | give ho hu =>
          have hpt : s1.pts dbg = s.pts dbg ∪ {x} := by
            ext y
            rw [mem h1, Set.mem_union, mem hp, Strip.add_val, Bool.or_eq_true, Interval.point_contains]; rfl
          have := r (k.add (k.inn x (by rw [show latest h (fun n => decide (n = x)) = some false from ho]; simp))) hu
          rw [hpt] at this
          exact ⟨.give this.1, this.2⟩
  obtain ⟨os, s', e, r⟩ := main cs (.ofInterval i) _ [] (.built (.ofInterval hi hr)) (Strip.of_interval hi)
  refine ⟨os, s', e, fun hu => ?_⟩
  have := r (Strip.told_interval hi) hu
  have hp : (Selection.ofInterval i).pts dbg = i.pts := by
    ext x
    rw [mem (Strip.of_interval hi)]
    simp [Strip.add_val, Strip.nothing]; rfl
  rwa [hp] at this

instance (h : List (α × Bool)) (x : α) : Decidable (HandedOut h x) := inferInstanceAs (Decidable (_ = _))

/-- Of 1 to 9, 1, 2 and 3 are taken and 1 and 3 given back: the next `take` hands out 1 and makes 2 free, which is
handed out next. -/
example : CarefulUse [] [.take, .take, .take, .give (u8 1), .give (u8 3)] [some (u8 1), some (u8 2), some (u8 3), none, none] ∧
    Wedged (poolEvents [] [.take, .take, .take, .give (u8 1), .give (u8 3)] [some (u8 1), some (u8 2), some (u8 3), none, none]) (u8 1) ∧
    ((Selection.ofInterval (.mkClosed (u8 1) (u8 9))).pool (Selection.removeInPlace true) true
      [.take, .take, .take, .give (u8 1), .give (u8 3), .take, .take]).map (·.1) =
      .ok [some (u8 1), some (u8 2), some (u8 3), none, none, some (u8 1), some (u8 2)] := by
  have no : ∀ (h : List (U8 × Bool)) (x y : U8), succ x = some y → ¬ HandedOut h y → ¬ Wedged h x := by
    rintro h x y hy hn ⟨y', z, h1, -, h2, -⟩
    rw [hy] at h1; cases h1; exact hn h2
  refine ⟨.take (no _ _ (u8 2) (by decide) (by decide)) (.take (no _ _ (u8 3) (by decide) (by decide)) (.take
    (no _ _ (u8 4) (by decide) (by decide)) (.give (by decide) (.give (by decide) (.nil _))))),
    ⟨u8 2, u8 3, by decide, by decide, by decide, by decide, by decide⟩, by decide⟩

end NI
