import Verif.Props.Strip
import Mathlib.Data.Fintype.BigOperators
import Mathlib.SetTheory.Cardinal.Finite

/-!
# C154: every selection is made by such a program
-/

set_option linter.unusedVariables false
set_option linter.unusedSectionVars false

namespace NI
open _root_.NI.Finite TT
variable {α : Type} [LinearOrder α] [Finite α] [LawfulFinite α]

theorem Interval.upTo_contains (v z : α) : (Interval.unboundedUpTo v).contains z = decide (z < v) := by
  rw [Bool.eq_iff_iff]
  exact (Set.ext_iff.1 (Selection.run_pts (.upTo v)) z)

theorem Interval.upFrom_contains (v z : α) : (Interval.unboundedUpFrom v).contains z = decide (v < z) := by
  rw [Bool.eq_iff_iff]
  exact (Set.ext_iff.1 (Selection.run_pts (.upFrom v)) z)

/-- One value, joined to nothing. -/
def StripProg.lone (v : α) : StripProg α := .complement (.collect [.unboundedUpTo v, .unboundedUpFrom v])

theorem StripProg.lone_strip (v : α) : (StripProg.lone v).strip = ⟨fun z => decide (z = v), fun _ => false⟩ := by
  have h1 : ∀ z, (!(false || (Interval.unboundedUpTo v).contains z || (Interval.unboundedUpFrom v).contains z)) = decide (z = v) :=
    fun z => by
      rw [Interval.upTo_contains, Interval.upFrom_contains]
      rcases lt_trichotomy z v with h | rfl | h
      · simp [h, h.ne]
      · simp
      · simp [h, h.ne']
  have h2 : ∀ z, ((succ z).isSome && !(false || (Interval.unboundedUpTo v).joins z || (Interval.unboundedUpFrom v).joins z)) = false :=
    fun z => by
      cases hs : succ z with
      | none => rfl
      | some y =>
        rw [Interval.joins, Interval.joins, hs]
        simp only [Interval.upTo_contains, Interval.upFrom_contains]
        rcases lt_or_ge z v with h | h
        · simp [h]
        · have : v < y := h.trans_lt (LawfulFinite.succ_some z y hs).1
          simp [this]
  show Strip.mk _ _ = _
  exact congrArg₂ Strip.mk (funext h1) (funext h2)

/-- An open interval between two neighbours. -/
theorem Interval.mkOpen_next {x y : α} (h : succ x = some y) : Interval.mkOpen x y = ⟨.closed y x⟩ := by
  have hlt := (LawfulFinite.succ_some x y h).1
  simp [Interval.mkOpen, RawInterval.mkOpen, hlt, RawInterval.normalized, h, pred_eq_iff.2 h]

theorem Interval.mkOpen_next_contains {x y : α} (h : succ x = some y) (z : α) : (Interval.mkOpen x y).contains z = false := by
  have hlt := (LawfulFinite.succ_some x y h).1
  rw [Interval.mkOpen_next h]
  simp only [Interval.contains, RawInterval.contains]
  by_contra hc
  simp only [Bool.not_eq_false, Bool.and_eq_true, decide_eq_true_eq] at hc
  exact absurd (hc.1.trans hc.2) (not_le.2 hlt)

theorem Interval.mkOpen_next_joins {x y : α} (h : succ x = some y) (z : α) : (Interval.mkOpen x y).joins z = decide (z = x) := by
  rw [Interval.joins]
  cases hs : succ z with
  | none =>
    have : z ≠ x := by rintro rfl; rw [h] at hs; cases hs
    simp [this]
  | some w =>
    simp only [Interval.mkOpen_next_contains h]
    rw [Interval.mkOpen_next h, Bool.eq_iff_iff]
    simp only [Interval.lowerBound, Interval.upperBound, RawInterval.lowerBound, RawInterval.upperBound, Option.some.injEq,
      Bound.incl.injEq, Bool.or_eq_true, Bool.and_eq_true, decide_eq_true_eq, Bool.false_eq_true, false_or]
    constructor
    · exact fun h => h.2.symm
    · rintro rfl
      exact ⟨Option.some.inj (h.symm.trans hs), rfl⟩

/-- The values. -/
def StripProg.lones (vs : List α) : StripProg α := vs.foldr (fun v p => .union (.lone v) p) .new

theorem StripProg.lones_legal (vs : List α) : (StripProg.lones vs).Legal := by
  induction vs with
  | nil => trivial
  | cons v vs ih =>
    refine ⟨fun i hi => ?_, ih⟩
    simp only [List.mem_cons, List.not_mem_nil, or_false] at hi
    rcases hi with rfl | rfl
    exacts [.unboundedUpTo v, .unboundedUpFrom v]

theorem StripProg.lones_strip (vs : List α) : (StripProg.lones vs).strip = ⟨fun z => decide (z ∈ vs), fun _ => false⟩ := by
  induction vs with
  | nil => show Strip.mk _ _ = _; simp
  | cons v vs ih =>
    show (StripProg.lone v).strip.both (StripProg.lones vs).strip = _
    rw [ih, StripProg.lone_strip]
    simp [Strip.both]

/-- The joints. -/
theorem Strip.adds_opens (js : List (α × α)) (hj : ∀ j ∈ js, succ j.1 = some j.2) (p : Strip α) :
    (js.map fun j => Interval.mkOpen j.1 j.2).foldl Strip.add p =
      ⟨p.val, fun z => p.joint z || decide (∃ j ∈ js, z = j.1)⟩ := by
  induction js generalizing p with
  | nil => simp
  | cons j js ih =>
    rw [List.map_cons, List.foldl_cons, ih fun k hk => hj k (by simp [hk])]
    have h1 := Interval.mkOpen_next_contains (hj j (by simp))
    have h2 := Interval.mkOpen_next_joins (hj j (by simp))
    simp only [Strip.add, h1, h2, Bool.or_false, Strip.mk.injEq, true_and]
    funext z
    rw [Bool.eq_iff_iff]; simp [or_assoc]

/-- **C154.**  Of a type with finitely many values, every combination of flags (with the last value not joined to a next one)
is that of some program. -/
theorem C154_flags (xs : List α) (hx : ∀ x, x ∈ xs) (q : Strip α) :
    (∃ p : StripProg α, p.Legal ∧ (∀ x, p.strip.val x = q.val x) ∧ ∀ x, p.strip.joint x = q.joint x) ↔
      ∀ x, succ x = none → q.joint x = false := by
  constructor
  · rintro ⟨p, hp, -, h⟩ x hn
    obtain ⟨s, -, hs⟩ := StripProg.of true p hp
    rw [← h]
    exact hs.2.2.2 x hn
  · intro hl
    let js := (xs.filter q.joint).filterMap fun x => (succ x).map fun y => (x, y)
    have mem : ∀ j, j ∈ js ↔ q.joint j.1 = true ∧ succ j.1 = some j.2 := fun j => by
      simp only [js, List.mem_filterMap, List.mem_filter, Option.map_eq_some_iff]
      constructor
      · rintro ⟨x, ⟨-, h⟩, y, hy, rfl⟩
        exact ⟨h, hy⟩
      · rintro ⟨h1, h2⟩
        exact ⟨j.1, ⟨hx _, h1⟩, j.2, h2, rfl⟩
    have e : (StripProg.extend (.lones (xs.filter q.val)) (js.map fun j => Interval.mkOpen j.1 j.2)).strip =
        ⟨fun z => decide (z ∈ xs.filter q.val), fun z => false || decide (∃ j ∈ js, z = j.1)⟩ := by
      rw [StripProg.strip, Strip.adds_opens js fun j hj => ((mem j).1 hj).2, StripProg.lones_strip]
    refine ⟨.extend (.lones (xs.filter q.val)) (js.map fun j => .mkOpen j.1 j.2), ⟨StripProg.lones_legal _, fun i hi => ?_⟩,
      fun x => ?_, fun x => ?_⟩
    · obtain ⟨j, -, rfl⟩ := List.mem_map.1 hi
      exact .mkOpen _ _
    · rw [e, Bool.eq_iff_iff]; simp [hx]
    · rw [e, Bool.eq_iff_iff]
      simp only [Bool.false_or, decide_eq_true_eq]
      constructor
      · rintro ⟨j, hj, rfl⟩
        exact ((mem j).1 hj).1
      · intro h
        cases hs : succ x with
        | none => rw [hl x hs] at h; cases h
        | some y => exact ⟨(x, y), (mem _).2 ⟨h, hs⟩, rfl⟩

theorem U8.listed : ∃ xs : List U8, ∀ x, x ∈ xs := by
  have : ∀ k : Nat, ∃ xs : List U8, ∀ x : U8, x.1 < k → x ∈ xs := fun k => by
    induction k with
    | zero => exact ⟨[], fun x hx => absurd hx (by have := x.2.1; omega)⟩
    | succ k ih =>
      obtain ⟨xs, h⟩ := ih
      refine ⟨if h : (0 : Int) ≤ k ∧ (k : Int) ≤ 255 then ⟨k, h⟩ :: xs else xs, fun x hx => ?_⟩
      by_cases e : x.1 = k
      · rw [dif_pos (e ▸ x.2)]
        exact List.mem_cons.2 (.inl (Subtype.ext e))
      · have := h x (by omega)
        split
        · exact List.mem_cons_of_mem _ this
        · exact this
  obtain ⟨xs, h⟩ := this 256
  exact ⟨xs, fun x => h x (by have := x.2.2; omega)⟩

/-- **C154.**  Of such a type, every selection that any calls make, `intersect` and `intersect_in_place` among them, is made by
a program that only adds, complements and unites. -/
theorem C154_every (xs : List α) (hx : ∀ x, x ∈ xs) (s : Selection α) (hs : s.Reachable) :
    ∃ p : StripProg α, p.Legal ∧ ∀ dbg, p.run dbg = .ok s := by
  let q : Strip α := ⟨at' s.tree, fun x => (succ x).isSome && tcov s.tree true (.fin x)⟩
  have hq : q.Of s := ⟨hs, fun _ => rfl, fun x y hy => by simp [q, hy], fun x hn => by simp [q, hn]⟩
  obtain ⟨p, hp, h1, h2⟩ := (C154_flags xs hx q).2 hq.2.2.2
  refine ⟨p, hp, fun dbg => ?_⟩
  obtain ⟨t, e, ht⟩ := StripProg.of dbg p hp
  have : p.strip = q := by
    rcases hq' : p.strip with ⟨v, j⟩
    rw [hq'] at h1 h2
    exact congrArg₂ Strip.mk (funext h1) (funext h2)
  rw [this] at ht
  rw [e, ht.determines hq]

/-- The flags of a selection. -/
noncomputable def Strip.ofTree (s : Selection α) : Strip α := ⟨at' s.tree, fun x => (succ x).isSome && tcov s.tree true (.fin x)⟩

theorem Strip.ofTree_of {s : Selection α} (hs : s.Reachable) : (Strip.ofTree s).Of s :=
  ⟨hs, fun _ => rfl, fun x y hy => by simp [Strip.ofTree, hy], fun x hn => by simp [Strip.ofTree, hn]⟩

/-- **C154.**  Of a type with n values there are exactly 2^(2n-1) selections that differ by `==`. -/
theorem C154_count [Fintype α] : Nat.card {s : Selection α // s.Reachable} = 2 ^ (2 * Fintype.card α - 1) := by
  classical
  let f : {s : Selection α // s.Reachable} → (α → Bool) × ({x : α // x ≠ maximum} → Bool) :=
    fun s => ((Strip.ofTree s.1).val, fun x => (Strip.ofTree s.1).joint x.1)
  have hf : Function.Bijective f := by
    constructor
    · rintro ⟨s, hs⟩ ⟨t, ht⟩ h
      have h1 : (Strip.ofTree s).val = (Strip.ofTree t).val := congrArg Prod.fst h
      have h2 : ∀ x : α, x ≠ maximum → (Strip.ofTree s).joint x = (Strip.ofTree t).joint x := fun x hx =>
        congrFun (congrArg Prod.snd h) ⟨x, hx⟩
      have e : Strip.ofTree s = Strip.ofTree t := by
        have a := (Strip.ofTree_of hs).2.2.2
        have b := (Strip.ofTree_of ht).2.2.2
        refine congrArg₂ Strip.mk h1 (funext fun x => ?_)
        by_cases hx : x = maximum
        · have hn := (LawfulFinite.succ_none x).2 hx
          exact (a x hn).trans (b x hn).symm
        · exact h2 x hx
      have g := Strip.ofTree_of hs
      rw [e] at g
      exact Subtype.ext (g.determines (Strip.ofTree_of ht))
    · rintro ⟨v, j⟩
      let q : Strip α := ⟨v, fun x => if h : x ≠ maximum then j ⟨x, h⟩ else false⟩
      obtain ⟨p, hp, h1, h2⟩ := (C154_flags Finset.univ.toList (fun x => Finset.mem_toList.2 (Finset.mem_univ x)) q).2
        fun x hn => dif_neg (not_not.2 ((LawfulFinite.succ_none x).1 hn))
      obtain ⟨s, -, hs⟩ := StripProg.of true p hp
      have e := (Strip.ofTree_of hs.1).unique hs
      refine ⟨⟨s, hs.1⟩, Prod.ext ?_ ?_⟩
      · show (Strip.ofTree s).val = v
        rw [e]; exact funext h1
      · funext x
        show (Strip.ofTree s).joint x.1 = j x
        rw [e, h2]
        exact dif_pos x.2
  rw [Nat.card_congr (Equiv.ofBijective f hf), Nat.card_eq_fintype_card]
  rw [Fintype.card_prod, Fintype.card_fun, Fintype.card_fun, Fintype.card_bool, ← pow_add]
  congr 1
  have : 0 < Fintype.card α := Fintype.card_pos_iff.2 ⟨maximum⟩
  have h1 : Fintype.card {x : α // x ≠ maximum} = Fintype.card α - 1 := by
    rw [Fintype.card_subtype_compl, Fintype.card_subtype_eq]
  omega

/-- **C154.**  For each set of values 2^(n-1) of them hold just those values. -/
theorem C154_versions [Fintype α] (dbg : Bool) (X : Set α) :
    Nat.card {s : Selection α // s.Reachable ∧ s.pts dbg = X} = 2 ^ (Fintype.card α - 1) := by
  classical
  have pts : ∀ {s : Selection α}, s.Reachable → ∀ x, (Strip.ofTree s).val x = true ↔ x ∈ s.pts dbg := fun hs x =>
    (Selection.mem_pts dbg (Selection.reachable_valid hs) x).symm
  let f : {s : Selection α // s.Reachable ∧ s.pts dbg = X} → ({x : α // x ≠ maximum} → Bool) :=
    fun s x => (Strip.ofTree s.1).joint x.1
  have hf : Function.Bijective f := by
    constructor
    · rintro ⟨s, hs, hX⟩ ⟨t, ht, hY⟩ h
      have e : Strip.ofTree s = Strip.ofTree t := by
        have a := (Strip.ofTree_of hs).2.2.2
        have b := (Strip.ofTree_of ht).2.2.2
        refine congrArg₂ Strip.mk (funext fun x => Bool.eq_iff_iff.2 ?_) (funext fun x => ?_)
        · exact (pts hs x).trans ((by rw [hX, hY] : x ∈ s.pts dbg ↔ x ∈ t.pts dbg).trans (pts ht x).symm)
        · by_cases hx : x = maximum
          · have hn := (LawfulFinite.succ_none x).2 hx
            exact (a x hn).trans (b x hn).symm
          · exact congrFun h ⟨x, hx⟩
      have g := Strip.ofTree_of hs
      rw [e] at g
      exact Subtype.ext (g.determines (Strip.ofTree_of ht))
    · intro j
      let q : Strip α := ⟨fun x => decide (x ∈ X), fun x => if h : x ≠ maximum then j ⟨x, h⟩ else false⟩
      obtain ⟨p, hp, h1, h2⟩ := (C154_flags Finset.univ.toList (fun x => Finset.mem_toList.2 (Finset.mem_univ x)) q).2
        fun x hn => dif_neg (not_not.2 ((LawfulFinite.succ_none x).1 hn))
      obtain ⟨s, -, hs⟩ := StripProg.of true p hp
      have e := (Strip.ofTree_of hs.1).unique hs
      refine ⟨⟨s, hs.1, Set.ext fun x => ?_⟩, funext fun x => ?_⟩
      · rw [← pts hs.1, e, h1]; simp [q]
      · show (Strip.ofTree s).joint x.1 = j x
        rw [e, h2]
        exact dif_pos x.2
  rw [Nat.card_congr (Equiv.ofBijective f hf), Nat.card_eq_fintype_card, Fintype.card_fun, Fintype.card_bool,
    Fintype.card_subtype_compl, Fintype.card_subtype_eq]

/-- Such as `u8`: 2^511 selections, 2^255 for each set of values. -/
example : Nonempty (Fintype U8) := by
  obtain ⟨xs, h⟩ := U8.listed
  exact ⟨⟨xs.toFinset, fun x => List.mem_toFinset.2 (h x)⟩⟩

/-- What `intersect` makes is among them. -/
example : ∃ s : Selection U8, s.Reachable ∧ s.tree = [.lower (.excl (u8 0)), .upper (.excl (u8 2))] :=
  ⟨⟨[.lower (.excl (u8 0)), .upper (.excl (u8 2))]⟩, .intersect (dbg := true) .full (.ofInterval (.point (u8 1))) (by decide), rfl⟩

end NI
