import Verif.Lemmas.TreeEnc
import Verif.Lemmas.Interval

/-!
# Trees over finite types

`Selection` stores trees over a `Finite` type.  Here: coverage just before and after a point in terms
of the neighbouring points; the shape of the trees built by uniting intervals (`DO`), of their
complements (`CO`), and of trees without stretches that hold no point (`NP`).
-/

set_option linter.unusedSimpArgs false
set_option linter.unusedVariables false
set_option linter.unnecessarySeqFocus false
set_option linter.unusedSectionVars false
set_option linter.unusedTactic false
set_option linter.unreachableTactic false
set_option linter.unnecessarySimpa false

namespace NI
open Finite

/-! ## Denormalized intervals -/

namespace RawInterval
variable {α : Type} [LinearOrder α] [Finite α] [LawfulFinite α]

theorem denorm_wf {i : RawInterval α} (h : i.NF) : i.denormalized.WF := by
  have key : ∀ l u : α, l ≤ u → (closed l u).denormalized.WF := by
    intro l u h
    simp only [denormalized]
    cases h1 : pred l <;> cases h2 : succ u <;> simp only [WF]
    exact lt_of_lt_of_le (LawfulFinite.pred_some _ _ h1).1
      (h.trans (LawfulFinite.succ_some _ _ h2).1.le)
  cases i <;> simp only [NF] at h
  case empty => trivial
  case point p => exact key p p le_rfl
  case closed l u =>
    rcases h with h | h
    · exact key l u h
    · simp only [denormalized, pred_of_succ h, h, WF]
      exact (LawfulFinite.succ_some _ _ h).1

theorem denorm_pts {i : RawInterval α} (h : i.NF) : i.denormalized.pts = i.pts :=
  denormalized_pts i (by rintro p rfl; exact h) (by rintro p rfl; exact h)

theorem denorm_contains {i : RawInterval α} (h : i.NF) (x : α) :
    i.denormalized.contains x = i.contains x := by
  rw [Bool.eq_iff_iff, contains_iff, contains_iff, denorm_pts h]

/-- Denormalized intervals are open. -/
theorem denorm_open {i : RawInterval α} (h : i.NF) : i.denormalized = empty ∨
    (∃ a b, i.denormalized = opn a b) ∨ (∃ a, i.denormalized = upFrom a) ∨
    (∃ b, i.denormalized = upTo b) ∨ i.denormalized = full := by
  cases i <;> simp only [NF] at h <;> simp only [denormalized]
  case empty => simp
  case point p => cases pred p <;> cases succ p <;> simp
  case closed l u => cases pred l <;> cases succ u <;> simp

theorem denorm_not_point {i : RawInterval α} (h : i.NF) (p : α) : i.denormalized ≠ point p := by
  rcases denorm_open h with e | ⟨a, b, e⟩ | ⟨a, e⟩ | ⟨b, e⟩ | e <;> rw [e] <;> simp

end RawInterval

namespace TT
variable {α : Type} [LinearOrder α]
open BSet (Lt Gt At)

/-- If no tine lies strictly between two keys, coverage before the second is coverage after the
first. -/
theorem bef_cov {s : Bool} {ts : List (Tine α)} {k k' : Key α} (hk : k < k')
    (h : ∀ t ∈ ts, k < t.key → k' ≤ t.key) : bef s ts k' = cov true s ts k := by
  induction ts generalizing s with
  | nil => rfl
  | cons t ts ih =>
    rw [bef, cov]
    by_cases h1 : k < t.key
    · rw [if_pos (h t (by simp) h1), if_pos h1]
    · rw [if_neg (fun h2 => h1 (lt_of_lt_of_le hk h2)), if_neg h1, if_neg (by simp)]
      exact ih fun t ht => h t (by simp [ht])

variable [Finite α] [LawfulFinite α]

/-- Points of a tree. -/
noncomputable abbrev at' (t : TineTree α) (x : α) : Bool := tcov t false (.fin x)

theorem key_cases (k : Key α) : k = .bot ∨ (∃ x, k = .fin x) ∨ k = .top := by
  cases k <;> simp

theorem bef_pred {t : TineTree α} {x y : α} (h : pred x = some y) :
    bef false t (.fin x) = tcov t true (.fin y) := by
  have h1 := LawfulFinite.pred_some x y h
  refine bef_cov (by simpa using h1.1) fun s _ hs => ?_
  rcases key_cases s.key with e | ⟨z, e⟩ | e <;> rw [e] at hs ⊢
  · exact absurd hs (Key.not_lt_bot _)
  · have hs : y < z := by simpa using hs
    by_contra hc
    have hc : z < x := by simpa using not_le.1 hc
    exact absurd (h1.2 z hc) (not_le.2 hs)
  · exact key_le_top _

theorem bef_min {t : TineTree α} {x : α} (h : pred x = none) :
    bef false t (.fin x) = tcov t true .bot := by
  refine bef_cov (by simp) fun s _ hs => ?_
  rcases key_cases s.key with e | ⟨z, e⟩ | e <;> rw [e] at hs ⊢
  · exact absurd hs (lt_irrefl _)
  · by_contra hc
    have hc : z < x := by simpa using not_le.1 hc
    exact absurd (not_lt_of_pred h z) (not_le.2 hc)
  · exact key_le_top _

theorem bef_top {t : TineTree α} : bef false t .top = tcov t true (.fin maximum) := by
  refine bef_cov (by simp) fun s _ hs => ?_
  rcases key_cases s.key with e | ⟨z, e⟩ | e <;> rw [e] at hs ⊢
  · exact absurd hs (Key.not_lt_bot _)
  · have hs : maximum < z := by simpa using hs
    exact absurd (le_maximum z) (not_le.2 hs)

/-- After a point iff the point or its successor is in: unions of denormalized intervals. -/
def DO (t : TineTree α) : Prop :=
  (∀ x, tcov t true (.fin x) = (at' t x || (succ x).elim false (at' t))) ∧
  tcov t true .bot = at' t minimum

/-- After a point iff the point and its successor are in: complements of `DO` trees. -/
def CO (t : TineTree α) : Prop :=
  (∀ x, tcov t true (.fin x) = (at' t x && (succ x).elim true (at' t))) ∧
  tcov t true .bot = at' t minimum

/-- Every stretch holds a point. -/
def NP (t : TineTree α) : Prop :=
  (∀ x, tcov t true (.fin x) = true → at' t x = true ∨ (succ x).elim false (at' t) = true) ∧
  (tcov t true .bot = true → at' t minimum = true)

/-- No single point is left out of the tree. -/
def NoHole (t : TineTree α) : Prop := ∀ x, holeAt t (.fin x) = false

theorem DO.np {t : TineTree α} (h : DO t) : NP t :=
  ⟨fun x hx => by rw [h.1] at hx; simpa using hx, fun hx => by rw [← h.2]; exact hx⟩

theorem CO.np {t : TineTree α} (h : CO t) : NP t :=
  ⟨fun x hx => by rw [h.1] at hx; simp at hx; exact .inl hx.1, fun hx => by rw [← h.2]; exact hx⟩

theorem DO.bef {t : TineTree α} (h : DO t) (x : α) :
    TT.bef false t (.fin x) = (at' t x || (pred x).elim false (at' t)) := by
  cases hp : pred x with
  | none =>
    rw [bef_min hp, h.2]
    rw [LawfulFinite.pred_none] at hp; subst hp; simp
  | some y => rw [bef_pred hp, h.1, succ_of_pred hp]; simp [Bool.or_comm]

theorem CO.bef {t : TineTree α} (h : CO t) (x : α) :
    TT.bef false t (.fin x) = (at' t x && (pred x).elim true (at' t)) := by
  cases hp : pred x with
  | none =>
    rw [bef_min hp, h.2]
    rw [LawfulFinite.pred_none] at hp; subst hp; simp
  | some y => rw [bef_pred hp, h.1, succ_of_pred hp]; simp [Bool.and_comm]

theorem CO.noHole {t : TineTree α} (h : CO t) : NoHole t := by
  intro x
  rw [holeAt, h.bef]
  change (_ && !at' t x && _) = _
  cases at' t x <;> simp

theorem DO.hole {t : TineTree α} (h : DO t) (x : α) :
    holeAt t (.fin x) = (!at' t x && (pred x).elim false (at' t) && (succ x).elim false (at' t)) := by
  rw [holeAt, h.bef, h.1]
  change (_ && !at' t x && _) = _
  cases at' t x <;> simp

theorem DO.nil : DO ([] : TineTree α) := by
  refine ⟨fun x => ?_, rfl⟩
  cases succ x <;> simp [tcov, cov]

/-- Coverage after a point of the open intervals. -/
theorem icov_opn {a b : α} (h : a < b) (x : α) :
    icov (.opn a b) true (.fin x) = (decide (a ≤ x) && decide (x < b)) ∧
    icov (.opn a b) true .bot = false := by
  constructor
  · rw [icov, show Tine.fromRawInterval (.opn a b) = [.lower (.excl a), .upper (.excl b)] from rfl]
    simp only [cov, Tine.key, Key.fin_lt_fin, Tine.isLowerBound]
    by_cases h1 : x < a
    · simp [h1, h1.not_ge]
    · by_cases h2 : x < b <;> simp [h1, h2, not_lt.1 h1]
  · rw [icov, show Tine.fromRawInterval (.opn a b) = [.lower (.excl a), .upper (.excl b)] from rfl]
    simp [cov, Tine.key]

theorem icov_upTo (b x : α) : icov (.upTo b) true (.fin x) = decide (x < b) ∧
    icov (.upTo b) true .bot = true := by
  have hb := (Key.bot_lt_fin x).not_gt
  constructor
  · rw [icov, show Tine.fromRawInterval (.upTo b) = [.lower .inf, .upper (.excl b)] from rfl]
    by_cases h2 : x < b <;> simp [cov, Tine.key, Tine.isLowerBound, hb, h2]
  · rw [icov, show Tine.fromRawInterval (.upTo b) = [.lower .inf, .upper (.excl b)] from rfl]
    simp [cov, Tine.key, Tine.isLowerBound]

theorem icov_upFrom (a x : α) : icov (.upFrom a) true (.fin x) = decide (a ≤ x) ∧
    icov (.upFrom a) true .bot = false := by
  constructor
  · rw [icov, show Tine.fromRawInterval (.upFrom a) = [.lower (.excl a), .upper .inf] from rfl]
    by_cases h2 : x < a <;> simp [cov, Tine.key, Tine.isLowerBound, h2] <;> grind
  · rw [icov, show Tine.fromRawInterval (.upFrom a) = [.lower (.excl a), .upper .inf] from rfl]
    simp [cov, Tine.key, Tine.isLowerBound]

theorem icov_full (x : α) : icov (.full) true (.fin x) = true ∧
    icov (.full : RawInterval α) true .bot = true := by
  have hb := (Key.bot_lt_fin x).not_gt
  constructor
  · rw [icov, show Tine.fromRawInterval (.full) = [.lower .inf, .upper .inf] from rfl]
    simp [cov, Tine.key, Tine.isLowerBound, hb]
  · rw [icov, show Tine.fromRawInterval (.full : RawInterval α) = [.lower .inf, .upper .inf] from rfl]
    simp [cov, Tine.key, Tine.isLowerBound]

/-- An `Interval` value, denormalized for insertion, has the `DO` shape. -/
theorem denorm_do {i : Interval α} (hi : i.Obtainable) (hr : i.Real) :
    DO (Tine.fromRawInterval i.raw.denormalized) := by
  have hnf := Interval.obtainable_nf hi
  have hwf := RawInterval.denorm_wf hnf
  change (∀ x, icov i.raw.denormalized true (.fin x) =
    (icov i.raw.denormalized false (.fin x) ||
      (succ x).elim false fun y => icov i.raw.denormalized false (.fin y))) ∧
    icov i.raw.denormalized true .bot = icov i.raw.denormalized false (.fin minimum)
  simp only [icov_fin hwf, RawInterval.denorm_contains hnf]
  have key : ∀ l u : α, l ≤ u → (RawInterval.closed l u).denormalized.WF →
      (∀ x, icov (RawInterval.closed l u).denormalized true (.fin x) =
    ((RawInterval.closed l u).contains x ||
      (succ x).elim false fun y => (RawInterval.closed l u).contains y)) ∧
    icov (RawInterval.closed l u).denormalized true .bot =
      (RawInterval.closed l u).contains minimum := by
    intro l u h hwf
    have a1 : ∀ a, pred l = some a → ∀ x, (a ≤ x ↔ l ≤ x ∨ (x < l ∧ succ x = some l)) := by
      intro a ha x
      have h1 := LawfulFinite.pred_some l a ha
      constructor
      · intro hx
        rcases lt_or_ge x l with hl | hl
        · right
          have : x = a := le_antisymm (h1.2 x hl) hx
          exact ⟨hl, this ▸ succ_of_pred ha⟩
        · exact .inl hl
      · rintro (hx | ⟨_, hx⟩)
        · exact h1.1.le.trans hx
        · have := pred_of_succ hx
          rw [ha] at this; cases this; exact le_rfl
    have a2 : ∀ b, succ u = some b → ∀ x, (x < b ↔ x ≤ u) := fun b hb x => by
      rw [← not_le, succ_le_iff hb, not_lt]
    have a3 : pred l = none → ∀ x, l ≤ x := fun hs x => not_lt_of_pred hs x
    have a4 : succ u = none → ∀ x, x ≤ u := fun hs x => not_gt_of_succ hs x
    have a5 : ∀ x y, succ x = some y → (y ≤ u ↔ x < u) ∧ (l ≤ y ↔ (l ≤ x ∨ y = l)) := by
      intro x y hxy
      have h1 := LawfulFinite.succ_some x y hxy
      refine ⟨succ_le_iff hxy u, ⟨fun hl => ?_, ?_⟩⟩
      · rcases lt_or_ge x l with hl' | hl'
        · exact .inr (le_antisymm (h1.2 l hl') hl)
        · exact .inl hl'
      · rintro (hl | rfl)
        · exact hl.trans h1.1.le
        · exact le_rfl
    simp only [RawInterval.denormalized] at hwf ⊢
    have hmin := minimum_le l
    have pn := LawfulFinite.pred_none l
    have cc : ∀ x, (RawInterval.closed l u).contains x = (decide (l ≤ x) && decide (x ≤ u)) := by
      intro x; rw [Bool.eq_iff_iff, RawInterval.contains_iff]; simp [RawInterval.pts]
    constructor
    · intro x
      have g : ((RawInterval.closed l u).contains x ||
          (succ x).elim false fun y => (RawInterval.closed l u).contains y) =
          decide ((l ≤ x ∨ (x < l ∧ succ x = some l)) ∧ x ≤ u) := by
        rw [Bool.eq_iff_iff]
        simp only [cc, Bool.or_eq_true, Bool.and_eq_true, decide_eq_true_eq]
        cases hs : succ x with
        | none =>
          have := not_gt_of_succ hs l
          simp [this]
        | some y =>
          obtain ⟨g1, g2⟩ := a5 x y hs
          have g3 := (LawfulFinite.succ_some x y hs).1
          simp only [Option.elim, Bool.and_eq_true, decide_eq_true_eq, g1, g2, Option.some.injEq]
          constructor
          · rintro (⟨h1, h2⟩ | ⟨h1 | h1, h2⟩)
            · exact ⟨.inl h1, h2⟩
            · exact ⟨.inl h1, h2.le⟩
            · exact ⟨.inr ⟨h1 ▸ g3, h1⟩, h2.le⟩
          · rintro ⟨h1 | ⟨h0, h1⟩, h2⟩
            · exact .inl ⟨h1, h2⟩
            · exact .inr ⟨.inr h1, lt_of_lt_of_le h0 h⟩
      rw [g]
      cases h1 : pred l <;> cases h2 : succ u <;> simp only [h1, h2] at hwf ⊢
      · rw [(icov_full x).1]
        simp [a3 h1 x, a4 h2 x]
      · rw [(icov_upTo _ x).1]
        simp [a3 h1 x, a2 _ h2 x]
      · rw [(icov_upFrom _ x).1]
        simp [a1 _ h1 x, a4 h2 x]
      · rw [(icov_opn hwf x).1, Bool.eq_iff_iff]
        simp only [Bool.and_eq_true, decide_eq_true_eq, a1 _ h1 x, a2 _ h2 x]
    · rw [cc]
      have hum : minimum ≤ u := minimum_le u
      cases h1 : pred l <;> cases h2 : succ u <;> simp only [h1, h2] at hwf ⊢
      · rw [(icov_full l).2]; simp [a3 h1, hum]
      · rw [(icov_upTo _ l).2]; simp [a3 h1, hum]
      all_goals
        have : ¬ l ≤ minimum := fun hl => by
          have := pn.2 (le_antisymm hl hmin); rw [h1] at this; cases this
      · rw [(icov_upFrom _ l).2]; simp [this]
      · rw [(icov_opn hwf l).2]; simp [this]
  rcases Interval.real_cases hi hr with rfl | ⟨p, rfl⟩ | ⟨l, u, rfl, hlu⟩
  · refine ⟨fun x => ?_, rfl⟩
    cases succ x <;> rfl
  · have := key p p le_rfl hwf
    have cc : ∀ x, (RawInterval.closed p p).contains x = (RawInterval.point p).contains x := by
      intro x; rw [Bool.eq_iff_iff, RawInterval.contains_iff, RawInterval.contains_iff]
      simp [RawInterval.pts]
    simp only [cc] at this
    exact this
  · exact key l u hlu hwf

/-! ## Preservation -/

theorem DO.or {t1 t2 t3 : TineTree α} (h1 : DO t1) (h2 : DO t2)
    (h : ∀ aft k, tcov t3 aft k = (tcov t1 aft k || tcov t2 aft k)) : DO t3 := by
  refine ⟨fun x => ?_, ?_⟩
  · simp only [at', h, h1.1, h2.1]
    cases succ x <;> simp [at', h] <;> grind
  · simp only [at', h, h1.2, h2.2]

theorem NP.or {t1 t2 t3 : TineTree α} (h1 : NP t1) (h2 : NP t2)
    (h : ∀ aft k, tcov t3 aft k = (tcov t1 aft k || tcov t2 aft k)) : NP t3 := by
  refine ⟨fun x => ?_, ?_⟩
  · have g1 := h1.1 x
    have g2 := h2.1 x
    simp only [at', h]
    cases hs : succ x <;> simp [hs] at g1 g2 ⊢ <;> grind
  · simp only [at', h]
    have g1 := h1.2
    have g2 := h2.2
    simp only [Bool.or_eq_true]
    exact fun h => h.imp g1 g2

theorem DO.compl {t t' : TineTree α} (h : DO t)
    (hc : ∀ aft k, RealPos aft k → tcov t' aft k = !tcov t aft k) : CO t' := by
  have c1 : ∀ x, tcov t' true (.fin x) = !tcov t true (.fin x) := fun x =>
    hc true (.fin x) ⟨by simp, by simp⟩
  have c2 : ∀ x, tcov t' false (.fin x) = !tcov t false (.fin x) := fun x =>
    hc false (.fin x) ⟨by simp, by simp⟩
  refine ⟨fun x => ?_, ?_⟩
  · simp only [at', c1, c2, h.1]
    cases succ x <;> simp [at', c2]
  · rw [hc true .bot ⟨by simp, by simp⟩, h.2]
    simp only [at', c2]

/-- The contained points determine a `DO` tree. -/
theorem DO.ext {t t' : TineTree α} (v : Valid t) (v' : Valid t') (h : DO t) (h' : DO t')
    (hp : ∀ x, at' t x = at' t' x) : t = t' := by
  refine valid_ext v v' fun aft k hr => ?_
  change tcov t aft k = tcov t' aft k
  have hp' : at' t = at' t' := funext hp
  rcases key_cases k with rfl | ⟨x, rfl⟩ | rfl
  · rw [hr.2 rfl, h.2, h'.2, hp]
  · cases aft
    · exact hp x
    · rw [h.1, h'.1, hp']
  · exact absurd rfl hr.1

theorem CO.ext {t t' : TineTree α} (v : Valid t) (v' : Valid t') (h : CO t) (h' : CO t')
    (hp : ∀ x, at' t x = at' t' x) : t = t' := by
  refine valid_ext v v' fun aft k hr => ?_
  change tcov t aft k = tcov t' aft k
  have hp' : at' t = at' t' := funext hp
  rcases key_cases k with rfl | ⟨x, rfl⟩ | rfl
  · rw [hr.2 rfl, h.2, h'.2, hp]
  · cases aft
    · exact hp x
    · rw [h.1, h'.1, hp']
  · exact absurd rfl hr.1

/-! ## Pieces -/

theorem piece_in {t : TineTree α} (h : Valid t) {i : RawInterval α} (hi : i ∈ pieces none t) {x : α}
    (hx : i.contains x = true) : at' t x = true := by
  have := contains_ok true h x
  rw [contains_eq true h, Except.ok.injEq] at this
  rw [at', ← this, List.any_eq_true]
  exact ⟨i, hi, hx⟩

theorem in_piece {t : TineTree α} (h : Valid t) {x : α} (hx : at' t x = true) :
    ∃ i ∈ pieces none t, i.contains x = true := by
  have := contains_ok true h x
  rw [contains_eq true h, Except.ok.injEq] at this
  rw [at', ← this, List.any_eq_true] at hx
  exact hx

theorem piece_bounds {t : TineTree α} (h : Valid t) {i : RawInterval α} (hi : i ∈ pieces none t) :
    ∃ l u, i.lowerBound = some l ∧ i.upperBound = some u ∧ l.Compat u := by
  have hw := (pieces_wf h.1).1 i hi
  rcases i.bounds_cases with ⟨z, _⟩ | ⟨l, u, h1, h2, _⟩
  · exact absurd z hw.2
  · exact ⟨l, u, h1, h2, RawInterval.wf_compat hw.1 h1 h2⟩

/-- In a tree without empty stretches, every piece holds a point. -/
theorem NP.piece {t : TineTree α} (v : Valid t) (h : NP t) {i : RawInterval α}
    (hi : i ∈ pieces none t) : ∃ x, i.contains x = true := by
  obtain ⟨l, u, h1, h2, hc⟩ := piece_bounds v hi
  have mk : ∀ x, l.AdmitsAbove x → u.AdmitsBelow x → ∃ x, i.contains x = true := fun x g1 g2 =>
    ⟨x, (RawInterval.contains_iff_bounds i x).2 ⟨l, u, h1, h2, g1, g2⟩⟩
  have hup : ∀ q, u = .excl q → bef false t (.fin q) = true ∧ at' t q = false := fun q hq =>
    (open_upper_iff v q).1 ⟨i, hi, by rw [h2, hq]⟩
  rcases l with p | p | _
  · refine mk p (le_refl p) ?_
    rcases u with q | q | _ <;> simpa [Bound.Compat, Bound.AdmitsBelow] using hc
  · obtain ⟨e1, e2⟩ := (open_lower_iff v p).1 ⟨i, hi, h1⟩
    have := h.1 p e2
    rw [at', e1] at this
    simp only [Bool.false_eq_true, false_or] at this
    cases hs : succ p with
    | none => simp [hs] at this
    | some y =>
      have h3 := LawfulFinite.succ_some p y hs
      rw [hs] at this
      refine mk y h3.1 ?_
      rcases u with q | q | _
      · exact h3.2 q (by simpa [Bound.Compat] using hc)
      · refine lt_of_le_of_ne (h3.2 q (by simpa [Bound.Compat] using hc)) ?_
        rintro rfl
        have h4 := (hup y rfl).2
        have this : at' t y = true := this
        rw [this] at h4; cases h4
      · trivial
  · rcases u with q | q | _
    · exact mk q trivial (le_refl q)
    · refine mk minimum trivial (lt_of_le_of_ne (minimum_le q) ?_)
      rintro rfl
      obtain ⟨e1, e2⟩ := hup _ rfl
      rw [bef_min ((LawfulFinite.pred_none _).2 rfl)] at e1
      rw [h.2 e1] at e2; cases e2
    · exact mk minimum trivial trivial

theorem pieces_closed_upper {ts : List (Tine α)} (hs : Sorted ts) (p : α) :
    (Chain false ts false →
      ((∃ i ∈ pieces none ts, i.upperBound = some (.incl p)) ↔
        (Tine.upper (.incl p) ∈ ts ∨ Tine.point (.incl p) ∈ ts))) ∧
    (∀ b, Chain true ts false → Gt ts (Tine.lower b).key →
      ((∃ i ∈ pieces (some b) ts, i.upperBound = some (.incl p)) ↔
        (Tine.upper (.incl p) ∈ ts ∨ Tine.point (.incl p) ∈ ts))) := by
  induction ts with
  | nil => exact ⟨by simp [pieces], by simp [pieces]⟩
  | cons t ts ih =>
    obtain ⟨h1, h2, h3⟩ := sorted_cons.1 hs
    obtain ⟨ih1, ih2⟩ := ih h3
    constructor
    · rintro ⟨c1, c2⟩
      rcases t with b | (q | q | _) | b <;>
        simp [Tine.isUpperBound, Tine.isLowerBound] at c1 c2
      · rw [pieces, ih2 b c2 h2]; simp
      · rw [pieces, ex_cons, ih1 c2]
        simp [RawInterval.upperBound, eq_comm]; tauto
      · exact absurd rfl h1
    · rintro b ⟨c1, c2⟩ hgt
      have hbk := (hgt t (List.mem_cons_self)).2
      rcases t with u | (q | q | _) | u <;>
        simp [Tine.isUpperBound, Tine.isLowerBound] at c1 c2
      · rw [pieces, ex_cons, ih2 (.excl q) c2 h2,
          (new_bounds (u := .excl q) (show (Tine.lower b).key < _ from hbk)).2]
        simp [eq_comm]
      · rw [pieces, ex_cons, ih1 c2, (new_bounds hbk).2]
        simp [eq_comm]; tauto

theorem closed_upper_iff {t : TineTree α} (h : Valid t) (p : α) :
    (∃ i ∈ pieces none t, i.upperBound = some (.incl p)) ↔
      tcov t false (.fin p) = true ∧ tcov t true (.fin p) = false := by
  obtain ⟨o⟩ := one h (.fin p)
  obtain ⟨v1, v2, v3⟩ := o.views
  rw [(pieces_closed_upper h.1 p).1 h.2, mem_edge o rfl, mem_edge o rfl, v2, v3]
  cases o.b <;> cases o.a <;> cases o.c <;> simp [edge]

/-- In `DO` trees the pieces are separated by a point outside the tree. -/
theorem DO.gap {t : TineTree α} (v : Valid t) (h : DO t) : (pieces none t).Pairwise fun i j =>
    ∃ z, at' t z = false ∧ (∀ x, i.contains x = true → x < z) ∧
      ∀ y, j.contains y = true → z < y := by
  refine (pieces_sep v.1).1.imp_of_mem ?_
  rintro i j hi hj ⟨u, l, h1, h2, h3⟩
  have hxu : ∀ x, i.contains x = true → u.AdmitsBelow x := by
    intro x hx
    rw [RawInterval.contains_iff_bounds] at hx
    obtain ⟨_, _, _, g1, _, g2⟩ := hx
    rw [h1] at g1; cases g1; exact g2
  have hyl : ∀ y, j.contains y = true → l.AdmitsAbove y := by
    intro x hx
    rw [RawInterval.contains_iff_bounds] at hx
    obtain ⟨_, _, g1, _, g2, _⟩ := hx
    rw [h2] at g1; cases g1; exact g2
  rcases u with p | p | _
  · -- an included end does not occur
    exfalso
    obtain ⟨e1, e2⟩ := (closed_upper_iff v p).1 ⟨i, hi, h1⟩
    have e1 : at' t p = true := e1
    rw [h.1, e1] at e2; simp at e2
  · obtain ⟨e1, e2⟩ := (open_upper_iff v p).1 ⟨i, hi, h1⟩
    refine ⟨p, e2, hxu, fun y hy => ?_⟩
    have := hyl y hy
    rcases h3 with h3 | ⟨q, h3, rfl⟩
    · rcases l with q | q | _ <;> simp [Tine.key] at h3
      · exact lt_of_lt_of_le h3 this
      · exact lt_trans h3 this
    · cases h3; exact this
  · rcases h3 with h3 | ⟨q, h3, _⟩
    · exact absurd h3 (Key.not_top_lt _)
    · cases h3

/-- In `CO` trees the pieces are separated by a point outside the tree. -/
theorem CO.gap {t : TineTree α} (v : Valid t) (h : CO t) : (pieces none t).Pairwise fun i j =>
    ∃ z, at' t z = false ∧ (∀ x, i.contains x = true → x < z) ∧
      ∀ y, j.contains y = true → z < y := by
  refine (pieces_sep v.1).1.imp_of_mem ?_
  rintro i j hi hj ⟨u, l, h1, h2, h3⟩
  have hxu : ∀ x, i.contains x = true → u.AdmitsBelow x := by
    intro x hx
    rw [RawInterval.contains_iff_bounds] at hx
    obtain ⟨_, _, _, g1, _, g2⟩ := hx
    rw [h1] at g1; cases g1; exact g2
  have hyl : ∀ y, j.contains y = true → l.AdmitsAbove y := by
    intro x hx
    rw [RawInterval.contains_iff_bounds] at hx
    obtain ⟨_, _, g1, _, g2, _⟩ := hx
    rw [h2] at g1; cases g1; exact g2
  rcases u with p | p | _
  · obtain ⟨e1, e2⟩ := (closed_upper_iff v p).1 ⟨i, hi, h1⟩
    have e1 : at' t p = true := e1
    rw [h.1, e1, Bool.true_and] at e2
    cases hs : succ p with
    | none => simp [hs] at e2
    | some z =>
      rw [hs] at e2
      have e2 : at' t z = false := e2
      have h5 := LawfulFinite.succ_some p z hs
      refine ⟨z, e2, fun x hx => lt_of_le_of_lt (hxu x hx) h5.1, fun y hy => ?_⟩
      have hpy : p < y := sep_lt h3 (le_refl p) (hyl y hy)
      refine lt_of_le_of_ne (h5.2 y hpy) ?_
      rintro rfl
      rw [piece_in v hj hy] at e2; cases e2
  · exfalso
    obtain ⟨e1, e2⟩ := (open_upper_iff v p).1 ⟨i, hi, h1⟩
    have e2 : at' t p = false := e2
    rw [h.bef, e2] at e1; simp at e1
  · rcases h3 with h3 | ⟨q, h3, _⟩
    · exact absurd h3 (Key.not_top_lt _)
    · cases h3

end TT
end NI
