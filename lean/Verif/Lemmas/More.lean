import Verif.SpecMore
import Verif.Lemmas.Text
import Verif.Lemmas.SelMore

/-! # Lemmas for the properties C63 and later -/

set_option linter.unusedSimpArgs false
set_option linter.unusedVariables false
set_option linter.unnecessarySeqFocus false
set_option linter.unusedSectionVars false

namespace NI
open Finite TT

/-! ## Fused -/

theorem fused_nil {β : Type _} : Fused ([] : List (Option β)) := List.Pairwise.nil

theorem fused_some {β : Type _} {a : β} {os : List (Option β)} (h : Fused os) : Fused (some a :: os) :=
  List.pairwise_cons.2 ⟨fun b _ (e : some a = none) => (nomatch e), h⟩

theorem fused_none {β : Type _} {os : List (Option β)} (h : ∀ o ∈ os, o = none) : Fused (none :: os) := by
  refine List.pairwise_cons.2 ⟨fun b hb _ => h b hb, ?_⟩
  exact List.pairwise_of_forall_mem_list fun a _ b hb _ => h b hb

theorem Walk.all_none {α : Type _} [LinearOrder α] {S : Set α} {cs : List IterCall}
    {os : List (Option α)} (h : Walk S cs os) (hS : S = ∅) : ∀ o ∈ os, o = none := by
  induction h with
  | nil => simp
  | next hm => rw [hS] at hm; exact absurd hm.1 id
  | nextBack hm => rw [hS] at hm; exact absurd hm.1 id
  | done _ _ ih => simpa using ih hS

theorem Walk.fused {α : Type _} [LinearOrder α] {S : Set α} {cs : List IterCall}
    {os : List (Option α)} (h : Walk S cs os) : Fused os := by
  induction h with
  | nil => exact fused_nil
  | next _ _ ih => exact fused_some ih
  | nextBack _ _ ih => exact fused_some ih
  | done hS h _ => exact fused_none (h.all_none hS)

theorem Drain.all_none {α : Type _} {S : Set α} {os : List (Option α)} (h : Drain S os) (hS : S = ∅) :
    ∀ o ∈ os, o = Option.none := by
  induction h with
  | nil => simp
  | some hm => rw [hS] at hm; exact absurd hm id
  | none _ _ ih => simpa using ih hS

theorem Drain.fused {α : Type _} {S : Set α} {os : List (Option α)} (h : Drain S os) : Fused os := by
  induction h with
  | nil => exact fused_nil
  | some _ _ ih => exact fused_some ih
  | none hS h _ => exact fused_none (h.all_none hS)

theorem Deque.all_none {β : Type _} {l : List β} {cs : List IterCall} {os : List (Option β)}
    (h : Deque l cs os) (hl : l = []) : ∀ o ∈ os, o = none := by
  induction h with
  | nil => simp
  | next => cases hl
  | nextBack => simp at hl
  | done _ ih => simpa using ih rfl

theorem Deque.fused {β : Type _} {l : List β} {cs : List IterCall} {os : List (Option β)}
    (h : Deque l cs os) : Fused os := by
  induction h with
  | nil => exact fused_nil
  | next _ ih => exact fused_some ih
  | nextBack _ ih => exact fused_some ih
  | done h _ => exact fused_none (h.all_none rfl)

/-! ## Interval iterators -/

section Tree
variable {α : Type} [LinearOrder α]

theorem TT.fwd_deque (dbg : Bool) (n : Nat) : ∀ {ts : List (Tine α)} {saved : Option α},
    (∀ t ∈ ts, t.Ok) → Chain saved.isSome ts false →
    ∃ os, drive (TineIter.next dbg) (TineIter.nextBack dbg) (itState ts saved)
        (List.replicate n .next) = .ok os ∧
      Deque (pieces (saved.map .excl) ts) (List.replicate n .next) os := by
  induction n with
  | zero => intros; exact ⟨[], rfl, .nil _⟩
  | succ n ih =>
    intro ts saved hok hc
    rw [List.replicate_succ]
    rcases next_step dbg ts saved hok hc with ⟨k1, k2, k3, k4⟩ | ⟨i, ts', saved', k1, k2, k3, k4, k5⟩
    · subst k1 k2
      obtain ⟨os, e, w⟩ := ih (ts := []) (saved := none) (by simp) rfl
      refine ⟨none :: os, ?_, .done w⟩
      simp only [drive, k4, bind, Except.bind, e]; rfl
    · obtain ⟨os, e, w⟩ := ih (fun t ht => hok t (k4 t ht)) k2
      refine ⟨some i :: os, ?_, k1 ▸ .next w⟩
      simp only [drive, k5, bind, Except.bind, e]; rfl

theorem TT.mix_deque (dbg : Bool) (cs : List IterCall) : ∀ {t : List (Tine α)},
    (∀ x ∈ t, x.Ok) → HoleFree t → Chain false t false →
    ∃ os, drive (TineIter.next dbg) (TineIter.nextBack dbg) ⟨t, none, none⟩ cs = .ok os ∧
      Deque (pieces none t) cs os := by
  induction cs with
  | nil => intros; exact ⟨[], rfl, .nil _⟩
  | cons c cs ih =>
    intro t hok hf hc
    rcases deque_step dbg hok hf hc with ⟨k1, k4, k4'⟩ |
      ⟨⟨i, A, k1, k2, k3, k4, k5⟩, ⟨i', A', k1', k2', k3', k4', k5'⟩⟩
    · subst k1
      obtain ⟨os, e, w⟩ := ih (t := []) (by simp) (by simp [HoleFree]) rfl
      refine ⟨none :: os, ?_, .done w⟩
      cases c <;> simp only [drive, k4, k4', bind, Except.bind, e] <;> rfl
    · cases c
      · obtain ⟨os, e, w⟩ := ih k2 k3 k4
        refine ⟨some i :: os, ?_, k1 ▸ .next w⟩
        simp only [drive, k5, bind, Except.bind, e]; rfl
      · obtain ⟨os, e, w⟩ := ih k2' k3' k4'
        refine ⟨some i' :: os, ?_, k1' ▸ .nextBack w⟩
        simp only [drive, k5', bind, Except.bind, e]; rfl

theorem Deque.map {β γ : Type _} (f : β → γ) {l : List β} {cs : List IterCall} {os : List (Option β)}
    (h : Deque l cs os) : Deque (l.map f) cs (os.map (Option.map f)) := by
  induction h with
  | nil => exact .nil _
  | next _ ih => exact .next ih
  | nextBack _ ih => rw [List.map_append]; exact .nextBack ih
  | done _ ih => exact .done ih

variable [Finite α] [LawfulFinite α]

/-- The interval iterator of a selection is the mapped iterator of its tree. -/
theorem Selection.drive_intervals (dbg : Bool) (cs : List IterCall) : ∀ {it : TineIter α}
    {os : List (Option (RawInterval α))},
    drive (TineIter.next dbg) (TineIter.nextBack dbg) it cs = .ok os →
    drive (Selection.intervalNext dbg) (Selection.intervalNextBack dbg) it cs =
      .ok (os.map (Option.map Selection.run)) := by
  induction cs with
  | nil => intro it os h; cases h; rfl
  | cons c cs ih =>
    intro it os h
    cases c
    · cases hn : it.next dbg with
      | error e => simp [drive, hn, bind, Except.bind] at h
      | ok r =>
        obtain ⟨o, it'⟩ := r
        cases hd : drive (TineIter.next dbg) (TineIter.nextBack dbg) it' cs with
        | error e => simp [drive, hn, hd, bind, Except.bind] at h
        | ok os' =>
          simp only [drive, hn, hd, bind, Except.bind] at h
          cases h
          simp only [drive, Selection.intervalNext, hn, ih hd, bind, Except.bind]
          cases o <;> simp [Selection.run_eq] <;> rfl
    · cases hn : it.nextBack dbg with
      | error e => simp [drive, hn, bind, Except.bind] at h
      | ok r =>
        obtain ⟨o, it'⟩ := r
        cases hd : drive (TineIter.next dbg) (TineIter.nextBack dbg) it' cs with
        | error e => simp [drive, hn, hd, bind, Except.bind] at h
        | ok os' =>
          simp only [drive, hn, hd, bind, Except.bind] at h
          cases h
          simp only [drive, Selection.intervalNextBack, hn, ih hd, bind, Except.bind]
          cases o <;> simp [Selection.run_eq] <;> rfl

/-! ## Intervals without points -/

/-- An interval that is not `Real` gives one value and is then exhausted. -/
theorem Interval.not_real_step {i : Interval α} (h : i.Obtainable) (hr : ¬ i.Real) :
    ∃ l u, u < l ∧ i = ⟨.closed l u⟩ ∧ Interval.next i = .ok (some l, .empty) ∧
      Interval.nextBack i = .ok (some u, .empty) := by
  obtain ⟨r⟩ := i
  have hn := Interval.obtainable_nf h
  cases r <;> simp only [RawInterval.NF] at hn
  · exact absurd real_mk_empty hr
  · exact absurd (real_mk_point _) hr
  · rename_i l u
    rw [real_mk_closed, not_le] at hr
    refine ⟨l, u, hr, rfl, ?_, ?_⟩
    · have hm : (⟨.closed l u⟩ : Interval α).minus (ofPoint l) = [] := by
        rw [minus, ofPoint]
        show List.map _ ((RawInterval.closed l u).minus (.point l)) = _
        rw [minus_lower, if_neg (not_lt.2 hr.le)]; rfl
      simp [Interval.next, lowerBound, RawInterval.lowerBound, hm]
    · have hm : (⟨.closed l u⟩ : Interval α).minus (ofPoint u) = [] := by
        rw [minus, ofPoint]
        show List.map _ ((RawInterval.closed l u).minus (.point u)) = _
        rw [minus_upper, if_neg (not_lt.2 hr.le)]; rfl
      simp [Interval.nextBack, upperBound, RawInterval.upperBound, hm]

end Tree

/-! ## Interval iterators never resume -/

section Resume
variable {α : Type} [LinearOrder α]

/-- The states an interval iterator can be in. -/
def IterOk (it : TineIter α) : Prop :=
  it.savedUpper = none ∧ ∀ x, it.savedLower = some x → x.isPointExclude = true

theorem IterOk.exhausted (dbg : Bool) (cs : List IterCall) : ∀ {it : TineIter α} {os}, IterOk it →
    it.tines = [] → drive (TineIter.next dbg) (TineIter.nextBack dbg) it cs = .ok os →
    ∀ o ∈ os, o = none := by
  induction cs with
  | nil => intro it os _ _ h; cases h; simp
  | cons c cs ih =>
    rintro ⟨ts, sl, su⟩ os ⟨h1, h2⟩ h3 h
    simp only at h1 h2 h3
    subst h1 h3
    have key : ∀ it', it' = (⟨[], sl, none⟩ : TineIter α) →
        (do let os ← drive (TineIter.next dbg) (TineIter.nextBack dbg) it' cs
            return none :: os : Except Panic (List (Option (RawInterval α)))) = .ok os →
        ∀ o ∈ os, o = none := by
      rintro _ rfl h
      cases hd : drive (TineIter.next dbg) (TineIter.nextBack dbg) (⟨[], sl, none⟩ : TineIter α) cs with
      | error e => rw [hd] at h; cases h
      | ok os' =>
        rw [hd] at h; cases h
        simpa using ih (it := ⟨[], sl, none⟩) ⟨rfl, h2⟩ rfl hd
    cases c
    · cases sl with
      | none => exact key _ rfl h
      | some x =>
        have := h2 x rfl
        rcases x with b | (p | p | _) | b <;> simp [Tine.isPointExclude] at this
        cases dbg <;> simp [drive, TineIter.next, TineIter.nextWith, bind, Except.bind, dassert,
          Tine.isLowerBound] at h
    · exact key _ rfl h

theorem IterOk.next (dbg : Bool) {it it' : TineIter α} {o} (h : IterOk it)
    (e : it.next dbg = .ok (o, it')) : IterOk it' ∧ (o = none → it'.tines = []) := by
  obtain ⟨ts, sl, su⟩ := it
  obtain ⟨h1, h2⟩ := h
  simp only at h1 h2
  subst h1
  have key : ∀ (lower : Tine α) (ts : List (Tine α)) r, TineIter.nextWith dbg lower ⟨ts, none, none⟩ = .ok r →
      IterOk r.2 := by
    intro lower ts r hr
    rcases lower with b | (p | p | _) | b <;> rcases ts with _ | ⟨b' | (p' | p' | _) | b', rest⟩ <;>
      cases dbg <;>
      simp [TineIter.nextWith, bind, Except.bind, dassert, Tine.isLowerBound, Tine.isUpperBound,
        Tine.isPointExclude] at hr <;> subst hr <;> simp [IterOk, Tine.isPointExclude]
  cases sl with
  | some x =>
    simp only [TineIter.next] at e
    cases hw : TineIter.nextWith dbg x ⟨ts, none, none⟩ with
    | error e' => rw [hw] at e; cases e
    | ok r =>
      rw [hw] at e; cases e
      exact ⟨key _ _ _ hw, fun h => by cases h⟩
  | none =>
    cases ts with
    | nil => cases e; exact ⟨⟨rfl, fun x hx => by cases hx⟩, fun _ => rfl⟩
    | cons x ts =>
      simp only [TineIter.next] at e
      cases hw : TineIter.nextWith dbg x ⟨ts, none, none⟩ with
      | error e' => rw [hw] at e; cases e
      | ok r =>
        rw [hw] at e; cases e
        exact ⟨key _ _ _ hw, fun h => by cases h⟩

theorem IterOk.nextBack (dbg : Bool) {it it' : TineIter α} {o} (h : IterOk it)
    (e : it.nextBack dbg = .ok (o, it')) : IterOk it' ∧ (o = none → it'.tines = []) := by
  obtain ⟨ts, sl, su⟩ := it
  obtain ⟨h1, h2⟩ := h
  simp only at h1 h2
  subst h1
  have key : ∀ (upper : Tine α) (ts : List (Tine α)) r,
      TineIter.nextBackWith dbg upper ⟨ts, sl, none⟩ = .ok r → IterOk r.2 := by
    intro upper ts r hr
    have gen : ∀ l : Tine α, ∀ sv, (∀ x, sv = some x → x.isPointExclude = true) →
        IterOk (if l.isPointExclude then (⟨ts.dropLast, some l, none⟩ : TineIter α)
          else ⟨ts.dropLast, sv, none⟩) := by
      intro l sv hs
      split
      · exact ⟨rfl, fun x hx => by cases hx; assumption⟩
      · exact ⟨rfl, hs⟩
    rcases hl : ts.getLast? with _ | l
    · have : ts = [] := List.getLast?_eq_none_iff.1 hl
      subst this
      rcases sl with _ | l
      · rcases upper with b | (p | p | _) | b <;> cases dbg <;>
          simp [TineIter.nextBackWith, bind, Except.bind, dassert, Tine.isLowerBound,
            Tine.isUpperBound, Tine.isPointExclude] at hr <;> subst hr <;> exact ⟨rfl, h2⟩
      · have hp := h2 l rfl
        have hp' := hp
        rcases l with b | (p | p | _) | b <;> simp [Tine.isPointExclude] at hp'
        rcases upper with b | (p | p | _) | b <;> cases dbg <;>
          simp [TineIter.nextBackWith, bind, Except.bind, dassert, Tine.isLowerBound,
            Tine.isUpperBound, Tine.isPointExclude] at hr <;> subst hr <;> exact ⟨rfl, h2⟩
    · have g := gen l sl h2
      rcases upper with b | (p | p | _) | b <;> cases dbg <;> cases hq : l.isLowerBound <;>
          simp [TineIter.nextBackWith, bind, Except.bind, dassert, hl, hq,
            Tine.isUpperBound] at hr <;> subst hr <;> first | exact g | exact ⟨rfl, h2⟩
  simp only [TineIter.nextBack] at e
  cases hl : ts.getLast? with
  | none =>
    rw [hl] at e
    cases e
    exact ⟨⟨rfl, h2⟩, fun _ => List.getLast?_eq_none_iff.1 hl⟩
  | some x =>
    rw [hl] at e
    simp only at e
    cases hw : TineIter.nextBackWith dbg x ⟨ts.dropLast, sl, none⟩ with
    | error e' => rw [hw] at e; cases e
    | ok r =>
      rw [hw] at e; cases e
      exact ⟨key _ _ _ hw, fun h => by cases h⟩

theorem IterOk.fused (dbg : Bool) (cs : List IterCall) : ∀ {it : TineIter α} {os}, IterOk it →
    drive (TineIter.next dbg) (TineIter.nextBack dbg) it cs = .ok os → Fused os := by
  induction cs with
  | nil => intro it os _ h; cases h; exact fused_nil
  | cons c cs ih =>
    intro it os hi h
    obtain ⟨o, it', h1, h2, h3⟩ : ∃ o it', IterOk it' ∧ (o = none → it'.tines = []) ∧
        (do let os ← drive (TineIter.next dbg) (TineIter.nextBack dbg) it' cs
            return o :: os : Except Panic (List (Option (RawInterval α)))) = .ok os := by
      cases c
      · cases hn : it.next dbg with
        | error e => simp [drive, hn, bind, Except.bind] at h
        | ok r =>
          obtain ⟨o, it'⟩ := r
          obtain ⟨g1, g2⟩ := hi.next dbg hn
          refine ⟨o, it', g1, g2, ?_⟩
          simpa only [drive, hn, bind, Except.bind] using h
      · cases hn : it.nextBack dbg with
        | error e => simp [drive, hn, bind, Except.bind] at h
        | ok r =>
          obtain ⟨o, it'⟩ := r
          obtain ⟨g1, g2⟩ := hi.nextBack dbg hn
          refine ⟨o, it', g1, g2, ?_⟩
          simpa only [drive, hn, bind, Except.bind] using h
    cases hd : drive (TineIter.next dbg) (TineIter.nextBack dbg) it' cs with
    | error e => rw [hd] at h3; cases h3
    | ok os' =>
      rw [hd] at h3; cases h3
      cases o with
      | some a => exact fused_some (ih h1 hd)
      | none => exact fused_none (h1.exhausted dbg cs (h2 rfl) hd)

end Resume

/-! ## Text -/

namespace MInt

theorem parsePos_chars {hi acc x : Int} {s : Str} (h : parsePos hi acc s = .ok x) :
    ∀ c ∈ s, (digit c).isSome = true := by
  induction s generalizing acc with
  | nil => simp
  | cons c s ih =>
    rw [parsePos] at h
    cases hd : digit c with
    | none => rw [hd] at h; cases h
    | some d =>
      rw [hd] at h
      simp only at h
      split at h
      · cases h
      split at h
      · cases h
      intro c' hc
      rcases List.mem_cons.1 hc with rfl | hc
      · rw [hd]; rfl
      · exact ih h c' hc

theorem parseNeg_chars {lo acc x : Int} {s : Str} (h : parseNeg lo acc s = .ok x) :
    ∀ c ∈ s, (digit c).isSome = true := by
  induction s generalizing acc with
  | nil => simp
  | cons c s ih =>
    rw [parseNeg] at h
    cases hd : digit c with
    | none => rw [hd] at h; cases h
    | some d =>
      rw [hd] at h
      simp only at h
      split at h
      · cases h
      split at h
      · cases h
      intro c' hc
      rcases List.mem_cons.1 hc with rfl | hc
      · rw [hd]; rfl
      · exact ih h c' hc

/-- What an integer can be written with. -/
theorem parse_chars {lo hi : Int} {s : Str} {x : MInt lo hi} (h : Text.parse s = .ok x) :
    ∀ c ∈ s, c = '+' ∨ c = '-' ∨ (digit c).isSome = true := by
  change parse s = _ at h
  rw [parse] at h
  cases hp : parseInt lo hi s with
  | error e => rw [hp] at h; cases h
  | ok y =>
    unfold parseInt at hp
    split at hp
    · cases hp
    · cases hp
    · cases hp
    · intro c hc
      rcases List.mem_cons.1 hc with rfl | hc
      · exact .inl rfl
      · exact .inr (.inr (parsePos_chars hp c hc))
    · split at hp
      · intro c hc
        rcases List.mem_cons.1 hc with rfl | hc
        · exact .inr (.inl rfl)
        · exact .inr (.inr (parseNeg_chars hp c hc))
      · cases hp
    · intro c hc; exact .inr (.inr (parsePos_chars hp c hc))

end MInt
end NI
