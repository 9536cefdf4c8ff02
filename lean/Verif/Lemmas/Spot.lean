import Verif.Lemmas.Crisp
import Verif.Lemmas.Twice
import Verif.Lemmas.Context
import Verif.SpecSpot

/-! # What a tree has around a value -/

namespace NI
open _root_.NI.Finite TT
variable {α : Type} [LinearOrder α] [Finite α] [LawfulFinite α]

namespace TT

/-- The tree is as described around the value. -/
def Looks (t : TineTree α) (x : α) (a : Spot) : Prop :=
  (bef false t (.fin x) = true ↔ a.before) ∧ (at' t x = true ↔ a.here) ∧ (tcov t true (.fin x) = true ↔ a.after)

theorem DO.looks {t : TineTree α} (h : DO t) (x : α) {X : Set α} (hX : ∀ y, at' t y = true ↔ y ∈ X) :
    Looks t x (Spot.of X x) := by
  refine ⟨?_, hX x, ?_⟩
  · rw [h.bef, Bool.or_eq_true, hX]
    cases e : pred x <;> simp [Spot.of, hX, e]
  · rw [h.1, Bool.or_eq_true, hX]
    cases e : succ x <;> simp [Spot.of, hX, e]

theorem bef_any (x : α) : ∃ k, ∀ t : TineTree α, bef false t (.fin x) = tcov t true k := by
  cases hp : pred x with
  | none => exact ⟨.bot, fun t => bef_min hp⟩
  | some p => exact ⟨.fin p, fun t => bef_pred hp⟩

theorem Looks.add {t b t' : TineTree α} {x : α} {a c : Spot} (ha : Looks t x a) (hc : Looks b x c)
    (h : ∀ aft k, tcov t' aft k = (tcov t aft k || tcov b aft k)) : Looks t' x (a.add c) := by
  obtain ⟨k, hk⟩ := bef_any x
  obtain ⟨a1, a2, a3⟩ := ha
  obtain ⟨c1, c2, c3⟩ := hc
  rw [hk] at a1 c1
  refine ⟨?_, ?_, ?_⟩
  · rw [hk, h, Bool.or_eq_true, a1, c1]; rfl
  · rw [at', h, Bool.or_eq_true]; exact or_congr a2 c2
  · rw [h, Bool.or_eq_true, a3, c3]; rfl

omit [Finite α] [LawfulFinite α] in
theorem Looks.not {t t' : TineTree α} {x : α} {a : Spot} (ha : Looks t x a)
    (h : ∀ aft k, RealPos aft k → tcov t' aft k = !tcov t aft k) : Looks t' x a.not := by
  obtain ⟨a1, a2, a3⟩ := ha
  refine ⟨?_, ?_, ?_⟩
  · rw [bef_not h, Bool.not_eq_true', ← Bool.not_eq_true, a1]; rfl
  · rw [at', h _ _ ⟨by simp, by simp⟩, Bool.not_eq_true', ← Bool.not_eq_true]; exact not_congr a2
  · rw [h _ _ ⟨by simp, by simp⟩, Bool.not_eq_true', ← Bool.not_eq_true, a3]; rfl

theorem Looks.minus {t b t' : TineTree α} {x : α} {a c : Spot} (ha : Looks t x a) (hc : Looks b x c) (hb : DO b)
    (h1 : ∀ k, tcov t' true k = (tcov t true k && !tcov b true k))
    (h2 : at' t' x = true ↔ at' b x = false ∧ (at' t x = true ∨ (holeAt t (.fin x) = true ∧
      ((pred x).elim false (at' b) = true ∨ (succ x).elim false (at' b) = true)))) : Looks t' x (a.remove c) := by
  have d1 := hb.bef x
  have d2 := hb.1 x
  obtain ⟨k, hk⟩ := bef_any x
  obtain ⟨a1, a2, a3⟩ := ha
  obtain ⟨c1, c2, c3⟩ := hc
  refine ⟨?_, ?_, ?_⟩
  · rw [hk] at a1 c1
    rw [hk, h1, Bool.and_eq_true, Bool.not_eq_true', ← Bool.not_eq_true, a1, c1]; rfl
  · rw [h2, Spot.remove, holeAt]
    simp only [← a1, ← a2, ← a3, ← c1, ← c2, ← c3, d1, d2]
    change _ ∧ (_ ∨ (_ && !at' t x && _) = true ∧ _) ↔ _
    cases at' b x <;> cases at' t x <;> simp [and_assoc]
  · rw [h1, Bool.and_eq_true, Bool.not_eq_true', ← Bool.not_eq_true, a3, c3]; rfl

end TT

namespace Selection

theorem minusInPlace_eq (dbg : Bool) (s : Selection α) {i : Interval α} (hi : i.Obtainable) :
    s.minusInPlace dbg i = s.minus dbg (ofInterval i) := by
  have w := RawInterval.denorm_wf (Interval.obtainable_nf hi)
  rw [minus, TineTree.minus, ofInterval_tree hi, fold_eq dbg _ (fromRaw_valid w), minusInPlace]
  by_cases hn : i.raw.denormalized = .empty
  · rw [hn]
    cases s; rename_i t; cases t <;> rfl
  · rw [pieces_one w hn]
    simp only [List.foldlM]
    cases TineTree.minusInPlace dbg s.tree i.raw.denormalized <;> rfl

/-- One step, around one value. -/
theorem step_looks (dbg : Bool) {s : Selection α} (v : Valid s.tree) {c : SelStep α} (hc : c.Legal) :
    ∃ s', s.steps dbg [c] = .ok s' ∧ Valid s'.tree ∧
      ∀ x a, Looks s.tree x a → Looks s'.tree x (a.step dbg x c) := by
  have one : ∀ (f : Except Panic (Selection α)) s', f = .ok s' → (f >>= fun s => (.ok s : Except Panic _)) = .ok s' := by
    rintro _ s' rfl; rfl
  have rem : ∀ b : Selection α, b.UnionBuilt → ∃ s', s.minus dbg b = .ok s' ∧ Valid s'.tree ∧
      ∀ x a, Looks s.tree x a → Looks s'.tree x (a.remove (Spot.of (b.pts dbg) x)) := fun b hb => by
    have vb := reachable_valid hb.reachable
    obtain ⟨s1, e1, v1, k⟩ := minusOpen_exact dbg v vb hb.do
    refine ⟨s1, e1, v1, fun x a ha => ha.minus (hb.do.looks x fun y => (mem_pts dbg vb y).symm) hb.do ?_ (k x)⟩
    rw [Selection.minus, TineTree.minus, fold_eq dbg _ vb] at e1
    cases h : (pieces none b.tree).foldlM (TineTree.minusInPlace dbg) s.tree with
    | error e => rw [h] at e1; cases e1
    | ok t =>
      rw [h] at e1; cases e1
      intro k
      rw [foldMinus_after dbg _ v (fun d hd => ⟨((pieces_wf vb.1).1 d hd).1, hb.do.open vb hd⟩) h, tcov_any vb]
  have ptsI : ∀ i : Interval α, i.Obtainable → (ofInterval i).pts dbg = i.pts := fun i hi => by
    ext x
    rw [mem_pts dbg (reachable_valid (.ofInterval hi)), ofInterval_tree hi, show at' _ x = i.contains x from ic_fin hi x]
    rfl
  cases c with
  | add i =>
    obtain ⟨hi, hr⟩ := hc
    obtain ⟨s1, e1, v1, c1⟩ := unionInPlace_ok dbg v hi
    exact ⟨s1, one _ _ e1, v1, fun x a ha => ha.add ((denorm_do hi hr).looks x fun y =>
      (by rw [show at' _ y = i.contains y from ic_fin hi y]; rfl)) c1⟩
  | remove i =>
    obtain ⟨hi, hr⟩ := hc
    obtain ⟨s1, e1, v1, k⟩ := rem _ (.ofInterval hi hr)
    refine ⟨s1, one _ _ ((minusInPlace_eq dbg s hi).trans e1), v1, fun x a ha => ?_⟩
    have := k x a ha
    rwa [ptsI i hi] at this
  | union b =>
    have hb : b.UnionBuilt := hc
    have vb := reachable_valid hb.reachable
    obtain ⟨s1, e1, v1, c1⟩ := union_ok dbg v vb
    exact ⟨s1, one _ _ e1, v1, fun x a ha => ha.add (hb.do.looks x fun y => (mem_pts dbg vb y).symm) c1⟩
  | minus b =>
    obtain ⟨s1, e1, v1, k⟩ := rem b hc
    exact ⟨s1, one _ _ e1, v1, k⟩
  | complement =>
    obtain ⟨s1, e1, v1, c1⟩ := complement_ok dbg v
    exact ⟨s1, one _ _ e1, v1, fun x a ha => ha.not c1⟩

theorem steps_looks (dbg : Bool) {s : Selection α} (v : Valid s.tree) {cs : List (SelStep α)}
    (hc : ∀ c ∈ cs, c.Legal) : ∃ s', s.steps dbg cs = .ok s' ∧ Valid s'.tree ∧
      ∀ x a, Looks s.tree x a → Looks s'.tree x (a.steps dbg x cs) := by
  induction cs generalizing s with
  | nil => exact ⟨s, rfl, v, fun _ _ h => h⟩
  | cons c cs ih =>
    obtain ⟨s1, e1, v1, k1⟩ := step_looks dbg v (hc c (by simp))
    obtain ⟨s2, e2, v2, k2⟩ := ih v1 fun c h => hc c (by simp [h])
    refine ⟨s2, ?_, v2, fun x a h => k2 x _ (k1 x a h)⟩
    rw [show c :: cs = [c] ++ cs from rfl, steps, List.foldlM_append]
    rw [steps] at e1
    rw [e1]
    exact e2

end Selection
end NI
