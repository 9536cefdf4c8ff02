import Verif.Lemmas.Unwind
import Verif.Lemmas.Neat

/-!
# A tree that a panic leaves, whatever tree the call started from
-/

set_option linter.unusedSectionVars false

namespace NI
namespace TT
variable {α : Type} [LinearOrder α] {P : Tine α → Prop}

/-- If the computation panics, the tree it leaves is increasing and of the class. -/
def Keeps (P : Tine α → Prop) {β : Type} (x : Unwind α β) : Prop := ∀ p t', x = .error (p, t') → Neat P t'

theorem Keeps.ok {β : Type} {b : β} : Keeps P (.ok b) := fun _ _ h => by cases h

theorem Keeps.leaving {β : Type} {c : TineTree α} {x : Except Panic β} (hc : Neat P c) : Keeps P (leaving c x) :=
  fun p t' h => Leaves.leaving p t' h ▸ hc

theorem Keeps.bind {β γ : Type} {x : Unwind α β} {f : β → Unwind α γ} (hx : Keeps P x)
    (hf : ∀ b, x = .ok b → Keeps P (f b)) : Keeps P (x >>= f) := fun p t' h => by
  rcases x with ⟨q, t⟩ | b
  · cases h; exact hx _ _ rfl
  · exact hf b rfl p t' h

theorem leaving_ok {β : Type} {c : TineTree α} {x : Except Panic β} {b : β} (h : leaving c x = .ok b) : x = .ok b := by
  cases x with
  | ok b' => cases h; rfl
  | error q => cases h

theorem keeps_interiorSplit {dbg : Bool} {t : TineTree α} (ht : Neat P t) {l u : Tine α} :
    Keeps P (TineTree.interiorSplitU dbg t l u) :=
  (Keeps.leaving ht).bind fun _ _ => (Keeps.leaving (((ht.filter _).filter _).filter _)).bind fun _ _ => Keeps.ok

theorem keeps_intersectProper {dbg : Bool} {t : TineTree α} (ht : Neat P t) {l u : Tine α} :
    Keeps P (TineTree.intersectProperU dbg t l u) := by
  refine (keeps_interiorSplit ht).bind ?_
  rintro ⟨⟨t0, t1, t2, t3, t4, t5⟩, c⟩ e
  have hc : Neat P c := by
    unfold TineTree.interiorSplitU at e
    simp only [bind, Except.bind] at e
    split at e
    · cases e
    split at e
    · cases e
    cases e
    exact (((ht.filter _).filter _).filter _).filter _
  refine (Keeps.leaving hc).bind fun mL _ => (Keeps.leaving hc).bind fun mU _ =>
    (Keeps.leaving hc).bind fun _ _ => (Keeps.leaving hc).bind fun _ _ => ?_
  dsimp only
  split <;> first | exact Keeps.ok | exact Keeps.leaving hc

theorem keeps_intersectInPlace {dbg : Bool} {t : TineTree α} (ht : Neat P t) {i : RawInterval α} :
    Keeps P (TineTree.intersectInPlaceU dbg t i) := by
  unfold TineTree.intersectInPlaceU
  split
  · exact Keeps.ok
  split
  · exact Keeps.ok
  split
  · refine (Keeps.leaving ht).bind fun b _ => ?_
    split <;> exact Keeps.ok
  split
  · exact Keeps.ok
  · refine (Keeps.leaving ht).bind fun b _ => ?_
    split <;> exact Keeps.ok
  · exact keeps_intersectProper ht
  · exact Keeps.leaving ht

theorem neat_exteriorPoint (c : Closed P) {t : TineTree α} (ht : Neat P t) {p : Tine α} (hp : P p) :
    Neat P (TineTree.exteriorSplitPoint t p).2 :=
  (ht.filter _).cut (c.ok _ hp) _ _ (by simp) (by simp)

theorem neat_exterior (c : Closed P) {t : TineTree α} (ht : Neat P t) {l u : Tine α} (hl : P l) :
    Neat P (TineTree.exteriorSplit t l u).2 := by
  show Neat P (BSet.append (BSet.below l (BSet.remove u (BSet.remove l t)))
      (BSet.above u (BSet.above l (BSet.remove u (BSet.remove l t)))))
  simp only [BSet.above, BSet.below, List.filter_filter]
  exact ((ht.filter _).filter _).cut (c.ok _ hl) _ _ (by simp) (by simp)

theorem keeps_unionPoint (c : Closed P) {dbg : Bool} {t : TineTree α} (ht : Neat P t) {p : Tine α} (hp : P p) :
    Keeps P (TineTree.unionPointU dbg t p) := by
  have f := neat_exteriorPoint c ht hp
  refine (Keeps.leaving f).bind fun m hm => ?_
  dsimp only
  split
  · exact Keeps.ok
  split
  · exact Keeps.ok
  · exact (Keeps.leaving f).bind fun _ _ => Keeps.ok
  · exact (Keeps.leaving f).bind fun _ _ => Keeps.ok
  · exact Keeps.ok

theorem keeps_unionProper (c : Closed P) {dbg : Bool} {t : TineTree α} (ht : Neat P t) {l u : Tine α} (hl : P l) :
    Keeps P (TineTree.unionProperU dbg t l u) := by
  have f := neat_exterior c ht (u := u) hl
  refine (Keeps.leaving f).bind fun mL hL => (Keeps.leaving f).bind fun mU hU =>
    (Keeps.leaving f).bind fun _ _ => (Keeps.leaving f).bind fun _ _ => ?_
  have kL : ∀ m, mL = some m → P m := by
    rintro m rfl; exact neat_mergedU c ht hl (leaving_ok hL)
  dsimp only
  split
  · exact Keeps.ok
  · exact (Keeps.leaving (f.insertIf c (kL _ rfl) _)).bind fun _ _ => Keeps.ok
  · exact (Keeps.leaving f).bind fun _ _ => Keeps.ok
  · exact (Keeps.leaving f).bind fun _ _ => (Keeps.leaving (f.insert c (kL _ rfl))).bind fun _ _ => Keeps.ok
  · exact Keeps.ok
  · exact (Keeps.leaving f).bind fun _ _ => Keeps.ok
  · exact Keeps.ok
  · exact (Keeps.leaving f).bind fun _ _ => Keeps.ok
  · exact Keeps.ok
  · exact Keeps.leaving f

theorem keeps_unionInPlace (c : Closed P) {dbg : Bool} {t : TineTree α} (ht : Neat P t) {i : RawInterval α}
    (hi : ∀ x ∈ Tine.fromRawInterval i, P x) : Keeps P (TineTree.unionInPlaceU dbg t i) := by
  unfold TineTree.unionInPlaceU
  split
  · exact Keeps.ok
  split
  · exact Keeps.ok
  · rename_i h; exact keeps_unionPoint c ht (hi _ (by rw [h]; simp))
  · rename_i h; exact keeps_unionProper c ht (hi _ (by rw [h]; simp))
  · exact Keeps.leaving ht

theorem keeps_minusPoint (c : Closed P) {dbg : Bool} {t : TineTree α} (ht : Neat P t) {p : Tine α} (hp : P p) :
    Keeps P (TineTree.minusPointU dbg t p) := by
  have f := neat_exteriorPoint c ht hp
  refine (Keeps.leaving f).bind fun m hm => ?_
  dsimp only
  split
  · exact Keeps.ok
  split
  · exact (Keeps.leaving f).bind fun _ _ => Keeps.ok
  · exact (Keeps.leaving f).bind fun _ _ => Keeps.ok
  · exact (Keeps.leaving f).bind fun _ _ => Keeps.ok
  · exact Keeps.ok

theorem keeps_minusProper (c : Closed P) {dbg : Bool} {t : TineTree α} (ht : Neat P t) {l u : Tine α} (hl : P l) :
    Keeps P (TineTree.minusProperU dbg t l u) := by
  have f := neat_exterior c ht (u := u) hl
  refine (Keeps.leaving f).bind fun mL hL => (Keeps.leaving f).bind fun mU hU => ?_
  have kL : ∀ m, mL = some m → P m := by
    rintro m rfl; exact neat_merged c ht hl (leaving_ok hL)
  dsimp only
  split
  · exact (Keeps.leaving f).bind fun a ha =>
      (Keeps.leaving (f.insert c (c.orInv (kL _ rfl) (leaving_ok ha)))).bind fun _ _ => Keeps.ok
  · refine (Keeps.leaving f).bind fun a ha => ?_
    split <;> exact Keeps.ok
  · refine (Keeps.leaving f).bind fun a ha => ?_
    split <;> exact Keeps.ok
  · exact Keeps.ok
  · exact Keeps.ok
  · exact Keeps.ok
  · exact Keeps.ok
  · exact Keeps.leaving f

theorem keeps_minusInPlace (c : Closed P) {dbg : Bool} {t : TineTree α} (ht : Neat P t) {i : RawInterval α}
    (hi : ∀ x ∈ Tine.fromRawInterval i, P x) : Keeps P (TineTree.minusInPlaceU dbg t i) := by
  unfold TineTree.minusInPlaceU
  split
  · exact Keeps.ok
  split
  · exact Keeps.ok
  split
  · exact Keeps.ok
  · rename_i h; exact keeps_minusPoint c ht (hi _ (by rw [h]; simp))
  · rename_i h; exact keeps_minusProper c ht (hi _ (by rw [h]; simp))
  · exact Keeps.leaving ht

end TT
end NI
