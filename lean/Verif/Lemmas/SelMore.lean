import Verif.Lemmas.SelIter
import Verif.Props.Tree

/-! # Further lemmas on selections -/

set_option linter.unusedSimpArgs false
set_option linter.unusedVariables false
set_option linter.unnecessarySeqFocus false
set_option linter.unusedSectionVars false
set_option linter.unusedTactic false
set_option linter.unreachableTactic false
set_option linter.unnecessarySimpa false

namespace NI
open Finite

namespace TT
variable {α : Type} [LinearOrder α] [Finite α] [LawfulFinite α]

/-- No bound of the interval is included. -/
def OpenIv (d : RawInterval α) : Prop :=
  ∀ p, d.lowerBound ≠ some (.incl p) ∧ d.upperBound ≠ some (.incl p)

theorem OpenIv.cases {d : RawInterval α} (h : OpenIv d) : d = .empty ∨ (∃ a b, d = .opn a b) ∨
    (∃ a, d = .upFrom a) ∨ (∃ b, d = .upTo b) ∨ d = .full := by
  cases d
  case empty => simp
  case point p => exact absurd rfl (h p).1
  case opn a b => simp
  case leftOpen a b => exact absurd rfl (h b).2
  case rightOpen a b => exact absurd rfl (h a).1
  case closed a b => exact absurd rfl (h a).1
  case upTo b => simp
  case upFrom b => simp
  case «to» b => exact absurd rfl (h b).2
  case frm b => exact absurd rfl (h b).1
  case full => simp

open Classical in
/-- Removing open intervals. -/
theorem foldMinusOpen (dbg : Bool) (L : List (RawInterval α)) : ∀ {t : TineTree α}, Valid t →
    (∀ d ∈ L, d.WF ∧ OpenIv d) →
    ∃ t', L.foldlM (TineTree.minusInPlace dbg) t = .ok t' ∧ Valid t' ∧
      (∀ x, tcov t false (.fin x) = true → (∀ d ∈ L, d.contains x = false) →
        tcov t' false (.fin x) = true) ∧
      (∀ x, (∃ d ∈ L, d.contains x = true) ∨
        (tcov t false (.fin x) = false ∧ tcov t true (.fin x) = false) →
        tcov t' false (.fin x) = false ∧ tcov t' true (.fin x) = false) := by
  induction L with
  | nil =>
    intro t ht _
    exact ⟨t, rfl, ht, fun x h _ => h, fun x h => h.resolve_left (by simp)⟩
  | cons d L ih =>
    intro t ht hL
    obtain ⟨h1, h2⟩ := hL d (by simp)
    obtain ⟨t1, e1, v1, c1⟩ := minusTwo_ok dbg ht h1
      (by rintro p rfl; exact (h2 p).1 rfl)
    obtain ⟨t', e, v, k1, k2⟩ := ih v1 fun d hd => hL d (by simp [hd])
    refine ⟨t', by rw [List.foldlM_cons, e1]; exact e, v, fun x hx hd => ?_, fun x hx => ?_⟩
    · refine k1 x ?_ fun d hh => hd d (by simp [hh])
      rw [c1, hx, icov_fin h1, hd d (by simp)]; simp
    · refine k2 x ?_
      rcases hx with ⟨d', hd', hx⟩ | ⟨hx1, hx2⟩
      · rcases List.mem_cons.1 hd' with rfl | hd'
        · right
          refine ⟨?_, ?_⟩
          · rw [c1, icov_fin h1, hx]
            simp only [Bool.not_true, Bool.and_false, Bool.false_or, Bool.and_eq_false_imp]
            intro _
            rw [decide_eq_false_iff_not]
            rintro ⟨y, hy, hk⟩
            rcases h2.cases with e | ⟨a, b, e⟩ | ⟨a, e⟩ | ⟨b, e⟩ | e <;> subst e <;>
              simp [Tine.fromRawInterval] at hy <;>
              (try rcases hy with rfl | rfl) <;> simp [Tine.key] at hk <;> (try subst hk) <;>
              simp [RawInterval.contains] at hx
          · have : icov d' true (.fin x) = true := by
              rcases h2.cases with e | ⟨a, b, e⟩ | ⟨a, e⟩ | ⟨b, e⟩ | e <;> subst e <;>
                simp [RawInterval.contains] at hx
              · rw [(icov_opn h1 x).1]; simp [hx.1.le, hx.2]
              · rw [(icov_upFrom a x).1]; simp [le_of_lt hx]
              · rw [(icov_upTo b x).1]; simpa using hx
              · exact (icov_full x).1
            rw [c1, this]; simp
        · exact .inl ⟨d', hd', hx⟩
      · right
        constructor
        · rw [c1, hx1, holeAt, hx2]; simp
        · rw [c1, hx2]; simp

/-- Included lower bounds. -/
theorem closed_lower {t : TineTree α} (h : Valid t) {i : RawInterval α} (hi : i ∈ pieces none t)
    (hp : ∀ p, i ≠ .point p) {p : α} (hl : i.lowerBound = some (.incl p)) :
    bef false t (.fin p) = false ∧ tcov t false (.fin p) = true := by
  rcases (piece_tines h.1).1 i hi with ⟨q, rfl⟩ | ⟨A, x, y, B, e, g1, g2, g3, g4⟩
  · exact absurd rfl (hp q)
  · rw [hl] at g3
    have hx : x = .lower (.incl p) := by
      rcases x with b | (b | b | _) | b <;> simp [Tine.isLowerBound, Tine.intoInner] at g1 g3
      rw [g3]
    have hm : Tine.lower (.incl p) ∈ t := by rw [e, ← hx]; simp
    obtain ⟨o⟩ := one h (.fin p)
    obtain ⟨v1, v2, v3⟩ := o.views
    rw [mem_edge o rfl] at hm
    rw [v1, v2]
    revert hm
    cases o.b <;> cases o.a <;> cases o.c <;> simp [edge]

/-- The only piece of an interval is the interval. -/
theorem pieces_fromRaw {i : RawInterval α} (h : i.WF) (hn : i ≠ .empty) :
    pieces none (Tine.fromRawInterval i) = [i] := by
  cases i with
  | empty => exact absurd rfl hn
  | opn | leftOpen | rightOpen | closed =>
    have h : _ < _ := h
    simp [Tine.fromRawInterval, pieces, RawInterval.new, h, RawInterval.mkOpen,
      RawInterval.mkLeftOpen, RawInterval.mkRightOpen, RawInterval.mkClosed]
  | _ => simp [Tine.fromRawInterval, pieces, RawInterval.new]

/-- Pieces of `DO` trees are open. -/
theorem DO.open {t : TineTree α} (v : Valid t) (h : DO t) {i : RawInterval α}
    (hi : i ∈ pieces none t) : OpenIv i := by
  intro p
  constructor
  · intro hl
    obtain ⟨e1, e2⟩ := closed_lower v hi (Selection.do_pieces v h hi) hl
    have e2 : at' t p = true := e2
    rw [h.bef, e2] at e1; simp at e1
  · intro hu
    obtain ⟨e1, e2⟩ := (closed_upper_iff v p).1 ⟨_, hi, hu⟩
    have e1 : at' t p = true := e1
    rw [h.1, e1] at e2; simp at e2

end TT

namespace Selection
variable {α : Type} [LinearOrder α] [Finite α] [LawfulFinite α]
open TT

theorem minusOpen_ok (dbg : Bool) {a b : Selection α} (ha : Valid a.tree) (hb : Valid b.tree)
    (hd : DO b.tree) : ∃ s', a.minus dbg b = .ok s' ∧ Valid s'.tree ∧
      (∀ x, at' a.tree x = true → at' b.tree x = false → at' s'.tree x = true) ∧
      (∀ x, at' b.tree x = true → at' s'.tree x = false) := by
  obtain ⟨t', e, v, k1, k2⟩ := foldMinusOpen dbg (pieces none b.tree) ha fun d hdm =>
    ⟨((pieces_wf hb.1).1 d hdm).1, hd.open hb hdm⟩
  refine ⟨⟨t'⟩, ?_, v, fun x h1 h2 => k1 x h1 fun d hd => ?_, fun x hx => ?_⟩
  · rw [minus, TineTree.minus, fold_eq dbg _ hb, e]; rfl
  · rw [Bool.eq_false_iff]
    intro hc
    rw [piece_in hb hd hc] at h2; cases h2
  · exact (k2 x (.inl (in_piece hb hx))).1

/-- First and last run, and the bounds of the tree. -/
theorem tree_bounds {s : Selection α} (h : Valid s.tree) :
    s.tree.lowerBound = (pieces none s.tree).head?.bind RawInterval.lowerBound ∧
    s.tree.upperBound = (pieces none s.tree).getLast?.bind RawInterval.upperBound :=
  C47_bounds true s.tree (valid_reachable h) _ (TT.intervals_eq true h)

/-- The least point of a selection is in its first piece, the greatest in its last piece. -/
theorem first_last (dbg : Bool) {s : Selection α} (h : Valid s.tree) (hg : ∀ i ∈ pieces none s.tree, Good i) :
    (pieces none s.tree = [] ∧ s.pts dbg = ∅) ∨
    ∃ i j l u, (pieces none s.tree).head? = some i ∧ (pieces none s.tree).getLast? = some j ∧
      Good i ∧ Good j ∧ IsLeast (run i).pts l ∧ IsGreatest (run j).pts u ∧
      IsLeast (s.pts dbg) l ∧ IsGreatest (s.pts dbg) u := by
  rw [← rest_pieces dbg h]
  have hi := pieces_inc h
  rcases hp : pieces none s.tree with _ | ⟨i, L⟩
  · left; refine ⟨rfl, ?_⟩; ext x; simp [rest]
  right
  rw [hp] at hg hi
  obtain ⟨l, u0, hlu, e1, -⟩ := (hg i (by simp)).cases
  obtain ⟨j, hj⟩ : ∃ j, (i :: L).getLast? = some j := ⟨_, List.getLast?_cons⟩
  have hjm : j ∈ i :: L := List.mem_of_getLast? hj
  obtain ⟨l0, u, hlu', e2, -⟩ := (hg j hjm).cases
  refine ⟨i, j, l, u, rfl, hj, hg i (by simp), hg j hjm, e1 ▸ isLeast_Icc hlu,
    e2 ▸ isGreatest_Icc hlu', ?_, ?_⟩
  · have hl : i.contains l = true := by
      have : l ∈ (run i).pts := by rw [e1]; exact ⟨le_rfl, hlu⟩
      rw [run_pts] at this; exact this
    refine ⟨⟨i, by simp, hl⟩, ?_⟩
    rintro x ⟨k, hk, hx⟩
    rcases List.mem_cons.1 hk with rfl | hk
    · have : x ∈ (run k).pts := by rw [run_pts]; exact hx
      rw [e1] at this; exact this.1
    · exact ((List.pairwise_cons.1 hi).1 k hk l x hl hx).le
  · have hu : j.contains u = true := by
      have : u ∈ (run j).pts := by rw [e2]; exact ⟨hlu', le_rfl⟩
      rw [run_pts] at this; exact this
    refine ⟨⟨j, hjm, hu⟩, ?_⟩
    rintro x ⟨k, hk, hx⟩
    obtain ⟨Q, hQ⟩ : ∃ Q, i :: L = Q ++ [j] := List.getLast?_eq_some_iff.1 hj
    rw [hQ] at hk hi
    rcases List.mem_append.1 hk with hk | hk
    · exact ((List.pairwise_append.1 hi).2.2 k hk j (by simp) x u hx hu).le
    · rw [List.mem_singleton] at hk; subst hk
      have : x ∈ (run k).pts := by rw [run_pts]; exact hx
      rw [e2] at this; exact this.2

end Selection
end NI
