import Verif.Lemmas.Exact

/-! # Exactly when in-place intersection is right -/

set_option linter.unusedSimpArgs false
set_option linter.unusedVariables false
set_option linter.unnecessarySeqFocus false
set_option linter.unusedSectionVars false
set_option linter.unusedTactic false
set_option linter.unreachableTactic false

namespace NI
namespace TT
variable {α : Type} [LinearOrder α]
open BSet (Lt Gt At)

/-- The situations in which the result of `intersect_proper_interval` is the expected tree. -/
def IsectSharp (dbg b a c d a2 e il iu : Bool) : Bool :=
  IsectGood b a c d a2 e il iu || (!dbg && !c && !d && (a && il) && (a2 && iu))

set_option maxHeartbeats 2000000 in
theorem intersectProper_iff (dbg : Bool) {t : TineTree α} {lb ub : Bound α}
    (hk : (Tine.lower lb).key < (Tine.upper ub).key)
    (w : Two t (Tine.lower lb).key (Tine.upper ub).key) :
    TineTree.intersectProper dbg t (.lower lb) (.upper ub) = .ok
      (edge (Tine.lower lb).key false (w.a && (Tine.lower lb).inclAt) w.c ++
        (w.M ++ edge (Tine.upper ub).key w.d (w.a2 && (Tine.upper ub).inclAt) false)) ↔
    IsectSharp dbg w.b w.a w.c w.d w.a2 w.e (Tine.lower lb).inclAt (Tine.upper ub).inclAt = true := by
  have hl : (Tine.lower lb).Ok := by simp [Tine.Ok]
  have hu : (Tine.upper ub).Ok := by simp [Tine.Ok]
  obtain ⟨A, M, B, b, a, c, d, a2, e, eq, fits, fits2, ltA, gtM, ltM, gtB, sA, sM, sB, cA, cM, cB⟩ := w
  have hs := interiorSplit_eq dbg hl hu hk
    ⟨A, M, B, b, a, c, d, a2, e, eq, fits, fits2, ltA, gtM, ltM, gtB, sA, sM, sB, cA, cM, cB⟩
  have hb := chain_last cA
  have he := chain_head cB
  have hM : (TineTree.someAnd M.head? Tine.isUpperBound = c ∧
      TineTree.someAnd M.getLast? Tine.isLowerBound = d) ∨ (M = [] ∧ c = d) := by
    rcases M with _ | ⟨m, M⟩
    · exact .inr ⟨rfl, cM⟩
    · refine .inl ⟨cM.1, ?_⟩
      rcases List.eq_nil_or_concat (m :: M) with h | ⟨M', m', h⟩
      · simp at h
      · rw [List.concat_eq_append] at h
        rw [h] at cM ⊢
        obtain ⟨s, _, h2⟩ := chain_append.1 cM
        simp [TineTree.someAnd, Chain] at *
        exact h2.2
  have i1 : ∀ x : Tine α, x.Ok → x.key = (Tine.lower lb).key →
      BSet.insert x M = x :: M := fun x hx hxk => by
    have := BSet.insert_split hx (A := []) (B := M) (.nil _) (hxk ▸ gtM)
    simpa using this
  have i2 : ∀ x : Tine α, x.Ok → x.key = (Tine.upper ub).key →
      BSet.insert x M = M ++ [x] := fun x hx hxk => by
    have := BSet.insert_split hx (A := M) (B := []) (hxk ▸ ltM) (.nil _)
    simpa using this
  have i3 : ∀ x y : Tine α, x.Ok → x.key = (Tine.lower lb).key → y.Ok →
      y.key = (Tine.upper ub).key →
      BSet.insert y (x :: M) = x :: (M ++ [y]) := fun x y hx hxk hy hyk => by
    have : Lt (x :: M) y.key := by
      rw [hyk]
      intro t ht
      rcases List.mem_cons.1 ht with rfl | ht
      · exact ⟨hx, hxk ▸ hk⟩
      · exact ltM t ht
    have := BSet.insert_split hy (A := x :: M) (B := []) this (.nil _)
    simpa using this
  have n1 : ∀ x y : Tine α, ¬ x :: (M ++ [y]) = M := fun x y h => by
    have := congrArg List.length h; simp at this; omega
  have n2 : ∀ x y z : Tine α, ¬ x :: (M ++ [y]) = M ++ [z] := fun x y z h => by
    have := congrArg List.length h; simp at this
  simp only [IsectSharp, IsectGood]
  have hs' : TineTree.interiorSplit dbg t (.lower lb) (.upper ub) = _ := hs
  simp only [TineTree.intersectProper, hs', hb, he, bind, Except.bind]
  clear hs hs' ltA gtM ltM gtB sA sM sB cA cM cB hb he eq
  rcases hM with ⟨hM1, hM2⟩ | ⟨rfl, rfl⟩
  · simp only [hM1, hM2]
    clear hM1 hM2
    rcases lb with x | x | _ <;> rcases ub with y | y | _ <;>
      cases b <;> cases a <;> cases c <;> cases d <;> cases a2 <;> cases e <;>
      (try simp [Fits, Tine.key] at fits fits2) <;> cases dbg <;>
      simp (config := {decide := true}) [edge, Tine.key, Tine.inclAt, Tine.intersect, Tine.asRef, Tine.intoInner, Bound.asRef, dassert,
        bind, Except.bind, TineTree.noneOr, Tine.isLowerBound, Tine.isUpperBound, pure, Except.pure,
        TineTree.insertIf, Tine.isPointExclude] <;>
      first
      | done
      | (rw [i1, i3] <;> (try simp [Tine.Ok, Tine.key, n1, n2]); done)
      | (rw [i1] <;> (try simp [Tine.Ok, Tine.key, n1, n2]); done)
      | (rw [i2] <;> (try simp [Tine.Ok, Tine.key, n1, n2]); done)
  · rcases lb with x | x | _ <;> rcases ub with y | y | _ <;>
      cases b <;> cases a <;> cases c <;> cases a2 <;> cases e <;>
      (try simp [Fits, Tine.key] at fits fits2) <;> cases dbg <;>
      simp (config := {decide := true}) [edge, Tine.key, Tine.inclAt, Tine.intersect, Tine.asRef, Tine.intoInner, Bound.asRef, dassert,
        bind, Except.bind, TineTree.noneOr, Tine.isLowerBound, Tine.isUpperBound, pure, Except.pure,
        TineTree.insertIf, Tine.isPointExclude, TineTree.someAnd] <;>
      first
      | done
      | (rw [i1, i3] <;> (try simp [Tine.Ok, Tine.key, n1, n2]); done)
      | (rw [i1] <;> (try simp [Tine.Ok, Tine.key, n1, n2]); done)
      | (rw [i2] <;> (try simp [Tine.Ok, Tine.key, n1, n2]); done)

/-- The bounds behind two tines. -/
theorem bounds_of_tines {i : RawInterval α} {l u : Bound α}
    (e : Tine.fromRawInterval i = [.lower l, .upper u]) :
    i.lowerBound = some l ∧ i.upperBound = some u := by
  cases i <;> simp [Tine.fromRawInterval] at e <;>
    simp [RawInterval.lowerBound, RawInterval.upperBound, ← e.1, ← e.2]

/-- If the stretch below `k` is covered, one of the pieces covers it. -/
theorem bef_pieces {k : Key α} {ts : List (Tine α)} (hs : Sorted ts) :
    (Chain false ts false → bef false ts k = true → ∃ i ∈ pieces none ts, ∃ l u,
      i.lowerBound = some l ∧ i.upperBound = some u ∧ (Tine.lower l).key < k ∧
      k ≤ (Tine.upper u).key) ∧
    (∀ b, Chain true ts false → Gt ts (Tine.lower b).key → (Tine.lower b).key < k →
      bef true ts k = true → ∃ i ∈ pieces (some b) ts, ∃ l u,
      i.lowerBound = some l ∧ i.upperBound = some u ∧ (Tine.lower l).key < k ∧
      k ≤ (Tine.upper u).key) := by
  induction ts with
  | nil => exact ⟨fun _ h => by simp [bef] at h, fun b hc => absurd hc (by simp [Chain])⟩
  | cons t ts ih =>
    obtain ⟨h1, h2, h3⟩ := sorted_cons.1 hs
    obtain ⟨ih1, ih2⟩ := ih h3
    constructor
    · rintro ⟨hc1, hc2⟩ hb
      rw [bef] at hb
      split_ifs at hb with g
      rcases t with b | (p | p | _) | b <;>
        simp [Tine.isUpperBound, Tine.isLowerBound] at hc1 hc2
      · exact ih2 b hc2 h2 (not_le.1 g) hb
      · obtain ⟨i, hi, z⟩ := ih1 hc2 hb
        exact ⟨i, by simp [pieces, hi], z⟩
      · exact absurd rfl h1
    · rintro b ⟨hc1, hc2⟩ hgt hbk hb
      have hbt := (hgt t (List.mem_cons_self)).2
      rw [bef] at hb
      rcases t with u | (p | p | _) | u <;>
        simp [Tine.isUpperBound, Tine.isLowerBound] at hc1 hc2
      · have hk : (Tine.lower b).key < (Tine.upper (.excl p)).key := hbt
        obtain ⟨y1, y2⟩ := bounds_of_tines (new_tines hk).2
        split_ifs at hb with g
        · exact ⟨_, by simp [pieces], b, _, y1, y2, hbk, g⟩
        · obtain ⟨i, hi, z⟩ := ih2 (.excl p) hc2 h2 (not_le.1 g) hb
          exact ⟨i, by simp [pieces, hi], z⟩
      · obtain ⟨y1, y2⟩ := bounds_of_tines (new_tines hbt).2
        split_ifs at hb with g
        · exact ⟨_, by simp [pieces], b, _, y1, y2, hbk, g⟩
        · obtain ⟨i, hi, z⟩ := ih1 hc2 hb
          exact ⟨i, by simp [pieces, hi], z⟩

theorem Key.le_def {a b : Key α} : a ≤ b ↔ a.toW ≤ b.toW := by
  rw [← not_lt, ← not_lt, Key.lt_def]

theorem coversBelow_iff {t : TineTree α} (h : Valid t) (k : Key α) :
    RawInterval.CoversBelow (pieces none t) k.toW ↔ bef false t k = true := by
  constructor
  · rintro ⟨j, hj, l, u, h1, h2, h3, h4⟩
    rw [Tine.pos_eq, ← Key.lt_def] at h3
    rw [Tine.pos_eq, ← Key.le_def] at h4
    exact (inside_piece h hj h1 h2).2 h3 h4
  · intro hb
    obtain ⟨i, hi, l, u, h1, h2, h3, h4⟩ := (bef_pieces h.1).1 h.2 hb
    exact ⟨i, hi, l, u, h1, h2, by rwa [Tine.pos_eq, ← Key.lt_def],
      by rwa [Tine.pos_eq, ← Key.le_def]⟩

theorem coversAbove_iff {t : TineTree α} (h : Valid t) (k : Key α) :
    RawInterval.CoversAbove (pieces none t) k.toW ↔ tcov t true k = true := by
  constructor
  · rintro ⟨j, hj, l, u, h1, h2, h3, h4⟩
    rw [Tine.pos_eq, ← Key.le_def] at h3
    rw [Tine.pos_eq, ← Key.lt_def] at h4
    exact (inside_piece h hj h1 h2).1 h3 h4
  · intro hb
    rw [tcov, ← (pieces_cov true k h.1).1 h.2, List.any_eq_true] at hb
    obtain ⟨i, hi, hc⟩ := hb
    obtain ⟨hw, hne⟩ := (pieces_wf h.1).1 i hi
    rcases fromRaw_cases hw with ⟨e0, e⟩ | ⟨p, e0, e⟩ | ⟨lb, ub, e, hk⟩
    · exact absurd e0 hne
    · rw [icov, e] at hc
      simp [cov, Tine.isLowerBound] at hc
    · rw [icov, e, cov_pair hk] at hc
      obtain ⟨b1, b2⟩ := bounds_of_tines e
      refine ⟨i, hi, lb, ub, b1, b2, ?_, ?_⟩
      · rw [Tine.pos_eq, ← Key.le_def]
        by_contra hh
        simp [not_le.1 hh] at hc
      · rw [Tine.pos_eq, ← Key.lt_def]
        by_contra hh
        have hh := not_lt.1 hh
        simp [(hk.trans_le hh).not_gt, (hk.trans_le hh).ne', hh.not_gt] at hc

theorem coversAt_iff {t : TineTree α} (h : Valid t) (k : Key α) :
    RawInterval.CoversAt (pieces none t) k.toW ↔ tcov t false k = true := by
  constructor
  · rintro ⟨j, hj, x, hx, hxj⟩
    have : k = .fin x := Key.toW_inj hx
    subst this
    rw [tcov, ← (pieces_cov false _ h.1).1 h.2, List.any_eq_true]
    exact ⟨j, hj, by rwa [icov_fin ((pieces_wf h.1).1 j hj).1, RawInterval.contains_iff]⟩
  · intro hb
    have hr : RealPos false k := by
      by_contra hr
      rw [tcov, cov_unreal h hr] at hb
      cases hb
    obtain ⟨r1, r2⟩ := hr
    cases k with
    | top => exact absurd rfl r1
    | bot => exact absurd (r2 rfl) (by simp)
    | fin x =>
      rw [tcov, ← (pieces_cov false _ h.1).1 h.2, List.any_eq_true] at hb
      obtain ⟨j, hj, hb⟩ := hb
      rw [icov_fin ((pieces_wf h.1).1 j hj).1, RawInterval.contains_iff] at hb
      exact ⟨j, hj, x, rfl, hb⟩

theorem sharesAt_iff {t : TineTree α} (h : Valid t) {i : RawInterval α} {l u : Bound α}
    (hw : i.WF) (e : Tine.fromRawInterval i = [.lower l, .upper u])
    (hk : (Tine.lower l).key < (Tine.upper u).key) :
    (RawInterval.SharesAt (pieces none t) i (Tine.lower l).key.toW ↔
      (tcov t false (Tine.lower l).key && (Tine.lower l).inclAt) = true) ∧
    (RawInterval.SharesAt (pieces none t) i (Tine.upper u).key.toW ↔
      (tcov t false (Tine.upper u).key && (Tine.upper u).inclAt) = true) := by
  have key : ∀ k : Key α, RawInterval.SharesAt (pieces none t) i k.toW ↔
      (tcov t false k = true ∧ icov i false k = true) := by
    intro k
    rw [← coversAt_iff h]
    constructor
    · rintro ⟨j, hj, x, hx, h1, h2⟩
      have : k = .fin x := Key.toW_inj hx
      subst this
      exact ⟨⟨j, hj, x, rfl, h1⟩, by rwa [icov_fin hw, RawInterval.contains_iff]⟩
    · rintro ⟨⟨j, hj, x, hx, h1⟩, h2⟩
      have : k = .fin x := Key.toW_inj hx
      subst this
      rw [icov_fin hw, RawInterval.contains_iff] at h2
      exact ⟨j, hj, x, rfl, h1, h2⟩
  rw [key, key, Bool.and_eq_true, Bool.and_eq_true, icov, icov, e, cov_pair hk, cov_pair hk]
  simp [hk.not_gt, hk.ne']

theorem cutClean_iff (dbg : Bool) {t : TineTree α} (h : Valid t) {i : RawInterval α} {l u : Bound α}
    (hw : i.WF) (e : Tine.fromRawInterval i = [.lower l, .upper u])
    (hk : (Tine.lower l).key < (Tine.upper u).key) :
    RawInterval.CutClean dbg (pieces none t) i ↔
      IsectSharp dbg (bef false t (Tine.lower l).key) (tcov t false (Tine.lower l).key)
        (tcov t true (Tine.lower l).key) (bef false t (Tine.upper u).key)
        (tcov t false (Tine.upper u).key) (tcov t true (Tine.upper u).key)
        (Tine.lower l).inclAt (Tine.upper u).inclAt = true := by
  obtain ⟨b1, b2⟩ := bounds_of_tines e
  obtain ⟨s1, s2⟩ := sharesAt_iff h hw e hk
  unfold RawInterval.CutClean
  simp only [b1, b2, Option.some.injEq, exists_and_left, exists_eq_left', Tine.pos_eq, s1, s2,
    coversBelow_iff h, coversAbove_iff h, coversAt_iff h]
  generalize bef false t (Tine.lower l).key = b, tcov t false (Tine.lower l).key = a,
    tcov t true (Tine.lower l).key = c, bef false t (Tine.upper u).key = d,
    tcov t false (Tine.upper u).key = a2, tcov t true (Tine.upper u).key = e,
    (Tine.lower l).inclAt = il, (Tine.upper u).inclAt = iu
  clear * -
  simp only [IsectSharp, IsectGood]
  cases c <;> cases d <;> simp <;> cases b <;> cases e <;> simp <;> cases a <;> cases a2 <;>
    cases il <;> cases iu <;> simp

/-- In-place intersection with a two-ended interval gives the expected tree exactly if the ends lie
well. -/
theorem intersectInPlace_sharp (dbg : Bool) {t : TineTree α} (ht : Valid t) (ht0 : t ≠ [])
    {i : RawInterval α} (hi : i.WF) (h2 : i.TwoEnded) (hf : i ≠ .full) :
    ∃ r : TineTree α, Valid r ∧
      (∀ aft k, tcov r aft k = (tcov t aft k && icov i aft k)) ∧
      (TineTree.intersectInPlace dbg t i = .ok r ↔ RawInterval.CutClean dbg (pieces none t) i) := by
  rcases fromRaw_cases hi with ⟨e0, e⟩ | ⟨p, e0, e⟩ | ⟨lb, ub, e, hk⟩
  · exact absurd e0 h2.1
  · exact absurd e0 (h2.2 p)
  obtain ⟨w⟩ := two ht hk
  obtain ⟨⟨v1, v2, v3⟩, v4, v5, v6⟩ := w.views hk
  have f1 : Fits (Tine.lower lb).key false (w.a && (Tine.lower lb).inclAt) w.c := by
    have := w.fits
    rcases lb with x | x | _ <;> simp_all [Fits, Tine.key, Tine.inclAt]
  have f2 : Fits (Tine.upper ub).key w.d (w.a2 && (Tine.upper ub).inclAt) false := by
    have := w.fits2
    rcases ub with x | x | _ <;> simp_all [Fits, Tine.key, Tine.inclAt]
  have hv := two_valid hk f1 f2 (.nil _) w.gtM w.ltM (.nil _) sorted_nil w.sM sorted_nil rfl w.cM rfl
  refine ⟨_, hv, ?_, ?_⟩
  · intro aft k
    have e1 := (congrArg (fun t => tcov t aft k) w.eq).trans
      (cov_two hk w.fits w.fits2 w.ltA w.gtM w.ltM w.gtB w.cA w.cM aft k)
    rw [tcov, cov_two hk f1 f2 (.nil _) w.gtM w.ltM (.nil _) rfl w.cM, e1, icov, e, cov_pair hk]
    rcases lt_trichotomy k (Tine.lower lb).key with h | h | h
    · simp [h, cov]
    · subst h; cases aft <;> simp
    · rcases lt_trichotomy k (Tine.upper ub).key with h' | h' | h'
      · simp [h.not_gt, h.ne', h', h'.ne]
      · subst h'
        cases aft <;> simp [h.not_gt, h.ne']
      · simp [h.not_gt, h.ne', h'.ne', h'.not_gt, cov]
  · rw [cutClean_iff dbg ht hi e hk, v1, v2, v3, v4, v5, v6, ← intersectProper_iff dbg hk w]
    have : TineTree.intersectInPlace dbg t i =
        TineTree.intersectProper dbg t (.lower lb) (.upper ub) := by
      have c1 : TineTree.isEmpty t = false := by simpa [TineTree.isEmpty] using ht0
      cases i <;> first
        | exact absurd rfl h2.1
        | exact absurd rfl (h2.2 _)
        | exact absurd rfl hf
        | simp [TineTree.intersectInPlace, c1, RawInterval.isFull, RawInterval.isEmpty, e]
    rw [this]
    simp

end TT
end NI
