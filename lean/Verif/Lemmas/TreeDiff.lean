import Verif.Lemmas.TreeMore

/-! # Where difference and intersection in place are right; enclosure -/

set_option linter.unusedSimpArgs false
set_option linter.unusedVariables false
set_option linter.unnecessarySeqFocus false
set_option linter.unusedSectionVars false
set_option linter.unusedTactic false

namespace NI
namespace TT
variable {α : Type} [LinearOrder α]
open BSet (Lt Gt At)

/-! ## Coverage just before a key -/

/-- Is the stretch inside just before key `k`? -/
noncomputable def bef : Bool → List (Tine α) → Key α → Bool
  | s, [], _ => s
  | s, t :: ts, k =>
    open Classical in
    if k ≤ t.key then s else bef t.isLowerBound ts k

theorem bef_ge {s : Bool} {B : List (Tine α)} {k : Key α} (h : ∀ t ∈ B, k ≤ t.key) :
    bef s B k = s := by
  cases B with
  | nil => rfl
  | cons b B => simp [bef, h b (List.mem_cons_self)]

theorem bef_lt {s e : Bool} {A B : List (Tine α)} {k : Key α} (h : BSet.Lt A k)
    (hc : Chain s A e) : bef s (A ++ B) k = bef e B k := by
  induction A generalizing s with
  | nil => have hc : s = e := hc; rw [hc]; rfl
  | cons a A ih =>
    have ha := (h a (List.mem_cons_self)).2
    rw [List.cons_append, bef, if_neg ha.not_ge]
    exact ih (fun t ht => h t (List.mem_cons_of_mem _ ht)) hc.2

open Classical in
theorem bef_one {s : Bool} {A B : List (Tine α)} {k' : Key α} {b a c : Bool}
    (hf : Fits k' b a c) (hA : Lt A k') (hB : Gt B k') (hc : Chain s A b)
    (k : Key α) : bef s (A ++ edge k' b a c ++ B) k =
      if k < k' then bef s A k
      else if k = k' then b
      else bef c B k := by
  rcases lt_trichotomy k k' with hlt | rfl | hgt
  · rw [if_pos hlt]
    clear hc
    induction A generalizing s with
    | nil =>
      rw [bef_ge]
      · rfl
      · have : Gt ([] ++ edge k' b a c ++ B) k := by
          rw [List.nil_append]
          exact ((edge_at k' b a c).gt hlt).append (hB.trans hlt.le)
        exact fun t ht => (this t ht).2.le
    | cons x A ih =>
      simp only [List.cons_append, bef]
      rw [ih fun t ht => hA t (List.mem_cons_of_mem _ ht)]
  · rw [if_neg (lt_irrefl _), if_pos rfl, List.append_assoc, bef_lt hA hc, bef_ge]
    intro t ht
    rcases List.mem_append.1 ht with ht | ht
    · exact (edge_at _ _ _ _ t ht).2.ge
    · exact (hB t ht).2.le
  · rw [if_neg hgt.not_gt, if_neg hgt.ne', List.append_assoc, bef_lt (hA.trans hgt.le) hc]
    exact bef_lt ((edge_at k' b a c).lt hgt) (edge_chain _ _ _ _ hf)

open Classical in
theorem bef_two {kl ku : Key α} (hk : kl < ku) {s : Bool} {A M B : List (Tine α)}
    {b a c d a2 e : Bool}
    (h1 : Fits kl b a c) (h2 : Fits ku d a2 e) (ltA : Lt A kl) (gtM : Gt M kl) (ltM : Lt M ku)
    (gtB : Gt B ku) (cA : Chain s A b) (cM : Chain c M d) (k : Key α) :
    bef s (A ++ edge kl b a c ++ (M ++ edge ku d a2 e ++ B)) k =
      if k < kl then bef s A k
      else if k = kl then b
      else if k < ku then bef c M k
      else if k = ku then d
      else bef e B k := by
  have g2 : Gt (M ++ edge ku d a2 e ++ B) kl :=
    (gtM.append ((edge_at ku d a2 e).gt hk)).append (gtB.trans hk.le)
  rw [bef_one h1 ltA g2 cA, bef_one h2 ltM gtB cM]

/-- An excluded point surrounded by the tree. -/
noncomputable def holeAt (t : TineTree α) (k : Key α) : Bool :=
  bef false t k && !tcov t false k && tcov t true k

/-- Three views of a tree at the key it is split at. -/
theorem One.views {t : TineTree α} {k : Key α} (o : One t k) :
    bef false t k = o.b ∧ tcov t false k = o.a ∧ tcov t true k = o.c := by
  have e1 := (congrArg (fun t => bef false t k) o.eq).trans (bef_one o.fits o.ltA o.gtB o.cA k)
  have e2 := (congrArg (fun t => tcov t false k) o.eq).trans
    (cov_one o.fits o.ltA o.gtB o.cA false k)
  have e3 := (congrArg (fun t => tcov t true k) o.eq).trans
    (cov_one o.fits o.ltA o.gtB o.cA true k)
  simp at e1 e2 e3
  exact ⟨e1, e2, e3⟩

theorem Two.views {t : TineTree α} {kl ku : Key α} (hk : kl < ku) (w : Two t kl ku) :
    (bef false t kl = w.b ∧ tcov t false kl = w.a ∧ tcov t true kl = w.c) ∧
    (bef false t ku = w.d ∧ tcov t false ku = w.a2 ∧ tcov t true ku = w.e) := by
  have e1 := fun k => (congrArg (fun t => bef false t k) w.eq).trans
    (bef_two hk w.fits w.fits2 w.ltA w.gtM w.ltM w.gtB w.cA w.cM k)
  have e2 := fun aft k => (congrArg (fun t => tcov t aft k) w.eq).trans
    (cov_two hk w.fits w.fits2 w.ltA w.gtM w.ltM w.gtB w.cA w.cM aft k)
  have g1 := e1 kl
  have g2 := e1 ku
  have g3 := e2 false kl
  have g4 := e2 true kl
  have g5 := e2 false ku
  have g6 := e2 true ku
  simp [hk.not_gt, hk.ne'] at g1 g2 g3 g4 g5 g6
  exact ⟨⟨g1, g3, g4⟩, g2, g5, g6⟩

/-! ## Difference in place -/

/-- The interval can be removed correctly from the tree. -/
def MinusOk (t : TineTree α) (i : RawInterval α) : Prop :=
  match i with
  | .point p => tcov t false (.fin p) = true ∨
      (bef false t (.fin p) = false ∧ tcov t true (.fin p) = false)
  | i => ∀ x ∈ Tine.fromRawInterval i, holeAt t x.key = false

/-- Interval tines as edges. -/
theorem edges_eq (lb ub : Bound α) : [Tine.lower lb, Tine.upper ub] =
    [] ++ edge (Tine.lower lb).key false (Tine.lower lb).inclAt true ++
      ([] ++ edge (Tine.upper ub).key true (Tine.upper ub).inclAt false ++ []) := by
  rcases lb with x | x | _ <;> rcases ub with y | y | _ <;> rfl

theorem fits_lower (lb : Bound α) :
    Fits (Tine.lower lb).key false (Tine.lower lb).inclAt true := by
  rcases lb with x | x | _ <;> simp [Fits, Tine.key, Tine.inclAt]

theorem fits_upper (ub : Bound α) :
    Fits (Tine.upper ub).key true (Tine.upper ub).inclAt false := by
  rcases ub with x | x | _ <;> simp [Fits, Tine.key, Tine.inclAt]

open Classical in
theorem cov_pair {lb ub : Bound α} (hk : (Tine.lower lb).key < (Tine.upper ub).key) (aft : Bool)
    (k : Key α) : cov aft false [Tine.lower lb, Tine.upper ub] k =
      if k < (Tine.lower lb).key then false
      else if k = (Tine.lower lb).key then (if aft then true else (Tine.lower lb).inclAt)
      else if k < (Tine.upper ub).key then true
      else if k = (Tine.upper ub).key then (if aft then false else (Tine.upper ub).inclAt)
      else false := by
  rw [edges_eq, cov_two hk (fits_lower lb) (fits_upper ub) (.nil _) (.nil _) (.nil _) (.nil _)
    rfl rfl aft k]
  simp [cov]

/-- Exact effect of removing a two-ended interval. -/
theorem minusProper_ok (dbg : Bool) {t : TineTree α} (ht : Valid t) {lb ub : Bound α}
    (hk : (Tine.lower lb).key < (Tine.upper ub).key) :
    ∃ t', TineTree.minusProper dbg t (.lower lb) (.upper ub) = .ok t' ∧ Valid t' ∧
      (∀ aft k, tcov t' aft k = ((tcov t aft k && !cov aft false [.lower lb, .upper ub] k) ||
        (!aft && holeAt t k && (decide (k = (Tine.lower lb).key) ||
          decide (k = (Tine.upper ub).key))))) ∧
      bef false t' (Tine.upper ub).key = false ∧
      ∀ k, (Tine.upper ub).key < k → bef false t' k = bef false t k := by
  obtain ⟨w⟩ := two ht hk
  obtain ⟨⟨v1, v2, v3⟩, v4, v5, v6⟩ := w.views hk
  have f1 : Fits (Tine.lower lb).key w.b
      ((w.a && !(Tine.lower lb).inclAt) || (w.b && !w.a && w.c)) false := by
    have := w.fits
    rcases lb with x | x | _ <;> simp_all [Fits, Tine.key, Tine.inclAt]
  have f2 : Fits (Tine.upper ub).key false
      ((w.a2 && !(Tine.upper ub).inclAt) || (w.d && !w.a2 && w.e)) w.e := by
    have := w.fits2
    rcases ub with x | x | _ <;> simp_all [Fits, Tine.key, Tine.inclAt]
  refine ⟨_, minusProper_eq dbg hk w,
    two_valid hk f1 f2 w.ltA (.nil _) (.nil _) w.gtB w.sA sorted_nil w.sB w.cA rfl w.cB, ?_, ?_, ?_⟩
  · intro aft k
    have e1 := (congrArg (fun t => tcov t aft k) w.eq).trans
      (cov_two hk w.fits w.fits2 w.ltA w.gtM w.ltM w.gtB w.cA w.cM aft k)
    rw [tcov, cov_two hk f1 f2 w.ltA (.nil _) (.nil _) w.gtB w.cA rfl, e1, cov_pair hk]
    rcases lt_trichotomy k (Tine.lower lb).key with h | h | h
    · simp [h, h.ne, (h.trans hk).ne]
    · subst h
      rw [holeAt, v1, v2, v3]
      cases aft <;> simp
    · rcases lt_trichotomy k (Tine.upper ub).key with h' | h' | h'
      · simp [h.not_gt, h.ne', h', h'.ne, cov]
      · subst h'
        rw [holeAt, v4, v5, v6]
        cases aft <;> simp [h.not_gt, h.ne']
      · simp [h.not_gt, h.ne', h'.ne', h'.not_gt]
  · rw [bef_two hk f1 f2 w.ltA (.nil _) (.nil _) w.gtB w.cA rfl]
    simp [hk.not_gt, hk.ne']
  · intro k hkk
    have e1 := (congrArg (fun t => bef false t k) w.eq).trans
      (bef_two hk w.fits w.fits2 w.ltA w.gtM w.ltM w.gtB w.cA w.cM k)
    rw [bef_two hk f1 f2 w.ltA (.nil _) (.nil _) w.gtB w.cA rfl, e1]
    have := hk.trans hkk
    simp [this.not_gt, this.ne', hkk.ne', hkk.not_gt]

/-- The key an interval ends at. -/
def ikey (i : RawInterval α) : Key α :=
  match i.upperBound with
  | some u => (Tine.upper u).key
  | none => .bot

theorem minusInPlace_ok (dbg : Bool) {t : TineTree α} (ht : Valid t) {i : RawInterval α}
    (hi : i.WF) (hm : MinusOk t i) :
    ∃ t', TineTree.minusInPlace dbg t i = .ok t' ∧ Valid t' ∧
      (∀ aft k, tcov t' aft k = (tcov t aft k && !icov i aft k)) ∧
      ((∀ p, i ≠ .point p) → i ≠ .empty → bef false t' (ikey i) = false) ∧
      ∀ k, ikey i < k → bef false t' k = bef false t k := by
  unfold TineTree.minusInPlace
  by_cases ht0 : t = []
  · subst ht0
    refine ⟨[], by simp [TineTree.isEmpty], valid_nil, by simp [tcov, cov], fun _ _ => rfl,
      fun _ _ => rfl⟩
  have ht1 : TineTree.isEmpty t = false := by simpa [TineTree.isEmpty] using ht0
  rw [ht1, Bool.false_or]
  by_cases he : i.isEmpty = true
  · have : i = .empty := (RawInterval.isEmpty_iff i).1 he
    subst this
    refine ⟨t, by simp [he], ht, by simp [icov, Tine.fromRawInterval, cov], fun _ h => absurd rfl h,
      fun _ _ => rfl⟩
  rw [if_neg he]
  by_cases hf : i.isFull = true
  · have : i = .full := by cases i <;> simp_all [RawInterval.isFull]
    subst this
    refine ⟨[], by simp [RawInterval.isFull, TineTree.new], valid_nil, ?_, fun _ _ => rfl, ?_⟩
    · intro aft k
      by_cases hr : RealPos aft k
      · have : icov (.full : RawInterval α) aft k = true := by
          obtain ⟨h1, h2⟩ := hr
          cases k <;> cases aft <;>
            simp_all [icov, Tine.fromRawInterval, cov, Tine.key, Tine.isLowerBound]
        rw [this]; simp [tcov, cov]
      · rw [tcov, tcov, cov_unreal ht hr]; rfl
    · intro k hk
      exact absurd hk (Key.not_top_lt _)
  rw [if_neg hf]
  rcases fromRaw_cases hi with ⟨e0, e⟩ | ⟨p, e0, e⟩ | ⟨lb, ub, e, hk⟩
  · subst e0; exact absurd rfl he
  · subst e0
    obtain ⟨o⟩ := one ht (.fin p)
    obtain ⟨v1, v2, v3⟩ := o.views
    have hm' : o.a = true ∨ (o.b = false ∧ o.c = false) := by
      rw [← v1, ← v2, ← v3]; exact hm
    refine ⟨_, by simp only [e]; exact minusPoint_eq dbg o hm', o.valid' trivial, fun aft k => ?_,
      fun h => absurd rfl (h p), fun k hk => ?_⟩
    · have e1 := (congrArg (fun t => tcov t aft k) o.eq).trans
        (cov_one o.fits o.ltA o.gtB o.cA aft k)
      have e2 := (congrArg (fun t => cov aft false t k) e).trans
        (cov_one (A := []) (B := []) (s := false) (k' := .fin p) (b := false) (a := true)
        (c := false) trivial (.nil _) (.nil _) rfl aft k)
      have ft : Fits (.fin p) o.b false o.c := trivial
      rw [e1, icov, e2, tcov, cov_one ft o.ltA o.gtB o.cA]
      split_ifs <;> simp [cov]
    · have e1 := (congrArg (fun t => bef false t k) o.eq).trans
        (bef_one o.fits o.ltA o.gtB o.cA k)
      have ft : Fits (.fin p) o.b false o.c := trivial
      have hk : Key.fin p < k := hk
      rw [e1, bef_one ft o.ltA o.gtB o.cA]
  · have hnp : ∀ p, i ≠ .point p := by
      rintro p rfl; simp [Tine.fromRawInterval] at e
    have hm' : ∀ x ∈ Tine.fromRawInterval i, holeAt t x.key = false := by
      cases i <;> first | exact hm | exact absurd rfl (hnp _)
    rw [e] at hm'
    obtain ⟨t', e1, v, c, b1, b2⟩ := minusProper_ok dbg ht hk
    have hik : ikey i = (Tine.upper ub).key := by
      cases i <;> simp [Tine.fromRawInterval] at e <;> simp [ikey, RawInterval.upperBound, ← e.2]
    rw [hik]
    refine ⟨t', by simp only [e]; exact e1, v, fun aft k => ?_, fun _ _ => b1, b2⟩
    rw [c, icov, e]
    by_cases h1 : k = (Tine.lower lb).key
    · rw [h1, hm' (.lower lb) (by simp)]; simp
    · by_cases h2 : k = (Tine.upper ub).key
      · rw [h2, hm' (.upper ub) (by simp)]; simp
      · simp [h1, h2]

/-- Removing separated intervals one after the other. -/
theorem foldMinus_ok (dbg : Bool) {t : TineTree α} (ht : Valid t) (is : List (RawInterval α))
    (hi : ∀ i ∈ is, i.WF ∧ i ≠ .empty ∧ MinusOk t i)
    (hp : is.Pairwise fun i j => ∃ u l, i.upperBound = some u ∧ j.lowerBound = some l ∧ Sep u l) :
    ∃ t', is.foldlM (TineTree.minusInPlace dbg) t = .ok t' ∧ Valid t' ∧
      ∀ aft k, tcov t' aft k = (tcov t aft k && !is.any fun i => icov i aft k) := by
  induction is generalizing t with
  | nil => exact ⟨t, rfl, ht, by simp⟩
  | cons i is ih =>
    obtain ⟨w1, w2, w3⟩ := hi i (List.mem_cons_self)
    rw [List.pairwise_cons] at hp
    obtain ⟨t1, e1, v1, c1, b1, b2⟩ := minusInPlace_ok dbg ht w1 w3
    have key : ∀ j ∈ is, j.WF ∧ j ≠ .empty ∧ MinusOk t1 j := by
      intro j hj
      obtain ⟨g1, g2, g3⟩ := hi j (List.mem_cons_of_mem _ hj)
      refine ⟨g1, g2, ?_⟩
      obtain ⟨u, l, hu, hl, hs⟩ := hp.1 j hj
      have hik : ikey i = (Tine.upper u).key := by rw [ikey, hu]
      -- beyond the end of `i` nothing has changed
      have icovz : ∀ aft k, ikey i < k → icov i aft k = false := by
        intro aft k hk
        rcases fromRaw_cases w1 with ⟨e0, e⟩ | ⟨p, e0, e⟩ | ⟨lb, ub, e, hkk⟩
        · exact absurd e0 w2
        · subst e0
          have hk : Key.fin p < k := hk
          simp [icov, Tine.fromRawInterval, cov, Tine.key, hk.not_gt, hk.ne', Tine.isLowerBound]
        · have hik : ikey i = (Tine.upper ub).key := by
            cases i <;> simp [Tine.fromRawInterval] at e <;>
              simp [ikey, RawInterval.upperBound, ← e.2]
          rw [hik] at hk
          have := hkk.trans hk
          rw [icov, e, cov_pair hkk]
          simp [this.not_gt, this.ne', hk.not_gt, hk.ne']
      have same : ∀ k, ikey i < k → (∀ aft, tcov t1 aft k = tcov t aft k) ∧
          bef false t1 k = bef false t k := by
        intro k hk
        exact ⟨fun aft => by rw [c1, icovz aft k hk]; simp, b2 k hk⟩
      have hole : ∀ k, ikey i < k → holeAt t1 k = holeAt t k := by
        intro k hk
        obtain ⟨s1, s2⟩ := same k hk
        rw [holeAt, holeAt, s1, s1, s2]
      rcases fromRaw_cases g1 with ⟨e0, e⟩ | ⟨p, e0, e⟩ | ⟨lb, ub, e, hkk⟩
      · exact absurd e0 g2
      · subst e0
        have hlt : ikey i < .fin p := by
          have : l = .incl p := by simpa [RawInterval.lowerBound] using hl.symm
          subst this
          rw [hik]
          rcases hs with hs | ⟨q, _, h⟩
          · exact hs
          · cases h
        obtain ⟨s1, s2⟩ := same _ hlt
        simp only [MinusOk] at g3 ⊢
        rw [s1, s1, s2]; exact g3
      · have hlb : l = lb := by
          cases j <;> simp [Tine.fromRawInterval] at e <;>
            simp [RawInterval.lowerBound] at hl <;> rw [← hl, ← e.1]
        subst hlb
        have hnp : ∀ p, j ≠ .point p := by
          rintro p rfl; simp [Tine.fromRawInterval] at e
        have g3' : ∀ x ∈ Tine.fromRawInterval j, holeAt t x.key = false := by
          cases j <;> first | exact g3 | exact absurd rfl (hnp _)
        have : ∀ x ∈ Tine.fromRawInterval j, holeAt t1 x.key = false := by
          rw [e] at g3' ⊢
          have hlow : holeAt t1 (Tine.lower l).key = false := by
            rcases hs with hs | ⟨q, rfl, rfl⟩
            · rw [hole _ (by rw [hik]; exact hs)]; exact g3' _ (by simp)
            · have hnp : ∀ p, i ≠ .point p := by
                rintro p rfl; simp [RawInterval.upperBound] at hu
              have := b1 hnp w2
              rw [hik] at this
              have e3 : (Tine.upper (.excl q)).key = (Tine.lower (.excl q)).key := rfl
              rw [holeAt, ← e3, this]; rfl
          have hle : ikey i ≤ (Tine.lower l).key := by
            rw [hik]
            rcases hs with hs | ⟨q, rfl, rfl⟩
            · exact hs.le
            · exact le_refl _
          intro x hx
          rcases List.mem_cons.1 hx with rfl | hx
          · exact hlow
          · have : x = .upper ub := by simpa using hx
            subst this
            rw [hole _ (lt_of_le_of_lt hle hkk)]; exact g3' _ (by simp)
        cases j <;> first | exact this | exact absurd rfl (hnp _)
    obtain ⟨t2, e2, v2, c2⟩ := ih v1 key hp.2
    refine ⟨t2, ?_, v2, fun aft k => ?_⟩
    · rw [List.foldlM_cons, e1]; exact e2
    · rw [c2, c1, List.any_cons, Bool.not_or, Bool.and_assoc]

theorem minus_ok (dbg : Bool) {a b : TineTree α} (ha : Valid a) (hb : Valid b)
    (hm : ∀ i ∈ pieces none b, MinusOk a i) :
    ∃ t', TineTree.minus dbg a b = .ok t' ∧ Valid t' ∧
      ∀ aft k, tcov t' aft k = (tcov a aft k && !tcov b aft k) := by
  obtain ⟨t', e, v, c⟩ := foldMinus_ok dbg ha (pieces none b)
    (fun i hi => ⟨((pieces_wf hb.1).1 i hi).1, ((pieces_wf hb.1).1 i hi).2, hm i hi⟩)
    (pieces_sep hb.1).1
  refine ⟨t', ?_, v, fun aft k => ?_⟩
  · rw [TineTree.minus, fold_eq dbg _ hb]; exact e
  · rw [c, (pieces_cov aft k hb.1).1 hb.2]; rfl

/-! ## Open ends seen from the intervals -/

theorem ex_cons {β : Type _} {p : β → Prop} {a : β} {l : List β} :
    (∃ x ∈ a :: l, p x) ↔ p a ∨ ∃ x ∈ l, p x := by simp

theorem pieces_open_upper {ts : List (Tine α)} (hs : Sorted ts) (p : α) :
    (Chain false ts false →
      ((∃ i ∈ pieces none ts, i.upperBound = some (.excl p)) ↔
        (Tine.upper (.excl p) ∈ ts ∨ Tine.point (.excl p) ∈ ts))) ∧
    (∀ b, Chain true ts false → Gt ts (Tine.lower b).key →
      ((∃ i ∈ pieces (some b) ts, i.upperBound = some (.excl p)) ↔
        (Tine.upper (.excl p) ∈ ts ∨ Tine.point (.excl p) ∈ ts))) := by
  induction ts with
  | nil => exact ⟨by simp [pieces], by simp [pieces]⟩
  | cons t ts ih =>
    obtain ⟨h1, h2, h3⟩ := sorted_cons.1 hs
    obtain ⟨ih1, ih2⟩ := ih h3
    constructor
    · rintro ⟨c1, c2⟩
      rcases t with b | (q | q | _) | b <;>
        simp [Tine.isUpperBound, Tine.isLowerBound] at c1 c2
      · rw [pieces, ih2 b c2 h2]; simp
      · rw [pieces, ex_cons, ih1 c2]
        simp [RawInterval.upperBound]
      · exact absurd rfl h1
    · rintro b ⟨c1, c2⟩ hgt
      have hbk := (hgt t (List.mem_cons_self)).2
      rcases t with u | (q | q | _) | u <;>
        simp [Tine.isUpperBound, Tine.isLowerBound] at c1 c2
      · rw [pieces, ex_cons, ih2 (.excl q) c2 h2,
          (new_bounds (u := .excl q) (show (Tine.lower b).key < _ from hbk)).2]
        simp [eq_comm]; tauto
      · rw [pieces, ex_cons, ih1 c2, (new_bounds hbk).2]
        simp [eq_comm]; tauto

theorem pieces_open_lower {ts : List (Tine α)} (hs : Sorted ts) (p : α) :
    (Chain false ts false →
      ((∃ i ∈ pieces none ts, i.lowerBound = some (.excl p)) ↔
        (Tine.lower (.excl p) ∈ ts ∨ Tine.point (.excl p) ∈ ts))) ∧
    (∀ b, Chain true ts false → Gt ts (Tine.lower b).key →
      ((∃ i ∈ pieces (some b) ts, i.lowerBound = some (.excl p)) ↔
        (b = .excl p ∨ Tine.lower (.excl p) ∈ ts ∨ Tine.point (.excl p) ∈ ts))) := by
  induction ts with
  | nil => exact ⟨by simp [pieces], fun b h => absurd h (by simp [Chain])⟩
  | cons t ts ih =>
    obtain ⟨h1, h2, h3⟩ := sorted_cons.1 hs
    obtain ⟨ih1, ih2⟩ := ih h3
    constructor
    · rintro ⟨c1, c2⟩
      rcases t with b | (q | q | _) | b <;>
        simp [Tine.isUpperBound, Tine.isLowerBound] at c1 c2
      · rw [pieces, ih2 b c2 h2]; simp [eq_comm]; tauto
      · rw [pieces, ex_cons, ih1 c2]
        simp [RawInterval.lowerBound]
      · exact absurd rfl h1
    · rintro b ⟨c1, c2⟩ hgt
      have hbk := (hgt t (List.mem_cons_self)).2
      rcases t with u | (q | q | _) | u <;>
        simp [Tine.isUpperBound, Tine.isLowerBound] at c1 c2
      · rw [pieces, ex_cons, ih2 (.excl q) c2 h2,
          (new_bounds (u := .excl q) (show (Tine.lower b).key < _ from hbk)).1]
        simp [eq_comm]; tauto
      · rw [pieces, ex_cons, ih1 c2, (new_bounds hbk).1]
        simp [eq_comm]

theorem mem_edge {t : TineTree α} {p : α} (o : One t (.fin p)) {x : Tine α} (hx : x.key = .fin p) :
    x ∈ t ↔ x ∈ edge (.fin p) o.b o.a o.c := by
  have := o.eq
  constructor
  · intro h
    rw [this] at h
    rcases List.mem_append.1 h with h | h
    · rcases List.mem_append.1 h with h | h
      · exact absurd hx (o.ltA x h).2.ne
      · exact h
    · exact absurd hx (o.gtB x h).2.ne'
  · intro h
    rw [this]; simp [h]

theorem open_upper_iff {t : TineTree α} (h : Valid t) (p : α) :
    (∃ i ∈ pieces none t, i.upperBound = some (.excl p)) ↔
      bef false t (.fin p) = true ∧ tcov t false (.fin p) = false := by
  obtain ⟨o⟩ := one h (.fin p)
  obtain ⟨v1, v2, v3⟩ := o.views
  rw [(pieces_open_upper h.1 p).1 h.2, mem_edge o rfl, mem_edge o rfl, v1, v2]
  cases o.b <;> cases o.a <;> cases o.c <;> simp [edge]

theorem open_lower_iff {t : TineTree α} (h : Valid t) (p : α) :
    (∃ i ∈ pieces none t, i.lowerBound = some (.excl p)) ↔
      tcov t false (.fin p) = false ∧ tcov t true (.fin p) = true := by
  obtain ⟨o⟩ := one h (.fin p)
  obtain ⟨v1, v2, v3⟩ := o.views
  rw [(pieces_open_lower h.1 p).1 h.2, mem_edge o rfl, mem_edge o rfl, v2, v3]
  cases o.b <;> cases o.a <;> cases o.c <;> simp [edge]

theorem hole_iff {t : TineTree α} (h : Valid t) (p : α) :
    holeAt t (.fin p) = true ↔ (∃ i ∈ pieces none t, i.upperBound = some (.excl p)) ∧
      ∃ i ∈ pieces none t, i.lowerBound = some (.excl p) := by
  rw [open_upper_iff h, open_lower_iff h, holeAt]
  cases bef false t (.fin p) <;> cases tcov t false (.fin p) <;> cases tcov t true (.fin p) <;> simp

theorem hole_inf {t : TineTree α} (h : Valid t) : holeAt t .bot = false ∧ holeAt t .top = false := by
  refine ⟨?_, ?_⟩
  · obtain ⟨o⟩ := one h .bot
    obtain ⟨v1, v2, v3⟩ := o.views
    rw [holeAt, v1, o.fits.1]; rfl
  · obtain ⟨o⟩ := one h .top
    obtain ⟨v1, v2, v3⟩ := o.views
    rw [holeAt, v3, o.fits.2, Bool.and_false]

end TT
end NI
