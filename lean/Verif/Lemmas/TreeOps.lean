import Verif.Lemmas.TreeBase

/-! # Splitting valid trees and the in-place union -/

set_option linter.unusedSimpArgs false
set_option linter.unusedVariables false
set_option linter.unnecessarySeqFocus false
set_option linter.unusedSectionVars false
set_option linter.unusedTactic false

namespace NI
namespace TT
variable {α : Type _} [LinearOrder α]
open BSet (Lt Gt At)

/-! ## Canonicity -/

/-- The positions at which coverage means something. -/
def RealPos (aft : Bool) (k : Key α) : Prop := k ≠ .top ∧ (k = .bot → aft = true)

theorem edge_key_pos {t : Tine α} {s : Bool} (h : t.Ok) (hs : t.isUpperBound = s)
    (h1 : t.key ≠ .top) (h2 : t.key ≠ .bot → t.inclAt = s) (h3 : t.isLowerBound = s) : False := by
  rcases t with (a | a | _) | (a | a | _) | (a | a | _) <;> cases s <;>
    simp_all [Tine.isUpperBound, Tine.inclAt, Tine.isLowerBound, Tine.key, Tine.Ok]

theorem tine_ext {t t' : Tine α} (h : t.Ok) (h' : t'.Ok) (hk : t.key = t'.key)
    (h1 : t.isUpperBound = t'.isUpperBound) (h2 : t.key ≠ .top → t.isLowerBound = t'.isLowerBound)
    (h3 : t.key ≠ .top → t.key ≠ .bot → t.inclAt = t'.inclAt) : t = t' := by
  rcases t with (a | a | _) | (a | a | _) | (a | a | _) <;>
  rcases t' with (b | b | _) | (b | b | _) | (b | b | _) <;>
    simp_all [Tine.isUpperBound, Tine.inclAt, Tine.isLowerBound, Tine.key, Tine.Ok]

theorem upper_of_top {t : Tine α} (h : t.key = .top) : t = .upper .inf := by
  rcases t with (a | a | _) | (a | a | _) | (a | a | _) <;> simp_all [Tine.key]

/-- Two valid stretches with the same coverage are the same list. -/
theorem cov_ext {s : Bool} {ts ts' : List (Tine α)} (h : Sorted ts) (h' : Sorted ts')
    (hc : Chain s ts false) (hc' : Chain s ts' false)
    (hcov : ∀ aft k, RealPos aft k → cov aft s ts k = cov aft s ts' k) : ts = ts' := by
  -- a first tine strictly before everything else in the other list is visible
  have key : ∀ (t : Tine α) (ts ts' : List (Tine α)), Sorted (t :: ts) → Chain s (t :: ts) false →
      Gt ts' t.key → t.key ≠ .top →
      (∀ aft k, RealPos aft k → cov aft s (t :: ts) k = cov aft s ts' k) → False := by
    intro t ts ts' h hc hgt hne hcov
    obtain ⟨h1, h2, h3⟩ := sorted_cons.1 h
    apply edge_key_pos h1 hc.1 hne
    · intro hb
      have := hcov false t.key ⟨hne, fun e => absurd e hb⟩
      rw [cov_gt hgt, cov] at this
      simpa using this
    · have := hcov true t.key ⟨hne, fun _ => rfl⟩
      rw [cov_gt hgt, cov] at this
      simpa [cov_gt h2] using this
  have nilcase : ∀ (t : Tine α) (ts : List (Tine α)), Sorted (t :: ts) → Chain s (t :: ts) false →
      s = false →
      (∀ aft k, RealPos aft k → cov aft s (t :: ts) k = cov aft s [] k) → False := by
    intro t ts h hc hs hcov
    by_cases ht : t.key = .top
    · rw [upper_of_top ht] at hc
      have := hc.1
      simp [Tine.isUpperBound, hs] at this
    · exact key t ts [] h hc (.nil _) ht hcov
  induction ts generalizing s ts' with
  | nil =>
    cases ts' with
    | nil => rfl
    | cons t' ts' => exact (nilcase t' ts' h' hc' hc (fun a k r => (hcov a k r).symm)).elim
  | cons t ts ih =>
    cases ts' with
    | nil => exact (nilcase t ts h hc hc' hcov).elim
    | cons t' ts' =>
      obtain ⟨h1, h2, h3⟩ := sorted_cons.1 h
      obtain ⟨h1', h2', h3'⟩ := sorted_cons.1 h'
      rcases lt_trichotomy t.key t'.key with hlt | heq | hgt
      · refine (key t ts _ h hc ?_ (fun e => ?_) hcov).elim
        · intro x hx
          rcases List.mem_cons.1 hx with rfl | hx
          · exact ⟨h1', hlt⟩
          · exact ⟨(h2' x hx).1, hlt.trans (h2' x hx).2⟩
        · rw [e] at hlt; exact Key.not_top_lt _ hlt
      · have ett : t = t' := by
          refine tine_ext h1 h1' heq (hc.1.trans hc'.1.symm) (fun hne => ?_) (fun hne hnb => ?_)
          · have := hcov true t.key ⟨hne, fun _ => rfl⟩
            rw [cov, cov] at this
            simpa [heq, cov_gt (heq ▸ h2), cov_gt h2'] using this
          · have := hcov false t.key ⟨hne, fun e => absurd e hnb⟩
            rw [cov, cov] at this
            simpa [heq] using this
        subst ett
        congr 1
        refine ih h3 h3' hc.2 hc'.2 (fun aft k hk => ?_) ?_ ?_
        · rcases lt_trichotomy k t.key with hlt | he | hgt
          · rw [cov_gt (h2.trans hlt.le), cov_gt (h2'.trans hlt.le)]
          · rw [he, cov_gt h2, cov_gt h2']
          · have := hcov aft k hk
            rw [cov, cov, if_neg hgt.not_gt, if_neg (by simp [hgt.ne']), if_neg hgt.not_gt,
              if_neg (by simp [hgt.ne'])] at this
            exact this
        · intro t0 ts0 ts0' g gc gg gne gcov
          obtain ⟨g1, g2, g3⟩ := sorted_cons.1 g
          apply edge_key_pos g1 gc.1 gne
          · intro hb
            have := gcov false t0.key ⟨gne, fun e => absurd e hb⟩
            rw [cov_gt gg, cov] at this
            simpa using this
          · have := gcov true t0.key ⟨gne, fun _ => rfl⟩
            rw [cov_gt gg, cov] at this
            simpa [cov_gt g2] using this
        · intro t0 ts0 g gc gs gcov
          by_cases ht : t0.key = .top
          · rw [upper_of_top ht] at gc
            have := gc.1
            rw [gs] at this
            simp [Tine.isUpperBound] at this
          · obtain ⟨g1, g2, g3⟩ := sorted_cons.1 g
            have gg : Gt ([] : List (Tine α)) t0.key := .nil _
            apply edge_key_pos g1 gc.1 ht
            · intro hb
              have := gcov false t0.key ⟨ht, fun e => absurd e hb⟩
              rw [cov_gt gg, cov] at this
              simpa using this
            · have := gcov true t0.key ⟨ht, fun _ => rfl⟩
              rw [cov_gt gg, cov] at this
              simpa [cov_gt g2] using this
      · refine (key t' ts' _ h' hc' ?_ (fun e => ?_) (fun a k r => (hcov a k r).symm)).elim
        · intro x hx
          rcases List.mem_cons.1 hx with rfl | hx
          · exact ⟨h1, hgt⟩
          · exact ⟨(h2 x hx).1, hgt.trans (h2 x hx).2⟩
        · rw [e] at hgt; exact Key.not_top_lt _ hgt

/-- Valid trees with the same coverage are equal. -/
theorem valid_ext {t t' : TineTree α} (h : Valid t) (h' : Valid t')
    (hcov : ∀ aft k, RealPos aft k → cov aft false t k = cov aft false t' k) : t = t' :=
  cov_ext h.1 h'.1 h.2 h'.2 hcov

theorem cov_unreal {t : TineTree α} (h : Valid t) {aft : Bool} {k : Key α} (hk : ¬ RealPos aft k) :
    cov aft false t k = false := by
  obtain ⟨A, B, b, a, c, e1, e2, e3, e4, e5, e6, e7, e8⟩ :=
    split_at h.1 h.2 k (fun _ => rfl) (fun _ => rfl)
  obtain ⟨g1, g2⟩ := cov_split e2 e3 e4 e7
  rw [← e1] at g1 g2
  cases k with
  | bot =>
    cases aft
    · rw [g1]; exact e2.2
    · exact absurd ⟨by simp, fun _ => rfl⟩ hk
  | top => cases aft; exacts [g1.trans e2.1, g2.trans e2.2]
  | fin x => exact absurd ⟨by simp, by simp⟩ hk

/-! ## Splitting at one and at two keys -/

/-- A valid tree split at one key. -/
structure One (t : TineTree α) (k : Key α) where
  A : List (Tine α)
  B : List (Tine α)
  b : Bool
  a : Bool
  c : Bool
  eq : t = A ++ edge k b a c ++ B
  fits : Fits k b a c
  ltA : Lt A k
  gtB : Gt B k
  sA : Sorted A
  sB : Sorted B
  cA : Chain false A b
  cB : Chain c B false

theorem one {t : TineTree α} (h : Valid t) (k : Key α) : Nonempty (One t k) := by
  obtain ⟨A, B, b, a, c, e1, e2, e3, e4, e5, e6, e7, e8⟩ :=
    split_at h.1 h.2 k (fun _ => rfl) (fun _ => rfl)
  exact ⟨⟨A, B, b, a, c, e1, e2, e3, e4, e5, e6, e7, e8⟩⟩

theorem One.valid' {t : TineTree α} {k : Key α} (o : One t k) {a' : Bool}
    (hf : Fits k o.b a' o.c) : Valid (o.A ++ edge k o.b a' o.c ++ o.B) := by
  refine ⟨sorted_glue o.sA (edge_sorted _ _ _ _) o.sB o.ltA (edge_at _ _ _ _) o.gtB, ?_⟩
  rw [chain_append, ]
  exact ⟨o.c, chain_append.2 ⟨o.b, o.cA, edge_chain _ _ _ _ hf⟩, o.cB⟩

open Classical in
theorem cov_one {s : Bool} {A B : List (Tine α)} {k' : Key α} {b a c : Bool}
    (hf : Fits k' b a c) (hA : Lt A k') (hB : Gt B k') (hc : Chain s A b) (aft : Bool)
    (k : Key α) : cov aft s (A ++ edge k' b a c ++ B) k =
      if k < k' then cov aft s A k
      else if k = k' then (if aft then c else a)
      else cov aft c B k := by
  rcases lt_trichotomy k k' with hlt | rfl | hgt
  · rw [if_pos hlt]
    clear hc
    induction A generalizing s with
    | nil =>
      have : Gt ([] ++ edge k' b a c ++ B) k := by
        rw [List.nil_append]
        exact ((edge_at k' b a c).gt hlt).append (hB.trans hlt.le)
      rw [cov_gt this]; rfl
    | cons x A ih =>
      simp only [List.cons_append, cov]
      rw [ih fun t ht => hA t (List.mem_cons_of_mem _ ht)]
  · rw [if_neg (lt_irrefl _), if_pos rfl]
    obtain ⟨g1, g2⟩ := cov_split hf hA hB hc
    cases aft; exacts [g1, g2]
  · rw [if_neg hgt.not_gt, if_neg hgt.ne', List.append_assoc, cov_lt (hA.trans hgt.le) hc]
    exact cov_lt ((edge_at k' b a c).lt hgt) (edge_chain _ _ _ _ hf)

/-- A valid tree split at two keys. -/
structure Two (t : TineTree α) (kl ku : Key α) where
  A : List (Tine α)
  M : List (Tine α)
  B : List (Tine α)
  b : Bool
  a : Bool
  c : Bool
  d : Bool
  a2 : Bool
  e : Bool
  eq : t = A ++ edge kl b a c ++ (M ++ edge ku d a2 e ++ B)
  fits : Fits kl b a c
  fits2 : Fits ku d a2 e
  ltA : Lt A kl
  gtM : Gt M kl
  ltM : Lt M ku
  gtB : Gt B ku
  sA : Sorted A
  sM : Sorted M
  sB : Sorted B
  cA : Chain false A b
  cM : Chain c M d
  cB : Chain e B false

theorem two {t : TineTree α} (h : Valid t) {kl ku : Key α} (hk : kl < ku) :
    Nonempty (Two t kl ku) := by
  obtain ⟨A, B, b, a, c, e1, e2, e3, e4, e5, e6, e7, e8⟩ :=
    split_at h.1 h.2 kl (fun _ => rfl) (fun _ => rfl)
  obtain ⟨A', B', b', a', c', f1, f2, f3, f4, f5, f6, f7, f8⟩ :=
    split_at e6 e8 ku (fun e => absurd (e ▸ hk) (Key.not_lt_bot _)) (fun _ => rfl)
  refine ⟨⟨A, A', B', b, a, c, b', a', c', by rw [e1, f1], e2, f2, e3, ?_, f3, f4, e5, f5, f6, e7,
    f7, f8⟩⟩
  intro t ht
  exact e4 t (by rw [f1]; simp [ht])

/-- Gluing two edges. -/
theorem two_valid {kl ku : Key α} (hk : kl < ku) {A M B : List (Tine α)} {b a c d a2 e : Bool}
    (h1 : Fits kl b a c) (h2 : Fits ku d a2 e) (ltA : Lt A kl) (gtM : Gt M kl) (ltM : Lt M ku)
    (gtB : Gt B ku) (sA : Sorted A) (sM : Sorted M) (sB : Sorted B) (cA : Chain false A b)
    (cM : Chain c M d) (cB : Chain e B false) :
    Valid (A ++ edge kl b a c ++ (M ++ edge ku d a2 e ++ B)) := by
  have s2 := sorted_glue sM (edge_sorted ku d a2 e) sB ltM (edge_at _ _ _ _) gtB
  have g2 : Gt (M ++ edge ku d a2 e ++ B) kl :=
    (gtM.append ((edge_at ku d a2 e).gt hk)).append (gtB.trans hk.le)
  refine ⟨sorted_glue sA (edge_sorted kl b a c) s2 ltA (edge_at _ _ _ _) g2, ?_⟩
  exact chain_append.2 ⟨c, chain_append.2 ⟨b, cA, edge_chain _ _ _ _ h1⟩,
    chain_append.2 ⟨e, chain_append.2 ⟨d, cM, edge_chain _ _ _ _ h2⟩, cB⟩⟩

open Classical in
theorem cov_two {kl ku : Key α} (hk : kl < ku) {s : Bool} {A M B : List (Tine α)}
    {b a c d a2 e : Bool}
    (h1 : Fits kl b a c) (h2 : Fits ku d a2 e) (ltA : Lt A kl) (gtM : Gt M kl) (ltM : Lt M ku)
    (gtB : Gt B ku) (cA : Chain s A b) (cM : Chain c M d) (aft : Bool) (k : Key α) :
    cov aft s (A ++ edge kl b a c ++ (M ++ edge ku d a2 e ++ B)) k =
      if k < kl then cov aft s A k
      else if k = kl then (if aft then c else a)
      else if k < ku then cov aft c M k
      else if k = ku then (if aft then e else a2)
      else cov aft e B k := by
  have g2 : Gt (M ++ edge ku d a2 e ++ B) kl :=
    (gtM.append ((edge_at ku d a2 e).gt hk)).append (gtB.trans hk.le)
  rw [cov_one h1 ltA g2 cA, cov_one h2 ltM gtB cM]

/-! ## Splits of the code -/

theorem exteriorSplit_eq {t : TineTree α} {l u : Tine α} (hl : l.Ok) (hu : u.Ok)
    (hk : l.key < u.key) (w : Two t l.key u.key) :
    TineTree.exteriorSplit t l u =
      ((w.A.getLast?, (edge l.key w.b w.a w.c).head?, (edge u.key w.d w.a2 w.e).head?, w.B.head?),
        w.A ++ w.B) := by
  have g2 : Gt (w.M ++ edge u.key w.d w.a2 w.e ++ w.B) l.key :=
    (w.gtM.append ((edge_at _ w.d w.a2 w.e).gt hk)).append (w.gtB.trans hk.le)
  have hAu : Lt (w.A ++ w.M) u.key := (w.ltA.trans hk.le).append w.ltM
  unfold TineTree.exteriorSplit
  simp only [BSet.append]
  have e1 := BSet.taken_split hl w.ltA (edge_at l.key w.b w.a w.c) g2
  have e2 := BSet.remove_split hl w.ltA (edge_at l.key w.b w.a w.c) g2
  rw [← w.eq] at e1 e2
  rw [e1, e2]
  have e3 := BSet.taken_split hu hAu (edge_at u.key w.d w.a2 w.e) w.gtB
  have e4 := BSet.remove_split hu hAu (edge_at u.key w.d w.a2 w.e) w.gtB
  have ea : w.A ++ (w.M ++ edge u.key w.d w.a2 w.e ++ w.B) =
    w.A ++ w.M ++ edge u.key w.d w.a2 w.e ++ w.B := by simp
  rw [ea, e3, e4, List.append_assoc]
  have gMB : Gt (w.M ++ w.B) l.key := w.gtM.append (w.gtB.trans hk.le)
  rw [BSet.above_split hl w.ltA gMB, BSet.below_split hl w.ltA gMB, BSet.above_split hu w.ltM w.gtB]

theorem exteriorSplitPoint_eq {t : TineTree α} {p : Tine α} (hp : p.Ok) (o : One t p.key) :
    TineTree.exteriorSplitPoint t p =
      ((o.A.getLast?, (edge p.key o.b o.a o.c).head?, o.B.head?), o.A ++ o.B) := by
  unfold TineTree.exteriorSplitPoint
  simp only [BSet.append]
  have e1 := BSet.taken_split hp o.ltA (edge_at p.key o.b o.a o.c) o.gtB
  have e2 := BSet.remove_split hp o.ltA (edge_at p.key o.b o.a o.c) o.gtB
  rw [← o.eq] at e1 e2
  rw [e1, e2, BSet.above_split hp o.ltA o.gtB, BSet.below_split hp o.ltA o.gtB]

theorem interiorSplit_eq {t : TineTree α} {l u : Tine α} (dbg : Bool) (hl : l.Ok) (hu : u.Ok)
    (hk : l.key < u.key) (w : Two t l.key u.key) :
    TineTree.interiorSplit dbg t l u = .ok
      ((w.A.getLast?, w.M.head?, (edge l.key w.b w.a w.c).head?, (edge u.key w.d w.a2 w.e).head?,
        w.M.getLast?, w.B.head?), w.M) := by
  have g2 : Gt (w.M ++ edge u.key w.d w.a2 w.e ++ w.B) l.key :=
    (w.gtM.append ((edge_at _ w.d w.a2 w.e).gt hk)).append (w.gtB.trans hk.le)
  have hAu : Lt (w.A ++ w.M) u.key := (w.ltA.trans hk.le).append w.ltM
  have e1 := BSet.taken_split hl w.ltA (edge_at l.key w.b w.a w.c) g2
  have e2 := BSet.remove_split hl w.ltA (edge_at l.key w.b w.a w.c) g2
  rw [← w.eq] at e1 e2
  have e3 := BSet.taken_split hu hAu (edge_at u.key w.d w.a2 w.e) w.gtB
  have e4 := BSet.remove_split hu hAu (edge_at u.key w.d w.a2 w.e) w.gtB
  have ea : w.A ++ (w.M ++ edge u.key w.d w.a2 w.e ++ w.B) =
    w.A ++ w.M ++ edge u.key w.d w.a2 w.e ++ w.B := by simp
  have gMB : Gt (w.M ++ w.B) l.key := w.gtM.append (w.gtB.trans hk.le)
  have hcmp : (l.cmp u == .lt) = true := by simp [Tine.cmp_lt hl hu hk]
  have hsome : (w.M.head?.isSome == w.M.getLast?.isSome) = true := by
    cases w.M <;> simp [List.getLast?_cons]
  rw [← ea] at e3 e4
  rw [List.append_assoc w.A w.M w.B] at e4
  unfold TineTree.interiorSplit
  simp only [hcmp, e1, e2, e3, e4, BSet.above_split hl w.ltA gMB,
    BSet.below_split hl w.ltA gMB, BSet.above_split hu w.ltM w.gtB,
    BSet.below_split hu w.ltM w.gtB, hsome]
  cases dbg <;> rfl

/-! ## Insertion between two parts -/

theorem insert_mid {x : Tine α} (hx : x.Ok) {A B : List (Tine α)} (hA : Lt A x.key)
    (hB : Gt B x.key) : BSet.insert x (A ++ B) = A ++ [x] ++ B := by
  rw [BSet.insert_split hx hA hB]; simp

/-! ## In-place union -/

/-- A lower tine. -/
def IsLower (l : Tine α) : Prop := ∃ b, l = .lower b
/-- An upper tine. -/
def IsUpper (u : Tine α) : Prop := ∃ b, u = .upper b

theorem unionProper_eq (dbg : Bool) {t : TineTree α} {lb ub : Bound α}
    (hk : (Tine.lower lb).key < (Tine.upper ub).key)
    (w : Two t (Tine.lower lb).key (Tine.upper ub).key) :
    TineTree.unionProper dbg t (.lower lb) (.upper ub) = .ok
      (w.A ++ edge (Tine.lower lb).key w.b (w.a || (Tine.lower lb).inclAt) true ++
        ([] ++ edge (Tine.upper ub).key true (w.a2 || (Tine.upper ub).inclAt) w.e ++ w.B)) := by
  have hl : (Tine.lower lb).Ok := by simp [Tine.Ok]
  have hu : (Tine.upper ub).Ok := by simp [Tine.Ok]
  obtain ⟨A, M, B, b, a, c, d, a2, e, eq, fits, fits2, ltA, gtM, ltM, gtB, sA, sM, sB, cA, cM, cB⟩ := w
  have hs := exteriorSplit_eq hl hu hk
    ⟨A, M, B, b, a, c, d, a2, e, eq, fits, fits2, ltA, gtM, ltM, gtB, sA, sM, sB, cA, cM, cB⟩
  have hb := chain_last cA
  have he := chain_head cB
  -- insertion of one or two tines
  have i1 : ∀ x : Tine α, x.Ok → x.key = (Tine.lower lb).key →
      BSet.insert x (A ++ B) = A ++ x :: B := fun x hx hxk => by
    rw [insert_mid hx (hxk ▸ ltA) (hxk ▸ gtB.trans hk.le)]; simp
  have i2 : ∀ x : Tine α, x.Ok → x.key = (Tine.upper ub).key →
      BSet.insert x (A ++ B) = A ++ x :: B := fun x hx hxk => by
    rw [insert_mid hx (hxk ▸ ltA.trans hk.le) (hxk ▸ gtB)]; simp
  have i3 : ∀ x y : Tine α, x.Ok → x.key = (Tine.lower lb).key → y.Ok →
      y.key = (Tine.upper ub).key →
      BSet.insert y (A ++ x :: B) = A ++ x :: y :: B := fun x y hx hxk hy hyk => by
    have : Lt (A ++ [x]) y.key := by
      rw [hyk]; refine (ltA.trans hk.le).append ?_
      intro t ht; rw [List.mem_singleton] at ht; subst ht; exact ⟨hx, hxk ▸ hk⟩
    have e : A ++ x :: B = (A ++ [x]) ++ B := by simp
    rw [e, insert_mid hy this (hyk ▸ gtB)]; simp
  simp only [TineTree.unionProper, hs, hb, he]
  clear hs ltA gtM ltM gtB sA sM sB cA cM cB hb he eq
  rcases lb with x | x | _ <;> rcases ub with y | y | _ <;>
    cases b <;> cases a <;> cases c <;> cases d <;> cases a2 <;> cases e <;> cases dbg <;>
    (try simp [Fits, Tine.key] at fits fits2) <;>
    simp (config := {decide := true}) [edge, Tine.key, Tine.inclAt, Tine.union, Tine.asRef, Tine.intoInner, Bound.asRef, dassert,
      bind, Except.bind, TineTree.noneOr, Tine.isLowerBound, Tine.isUpperBound, pure, Except.pure,
      TineTree.insertIf, Tine.isPointExclude] <;>
    first
    | (rw [i1, i3] <;> simp [Tine.Ok, Tine.key]; done)
    | (rw [i1] <;> simp [Tine.Ok, Tine.key]; done)
    | (rw [i2] <;> simp [Tine.Ok, Tine.key]; done)

end TT
end NI
