import Verif.Lemmas.Mirror
import Verif.Lemmas.TreeDiff
import Verif.Lemmas.NaturalTree

/-! # Mirror images of trees -/

set_option linter.unusedSimpArgs false
set_option linter.unusedVariables false
set_option linter.unnecessarySeqFocus false
set_option linter.unusedSectionVars false

namespace NI
open BSet

/-- The place at the other end. -/
def Key.mirror {α β : Type _} (g : α → β) : Key α → Key β
  | .bot => .top
  | .fin x => .fin (g x)
  | .top => .bot

namespace TT
variable {α β : Type _} [LinearOrder α] [LinearOrder β] {g : α → β}

theorem key_mir {t : Tine α} (h : t.Ok) : (t.mirror g).key = t.key.mirror g := by
  rcases t with (a | a | _) | (a | a | _) | (a | a | _) <;> first | rfl | exact absurd rfl h

theorem ok_mir {t : Tine α} (h : t.Ok) : (t.mirror g).Ok := by
  rcases t with (a | a | _) | (a | a | _) | (a | a | _) <;>
    first | exact absurd rfl h | (intro e; cases e)

theorem inclAt_mir (t : Tine α) : (t.mirror g).inclAt = t.inclAt := by
  rcases t with (a | a | _) | (a | a | _) | (a | a | _) <;> rfl

theorem klt_mir (hg : StrictAnti g) {k k' : Key α} (h : k < k') : k'.mirror g < k.mirror g := by
  cases k <;> cases k' <;> simp_all [Key.mirror]
  exact hg h

theorem mir_append (A B : List (Tine α)) :
    TineTree.mirror g (A ++ B) = TineTree.mirror g B ++ TineTree.mirror g A := by
  simp [TineTree.mirror]

theorem mir_cons (x : Tine α) (B : List (Tine α)) :
    TineTree.mirror g (x :: B) = TineTree.mirror g B ++ [x.mirror g] := by simp [TineTree.mirror]

@[simp] theorem mir_nil : TineTree.mirror g ([] : List (Tine α)) = [] := rfl

theorem mem_mir {x : Tine β} {A : List (Tine α)} :
    x ∈ TineTree.mirror g A ↔ ∃ y ∈ A, y.mirror g = x := by simp [TineTree.mirror]

theorem lt_mir (hg : StrictAnti g) {A : List (Tine α)} {k : Key α} (h : Lt A k) :
    Gt (TineTree.mirror g A) (k.mirror g) := fun x hx => by
  obtain ⟨y, hy, rfl⟩ := mem_mir.1 hx
  exact ⟨ok_mir (h y hy).1, by rw [key_mir (h y hy).1]; exact klt_mir hg (h y hy).2⟩

theorem gt_mir (hg : StrictAnti g) {A : List (Tine α)} {k : Key α} (h : Gt A k) :
    Lt (TineTree.mirror g A) (k.mirror g) := fun x hx => by
  obtain ⟨y, hy, rfl⟩ := mem_mir.1 hx
  exact ⟨ok_mir (h y hy).1, by rw [key_mir (h y hy).1]; exact klt_mir hg (h y hy).2⟩

theorem sorted_mir (hg : StrictAnti g) {A : List (Tine α)} (h : Sorted A) :
    Sorted (TineTree.mirror g A) := by
  refine ⟨fun x hx => ?_, ?_⟩
  · obtain ⟨y, hy, rfl⟩ := mem_mir.1 hx
    exact ok_mir (h.1 y hy)
  · rw [TineTree.mirror, List.pairwise_reverse, List.pairwise_map]
    refine h.2.imp_of_mem fun {a b} ha hb hab => ?_
    rw [key_mir (h.1 a ha), key_mir (h.1 b hb)]
    exact klt_mir hg hab

theorem chain_mir {A : List (Tine α)} {s e : Bool} (h : Chain s A e) :
    Chain e (TineTree.mirror g A) s := by
  induction A generalizing s with
  | nil => exact h.symm
  | cons a A ih =>
    rw [mir_cons, chain_append]
    refine ⟨_, ih h.2, ?_⟩
    obtain ⟨h1, -⟩ := h
    rcases a with (a | a | _) | (a | a | _) | (a | a | _) <;>
      exact ⟨rfl, h1⟩

theorem valid_mir (hg : StrictAnti g) {t : TineTree α} (h : Valid t) : Valid (t.mirror g) :=
  ⟨sorted_mir hg h.1, chain_mir h.2⟩

theorem edge_mir (k : Key α) (b a c : Bool) :
    TineTree.mirror g (edge k b a c) = edge (k.mirror g) c a b := by
  cases k <;> cases b <;> cases a <;> cases c <;> rfl

theorem fits_mir {k : Key α} {b a c : Bool} (h : Fits k b a c) : Fits (k.mirror g) c a b := by
  cases k <;> simp_all [Fits, Key.mirror]

/-- A split, seen from the other end. -/
def One.mirror (hg : StrictAnti g) {t : TineTree α} {k : Key α} (o : One t k) :
    One (t.mirror g) (k.mirror g) where
  A := TineTree.mirror g o.B
  B := TineTree.mirror g o.A
  b := o.c
  a := o.a
  c := o.b
  eq := (congrArg _ o.eq).trans (by simp only [mir_append, edge_mir, List.append_assoc])
  fits := fits_mir o.fits
  ltA := gt_mir hg o.gtB
  gtB := lt_mir hg o.ltA
  sA := sorted_mir hg o.sB
  sB := sorted_mir hg o.sA
  cA := chain_mir o.cB
  cB := chain_mir o.cA

/-- A split at two places, seen from the other end. -/
def Two.mirror (hg : StrictAnti g) {t : TineTree α} {kl ku : Key α} (w : Two t kl ku) :
    Two (t.mirror g) (ku.mirror g) (kl.mirror g) where
  A := TineTree.mirror g w.B
  M := TineTree.mirror g w.M
  B := TineTree.mirror g w.A
  b := w.e
  a := w.a2
  c := w.d
  d := w.c
  a2 := w.a
  e := w.b
  eq := (congrArg _ w.eq).trans (by simp only [mir_append, edge_mir, List.append_assoc])
  fits := fits_mir w.fits2
  fits2 := fits_mir w.fits
  ltA := gt_mir hg w.gtB
  gtM := lt_mir hg w.ltM
  ltM := gt_mir hg w.gtM
  gtB := lt_mir hg w.ltA
  sA := sorted_mir hg w.sB
  sM := sorted_mir hg w.sM
  sB := sorted_mir hg w.sA
  cA := chain_mir w.cB
  cM := chain_mir w.cM
  cB := chain_mir w.cA

theorem lkey_mir (b : Bound α) : (Tine.upper (b.map g)).key = (Tine.lower b).key.mirror g := by
  cases b <;> rfl
theorem ukey_mir (b : Bound α) : (Tine.lower (b.map g)).key = (Tine.upper b).key.mirror g := by
  cases b <;> rfl

/-! ## In-place union and difference -/

theorem mir_unionPoint (hg : StrictAnti g) (dbg : Bool) {t : TineTree α} (h : Valid t) (p : α) :
    TineTree.unionPoint dbg (t.mirror g) (.point (.incl (g p))) =
      (TineTree.unionPoint dbg t (.point (.incl p))).map (TineTree.mirror g) := by
  obtain ⟨o⟩ := one h (.fin p)
  rw [unionPoint_eq dbg o, unionPoint_eq dbg (o.mirror hg)]
  simp [Except.map, mir_append, edge_mir, One.mirror, Key.mirror]

/-- Rename the keys of a two-place split. -/
def Two.cast {t : TineTree α} {kl ku kl' ku' : Key α} (h1 : kl' = kl) (h2 : ku' = ku) (w : Two t kl ku) :
    Two t kl' ku' := ⟨w.A, w.M, w.B, w.b, w.a, w.c, w.d, w.a2, w.e, by rw [h1, h2]; exact w.eq,
      by rw [h1]; exact w.fits, by rw [h2]; exact w.fits2, by rw [h1]; exact w.ltA,
      by rw [h1]; exact w.gtM, by rw [h2]; exact w.ltM, by rw [h2]; exact w.gtB,
      w.sA, w.sM, w.sB, w.cA, w.cM, w.cB⟩

/-- The mirrored split at the places of two bounds. -/
def Two.mir (hg : StrictAnti g) {t : TineTree α} {lb ub : Bound α}
    (w : Two t (Tine.lower lb).key (Tine.upper ub).key) :
    Two (t.mirror g) (Tine.lower (ub.map g)).key (Tine.upper (lb.map g)).key :=
  (w.mirror hg).cast (ukey_mir ub) (lkey_mir lb)

theorem klt_mir' (hg : StrictAnti g) {lb ub : Bound α} (hk : (Tine.lower lb).key < (Tine.upper ub).key) :
    (Tine.lower (ub.map g)).key < (Tine.upper (lb.map g)).key := by
  rw [lkey_mir, ukey_mir]; exact klt_mir hg hk

theorem lincl_mir (b : Bound α) : (Tine.upper (b.map g)).inclAt = (Tine.lower b).inclAt := by cases b <;> rfl
theorem uincl_mir (b : Bound α) : (Tine.lower (b.map g)).inclAt = (Tine.upper b).inclAt := by cases b <;> rfl

theorem mir_unionProper (hg : StrictAnti g) (dbg : Bool) {t : TineTree α} (h : Valid t) {lb ub : Bound α}
    (hk : (Tine.lower lb).key < (Tine.upper ub).key) :
    TineTree.unionProper dbg (t.mirror g) (.lower (ub.map g)) (.upper (lb.map g)) =
      (TineTree.unionProper dbg t (.lower lb) (.upper ub)).map (TineTree.mirror g) := by
  obtain ⟨w⟩ := two h hk
  rw [unionProper_eq dbg hk w, unionProper_eq dbg (klt_mir' hg hk) (w.mir hg)]
  simp [Except.map, mir_append, edge_mir, Two.mirror, Two.mir, Two.cast, lkey_mir, ukey_mir,
    lincl_mir, uincl_mir]

theorem mir_minusProper (hg : StrictAnti g) (dbg : Bool) {t : TineTree α} (h : Valid t) {lb ub : Bound α}
    (hk : (Tine.lower lb).key < (Tine.upper ub).key) :
    TineTree.minusProper dbg (t.mirror g) (.lower (ub.map g)) (.upper (lb.map g)) =
      (TineTree.minusProper dbg t (.lower lb) (.upper ub)).map (TineTree.mirror g) := by
  obtain ⟨w⟩ := two h hk
  rw [minusProper_eq dbg hk w, minusProper_eq dbg (klt_mir' hg hk) (w.mir hg)]
  have e1 : (w.d && !w.a2 && w.e) = (w.e && !w.a2 && w.d) := by
    cases w.d <;> cases w.a2 <;> cases w.e <;> rfl
  have e2 : (w.b && !w.a && w.c) = (w.c && !w.a && w.b) := by
    cases w.b <;> cases w.a <;> cases w.c <;> rfl
  simp [Except.map, mir_append, edge_mir, Two.mirror, Two.mir, Two.cast, lkey_mir, ukey_mir,
    lincl_mir, uincl_mir, e1, e2]

theorem mir_minusPoint (hg : StrictAnti g) (dbg : Bool) {t : TineTree α} (h : Valid t) (p : α) :
    TineTree.minusPoint dbg (t.mirror g) (.point (.incl (g p))) =
      (TineTree.minusPoint dbg t (.point (.incl p))).map (TineTree.mirror g) := by
  obtain ⟨o⟩ := one h (.fin p)
  have hs := exteriorSplitPoint_eq (p := .point (.incl p)) (pincl_ok p) o
  have hs' := exteriorSplitPoint_eq (p := .point (.incl (g p))) (pincl_ok (g p)) (o.mirror hg)
  have hb := chain_last o.cA
  have hc := chain_head o.cB
  have hb' := chain_last (o.mirror hg).cA
  have hc' := chain_head (o.mirror hg).cB
  have i1 : ∀ x : Tine α, x.Ok → x.key = .fin p → BSet.insert x (o.A ++ o.B) = o.A ++ x :: o.B :=
    fun x hx hxk => BSet.insert_split hx (by rw [hxk]; exact o.ltA) (by rw [hxk]; exact o.gtB)
  have i2 : ∀ x : Tine β, x.Ok → x.key = .fin (g p) →
      BSet.insert x ((o.mirror hg).A ++ (o.mirror hg).B) = (o.mirror hg).A ++ x :: (o.mirror hg).B :=
    fun x hx hxk => BSet.insert_split hx (by rw [hxk]; exact (o.mirror hg).ltA)
      (by rw [hxk]; exact (o.mirror hg).gtB)
  simp only [TineTree.minusPoint, hs, hs', hb, hc, hb', hc']
  clear hs hs' hb hc hb' hc'
  obtain ⟨A, B, b, a, c, eq, fits, ltA, gtB, sA, sB, cA, cB⟩ := o
  simp only [One.mirror] at i1 i2 ⊢
  clear ltA gtB sA sB cA cB eq fits
  cases b <;> cases a <;> cases c <;> cases dbg <;>
    simp (config := {decide := true}) [edge, Tine.key, Key.mirror, Tine.inclAt, Tine.minus, Tine.asRef,
      Tine.intoInner, Bound.asRef, dassert, bind, Except.bind, Tine.isLowerBound,
      Tine.isUpperBound, pure, Except.pure, Tine.invert, Except.map, mir_append] <;>
    (rw [i1, i2] <;> simp [Tine.Ok, Tine.key, mir_append, mir_cons, Tine.mirror, Bound.map])

/-! ## In-place intersection -/

/-- A bound met by the tree's own tine at that place never panics and stays in place. -/
theorem meetL_ok (dbg : Bool) (lb : Bound α) {b a c : Bool} (hf : Fits (Tine.lower lb).key b a c) :
    ∃ r : Option (Tine α), (match (edge (Tine.lower lb).key b a c).head? with
      | some lower => lower.intersect dbg (.lower lb)
      | none => .ok (some (.lower lb)) : Except Panic (Option (Tine α))) = .ok r ∧
      ∀ x ∈ r, x.Ok ∧ x.key = (Tine.lower lb).key := by
  rcases lb with x | x | _ <;> cases b <;> cases a <;> cases c <;> cases dbg <;>
    simp_all (config := {decide := true}) [Fits, edge, Tine.key, Tine.intersect, Tine.asRef, Tine.intoInner, Bound.asRef,
      dassert, bind, Except.bind, pure, Except.pure, Tine.Ok]

theorem meetU_ok (dbg : Bool) (lb : Bound α) {b a c : Bool} (hf : Fits (Tine.upper lb).key b a c) :
    ∃ r : Option (Tine α), (match (edge (Tine.upper lb).key b a c).head? with
      | some lower => lower.intersect dbg (.upper lb)
      | none => .ok (some (.upper lb)) : Except Panic (Option (Tine α))) = .ok r ∧
      ∀ x ∈ r, x.Ok ∧ x.key = (Tine.upper lb).key := by
  rcases lb with x | x | _ <;> cases b <;> cases a <;> cases c <;> cases dbg <;>
    simp_all (config := {decide := true}) [Fits, edge, Tine.key, Tine.intersect, Tine.asRef, Tine.intoInner, Bound.asRef,
      dassert, bind, Except.bind, pure, Except.pure, Tine.Ok]

theorem someAnd_mir (o : Option (Tine α)) :
    TineTree.someAnd (o.map (Tine.mirror g)) Tine.isLowerBound = TineTree.someAnd o Tine.isUpperBound ∧
    TineTree.someAnd (o.map (Tine.mirror g)) Tine.isUpperBound = TineTree.someAnd o Tine.isLowerBound := by
  rcases o with _ | (a | a | _) | (a | a | _) | (a | a | _) <;> exact ⟨rfl, rfl⟩

theorem noneOr_mir (o : Option (Tine α)) :
    TineTree.noneOr (o.map (Tine.mirror g)) Tine.isLowerBound = TineTree.noneOr o Tine.isUpperBound ∧
    TineTree.noneOr (o.map (Tine.mirror g)) Tine.isUpperBound = TineTree.noneOr o Tine.isLowerBound := by
  rcases o with _ | (a | a | _) | (a | a | _) | (a | a | _) <;> exact ⟨rfl, rfl⟩

theorem head_mir (A : List (Tine α)) : (TineTree.mirror g A).head? = A.getLast?.map (Tine.mirror g) := by
  simp [TineTree.mirror, List.head?_reverse]

theorem last_mir (A : List (Tine α)) : (TineTree.mirror g A).getLast? = A.head?.map (Tine.mirror g) := by
  simp [TineTree.mirror, List.getLast?_reverse]

theorem edge_head_mir (k : Key α) (b a c : Bool) :
    (edge (k.mirror g) c a b).head? = (edge k b a c).head?.map (Tine.mirror g) := by
  cases k <;> cases b <;> cases a <;> cases c <;> rfl

theorem meet_mir (hg : StrictAnti g) (dbg : Bool) (o : Option (Tine α)) (x : Tine α)
    {r : Option (Tine α)} (h : (match o with
      | some lower => lower.intersect dbg x
      | none => .ok (some x) : Except Panic (Option (Tine α))) = .ok r) :
    (match o.map (Tine.mirror g) with
      | some lower => lower.intersect dbg (x.mirror g)
      | none => .ok (some (x.mirror g)) : Except Panic (Option (Tine β))) = .ok (r.map (Tine.mirror g)) := by
  cases o with
  | none => cases h; rfl
  | some y => exact (Tine.mir_intersect hg dbg y x).trans (by rw [show y.intersect dbg x = .ok r from h]; rfl)

theorem ok_step {γ δ : Type _} {a : Except Panic γ} {x : γ} (f : γ → Except Panic δ)
    (h : a = .ok x) : (a >>= f) = f x := by rw [h]; rfl

theorem insert_ends {M : List (Tine α)} {x y : Tine α} (hx : x.Ok) (hy : y.Ok) (hxy : x.key < y.key)
    (h1 : Gt M x.key) (h2 : Lt M y.key) : BSet.insert x M = x :: M ∧ BSet.insert y M = M ++ [y] ∧
      BSet.insert y (x :: M) = x :: (M ++ [y]) := by
  refine ⟨?_, ?_, ?_⟩
  · simpa using BSet.insert_split hx (A := []) (B := M) (.nil _) h1
  · simpa using BSet.insert_split hy (A := M) (B := []) h2 (.nil _)
  · have : Lt (x :: M) y.key := by
      intro t ht
      rcases List.mem_cons.1 ht with rfl | ht
      · exact ⟨hx, hxy⟩
      · exact h2 t ht
    simpa using BSet.insert_split hy (A := x :: M) (B := []) this (.nil _)

theorem mir_intersectProper (hg : StrictAnti g) (dbg : Bool) {t : TineTree α} (h : Valid t) {lb ub : Bound α}
    (hk : (Tine.lower lb).key < (Tine.upper ub).key) :
    TineTree.intersectProper dbg (t.mirror g) (.lower (ub.map g)) (.upper (lb.map g)) =
      (TineTree.intersectProper dbg t (.lower lb) (.upper ub)).map (TineTree.mirror g) := by
  obtain ⟨w⟩ := two h hk
  have hl : (Tine.lower lb).Ok := by simp [Tine.Ok]
  have hu : (Tine.upper ub).Ok := by simp [Tine.Ok]
  have hl' : (Tine.lower (ub.map g)).Ok := by simp [Tine.Ok]
  have hu' : (Tine.upper (lb.map g)).Ok := by simp [Tine.Ok]
  have hs := interiorSplit_eq dbg hl hu hk w
  have hs' := interiorSplit_eq dbg hl' hu' (klt_mir' hg hk) (w.mir hg)
  obtain ⟨ml, hml, kml⟩ := meetL_ok dbg lb w.fits
  obtain ⟨mu, hmu, kmu⟩ := meetU_ok dbg ub w.fits2
  have hml' := meet_mir hg dbg _ _ hml
  have hmu' := meet_mir hg dbg _ _ hmu
  rw [← edge_head_mir] at hml' hmu'
  have q1 : TineTree.interiorSplit dbg (t.mirror g) (.lower (ub.map g)) (.upper (lb.map g)) = .ok
      ((w.B.head?.map (Tine.mirror g), w.M.getLast?.map (Tine.mirror g),
        (edge ((Tine.upper ub).key.mirror g) w.e w.a2 w.d).head?,
        (edge ((Tine.lower lb).key.mirror g) w.c w.a w.b).head?,
        w.M.head?.map (Tine.mirror g), w.A.getLast?.map (Tine.mirror g)), TineTree.mirror g w.M) := by
    rw [hs', ← head_mir, ← last_mir, ← head_mir, ← last_mir, ← lkey_mir, ← ukey_mir]; rfl
  unfold TineTree.intersectProper
  refine (ok_step _ q1).trans ?_
  refine (ok_step _ hmu').trans ?_
  refine (ok_step _ hml').trans ?_
  refine Eq.trans ?_ (congrArg (Except.map (TineTree.mirror g)) (ok_step _ hs)).symm
  refine Eq.trans ?_ (congrArg (Except.map (TineTree.mirror g)) (ok_step _ hml)).symm
  refine Eq.trans ?_ (congrArg (Except.map (TineTree.mirror g)) (ok_step _ hmu)).symm
  have eM := w.gtM
  have eM' := w.ltM
  simp only [(noneOr_mir _).1, (noneOr_mir _).2, (someAnd_mir _).1, (someAnd_mir _).2]
  generalize TineTree.someAnd w.A.getLast? Tine.isLowerBound = ob
  generalize TineTree.someAnd w.B.head? Tine.isUpperBound = ca
  generalize TineTree.someAnd w.M.head? Tine.isUpperBound = il
  generalize TineTree.someAnd w.M.getLast? Tine.isLowerBound = ir
  generalize TineTree.noneOr ml Tine.isLowerBound = d1
  generalize TineTree.noneOr mu Tine.isUpperBound = d2
  rcases ml with _ | l <;> rcases mu with _ | u
  · cases dbg <;> cases d1 <;> cases d2 <;> cases ob <;> cases ca <;> cases il <;> cases ir <;> rfl
  · obtain ⟨ku1, ku2⟩ := kmu u rfl
    have i2 := BSet.insert_split ku1 (A := w.M) (B := []) (by rw [ku2]; exact w.ltM) (.nil _)
    have i2' := BSet.insert_split (ok_mir (g := g) ku1) (A := []) (B := TineTree.mirror g w.M) (.nil _)
      (by rw [key_mir ku1, ku2]; exact lt_mir hg w.ltM)
    rw [List.append_nil] at i2
    rw [List.nil_append, List.nil_append] at i2'
    cases dbg <;> cases d1 <;> cases d2 <;> cases ob <;> cases ca <;> cases il <;> cases ir <;>
      first
        | rfl
        | simp [dassert, bind, Except.bind, Except.map, i2, i2', mir_append, mir_cons]
  · obtain ⟨kl1, kl2⟩ := kml l rfl
    have i1 := BSet.insert_split kl1 (A := []) (B := w.M) (.nil _) (by rw [kl2]; exact w.gtM)
    have i1' := BSet.insert_split (ok_mir (g := g) kl1) (A := TineTree.mirror g w.M) (B := [])
      (by rw [key_mir kl1, kl2]; exact gt_mir hg w.gtM) (.nil _)
    rw [List.append_nil] at i1'
    rw [List.nil_append, List.nil_append] at i1
    cases dbg <;> cases d1 <;> cases d2 <;> cases ob <;> cases ca <;> cases il <;> cases ir <;>
      first
        | rfl
        | simp [dassert, bind, Except.bind, Except.map, i1, i1', mir_append, mir_cons]
  · obtain ⟨kl1, kl2⟩ := kml l rfl
    obtain ⟨ku1, ku2⟩ := kmu u rfl
    obtain ⟨i1, i2, i3⟩ := insert_ends kl1 ku1 (by rw [kl2, ku2]; exact hk)
      (by rw [kl2]; exact w.gtM) (by rw [ku2]; exact w.ltM)
    obtain ⟨i1', i2', i3'⟩ := insert_ends (M := TineTree.mirror g w.M) (ok_mir (g := g) ku1) (ok_mir (g := g) kl1)
      (by rw [key_mir kl1, key_mir ku1, kl2, ku2]; exact klt_mir hg hk)
      (by rw [key_mir ku1, ku2]; exact lt_mir hg w.ltM) (by rw [key_mir kl1, kl2]; exact gt_mir hg w.gtM)
    cases dbg <;> cases d1 <;> cases d2 <;> cases ob <;> cases ca <;> cases il <;> cases ir <;>
      first
        | rfl
        | simp [dassert, bind, Except.bind, Except.map, i1, i1', i2, i2', i3, i3', mir_append, mir_cons]

end TT
end NI
