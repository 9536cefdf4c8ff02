import Verif.SpecTable
import Verif.Props.Within
import Verif.Props.Pinhole

/-! # A table that assigns values to the points of intervals (C145) -/

namespace NI
open _root_.NI.Finite TT
variable {α : Type} {V : Type _} [LinearOrder α] [Finite α] [LawfulFinite α]

/-- What `minus` lists is disjoint, and only an interval that contains the first value of the other is cut in two. -/
theorem Interval.minus_shape {a b : Interval α} (ha : a.Obtainable) (hb : b.Obtainable) :
    (a.minus b).Pairwise (fun i j => Disjoint i.pts j.pts) ∧
    ((a.minus b).length ≤ 1 ∨ (a.minus b).length ≤ 2 ∧ ∃ l, b.lowerBound = some (.incl l) ∧ l ∈ a.pts) := by
  have key : ∀ l u, b.raw.complement = [.upTo l, .upFrom u] → b.lowerBound = some (.incl l) → (l ≤ u ∨ succ u = some l) →
      (a.minus b).Pairwise (fun i j => Disjoint i.pts j.pts) ∧
      ((a.minus b).length ≤ 1 ∨ (a.minus b).length ≤ 2 ∧ ∃ l, b.lowerBound = some (.incl l) ∧ l ∈ a.pts) := by
    intro l u hc hl hlu
    have hm : a.minus b = ([a.raw.intersect (.upTo l), a.raw.intersect (.upFrom u)].filter fun i => !i.isEmpty).map
        fun r => ⟨r.normalized⟩ := by rw [Interval.minus, RawInterval.minus, hc]; rfl
    have after : ∀ q, u < q → l ≤ q := fun q hq => by
      rcases hlu with h | h
      · exact h.trans hq.le
      · exact (LawfulFinite.succ_some _ _ h).2 q hq
    constructor
    · rw [hm, List.pairwise_map]
      refine List.Pairwise.filter _ (List.pairwise_pair.2 ?_)
      rw [Interval.pts_mk_normalized, Interval.pts_mk_normalized, C03_intersect, C03_intersect, Set.disjoint_left]
      rintro x ⟨-, h1⟩ ⟨-, h2⟩
      exact absurd (after x h2) (not_le.2 h1)
    · by_cases h1 : (a.raw.intersect (.upTo l)).isEmpty = true
      · left; rw [hm]; simp only [List.filter_cons, h1]
        simp only [Bool.not_true, Bool.false_eq_true, ↓reduceIte, List.length_map]
        split <;> simp
      by_cases h2 : (a.raw.intersect (.upFrom u)).isEmpty = true
      · left; rw [hm]; simp only [List.filter_cons, h2]
        simp only [Bool.not_true, Bool.false_eq_true, ↓reduceIte, List.length_map]
        split <;> simp
      right
      refine ⟨by rw [hm, List.length_map]; exact List.length_filter_le _ [_, _], l, hl, ?_⟩
      have mem : ∀ k, k ∈ b.raw.complement → (a.raw.intersect k).isEmpty ≠ true → ∃ x, x ∈ a.pts ∧ x ∈ k.pts := by
        intro k hk hne
        obtain ⟨x, hx⟩ := Interval.minus_piece ha hb (r := a.raw.intersect k) (by
          rw [RawInterval.minus, List.mem_filter]
          exact ⟨List.mem_map_of_mem hk, by simpa using hne⟩)
        rw [RawInterval.contains_iff, C03_intersect] at hx
        exact ⟨x, by rw [Interval.pts_eq]; exact hx.1, hx.2⟩
      obtain ⟨p, hp, hpl⟩ := mem (.upTo l) (by simp [hc]) h1
      obtain ⟨q, hq, huq⟩ := mem (.upFrom u) (by simp [hc]) h2
      rcases Interval.incl_bounds ha with rfl | ⟨s, t, -, -, -, -, -, hst⟩
      · cases hp
      · exact (hst l).2 ⟨((hst p).1 hp).1.trans (le_of_lt hpl), (after q huq).trans ((hst q).1 hq).2⟩
  rcases Interval.obtainable_cases hb with rfl | ⟨p, rfl⟩ | ⟨l, u, rfl, hlu⟩
  · have : (a.minus ⟨.empty⟩).length ≤ 1 := by
      rw [Interval.minus, List.length_map]; exact List.length_filter_le _ [_]
    refine ⟨?_, .inl this⟩
    match a.minus ⟨.empty⟩, this with
    | [], _ => exact .nil
    | [_], _ => exact List.pairwise_singleton _ _
  · exact key p p rfl rfl (.inl le_rfl)
  · exact key l u rfl rfl hlu

omit [Finite α] [LawfulFinite α] in
theorem LastSet.snoc (cs : List (TableChange α V)) (c : TableChange α V) (x : α) (v : V) :
    LastSet (cs ++ [c]) x v ↔ (∃ i, c = .set i v ∧ x ∈ i.pts) ∨ (x ∉ c.interval.pts ∧ LastSet cs x v) := by
  constructor
  · rintro ⟨before, i, after, e, hx, h⟩
    rcases List.eq_nil_or_concat after with rfl | ⟨as, d, rfl⟩
    · obtain ⟨-, rfl⟩ := List.concat_inj.1 (by simpa using e)
      exact .inl ⟨i, rfl, hx⟩
    · have e' : cs ++ [c] = (before ++ .set i v :: as) ++ [d] := by rw [e]; simp
      obtain ⟨rfl, rfl⟩ : cs = before ++ .set i v :: as ∧ c = d := by simpa using List.append_inj' e' rfl
      exact .inr ⟨h c (by simp), before, i, as, rfl, hx, fun d hd => h d (by simp [hd])⟩
  · rintro (⟨i, rfl, hx⟩ | ⟨hx, before, i, after, rfl, hi, h⟩)
    · exact ⟨cs, i, [], rfl, hx, by simp⟩
    · refine ⟨before, i, after ++ [c], by simp, hi, fun d hd => ?_⟩
      rcases List.mem_append.1 hd with hd | hd
      · exact h d hd
      · rw [List.mem_singleton.1 hd]; exact hx

omit [Finite α] [LawfulFinite α] in
theorem LastSet.nil (x : α) (v : V) : ¬ LastSet ([] : List (TableChange α V)) x v := by
  rintro ⟨_, _, _, e, -⟩; simp at e

/-- Entries that have no value in common and lie in normal form. -/
def Table.Good (t : List (Interval α × V)) : Prop :=
  (∀ e ∈ t, e.1.Obtainable) ∧ t.Pairwise fun e f => Disjoint e.1.pts f.1.pts

theorem Table.clear_mem (i : Interval α) (t : List (Interval α × V)) (x : α) (v : V) :
    (∃ e ∈ Table.clear i t, x ∈ e.1.pts ∧ e.2 = v) ↔ x ∉ i.pts ∧ ∃ e ∈ t, x ∈ e.1.pts ∧ e.2 = v := by
  simp only [Table.clear, List.mem_flatMap, List.mem_map]
  constructor
  · rintro ⟨_, ⟨e, he, k, hk, rfl⟩, hx, hv⟩
    obtain ⟨h1, h2⟩ := (Interval.mem_minus e.1 i x).1 ⟨k, hk, hx⟩
    exact ⟨h2, e, he, h1, hv⟩
  · rintro ⟨hn, e, he, hx, hv⟩
    obtain ⟨k, hk, h⟩ := (Interval.mem_minus e.1 i x).2 ⟨hx, hn⟩
    exact ⟨_, ⟨e, he, k, hk, rfl⟩, h, hv⟩

theorem Table.clear_good {i : Interval α} (hi : i.Obtainable) {t : List (Interval α × V)} (ht : Table.Good t) :
    Table.Good (Table.clear i t) ∧ ∀ e ∈ Table.clear i t, Disjoint e.1.pts i.pts := by
  have sub : ∀ {e : Interval α × V} {k}, k ∈ e.1.minus i → ∀ x ∈ k.pts, x ∈ e.1.pts ∧ x ∉ i.pts :=
    fun hk x hx => (Interval.mem_minus _ i x).1 ⟨_, hk, hx⟩
  refine ⟨⟨fun e he => ?_, ?_⟩, fun e he => ?_⟩
  · simp only [Table.clear, List.mem_flatMap, List.mem_map] at he
    obtain ⟨e', he', k, hk, rfl⟩ := he
    exact .minus (ht.1 e' he') hi hk
  · rw [Table.clear, List.pairwise_flatMap]
    refine ⟨fun e he => ?_, ht.2.imp fun {e f} h => ?_⟩
    · rw [List.pairwise_map]
      exact (Interval.minus_shape (ht.1 e he) hi).1
    · intro x hx y hy
      obtain ⟨k, hk, rfl⟩ := List.mem_map.1 hx
      obtain ⟨m, hm, rfl⟩ := List.mem_map.1 hy
      exact h.mono (fun z hz => (sub hk z hz).1) fun z hz => (sub hm z hz).1
  · simp only [Table.clear, List.mem_flatMap, List.mem_map] at he
    obtain ⟨e', he', k, hk, rfl⟩ := he
    exact Set.disjoint_left.2 fun x hx => (sub hk x hx).2

theorem Table.clear_length {i : Interval α} (hi : i.Obtainable) : ∀ {t : List (Interval α × V)}, Table.Good t →
    (Table.clear i t).length ≤ t.length ∨ (Table.clear i t).length ≤ t.length + 1 ∧
      ∃ l, i.lowerBound = some (.incl l) ∧ ∃ e ∈ t, l ∈ e.1.pts
  | [], _ => .inl le_rfl
  | e :: t, ht => by
    have e1 : (Table.clear i (e :: t)).length = (e.1.minus i).length + (Table.clear i t).length := by
      simp [Table.clear]
    have hp := List.pairwise_cons.1 ht.2
    have ih := Table.clear_length hi (t := t) ⟨fun f hf => ht.1 f (.tail _ hf), hp.2⟩
    rw [e1, List.length_cons]
    rcases (Interval.minus_shape (ht.1 e (.head _)) hi).2 with h | ⟨h, l, hl, hle⟩
    · rcases ih with ih | ⟨ih, l, hl, f, hf, hlf⟩
      · exact .inl (by omega)
      · exact .inr ⟨by omega, l, hl, f, .tail _ hf, hlf⟩
    · rcases ih with ih | ⟨ih, l', hl', f, hf, hlf⟩
      · exact .inr ⟨by omega, l, hl, e, .head _, hle⟩
      · rw [hl] at hl'; cases hl'
        exact absurd hlf (Set.disjoint_left.1 (hp.1 f hf) hle)

theorem Table.change_good {t : List (Interval α × V)} (ht : Table.Good t) (c : TableChange α V) (hc : c.interval.Obtainable) :
    Table.Good (Table.change t c) := by
  obtain ⟨g, d⟩ := Table.clear_good hc ht
  cases c with
  | clear i => exact g
  | set i v =>
    refine ⟨fun e he => ?_, ?_⟩
    · rcases List.mem_append.1 he with he | he
      · exact g.1 e he
      · rw [List.mem_singleton.1 he]; exact hc
    · refine List.pairwise_append.2 ⟨g.2, List.pairwise_singleton _ _, fun e he f hf => ?_⟩
      rw [List.mem_singleton.1 hf]; exact d e he

omit [LawfulFinite α] in
theorem Table.make_snoc (cs : List (TableChange α V)) (c : TableChange α V) :
    Table.make (cs ++ [c]) = Table.change (Table.make cs) c := by
  rw [Table.make, List.foldl_append]; rfl

theorem Table.make_spec (cs : List (TableChange α V)) (ho : ∀ c ∈ cs, c.interval.Obtainable) :
    Table.Good (Table.make cs) ∧ ∀ x v, (∃ e ∈ Table.make cs, x ∈ e.1.pts ∧ e.2 = v) ↔ LastSet cs x v := by
  induction cs using List.reverseRecOn with
  | nil => exact ⟨⟨by simp [Table.make], by simp [Table.make]⟩, fun x v =>
      ⟨by simp [Table.make], fun h => absurd h (LastSet.nil x v)⟩⟩
  | append_singleton cs c ih =>
    obtain ⟨g, h⟩ := ih fun d hd => ho d (by simp [hd])
    rw [Table.make_snoc]
    refine ⟨Table.change_good g c (ho c (by simp)), fun x v => ?_⟩
    rw [LastSet.snoc, ← h]
    cases c with
    | clear i => simpa [Table.change, TableChange.interval] using Table.clear_mem i (Table.make cs) x v
    | set i w =>
      simp only [Table.change, List.mem_append, List.mem_singleton, TableChange.interval]
      constructor
      · rintro ⟨e, he | rfl, hx, rfl⟩
        · exact .inr ((Table.clear_mem i _ x e.2).1 ⟨e, he, hx, rfl⟩)
        · exact .inl ⟨i, rfl, hx⟩
      · rintro (⟨j, e, hx⟩ | hx)
        · cases e; exact ⟨_, .inr rfl, hx, rfl⟩
        · obtain ⟨e, he, h⟩ := (Table.clear_mem i _ x v).2 hx
          exact ⟨e, .inl he, h⟩

/-- **C145.**  The table gives the value last assigned, and nothing for a point that was taken out or never assigned;
no point is in two entries. -/
theorem C145_table (cs : List (TableChange α V)) (ho : ∀ c ∈ cs, c.interval.Obtainable) :
    (∀ x v, Table.get (Table.make cs) x = some v ↔ LastSet cs x v) ∧
    (Table.make cs).Pairwise fun e f => ∀ x, ¬ (e.1.contains x = true ∧ f.1.contains x = true) := by
  obtain ⟨g, h⟩ := Table.make_spec cs ho
  refine ⟨fun x v => ?_, g.2.imp fun d x hx => Set.disjoint_left.1 d hx.1 hx.2⟩
  rw [← h, Table.get, Option.map_eq_some_iff]
  constructor
  · rintro ⟨e, he, hv⟩
    exact ⟨e, List.mem_of_find?_eq_some he, show e.1.contains x = true by simpa using List.find?_some he, hv⟩
  · rintro ⟨e, he, hx, hv⟩
    cases hf : (Table.make cs).find? fun e => e.1.contains x with
    | none => exact absurd hx (List.find?_eq_none.1 hf e he)
    | some f =>
      refine ⟨f, rfl, ?_⟩
      by_cases hef : e = f
      · rw [← hef, hv]
      · have : Std.Symm fun e f : Interval α × V => Disjoint e.1.pts f.1.pts := ⟨fun _ _ h => h.symm⟩
        exact absurd (show f.1.contains x = true by simpa using List.find?_some hf) (Set.disjoint_left.1
          (g.2.forall he (List.mem_of_find?_eq_some hf) hef) hx)

/-- Changes used in the examples. -/
def Table.demo : List (TableChange U8 Nat) :=
  [.set (.mkClosed (u8 2) (u8 9)) 1, .set (.mkClosed (u8 4) (u8 5)) 2, .clear (.point (u8 8))]

example : (∀ c ∈ Table.demo, c.interval.Obtainable) ∧
    (Table.make Table.demo).map (fun e => (e.1.infimum, e.1.supremum, e.2)) =
      [(some (u8 2), some (u8 3), 1), (some (u8 6), some (u8 7), 1), (some (u8 9), some (u8 9), 1), (some (u8 4), some (u8 5), 2)] ∧
    Table.get (Table.make Table.demo) (u8 5) = some 2 ∧ Table.get (Table.make Table.demo) (u8 8) = none := by
  refine ⟨?_, by decide, by decide, by decide⟩
  simp only [Table.demo, List.mem_cons, List.not_mem_nil, or_false]
  rintro c (rfl | rfl | rfl)
  exacts [.mkClosed _ _, .mkClosed _ _, .point _]

/-- **C145.**  The number of entries: at most two for each assignment and one for each removal, less one. -/
theorem C145_size (cs : List (TableChange α V)) (ho : ∀ c ∈ cs, c.interval.Obtainable) :
    (Table.make cs).length ≤
      (cs.map fun | .set _ _ => 2 | .clear _ => 1).sum - 1 := by
  suffices h : Table.make cs = [] ∨ (Table.make cs).length + 1 ≤ (cs.map fun | .set _ _ => 2 | .clear _ => 1).sum by
    rcases h with h | h
    · rw [h]; exact Nat.zero_le _
    · omega
  induction cs using List.reverseRecOn with
  | nil => exact .inl rfl
  | append_singleton cs c ih =>
    have ho' : ∀ d ∈ cs, d.interval.Obtainable := fun d hd => ho d (by simp [hd])
    have hl : (Table.clear c.interval (Table.make cs)).length ≤ (Table.make cs).length + 1 := by
      rcases Table.clear_length (ho c (by simp)) (Table.make_spec cs ho').1 with h | h
      · exact h.trans (Nat.le_succ _)
      · exact h.1
    rw [Table.make_snoc, List.map_append, List.sum_append]
    rcases ih ho' with h | h
    · rw [h]
      cases c with
      | clear i => exact .inl rfl
      | set i v => exact .inr (by simp [Table.change, Table.clear])
    · cases c with
      | clear i =>
        right
        simp only [Table.change, List.map_cons, List.map_nil, List.sum_cons, List.sum_nil]
        simp only [TableChange.interval] at hl
        omega
      | set i v =>
        right
        simp only [Table.change, List.map_cons, List.map_nil, List.sum_cons, List.sum_nil, List.length_append, List.length_cons, List.length_nil]
        simp only [TableChange.interval] at hl
        omega

example : (Table.make Table.demo).length = (Table.demo.map fun | .set _ _ => 2 | .clear _ => 1).sum - 1 := by decide

theorem mapM_rel {β γ : Type _} {f : β → Except Panic γ} {R : β → γ → Prop} : ∀ {xs : List β},
    (∀ x ∈ xs, ∃ y, f x = .ok y ∧ R x y) → ∃ ys, xs.mapM f = .ok ys ∧ List.Forall₂ R xs ys
  | [], _ => ⟨[], rfl, .nil⟩
  | x :: xs, h => by
    obtain ⟨y, e, r⟩ := h x (.head _)
    obtain ⟨ys, e', r'⟩ := mapM_rel (xs := xs) fun z hz => h z (.tail _ hz)
    exact ⟨y :: ys, by rw [List.mapM_cons, e, e']; rfl, .cons r r'⟩

section Layers
variable [DecidableEq V]

/-- The changes that painting makes. -/
def Layers.changes (cs : List (Interval α × V)) : List (TableChange α V) := cs.map fun c => .set c.1 c.2

omit [LinearOrder α] [Finite α] [LawfulFinite α] [DecidableEq V] in
theorem Layers.changes_snoc (cs : List (Interval α × V)) (c : Interval α × V) :
    Layers.changes (cs ++ [c]) = Layers.changes cs ++ [.set c.1 c.2] := by simp [Layers.changes]

omit [LawfulFinite α] in
theorem Layers.make_snoc (remove : Selection α → Interval α → Except Panic (Selection α)) (dbg : Bool) (vs : List V)
    (cs : List (Interval α × V)) (c : Interval α × V) :
    Layers.make remove dbg vs (cs ++ [c]) = (Layers.make remove dbg vs cs >>= fun ls => Layers.paint remove dbg ls c) := by
  rw [Layers.make, List.foldlM_append]
  simp [Layers.make]

omit [LawfulFinite α] in
/-- One invariant of every layer, step by step. -/
theorem Layers.track (remove : Selection α → Interval α → Except Panic (Selection α)) (dbg : Bool)
    (I : List (Interval α × V) → V → Selection α → Prop) (h0 : ∀ v, I [] v .new) (vs : List V)
    (step : ∀ cs c v s, c.1.Obtainable → I cs v s →
      ∃ s', (if v = c.2 then s.unionInPlace dbg c.1 else remove s c.1) = .ok s' ∧ I (cs ++ [c]) v s')
    (cs : List (Interval α × V)) (ho : ∀ c ∈ cs, c.1.Obtainable) :
    ∃ ls, Layers.make remove dbg vs cs = .ok ls ∧ ls.map Prod.fst = vs ∧ ∀ l ∈ ls, I cs l.1 l.2 := by
  induction cs using List.reverseRecOn with
  | nil =>
    refine ⟨_, rfl, by rw [List.map_map]; exact List.map_id _, fun l hl => ?_⟩
    obtain ⟨v, -, rfl⟩ := List.mem_map.1 hl
    exact h0 v
  | append_singleton cs c ih =>
    obtain ⟨ls, e, hv, hI⟩ := ih fun d hd => ho d (by simp [hd])
    obtain ⟨ls', e', r⟩ := mapM_rel (xs := ls)
      (f := fun l => (if l.1 = c.2 then l.2.unionInPlace dbg c.1 else remove l.2 c.1).map fun s => (l.1, s))
      (R := fun l m => m.1 = l.1 ∧ I (cs ++ [c]) m.1 m.2) fun l hl => by
        obtain ⟨s', es, h⟩ := step cs c l.1 l.2 (ho c (by simp)) (hI l hl)
        exact ⟨(l.1, s'), by rw [es]; rfl, rfl, h⟩
    refine ⟨ls', by rw [Layers.make_snoc, e]; exact e', ?_, fun m hm => ?_⟩
    · rw [← hv]
      clear e e' hI hv
      induction r with
      | nil => rfl
      | cons h _ ih => rw [List.map_cons, List.map_cons, h.1, ih]
    · clear e e' hI hv
      induction r with
      | nil => cases hm
      | cons h _ ih =>
        rcases List.mem_cons.1 hm with rfl | hm
        · exact h.2
        · exact ih hm

/-- **C145.**  One selection for each value, taking out by complements: each holds exactly the points that were last
given its value. -/
theorem C145_layers (dbg : Bool) (vs : List V) (cs : List (Interval α × V)) (ho : ∀ c ∈ cs, c.1.Obtainable) :
    ∃ ls, Layers.make (Selection.takeOut dbg) dbg vs cs = .ok ls ∧ ls.map Prod.fst = vs ∧
      ∀ l ∈ ls, ∀ x, l.2.contains dbg x = .ok true ↔ LastSet (Layers.changes cs) x l.1 := by
  obtain ⟨ls, e, hv, h⟩ := Layers.track (Selection.takeOut dbg) dbg
    (fun cs v s => s.Reachable ∧ ∀ x, x ∈ s.pts dbg ↔ LastSet (Layers.changes cs) x v)
    (fun v => ⟨.new, fun x => ⟨fun h => ((Set.ext_iff.1 (C48_start dbg .empty .empty).1 x).1 h).elim,
      fun h => absurd h (LastSet.nil x v)⟩⟩) vs
    (fun cs c v s hc ⟨hr, hs⟩ => by
      simp only [Layers.changes_snoc, LastSet.snoc, TableChange.interval]
      by_cases hv : v = c.2
      · obtain ⟨s', e, r, hp⟩ := C48_union_in_place dbg s hr c.1 hc
        refine ⟨s', by rw [if_pos hv, e], r, fun x => ?_⟩
        rw [hp, Set.mem_union, hs, hv]
        constructor
        · rintro (h | h)
          · by_cases hx : x ∈ c.1.pts
            · exact .inl ⟨_, rfl, hx⟩
            · exact .inr ⟨hx, h⟩
          · exact .inl ⟨_, rfl, h⟩
        · rintro (⟨i, e, h⟩ | h)
          · cases e; exact .inr h
          · exact .inl h.2
      · obtain ⟨s1, e1, r1, p1, -⟩ := C62_complement dbg s hr
        obtain ⟨s2, e2, r2, p2⟩ := C48_union_in_place dbg s1 r1 c.1 hc
        obtain ⟨s3, e3, r3, p3, -⟩ := C62_complement dbg s2 r2
        refine ⟨s3, ?_, r3, fun x => ?_⟩
        · rw [if_neg hv, Selection.takeOut, e1]
          show (s1.unionInPlace dbg c.1 >>= fun s => s.complement dbg) = _
          rw [e2]; exact e3
        · rw [p3, p2, p1, Set.mem_compl_iff, Set.mem_union, Set.mem_compl_iff, not_or, not_not, hs]
          constructor
          · rintro ⟨h1, h2⟩; exact .inr ⟨h2, h1⟩
          · rintro (⟨i, e, h⟩ | h)
            · cases e; exact absurd rfl hv
            · exact ⟨h.2, h.1⟩) cs ho
  exact ⟨ls, e, hv, fun l hl => (h l hl).2⟩

/-- **C145.**  Taking out by `minus_in_place`, no layer loses a point, and a point in a layer that was not last given its
value lies beside an interval that was given another. -/
theorem C145_layers_in_place (dbg : Bool) (vs : List V) (cs : List (Interval α × V)) (ho : ∀ c ∈ cs, c.1.Obtainable) :
    ∃ ls, Layers.make (Selection.minusInPlace dbg) dbg vs cs = .ok ls ∧ ls.map Prod.fst = vs ∧
      ∀ l ∈ ls, ∀ x, (LastSet (Layers.changes cs) x l.1 → l.2.contains dbg x = .ok true) ∧
        (l.2.contains dbg x = .ok true → ¬ LastSet (Layers.changes cs) x l.1 →
          ∃ c ∈ cs, c.2 ≠ l.1 ∧ c.1.Beside x) := by
  obtain ⟨ls, e, hv, h⟩ := Layers.track (Selection.minusInPlace dbg) dbg
    (fun cs v s => s.Reachable ∧ ∀ x, (LastSet (Layers.changes cs) x v → x ∈ s.pts dbg) ∧
      (x ∈ s.pts dbg → ¬ LastSet (Layers.changes cs) x v → ∃ c ∈ cs, c.2 ≠ v ∧ c.1.Beside x))
    (fun v => ⟨.new, fun x => ⟨fun h => absurd h (LastSet.nil x v),
      fun h => ((Set.ext_iff.1 (C48_start dbg .empty .empty).1 x).1 h).elim⟩⟩) vs
    (fun cs c v s hc ⟨hr, hs⟩ => by
      simp only [Layers.changes_snoc, LastSet.snoc, TableChange.interval]
      have lift : ∀ {x}, (∃ c ∈ cs, c.2 ≠ v ∧ c.1.Beside x) → ∃ d ∈ cs ++ [c], d.2 ≠ v ∧ d.1.Beside x :=
        fun ⟨d, hd, h⟩ => ⟨d, by simp [hd], h⟩
      by_cases hv : v = c.2
      · obtain ⟨s', e, r, hp⟩ := C48_union_in_place dbg s hr c.1 hc
        refine ⟨s', by rw [if_pos hv, e], r, fun x => ⟨?_, fun hx hn => ?_⟩⟩
        · rw [hp]
          rintro (⟨i, e, h⟩ | h)
          · cases e; exact .inr h
          · exact .inl ((hs x).1 h.2)
        · rw [hp] at hx
          by_cases hi : x ∈ c.1.pts
          · exact absurd (.inl ⟨_, by rw [hv], hi⟩) hn
          · rcases hx with hx | hx
            · exact lift ((hs x).2 hx fun h => hn (.inr ⟨hi, h⟩))
            · exact absurd hx hi
      · obtain ⟨s', e, r, hp⟩ := C50_formula_any dbg s hr c.1 hc
        refine ⟨s', by rw [if_neg hv, e], r, fun x => ⟨?_, fun hx hn => ?_⟩⟩
        · rintro (⟨i, e, h⟩ | h)
          · cases e; exact absurd rfl hv
          · exact (hp x).2 (.inl ⟨(hs x).1 h.2, h.1⟩)
        · rcases (hp x).1 hx with ⟨h1, h2⟩ | ⟨-, h⟩
          · exact lift ((hs x).2 h1 fun h => hn (.inr ⟨h2, h⟩))
          · exact ⟨c, by simp, fun h => hv h.symm, h⟩) cs ho
  exact ⟨ls, e, hv, fun l hl => (h l hl).2⟩

/-- **C145.**  It does happen: after 2 and 4 get one value and `[4,10]` another, 3 has the first. -/
theorem C145_layers_counterexample (dbg : Bool) : ∃ ls,
    Layers.make (Selection.minusInPlace dbg) dbg [0, 1]
      [(.point (u8 2), 0), (.point (u8 4), 0), (.mkClosed (u8 4) (u8 10), 1)] = .ok ls ∧
    (∃ l ∈ ls, l.1 = 0 ∧ l.2.contains dbg (u8 3) = .ok true) ∧
    ¬ LastSet (Layers.changes [(.point (u8 2), 0), (.point (u8 4), 0), (.mkClosed (u8 4) (u8 10), 1)]) (u8 3) 0 := by
  refine ⟨[(0, ⟨[.lower (.excl (u8 1)), .upper (.incl (u8 3))]⟩), (1, Selection.demo [(u8 4, u8 10)])], ?_, ?_, ?_⟩
  · cases dbg <;> decide
  · cases dbg <;> decide
  · rintro ⟨before, i, after, e, hx, -⟩
    have : TableChange.set i 0 ∈ Layers.changes [(.point (u8 2), 0), (.point (u8 4), 0), (.mkClosed (u8 4) (u8 10), 1)] := by
      rw [e]; simp
    simp only [Layers.changes, List.map_cons, List.map_nil, List.mem_cons, List.not_mem_nil, or_false, TableChange.set.injEq] at this
    rcases this with ⟨rfl, -⟩ | ⟨rfl, -⟩ | ⟨rfl, -⟩ <;> exact absurd hx (by unfold Interval.pts; decide)

end Layers
end NI
