import Verif.SpecSerde
import Verif.Props.SharpSel

/-!
# C84, C85: serialization
-/

namespace NI
open TT Finite

variable {α : Type}

section
variable [Serde α] [LawfulSerde α]

theorem Bound.de_ser (b : Bound α) : Bound.de b.ser = some b := by
  cases b <;> simp [Bound.ser, Bound.de, LawfulSerde.de_ser]

theorem Tine.de_ser (t : Tine α) : Tine.de t.ser = some t := by
  cases t <;> simp [Tine.ser, Tine.de, Bound.de_ser]

theorem RawInterval.de_ser (i : RawInterval α) : RawInterval.de i.ser = some i := by
  cases i <;> simp [RawInterval.ser, RawInterval.de, RawInterval.de2, LawfulSerde.de_ser]

theorem Bound.ser_de {d : Data} {b : Bound α} (h : Bound.de d = some b) : b.ser = d := by
  unfold Bound.de at h
  split at h <;> simp at h
  · obtain ⟨x, hx, rfl⟩ := h
    rw [Bound.ser, LawfulSerde.ser_de _ _ hx]
  · obtain ⟨x, hx, rfl⟩ := h
    rw [Bound.ser, LawfulSerde.ser_de _ _ hx]
  · subst h; rfl

theorem Tine.ser_de {d : Data} {t : Tine α} (h : Tine.de d = some t) : t.ser = d := by
  unfold Tine.de at h
  split at h <;> simp at h <;> obtain ⟨x, hx, rfl⟩ := h <;> rw [Tine.ser, Bound.ser_de hx]

theorem RawInterval.ser_de2 {f : α → α → RawInterval α} {n : String} {l r : Data} {i : RawInterval α}
    (hf : ∀ l r, (f l r).ser = .tupleVariant n (Serde.ser l) (Serde.ser r)) (h : de2 f l r = some i) :
    i.ser = .tupleVariant n l r := by
  unfold de2 at h
  simp only [Option.bind_eq_bind, Option.bind_eq_some_iff, Option.some.injEq] at h
  obtain ⟨a, ha, b, hb, rfl⟩ := h
  rw [hf, LawfulSerde.ser_de _ _ ha, LawfulSerde.ser_de _ _ hb]

theorem RawInterval.ser_de {d : Data} {i : RawInterval α} (h : RawInterval.de d = some i) : i.ser = d := by
  unfold RawInterval.de at h
  split at h
  case h_12 => cases h
  case h_1 => cases h; rfl
  case h_11 => cases h; rfl
  case h_3 => exact ser_de2 (fun _ _ => rfl) h
  case h_4 => exact ser_de2 (fun _ _ => rfl) h
  case h_5 => exact ser_de2 (fun _ _ => rfl) h
  case h_6 => exact ser_de2 (fun _ _ => rfl) h
  all_goals
    simp only [Option.map_eq_some_iff] at h
    obtain ⟨x, hx, rfl⟩ := h
    rw [RawInterval.ser, LawfulSerde.ser_de _ _ hx]

/-- Bounds, raw intervals and intervals are read back as they were written, and from nothing else. -/
theorem C84_values (b : Bound α) (r : RawInterval α) (i : Interval α) (d : Data) :
    (Bound.de d = some b ↔ d = b.ser) ∧ (RawInterval.de d = some r ↔ d = r.ser) ∧
      (Interval.de d = some i ↔ d = i.ser) := by
  refine ⟨⟨fun h => (Bound.ser_de h).symm, fun h => h ▸ Bound.de_ser b⟩,
    ⟨fun h => (RawInterval.ser_de h).symm, fun h => h ▸ RawInterval.de_ser r⟩, ⟨fun h => ?_, fun h => ?_⟩⟩
  · simp only [Interval.de, Option.map_eq_some_iff] at h
    obtain ⟨r, hr, rfl⟩ := h
    exact (RawInterval.ser_de hr).symm
  · rw [h, Interval.de, Interval.ser, RawInterval.de_ser]; rfl

example : Interval.de (Interval.mkOpen (u8 3) (u8 9)).ser = some (Interval.mkClosed (u8 4) (u8 8)) := by decide
example : Interval.de (.tupleVariant "Closed" (.int 3) (.int 999)) = (none : Option (Interval U8)) := by decide

end

section
variable [LinearOrder α] [Serde α] [LawfulSerde α]

omit [Serde α] [LawfulSerde α] in
theorem BSet.insert?_last {x : Tine α} {t : List (Tine α)} (hx : x.Ok)
    (ht : ∀ y ∈ t, y.Ok ∧ y.key < x.key) : BSet.insert? x t = .ok (t ++ [x]) := by
  induction t with
  | nil => rfl
  | cons y t ih =>
    obtain ⟨h1, h2⟩ := ht y (.head _)
    rw [BSet.insert?, Tine.cmp?_eq hx h1, if_neg h2.not_gt, if_neg h2.ne', ih fun z hz => ht z (.tail _ hz)]
    rfl

theorem TineTree.deAux_ser {a b : List (Tine α)} (h : Sorted (a ++ b)) :
    TineTree.deAux (b.map Tine.ser) a = .ok (some (a ++ b)) := by
  induction b generalizing a with
  | nil => simp [deAux]
  | cons x b ih =>
    rw [List.map_cons, deAux, Tine.de_ser]
    have hx : x.Ok := h.1 x (by simp)
    have := BSet.insert?_last hx (t := a) fun y hy =>
      ⟨h.1 y (by simp [hy]), (List.pairwise_append.1 h.2).2.2 y hy x (.head _)⟩
    show (do deAux (b.map Tine.ser) (← BSet.insert? x a)) = _
    rw [this]
    show deAux (b.map Tine.ser) (a ++ [x]) = _
    rw [ih (by simpa using h)]
    simp

/-- Every tree made with the operations of C35–C43 is read back as it was written. -/
theorem C84_tree (t : TineTree α) (ht : t.Reachable) : TineTree.de t.ser = .ok (some t) :=
  TineTree.deAux_ser (a := []) (reachable_valid ht).1

example : TineTree.Reachable (α := U8) [.lower (.incl (u8 3)), .upper (.excl (u8 7))] ∧
    TineTree.ser (α := U8) [.lower (.incl (u8 3)), .upper (.excl (u8 7))] =
      [.newtypeVariant "Lower" (.newtypeVariant "Include" (.int 3)),
        .newtypeVariant "Upper" (.newtypeVariant "Exclude" (.int 7))] :=
  ⟨.fromRaw (i := .rightOpen (u8 3) (u8 7)) (by decide), by decide⟩

/-- So is every selection but for those that `minus` or `intersect_in_place` left corrupt. -/
theorem C84_selection [Finite α] [LawfulFinite α] (s : Selection α) (hs : s.Reachable) :
    Selection.de s.ser = .ok (some s) := by
  rw [Selection.de, Selection.ser, TineTree.ser]
  have := TineTree.deAux_ser (a := []) (b := s.tree) (Selection.reachable_valid hs).1
  rw [TineTree.de, this]
  rfl

example : (Selection.demo [(u8 3, u8 5), (u8 7, u8 255)]).Reachable ∧
    (Selection.demo [(u8 3, u8 5), (u8 7, u8 255)]).ser =
      [.newtypeVariant "Lower" (.newtypeVariant "Exclude" (.int 2)),
       .newtypeVariant "Point" (.newtypeVariant "Exclude" (.int 6)),
       .newtypeVariant "Upper" (.unitVariant "Infinite")] := by
  exact ⟨(Selection.demo_built _ (by decide)).reachable, by decide⟩

omit [Serde α] [LawfulSerde α] in
theorem BSet.insert?_elems {x : Tine α} {t t' : List (Tine α)} (h : BSet.insert? x t = .ok t') :
    (∀ y ∈ t', y = x ∨ y ∈ t) ∧ (∀ y ∈ t, y ∈ t') ∧ ∃ y ∈ t', y = x ∨ x.cmp? y = some .eq := by
  induction t generalizing t' with
  | nil => cases h; simp
  | cons y t ih =>
    rw [BSet.insert?] at h
    split at h
    · cases h
      exact ⟨fun z hz => List.mem_cons.1 hz, fun z hz => .tail _ hz, x, .head _, .inl rfl⟩
    · next hc =>
      cases h
      exact ⟨fun z hz => .inr hz, fun z hz => hz, y, .head _, .inr hc⟩
    · cases hi : BSet.insert? x t with
      | error e => rw [hi] at h; cases h
      | ok s =>
        rw [hi] at h
        cases h
        obtain ⟨h1, h2, z, h3, h4⟩ := ih hi
        refine ⟨fun w hw => ?_, fun w hw => ?_, z, .tail _ h3, h4⟩
        · rcases List.mem_cons.1 hw with rfl | hw
          · exact .inr (.head _)
          · exact (h1 w hw).imp_right (.tail _)
        · rcases List.mem_cons.1 hw with rfl | hw
          · exact .head _
          · exact .tail _ (h2 w hw)
    · cases h

/-- A tree is read only from a list of tines, and has these tines, but for those that compare as equal to
another one. -/
theorem C84_tree_only (ds : List Data) (t : TineTree α) (h : TineTree.de ds = .ok (some t)) :
    (∀ d ∈ ds, ∃ x : Tine α, d = x.ser) ∧ (∀ x ∈ t, Tine.ser x ∈ ds) ∧
      ∀ x : Tine α, x.ser ∈ ds → ∃ y ∈ t, y = x ∨ x.cmp? y = some .eq := by
  have key : ∀ (ds : List Data) (a : List (Tine α)), TineTree.deAux ds a = .ok (some t) →
      (∀ d ∈ ds, ∃ x : Tine α, d = x.ser) ∧ (∀ x ∈ t, x ∈ a ∨ Tine.ser x ∈ ds) ∧ (∀ x ∈ a, x ∈ t) ∧
      ∀ x : Tine α, x.ser ∈ ds → ∃ y ∈ t, y = x ∨ x.cmp? y = some .eq := by
    intro ds
    induction ds with
    | nil => intro a h; cases h; simp
    | cons d ds ih =>
      intro a h
      rw [TineTree.deAux] at h
      cases hx : Tine.de (α := α) d with
      | none => rw [hx] at h; cases h
      | some x =>
        rw [hx] at h
        replace h : (do TineTree.deAux ds (← BSet.insert? x a)) = Except.ok (some t) := h
        cases hi : BSet.insert? x a with
        | error e => rw [hi] at h; cases h
        | ok s =>
          rw [hi] at h
          obtain ⟨h1, h2, h3, h4⟩ := ih s h
          obtain ⟨k1, k2, y, k3, k4⟩ := BSet.insert?_elems hi
          have e := Tine.ser_de hx
          refine ⟨fun d' hd => ?_, fun z hz => ?_, fun z hz => h3 z (k2 z hz), fun z hz => ?_⟩
          · rcases List.mem_cons.1 hd with rfl | hd
            · exact ⟨x, e.symm⟩
            · exact h1 d' hd
          · rcases h2 z hz with hz | hz
            · rcases k1 z hz with rfl | hz
              · exact .inr (e ▸ .head _)
              · exact .inl hz
            · exact .inr (.tail _ hz)
          · rcases List.mem_cons.1 hz with hz | hz
            · have : z = x := by
                have := Tine.de_ser z
                rw [hz, hx] at this
                exact (Option.some.inj this).symm
              exact ⟨y, h3 y k3, this ▸ k4⟩
            · exact h4 z hz
  obtain ⟨h1, h2, -, h3⟩ := key ds [] h
  exact ⟨h1, fun x hx => (h2 x hx).resolve_left (by simp), h3⟩

example : TineTree.de (α := U8) [.newtypeVariant "Lower" (.newtypeVariant "Include" (.int 3)),
    .newtypeVariant "Upper" (.newtypeVariant "Include" (.int 3))] = .ok (some [.lower (.incl (u8 3))]) ∧
    TineTree.de (α := U8) [.int 3] = .ok none := by decide

/-! ## C85: reading data that was not written by the crate -/

/-- Reading an interval gives a value that the API can make exactly if the data is the empty interval, a
point, or a closed interval whose ends are in order or, inverted, neighbours. -/
theorem C85_interval_iff [Finite α] [LawfulFinite α] (d : Data) :
    (∃ i : Interval α, Interval.de d = some i ∧ i.Obtainable) ↔
      d = .unitVariant "Empty" ∨ (∃ p : α, d = .newtypeVariant "Point" (ser p)) ∨
        ∃ l u : α, d = .tupleVariant "Closed" (ser l) (ser u) ∧ (l ≤ u ∨ succ u = some l) := by
  constructor
  · rintro ⟨i, h, ho⟩
    rw [((C84_values .inf .empty i d).2.2).1 h]
    rcases Interval.obtainable_cases ho with rfl | ⟨p, rfl⟩ | ⟨l, u, rfl, hlu⟩
    · exact .inl rfl
    · exact .inr (.inl ⟨p, rfl⟩)
    · exact .inr (.inr ⟨l, u, rfl, hlu⟩)
  · have key : ∀ r : RawInterval α, d = r.ser → (⟨r⟩ : Interval α).Obtainable →
        ∃ i : Interval α, Interval.de d = some i ∧ i.Obtainable :=
      fun r hr ho => ⟨⟨r⟩, ((C84_values .inf .empty ⟨r⟩ d).2.2).2 hr, ho⟩
    rintro (rfl | ⟨p, rfl⟩ | ⟨l, u, rfl, hlu⟩)
    · exact key .empty rfl ((C23_exact _).2 (.inl rfl))
    · exact key (.point p) rfl ((C23_exact _).2 (.inr (.inl ⟨p, rfl⟩)))
    · exact key (.closed l u) rfl ((C23_exact _).2 (.inr (.inr ⟨l, u, rfl, hlu⟩)))

example : Interval.de (α := U8) (.tupleVariant "Closed" (.int 3) (.int 7)) =
    some (Interval.mkClosed (u8 3) (u8 7)) := by decide

omit [Serde α] [LawfulSerde α] in
theorem BSet.insert?_ok {x : Tine α} {t : List (Tine α)} (hx : x.Ok) (ht : ∀ y ∈ t, y.Ok) :
    ∃ t', BSet.insert? x t = .ok t' ∧ ∀ y ∈ t', y.Ok := by
  induction t with
  | nil => exact ⟨[x], rfl, by simpa using hx⟩
  | cons y t ih =>
    have hy := ht y (.head _)
    obtain ⟨t', h1, h2⟩ := ih fun z hz => ht z (.tail _ hz)
    rw [BSet.insert?, Tine.cmp?_eq hx hy]
    split_ifs
    · exact ⟨_, rfl, fun z hz => (List.mem_cons.1 hz).elim (fun h => h ▸ hx) (ht z)⟩
    · exact ⟨_, rfl, ht⟩
    · refine ⟨y :: t', by rw [h1]; rfl, fun z hz => (List.mem_cons.1 hz).elim (fun h => h ▸ hy) (h2 z)⟩

/-- Reading a tree or a selection does not panic if the data has no "point at infinity". -/
theorem C85_no_panic_partial (ds : List Data)
    (h : Data.newtypeVariant "Point" (.unitVariant "Infinite") ∉ ds) :
    (∃ r, TineTree.de (α := α) ds = .ok r) ∧ ∃ r, Selection.de (α := α) ds = .ok r := by
  have key : ∀ (ds : List Data) (t : List (Tine α)), (∀ y ∈ t, y.Ok) →
      Data.newtypeVariant "Point" (.unitVariant "Infinite") ∉ ds → ∃ r, TineTree.deAux ds t = .ok r := by
    intro ds
    induction ds with
    | nil => exact fun t _ _ => ⟨_, rfl⟩
    | cons d ds ih =>
      intro t ht hd
      rw [TineTree.deAux]
      cases hx : Tine.de (α := α) d with
      | none => exact ⟨_, rfl⟩
      | some x =>
        have hk : x.Ok := by
          rintro rfl
          exact hd (by rw [← Tine.ser_de hx]; exact .head _)
        obtain ⟨t', h1, h2⟩ := BSet.insert?_ok hk ht
        show ∃ r, (do TineTree.deAux ds (← BSet.insert? x t)) = .ok r
        rw [h1]
        exact ih t' h2 fun hm => hd (.tail _ hm)
  obtain ⟨r, hr⟩ := key ds [] (by simp) h
  exact ⟨⟨r, hr⟩, r.map Selection.mk, by rw [Selection.de, TineTree.de, hr]; rfl⟩

example : Data.newtypeVariant "Point" (.unitVariant "Infinite") ∉ [.newtypeVariant "Upper" (.unitVariant "Infinite"), .int 3] ∧
    Selection.de (α := U8) [.newtypeVariant "Upper" (.unitVariant "Infinite")] = .ok (some ⟨[.upper .inf]⟩) := by decide

omit [Serde α] [LawfulSerde α] in
theorem BSet.insert?_sorted {x : Tine α} {t : List (Tine α)} (hx : x.Ok) (ht : Sorted t) :
    ∃ t', BSet.insert? x t = .ok t' ∧ Sorted t' ∧ ∀ y ∈ t', y = x ∨ y ∈ t := by
  induction t with
  | nil => exact ⟨[x], rfl, ⟨by simpa using hx, by simp⟩, by simp⟩
  | cons y t ih =>
    have hy := ht.1 y (.head _)
    have hp := List.pairwise_cons.1 ht.2
    obtain ⟨t', h1, h2, h3⟩ := ih ⟨fun z hz => ht.1 z (.tail _ hz), hp.2⟩
    rw [BSet.insert?, Tine.cmp?_eq hx hy]
    split_ifs with c1 c2
    · refine ⟨_, rfl, ⟨fun z hz => (List.mem_cons.1 hz).elim (fun h => h ▸ hx) (ht.1 z),
        List.pairwise_cons.2 ⟨fun z hz => ?_, ht.2⟩⟩, fun z hz => List.mem_cons.1 hz⟩
      rcases List.mem_cons.1 hz with rfl | hz
      · exact c1
      · exact c1.trans (hp.1 z hz)
    · exact ⟨_, rfl, ht, fun z hz => .inr hz⟩
    · have c3 : y.key < x.key := by
        rcases lt_trichotomy x.key y.key with h | h | h
        · exact absurd h c1
        · exact absurd h c2
        · exact h
      refine ⟨y :: t', by rw [h1]; rfl,
        ⟨fun z hz => (List.mem_cons.1 hz).elim (fun h => h ▸ hy) (h2.1 z),
          List.pairwise_cons.2 ⟨fun z hz => ?_, h2.2⟩⟩, fun z hz => ?_⟩
      · rcases h3 z hz with rfl | hz
        · exact c3
        · exact hp.1 z hz
      · rcases List.mem_cons.1 hz with rfl | hz
        · exact .inr (.head _)
        · exact (h3 z hz).imp_right (.tail _)

omit [LinearOrder α] [Serde α] [LawfulSerde α] in
theorem TineTree.alternates_iff (b : Bool) (t : List (Tine α)) :
    TineTree.alternates b t = true ↔ (∀ y ∈ t, y.Ok) ∧ Chain b t false := by
  induction t generalizing b with
  | nil => simp [alternates, Chain]
  | cons y t ih =>
    rcases y with y | (y | y | _) | y <;> cases b <;>
      simp [alternates, Chain, ih, Tine.isUpperBound, Tine.isLowerBound, Tine.Ok]

omit [Serde α] [LawfulSerde α] in
theorem BSet.insert?_mem {x : Tine α} {t t' : List (Tine α)} (h : BSet.insert? x t = .ok t') :
    (∀ y ∈ t, y ∈ t') ∧ (¬ x.Ok → x ∈ t') := by
  induction t generalizing t' with
  | nil => cases h; simp
  | cons y t ih =>
    rw [BSet.insert?] at h
    split at h
    · cases h
      exact ⟨fun z hz => .tail _ hz, fun _ => .head _⟩
    · next hc =>
      cases h
      refine ⟨fun z hz => hz, fun hx => ?_⟩
      have hx : x = .point .inf := not_not.1 hx
      subst hx
      rcases y with (b | b | _) | (b | b | _) | (b | b | _) <;>
        simp [Tine.cmp?, Tine.asRef, Tine.intoInner, Bound.asRef] at hc
    · cases hi : BSet.insert? x t with
      | error e => rw [hi] at h; cases h
      | ok s =>
        rw [hi] at h
        cases h
        obtain ⟨h1, h2⟩ := ih hi
        refine ⟨fun z hz => ?_, fun hx => .tail _ (h2 hx)⟩
        rcases List.mem_cons.1 hz with rfl | hz
        · exact .head _
        · exact .tail _ (h1 z hz)
    · cases h

omit [LawfulSerde α] in
theorem TineTree.deAux_sorted {ds : List Data} {a t : List (Tine α)}
    (h : TineTree.deAux ds a = .ok (some t)) : (∀ y ∈ a, y ∈ t) ∧ ((∀ y ∈ t, y.Ok) → Sorted a → Sorted t) := by
  induction ds generalizing a with
  | nil => cases h; exact ⟨fun _ h => h, fun _ h => h⟩
  | cons d ds ih =>
    rw [deAux] at h
    cases hx : Tine.de (α := α) d with
    | none => rw [hx] at h; cases h
    | some x =>
      rw [hx] at h
      replace h : (do deAux ds (← BSet.insert? x a)) = Except.ok (some t) := h
      cases hi : BSet.insert? x a with
      | error e => rw [hi] at h; cases h
      | ok s =>
        rw [hi] at h
        obtain ⟨h1, h2⟩ := ih h
        obtain ⟨h3, h4⟩ := BSet.insert?_mem hi
        refine ⟨fun y hy => h1 y (h3 y hy), fun hk ha => h2 hk ?_⟩
        by_cases hx : x.Ok
        · obtain ⟨s', h5, h6, -⟩ := BSet.insert?_sorted hx ha
          rw [hi] at h5
          cases h5
          exact h6
        · exact absurd (hk x (h1 x (h4 hx))) hx

omit [LawfulSerde α] in
/-- Reading a tree gives a value that the API can make exactly if its tines open and close intervals in
turn.  (They are in order and without repetition whatever the data.) -/
theorem C85_tree_iff (ds : List Data) (t : TineTree α) (h : TineTree.de ds = .ok (some t)) :
    t.Reachable ↔ TineTree.alternates false t = true := by
  rw [TineTree.alternates_iff]
  refine ⟨fun ht => ⟨(reachable_valid ht).1.1, (reachable_valid ht).2⟩, fun ⟨hk, hc⟩ => valid_reachable
    ⟨(TineTree.deAux_sorted h).2 hk ⟨by simp, by simp⟩, hc⟩⟩

example : TineTree.de (α := U8) [.newtypeVariant "Upper" (.newtypeVariant "Include" (.int 7)),
    .newtypeVariant "Lower" (.newtypeVariant "Include" (.int 3)),
    .newtypeVariant "Lower" (.newtypeVariant "Include" (.int 3))] =
      .ok (some [.lower (.incl (u8 3)), .upper (.incl (u8 7))]) := by decide

example : Data.newtypeVariant "Point" (.unitVariant "Infinite") ∉
    [Data.newtypeVariant "Upper" (.newtypeVariant "Include" (.int 3)), .int 4] := by decide

end

/-- The data of an `Open` interval is read as an interval that is not normalized: it is not equal to the
open interval made by the API although it contains the same points, and iterating over it panics.  The
data of a closed interval is read as a selection that is not equal to the one made by the API although it
contains the same points.  A lone upper bound is read as a selection on which `contains` panics.  Two
points at infinity make reading itself panic. -/
theorem C85_counterexample :
    (∃ i : Interval U8, Interval.de (.tupleVariant "Open" (.int 3) (.int 7)) = some i ∧ ¬ i.Obtainable ∧
      i ≠ Interval.mkOpen (u8 3) (u8 7) ∧ (∀ x, i.contains x = (Interval.mkOpen (u8 3) (u8 7)).contains x) ∧
      i.next = .error .unreachable) ∧
    (∃ s : Selection U8, Selection.de [.newtypeVariant "Lower" (.newtypeVariant "Include" (.int 3)),
        .newtypeVariant "Upper" (.newtypeVariant "Include" (.int 7))] = .ok (some s) ∧
      s ≠ Selection.demo [(u8 3, u8 7)] ∧
      ∀ dbg, s.intervals dbg = (Selection.demo [(u8 3, u8 7)]).intervals dbg) ∧
    (∃ s : Selection U8, Selection.de [.newtypeVariant "Upper" (.newtypeVariant "Include" (.int 3))] = .ok (some s) ∧
      ∀ dbg, ∃ e, s.contains dbg (u8 0) = .error e) ∧
    Selection.de (α := U8) [.newtypeVariant "Point" (.unitVariant "Infinite"),
      .newtypeVariant "Point" (.unitVariant "Infinite")] = .error .unreachable := by
  refine ⟨⟨⟨.opn (u8 3) (u8 7)⟩, by decide, ?_, by decide, ?_, by decide⟩,
    ⟨⟨[.lower (.incl (u8 3)), .upper (.incl (u8 7))]⟩, by decide, by decide, by decide⟩,
    ⟨⟨[.upper (.incl (u8 3))]⟩, by decide, fun dbg => ?_⟩, by decide⟩
  · intro h
    rcases Interval.obtainable_cases h with h | ⟨p, h⟩ | ⟨l, u, h, -⟩ <;> cases h
  · intro x
    rw [Bool.eq_iff_iff, (C21_bounded (u8 3) (u8 7) x).2.2.1]
    simp [Interval.contains, RawInterval.contains]
  · cases dbg
    · exact ⟨.expect, by decide⟩
    · exact ⟨.debugAssert, by decide⟩

end NI
