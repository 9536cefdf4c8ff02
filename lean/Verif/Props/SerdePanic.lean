import Verif.Props.Serde

/-!
# C85: exactly which data makes reading a tree or selection panic
-/

namespace NI

variable {α : Type} [LinearOrder α]

/-- Neither `Lower(Infinite)` nor `Upper(Infinite)`. -/
def Tine.inner : Tine α → Bool
  | .lower .inf => false
  | .upper .inf => false
  | _ => true

namespace BSet

/-- What a set of tines read so far looks like: the two infinite ends, if they were read, are outside; between them are the
others, `ms`. -/
def Frame (a b : Bool) (ms : List (Tine α)) : List (Tine α) :=
  (if a then [.lower .inf] else []) ++ (ms ++ if b then [.upper .inf] else [])

theorem insert?_lower (a b : Bool) (ms : List (Tine α)) (hm : ∀ m ∈ ms, m.inner = true) :
    insert? (.lower .inf) (Frame a b ms) = .ok (Frame true b ms) := by
  cases a
  · cases ms with
    | nil => cases b <;> rfl
    | cons m ms =>
      have := hm m (.head _)
      rcases m with (m | m | _) | (m | m | _) | (m | m | _) <;> first | rfl | cases this
  · rfl

theorem insert?_upper (a b : Bool) (ms : List (Tine α)) (hm : ∀ m ∈ ms, m.inner = true) :
    insert? (.upper .inf) (Frame a b ms) = .ok (Frame a true ms) := by
  have key : insert? (.upper .inf) (ms ++ if b then [.upper .inf] else []) = .ok (ms ++ [.upper .inf]) := by
    induction ms with
    | nil => cases b <;> rfl
    | cons m ms ih =>
      have h1 := hm m (.head _)
      have h2 := ih fun x hx => hm x (.tail _ hx)
      have h3 : Tine.cmp? (.upper .inf) m = some .gt := by
        rcases m with (m | m | _) | (m | m | _) | (m | m | _) <;> first | rfl | cases h1
      rw [List.cons_append, insert?, h3]
      show (do Except.ok (m :: (← insert? (.upper .inf) _))) = _
      rw [h2]
      rfl
  cases a
  · simpa [Frame] using key
  · show (do Except.ok (Tine.lower .inf :: (← insert? (.upper .inf) (ms ++ if b then [Tine.upper .inf] else [])))) = _
    rw [key]
    rfl

/-- An inner tine against the ends. -/
theorem insert?_inner {x : Tine α} (hx : x.inner = true) (a b : Bool) (ms : List (Tine α)) :
    insert? x (Frame a b ms) = (insert? x (ms ++ if b then [.upper .inf] else [])).map
      ((if a then [.lower .inf] else []) ++ ·) := by
  cases a
  · cases h : insert? x (ms ++ if b then [.upper .inf] else []) with
    | error e => simpa [Frame, Except.map] using h
    | ok r => simpa [Frame, Except.map] using h
  · have h3 : Tine.cmp? x (.lower .inf) = some .gt := by
      rcases x with (m | m | _) | (m | m | _) | (m | m | _) <;> first | rfl | cases hx
    show insert? x (.lower .inf :: (ms ++ if b then [.upper .inf] else [])) = _
    rw [insert?, h3]
    show (do Except.ok (Tine.lower .inf :: (← insert? x _))) = _
    cases insert? x (ms ++ if b then [.upper .inf] else []) <;> rfl

theorem insert?_none {x : Tine α} (hx : x.inner = true) (a b : Bool) :
    insert? x (Frame a b []) = .ok (Frame a b [x]) := by
  rw [insert?_inner hx]
  rcases x with (m | m | _) | (m | m | _) | (m | m | _) <;> cases a <;> cases b <;> first | rfl | cases hx

theorem insert?_some {x m : Tine α} (hx : x.inner = true) (hm : m.inner = true)
    (h : x = .point .inf ∨ m = .point .inf) (a b : Bool) (ms : List (Tine α)) :
    insert? x (Frame a b (m :: ms)) = .error .unreachable := by
  rw [insert?_inner hx]
  have h3 : Tine.cmp? x m = none := by
    rcases h with rfl | rfl
    · rcases m with (m | m | _) | (m | m | _) | (m | m | _) <;> first | rfl | cases hm
    · rcases x with (x | x | _) | (x | x | _) | (x | x | _) <;> first | rfl | cases hx
  rw [List.cons_append, insert?, h3]
  rfl

theorem insert?_finite {x : Tine α} (hx : x.inner = true) (hx' : x ≠ .point .inf) (a b : Bool) (ms : List (Tine α))
    (hm : ∀ m ∈ ms, m.inner = true ∧ m ≠ .point .inf) :
    ∃ m ms', insert? x (Frame a b ms) = .ok (Frame a b (m :: ms')) ∧
      ∀ z ∈ m :: ms', z.inner = true ∧ z ≠ .point .inf := by
  have key : ∃ m ms', insert? x (ms ++ if b then [.upper .inf] else []) = .ok (m :: ms' ++ if b then [.upper .inf] else []) ∧
      ∀ z ∈ m :: ms', z.inner = true ∧ z ≠ .point .inf := by
    induction ms with
    | nil =>
      refine ⟨x, [], ?_, by simp [hx, hx']⟩
      have h := insert?_none hx false b
      simpa [Frame] using h
    | cons m ms ih =>
      have h1 := hm m (.head _)
      obtain ⟨m', ms', h2, h3⟩ := ih fun z hz => hm z (.tail _ hz)
      have h4 : ∃ o, Tine.cmp? x m = some o := by
        obtain ⟨hm1, hm2⟩ := h1
        rcases x with (x | x | _) | (x | x | _) | (x | x | _) <;> try cases hx
        all_goals first | exact absurd rfl hx' | skip
        all_goals
          rcases m with (m | m | _) | (m | m | _) | (m | m | _) <;> try cases hm1
          all_goals first | exact absurd rfl hm2 | exact ⟨_, rfl⟩
      obtain ⟨o, ho⟩ := h4
      rw [List.cons_append, insert?, ho]
      cases o
      · exact ⟨x, m :: ms, rfl, fun z hz => (List.mem_cons.1 hz).elim (fun h => h ▸ ⟨hx, hx'⟩) (hm z)⟩
      · exact ⟨m, ms, rfl, hm⟩
      · refine ⟨m, m' :: ms', ?_, fun z hz => (List.mem_cons.1 hz).elim (fun h => h ▸ h1) (h3 z)⟩
        show (do Except.ok (m :: (← insert? x _))) = _
        rw [h2]
        rfl
  obtain ⟨m, ms', h1, h2⟩ := key
  refine ⟨m, ms', ?_, h2⟩
  rw [insert?_inner hx, h1]
  rfl

end BSet

/-- A point at infinity, and another tine that is not one of the two infinite ends. -/
def Tine.Clash (ts : List (Tine α)) : Prop := .point .inf ∈ ts ∧ 2 ≤ ts.countP Tine.inner

variable [Serde α] [LawfulSerde α]

omit [LinearOrder α] in
theorem Tine.de_some {d : Data} {x : Tine α} (h : Tine.de d = some x) : d = x.ser := (Tine.ser_de h).symm

/-- What is known about the set `Frame a b ms` after reading `rs`. -/
structure BSet.After (rs ms : List (Tine α)) : Prop where
  inner : ∀ m ∈ ms, m.inner = true
  none : ms = [] → rs.countP Tine.inner = 0
  some : ms ≠ [] → 1 ≤ rs.countP Tine.inner
  point : .point .inf ∈ rs → ∃ ms', ms = .point .inf :: ms'
  noPoint : .point .inf ∉ rs → .point .inf ∉ ms

theorem TineTree.deAux_panic (ds : List Data) (rs : List (Tine α)) (a b : Bool) (ms : List (Tine α))
    (hf : BSet.After rs ms) (hn : ¬ Tine.Clash rs) :
    ((∃ ts rest, ds = ts.map Tine.ser ++ rest ∧ Tine.Clash (rs ++ ts)) →
      TineTree.deAux ds (BSet.Frame a b ms) = .error .unreachable) ∧
    ((¬ ∃ ts rest, ds = ts.map Tine.ser ++ rest ∧ Tine.Clash (rs ++ ts)) →
      ∃ r, TineTree.deAux ds (BSet.Frame a b ms) = .ok r) := by
  induction ds generalizing rs a b ms with
  | nil =>
    refine ⟨?_, fun _ => ⟨_, rfl⟩⟩
    rintro ⟨ts, rest, h, hc⟩
    obtain ⟨h, -⟩ := List.append_eq_nil_iff.1 h.symm
    rw [List.map_eq_nil_iff.1 h, List.append_nil] at hc
    exact absurd hc hn
  | cons d ds ih =>
    rw [TineTree.deAux]
    cases hx : Tine.de (α := α) d with
    | none =>
      refine ⟨?_, fun _ => ⟨_, rfl⟩⟩
      rintro ⟨ts, rest, h, hc⟩
      cases ts with
      | nil => rw [List.append_nil] at hc; exact absurd hc hn
      | cons t ts =>
        obtain ⟨h, -⟩ := List.cons.inj h
        rw [h, Tine.de_ser] at hx
        cases hx
    | some x =>
      have hd := Tine.de_some hx
      have hiff : (∃ ts rest, d :: ds = ts.map Tine.ser ++ rest ∧ Tine.Clash (rs ++ ts)) ↔
          ∃ ts rest, ds = ts.map Tine.ser ++ rest ∧ Tine.Clash ((rs ++ [x]) ++ ts) := by
        constructor
        · rintro ⟨ts, rest, h, hc⟩
          cases ts with
          | nil => rw [List.append_nil] at hc; exact absurd hc hn
          | cons t ts =>
            obtain ⟨h, h'⟩ := List.cons.inj h
            rw [h, Tine.de_ser] at hx
            cases hx
            exact ⟨ts, rest, h', by simpa using hc⟩
        · rintro ⟨ts, rest, h, hc⟩
          exact ⟨x :: ts, rest, by rw [h, hd]; rfl, by simpa using hc⟩
      rw [hiff]
      show (_ → (do TineTree.deAux ds (← BSet.insert? x (BSet.Frame a b ms))) = _) ∧
        (_ → ∃ r, (do TineTree.deAux ds (← BSet.insert? x (BSet.Frame a b ms))) = Except.ok r)
      -- the tree goes on
      have go : ∀ a' b' ms', BSet.insert? x (BSet.Frame a b ms) = .ok (BSet.Frame a' b' ms') →
          BSet.After (rs ++ [x]) ms' → ¬ Tine.Clash (rs ++ [x]) → ((∃ ts rest, ds = ts.map Tine.ser ++ rest ∧
            Tine.Clash ((rs ++ [x]) ++ ts)) →
          (do TineTree.deAux ds (← BSet.insert? x (BSet.Frame a b ms))) = .error .unreachable) ∧
        ((¬ ∃ ts rest, ds = ts.map Tine.ser ++ rest ∧ Tine.Clash ((rs ++ [x]) ++ ts)) →
          ∃ r, (do TineTree.deAux ds (← BSet.insert? x (BSet.Frame a b ms))) = Except.ok r) := by
        intro a' b' ms' h1 h2 h3
        rw [h1]
        exact ih _ a' b' ms' h2 h3
      have stop : BSet.insert? x (BSet.Frame a b ms) = .error .unreachable → Tine.Clash (rs ++ [x]) →
          ((∃ ts rest, ds = ts.map Tine.ser ++ rest ∧
            Tine.Clash ((rs ++ [x]) ++ ts)) →
          (do TineTree.deAux ds (← BSet.insert? x (BSet.Frame a b ms))) = .error .unreachable) ∧
        ((¬ ∃ ts rest, ds = ts.map Tine.ser ++ rest ∧ Tine.Clash ((rs ++ [x]) ++ ts)) →
          ∃ r, (do TineTree.deAux ds (← BSet.insert? x (BSet.Frame a b ms))) = Except.ok r) := by
        intro h1 h2
        rw [h1]
        exact ⟨fun _ => rfl, fun h => absurd ⟨[], ds, rfl, by simpa using h2⟩ h⟩
      have outer : x.inner = false → BSet.After (rs ++ [x]) ms ∧ ¬ Tine.Clash (rs ++ [x]) := by
        intro hi
        have hp : (Tine.point .inf : Tine α) ∈ rs ++ [x] ↔ Tine.point .inf ∈ rs := by
          rw [List.mem_append, List.mem_singleton, or_iff_left]
          rintro rfl
          cases hi
        have hc : (rs ++ [x]).countP Tine.inner = rs.countP Tine.inner := by simp [hi]
        exact ⟨⟨hf.inner, hc ▸ hf.none, hc ▸ hf.some, fun h => hf.point (hp.1 h), fun h => hf.noPoint fun k => h (hp.2 k)⟩,
          fun h => hn ⟨hp.1 h.1, hc ▸ h.2⟩⟩
      cases hi : x.inner with
      | false =>
        obtain ⟨h1, h2⟩ := outer hi
        rcases x with (m | m | _) | (m | m | _) | (m | m | _) <;> try cases hi
        · exact go true b ms (BSet.insert?_lower a b ms hf.inner) h1 h2
        · exact go a true ms (BSet.insert?_upper a b ms hf.inner) h1 h2
      | true =>
        have hc : (rs ++ [x]).countP Tine.inner = rs.countP Tine.inner + 1 := by simp [hi]
        cases ms with
        | nil =>
          have h0 := hf.none rfl
          have hp : Tine.point .inf ∉ rs := fun h => by obtain ⟨_, h⟩ := hf.point h; cases h
          refine go a b [x] (BSet.insert?_none hi a b) ⟨by simp [hi], by simp, fun _ => by omega, fun h => ?_, fun h => ?_⟩ ?_
          · rcases List.mem_append.1 h with h | h
            · exact absurd h hp
            · exact ⟨[], by rw [List.mem_singleton.1 h]⟩
          · exact fun k => h (List.mem_append.2 (.inr k))
          · rintro ⟨-, h⟩
            omega
        | cons m ms =>
          have h0 := hf.some (by simp)
          have hm := hf.inner m (.head _)
          by_cases hp : Tine.point .inf ∈ rs ++ [x]
          · refine stop (BSet.insert?_some hi hm ?_ a b ms) ⟨hp, by omega⟩
            rcases List.mem_append.1 hp with h | h
            · obtain ⟨_, h⟩ := hf.point h
              exact .inr (List.cons.inj h).1
            · exact .inl (List.mem_singleton.1 h).symm
          · rw [List.mem_append, List.mem_singleton, not_or] at hp
            have hq := hf.noPoint hp.1
            obtain ⟨m', ms', h1, h2⟩ := BSet.insert?_finite hi (Ne.symm hp.2) a b (m :: ms) fun z hz =>
              ⟨hf.inner z hz, fun k => hq (k ▸ hz)⟩
            refine go a b _ h1 ⟨fun z hz => (h2 z hz).1, by simp, fun _ => by omega, fun h => ?_, fun _ k => (h2 _ k).2 rfl⟩ ?_
            · rcases List.mem_append.1 h with h | h
              · exact absurd h hp.1
              · exact absurd (List.mem_singleton.1 h) hp.2
            · rintro ⟨h, -⟩
              rcases List.mem_append.1 h with h | h
              · exact absurd h hp.1
              · exact absurd (List.mem_singleton.1 h) hp.2

/-- Reading a tree or a selection panics exactly if what comes before the first thing that cannot be read has a point at
infinity and another tine that is not an infinite end; it always is the same panic. -/
theorem C85_panic_iff (ds : List Data) :
    ((∃ e, TineTree.de (α := α) ds = .error e) ↔ ∃ (ts : List (Tine α)) (rest : List Data), ds = ts.map Tine.ser ++ rest ∧
      .point .inf ∈ ts ∧ 2 ≤ ts.countP Tine.inner) ∧
    ((∃ e, Selection.de (α := α) ds = .error e) ↔ ∃ (ts : List (Tine α)) (rest : List Data), ds = ts.map Tine.ser ++ rest ∧
      .point .inf ∈ ts ∧ 2 ≤ ts.countP Tine.inner) ∧
    (∀ e, TineTree.de (α := α) ds = .error e → e = .unreachable) ∧
    ∀ e, Selection.de (α := α) ds = .error e → e = .unreachable := by
  have h := TineTree.deAux_panic (α := α) ds [] false false [] ⟨by simp, by simp, by simp, by simp, by simp⟩
    (by simp [Tine.Clash])
  simp only [List.nil_append] at h
  have hF : (BSet.Frame false false [] : List (Tine α)) = [] := rfl
  rw [hF] at h
  by_cases hc : ∃ (ts : List (Tine α)) (rest : List Data), ds = ts.map Tine.ser ++ rest ∧ Tine.Clash ts
  · have h1 : TineTree.de (α := α) ds = .error .unreachable := h.1 hc
    have h2 : Selection.de (α := α) ds = .error .unreachable := by rw [Selection.de, h1]; rfl
    rw [h1, h2]
    refine ⟨⟨fun _ => hc, fun _ => ⟨_, rfl⟩⟩, ⟨fun _ => hc, fun _ => ⟨_, rfl⟩⟩, ?_, ?_⟩ <;>
    · rintro e ⟨⟩
      rfl
  · obtain ⟨r, h1⟩ := h.2 hc
    replace h1 : TineTree.de (α := α) ds = .ok r := h1
    have h2 : ∃ r, Selection.de (α := α) ds = .ok r := by rw [Selection.de, h1]; exact ⟨_, rfl⟩
    obtain ⟨r', h2⟩ := h2
    rw [h1, h2]
    refine ⟨⟨?_, fun k => absurd k hc⟩, ⟨?_, fun k => absurd k hc⟩, ?_, ?_⟩
    · rintro ⟨e, ⟨⟩⟩
    · rintro ⟨e, ⟨⟩⟩
    · rintro e ⟨⟩
    · rintro e ⟨⟩

example : Selection.de (α := U8) [.newtypeVariant "Lower" (.unitVariant "Infinite"),
      .newtypeVariant "Point" (.unitVariant "Infinite"), .newtypeVariant "Upper" (.unitVariant "Infinite")] =
        .ok (some ⟨[.lower .inf, .point .inf, .upper .inf]⟩) ∧
    Selection.de (α := U8) [.newtypeVariant "Point" (.unitVariant "Infinite"), .int 3,
      .newtypeVariant "Lower" (.newtypeVariant "Include" (.int 3))] = .ok none ∧
    Selection.de (α := U8) [.newtypeVariant "Upper" (.newtypeVariant "Include" (.int 3)),
      .newtypeVariant "Point" (.unitVariant "Infinite"), .int 3] = .error .unreachable := by decide

end NI
